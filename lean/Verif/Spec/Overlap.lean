import Verif.Spec.Topic
/-! The filter that two filters have in common, level by level (for C117). -/
namespace Spec.Topic

/-- `h` are the levels on which the filters with levels `f` and `g` agree: a level '#' of one leaves the rest to the
other, '+' of one takes the level of the other, and other levels must be equal -/
inductive Meet : (f g h : List Level) → Prop where
  | done : Meet [] [] []
  | hashLeft (f g : List Level) : Meet (['#'] :: f) g g
  | hashRight (f g : List Level) : Meet f (['#'] :: g) f
  | plusLeft (l : Level) {f g h : List Level} (hl : l ≠ ['#']) (r : Meet f g h) : Meet (['+'] :: f) (l :: g) (l :: h)
  | plusRight (l : Level) {f g h : List Level} (hl : l ≠ ['#']) (r : Meet f g h) : Meet (l :: f) (['+'] :: g) (l :: h)
  | same (l : Level) {f g h : List Level} (hl : l ≠ ['#']) (r : Meet f g h) : Meet (l :: f) (l :: g) (l :: h)

/-- a topic name: not empty, no wildcard characters -/
def Name (t : String) : Prop := t ≠ "" ∧ '+' ∉ t.toList ∧ '#' ∉ t.toList

end Spec.Topic
