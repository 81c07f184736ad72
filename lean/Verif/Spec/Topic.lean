import Verif.Model.Base
/-! Topic names and filters, from MQTT 3.1.1 / 5.0 section 4.7. -/
namespace Spec.Topic

/-- a topic level: a string of characters without '/' -/
abbrev Level := List Char

/-- `ls` are the levels of `s`: at least one, none contains the separator, and `s` is the levels
joined with the separator -/
def Levels (s : String) (ls : List Level) : Prop :=
  ls ≠ [] ∧ (∀ l ∈ ls, '/' ∉ l) ∧ s.toList = List.intercalate ['/'] ls

/-- 4.7.1: the filter levels match the topic levels: '+' matches exactly one level, '#' (last level of
the filter) matches any number of levels including none, any other level matches itself -/
inductive Match : (filter topic : List Level) → Prop where
  | done : Match [] []
  | hash (t : List Level) : Match [['#']] t
  | plus (l : Level) {f t : List Level} (h : Match f t) : Match (['+'] :: f) (l :: t)
  | same (l : Level) {f t : List Level} (h : Match f t) : Match (l :: f) (l :: t)

/-- 4.7.1-2: '#' appears only as the whole last level (and the filter is not empty, 4.7.3-1) -/
def HashOnlyLast (f : String) : Prop :=
  f ≠ "" ∧ ∀ ls, Levels f ls → ∀ a l b, ls = a ++ l :: b → '#' ∈ l → l = ['#'] ∧ b = []

/-- the matching of arbitrary strings, not only of valid filters and topic names: everything after a
level '#' of the filter is ignored, a level '#' of the "topic" is matched by '#' only -/
inductive MatchAny : (filter topic : List Level) → Prop where
  | done : MatchAny [] []
  | hash (f t : List Level) : MatchAny (['#'] :: f) t
  | plus (l : Level) {f t : List Level} (hl : l ≠ ['#']) (h : MatchAny f t) : MatchAny (['+'] :: f) (l :: t)
  | same (l : Level) {f t : List Level} (hl : l ≠ ['#']) (h : MatchAny f t) : MatchAny (l :: f) (l :: t)

end Spec.Topic
