import Verif.Props.TopicAny
import Verif.Props.TopicCover
/-! C95: a filter is determined by the topics it matches. -/
namespace Props
open Mqtt.Topic Spec.Topic
open Mqtt (Res)

theorem any_antisymm {f t : List Level} (h : MatchAny f t) (h' : MatchAny t f)
    (hf : ∀ a b, f = a ++ ['#'] :: b → b = []) (ht : ∀ a b, t = a ++ ['#'] :: b → b = []) : f = t := by
  induction h with
  | done => rfl
  | hash f t =>
    cases h' with
    | hash t' =>
      rw [hf [] f rfl, ht [] t' rfl]
    | plus _ hl => exact absurd rfl hl
    | same _ hl => exact absurd rfl hl
  | @plus l f t hl _ ih =>
    have hf' : ∀ a b, f = a ++ ['#'] :: b → b = [] := fun a b e => hf (['+'] :: a) b (by rw [e]; rfl)
    have ht' : ∀ a b, t = a ++ ['#'] :: b → b = [] := fun a b e => ht (l :: a) b (by rw [e]; rfl)
    cases h' with
    | hash => exact absurd rfl hl
    | plus _ _ h' => rw [ih h' hf' ht']
    | same _ _ h' => rw [ih h' hf' ht']
  | @same l f t hl _ ih =>
    have hf' : ∀ a b, f = a ++ ['#'] :: b → b = [] := fun a b e => hf (l :: a) b (by rw [e]; rfl)
    have ht' : ∀ a b, t = a ++ ['#'] :: b → b = [] := fun a b e => ht (l :: a) b (by rw [e]; rfl)
    cases h' with
    | hash => exact absurd rfl hl
    | plus _ _ h' => rw [ih h' hf' ht']
    | same _ _ h' => rw [ih h' hf' ht']

/-- C95: two valid filters that match each other are the same. -/
theorem C95_antisymmetric (f1 f2 : String) (h1 : HashOnlyLast f1) (h2 : HashOnlyLast f2)
    (h12 : «matches» f1 f2 = .ok true) (h21 : «matches» f2 f1 = .ok true) : f1 = f2 := by
  have l1 := split_levels f1
  have l2 := split_levels f2
  have e := any_antisymm ((C89_matches_exact f2 f1 _ _ l2 l1).1 h21).2 ((C89_matches_exact f1 f2 _ _ l1 l2).1 h12).2
    (fun a b e => (h1.2 _ l1 a _ b e (by simp)).2) (fun a b e => (h2.2 _ l2 a _ b e (by simp)).2)
  have e1 := l1.2.2
  rw [e, ← l2.2.2] at e1
  exact String.toList_inj.1 e1

/-- C95: two filters (valid, '+' only as a whole level, not starting with '$' or a non-ASCII character) match the same
topics exactly if they are the same, or one is "#" and the other "+/#". -/
theorem C95_same_topics_iff (f1 f2 : String) (h1 : HashOnlyLast f1) (h2 : HashOnlyLast f2)
    (p1 : ∀ ls, Levels f1 ls → ∀ l ∈ ls, '+' ∈ l → l = ['+'])
    (p2 : ∀ ls, Levels f2 ls → ∀ l ∈ ls, '+' ∈ l → l = ['+'])
    (s1 : ∀ c cs, f1.toList = c :: cs → c.toNat < 128 ∧ c ≠ '$')
    (s2 : ∀ c cs, f2.toList = c :: cs → c.toNat < 128 ∧ c ≠ '$') :
    (∀ t, ('+' ∉ t.toList ∧ '#' ∉ t.toList) → («matches» t f1 = .ok true ↔ «matches» t f2 = .ok true))
      ↔ f1 = f2 ∨ (f1 = "#" ∧ f2 = "+/#") ∨ (f1 = "+/#" ∧ f2 = "#") := by
  constructor
  · intro h
    have a := (C69_matches_decides_cover f1 f2 h1 h2 p1 s1).1 fun t ht hm => (h t ht).1 hm
    have b := (C69_matches_decides_cover f2 f1 h2 h1 p2 s2).1 fun t ht hm => (h t ht).2 hm
    rcases a with a | a
    · rcases b with b | b
      · exact .inl (C95_antisymmetric f1 f2 h1 h2 a b)
      · exact .inr (.inr ⟨b.2, b.1⟩)
    · exact .inr (.inl a)
  · have key : «matches» "+/#" "#" = .ok true := by decide +kernel
    rintro (rfl | ⟨rfl, rfl⟩ | ⟨rfl, rfl⟩)
    · exact fun _ _ => Iff.rfl
    · exact fun t ht => ⟨C69_exception.2.2.2 t ht, fun h => C48_matches_trans t _ _ key h⟩
    · exact fun t ht => ⟨fun h => C48_matches_trans t _ _ key h, C69_exception.2.2.2 t ht⟩

/-- "a/+" and "a/#" are told apart by some topic -/
example : ∃ t : String, ('+' ∉ t.toList ∧ '#' ∉ t.toList) ∧
    ¬ («matches» t "a/+" = .ok true ↔ «matches» t "a/#" = .ok true) :=
  ⟨"a", by decide +kernel, by decide +kernel⟩

/-- and the theorem applies to them -/
example : ¬ ∀ t, ('+' ∉ t.toList ∧ '#' ∉ t.toList) → («matches» t "a/+" = .ok true ↔ «matches» t "a/#" = .ok true) := by
  rw [C95_same_topics_iff "a/+" "a/#" ((valid_filter_iff _).1 (by decide +kernel)) ((valid_filter_iff _).1 (by decide +kernel))]
  · decide +kernel
  · intro ls h l hl hm
    rw [(levels_iff _ _).1 h, show split "a/+".toList = [['a'], ['+']] by decide +kernel] at hl
    simp at hl; rcases hl with rfl | rfl <;> simp at hm ⊢
  · intro ls h l hl hm
    rw [(levels_iff _ _).1 h, show split "a/#".toList = [['a'], ['#']] by decide +kernel] at hl
    simp at hl; rcases hl with rfl | rfl <;> simp at hm
  · intro c cs h; rw [show "a/+".toList = ['a', '/', '+'] by decide +kernel] at h; cases h; decide
  · intro c cs h; rw [show "a/#".toList = ['a', '/', '#'] by decide +kernel] at h; cases h; decide

/-- '+' within a level is let through by `valid_filter` and makes a filter that matches nothing: so do two such
filters, though different -/
example : valid_filter "a+" = true ∧ valid_filter "b+" = true ∧
    ∀ t, ('+' ∉ t.toList ∧ '#' ∉ t.toList) → («matches» t "a+" = .ok true ↔ «matches» t "b+" = .ok true) := by
  refine ⟨by decide +kernel, by decide +kernel, fun t ht => ?_⟩
  have no : ∀ f : String, ∀ x : Char, split f.toList = [[x, '+']] → «matches» t f ≠ .ok true := by
    intro f x hf h
    have h' := ((C89_matches_exact t f _ _ (split_levels t) (split_levels f)).1 h).2
    rw [hf] at h'
    generalize hs : split t.toList = tl at h'
    cases h' with
    | same _ _ h' =>
      cases h'
      have := (split_levels t).2.2
      rw [hs] at this
      exact ht.1 (by rw [this]; simp [List.intercalate])
  exact ⟨fun h => absurd h (no "a+" 'a' (by decide +kernel)), fun h => absurd h (no "b+" 'b' (by decide +kernel))⟩
end Props
