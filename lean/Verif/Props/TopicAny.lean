import Verif.Props.Topic
/-! C89: `matches` on arbitrary strings, exactly; and what generalising a filter does. -/
namespace Props
open Mqtt.Topic Spec.Topic
open Mqtt (Res)

theorem matchesLoop_any (f t : List Level) : matchesLoop f t = true ↔ MatchAny f t := by
  induction f generalizing t with
  | nil =>
    cases t with
    | nil => exact ⟨fun _ => .done, fun _ => rfl⟩
    | cons l t => exact ⟨fun h => by simp [matchesLoop] at h, fun h => by cases h⟩
  | cons g f ih =>
    rw [matchesLoop.eq_def]
    by_cases hg : g = ['#']
    · subst hg; exact ⟨fun _ => .hash _ _, fun _ => by simp⟩
    · simp only [hg, if_false]
      cases t with
      | nil => exact ⟨fun h => by simp at h, fun h => by cases h; exact absurd rfl hg⟩
      | cons l t =>
        simp only
        by_cases hl : l = ['#']
        · subst hl
          simp only [if_true]
          exact ⟨fun h => by simp at h, fun h => by cases h <;> first | exact absurd rfl hg | exact absurd rfl ‹_›⟩
        · simp only [hl, if_false]
          by_cases hp : g = ['+']
          · subst hp
            simp only [if_true, ih]
            exact ⟨.plus l hl, fun h => by cases h <;> assumption⟩
          · simp only [hp, if_false]
            by_cases he : g = l
            · subst he
              simp only [ne_eq, not_true_eq_false, if_false, ih]
              exact ⟨.same g hl, fun h => by cases h <;> first | exact absurd rfl hp | exact absurd rfl hg | assumption⟩
            · simp only [ne_eq, he, not_false_eq_true, if_true]
              exact ⟨fun h => by simp at h,
                fun h => by cases h <;> first | exact absurd rfl hp | exact absurd rfl hg | exact absurd rfl he⟩

/-- C89: for arbitrary strings: `matches(t, f)` is `true` iff `t` starts neither with '$' nor with a non-ASCII
character and the levels match.  (With C47, which says when it panics, this is the whole function.) -/
theorem C89_matches_exact (t f : String) (tl fl : List Level) (ht : Levels t tl) (hf : Levels f fl) :
    «matches» t f = .ok true ↔
      (∀ c cs, t.toList = c :: cs → c ≠ '$' ∧ c.toNat < 128) ∧ MatchAny fl tl := by
  have e1 := (levels_iff t tl).1 ht
  have e2 := (levels_iff f fl).1 hf
  subst e1 e2
  rw [← matchesLoop_any]
  rcases matches_cases t f with ⟨h, cs, hc⟩ | ⟨h, c, cs, hc, h1⟩ | ⟨h, hd⟩
  · rw [h]
    exact ⟨fun h => by simp at h, fun ⟨h, _⟩ => absurd rfl (h _ _ hc).1⟩
  · rw [h]
    refine ⟨fun h => by simp at h, fun ⟨h, _⟩ => ?_⟩
    have h2 := (utf8Size_ne_one c).1 h1
    have h3 := (h _ _ hc).2
    omega
  · rw [h]
    constructor
    · intro h'
      refine ⟨fun c cs hc => ⟨?_, ?_⟩, by simpa using h'⟩
      · rintro rfl; exact hd ⟨cs, hc⟩
      · by_cases hlt : c.toNat < 128
        · exact hlt
        · have := (C47_matches_panic_iff t f).1.2 ⟨c, cs, hc, by omega⟩
          rw [h] at this; simp at this
    · rintro ⟨_, h'⟩; rw [h']

theorem any_plus {a b : List Level} {l : Level} {ts : List Level} (hl : l ≠ ['#']) (h : MatchAny (a ++ l :: b) ts) :
    MatchAny (a ++ ['+'] :: b) ts := by
  induction a generalizing ts with
  | nil =>
    cases h with
    | hash => exact absurd rfl hl
    | plus _ hl' h => exact .plus _ hl' h
    | same _ hl' h => exact .plus _ hl' h
  | cons x a ih =>
    cases h with
    | hash => exact .hash _ _
    | plus l hl h => exact .plus l hl (ih h)
    | same l hl h => exact .same _ hl (ih h)

theorem any_hash {a b : List Level} {ts : List Level} (h : MatchAny (a ++ b) ts) : MatchAny (a ++ [['#']]) ts := by
  induction a generalizing ts with
  | nil => exact .hash _ _
  | cons x a ih =>
    cases h with
    | hash => exact .hash _ _
    | plus l hl h => exact .plus l hl (ih h)
    | same l hl h => exact .same _ hl (ih h)

/-- C89: replacing a level of a filter by '+' (unless it is '#') loses no message: whatever matched still does. -/
theorem C89_widen_plus (t f g : String) (a b : List Level) (l : Level) (hf : Levels f (a ++ l :: b))
    (hg : Levels g (a ++ ['+'] :: b)) (hl : l ≠ ['#']) (h : «matches» t f = .ok true) : «matches» t g = .ok true := by
  have h1 := (C89_matches_exact t f _ _ (split_levels t) hf).1 h
  exact (C89_matches_exact t g _ _ (split_levels t) hg).2 ⟨h1.1, any_plus hl h1.2⟩

/-- C89: replacing any number of last levels of a filter by '#' loses no message. -/
theorem C89_widen_hash (t f g : String) (a b : List Level) (hf : Levels f (a ++ b))
    (hg : Levels g (a ++ [['#']])) (h : «matches» t f = .ok true) : «matches» t g = .ok true := by
  have h1 := (C89_matches_exact t f _ _ (split_levels t) hf).1 h
  exact (C89_matches_exact t g _ _ (split_levels t) hg).2 ⟨h1.1, any_hash h1.2⟩

/-- C89: a level in front of topic and filter changes nothing (unless it is a wildcard or starts with '$' or a
non-ASCII character; the remaining topic must not start so either). -/
theorem C89_common_level (t f : String) (l : Level) (hl : l ≠ [] ∧ '/' ∉ l) (hw : l ≠ ['+'] ∧ l ≠ ['#'])
    (hc : ∀ c cs, l = c :: cs → c ≠ '$' ∧ c.toNat < 128) (ht : ∀ c cs, t.toList = c :: cs → c ≠ '$' ∧ c.toNat < 128) :
    «matches» (String.ofList (l ++ '/' :: t.toList)) (String.ofList (l ++ '/' :: f.toList)) = .ok true
      ↔ «matches» t f = .ok true := by
  have lev : ∀ s : String, Levels (String.ofList (l ++ '/' :: s.toList)) (l :: split s.toList) := fun s =>
    (levels_iff _ _).2 (by rw [String.toList_ofList, split_noslash_append _ _ hl.2])
  rw [C89_matches_exact _ _ _ _ (lev t) (lev f), C89_matches_exact t f _ _ (split_levels t) (split_levels f)]
  constructor
  · rintro ⟨_, h⟩
    refine ⟨ht, ?_⟩
    cases h with
    | hash => exact absurd rfl hw.2
    | plus => exact absurd rfl hw.1
    | same _ _ h => exact h
  · rintro ⟨_, h⟩
    refine ⟨fun c cs he => ?_, .same l hw.2 h⟩
    rw [String.toList_ofList] at he
    cases l with
    | nil => exact absurd rfl hl.1
    | cons c' l => injection he with h1 _; exact h1 ▸ hc c' l rfl

/-- an invalid filter: what follows '#' is ignored; a topic with '#' -/
example : «matches» "a/b" "a/#/x" = .ok true ∧ «matches» "a/#" "a/+" = .ok false ∧ «matches» "a/#" "a/#" = .ok true
    ∧ «matches» "" "" = .ok true ∧ «matches» "" "+" = .ok true ∧ «matches» "a" "a/" = .ok false := by decide +kernel
example : «matches» "x/y/z" "x/+/#" = .ok true :=
  C89_widen_hash "x/y/z" "x/+/z" "x/+/#" [['x'], ['+']] [['z']] ((levels_iff _ _).2 (by decide +kernel))
    ((levels_iff _ _).2 (by decide +kernel)) (by decide +kernel)
example : «matches» "x/y/z" "x/+/z" = .ok true :=
  C89_widen_plus "x/y/z" "x/y/z" "x/+/z" [['x']] [['z']] ['y'] ((levels_iff _ _).2 (by decide +kernel))
    ((levels_iff _ _).2 (by decide +kernel)) (by decide) (by decide +kernel)

end Props
