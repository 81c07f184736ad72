import Verif.Spec.Terms
import Verif.Props.TopicAny
import Verif.Proof.TopicCover
/-! C110: matching works level by level, and looks at levels only to compare them. -/
namespace Props
open Mqtt Mqtt.Topic Spec.Topic

theorem ordinary_run (t f : String) (h : Ordinary t) :
    «matches» t f = .ok (matchesLoop (split f.toList) (split t.toList)) := by
  refine matches_run t f fun c cs hc => ⟨?_, (h c cs hc).1⟩
  have := (h c cs hc).2
  exact Classical.byContradiction fun h' => by have := (utf8Size_ne_one c).1 h'; omega

theorem loop_rename (ρ : Level → Level) (fl tl : List Level)
    (hinj : ∀ a ∈ fl, ∀ b ∈ tl, ρ a = ρ b → a = b)
    (hh : ∀ l ∈ fl ++ tl, (ρ l = ['#'] ↔ l = ['#'])) (hp : ∀ l ∈ fl, (ρ l = ['+'] ↔ l = ['+'])) :
    matchesLoop (fl.map ρ) (tl.map ρ) = matchesLoop fl tl := by
  induction fl generalizing tl with
  | nil => cases tl <;> simp [matchesLoop]
  | cons f fl ih =>
    have h1 := hh f (by simp)
    have h2 := hp f (by simp)
    cases tl with
    | nil => simp only [List.map_cons, List.map_nil, matchesLoop_nil_right, h1]
    | cons t tl =>
      have h3 := hh t (by simp)
      have h4 : ρ f = ρ t ↔ f = t := ⟨hinj f (by simp) t (by simp), fun h => by rw [h]⟩
      have ih' := ih tl (fun a ha b hb => hinj a (by simp [ha]) b (by simp [hb]))
        (fun l hl => hh l (by simp at hl ⊢; rcases hl with h | h <;> simp [h])) (fun l hl => hp l (by simp [hl]))
      simp only [List.map_cons, matchesLoop, h1, h2, h3, h4, ih', ne_eq]

/-- C110: `matches` looks at levels only to compare them: rename the levels of topic and filter one to one,
leaving the wildcards alone, and the answer stays the same (both topics not starting with '$' or a non-ASCII
character). -/
theorem C110_rename (t f t' f' : String) (tl fl : List Level) (ρ : Level → Level)
    (ht : Levels t tl) (hf : Levels f fl) (ht' : Levels t' (tl.map ρ)) (hf' : Levels f' (fl.map ρ))
    (hinj : ∀ a ∈ fl, ∀ b ∈ tl, ρ a = ρ b → a = b)
    (hh : ∀ l ∈ fl ++ tl, (ρ l = ['#'] ↔ l = ['#'])) (hp : ∀ l ∈ fl, (ρ l = ['+'] ↔ l = ['+']))
    (ho : Ordinary t) (ho' : Ordinary t') : «matches» t' f' = «matches» t f := by
  rw [ordinary_run t f ho, ordinary_run t' f' ho', ← (levels_iff _ _).1 ht, ← (levels_iff _ _).1 hf,
    ← (levels_iff _ _).1 ht', ← (levels_iff _ _).1 hf', loop_rename ρ fl tl hinj hh hp]

theorem loop_append (f1 t1 f2 t2 : List Level) (hlen : f1.length = t1.length) (hh : ['#'] ∉ f1) :
    matchesLoop (f1 ++ f2) (t1 ++ t2) = (matchesLoop f1 t1 && matchesLoop f2 t2) := by
  induction f1 generalizing t1 with
  | nil =>
    cases t1 with
    | nil => simp [matchesLoop]
    | cons => simp at hlen
  | cons f f1 ih =>
    cases t1 with
    | nil => simp at hlen
    | cons t t1 =>
      have hf : f ≠ ['#'] := fun h => hh (by simp [h])
      have ih' := ih t1 (by simpa using hlen) (fun h => hh (by simp [h]))
      simp only [List.cons_append, matchesLoop, hf, if_false, ih']
      by_cases h1 : t = ['#']
      · simp [h1]
      · by_cases h2 : f = ['+']
        · simp [h1, h2]
        · by_cases h3 : f = t
          · simp [h1, h2, h3]
          · simp [h1, h2, h3]

theorem levels_slash (a b : String) :
    split (a ++ "/" ++ b).toList = split a.toList ++ split b.toList := by
  have key : ∀ cs ds : List Char, split (cs ++ '/' :: ds) = split cs ++ split ds := by
    intro cs ds
    induction cs with
    | nil => simp [split]
    | cons c cs ih =>
      simp only [List.cons_append, split]
      by_cases hc : c = '/'
      · simp [hc, ih]
      · simp only [hc, if_false, ih]
        have hn := split_ne_nil cs
        cases hs : split cs with
        | nil => exact absurd hs hn
        | cons p ps => simp
  have : (a ++ "/" ++ b).toList = a.toList ++ '/' :: b.toList := by simp [String.toList_append]
  rw [this, key]

/-- C110: a topic and a filter that are split at the same level match iff both halves do: `matches(t1/t2, f1/f2)`
is `matches(t1, f1) && matches(t2, f2)` if `f1` has as many levels as `t1` and no level '#'. -/
theorem C110_concat (t1 t2 f1 f2 : String) (tl fl : List Level) (ht : Levels t1 tl) (hf : Levels f1 fl)
    (hlen : fl.length = tl.length) (hh : ['#'] ∉ fl) (h1 : Ordinary t1) (h2 : Ordinary t2) :
    «matches» (t1 ++ "/" ++ t2) (f1 ++ "/" ++ f2) = .ok true ↔
      «matches» t1 f1 = .ok true ∧ «matches» t2 f2 = .ok true := by
  have ho : Ordinary (t1 ++ "/" ++ t2) := by
    intro c cs hc
    cases h : t1.toList with
    | nil =>
      have : c = '/' := by simp [String.toList_append, h] at hc; exact hc.1.symm
      subst this; decide
    | cons d ds =>
      have : c = d := by simp [String.toList_append, h] at hc; exact hc.1.symm
      exact this ▸ h1 d ds h
  rw [ordinary_run _ _ ho, ordinary_run _ _ h1, ordinary_run _ _ h2, levels_slash, levels_slash]
  have e1 := (levels_iff _ _).1 ht
  have e2 := (levels_iff _ _).1 hf
  subst e1 e2
  rw [loop_append _ _ _ _ hlen hh]
  simp [Bool.and_eq_true]

theorem loop_length (fl tl : List Level) (h : MatchAny fl tl) :
    (['#'] ∉ fl → tl.length = fl.length) ∧ (∀ a b, fl = a ++ ['#'] :: b → ['#'] ∉ a → a.length ≤ tl.length) := by
  have step : ∀ (l m : Level) (f t : List Level), m ≠ ['#'] →
      ((['#'] ∉ f → t.length = f.length) ∧ (∀ a b, f = a ++ ['#'] :: b → ['#'] ∉ a → a.length ≤ t.length)) →
      ((['#'] ∉ m :: f → (l :: t).length = (m :: f).length) ∧
        (∀ a b, m :: f = a ++ ['#'] :: b → ['#'] ∉ a → a.length ≤ (l :: t).length)) := by
    intro l m f t hm ih
    refine ⟨fun h => by simp [ih.1 (fun h' => h (by simp [h']))], fun a b h ha => ?_⟩
    cases a with
    | nil => simp at h; exact absurd h.1 hm
    | cons x a =>
      simp only [List.cons_append, List.cons.injEq] at h
      have := ih.2 a b h.2 (fun h' => ha (by simp [h']))
      simp; exact this
  induction h with
  | done => exact ⟨fun _ => rfl, fun a b h => by simp at h⟩
  | hash f t =>
    refine ⟨fun h => absurd (by simp) h, fun a b h ha => ?_⟩
    cases a with
    | nil => simp
    | cons x a => simp at h; exact absurd (by simp [← h.1]) ha
  | plus l hl h ih => exact step l _ _ _ (by decide) ih
  | same l hl h ih => exact step l _ _ _ hl ih

/-- C110: a filter without a level '#' matches only topics with exactly as many levels as it has, one whose first
'#' is its level number n + 1 only topics with at least n levels. -/
theorem C110_level_count (t f : String) (tl fl : List Level) (ht : Levels t tl) (hf : Levels f fl)
    (h : «matches» t f = .ok true) :
    (['#'] ∉ fl → tl.length = fl.length) ∧ (∀ a b, fl = a ++ ['#'] :: b → ['#'] ∉ a → a.length ≤ tl.length) :=
  loop_length fl tl ((C89_matches_exact t f tl fl ht hf).1 h).2

/-- `matches` on interned level names: the real names and single letters give the same answer -/
def intern : Level → Level := fun l =>
  if l = "sensors".toList then ['s'] else if l = "kitchen".toList then ['k'] else l

example : «matches» "s/k" "s/+" = «matches» "sensors/kitchen" "sensors/+" :=
  C110_rename "sensors/kitchen" "sensors/+" "s/k" "s/+" ["sensors".toList, "kitchen".toList]
    ["sensors".toList, ['+']] intern ((levels_iff _ _).2 (by decide +kernel)) ((levels_iff _ _).2 (by decide +kernel))
    ((levels_iff _ _).2 (by decide +kernel)) ((levels_iff _ _).2 (by decide +kernel)) (by decide +kernel)
    (by decide +kernel) (by decide +kernel)
    (fun c cs h => by have : c = 's' := by simp at h; exact h.1.symm
                      subst this; decide)
    (fun c cs h => by have : c = 's' := by simp at h; exact h.1.symm
                      subst this; decide)

/-- renaming that is not one to one, or that renames a wildcard, can change the answer; so can a '#' in the first
half -/
example : «matches» "a/b" "a/c" = .ok false ∧ «matches» "a/b" "a/b" = .ok true
    ∧ «matches» "a/b" "a/+" = .ok true ∧ «matches» "a/b" "a/p" = .ok false
    ∧ «matches» "a/b" "#/c" = .ok true ∧ «matches» "b" "c" = .ok false
    ∧ «matches» "a/$b" "a/+" = .ok true ∧ «matches» "$b" "+" = .ok false := by decide +kernel

example : «matches» ("a/b" ++ "/" ++ "c") ("a/+" ++ "/" ++ "#") = .ok true :=
  (C110_concat "a/b" "c" "a/+" "#" [['a'], ['b']] [['a'], ['+']] ((levels_iff _ _).2 (by decide +kernel))
    ((levels_iff _ _).2 (by decide +kernel)) rfl (by decide)
    (fun c cs h => by have : c = 'a' := by simp at h; exact h.1.symm
                      subst this; decide)
    (fun c cs h => by have : c = 'c' := by simp at h; exact h.1.symm
                      subst this; decide)).2 (by decide +kernel)

example : (2 : Nat) ≤ [['a'], ['b'], ['c']].length :=
  (C110_level_count "a/b/c" "a/+/#" [['a'], ['b'], ['c']] [['a'], ['+'], ['#']] ((levels_iff _ _).2 (by decide +kernel))
    ((levels_iff _ _).2 (by decide +kernel)) (by decide +kernel)).2 [['a'], ['+']] [] rfl (by decide)

end Props
