import Verif.Model.Topic
import Verif.Spec.Topic
namespace Mqtt.Topic
open Spec.Topic

theorem split_ne_nil (cs : List Char) : split cs ≠ [] := by
  cases cs with
  | nil => simp [split]
  | cons c cs =>
    rw [split]
    split
    · simp
    · split <;> simp

theorem split_no_slash (cs : List Char) : ∀ l ∈ split cs, '/' ∉ l := by
  induction cs with
  | nil => simp [split]
  | cons c cs ih =>
    rw [split]
    split
    · intro l hl
      rcases List.mem_cons.1 hl with rfl | hl
      · simp
      · exact ih l hl
    · rename_i hc
      cases h : split cs with
      | nil => exact absurd h (split_ne_nil cs)
      | cons p ps =>
        rw [h] at ih
        intro l hl
        rcases List.mem_cons.1 hl with rfl | hl
        · have := ih p (by simp)
          simp [this]; exact fun h => hc h.symm
        · exact ih l (by simp [hl])

theorem intercalate_cons (a b : Level) (l : List Level) :
    List.intercalate ['/'] (a :: b :: l) = a ++ '/' :: List.intercalate ['/'] (b :: l) := by
  simp [List.intercalate, List.intersperse]

theorem split_join (cs : List Char) : cs = List.intercalate ['/'] (split cs) := by
  induction cs with
  | nil => simp [split, List.intercalate]
  | cons c cs ih =>
    rw [split]
    split
    · rename_i hc
      cases h : split cs with
      | nil => exact absurd h (split_ne_nil cs)
      | cons p ps => rw [intercalate_cons, ← h, ← ih, hc]; rfl
    · cases h : split cs with
      | nil => exact absurd h (split_ne_nil cs)
      | cons p ps =>
        rw [h] at ih
        cases ps with
        | nil => simp only [List.intercalate, List.intersperse] at *; simp_all
        | cons q ps => simp only [intercalate_cons] at *; simp_all

theorem split_levels (s : String) : Levels s (split s.toList) :=
  ⟨split_ne_nil _, split_no_slash _, split_join _⟩

theorem split_noslash_append (a rest : List Char) (h : '/' ∉ a) :
    split (a ++ '/' :: rest) = a :: split rest := by
  induction a with
  | nil => simp [split]
  | cons c a ih =>
    simp only [List.mem_cons, not_or] at h
    rw [List.cons_append, split, if_neg (fun e => h.1 e.symm), ih h.2]

theorem split_noslash (a : List Char) (h : '/' ∉ a) : split a = [a] := by
  induction a with
  | nil => simp [split]
  | cons c a ih =>
    simp only [List.mem_cons, not_or] at h
    rw [split, if_neg (fun e => h.1 e.symm), ih h.2]

/-- the levels are unique -/
theorem levels_iff (s : String) (ls : List Level) : Levels s ls ↔ ls = split s.toList := by
  constructor
  · rintro ⟨hne, hsl, hs⟩
    rw [hs]
    clear hs
    induction ls with
    | nil => exact absurd rfl hne
    | cons a ls ih =>
      cases ls with
      | nil => simp [List.intercalate, List.intersperse, split_noslash a (hsl a (by simp))]
      | cons b ls =>
        rw [intercalate_cons, split_noslash_append _ _ (hsl a (by simp)),
          ← ih (by simp) (fun l hl => hsl l (by simp [hl]))]
  · rintro rfl; exact split_levels s

theorem mem_split (cs : List Char) (c : Char) (hc : c ≠ '/') :
    (∃ l ∈ split cs, c ∈ l) ↔ c ∈ cs := by
  induction cs with
  | nil => simp [split]
  | cons d cs ih =>
    rw [split]
    split
    · rename_i hd
      simp only [List.mem_cons, exists_eq_or_imp, List.not_mem_nil, false_or, ih]
      constructor
      · exact .inr
      · rintro (rfl | h)
        · exact absurd hd hc
        · exact h
    · cases h : split cs with
      | nil => exact absurd h (split_ne_nil cs)
      | cons p ps =>
        rw [h] at ih
        simp only [List.mem_cons, exists_eq_or_imp] at ih ⊢
        rw [← ih]
        constructor
        · rintro ((rfl | h) | h)
          · exact .inl rfl
          · exact .inr (.inl h)
          · exact .inr (.inr h)
        · rintro (rfl | h | h)
          · exact .inl (.inl rfl)
          · exact .inl (.inr h)
          · exact .inr h

/-- the matching loop implements the matching relation, for filters with '#' only at the end and
topics without '#' levels -/
theorem matchesLoop_iff (f t : List Level)
    (hf : ∀ a b, f = a ++ ['#'] :: b → b = []) (ht : ['#'] ∉ t) :
    matchesLoop f t = true ↔ Match f t := by
  induction f generalizing t with
  | nil =>
    cases t with
    | nil => simp [matchesLoop]; exact .done
    | cons x t =>
      simp only [matchesLoop, List.head?_cons, Option.isSome_some, if_true, Bool.false_eq_true,
        false_iff]
      intro h; cases h
  | cons x f ih =>
    rw [matchesLoop.eq_def]
    simp only
    by_cases hx : x = ['#']
    · have : f = [] := hf [] f (by simp [hx])
      subst this; subst hx
      simp; exact .hash t
    · rw [if_neg hx]
      have hf' : ∀ a b, f = a ++ ['#'] :: b → b = [] := fun a b h => hf (x :: a) b (by simp [h])
      cases t with
      | nil =>
        simp only [Bool.false_eq_true, false_iff]
        intro h
        cases h
        exact hx rfl
      | cons y t =>
        have hy : y ≠ ['#'] := fun h => ht (by simp [h])
        have ht' : ['#'] ∉ t := fun h => ht (by simp [h])
        simp only [if_neg hy]
        by_cases hp : x = ['+']
        · rw [if_pos hp, ih t hf' ht']
          subst hp
          constructor
          · exact .plus y
          · intro h; cases h with
            | plus _ h => exact h
            | same _ h => exact h
        · rw [if_neg hp]
          by_cases hxy : x = y
          · subst hxy
            simp only [ne_eq, not_true, if_false]
            rw [ih t hf' ht']
            constructor
            · exact .same x
            · intro h; cases h with
              | plus _ h => exact h
              | same _ h => exact h
              | hash _ => exact absurd rfl hx
          · rw [if_pos hxy]
            simp only [Bool.false_eq_true, false_iff]
            intro h; cases h with
            | plus _ h => exact hp rfl
            | same _ h => exact hxy rfl
            | hash _ => exact hx rfl

theorem utf8Size_pos (c : Char) : 1 ≤ c.utf8Size := Char.utf8Size_pos c

theorem byteLen_ge (p : List Char) : p.length ≤ byteLen p := by
  unfold byteLen
  induction p with
  | nil => simp
  | cons c p ih => simp; have := utf8Size_pos c; omega

theorem last_hash (p : List Char) :
    ((byteLen p ≠ 1 && p.contains '#') = false) ↔ ('#' ∈ p → p = ['#']) := by
  simp only [Bool.and_eq_false_iff, decide_eq_false_iff_not, Classical.not_not]
  constructor
  · rintro (h | h) hm
    · have := byteLen_ge p
      match p with
      | [] => simp at hm
      | [c] => simp at hm; simp [← hm]
      | c :: d :: q => simp at this; omega
    · simp at h; exact absurd hm h
  · intro h
    by_cases hm : '#' ∈ p
    · left; rw [h hm]; decide
    · right; simpa using hm

theorem valid_filter_iff (f : String) : valid_filter f = true ↔ HashOnlyLast f := by
  unfold valid_filter HashOnlyLast
  have hemp : f.toList.isEmpty = true ↔ f = "" := by
    rw [List.isEmpty_iff, String.toList_eq_nil_iff]
  by_cases he : f = ""
  · have := hemp.2 he
    rw [if_pos this]
    simp [he]
  · rw [if_neg (fun h => he (hemp.1 h))]
    simp only
    cases hl : (split f.toList).getLast? with
    | none => simp at hl; exact absurd hl (split_ne_nil _)
    | some last =>
      obtain ⟨rest, hsp⟩ := List.getLast?_eq_some_iff.1 hl
      simp only [hsp, List.dropLast_concat]
      have key : (∀ ls, Levels f ls → ∀ a l b, ls = a ++ l :: b → '#' ∈ l → l = ['#'] ∧ b = []) ↔
          ((∀ l ∈ rest, '#' ∉ l) ∧ ('#' ∈ last → last = ['#'])) := by
        simp only [levels_iff, forall_eq, hsp]
        constructor
        · intro h
          refine ⟨?_, fun hm => (h rest last [] rfl hm).1⟩
          intro l hl hm
          obtain ⟨a, b, rfl⟩ := List.append_of_mem hl
          have := (h a l (b ++ [last]) (by simp) hm).2
          simp at this
        · rintro ⟨h1, h2⟩ a l b he hm
          rcases List.eq_nil_or_concat b with rfl | ⟨b', x, rfl⟩
          · obtain ⟨rfl, h3⟩ := List.append_inj' he rfl
            simp at h3; subst h3
            exact ⟨h2 hm, rfl⟩
          · have : rest ++ [last] = (a ++ l :: b') ++ [x] := by simpa using he
            obtain ⟨rfl, _⟩ := List.append_inj' this rfl
            exact absurd hm (h1 l (by simp))
      rw [key]
      have hany : (rest.any fun entry => entry.contains '#') = true ↔ ¬ ∀ l ∈ rest, '#' ∉ l := by
        simp
      by_cases h1 : ∀ l ∈ rest, '#' ∉ l
      · have : ¬ (rest.any fun entry => entry.contains '#') = true := fun h => (hany.1 h) h1
        rw [if_neg this]
        by_cases h2 : '#' ∈ last → last = ['#']
        · have h3 := (last_hash last).2 h2
          rw [h3]
          simp [he]
          exact ⟨fun l hl => h1 l hl, h2⟩
        · have h3 : (byteLen last ≠ 1 && last.contains '#') = true := by
            rw [← Bool.not_eq_false]
            exact fun h => h2 ((last_hash last).1 h)
          rw [h3, if_pos rfl]
          simp only [Bool.false_eq_true, false_iff]
          rintro ⟨_, _, h⟩; exact h2 h
      · rw [if_pos (hany.2 h1)]
        simp only [Bool.false_eq_true, false_iff]
        rintro ⟨_, h, _⟩; exact h1 h

/-- outcomes of `matches` -/
theorem matches_cases (t f : String) :
    («matches» t f = .ok false ∧ ∃ cs, t.toList = '$' :: cs) ∨
    («matches» t f = .panic ∧ ∃ c cs, t.toList = c :: cs ∧ c.utf8Size ≠ 1) ∨
    («matches» t f = .ok (matchesLoop (split f.toList) (split t.toList)) ∧
      ¬ ∃ cs, t.toList = '$' :: cs) := by
  unfold «matches»
  cases h : t.toList with
  | nil => right; right; simp
  | cons c cs =>
    simp only
    by_cases hc : c.utf8Size ≠ 1
    · right; left; simp [hc]
    · rw [if_neg hc]
      by_cases hd : c = '$'
      · left; simp [hd]
      · right; right; simp [hd]

theorem matchesLoop_trans (f2 f1 t : List Level) (h1 : matchesLoop f2 f1 = true)
    (h2 : matchesLoop f1 t = true) : matchesLoop f2 t = true := by
  induction f2 generalizing f1 t with
  | nil =>
    cases f1 with
    | nil => exact h2
    | cons x f1 => simp [matchesLoop] at h1
  | cons g f2 ih =>
    rw [matchesLoop.eq_def] at h1 ⊢
    simp only at h1 ⊢
    by_cases hg : g = ['#']
    · rw [if_pos hg]
    rw [if_neg hg] at h1 ⊢
    cases f1 with
    | nil => simp at h1
    | cons x f1 =>
      simp only at h1
      by_cases hx : x = ['#']
      · rw [if_pos hx] at h1; simp at h1
      rw [if_neg hx] at h1
      rw [matchesLoop.eq_def] at h2
      simp only [if_neg hx] at h2
      cases t with
      | nil => simp at h2
      | cons y t =>
        simp only at h2 ⊢
        by_cases hy : y = ['#']
        · rw [if_pos hy] at h2; simp at h2
        rw [if_neg hy] at h2 ⊢
        by_cases hp : g = ['+']
        · rw [if_pos hp] at h1 ⊢
          refine ih f1 t h1 ?_
          split at h2
          · exact h2
          · split at h2
            · simp at h2
            · exact h2
        · rw [if_neg hp] at h1 ⊢
          by_cases hgx : g = x
          · subst hgx
            rw [if_neg hp] at h2
            simp only [ne_eq, not_true, if_false] at h1
            split at h2
            · simp at h2
            · rename_i hgy
              rw [if_neg hgy]
              exact ih f1 t h1 h2
          · rw [if_pos hgx] at h1; simp at h1

end Mqtt.Topic
