import Verif.Proof.Topic
/-! Which filters cover which: instances of a filter. -/
namespace Mqtt.Topic
open Spec.Topic

/-- the topic levels obtained from filter levels by putting `x` for '+' and `k` times `x` for '#' -/
def inst (x : Level) (k : Nat) : List Level → List Level
  | [] => []
  | l :: ls => if l = ['#'] then List.replicate k x else (if l = ['+'] then x else l) :: inst x k ls

theorem matchesLoop_cons (f t : Level) (fs ts : List Level) : matchesLoop (f :: fs) (t :: ts) =
    if f = ['#'] then true else if t = ['#'] then false else if f = ['+'] then matchesLoop fs ts
    else if f ≠ t then false else matchesLoop fs ts := rfl

theorem matchesLoop_nil_right (f : Level) (fs : List Level) : matchesLoop (f :: fs) [] = decide (f = ['#']) := by
  show (if f = ['#'] then true else false) = _
  by_cases h : f = ['#'] <;> simp [h]

theorem matchesLoop_inst (x : Level) (hx : x ≠ ['#']) (k : Nat) (ls : List Level)  :
    matchesLoop ls (inst x k ls) = true := by
  induction ls with
  | nil => rfl
  | cons l ls ih =>
    rw [inst]
    by_cases h : l = ['#']
    · rw [if_pos h, h]; unfold matchesLoop; simp
    · rw [if_neg h, matchesLoop_cons, if_neg h]
      by_cases h' : l = ['+']
      · rw [if_pos h', if_neg hx, if_pos h', ih]
      · rw [if_neg h', if_neg h, if_neg h', if_neg (by simp), ih]

/-- a filter that matches all instances of a filter "matches" that filter -/
theorem matchesLoop_of_inst (x : Level) (ls fs : List Level) (hx : x ∉ fs) (hx' : x ≠ ['#'])
    (h : ∀ k, matchesLoop fs (inst x k ls) = true)
    (hv : ∀ a b, ls = a ++ ['#'] :: b → b = []) :
    matchesLoop fs ls = true := by
  induction ls generalizing fs with
  | nil => exact h 0
  | cons l ls ih =>
    by_cases e : l = ['#']
    · cases fs with
      | nil => have := h 1; simp [inst, e, matchesLoop] at this
      | cons f fs =>
        have := h 0
        rw [inst, if_pos e, List.replicate_zero, matchesLoop_nil_right, decide_eq_true_eq] at this
        rw [matchesLoop_cons, if_pos this]
    · cases fs with
      | nil => have := h 1; simp [inst, e, matchesLoop] at this
      | cons f fs =>
        rw [matchesLoop_cons]
        by_cases hf : f = ['#']
        · rw [if_pos hf]
        · rw [if_neg hf, if_neg e]
          simp only [List.mem_cons, not_or] at hx
          have step : ∀ k, (if f = ['+'] then matchesLoop fs (inst x k ls)
              else if f ≠ (if l = ['+'] then x else l) then false else matchesLoop fs (inst x k ls)) = true := by
            intro k; have := h k
            have hy : (if l = ['+'] then x else l) ≠ ['#'] := by split <;> assumption
            rwa [inst, if_neg e, matchesLoop_cons, if_neg hf, if_neg hy] at this
          have next : (∀ k, matchesLoop fs (inst x k ls) = true) → matchesLoop fs ls = true := fun hk =>
            ih fs hx.2 hk (fun a b hab => hv (l :: a) b (by simp [hab]))
          by_cases hfp : f = ['+']
          · rw [if_pos hfp]
            exact next fun k => by have := step k; rwa [if_pos hfp] at this
          · rw [if_neg hfp]
            have hfe : f = (if l = ['+'] then x else l) := by
              have := step 0
              rw [if_neg hfp] at this
              exact Classical.byContradiction fun hne => by rw [if_pos hne] at this; cases this
            have hlp : l ≠ ['+'] := by
              intro hlp
              rw [if_pos hlp] at hfe
              exact hx.1 hfe.symm
            rw [if_neg hlp] at hfe
            rw [if_neg (by simp [hfe])]
            exact next fun k => by
              have := step k
              rwa [if_neg hfp, if_neg (by simp [hfe, hlp])] at this

/-- a level different from all the given ones -/
theorem exists_fresh (fs : List Level) : ∃ n, 0 < n ∧ List.replicate n 'x' ∉ fs := by
  refine ⟨(fs.map List.length).sum + 1, by omega, fun h => ?_⟩
  have : ∀ (fs : List Level) (l : Level), l ∈ fs → l.length ≤ (fs.map List.length).sum := by
    intro fs l hl
    induction fs with
    | nil => simp at hl
    | cons a fs ih =>
      simp only [List.mem_cons] at hl
      simp only [List.map_cons, List.sum_cons]
      rcases hl with rfl | hl
      · omega
      · have := ih hl; omega
  have := this fs _ h
  rw [List.length_replicate] at this
  omega

theorem mem_inst (x : Level) (k : Nat) (ls : List Level) (m : Level) (h : m ∈ inst x k ls) :
    m = x ∨ (m ∈ ls ∧ m ≠ ['#'] ∧ m ≠ ['+']) := by
  induction ls with
  | nil => simp [inst] at h
  | cons l ls ih =>
    rw [inst] at h
    by_cases e : l = ['#']
    · rw [if_pos e] at h; exact .inl (List.eq_of_mem_replicate h)
    · rw [if_neg e] at h
      simp only [List.mem_cons] at h
      rcases h with rfl | h
      · by_cases e2 : l = ['+']
        · simp [e2]
        · rw [if_neg e2]; exact .inr ⟨by simp, e, e2⟩
      · rcases ih h with h | h
        · exact .inl h
        · exact .inr ⟨by simp [h.1], h.2⟩

/-- an instance of a filter as a string -/
theorem inst_topic (ls : List Level) (hne : ls ≠ []) (hsl : ∀ l ∈ ls, '/' ∉ l) :
    split (List.intercalate ['/'] ls) = ls := by
  have h : Levels (String.ofList (List.intercalate ['/'] ls)) ls := ⟨hne, hsl, by simp⟩
  have := (levels_iff _ _).1 h
  rw [String.toList_ofList] at this
  exact this.symm

/-- the answer of `matches` when there is no special first character -/
theorem matches_run (t f : String) (h : ∀ c cs, t.toList = c :: cs → c.utf8Size = 1 ∧ c ≠ '$') :
    «matches» t f = .ok (matchesLoop (split f.toList) (split t.toList)) := by
  rcases matches_cases t f with ⟨_, cs, hc⟩ | ⟨_, c, cs, hc, h1⟩ | ⟨h', _⟩
  · exact absurd rfl (h _ _ hc).2
  · exact absurd (h _ _ hc).1 h1
  · exact h'

/-- the first character of a joined list of levels -/
theorem head_join (l : Level) (ls : List Level) (c : Char) (cs : List Char)
    (h : List.intercalate ['/'] (l :: ls) = c :: cs) : c = '/' ∨ ∃ l', l = c :: l' := by
  cases ls with
  | nil => simp [List.intercalate] at h; exact .inr ⟨cs, h⟩
  | cons m ms =>
    rw [intercalate_cons] at h
    cases l with
    | nil => simp at h; exact .inl h.1.symm
    | cons d l' => simp at h; exact .inr ⟨l', by rw [h.1]⟩

end Mqtt.Topic
