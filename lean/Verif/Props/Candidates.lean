import Verif.Props.Overlap
/-! C119: the filters that match a topic: finitely many, and how many. -/
namespace Props
open Mqtt Mqtt.Topic Spec.Topic

/-- the levels of the filters that match a topic with these levels -/
def candidates : List Level → List (List Level)
  | [] => [[], [['#']]]
  | l :: t => [['#']] :: (candidates t).flatMap fun f => [l :: f, ['+'] :: f]

theorem candidates_length (t : List Level) : (candidates t).length = 3 * 2 ^ t.length - 1 := by
  induction t with
  | nil => rfl
  | cons l t ih =>
    have hf : ∀ L : List (List Level), (L.flatMap fun f => [l :: f, ['+'] :: f]).length = 2 * L.length := by
      intro L
      induction L with
      | nil => rfl
      | cons a L ih => simp [ih]; omega
    rw [candidates, List.length_cons, hf, ih, List.length_cons, Nat.pow_succ]
    have : 1 ≤ 2 ^ t.length := Nat.one_le_two_pow
    omega

theorem candidates_iff (t : List Level) (ht : ∀ l ∈ t, '+' ∉ l ∧ '#' ∉ l) (f : List Level) :
    f ∈ candidates t ↔ MatchAny f t ∧ ∀ a l b, f = a ++ l :: b → '#' ∈ l → l = ['#'] ∧ b = [] := by
  have hash1 : ∀ a l b, ([['#']] : List Level) = a ++ l :: b → '#' ∈ l → l = ['#'] ∧ b = [] := by
    intro a l b e _
    cases a with
    | nil => simp only [List.nil_append, List.cons.injEq] at e; exact ⟨e.1.symm, e.2.symm⟩
    | cons x a => simp at e
  induction t generalizing f with
  | nil =>
    simp only [candidates, List.mem_cons, List.not_mem_nil, or_false]
    constructor
    · rintro (rfl | rfl)
      · exact ⟨.done, fun a l b e => by simp at e⟩
      · exact ⟨.hash _ _, hash1⟩
    · rintro ⟨h, hv⟩
      cases h with
      | done => exact .inl rfl
      | hash g => exact .inr (by rw [(hv [] ['#'] g rfl (by simp)).2])
  | cons l t ih =>
    have ih := ih (fun m hm => ht m (List.mem_cons_of_mem _ hm))
    have hl := ht l List.mem_cons_self
    have hl1 : l ≠ ['#'] := by rintro rfl; exact hl.2 (by simp)
    have up : ∀ x g, '#' ∉ x → (∀ a l b, g = a ++ l :: b → '#' ∈ l → l = ['#'] ∧ b = []) →
        ∀ a l b, x :: g = a ++ l :: b → '#' ∈ l → l = ['#'] ∧ b = [] := by
      intro x g hx hg a l b e hm
      cases a with
      | nil => simp only [List.nil_append, List.cons.injEq] at e; exact absurd (e.1 ▸ hm) hx
      | cons y a => simp only [List.cons_append, List.cons.injEq] at e; exact hg a l b e.2 hm
    have down : ∀ (x : Level) (g : List Level), (∀ a l b, x :: g = a ++ l :: b → '#' ∈ l → l = ['#'] ∧ b = []) →
        ∀ a l b, g = a ++ l :: b → '#' ∈ l → l = ['#'] ∧ b = [] := by
      intro x g h a l b e hm
      exact h (x :: a) l b (by rw [e]; rfl) hm
    simp only [candidates, List.mem_cons, List.mem_flatMap, List.not_mem_nil, or_false]
    constructor
    · rintro (rfl | ⟨g, hg, rfl | rfl⟩)
      · exact ⟨.hash _ _, hash1⟩
      · obtain ⟨h1, h2⟩ := (ih g).1 hg
        exact ⟨.same l hl1 h1, up l g hl.2 h2⟩
      · obtain ⟨h1, h2⟩ := (ih g).1 hg
        exact ⟨.plus l hl1 h1, up _ g (by decide) h2⟩
    · rintro ⟨h, hv⟩
      cases h with
      | hash g => exact .inl (by rw [(hv [] ['#'] g rfl (by simp)).2])
      | @plus _ g _ _ h => exact .inr ⟨g, (ih g).2 ⟨h, down _ _ hv⟩, .inr rfl⟩
      | @same _ g _ _ h => exact .inr ⟨g, (ih g).2 ⟨h, down _ _ hv⟩, .inl rfl⟩

theorem candidates_nodup (t : List Level) (ht : ∀ l ∈ t, '+' ∉ l ∧ '#' ∉ l) : (candidates t).Nodup := by
  induction t with
  | nil => decide
  | cons l t ih =>
    have ih := ih (fun m hm => ht m (List.mem_cons_of_mem _ hm))
    have hl := ht l List.mem_cons_self
    have hp : l ≠ ['+'] := by rintro rfl; exact hl.1 (by simp)
    have hh : l ≠ ['#'] := by rintro rfl; exact hl.2 (by simp)
    have key : ∀ L : List (List Level), L.Nodup → (L.flatMap fun f => [l :: f, ['+'] :: f]).Nodup := by
      intro L hL
      induction L with
      | nil => simp
      | cons a L ih =>
        rw [List.nodup_cons] at hL
        have h1 : ∀ x ∈ L, a ≠ x := fun x hx e => hL.1 (e ▸ hx)
        simp only [List.flatMap_cons, List.cons_append, List.nil_append, List.nodup_cons, List.mem_cons, List.mem_flatMap,
          List.not_mem_nil, or_false, List.cons.injEq, not_or, not_exists, not_and, true_and]
        refine ⟨⟨fun e => absurd e hp, fun x hx => ⟨h1 x hx, fun e => absurd e hp⟩⟩,
          fun x hx => ⟨fun e => absurd e.symm hp, h1 x hx⟩, ih hL.2⟩
    rw [candidates, List.nodup_cons]
    refine ⟨?_, key _ ih⟩
    simp only [List.mem_flatMap, List.mem_cons, List.not_mem_nil, or_false, List.cons.injEq, not_exists, not_and, not_or]
    exact fun x _ => ⟨fun e => absurd e.symm hh, fun e => absurd e.1 (by decide)⟩

/-- **C119** A topic name with `n` levels that `matches` can match at all is matched by exactly `3 * 2 ^ n - 1` different
valid filters. -/
theorem C119_count (t : String) (tl : List Level) (lt : Levels t tl) (hn : Name t)
    (hs : ∀ c cs, t.toList = c :: cs → c ≠ '$' ∧ c.toNat < 128) :
    ∃ fs : List String, fs.Nodup ∧ fs.length = 3 * 2 ^ tl.length - 1 ∧
      ∀ f, f ∈ fs ↔ valid_filter f = true ∧ «matches» t f = .ok true := by
  have ht : ∀ l ∈ tl, '+' ∉ l ∧ '#' ∉ l := fun l hl =>
    ⟨fun h => hn.2.1 ((mem_levels_iff lt '+' (by decide)).1 ⟨l, hl, h⟩),
     fun h => hn.2.2 ((mem_levels_iff lt '#' (by decide)).1 ⟨l, hl, h⟩)⟩
  have hlev : ∀ fl ∈ candidates tl, Levels (String.ofList (List.intercalate ['/'] fl)) fl := by
    intro fl hfl
    have hm := ((candidates_iff tl ht fl).1 hfl).1
    refine ⟨?_, ?_, by rw [String.toList_ofList]⟩
    · rintro rfl; cases hm; exact lt.1 rfl
    · have aux : ∀ {f t : List Level}, MatchAny f t → f ∈ candidates t → (∀ l ∈ t, '+' ∉ l ∧ '#' ∉ l) →
          (∀ l ∈ t, '/' ∉ l) → ∀ l ∈ f, '/' ∉ l := by
        intro f t hm
        induction hm with
        | done => simp
        | hash f t =>
          intro hc ht _ l hl
          have := (((candidates_iff t ht _).1 hc).2 [] ['#'] f rfl (by simp)).2
          rw [this] at hl
          simp at hl; rw [hl]; decide
        | @plus l f t hl h ih =>
          intro hc ht hno m hm
          rcases List.mem_cons.1 hm with rfl | hm
          · decide
          · refine ih ((candidates_iff t (fun k hk => ht k (List.mem_cons_of_mem _ hk)) _).2 ⟨h, fun a k b e hk => ?_⟩)
              (fun k hk => ht k (List.mem_cons_of_mem _ hk)) (fun k hk => hno k (List.mem_cons_of_mem _ hk)) m hm
            exact ((candidates_iff _ ht _).1 hc).2 (['+'] :: a) k b (by rw [e]; rfl) hk
        | @same l f t hl h ih =>
          intro hc ht hno m hm
          rcases List.mem_cons.1 hm with rfl | hm
          · exact hno _ List.mem_cons_self
          · refine ih ((candidates_iff t (fun k hk => ht k (List.mem_cons_of_mem _ hk)) _).2 ⟨h, fun a k b e hk => ?_⟩)
              (fun k hk => ht k (List.mem_cons_of_mem _ hk)) (fun k hk => hno k (List.mem_cons_of_mem _ hk)) m hm
            exact ((candidates_iff _ ht _).1 hc).2 (l :: a) k b (by rw [e]; rfl) hk
      exact aux hm hfl ht lt.2.1
  refine ⟨(candidates tl).map fun fl => String.ofList (List.intercalate ['/'] fl), ?_, ?_, ?_⟩
  · have inj : ∀ a ∈ candidates tl, ∀ b ∈ candidates tl,
        String.ofList (List.intercalate ['/'] a) = String.ofList (List.intercalate ['/'] b) → a = b := by
      intro a ha b hb e
      have h1 := (levels_iff _ _).1 (hlev a ha)
      have h2 := (levels_iff _ _).1 (hlev b hb)
      rw [h1, h2, e]
    have := candidates_nodup tl ht
    generalize candidates tl = L at inj this
    induction L with
    | nil => simp
    | cons a L ih =>
      rw [List.nodup_cons] at this
      rw [List.map_cons, List.nodup_cons]
      refine ⟨fun hm => ?_, ih (fun x hx y hy => inj x (List.mem_cons_of_mem _ hx) y (List.mem_cons_of_mem _ hy)) this.2⟩
      obtain ⟨b, hb, e⟩ := List.mem_map.1 hm
      exact this.1 (inj b (List.mem_cons_of_mem _ hb) a List.mem_cons_self e ▸ hb)
  · rw [List.length_map, candidates_length]
  · intro f
    rw [List.mem_map, valid_filter_iff]
    constructor
    · rintro ⟨fl, hfl, rfl⟩
      have lf := hlev fl hfl
      obtain ⟨h1, h2⟩ := (candidates_iff tl ht fl).1 hfl
      refine ⟨⟨?_, fun ls hls => ?_⟩, (C89_matches_exact t _ _ _ lt lf).2 ⟨hs, h1⟩⟩
      · intro e
        rw [e] at lf
        have : fl = [[]] := (levels_iff _ _).1 lf
        rw [this] at h1
        exact any_nil_level hn.1 lt h1
      · obtain rfl : ls = fl := ((levels_iff _ _).1 hls).trans ((levels_iff _ _).1 lf).symm
        exact h2
    · rintro ⟨hv, hm⟩
      have lf := split_levels f
      refine ⟨split f.toList, (candidates_iff tl ht _).2 ⟨((C89_matches_exact t f _ _ lt lf).1 hm).2, hv.2 _ lf⟩, ?_⟩
      rw [← lf.2.2, String.ofList_toList]

/-- hypotheses met: eleven filters match `a/b` -/
example : ∃ fs : List String, fs.Nodup ∧ fs.length = 11 ∧ ∀ f, f ∈ fs ↔ valid_filter f = true ∧ «matches» "a/b" f = .ok true :=
  C119_count "a/b" [['a'], ['b']] ⟨by simp, by simp, by decide +kernel⟩ (by unfold Name; decide +kernel)
    (fun c cs h => by
      rw [show "a/b".toList = ['a', '/', 'b'] by decide +kernel] at h
      simp only [List.cons.injEq] at h
      rw [← h.1]; decide)

/-- **C119** The eleven filters of `a/b`. -/
theorem C119_two_levels (f : String) : valid_filter f = true ∧ «matches» "a/b" f = .ok true ↔
    f ∈ ["a/b", "a/+", "+/b", "+/+", "a/b/#", "a/+/#", "+/b/#", "+/+/#", "a/#", "+/#", "#"] := by
  constructor
  · intro h
    obtain ⟨fs, hd, hl, hf⟩ := C119_count "a/b" [['a'], ['b']] ⟨by simp, by simp, by decide +kernel⟩
      (by unfold Name; decide +kernel) (fun c cs h => by
        rw [show "a/b".toList = ['a', '/', 'b'] by decide +kernel] at h
        simp only [List.cons.injEq] at h
        rw [← h.1]; decide)
    have hlev : split f.toList ∈ candidates [['a'], ['b']] := by
      refine (candidates_iff _ (by simp) _).2 ⟨?_, ((valid_filter_iff f).1 h.1).2 _ (split_levels f)⟩
      have lt : Levels "a/b" [['a'], ['b']] := ⟨by simp, by simp, by decide +kernel⟩
      exact ((C89_matches_exact "a/b" f _ _ lt (split_levels f)).1 h.2).2
    have e : f = String.ofList (List.intercalate ['/'] (split f.toList)) := by
      rw [← split_join, String.ofList_toList]
    rw [e]
    generalize split f.toList = L at hlev
    revert L
    decide +kernel
  · revert f
    decide +kernel

end Props
