import Verif.Props.TopicSelect
import Verif.Spec.Overlap
/-! C117: when two subscriptions overlap, and that what they have in common is again a filter. -/
namespace Props
open Mqtt Mqtt.Topic Spec.Topic

theorem any_plus_inv {f t : List Level} {l : Level} (h : MatchAny (['+'] :: f) (l :: t)) : l ≠ ['#'] ∧ MatchAny f t := by
  cases h with
  | plus _ hl h => exact ⟨hl, h⟩
  | same _ hl h => exact ⟨hl, h⟩

theorem any_cons_inv {f t : List Level} {l m : Level} (hp : l ≠ ['+']) (hh : l ≠ ['#']) (h : MatchAny (l :: f) (m :: t)) :
    m = l ∧ MatchAny f t := by
  cases h with
  | hash => exact absurd rfl hh
  | plus => exact absurd rfl hp
  | same _ _ h => exact ⟨rfl, h⟩

/-- the common part is matched by what matches both -/
theorem meet_any {f g h : List Level} (m : Meet f g h) : ∀ t, MatchAny h t ↔ MatchAny f t ∧ MatchAny g t := by
  induction m with
  | done => intro t; simp
  | hashLeft f g => intro t; exact ⟨fun h => ⟨.hash _ _, h⟩, fun h => h.2⟩
  | hashRight f g => intro t; exact ⟨fun h => ⟨h, .hash _ _⟩, fun h => h.1⟩
  | plusLeft l hl r ih =>
    intro t
    constructor
    · intro h
      cases h with
      | hash => exact absurd rfl hl
      | plus m hm h => exact ⟨.plus m hm ((ih _).1 h).1, .plus m hm ((ih _).1 h).2⟩
      | same m hm h => exact ⟨.plus _ hm ((ih _).1 h).1, .same _ hm ((ih _).1 h).2⟩
    · rintro ⟨h1, h2⟩
      cases t with
      | nil => cases h1
      | cons m t =>
        have h1' := any_plus_inv h1
        cases h2 with
        | hash => exact absurd rfl hl
        | plus _ hm h => exact .plus m hm ((ih _).2 ⟨h1'.2, h⟩)
        | same _ hm h => exact .same _ hm ((ih _).2 ⟨h1'.2, h⟩)
  | plusRight l hl r ih =>
    intro t
    constructor
    · intro h
      cases h with
      | hash => exact absurd rfl hl
      | plus m hm h => exact ⟨.plus m hm ((ih _).1 h).1, .plus m hm ((ih _).1 h).2⟩
      | same m hm h => exact ⟨.same _ hm ((ih _).1 h).1, .plus _ hm ((ih _).1 h).2⟩
    · rintro ⟨h1, h2⟩
      cases t with
      | nil => cases h2
      | cons m t =>
        have h2' := any_plus_inv h2
        cases h1 with
        | hash => exact absurd rfl hl
        | plus _ hm h => exact .plus m hm ((ih _).2 ⟨h, h2'.2⟩)
        | same _ hm h => exact .same _ hm ((ih _).2 ⟨h, h2'.2⟩)
  | same l hl r ih =>
    intro t
    constructor
    · intro h
      cases h with
      | hash => exact absurd rfl hl
      | plus m hm h => exact ⟨.plus m hm ((ih _).1 h).1, .plus m hm ((ih _).1 h).2⟩
      | same m hm h => exact ⟨.same _ hm ((ih _).1 h).1, .same _ hm ((ih _).1 h).2⟩
    · rintro ⟨h1, h2⟩
      cases h1 with
      | hash => exact absurd rfl hl
      | plus m hm h => exact .plus m hm ((ih _).2 ⟨h, (any_plus_inv h2).2⟩)
      | same _ hm h =>
        by_cases e : l = ['+']
        · subst e; exact .plus _ hm ((ih _).2 ⟨h, (any_plus_inv h2).2⟩)
        · exact .same _ hm ((ih _).2 ⟨h, (any_cons_inv e hl h2).2⟩)

/-- what is matched by both gives a common part -/
theorem meet_exists {f t : List Level} (h1 : MatchAny f t) : ∀ {g}, MatchAny g t → ∃ h, Meet f g h := by
  induction h1 with
  | done =>
    intro g h2
    cases h2 with
    | done => exact ⟨_, .done⟩
    | hash => exact ⟨_, .hashRight _ _⟩
  | hash f t => intro g _; exact ⟨_, .hashLeft _ _⟩
  | plus l hl h ih =>
    intro g h2
    cases h2 with
    | hash => exact ⟨_, .hashRight _ _⟩
    | plus _ _ h2 => obtain ⟨h, r⟩ := ih h2; exact ⟨_, .same _ (by decide) r⟩
    | same _ _ h2 => obtain ⟨h, r⟩ := ih h2; exact ⟨_, .plusLeft _ hl r⟩
  | same l hl h ih =>
    intro g h2
    cases h2 with
    | hash => exact ⟨_, .hashRight _ _⟩
    | plus _ _ h2 => obtain ⟨h, r⟩ := ih h2; exact ⟨_, .plusRight _ hl r⟩
    | same _ _ h2 => obtain ⟨h, r⟩ := ih h2; exact ⟨_, .same _ hl r⟩

theorem meet_ne_nil {f g h : List Level} (m : Meet f g h) (hf : f ≠ []) (hg : g ≠ []) : h ≠ [] := by
  cases m <;> first | assumption | simp_all

theorem meet_mem {f g h : List Level} (m : Meet f g h) : ∀ l ∈ h, l ∈ f ∨ l ∈ g := by
  induction m with
  | done => simp
  | hashLeft f g => intro l hl; exact .inr hl
  | hashRight f g => intro l hl; exact .inl hl
  | plusLeft l hl r ih =>
    intro m hm
    rcases List.mem_cons.1 hm with rfl | hm
    · simp
    · rcases ih m hm with h | h <;> simp [h]
  | plusRight l hl r ih =>
    intro m hm
    rcases List.mem_cons.1 hm with rfl | hm
    · simp
    · rcases ih m hm with h | h <;> simp [h]
  | same l hl r ih =>
    intro m hm
    rcases List.mem_cons.1 hm with rfl | hm
    · simp
    · rcases ih m hm with h | h <;> simp [h]

/-- a filter with the given common levels -/
theorem meet_levels {f g : String} {fl gl hl : List Level} (hf : Levels f fl) (hg : Levels g gl) (m : Meet fl gl hl) :
    ∃ h, Levels h hl :=
  ⟨String.ofList (List.intercalate ['/'] hl), meet_ne_nil m hf.1 hg.1,
    fun l hm => (meet_mem m l hm).elim (hf.2.1 l) (hg.2.1 l), by rw [String.toList_ofList]⟩

/-- **C117** A string with the common levels of two filters is matched by a topic exactly if both filters are.  No
hypothesis on the filters or the topic. -/
theorem C117_common (f g h : String) (fl gl hl : List Level) (hf : Levels f fl) (hg : Levels g gl) (hh : Levels h hl)
    (m : Meet fl gl hl) (t : String) :
    «matches» t h = .ok true ↔ «matches» t f = .ok true ∧ «matches» t g = .ok true := by
  have lt := split_levels t
  rw [C89_matches_exact t h _ _ lt hh, C89_matches_exact t f _ _ lt hf, C89_matches_exact t g _ _ lt hg, meet_any m]
  constructor
  · rintro ⟨h1, h2, h3⟩; exact ⟨⟨h1, h2⟩, h1, h3⟩
  · rintro ⟨⟨h1, h2⟩, _, h3⟩; exact ⟨h1, h2, h3⟩

/-- hypotheses met: `a/+/#` and `+/b` have `a/b` in common -/
example (t : String) : «matches» t "a/b" = .ok true ↔ «matches» t "a/+/#" = .ok true ∧ «matches» t "+/b" = .ok true :=
  C117_common "a/+/#" "+/b" "a/b" [['a'], ['+'], ['#']] [['+'], ['b']] [['a'], ['b']]
    ⟨by simp, by simp, by decide +kernel⟩ ⟨by simp, by simp, by decide +kernel⟩ ⟨by simp, by simp, by decide +kernel⟩
    (.plusRight _ (by simp) (.plusLeft _ (by simp) (.hashLeft _ _))) t

/-- the common part of two filters with '#' at most as the last level has it at most as its last level -/
theorem meet_valid {f g h : List Level} (m : Meet f g h)
    (hf : ∀ a l b, f = a ++ l :: b → '#' ∈ l → l = ['#'] ∧ b = [])
    (hg : ∀ a l b, g = a ++ l :: b → '#' ∈ l → l = ['#'] ∧ b = []) :
    ∀ a l b, h = a ++ l :: b → '#' ∈ l → l = ['#'] ∧ b = [] := by
  have tail : ∀ {x : Level} {y : List Level}, (∀ a l b, x :: y = a ++ l :: b → '#' ∈ l → l = ['#'] ∧ b = []) →
      ∀ a l b, y = a ++ l :: b → '#' ∈ l → l = ['#'] ∧ b = [] :=
    by
    intro x y h a l b e hl
    exact h (x :: a) l b (by rw [e]; rfl) hl
  induction m with
  | done => intro a l b e; simp at e
  | hashLeft f g => exact hg
  | hashRight f g => exact hf
  | plusLeft l hl r ih =>
    intro a k b e hk
    cases a with
    | nil =>
      simp only [List.nil_append, List.cons.injEq] at e
      obtain ⟨rfl, rfl⟩ := e
      exact absurd (hg [] l _ rfl hk).1 hl
    | cons x a =>
      simp only [List.cons_append, List.cons.injEq] at e
      exact ih (tail hf) (tail hg) a k b e.2 hk
  | plusRight l hl r ih =>
    intro a k b e hk
    cases a with
    | nil =>
      simp only [List.nil_append, List.cons.injEq] at e
      obtain ⟨rfl, rfl⟩ := e
      exact absurd (hf [] l _ rfl hk).1 hl
    | cons x a =>
      simp only [List.cons_append, List.cons.injEq] at e
      exact ih (tail hf) (tail hg) a k b e.2 hk
  | same l hl r ih =>
    intro a k b e hk
    cases a with
    | nil =>
      simp only [List.nil_append, List.cons.injEq] at e
      obtain ⟨rfl, rfl⟩ := e
      exact absurd (hf [] l _ rfl hk).1 hl
    | cons x a =>
      simp only [List.cons_append, List.cons.injEq] at e
      exact ih (tail hf) (tail hg) a k b e.2 hk

theorem meet_hashOnlyLast {f g h : String} {fl gl hl : List Level} (hf : HashOnlyLast f) (hg : HashOnlyLast g)
    (lf : Levels f fl) (lg : Levels g gl) (lh : Levels h hl) (m : Meet fl gl hl) (hne : hl ≠ [[]]) : HashOnlyLast h := by
  refine ⟨?_, fun ls hls a l b e hmem => ?_⟩
  · rintro rfl
    exact hne ((levels_iff _ _).1 lh)
  obtain rfl : ls = hl := ((levels_iff _ _).1 hls).trans ((levels_iff _ _).1 lh).symm
  exact meet_valid m (hf.2 _ lf) (hg.2 _ lg) a l b e hmem

/-- a topic that is not empty is not matched by the empty level -/
theorem any_nil_level {t : String} (h0 : t ≠ "") {tl : List Level} (lt : Levels t tl) : ¬ MatchAny [[]] tl := by
  intro h
  cases h with
  | same _ _ h =>
    cases h
    exact h0 (by rw [← String.toList_inj, lt.2.2]; rfl)

/-- **C117** The topics that two valid filters both select are the topics of one valid filter, unless there are none. -/
theorem C117_closed (f g : String) (hf : valid_filter f = true) (hg : valid_filter g = true)
    (ht : ∃ t, t ≠ "" ∧ «matches» t f = .ok true ∧ «matches» t g = .ok true) :
    ∃ h, valid_filter h = true ∧
      ∀ t, «matches» t h = .ok true ↔ «matches» t f = .ok true ∧ «matches» t g = .ok true := by
  obtain ⟨t, h0, h1, h2⟩ := ht
  have lt := split_levels t
  have lf := split_levels f
  have lg := split_levels g
  obtain ⟨hl, m⟩ := meet_exists ((C89_matches_exact t f _ _ lt lf).1 h1).2 ((C89_matches_exact t g _ _ lt lg).1 h2).2
  obtain ⟨h, lh⟩ := meet_levels lf lg m
  have hne : hl ≠ [[]] := by
    rintro rfl
    exact any_nil_level h0 lt
      ((meet_any m _).2 ⟨((C89_matches_exact t f _ _ lt lf).1 h1).2, ((C89_matches_exact t g _ _ lt lg).1 h2).2⟩)
  exact ⟨h, (valid_filter_iff h).2
    (meet_hashOnlyLast ((valid_filter_iff f).1 hf) ((valid_filter_iff g).1 hg) lf lg lh m hne),
    C117_common f g h _ _ _ lf lg lh m⟩

/-- hypotheses met -/
example : ∃ h, valid_filter h = true ∧
    ∀ t, «matches» t h = .ok true ↔ «matches» t "a/+" = .ok true ∧ «matches» t "+/b" = .ok true :=
  C117_closed "a/+" "+/b" (by decide +kernel) (by decide +kernel) ⟨"a/b", by decide, by decide +kernel, by decide +kernel⟩

/-- the restriction to topics that are not empty is needed: all that `+` and `/#` have in common is the empty string -/
example (t : String) : «matches» t "+" = .ok true ∧ «matches» t "/#" = .ok true ↔ t = "" := by
  rw [← C117_common "+" "/#" "" [['+']] [[], ['#']] [[]] ⟨by simp, by simp, by decide +kernel⟩
    ⟨by simp, by simp, by decide +kernel⟩ ⟨by simp, by simp, by decide +kernel⟩
    (.plusLeft _ (by simp) (.hashRight _ _)) t, C108_literal t "" (fun ls h => by rw [(levels_iff _ _).1 h]; decide)]
  simp

/-- the first character of the common part is the first character of one of the two -/
theorem meet_start {f g h : String} {fl gl hl : List Level} (lf : Levels f fl)
    (lg : Levels g gl) (lh : Levels h hl) (m : Meet fl gl hl)
    (hf : ∀ c cs, f.toList = c :: cs → c ≠ '$' ∧ c.toNat < 128) (hg : ∀ c cs, g.toList = c :: cs → c ≠ '$' ∧ c.toNat < 128) :
    ∀ c cs, h.toList = c :: cs → c ≠ '$' ∧ c.toNat < 128 := by
  intro c cs hc
  have from_ : ∀ {s : String} {l : Level} {sl hl' : List Level}, Levels s (l :: sl) → Levels h (l :: hl') →
      (∀ c cs, s.toList = c :: cs → c ≠ '$' ∧ c.toNat < 128) → c ≠ '$' ∧ c.toNat < 128 := by
    intro s l sl hl' hs hh hst
    cases l with
    | nil =>
      rcases (first_char hh).2 rfl with e | ⟨ds, e⟩ <;> rw [hc] at e <;> cases e
      exact ⟨by decide, by decide⟩
    | cons d ds =>
      obtain ⟨es, he⟩ := (first_char hh).1 d ds rfl
      rw [hc] at he; cases he
      obtain ⟨gs, hg⟩ := (first_char hs).1 c ds rfl
      exact hst c gs hg
  cases m with
  | done => exact absurd rfl lh.1
  | hashLeft =>
    cases gl with
    | nil => exact absurd rfl lh.1
    | cons => exact from_ lg lh hg
  | hashRight =>
    cases fl with
    | nil => exact absurd rfl lh.1
    | cons => exact from_ lf lh hf
  | plusLeft => exact from_ lg lh hg
  | plusRight => exact from_ lf lh hf
  | same => exact from_ lf lh hf

/-- **C117** Two valid filters select a topic name in common exactly if each selects one and their levels agree up to
wildcards (and not only on the empty string). -/
theorem C117_overlap (f g : String) (fl gl : List Level) (lf : Levels f fl) (lg : Levels g gl)
    (hf : valid_filter f = true) (hg : valid_filter g = true) :
    (∃ t, Name t ∧ «matches» t f = .ok true ∧ «matches» t g = .ok true) ↔
      (∃ t, Name t ∧ «matches» t f = .ok true) ∧ (∃ t, Name t ∧ «matches» t g = .ok true) ∧
      ∃ hl, Meet fl gl hl ∧ hl ≠ [[]] := by
  have vf := (valid_filter_iff f).1 hf
  have vg := (valid_filter_iff g).1 hg
  constructor
  · rintro ⟨t, hn, h1, h2⟩
    have lt := split_levels t
    have m1 := ((C89_matches_exact t f _ _ lt lf).1 h1).2
    have m2 := ((C89_matches_exact t g _ _ lt lg).1 h2).2
    obtain ⟨hl, m⟩ := meet_exists m1 m2
    refine ⟨⟨t, hn, h1⟩, ⟨t, hn, h2⟩, hl, m, ?_⟩
    rintro rfl
    exact any_nil_level hn.1 lt ((meet_any m _).2 ⟨m1, m2⟩)
  · rintro ⟨⟨t1, n1, h1⟩, ⟨t2, n2, h2⟩, hl, m, hne⟩
    obtain ⟨h, lh⟩ := meet_levels lf lg m
    obtain ⟨pf, sf⟩ := (C108_alive_iff f vf).1 ⟨t1, n1.1, n1.2, h1⟩
    obtain ⟨pg, sg⟩ := (C108_alive_iff g vg).1 ⟨t2, n2.1, n2.2, h2⟩
    obtain ⟨t, h0, hw, ht⟩ := (C108_alive_iff h (meet_hashOnlyLast vf vg lf lg lh m hne)).2
      ⟨fun ls hls l hmem hp => by
        obtain rfl : ls = hl := ((levels_iff _ _).1 hls).trans ((levels_iff _ _).1 lh).symm
        rcases meet_mem m l hmem with h | h
        · exact pf _ lf l h hp
        · exact pg _ lg l h hp,
      meet_start lf lg lh m sf sg⟩
    exact ⟨t, ⟨h0, hw⟩, (C117_common f g h _ _ _ lf lg lh m t).1 ht⟩

/-- hypotheses met: `a/+/c` and `+/b/#` overlap, `a/+/c` and `a/b` do not -/
example : ∃ t, Name t ∧ «matches» t "a/+/c" = .ok true ∧ «matches» t "+/b/#" = .ok true :=
  (C117_overlap "a/+/c" "+/b/#" [['a'], ['+'], ['c']] [['+'], ['b'], ['#']]
    ⟨by simp, by simp, by decide +kernel⟩ ⟨by simp, by simp, by decide +kernel⟩ (by decide +kernel) (by decide +kernel)).2
    ⟨⟨"a/x/c", by unfold Name; decide +kernel, by decide +kernel⟩, ⟨"x/b", by unfold Name; decide +kernel, by decide +kernel⟩,
      _, .plusRight _ (by simp) (.plusLeft _ (by simp) (.hashRight _ _)), by simp⟩
example : ¬ ∃ t, Name t ∧ «matches» t "a/+/c" = .ok true ∧ «matches» t "a/b" = .ok true := fun h => by
  obtain ⟨_, _, hl, m, _⟩ := (C117_overlap "a/+/c" "a/b" [['a'], ['+'], ['c']] [['a'], ['b']]
    ⟨by simp, by simp, by decide +kernel⟩ ⟨by simp, by simp, by decide +kernel⟩ (by decide +kernel) (by decide +kernel)).1 h
  cases m with
  | same _ _ r => cases r with | plusLeft _ _ r => cases r

/-- **C117** Comparing the two filters with `matches`, in either order, finds an overlap (if the compared filter selects
anything) … -/
theorem C117_matches_sound (f g : String) (ha : ∃ t, Name t ∧ «matches» t f = .ok true) (h : «matches» f g = .ok true) :
    ∃ t, Name t ∧ «matches» t f = .ok true ∧ «matches» t g = .ok true := by
  obtain ⟨t, hn, ht⟩ := ha
  exact ⟨t, hn, ht, C48_matches_trans t f g h ht⟩

/-- hypotheses met -/
example : ∃ t, Name t ∧ «matches» t "a/+" = .ok true ∧ «matches» t "a/#" = .ok true :=
  C117_matches_sound "a/+" "a/#" ⟨"a/b", by unfold Name; decide +kernel, by decide +kernel⟩ (by decide +kernel)

/-- **C117** … and finds every overlap with a filter that has no wildcard … -/
theorem C117_matches_name (f g : String) (hf : Name f) :
    (∃ t, Name t ∧ «matches» t f = .ok true ∧ «matches» t g = .ok true) ↔ «matches» f g = .ok true := by
  have hl : ∀ ls, Levels f ls → ['+'] ∉ ls ∧ ['#'] ∉ ls := fun ls h =>
    ⟨fun hm => hf.2.1 ((mem_levels_iff h '+' (by decide)).1 ⟨_, hm, by simp⟩),
     fun hm => hf.2.2 ((mem_levels_iff h '#' (by decide)).1 ⟨_, hm, by simp⟩)⟩
  constructor
  · rintro ⟨t, _, h1, h2⟩
    rw [((C108_literal t f hl).1 h1).1] at h2
    exact h2
  · intro h
    have hs := ((C89_matches_exact f g _ _ (split_levels f) (split_levels g)).1 h).1
    exact ⟨f, hf, (C108_literal f f hl).2 ⟨rfl, hs⟩, h⟩

/-- hypotheses met -/
example : ∃ t, Name t ∧ «matches» t "a/b" = .ok true ∧ «matches» t "a/+" = .ok true :=
  (C117_matches_name "a/b" "a/+" (by unfold Name; decide +kernel)).2 (by decide +kernel)

/-- **C117** … but misses overlaps of two filters with wildcards. -/
theorem C117_matches_misses : valid_filter "a/+" = true ∧ valid_filter "+/b" = true
    ∧ «matches» "a/+" "+/b" = .ok false ∧ «matches» "+/b" "a/+" = .ok false
    ∧ ∀ t, «matches» t "a/b" = .ok true ↔ «matches» t "a/+" = .ok true ∧ «matches» t "+/b" = .ok true :=
  ⟨by decide +kernel, by decide +kernel, by decide +kernel, by decide +kernel,
    C117_common "a/+" "+/b" "a/b" [['a'], ['+']] [['+'], ['b']] [['a'], ['b']]
      ⟨by simp, by simp, by decide +kernel⟩ ⟨by simp, by simp, by decide +kernel⟩ ⟨by simp, by simp, by decide +kernel⟩
      (.plusRight _ (by simp) (.plusLeft _ (by simp) .done))⟩

end Props
