import Verif.Proof.TopicCover
import Verif.Props.TopicAny
import Verif.Spec.Overlap
/-! C124: when a set of subscriptions covers another subscription. -/
namespace Props
open Mqtt Mqtt.Topic Spec.Topic

/-- what the first character may be depends on the first level only -/
theorem start_levels {t : String} {l : Level} {ls : List Level} (h : Levels t (l :: ls)) :
    (∀ c cs, t.toList = c :: cs → c ≠ '$' ∧ c.toNat < 128) ↔ (∀ c cs, l = c :: cs → c ≠ '$' ∧ c.toNat < 128) := by
  rw [h.2.2]
  constructor
  · rintro h c cs rfl
    cases ls with
    | nil => exact h c cs (by simp [List.intercalate])
    | cons m ms => exact h c _ (by rw [intercalate_cons, List.cons_append])
  · intro h c cs e
    rcases head_join l ls c cs e with rfl | ⟨l', rfl⟩
    · decide
    · exact h c l' rfl

/-- a concrete level for '+' -/
def fillPlus (x l : Level) : Level := if l = ['+'] then x else l

theorem any_fill (x : Level) (hx : x ≠ ['#']) (fl : List Level) (hf : ['#'] ∉ fl) : MatchAny fl (fl.map (fillPlus x)) := by
  induction fl with
  | nil => exact .done
  | cons l fl ih =>
    have ih := ih fun h => hf (.tail _ h)
    have hl : l ≠ ['#'] := fun h => hf (h ▸ .head _)
    rw [List.map_cons, fillPlus]
    by_cases e : l = ['+']
    · rw [if_pos e, e]; exact .plus x hx ih
    · rw [if_neg e]; exact .same l hl ih

theorem any_of_fill (x : Level) (fl : List Level) (hf : ['#'] ∉ fl) (gl : List Level) (hx : x ∉ gl)
    (h : MatchAny gl (fl.map (fillPlus x))) : MatchAny gl fl := by
  induction fl generalizing gl with
  | nil => exact h
  | cons l fl ih =>
    have hl : l ≠ ['#'] := fun h => hf (h ▸ .head _)
    rw [List.map_cons, fillPlus] at h
    cases h with
    | hash => exact .hash _ _
    | plus _ _ h => exact .plus l hl (ih (fun h => hf (.tail _ h)) _ (fun h => hx (.tail _ h)) h)
    | same _ _ h =>
      have := ih (fun h => hf (.tail _ h)) _ (fun h => hx (.tail _ h)) h
      by_cases e : l = ['+']
      · rw [if_pos e] at hx; exact absurd (.head _) hx
      · rw [if_neg e]; exact .same l hl this

theorem any_trans {g f t : List Level} (h : MatchAny g f) (h' : MatchAny f t) : MatchAny g t := by
  rw [← matchesLoop_any] at *
  exact matchesLoop_trans _ _ _ h h'

/-- **C124** Take a filter without '#' (each '+' a level of its own, the first character ASCII and not '$') and any list of
filters. Every topic that matches the filter matches one of the list exactly if a single one of them covers it, and
`matches` finds that one. No hypothesis on the list. -/
theorem C124_without_hash (f : String) (gs : List String) (hh : '#' ∉ f.toList)
    (hp : ∀ ls, Levels f ls → ∀ l ∈ ls, '+' ∈ l → l = ['+'])
    (hs : ∀ c cs, f.toList = c :: cs → c ≠ '$' ∧ c.toNat < 128) :
    (∀ t, ('+' ∉ t.toList ∧ '#' ∉ t.toList) → «matches» t f = .ok true → ∃ g ∈ gs, «matches» t g = .ok true)
      ↔ ∃ g ∈ gs, «matches» f g = .ok true := by
  have lf := split_levels f
  have hhl : ∀ l ∈ split f.toList, '#' ∉ l := fun l hl hm => hh ((mem_split _ '#' (by decide)).1 ⟨l, hl, hm⟩)
  have hnh : ['#'] ∉ split f.toList := fun h => hhl _ h (by simp)
  constructor
  · intro h
    obtain ⟨n, hn, hx⟩ := exists_fresh (gs.flatMap fun g => split g.toList)
    have hxs : ∀ c ∈ List.replicate n 'x', c = 'x' := fun c hc => List.eq_of_mem_replicate hc
    have hx' : List.replicate n 'x' ≠ ['#'] := by
      intro e; have := hxs '#' (by rw [e]; simp); cases this
    generalize List.replicate n 'x' = x at *
    -- the instance as a string
    have lt : Levels (String.ofList (List.intercalate ['/'] ((split f.toList).map (fillPlus x))))
        ((split f.toList).map (fillPlus x)) := by
      refine ⟨by simpa using lf.1, fun l hl hm => ?_, by simp⟩
      obtain ⟨m, hm', rfl⟩ := List.mem_map.1 hl
      unfold fillPlus at hm
      split at hm
      · have := hxs _ hm; cases this
      · exact lf.2.1 m hm' hm
    have hw : ∀ w, w = '+' ∨ w = '#' →
        w ∉ (String.ofList (List.intercalate ['/'] ((split f.toList).map (fillPlus x)))).toList := by
      intro w hw hm
      obtain ⟨l, hl, hwl⟩ := (mem_split _ w (by rcases hw with rfl | rfl <;> decide)).2 hm
      rw [← (levels_iff _ _).1 lt] at hl
      obtain ⟨m, hm', rfl⟩ := List.mem_map.1 hl
      unfold fillPlus at hwl
      split at hwl
      · have := hxs _ hwl; rcases hw with rfl | rfl <;> cases this
      · rename_i e
        rcases hw with rfl | rfl
        · exact e (hp _ lf m hm' hwl)
        · exact hhl m hm' hwl
    have hst : ∀ c cs, (String.ofList (List.intercalate ['/'] ((split f.toList).map (fillPlus x)))).toList = c :: cs →
        c ≠ '$' ∧ c.toNat < 128 := by
      cases hfl : split f.toList with
      | nil => exact absurd hfl lf.1
      | cons l ls =>
        rw [hfl] at lt lf
        rw [start_levels lf] at hs
        rw [start_levels lt]
        intro c cs e
        unfold fillPlus at e
        split at e
        · rw [hxs c (by rw [e]; simp)]; decide
        · exact hs c cs e
    obtain ⟨g, hg, hm⟩ := h _ ⟨hw _ (.inl rfl), hw _ (.inr rfl)⟩
      ((C89_matches_exact _ f _ _ lt lf).2 ⟨hst, any_fill x hx' _ hnh⟩)
    refine ⟨g, hg, (C89_matches_exact f g _ _ lf (split_levels g)).2 ⟨hs, ?_⟩⟩
    exact any_of_fill x _ hnh _ (fun h => hx (List.mem_flatMap.2 ⟨g, hg, h⟩))
      ((C89_matches_exact _ g _ _ lt (split_levels g)).1 hm).2
  · rintro ⟨g, hg, h⟩ t _ ht
    have h := (C89_matches_exact f g _ _ lf (split_levels g)).1 h
    have ht := (C89_matches_exact t f _ _ (split_levels t) lf).1 ht
    exact ⟨g, hg, (C89_matches_exact t g _ _ (split_levels t) (split_levels g)).2 ⟨ht.1, any_trans h.2 ht.2⟩⟩

/-- a filter that ends in '#' stands for infinitely many that do not -/
theorem any_hash_plus {pl tl : List Level} (hp : ['#'] ∉ pl) (ht : ['#'] ∉ tl) (h : MatchAny (pl ++ [['#']]) tl) :
    ∃ k, tl.length = pl.length + k ∧ MatchAny (pl ++ List.replicate k ['+']) tl := by
  induction pl generalizing tl with
  | nil =>
    refine ⟨tl.length, by simp, ?_⟩
    clear h
    induction tl with
    | nil => exact .done
    | cons l tl ih =>
      exact .plus l (fun h => ht (h ▸ .head _)) (ih fun h => ht (.tail _ h))
  | cons l pl ih =>
    rw [List.cons_append] at h
    cases h with
    | hash => exact absurd (.head _) hp
    | plus m hm h =>
      obtain ⟨k, hl, hk⟩ := ih (fun h => hp (.tail _ h)) (fun h => ht (.tail _ h)) h
      exact ⟨k, by simp; omega, .plus m hm hk⟩
    | same _ hm h =>
      obtain ⟨k, hl, hk⟩ := ih (fun h => hp (.tail _ h)) (fun h => ht (.tail _ h)) h
      exact ⟨k, by simp; omega, .same _ hm hk⟩

/-- what matches more levels than it has goes on matching -/
theorem any_longer {gl hl : List Level} (h : MatchAny gl hl) (hlt : gl.length < hl.length) (more : List Level) :
    MatchAny gl (hl ++ more) := by
  induction h with
  | done => simp at hlt
  | hash f t => exact .hash _ _
  | plus l hl _ ih => exact .plus l hl (ih (by simpa using hlt))
  | same l hl _ ih => exact .same l hl (ih (by simpa using hlt))

/-- **C124** For a filter that ends in '#', the whole question comes down to finitely many comparisons: put 0, 1, 2, …, N
levels '+' in place of the '#', where N is so large that the result has more levels than any filter of the list. Every
topic that matches the filter matches one of the list exactly if each of these is covered by a single filter of the list. -/
theorem C124_with_hash (f : String) (gs : List String) (pl : List Level) (hf : Levels f (pl ++ [['#']]))
    (hh : ∀ l ∈ pl, '#' ∉ l) (hp : ∀ l ∈ pl, '+' ∈ l → l = ['+'])
    (hs : ∀ c cs, f.toList = c :: cs → c ≠ '$' ∧ c.toNat < 128)
    (N : Nat) (h1 : 1 ≤ N) (hN : ∀ g ∈ gs, ∀ gl, Levels g gl → gl.length < pl.length + N) :
    (∀ t, ('+' ∉ t.toList ∧ '#' ∉ t.toList) → «matches» t f = .ok true → ∃ g ∈ gs, «matches» t g = .ok true)
      ↔ ∀ k ≤ N, ∀ h, Levels h (pl ++ List.replicate k ['+']) → ∃ g ∈ gs, «matches» h g = .ok true := by
  have hnp : ['#'] ∉ pl := fun h => hh _ h (by simp)
  -- the filter with '+' in place of '#' starts well
  have start : ∀ k h, Levels h (pl ++ List.replicate k ['+']) → ∀ c cs, h.toList = c :: cs → c ≠ '$' ∧ c.toNat < 128 := by
    intro k h lh
    cases pl with
    | nil =>
      cases k with
      | zero => exact absurd rfl lh.1
      | succ k =>
        rw [List.nil_append, List.replicate_succ] at lh
        rw [start_levels lh]
        intro c cs e
        simp only [List.cons.injEq] at e
        rw [← e.1]; decide
    | cons l pl =>
      rw [List.cons_append] at lh hf
      rw [start_levels hf] at hs
      rw [start_levels lh]
      exact hs
  constructor
  · intro hall k _ h lh
    refine (C124_without_hash h gs ?_ ?_ (start k h lh)).1 fun t hw ht => hall t hw ?_
    · intro hm
      obtain ⟨l, hl, hm⟩ := (mem_split _ '#' (by decide)).2 hm
      rw [← (levels_iff _ _).1 lh, List.mem_append] at hl
      rcases hl with hl | hl
      · exact hh l hl hm
      · rw [List.eq_of_mem_replicate hl] at hm; simp at hm
    · intro ls lls l hl hm
      rw [(levels_iff _ _).1 lls, ← (levels_iff _ _).1 lh, List.mem_append] at hl
      rcases hl with hl | hl
      · exact hp l hl hm
      · exact List.eq_of_mem_replicate hl
    · have ht := (C89_matches_exact t h _ _ (split_levels t) lh).1 ht
      exact (C89_matches_exact t f _ _ (split_levels t) hf).2 ⟨ht.1, any_hash ht.2⟩
  · intro hall t hw ht
    have ht := (C89_matches_exact t f _ _ (split_levels t) hf).1 ht
    have hth : ['#'] ∉ split t.toList := fun h => hw.2 ((mem_split _ '#' (by decide)).1 ⟨_, h, by simp⟩)
    obtain ⟨k, hl, hk⟩ := any_hash_plus hnp hth ht.2
    have mk : ∀ j, pl ++ List.replicate j ['+'] ≠ [] →
        Levels (String.ofList (List.intercalate ['/'] (pl ++ List.replicate j ['+']))) (pl ++ List.replicate j ['+']) := by
      refine fun j hne => ⟨hne, fun l hl => ?_, by simp⟩
      rcases List.mem_append.1 hl with hl | hl
      · exact hf.2.1 l (List.mem_append_left _ hl)
      · rw [List.eq_of_mem_replicate hl]; decide
    by_cases hkN : k ≤ N
    · have lh := mk k (by
        intro e
        have e := congrArg List.length e
        have := (split_levels t).1
        rw [← List.length_pos_iff] at this
        rw [List.length_append, List.length_replicate, List.length_nil] at e
        omega)
      obtain ⟨g, hg, hm⟩ := hall k hkN _ lh
      have hm := (C89_matches_exact _ g _ _ lh (split_levels g)).1 hm
      exact ⟨g, hg, (C89_matches_exact t g _ _ (split_levels t) (split_levels g)).2 ⟨ht.1, any_trans hm.2 hk⟩⟩
    · have lh := mk N (by
        intro e
        have e := congrArg List.length e
        rw [List.length_append, List.length_replicate, List.length_nil] at e
        omega)
      obtain ⟨g, hg, hm⟩ := hall N (Nat.le_refl _) _ lh
      have hm := (C89_matches_exact _ g _ _ lh (split_levels g)).1 hm
      have hm := any_longer hm.2 (by simpa using hN g hg _ (split_levels g)) (List.replicate (k - N) ['+'])
      rw [List.append_assoc, List.replicate_append_replicate, Nat.add_sub_cancel' (by omega)] at hm
      exact ⟨g, hg, (C89_matches_exact t g _ _ (split_levels t) (split_levels g)).2 ⟨ht.1, any_trans hm hk⟩⟩

/-- C124: with '#' a list can cover what none of its filters covers: every topic that matches "a/#" matches one of "a",
"a/+" and "a/+/+/#", but `matches` denies that any of the three covers it, rightly. -/
theorem C124_only_together :
    (∀ t, ('+' ∉ t.toList ∧ '#' ∉ t.toList) → «matches» t "a/#" = .ok true →
      ∃ g ∈ ["a", "a/+", "a/+/+/#"], «matches» t g = .ok true) ∧
    ∀ g ∈ ["a", "a/+", "a/+/+/#"],
      «matches» "a/#" g = .ok false ∧ ∃ t, Name t ∧ «matches» t "a/#" = .ok true ∧ «matches» t g = .ok false := by
  constructor
  · refine (C124_with_hash "a/#" _ [['a']] ((levels_iff _ _).2 (by decide +kernel)) (by decide) (by decide) ?_ 4 (by decide)
      ?_).2 ?_
    · intro c cs h
      rw [show "a/#".toList = ['a', '/', '#'] by decide +kernel] at h
      cases h; decide
    · intro g hg gl hl
      rw [(levels_iff _ _).1 hl]
      clear hl gl
      revert g
      decide +kernel
    · intro k hk h lh
      have e : h = String.ofList (List.intercalate ['/'] ([['a']] ++ List.replicate k ['+'])) := by
        rw [← String.toList_inj, lh.2.2, String.toList_ofList]
      subst e
      clear lh
      revert k
      decide +kernel
  · have name : ∀ t : String, t ≠ "" ∧ '+' ∉ t.toList ∧ '#' ∉ t.toList → Name t := fun _ h => h
    intro g hg
    simp only [List.mem_cons, List.not_mem_nil, or_false] at hg
    rcases hg with rfl | rfl | rfl
    · exact ⟨by decide +kernel, "a/b", name _ (by decide +kernel), by decide +kernel, by decide +kernel⟩
    · exact ⟨by decide +kernel, "a/b/c", name _ (by decide +kernel), by decide +kernel, by decide +kernel⟩
    · exact ⟨by decide +kernel, "a", name _ (by decide +kernel), by decide +kernel, by decide +kernel⟩

/-- hypotheses of C124_without_hash met; "a/+" is covered by "+/+" -/
example : ∀ t, ('+' ∉ t.toList ∧ '#' ∉ t.toList) → «matches» t "a/+" = .ok true →
    ∃ g ∈ ["b/#", "+/+"], «matches» t g = .ok true :=
  (C124_without_hash "a/+" _ (by decide +kernel)
    (fun ls h l hl hm => by
      rw [(levels_iff _ _).1 h, show split "a/+".toList = [['a'], ['+']] by decide +kernel] at hl
      simp at hl
      rcases hl with rfl | rfl
      · simp at hm
      · rfl)
    (fun c cs h => by rw [show "a/+".toList = ['a', '/', '+'] by decide +kernel] at h; cases h; decide)).2
    ⟨"+/+", by simp, by decide +kernel⟩

end Props
