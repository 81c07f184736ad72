import Verif.Proof.TopicCover
/-! C69: comparing two filters with `matches` decides whether one subscription covers the other. -/
namespace Props
open Mqtt.Topic Spec.Topic
open Mqtt (Res)

/-- C69: for two valid filters (and '+' used as a whole level in `f1`, which does not start with '$' or a
non-ASCII character): every topic that matches `f1` also matches `f2` exactly if `matches(f1, f2)`, with
one exception: "+/#" matches whatever "#" matches, but `matches("#", "+/#")` is false. -/
theorem C69_matches_decides_cover (f1 f2 : String) (h1 : HashOnlyLast f1) (h2 : HashOnlyLast f2)
    (hp : ∀ ls, Levels f1 ls → ∀ l ∈ ls, '+' ∈ l → l = ['+'])
    (hs : ∀ c cs, f1.toList = c :: cs → c.toNat < 128 ∧ c ≠ '$') :
    (∀ t, ('+' ∉ t.toList ∧ '#' ∉ t.toList) → «matches» t f1 = .ok true → «matches» t f2 = .ok true)
      ↔ «matches» f1 f2 = .ok true ∨ (f1 = "#" ∧ f2 = "+/#") := by
  have size : ∀ c : Char, c.toNat < 128 → c.utf8Size = 1 := by
    intro c hc; rw [Char.utf8Size_eq_one_iff]; show c.toNat ≤ 127; omega
  have hs' : ∀ c cs, f1.toList = c :: cs → c.utf8Size = 1 ∧ c ≠ '$' :=
    fun c cs h => ⟨size c (hs c cs h).1, (hs c cs h).2⟩
  constructor
  · intro hall
    rw [matches_run f1 f2 hs']
    obtain ⟨n, hn, hx⟩ := exists_fresh (split f2.toList)
    have hxe : ∃ y, List.replicate n 'x' = 'x' :: y := by
      cases n with
      | zero => omega
      | succ n => exact ⟨_, List.replicate_succ⟩
    generalize hX : List.replicate n 'x' = x at hx hxe
    have hxs : ∀ c ∈ x, c = 'x' := by intro c hc; rw [← hX] at hc; exact List.eq_of_mem_replicate hc
    obtain ⟨y, hy⟩ := hxe
    have hx' : x ≠ ['#'] := by
      intro h; rw [h] at hy; simp at hy
    -- every instance that has a level is a topic
    have key : ∀ k m ms, inst x k (split f1.toList) = m :: ms →
        matchesLoop (split f2.toList) (inst x k (split f1.toList)) = true := by
      intro k m ms hm
      have hsl : ∀ l ∈ inst x k (split f1.toList), '/' ∉ l := by
        intro l hl hmem
        rcases mem_inst _ _ _ _ hl with h | h
        · have := hxs '/' (h ▸ hmem); cases this
        · exact split_no_slash _ l h.1 hmem
      have hsp := inst_topic _ (by rw [hm]; simp) hsl
      have hwild : ∀ w, w = '+' ∨ w = '#' → w ∉ List.intercalate ['/'] (inst x k (split f1.toList)) := by
        intro w hw hmem
        have hw' : w ≠ '/' := by rcases hw with rfl | rfl <;> decide
        obtain ⟨l, hl, hwl⟩ := (mem_split _ w hw').2 hmem
        rw [hsp] at hl
        rcases mem_inst _ _ _ _ hl with h | ⟨h, h', h''⟩
        · have := hxs w (h ▸ hwl); rcases hw with rfl | rfl <;> cases this
        · rcases hw with rfl | rfl
          · exact h'' (hp _ (split_levels f1) l h hwl)
          · obtain ⟨a, b, hab⟩ := List.append_of_mem h
            exact h' (h1.2 _ (split_levels f1) a l b hab hwl).1
      have hrun : ∀ f, «matches» (String.ofList (List.intercalate ['/'] (inst x k (split f1.toList)))) f
          = .ok (matchesLoop (split f.toList) (inst x k (split f1.toList))) := by
        intro f
        rw [matches_run]
        · rw [String.toList_ofList, hsp]
        · intro c cs hc
          rw [String.toList_ofList, hm] at hc
          rcases head_join _ _ _ _ hc with rfl | ⟨l', hl'⟩
          · exact ⟨by decide, by decide⟩
          · rcases mem_inst x k (split f1.toList) m (by rw [hm]; simp) with h | ⟨_, h', h''⟩
            · have := hxs c (by rw [← h, hl']; simp)
              rw [this]; exact ⟨by decide, by decide⟩
            · -- the first level of f1
              cases hf : split f1.toList with
              | nil => exact absurd hf (split_ne_nil _)
              | cons l ls =>
                rw [hf, inst] at hm
                by_cases e1 : l = ['#']
                · rw [if_pos e1] at hm
                  have : m ∈ List.replicate k x := by rw [hm]; simp
                  have := List.eq_of_mem_replicate this
                  have := hxs c (by rw [← this, hl']; simp)
                  rw [this]; exact ⟨by decide, by decide⟩
                · rw [if_neg e1] at hm
                  by_cases e2 : l = ['+']
                  · rw [if_pos e2] at hm
                    have := hxs c (by rw [(List.cons.inj hm).1, hl']; simp)
                    rw [this]; exact ⟨by decide, by decide⟩
                  · rw [if_neg e2] at hm
                    have e3 : l = c :: l' := (List.cons.inj hm).1.trans hl'
                    have hj := split_join f1.toList
                    rw [hf, e3] at hj
                    cases ls with
                    | nil =>
                      rw [show List.intercalate ['/'] [c :: l'] = c :: l' by simp [List.intercalate]] at hj
                      exact hs' c l' hj
                    | cons b bs =>
                      rw [intercalate_cons, List.cons_append] at hj
                      exact hs' c _ hj
      have := hall (String.ofList (List.intercalate ['/'] (inst x k (split f1.toList))))
        (by rw [String.toList_ofList]; exact ⟨hwild _ (.inl rfl), hwild _ (.inr rfl)⟩)
        (by rw [hrun, matchesLoop_inst x hx'])
      rw [hrun] at this
      simpa using this
    have hv1 : ∀ a b, split f1.toList = a ++ ['#'] :: b → b = [] := fun a b hab =>
      (h1.2 _ (split_levels f1) a ['#'] b hab (by simp)).2
    by_cases e : split f1.toList = [['#']]
    · rw [e] at key
      have e1 : f1 = "#" := by
        have := split_join f1.toList
        rw [e] at this
        rw [← String.toList_inj, this]; simp [List.intercalate]
      have k1 := key 1 x [] (by simp [inst])
      have k2 := key 2 x [x] (by simp [inst, List.replicate])
      simp only [inst, if_true, List.replicate] at k1 k2
      rw [e]
      cases hf2 : split f2.toList with
      | nil => exact absurd hf2 (split_ne_nil _)
      | cons f fs =>
        rw [hf2] at k1 k2 hx
        by_cases hf : f = ['#']
        · left; rw [matchesLoop_cons, if_pos hf]
        · right
          have hfx : f ≠ x := fun h => hx (by simp [h])
          rw [matchesLoop_cons, if_neg hf, if_neg hx'] at k1 k2
          by_cases hfp : f = ['+']
          · rw [if_pos hfp] at k1 k2
            cases fs with
            | nil => simp [matchesLoop] at k2
            | cons g gs =>
              rw [matchesLoop_nil_right, decide_eq_true_eq] at k1
              have := (h2.2 _ (split_levels f2) [f] g gs hf2 (by simp [k1])).2
              refine ⟨e1, ?_⟩
              have hj := split_join f2.toList
              rw [hf2, hfp, k1, this] at hj
              rw [← String.toList_inj, hj]; simp [List.intercalate]
          · rw [if_neg hfp, if_pos hfx] at k1; cases k1
    · left
      congr 1
      refine matchesLoop_of_inst x _ _ hx hx' (fun k => ?_) hv1
      cases hf : split f1.toList with
      | nil => exact absurd hf (split_ne_nil _)
      | cons l ls =>
        have hl : l ≠ ['#'] := by
          intro hl
          have := hv1 [] ls (by rw [hf, hl]; rfl)
          exact e (by rw [hf, hl, this])
        rw [← hf]
        exact key k _ _ (by rw [hf, inst, if_neg hl])
  · rintro (h | ⟨rfl, rfl⟩) t hw ht
    · -- transitivity
      have e1 : matchesLoop (split f2.toList) (split f1.toList) = true := by
        rw [matches_run f1 f2 hs'] at h; simpa using h
      rcases matches_cases t f1 with ⟨h, _⟩ | ⟨h, _⟩ | ⟨h, hd⟩ <;> rw [h] at ht <;> simp at ht
      have e2 := matchesLoop_trans _ _ _ e1 ht
      rcases matches_cases t f2 with ⟨_, hc⟩ | ⟨h', c, cs, hc, h3⟩ | ⟨h', _⟩
      · exact absurd hc hd
      · unfold «matches» at h; rw [hc] at h; simp [h3] at h
      · rw [h', e2]
    · rcases matches_cases t "#" with ⟨h, _⟩ | ⟨h, _⟩ | ⟨h, hd⟩ <;> rw [h] at ht <;> simp at ht
      rcases matches_cases t "+/#" with ⟨_, hc⟩ | ⟨h', c, cs, hc, h3⟩ | ⟨h', _⟩
      · exact absurd hc hd
      · unfold «matches» at h; rw [hc] at h; simp [h3] at h
      · rw [h', show split "+/#".toList = [['+'], ['#']] by decide +kernel]
        cases hsp : split t.toList with
        | nil => exact absurd hsp (split_ne_nil _)
        | cons a b =>
          have : a ≠ ['#'] := by
            intro ha
            exact hw.2 ((mem_split t.toList '#' (by decide)).1 ⟨a, by rw [hsp]; simp, by simp [ha]⟩)
          rw [matchesLoop_cons, if_neg (by decide), if_neg this, if_pos rfl]
          congr 1

/-- C69, the exception: "+/#" covers "#" but `matches` denies it. -/
theorem C69_exception : «matches» "#" "+/#" = .ok false ∧ valid_filter "#" = true ∧ valid_filter "+/#" = true
    ∧ ∀ t, ('+' ∉ t.toList ∧ '#' ∉ t.toList) → «matches» t "#" = .ok true → «matches» t "+/#" = .ok true :=
  ⟨by decide +kernel, by decide +kernel, by decide +kernel,
    (C69_matches_decides_cover "#" "+/#" ((valid_filter_iff _).1 (by decide +kernel))
      ((valid_filter_iff _).1 (by decide +kernel))
      (fun ls h l hl hm => by
        rw [(levels_iff _ _).1 h, show split "#".toList = [['#']] by decide +kernel] at hl
        simp at hl; subst hl; simp at hm)
      (fun c cs h => by rw [show "#".toList = ['#'] by decide +kernel] at h; cases h; decide)).2 (.inr ⟨rfl, rfl⟩)⟩

/-- the hypothesis on '+' is needed: "a+" passes `valid_filter` but no topic matches it, so everything covers
it; `matches` compares the text -/
example : valid_filter "a+" = true ∧ «matches» "a+" "b" = .ok false ∧ «matches» "a/+/b" "a/+/+" = .ok true
    ∧ «matches» "a/+/#" "a/#" = .ok true ∧ «matches» "a/#" "a/+/#" = .ok false ∧ «matches» "a" "a/+/#" = .ok false
    ∧ «matches» "a" "a/#" = .ok true := by decide +kernel

end Props
