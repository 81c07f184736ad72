import Verif.Proof.TopicCover
import Verif.Props.TopicAny
/-! C108: which topics a filter selects: none, exactly one, or unboundedly many. -/
namespace Props
open Mqtt Mqtt.Topic Spec.Topic

/-- the first character of a string is the first character of its first level, or the separator -/
theorem first_char {s : String} {l : Level} {ls : List Level} (h : Levels s (l :: ls)) :
    (∀ c cs, l = c :: cs → ∃ ds, s.toList = c :: ds) ∧ (l = [] → s.toList = [] ∨ ∃ ds, s.toList = '/' :: ds) := by
  have hs := h.2.2
  cases ls with
  | nil =>
    rw [show List.intercalate ['/'] [l] = l by simp [List.intercalate]] at hs
    exact ⟨fun c cs e => ⟨cs, by rw [hs, e]⟩, fun e => .inl (by rw [hs, e])⟩
  | cons b bs =>
    rw [intercalate_cons] at hs
    exact ⟨fun c cs e => ⟨_, by rw [hs, e]; rfl⟩, fun e => .inr ⟨_, by rw [hs, e]; rfl⟩⟩

theorem mem_any {f t : List Level} (h : MatchAny f t) (hf : ∀ a b, f = a ++ ['#'] :: b → b = []) :
    ∀ l ∈ f, l ≠ ['+'] → l ≠ ['#'] → l ∈ t := by
  induction h with
  | done => simp
  | hash f t => intro l hl _ h2; rw [hf [] f rfl] at hl; simp at hl; exact absurd hl h2
  | plus m hm h ih =>
    intro l hl h1 h2
    rcases List.mem_cons.1 hl with rfl | hl
    · exact absurd rfl h1
    · exact List.mem_cons_of_mem _ (ih (fun a b e => hf (['+'] :: a) b (by rw [e]; rfl)) l hl h1 h2)
  | same m hm h ih =>
    intro l hl h1 h2
    rcases List.mem_cons.1 hl with rfl | hl
    · exact List.mem_cons_self
    · exact List.mem_cons_of_mem _ (ih (fun a b e => hf (m :: a) b (by rw [e]; rfl)) l hl h1 h2)

theorem mem_levels_iff {s : String} {ls : List Level} (h : Levels s ls) (c : Char) (hc : c ≠ '/') :
    (∃ l ∈ ls, c ∈ l) ↔ c ∈ s.toList := by
  rw [(levels_iff s ls).1 h]; exact mem_split _ c hc

theorem length_intercalate_ge (ls : List Level) : ∀ l ∈ ls, l.length ≤ (List.intercalate ['/'] ls).length := by
  induction ls with
  | nil => simp
  | cons a ls ih =>
    intro l hl
    cases ls with
    | nil => simp at hl; subst hl; simp [List.intercalate]
    | cons b bs =>
      rw [intercalate_cons]
      rcases List.mem_cons.1 hl with rfl | hl
      · simp
      · have := ih l hl; simp only [List.length_append, List.length_cons]; omega

/-- the wildcards of a filter filled in with an arbitrary word -/
theorem fill (f : String) (h1 : HashOnlyLast f)
    (hp : ∀ ls, Levels f ls → ∀ l ∈ ls, '+' ∈ l → l = ['+'])
    (hs : ∀ c cs, f.toList = c :: cs → c ≠ '$' ∧ c.toNat < 128) (n : Nat) :
    ∃ t, t ≠ "" ∧ ('+' ∉ t.toList ∧ '#' ∉ t.toList) ∧ «matches» t f = .ok true
      ∧ ('+' ∈ f.toList ∨ '#' ∈ f.toList → n < t.toList.length) := by
  obtain ⟨x, hX⟩ : ∃ x, x = List.replicate (n + 1) 'x' := ⟨_, rfl⟩
  have hxs : ∀ c ∈ x, c = 'x' := by intro c hc; rw [hX] at hc; exact List.eq_of_mem_replicate hc
  have hx0 : ∃ y, x = 'x' :: y := ⟨_, hX.trans List.replicate_succ⟩
  have hxl : x.length = n + 1 := by rw [hX]; simp
  have hx' : x ≠ ['#'] := by obtain ⟨y, hy⟩ := hx0; rw [hy]; simp
  have lf := split_levels f
  obtain ⟨L, hL⟩ : ∃ L, L = split f.toList := ⟨_, rfl⟩
  rw [← hL] at lf
  have hne : inst x 1 L ≠ [] := by
    cases L with
    | nil => exact absurd rfl lf.1
    | cons l ls => rw [inst]; split <;> simp
  have hsl : ∀ l ∈ inst x 1 L, '/' ∉ l := by
    intro l hl hmem
    rcases mem_inst _ _ _ _ hl with h | h
    · have := hxs '/' (h ▸ hmem); cases this
    · exact lf.2.1 l h.1 hmem
  have lt : Levels (String.ofList (List.intercalate ['/'] (inst x 1 L))) (inst x 1 L) :=
    ⟨hne, hsl, by rw [String.toList_ofList]⟩
  generalize String.ofList (List.intercalate ['/'] (inst x 1 L)) = t at lt
  have hwild : ∀ w, w = '+' ∨ w = '#' → w ∉ t.toList := by
    intro w hw hmem
    obtain ⟨l, hl, hwl⟩ := (mem_levels_iff lt w (by rcases hw with rfl | rfl <;> decide)).2 hmem
    rcases mem_inst _ _ _ _ hl with h | ⟨h, h', h''⟩
    · have := hxs w (h ▸ hwl); rcases hw with rfl | rfl <;> cases this
    · rcases hw with rfl | rfl
      · exact h'' (hp _ lf l h hwl)
      · obtain ⟨a, b, hab⟩ := List.append_of_mem h
        exact h' (h1.2 _ lf a l b hab hwl).1
  have hstart : ∀ c cs, t.toList = c :: cs → c ≠ '$' ∧ c.toNat < 128 := by
    intro c cs hc
    cases L with
    | nil => exact absurd rfl lf.1
    | cons l ls =>
      have fin : ∀ m ms, Levels t (m :: ms) → (m = x ∨ m = l) → c ≠ '$' ∧ c.toNat < 128 := by
        intro m ms hm hml
        have hfc := first_char hm
        cases m with
        | nil =>
          rcases hfc.2 rfl with h | ⟨ds, h⟩ <;> rw [h] at hc <;> cases hc
          exact ⟨by decide, by decide⟩
        | cons d ds =>
          obtain ⟨es, he⟩ := hfc.1 d ds rfl
          rw [hc] at he; cases he
          rcases hml with h | h
          · have := hxs c (by rw [← h]; simp)
            rw [this]; exact ⟨by decide, by decide⟩
          · obtain ⟨es, he⟩ := (first_char lf).1 c ds h.symm
            exact hs c es he
      rw [inst] at lt
      by_cases e1 : l = ['#']
      · rw [if_pos e1] at lt; exact fin x [] lt (.inl rfl)
      · rw [if_neg e1] at lt
        refine fin _ _ lt ?_
        split
        · exact .inl rfl
        · exact .inr rfl
  refine ⟨t, ?_, ⟨hwild _ (.inl rfl), hwild _ (.inr rfl)⟩, ?_, ?_⟩
  · rintro rfl
    have e := (levels_iff _ _).1 lt
    rw [show split "".toList = [[]] from rfl] at e
    cases L with
    | nil => exact absurd rfl lf.1
    | cons l ls =>
      rw [inst] at e
      by_cases e1 : l = ['#']
      · rw [if_pos e1] at e
        obtain ⟨y, hy⟩ := hx0
        rw [hy] at e; cases e
      · rw [if_neg e1] at e
        by_cases e2 : l = ['+']
        · rw [if_pos e2] at e
          obtain ⟨y, hy⟩ := hx0
          rw [hy] at e; cases e
        · rw [if_neg e2] at e
          injection e with e3 e4
          cases ls with
          | nil =>
            apply h1.1
            rw [← String.toList_inj, lf.2.2, e3]; rfl
          | cons b bs => rw [inst] at e4; split at e4 <;> cases e4
  · exact (C89_matches_exact t f _ _ lt lf).2 ⟨hstart, (matchesLoop_any _ _).1 (matchesLoop_inst x hx' 1 L)⟩
  · intro hw
    have hmem : x ∈ inst x 1 L := by
      have : ['+'] ∈ L ∨ ['#'] ∈ L := by
        rcases hw with hw | hw
        · obtain ⟨l, hl, hwl⟩ := (mem_levels_iff lf '+' (by decide)).2 hw
          exact .inl (hp _ lf l hl hwl ▸ hl)
        · obtain ⟨l, hl, hwl⟩ := (mem_levels_iff lf '#' (by decide)).2 hw
          obtain ⟨a, b, hab⟩ := List.append_of_mem hl
          exact .inr ((h1.2 _ lf a l b hab hwl).1 ▸ hl)
      clear hsl hne lt hwild hstart lf hL
      induction L with
      | nil => simp at this
      | cons l ls ih =>
        rw [inst]
        by_cases e1 : l = ['#']
        · rw [if_pos e1]; simp
        · rw [if_neg e1]
          by_cases e2 : l = ['+']
          · rw [if_pos e2]; simp
          · refine List.mem_cons_of_mem _ (ih ?_)
            rcases this with h | h <;> rcases List.mem_cons.1 h with h | h
            · exact absurd h.symm e2
            · exact .inl h
            · exact absurd h.symm e1
            · exact .inr h
    rw [lt.2.2]
    have := length_intercalate_ge _ x hmem
    omega

/-- C108: a filter with no level "+" and no level "#" matches itself and nothing else (and not even itself if it
starts with '$' or with a character outside ASCII). -/
theorem C108_literal (t f : String) (h : ∀ ls, Levels f ls → ['+'] ∉ ls ∧ ['#'] ∉ ls) :
    «matches» t f = .ok true ↔ t = f ∧ ∀ c cs, f.toList = c :: cs → c ≠ '$' ∧ c.toNat < 128 := by
  have lf := split_levels f
  have lt := split_levels t
  have key : ∀ a b : List Level, ['+'] ∉ a → ['#'] ∉ a → (MatchAny a b ↔ b = a) := by
    intro a
    induction a with
    | nil => intro b _ _; exact ⟨fun h => by cases h; rfl, fun h => by rw [h]; exact .done⟩
    | cons l ls ih =>
      intro b h1 h2
      simp only [List.mem_cons, not_or] at h1 h2
      constructor
      · intro h
        cases h with
        | hash => exact absurd rfl h2.1
        | plus => exact absurd rfl h1.1
        | same _ _ h => rw [(ih _ h1.2 h2.2).1 h]
      · rintro rfl
        exact .same l (fun e => h2.1 e.symm) ((ih _ h1.2 h2.2).2 rfl)
  rw [C89_matches_exact t f _ _ lt lf, key _ _ (h _ lf).1 (h _ lf).2]
  constructor
  · rintro ⟨h1, h2⟩
    have e : t = f := by rw [← String.toList_inj, split_join t.toList, h2, ← split_join]
    exact ⟨e, e ▸ h1⟩
  · rintro ⟨rfl, h2⟩; exact ⟨h2, rfl⟩

/-- C108: a filter accepted by `valid_filter` is matched by some topic name exactly if it does not start with '$' or
with a character outside ASCII, and has no '+' inside a longer level.  (`valid_filter` accepts the others too: such a
subscription is dead.) -/
theorem C108_alive_iff (f : String) (h : HashOnlyLast f) :
    (∃ t, t ≠ "" ∧ ('+' ∉ t.toList ∧ '#' ∉ t.toList) ∧ «matches» t f = .ok true) ↔
      (∀ ls, Levels f ls → ∀ l ∈ ls, '+' ∈ l → l = ['+']) ∧ ∀ c cs, f.toList = c :: cs → c ≠ '$' ∧ c.toNat < 128 := by
  constructor
  · rintro ⟨t, _, hw, ht⟩
    have hv : ∀ ls, Levels f ls → ∀ a b, ls = a ++ ['#'] :: b → b = [] := fun ls hl a b e =>
      (h.2 ls hl a ['#'] b e (by simp)).2
    have lt := split_levels t
    constructor
    · intro ls hl l hm hp
      refine Classical.byContradiction fun hne => ?_
      have := ((C89_matches_exact t f _ _ lt hl).1 ht).2
      have hlt := mem_any this (hv ls hl) l hm hne (by rintro rfl; simp at hp)
      exact hw.1 ((mem_levels_iff lt '+' (by decide)).1 ⟨l, hlt, hp⟩)
    · intro c cs hc
      have lf := split_levels f
      have ⟨hst, hm⟩ := (C89_matches_exact t f _ _ lt lf).1 ht
      cases hF : split f.toList with
      | nil => exact absurd hF (split_ne_nil _)
      | cons l ls =>
        rw [hF] at lf hm
        have hfc := first_char lf
        cases l with
        | nil =>
          rcases hfc.2 rfl with e | ⟨ds, e⟩ <;> rw [e] at hc <;> cases hc
          exact ⟨by decide, by decide⟩
        | cons d ds =>
          obtain ⟨es, he⟩ := hfc.1 d ds rfl
          rw [hc] at he; cases he
          cases hT : split t.toList with
          | nil => exact absurd hT (split_ne_nil _)
          | cons m ms =>
            rw [hT] at hm lt
            cases hm with
            | hash => exact ⟨by decide, by decide⟩
            | plus => exact ⟨by decide, by decide⟩
            | same =>
              obtain ⟨gs, hg⟩ := (first_char lt).1 c ds rfl
              exact hst c gs hg
  · rintro ⟨hp, hs⟩
    obtain ⟨t, h0, h1, h2, _⟩ := fill f h hp hs 0
    exact ⟨t, h0, h1, h2⟩

/-- C108: a filter with a wildcard that is matched by some topic name is matched by topic names of unbounded length
(so by infinitely many). -/
theorem C108_unbounded (f : String) (h : HashOnlyLast f) (hw : has_wildcards f = true)
    (ha : ∃ t, t ≠ "" ∧ ('+' ∉ t.toList ∧ '#' ∉ t.toList) ∧ «matches» t f = .ok true) (n : Nat) :
    ∃ t, ('+' ∉ t.toList ∧ '#' ∉ t.toList) ∧ «matches» t f = .ok true ∧ n < t.toList.length := by
  obtain ⟨hp, hs⟩ := (C108_alive_iff f h).1 ha
  obtain ⟨t, _, h1, h2, h3⟩ := fill f h hp hs n
  refine ⟨t, h1, h2, h3 ?_⟩
  simpa [has_wildcards] using hw

/-- C108: dead subscriptions that `valid_filter` accepts -/
theorem C108_dead (t : String) (hw : '+' ∉ t.toList ∧ '#' ∉ t.toList) (h0 : t ≠ "") :
    valid_filter "a+/b" = true ∧ «matches» t "a+/b" ≠ .ok true ∧
    valid_filter "$SYS/#" = true ∧ «matches» t "$SYS/#" ≠ .ok true := by
  have v1 : valid_filter "a+/b" = true := by decide +kernel
  have v2 : valid_filter "$SYS/#" = true := by decide +kernel
  refine ⟨v1, fun h => ?_, v2, fun h => ?_⟩
  · have := ((C108_alive_iff _ ((valid_filter_iff _).1 v1)).1 ⟨t, h0, hw, h⟩).1 _ (split_levels _) ['a', '+']
      (by decide +kernel) (by simp)
    simp at this
  · have := ((C108_alive_iff _ ((valid_filter_iff _).1 v2)).1 ⟨t, h0, hw, h⟩).2 '$' _ (by rfl)
    exact this.1 rfl

-- a filter that meets the hypotheses, and what the theorems say about it
example : ∃ t, ('+' ∉ t.toList ∧ '#' ∉ t.toList) ∧ «matches» t "sport/+/#" = .ok true ∧ 1000 < t.toList.length :=
  C108_unbounded "sport/+/#" ((valid_filter_iff _).1 (by decide +kernel)) (by decide +kernel)
    ⟨"sport/a", by decide, by decide +kernel, by decide +kernel⟩ 1000

example (t : String) : «matches» t "sport/tennis" = .ok true ↔ t = "sport/tennis" :=
  (C108_literal t "sport/tennis" (fun ls h => by rw [(levels_iff _ _).1 h]; decide +kernel)).trans
    ⟨fun h => h.1, fun h => ⟨h, fun c cs e => by
      rw [show "sport/tennis".toList = 's' :: "port/tennis".toList from by decide +kernel] at e
      cases e; exact ⟨by decide, by decide⟩⟩⟩

end Props
