import Verif.Proof.Topic
/-! Topics: C44-C49. -/
namespace Props
open Mqtt.Topic Spec.Topic
open Mqtt (Res)

/-- the levels of a string exist and are unique, so statements about "the levels of `s`" make sense -/
theorem levels_exists_unique (s : String) : ∃ ls, Levels s ls ∧ ∀ ls', Levels s ls' → ls' = ls :=
  ⟨_, split_levels s, fun _ h => (levels_iff s _).1 h⟩

example : Levels "a//b" [['a'], [], ['b']] := (levels_iff _ _).2 (by decide)

/-! ### C44 -/

/-- C44: for a valid filter and a wildcard-free topic that does not start with '$', the answer of
`matches` is `true` iff the filter matches level by level (`Spec.Topic.Match`).  (`C47` says when there
is an answer.) -/
theorem C44_matches_iff (t f : String) (tl fl : List Level) (ht : Levels t tl) (hf : Levels f fl)
    (hw : '+' ∉ t.toList ∧ '#' ∉ t.toList) (hd : ∀ cs, t.toList ≠ '$' :: cs) (hv : HashOnlyLast f)
    (b : Bool) (h : «matches» t f = .ok b) : b = true ↔ Match fl tl := by
  have e1 := (levels_iff t tl).1 ht
  have e2 := (levels_iff f fl).1 hf
  rcases matches_cases t f with ⟨_, cs, hc⟩ | ⟨h', _⟩ | ⟨h', _⟩
  · exact absurd hc (hd cs)
  · rw [h'] at h; simp at h
  · rw [h'] at h
    simp only [Res.ok.injEq] at h
    rw [← h, e1, e2]
    refine matchesLoop_iff _ _ ?_ ?_
    · intro a b hab
      exact (hv.2 _ (split_levels f) a ['#'] b hab (by simp)).2
    · intro hm
      exact hw.2 ((mem_split t.toList '#' (by decide)).1 ⟨['#'], hm, by simp⟩)

/-- the hypotheses hold e.g. for `sport/+/#` against `sport/tennis`, which it matches -/
example : «matches» "sport/tennis" "sport/+/#" = .ok true ∧ HashOnlyLast "sport/+/#"
    ∧ Match [['s','p','o','r','t'], ['+'], ['#']] [['s','p','o','r','t'], ['t','e','n','n','i','s']] :=
  ⟨by decide +kernel, (valid_filter_iff _).1 (by decide +kernel), .same _ (.plus _ (.hash _))⟩
example : «matches» "sport/tennis/x" "sport/+" = .ok false := by decide +kernel

/-! ### C45, C46 -/

/-- C45: `valid_filter` is true iff the filter is non-empty and '#' occurs at most as the whole last
level. -/
theorem C45_valid_filter_iff (f : String) : valid_filter f = true ↔ HashOnlyLast f := valid_filter_iff f

example : valid_filter "a/#" = true ∧ valid_filter "a/#/b" = false ∧ valid_filter "a#" = false
    ∧ valid_filter "" = false := by decide +kernel

/-- C46: `valid_topic` is true iff the topic contains neither '+' nor '#'. -/
theorem C46_valid_topic_iff (t : String) :
    valid_topic t = true ↔ '+' ∉ t.toList ∧ '#' ∉ t.toList := by
  simp [valid_topic]

/-- C46: `has_wildcards` is the negation of `valid_topic`. -/
theorem C46_has_wildcards_iff (t : String) : has_wildcards t = !valid_topic t := by
  unfold has_wildcards valid_topic
  cases t.toList.contains '+' <;> cases t.toList.contains '#' <;> rfl

example : valid_topic "a/b" = true ∧ valid_topic "a/+" = false ∧ has_wildcards "a/#" = true := by
  decide +kernel

/-! ### C47 -/

theorem utf8Size_ne_one (c : Char) : c.utf8Size ≠ 1 ↔ 128 ≤ c.toNat := by
  have h : c.utf8Size = 1 ↔ c.toNat ≤ 127 := by
    rw [Char.utf8Size_eq_one_iff]; rfl
  rw [ne_eq, h]; omega

/-- C47, as it really is: `matches` panics exactly when the topic starts with a non-ASCII character;
otherwise it returns a boolean. -/
theorem C47_matches_panic_iff (t f : String) :
    («matches» t f = .panic ↔ ∃ c cs, t.toList = c :: cs ∧ 128 ≤ c.toNat) ∧
    ((¬ ∃ c cs, t.toList = c :: cs ∧ 128 ≤ c.toNat) → ∃ b, «matches» t f = .ok b) := by
  have key : (∃ c cs, t.toList = c :: cs ∧ 128 ≤ c.toNat) → «matches» t f = .panic := by
    rintro ⟨c, cs, h, hc⟩
    unfold «matches»
    rw [h]
    simp only [if_pos ((utf8Size_ne_one c).2 hc)]
  rcases matches_cases t f with ⟨h, cs, hc⟩ | ⟨h, c, cs, hc, h1⟩ | ⟨h, _⟩
  · refine ⟨⟨fun h' => by rw [h] at h'; simp at h', key⟩, fun _ => ⟨_, h⟩⟩
  · have := (utf8Size_ne_one c).1 h1
    exact ⟨⟨fun _ => ⟨c, cs, hc, this⟩, key⟩, fun hn => absurd ⟨c, cs, hc, this⟩ hn⟩
  · refine ⟨⟨fun h' => by rw [h] at h'; simp at h', key⟩, fun _ => ⟨_, h⟩⟩

example : «matches» "été" "#" = .panic ∧ «matches» "aé" "#" = .ok true := by decide +kernel

/-- C47: a topic on which `matches` panics, although topic and filter are valid. -/
theorem C47_panics : «matches» "été" "#" = .panic ∧ valid_topic "été" = true ∧ valid_filter "#" = true := by
  decide +kernel

/-! ### C48 -/

/-- C48: `matches` is transitive: if filter `f2` covers filter `f1` and `f1` matches `t`, then `f2`
matches `t` (all strings). -/
theorem C48_matches_trans (t f1 f2 : String) (h1 : «matches» f1 f2 = .ok true)
    (h2 : «matches» t f1 = .ok true) : «matches» t f2 = .ok true := by
  have e1 : matchesLoop (split f2.toList) (split f1.toList) = true := by
    rcases matches_cases f1 f2 with ⟨h, _⟩ | ⟨h, _⟩ | ⟨h, _⟩ <;> rw [h] at h1 <;> simp at h1
    exact h1
  rcases matches_cases t f1 with ⟨h, _⟩ | ⟨h, _⟩ | ⟨h, hd⟩ <;> rw [h] at h2 <;> simp at h2
  have e2 := matchesLoop_trans _ _ _ e1 h2
  rcases matches_cases t f2 with ⟨_, hc⟩ | ⟨h', c, cs, hc, h3⟩ | ⟨h', _⟩
  · exact absurd hc hd
  · -- then `matches t f1` would have panicked
    have := (C47_matches_panic_iff t f1).1.2 ⟨c, cs, hc, (utf8Size_ne_one c).1 h3⟩
    rw [this] at h; simp at h
  · rw [h', e2]

example : «matches» "a/+" "a/#" = .ok true ∧ «matches» "a/b" "a/+" = .ok true ∧ «matches» "a/b" "a/#" = .ok true := by
  decide +kernel

/-! ### C49 -/

/-- C49, as it really is: a topic starting with '$' matches no filter at all, in particular none that
starts with a wildcard. -/
theorem C49_dollar_never_matches (t f : String) (h : ∃ cs, t.toList = '$' :: cs) : «matches» t f = .ok false := by
  obtain ⟨cs, h⟩ := h
  unfold «matches»
  rw [h]
  simp only [show ¬ ('$'.utf8Size ≠ 1) by decide, if_false, if_true]

example : «matches» "$SYS/x" "$SYS/x" = .ok false := by decide +kernel

/-- C49: the second half of MQTT 4.7.2 does not hold: `$SYS/x` does not match the filter `$SYS/x`,
although it matches level by level. -/
theorem C49_literal_dollar_filter_missed :
    «matches» "$SYS/x" "$SYS/x" = .ok false ∧ ∃ ls, Levels "$SYS/x" ls ∧ Match ls ls := by
  refine ⟨by decide +kernel, [['$','S','Y','S'], ['x']], (levels_iff _ _).2 (by decide +kernel), ?_⟩
  exact .same _ (.same _ .done)

/-! ### C59 -/

/-- every level list without '#' levels matches itself -/
theorem match_refl (ls : List Level) : Match ls ls := by
  induction ls with
  | nil => exact .done
  | cons l ls ih => exact .same l ih

/-- C59: a wildcard-free topic (not starting with '$', ASCII first character) matches itself, and
matches `#`. -/
theorem C59_matches_self (t : String) (hw : '+' ∉ t.toList ∧ '#' ∉ t.toList) (hd : ∀ cs, t.toList ≠ '$' :: cs)
    (ha : ¬ ∃ c cs, t.toList = c :: cs ∧ 128 ≤ c.toNat) (hne : t ≠ "") :
    «matches» t t = .ok true ∧ «matches» t "#" = .ok true := by
  have hv : HashOnlyLast t := by
    refine ⟨hne, fun ls hls a l b hab hm => ?_⟩
    exact absurd ((mem_split t.toList '#' (by decide)).1 ⟨l, by
      rw [← (levels_iff t ls).1 hls, hab]; simp, hm⟩) hw.2
  constructor
  · obtain ⟨b, hb⟩ := (C47_matches_panic_iff t t).2 ha
    have := (C44_matches_iff t t _ _ (split_levels t) (split_levels t) hw hd hv b hb).2 (match_refl _)
    rw [hb, this]
  · obtain ⟨b, hb⟩ := (C47_matches_panic_iff t "#").2 ha
    have hh : Levels "#" [['#']] := (levels_iff _ _).2 (by decide +kernel)
    have := (C44_matches_iff t "#" _ _ (split_levels t) hh hw hd ((valid_filter_iff _).1 (by decide +kernel)) b hb).2
      (.hash _)
    rw [hb, this]

example : «matches» "a/b" "a/b" = .ok true := by decide +kernel

end Props
