import Verif.Props.Vocabulary
/-! C104: framing looks at five bytes at most. -/
namespace Props
open Mqtt Spec

theorem same_head {s s' : Bytes} (hl : s.length = s'.length) (h5 : s.take 5 = s'.take 5) {b1 : UInt8} {bs t : Bytes}
    (hs : s = b1 :: (bs ++ t)) (hb : bs.length ≤ 4) : ∃ t', s' = b1 :: (bs ++ t') ∧ t'.length = t.length := by
  have e : s'.take (bs.length + 1) = b1 :: bs := by
    have h : (s'.take 5).take (bs.length + 1) = s'.take (bs.length + 1) := by
      rw [List.take_take]; congr 1; omega
    rw [← h, ← h5, List.take_take, show min (bs.length + 1) 5 = bs.length + 1 by omega, hs, List.take_succ_cons, List.take_left]
  refine ⟨s'.drop (bs.length + 1), ?_, ?_⟩
  · rw [← List.cons_append, ← e, List.take_append_drop]
  · rw [List.length_drop, ← hl, hs]; simp

theorem framing_same_head {max : Nat} {s s' : Bytes} {e : Error} (hl : s.length = s'.length) (h5 : s.take 5 = s'.take 5)
    (h : FramingFails max s e) : FramingFails max s' e := by
  cases h with
  | empty =>
    cases s' with
    | nil => exact .empty
    | cons => simp at hl
  | @length b1 t e hf =>
    rcases hf with ⟨h1, h2, h3⟩ | ⟨a, t, rfl, h2, h3, h4⟩
    · obtain ⟨t', rfl, ht⟩ := same_head hl h5 (b1 := b1) (bs := t) (t := []) (by simp) (by omega)
      have : t' = [] := List.eq_nil_of_length_eq_zero (by simpa using ht)
      subst this
      exact .length (.inl (by simpa using ⟨h1, h2, h3⟩))
    · obtain ⟨t', rfl, ht⟩ := same_head hl h5 (bs := a) rfl (by omega)
      exact .length (.inr ⟨a, t', rfl, h2, h3, h4⟩)
  | @limit b1 bs t hv hm =>
    obtain ⟨t', rfl, ht⟩ := same_head hl h5 rfl hv.1
    exact .limit hv hm
  | @body b1 bs t hv hm hlt =>
    obtain ⟨t', rfl, ht⟩ := same_head hl h5 rfl hv.1
    rw [← ht]
    exact .body hv hm (by omega)

/-- C104: the verdict of `check` on a stream depends only on how long it is and on its first five bytes. -/
theorem C104_check_looks_at_five (max : Nat) (s s' : Bytes) (hl : s.length = s'.length) (h5 : s.take 5 = s'.take 5) :
    check s max = check s' max := by
  rcases check_total s max with ⟨h, hc⟩ | ⟨e, hc⟩
  · rw [hc]
    obtain ⟨b1, bs, rest, hs, hv, hm, hr, rfl⟩ := (check_ok_iff _ _ _).1 hc
    obtain ⟨t', rfl, ht⟩ := same_head hl h5 hs hv.1
    exact ((check_ok_iff _ _ _).2 ⟨b1, bs, t', rfl, hv, hm, by omega, rfl⟩).symm
  · rw [hc]
    exact ((check_err_iff _ _ _).2 (framing_same_head hl h5 ((check_err_iff _ _ _).1 hc))).symm

/-- C104: so while a frame is incomplete (or refused by its header), the reader's answer depends only on these, and
whatever the buffer holds beyond is neither looked at nor touched. -/
theorem C104_waiting_looks_at_five (max : Nat) (s s' : Bytes) (hl : s.length = s'.length) (h5 : s.take 5 = s'.take 5)
    (e : Error) :
    (V4.read max s = (.err e, s) → V4.read max s' = (.err e, s'))
    ∧ (V5.read max s = (.err e, s) → V5.read max s' = (.err e, s')) := by
  constructor
  · intro h
    rcases (V4.read_err_iff _ _ _ _).1 h with ⟨h, _⟩ | ⟨b1, bs, bd, h, _⟩
    · exact (V4.read_err_iff _ _ _ _).2 (.inl ⟨framing_same_head hl h5 h, rfl⟩)
    · have := congrArg List.length h
      simp at this; omega
  · intro h
    rcases (V5.read_err_iff _ _ _ _).1 h with ⟨h, _⟩ | ⟨b1, bs, bd, h, _⟩
    · exact (V5.read_err_iff _ _ _ _).2 (.inl ⟨framing_same_head hl h5 h, rfl⟩)
    · have := congrArg List.length h
      simp at this; omega

example : V4.read 99 [0x30, 9, 1, 2, 3, 255] = (.err (.InsufficientBytes 5), [0x30, 9, 1, 2, 3, 255]) :=
  (C104_waiting_looks_at_five 99 [0x30, 9, 1, 2, 3, 4] [0x30, 9, 1, 2, 3, 255] rfl rfl (.InsufficientBytes 5)).1 (by decide +kernel)


/-- C104: a frame announced by a shorter length field needs less: with `k` length bytes, the first `k + 1` bytes and the
length of the stream decide. -/
theorem C104_check_looks_at_header (max : Nat) (b1 : UInt8) (bs t t' : Bytes) (hv : IsVbi bs) (hl : t.length = t'.length) :
    check (b1 :: (bs ++ t)) max = check (b1 :: (bs ++ t')) max := by
  by_cases hm : vbiValue bs ≤ max
  · by_cases hr : vbiValue bs ≤ t.length
    · rw [(check_ok_iff _ _ _).2 ⟨b1, bs, t, rfl, hv, hm, hr, rfl⟩,
        (check_ok_iff _ _ _).2 ⟨b1, bs, t', rfl, hv, hm, by omega, rfl⟩]
    · rw [(check_err_iff _ _ _).2 (.body hv hm (by omega)), (check_err_iff _ _ _).2 (.body hv hm (by omega)), hl]
  · rw [(check_err_iff _ _ _).2 (.limit hv (by omega)), (check_err_iff _ _ _).2 (.limit hv (by omega))]

example : check [0x30, 2, 1, 2, 3] 99 = check [0x30, 2, 8, 8, 8] 99 :=
  C104_check_looks_at_header 99 0x30 [2] [1, 2, 3] [8, 8, 8] ⟨by decide, [], 2, rfl, by decide, by simp⟩ rfl


/-- C104: once the length field is there, the number asked for is exact and counts down: after any further `x` it is what
was asked minus `x`, and with nothing left to ask the frame is complete. -/
theorem C104_countdown (max n : Nat) (b1 : UInt8) (bs t x : Bytes) (hv : IsVbi bs)
    (h : check (b1 :: (bs ++ t)) max = .err (.InsufficientBytes n)) :
    (x.length < n → check (b1 :: (bs ++ t) ++ x) max = .err (.InsufficientBytes (n - x.length)))
    ∧ (n ≤ x.length → check (b1 :: (bs ++ t) ++ x) max = .ok ⟨b1, bs.length + 1, vbiValue bs⟩) := by
  have hm : vbiValue bs ≤ max := by
    by_contra hm
    rw [(check_err_iff _ _ _).2 (.limit hv (by omega))] at h
    cases h
  have hlt : t.length < vbiValue bs := by
    by_contra hlt
    rw [(check_ok_iff _ _ _).2 ⟨b1, bs, t, rfl, hv, hm, by omega, rfl⟩] at h
    cases h
  rw [(check_err_iff _ _ _).2 (.body hv hm hlt)] at h
  injection h with h
  injection h with h
  subst h
  have e : b1 :: (bs ++ t) ++ x = b1 :: (bs ++ (t ++ x)) := by simp
  rw [e]
  constructor
  · intro hx
    rw [(check_err_iff _ _ _).2 (.body hv hm (by rw [List.length_append]; omega)), List.length_append]
    congr 2; omega
  · intro hx
    exact (check_ok_iff _ _ _).2 ⟨b1, bs, t ++ x, rfl, hv, hm, by rw [List.length_append]; omega, rfl⟩

example : check ([0x30, 3, 1] ++ [2]) 9 = .err (.InsufficientBytes 1) ∧ check ([0x30, 3, 1] ++ [2, 3]) 9 = .ok ⟨0x30, 2, 3⟩ :=
  have hv : IsVbi [3] := ⟨by decide, [], 3, rfl, by decide, by simp⟩
  ⟨(C104_countdown 9 2 0x30 [3] [1] [2] hv (by decide +kernel)).1 (by decide),
    (C104_countdown 9 2 0x30 [3] [1] [2, 3] hv (by decide +kernel)).2 (by decide)⟩

/-- five is needed: the fifth byte and the length both matter -/
example : check [0x30, 128, 128, 128, 128, 0] 9 = .err .MalformedRemainingLength
    ∧ check [0x30, 128, 128, 128, 0, 0] 9 = .ok ⟨0x30, 5, 0⟩
    ∧ check [0x30, 128, 128, 128] 9 = .err (.InsufficientBytes 1) := by decide +kernel
/-- the sixth and later bytes do not -/
example : check [0x30, 9, 1, 2, 3, 4] 9 = check [0x30, 9, 1, 2, 3, 255] 9 :=
  C104_check_looks_at_five _ _ _ rfl rfl
end Props
