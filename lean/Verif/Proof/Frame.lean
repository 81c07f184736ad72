import Verif.Proof.Vbi
import Verif.Model.V4
import Verif.Proof.V5Shared
/-! Framing: `check` and the common shape of `v4::read` and `v5::read`. -/
namespace Mqtt
open Spec

/-- `check` in closed form -/
theorem check_eq (s : Bytes) (max : Nat) : check s max =
    if s.length < 2 then .err (.InsufficientBytes (2 - s.length))
    else match s with
      | [] => .panic
      | b1 :: t => match length t with
        | .ok (k, n) =>
          if n > max then .err (.PayloadSizeLimitExceeded n)
          else if s.length < k + 1 + n then .err (.InsufficientBytes (k + 1 + n - s.length))
          else .ok ⟨b1, k + 1, n⟩
        | .err e => .err e
        | .panic => .panic
        | .diverge => .diverge := by
  unfold check parse_fixed_header
  simp only
  by_cases h : s.length < 2
  · rw [if_pos h, if_pos h]
  · rw [if_neg h, if_neg h]
    cases s with
    | nil => rfl
    | cons b1 t =>
      simp only
      cases length t with
      | ok kn => obtain ⟨k, n⟩ := kn; rfl
      | err e => rfl
      | panic => rfl
      | diverge => rfl

/-- the header found by `check`, in terms of the stream -/
theorem check_ok_iff (s : Bytes) (max : Nat) (h : FixedHeader) :
    check s max = .ok h ↔
      ∃ b1 bs rest, s = b1 :: (bs ++ rest) ∧ IsVbi bs ∧ vbiValue bs ≤ max ∧
        vbiValue bs ≤ rest.length ∧ h = ⟨b1, bs.length + 1, vbiValue bs⟩ := by
  rw [check_eq]
  constructor
  · intro hc
    split at hc
    · simp at hc
    cases s with
    | nil => simp at hc
    | cons b1 t =>
      simp only at hc
      cases hl : length t with
      | ok kn =>
        obtain ⟨k, n⟩ := kn
        rw [hl] at hc
        simp only at hc
        split at hc
        · simp at hc
        split at hc
        · simp at hc
        simp only [Res.ok.injEq] at hc
        obtain ⟨bs, rest, rfl, hv, rfl, rfl⟩ := (length_ok_iff _ _ _).1 hl
        refine ⟨b1, bs, rest, rfl, hv, by omega, ?_, hc.symm⟩
        simp only [List.length_cons, List.length_append] at *
        omega
      | err e => rw [hl] at hc; simp at hc
      | panic => rw [hl] at hc; simp at hc
      | diverge => rw [hl] at hc; simp at hc
  · rintro ⟨b1, bs, rest, rfl, hv, hm, hr, rfl⟩
    have hne := isVbi_ne_nil hv
    have : 1 ≤ bs.length := by
      cases bs with
      | nil => exact absurd rfl hne
      | cons => simp
    rw [if_neg (by simp only [List.length_cons, List.length_append]; omega)]
    simp only
    rw [(length_ok_iff (bs ++ rest) bs.length (vbiValue bs)).2 ⟨bs, rest, rfl, hv, rfl, rfl⟩]
    simp only
    rw [if_neg (by omega),
      if_neg (by simp only [List.length_cons, List.length_append]; omega)]

theorem check_total (s : Bytes) (max : Nat) :
    (∃ h, check s max = .ok h) ∨ (∃ e, check s max = .err e) := by
  rw [check_eq]
  split
  · simp
  cases s with
  | nil => simp at *
  | cons b1 t =>
    simp only
    rcases length_cases t with ⟨k, n, h⟩ | h | h
    · rw [h]; simp only
      split
      · simp
      split <;> simp
    · rw [h]; simp
    · rw [h]; simp

/-- a header in a stream that is followed by enough bytes -/
theorem check_frame (b1 : UInt8) (bs rest : Bytes) (max : Nat) (hv : IsVbi bs)
    (hm : vbiValue bs ≤ max) (hr : vbiValue bs ≤ rest.length) :
    check (b1 :: (bs ++ rest)) max = .ok ⟨b1, bs.length + 1, vbiValue bs⟩ :=
  (check_ok_iff _ _ _).2 ⟨b1, bs, rest, rfl, hv, hm, hr, rfl⟩

/-- the frame of the specification is recognised -/
theorem check_spec_frame (b1 : Nat) (body rest : Bytes) (max : Nat)
    (hb : body.length ≤ maxRemaining) (hm : body.length ≤ max) :
    check (frame b1 body ++ rest) max
      = .ok ⟨UInt8.ofNat b1, (vbi body.length).length + 1, body.length⟩ := by
  have := check_frame (UInt8.ofNat b1) (vbi body.length) (body ++ rest) max (vbi_isVbi hb)
    (by rw [vbiValue_vbi hb]; exact hm) (by rw [vbiValue_vbi hb]; simp)
  rw [vbiValue_vbi hb] at this
  simpa [frame, Spec.u8] using this

/-- The text shared by `v4::read` and `v5::read` (src/v4/mod.rs 51-54, src/v5/mod.rs 118-122),
with the packet dispatcher as parameter -/
def readG {P : Type} (rf : FixedHeader → Bytes → Res P) (max_size : Nat) : M P := do
  let stream ← M.look
  let fixed_header ← M.lift (check stream max_size)
  let packet ← splitTo fixed_header.frame_length
  M.lift (rf fixed_header packet)

theorem v4_read_eq (max : Nat) : V4.read max = readG V4.readFrame max := rfl
theorem v5_read_eq (max : Nat) : V5.read max = readG V5.readFrame max := rfl

section
variable {P : Type} (rf : FixedHeader → Bytes → Res P) (max : Nat)

theorem readG_err {s : Bytes} {e : Error} (h : check s max = .err e) :
    readG rf max s = (.err e, s) := by
  unfold readG; mrun; rw [h]; rfl

theorem check_frame_length_le {s : Bytes} {h : FixedHeader} (hc : check s max = .ok h) :
    h.frame_length ≤ s.length ∧ 2 ≤ h.frame_length := by
  obtain ⟨b1, bs, rest, rfl, hv, hm, hr, rfl⟩ := (check_ok_iff _ _ _).1 hc
  have hne := isVbi_ne_nil hv
  have : 1 ≤ bs.length := by
    cases bs with
    | nil => exact absurd rfl hne
    | cons => simp
  simp only [FixedHeader.frame_length, List.length_cons, List.length_append]
  omega

theorem check_remaining_le {s : Bytes} {h : FixedHeader} (hc : check s max = .ok h) :
    h.remaining_len ≤ maxRemaining := by
  obtain ⟨b1, bs, rest, rfl, hv, hm, hr, rfl⟩ := (check_ok_iff _ _ _).1 hc
  exact vbiValue_le hv

theorem readG_ok {s : Bytes} {h : FixedHeader} (hc : check s max = .ok h) :
    readG rf max s = (rf h (s.take h.frame_length), s.drop h.frame_length) := by
  unfold readG; mrun; rw [hc]
  have := (check_frame_length_le max hc).1
  simp only [andThen_ok, bind_run, splitTo, this, if_true, lift_run]

/-- reading a frame of the specification -/
theorem readG_spec_frame (b1 : Nat) (body rest : Bytes)
    (hb : body.length ≤ maxRemaining) (hm : body.length ≤ max) :
    readG rf max (frame b1 body ++ rest)
      = (rf ⟨UInt8.ofNat b1, (vbi body.length).length + 1, body.length⟩ (frame b1 body), rest) := by
  rw [readG_ok rf max (check_spec_frame b1 body rest max hb hm)]
  have hl : FixedHeader.frame_length
      ⟨UInt8.ofNat b1, (vbi body.length).length + 1, body.length⟩ = (frame b1 body).length := by
    simp [FixedHeader.frame_length, frame, Spec.u8]; omega
  rw [hl, List.take_left', List.drop_left'] <;> rfl

/-- `check` succeeding is stable under extension -/
theorem check_ok_append {s : Bytes} {h : FixedHeader} (hc : check s max = .ok h) (t : Bytes) :
    check (s ++ t) max = .ok h := by
  obtain ⟨b1, bs, rest, rfl, hv, hm, hr, rfl⟩ := (check_ok_iff _ _ _).1 hc
  refine (check_ok_iff _ _ _).2 ⟨b1, bs, rest ++ t, by simp, hv, hm, ?_, rfl⟩
  simp only [List.length_append]; omega

theorem length_ok_append {s : Bytes} {k n : Nat} (h : length s = .ok (k, n)) (t : Bytes) :
    length (s ++ t) = .ok (k, n) := by
  obtain ⟨bs, r, rfl, hv, rfl, rfl⟩ := (length_ok_iff _ _ _).1 h
  exact (length_ok_iff _ _ _).2 ⟨bs, r ++ t, by simp, hv, rfl, rfl⟩

theorem length_malformed_append {s : Bytes} (h : length s = .err .MalformedRemainingLength)
    (t : Bytes) : length (s ++ t) = .err .MalformedRemainingLength := by
  obtain ⟨a, r, rfl, h1, h2⟩ := (length_malformed_iff _).1 h
  exact (length_malformed_iff _).2 ⟨a, r ++ t, by simp, h1, h2⟩

/-- the possible errors of `check` -/
theorem check_err_cases {s : Bytes} {e : Error} (h : check s max = .err e) :
    (∃ n, e = .InsufficientBytes n) ∨ e = .MalformedRemainingLength
      ∨ (∃ n, e = .PayloadSizeLimitExceeded n) := by
  rw [check_eq] at h
  split at h
  · simp only [Res.err.injEq] at h; exact .inl ⟨_, h.symm⟩
  cases s with
  | nil => simp at h
  | cons b1 t =>
    simp only at h
    rcases length_cases t with ⟨k, n, hl⟩ | hl | hl
    · rw [hl] at h; simp only at h
      split at h
      · simp only [Res.err.injEq] at h; exact .inr (.inr ⟨_, h.symm⟩)
      split at h
      · simp only [Res.err.injEq] at h; exact .inl ⟨_, h.symm⟩
      · simp at h
    · rw [hl] at h; simp only [Res.err.injEq] at h; exact .inl ⟨_, h.symm⟩
    · rw [hl] at h; simp only [Res.err.injEq] at h; exact .inr (.inl h.symm)

theorem check_malformed_iff (s : Bytes) :
    check s max = .err .MalformedRemainingLength ↔
      ∃ b1 a t, s = b1 :: (a ++ t) ∧ a.length = 4 ∧ ∀ b ∈ a, 128 ≤ b.toNat := by
  rw [check_eq]
  constructor
  · intro h
    split at h
    · simp at h
    cases s with
    | nil => simp at h
    | cons b1 t =>
      simp only at h
      rcases length_cases t with ⟨k, n, hl⟩ | hl | hl
      · rw [hl] at h; simp only at h
        split at h
        · simp at h
        split at h <;> simp at h
      · rw [hl] at h; simp at h
      · obtain ⟨a, r, rfl, h1, h2⟩ := (length_malformed_iff _).1 hl
        exact ⟨b1, a, r, rfl, h1, h2⟩
  · rintro ⟨b1, a, t, rfl, h1, h2⟩
    rw [if_neg (by simp only [List.length_cons, List.length_append]; omega)]
    simp only
    rw [(length_malformed_iff (a ++ t)).2 ⟨a, t, rfl, h1, h2⟩]

theorem check_limit_iff (s : Bytes) (n : Nat) :
    check s max = .err (.PayloadSizeLimitExceeded n) ↔
      ∃ b1 bs t, s = b1 :: (bs ++ t) ∧ IsVbi bs ∧ vbiValue bs = n ∧ max < n := by
  rw [check_eq]
  constructor
  · intro h
    split at h
    · simp at h
    cases s with
    | nil => simp at h
    | cons b1 t =>
      simp only at h
      rcases length_cases t with ⟨k, m, hl⟩ | hl | hl
      · rw [hl] at h; simp only at h
        obtain ⟨bs, r, rfl, hv, rfl, rfl⟩ := (length_ok_iff _ _ _).1 hl
        split at h
        · simp only [Res.err.injEq, Error.PayloadSizeLimitExceeded.injEq] at h
          exact ⟨b1, bs, r, rfl, hv, h, by omega⟩
        split at h <;> simp at h
      · rw [hl] at h; simp at h
      · rw [hl] at h; simp at h
  · rintro ⟨b1, bs, t, rfl, hv, rfl, hm⟩
    have hne := isVbi_ne_nil hv
    have : 1 ≤ bs.length := by
      cases bs with
      | nil => exact absurd rfl hne
      | cons => simp
    rw [if_neg (by simp only [List.length_cons, List.length_append]; omega)]
    simp only
    rw [(length_ok_iff (bs ++ t) bs.length (vbiValue bs)).2 ⟨bs, t, rfl, hv, rfl, rfl⟩]
    simp only
    rw [if_pos (by omega)]

/-- `check` asks for more bytes exactly when the header is incomplete or the body is -/
theorem check_insufficient_iff (s : Bytes) (n : Nat) :
    check s max = .err (.InsufficientBytes n) ↔
      (s = [] ∧ n = 2)
      ∨ (∃ b1 t, s = b1 :: t ∧ t.length < 4 ∧ (∀ b ∈ t, 128 ≤ b.toNat) ∧ n = 1)
      ∨ (∃ b1 bs t, s = b1 :: (bs ++ t) ∧ IsVbi bs ∧ vbiValue bs ≤ max ∧
          t.length < vbiValue bs ∧ n = vbiValue bs - t.length) := by
  rw [check_eq]
  match s with
  | [] => simp; constructor <;> (intro h; exact h.symm)
  | [b1] =>
    simp only [List.length_cons, List.length_nil, Nat.zero_add]
    rw [if_pos (by omega)]
    simp only [Res.err.injEq, Error.InsufficientBytes.injEq]
    constructor
    · intro h; exact .inr (.inl ⟨b1, [], rfl, by simp, by simp, by omega⟩)
    · rintro (⟨h, _⟩ | ⟨_, _, _, _, _, h⟩ | ⟨b, bs, t, h, hv, _⟩)
      · simp at h
      · omega
      · simp only [List.cons.injEq] at h
        have := isVbi_ne_nil hv
        have h2 := h.2
        simp at h2
        exact absurd h2.1 this
  | b1 :: c :: t =>
    rw [if_neg (by simp only [List.length_cons]; omega)]
    simp only
    constructor
    · intro h
      rcases length_cases (c :: t) with ⟨k, m, hl⟩ | hl | hl
      · rw [hl] at h; simp only at h
        obtain ⟨bs, r, hs, hv, rfl, rfl⟩ := (length_ok_iff _ _ _).1 hl
        split at h
        · simp at h
        split at h
        · simp only [Res.err.injEq, Error.InsufficientBytes.injEq] at h
          rw [hs] at *
          refine .inr (.inr ⟨b1, bs, r, rfl, hv, by omega, ?_, ?_⟩)
          all_goals simp only [List.length_cons, List.length_append] at *; omega
        · simp at h
      · rw [hl] at h
        simp only [Res.err.injEq, Error.InsufficientBytes.injEq] at h
        obtain ⟨_, h1, h2⟩ := (length_insufficient_iff _ _).1 hl
        exact .inr (.inl ⟨b1, c :: t, rfl, h1, h2, h.symm⟩)
      · rw [hl] at h; simp at h
    · rintro (⟨h, _⟩ | ⟨b, t', h, h1, h2, rfl⟩ | ⟨b, bs, r, h, hv, hm, hr, rfl⟩)
      · simp at h
      · simp only [List.cons.injEq] at h
        obtain ⟨rfl, h⟩ := h
        rw [h, (length_insufficient_iff t' 1).2 ⟨rfl, h1, h2⟩]
      · simp only [List.cons.injEq] at h
        obtain ⟨rfl, h⟩ := h
        rw [h, (length_ok_iff (bs ++ r) bs.length (vbiValue bs)).2 ⟨bs, r, rfl, hv, rfl, rfl⟩]
        simp only
        rw [if_neg (by omega), if_pos (by simp only [List.length_cons, List.length_append]; omega)]
        simp only [List.length_cons, List.length_append]
        congr 2; omega

end
end Mqtt
