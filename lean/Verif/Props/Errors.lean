import Verif.Proof.V4Errors
import Verif.Proof.V4Total
import Verif.Proof.V5Errors
import Verif.Proof.V5Total
/-! Which error a stream is rejected with: C61 (v4), C62 (v5). -/
namespace Props
open Mqtt Spec

/-! ### C61 -/

/-- C61: `v4::read` reports `e` exactly when the stream does not start with a complete frame within the
limit, for the reason `e` (and then nothing is removed), or the frame it starts with is rejected for
the reason `e` (and then exactly that frame is removed). -/
theorem C61_v4_read_err_iff (max : Nat) (s s' : Bytes) (e : Error) :
    V4.read max s = (.err e, s') ↔
      (FramingFails max s e ∧ s' = s) ∨
      ∃ b1 bs bd, s = b1 :: (bs ++ (bd ++ s')) ∧ IsVbi bs ∧ vbiValue bs = bd.length ∧
        bd.length ≤ max ∧ Spec.V4.Rejects b1 bd e :=
  V4.read_err_iff e max s s'

/-- C61: every frame either denotes exactly one packet or is rejected for exactly one reason, never
both. -/
theorem C61_v4_accept_xor_reject (b1 : UInt8) (bd : Bytes) :
    ((∃ p, ∀ p', Spec.V4.Denotes b1 bd p' ↔ p' = p) ∧ ∀ e, ¬ Spec.V4.Rejects b1 bd e) ∨
    ((∃ e, ∀ e', Spec.V4.Rejects b1 bd e' ↔ e' = e) ∧ ∀ p, ¬ Spec.V4.Denotes b1 bd p) := by
  have ok := V4.readFrame_iff ⟨b1, 0, bd.length⟩ [] bd rfl rfl
  have er := fun e => V4.readFrame_err ⟨b1, 0, bd.length⟩ [] bd rfl e rfl
  rcases V4.readFrame_good ⟨b1, 0, bd.length⟩ ([] ++ bd) (by simp) (by simp) with
    ⟨p, h⟩ | ⟨e, h, -⟩
  · refine .inl ⟨⟨p, fun p' => ?_⟩, fun e => ?_⟩
    · rw [← ok, h]; simp [eq_comm]
    · rw [← er, h]; simp
  · refine .inr ⟨⟨e, fun e' => ?_⟩, fun p => ?_⟩
    · rw [← er, h]; simp [eq_comm]
    · rw [← ok, h]; simp

/-! Each kind of reason occurs. -/
example : V4.read 99 [] = (.err (.InsufficientBytes 2), []) := by decide +kernel
example : V4.read 9 [0x30, 10] = (.err (.PayloadSizeLimitExceeded 10), [0x30, 10]) := by decide +kernel
example : V4.read 99 [0x30, 0x80, 0x80, 0x80, 0x80] =
    (.err .MalformedRemainingLength, [0x30, 0x80, 0x80, 0x80, 0x80]) := by decide +kernel
example : V4.read 99 [0xF0, 1, 7, 8] = (.err (.InvalidPacketType 15), [8]) := by decide +kernel
example : V4.read 99 [0x20, 0, 8] = (.err .PayloadRequired, [8]) := by decide +kernel
example : V4.read 99 [0x20, 2, 0, 6, 8] = (.err (.InvalidConnectReturnCode 6), [8]) := by decide +kernel
example : V4.read 99 [0x36, 3, 0, 1, 65, 8] = (.err (.InvalidQoS 3), [8]) := by decide +kernel
example : V4.read 99 [0x32, 5, 0, 1, 65, 0, 0, 8] = (.err .PacketIdZero, [8]) := by decide +kernel
example : V4.read 99 [0x30, 3, 0, 5, 65, 8] = (.err (.BoundaryCrossed 5), [8]) := by decide +kernel
example : V4.read 99 [0x30, 3, 0, 1, 0xFF, 8] = (.err .TopicNotUtf8, [8]) := by decide +kernel
example : V4.read 99 [0x82, 2, 0, 1, 8] = (.err .EmptySubscription, [8]) := by decide +kernel
example : V4.read 99 [0x90, 3, 0, 1, 3, 8] = (.err (.InvalidSubscribeReasonCode 3), [8]) := by
  decide +kernel
example : V4.read 99 [0xB0, 3, 0, 1, 3, 8] = (.err .PayloadSizeIncorrect, [8]) := by decide +kernel
example : V4.read 99 [0x10, 7, 0, 4, 77, 81, 84, 84, 3, 8] = (.err (.InvalidProtocolLevel 3), [8]) := by
  decide +kernel
example : V4.read 99 [0x10, 6, 0, 3, 77, 81, 84, 4, 8] = (.err .InvalidProtocol, [8]) := by decide +kernel
example : V4.read 99 [0x10, 12, 0, 4, 77, 81, 84, 84, 4, 0x08, 0, 0, 0, 0, 8] =
    (.err .IncorrectPacketFormat, [8]) := by decide +kernel

/-! ### C62 -/

/-- C62: `v5::read` reports `e` exactly when the stream does not start with a complete frame within the
limit, for the reason `e` (and then nothing is removed), or the frame it starts with is rejected for
the reason `e` (and then exactly that frame is removed). -/
theorem C62_v5_read_err_iff (max : Nat) (s s' : Bytes) (e : Error) :
    V5.read max s = (.err e, s') ↔
      (FramingFails max s e ∧ s' = s) ∨
      ∃ b1 bs bd, s = b1 :: (bs ++ (bd ++ s')) ∧ IsVbi bs ∧ vbiValue bs = bd.length ∧
        bd.length ≤ max ∧ Spec.V5.Rejects b1 bd e :=
  V5.read_err_iff e max s s'

/-- C62: every frame either denotes exactly one packet or is rejected for exactly one reason, never
both (a frame body has at most 268435455 bytes). -/
theorem C62_v5_accept_xor_reject (b1 : UInt8) (bd : Bytes) (hb : bd.length ≤ maxRemaining) :
    ((∃ p, ∀ p', Spec.V5.Denotes b1 bd p' ↔ p' = p) ∧ ∀ e, ¬ Spec.V5.Rejects b1 bd e) ∨
    ((∃ e, ∀ e', Spec.V5.Rejects b1 bd e' ↔ e' = e) ∧ ∀ p, ¬ Spec.V5.Denotes b1 bd p) := by
  have ok := V5.readFrame_iff ⟨b1, 0, bd.length⟩ [] bd rfl hb rfl
  have er := fun e => V5.readFrame_err ⟨b1, 0, bd.length⟩ [] bd rfl hb e rfl
  rcases V5.readFrame_good ⟨b1, 0, bd.length⟩ ([] ++ bd) (by simp) with
    ⟨p, h⟩ | ⟨e, h, -⟩
  · refine .inl ⟨⟨p, fun p' => ?_⟩, fun e => ?_⟩
    · rw [← ok, h]; simp [eq_comm]
    · rw [← er, h]; simp
  · refine .inr ⟨⟨e, fun e' => ?_⟩, fun p => ?_⟩
    · rw [← er, h]; simp [eq_comm]
    · rw [← ok, h]; simp

/-! Each kind of reason occurs. -/
example : V5.read 99 [] = (.err (.InsufficientBytes 2), []) := by decide +kernel
example : V5.read 9 [0x30, 10] = (.err (.PayloadSizeLimitExceeded 10), [0x30, 10]) := by decide +kernel
example : V5.read 99 [0xF0, 1, 7, 8] = (.err (.InvalidPacketType 15), [8]) := by decide +kernel
example : V5.read 99 [0xE0, 0, 8] = (.err .PayloadRequired, [8]) := by decide +kernel
example : V5.read 99 [0x20, 3, 0, 1, 0, 8] = (.err (.InvalidConnectReturnCode 1), [8]) := by decide +kernel
example : V5.read 99 [0x20, 4, 0, 0, 1, 0xFF, 8] = (.err (.InvalidPropertyType 0xFF), [8]) := by decide +kernel
example : V5.read 99 [0x40, 5, 0, 1, 0, 1, 2, 8] = (.err (.InvalidPropertyType 2), [8]) := by decide +kernel
example : V5.read 99 [0x40, 4, 0, 1, 1, 0, 8] = (.err (.InvalidConnectReturnCode 1), [8]) := by decide +kernel
example : V5.read 99 [0x32, 5, 0, 1, 65, 0, 0, 8] = (.err .PacketIdZero, [8]) := by decide +kernel
example : V5.read 99 [0x82, 1, 0, 8] = (.err .MalformedPacket, [8]) := by decide +kernel
example : V5.read 99 [0x82, 7, 0, 1, 0, 0, 1, 65, 0x30, 8] =
    (.err (.InvalidRetainForwardRule 3), [8]) := by decide +kernel
example : V5.read 99 [0x82, 7, 0, 1, 0, 0, 1, 65, 3, 8] = (.err (.InvalidQoS 3), [8]) := by decide +kernel
example : V5.read 99 [0x90, 3, 0, 1, 0, 8] = (.err .MalformedPacket, [8]) := by decide +kernel
example : V5.read 99 [0xB0, 4, 0, 1, 0, 3, 8] = (.err (.InvalidSubscribeReasonCode 3), [8]) := by
  decide +kernel
example : V5.read 99 [0xE0, 1, 4, 8] = (.err (.InsufficientBytes 1), [8]) := by decide +kernel
example : V5.read 99 [0xE1, 2, 4, 0, 8] = (.err .MalformedPacket, [8]) := by decide +kernel

end Props
