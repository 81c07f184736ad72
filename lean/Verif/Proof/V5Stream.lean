import Verif.Proof.Stream
import Verif.Proof.V5Total
import Verif.Proof.V5Spec
import Verif.Props.Framing
/-! The v5 decoder as a stream decoder. -/
namespace Mqtt
open Spec

theorem v5_streaming (max : Nat) : Streaming (V5.read max) retryUnconsumed :=
  readG_streaming V5.readFrame max fun h s h1 _ _ => by
    rcases V5.readFrame_good h s h1 with h | ⟨e, h, _⟩
    · exact .inl h
    · exact .inr ⟨e, h⟩

theorem v5_pump_nil (max : Nat) : Pump (V5.read max) retryUnconsumed [] [] none [] :=
  .wait (readG_nil V5.readFrame max) ⟨⟨2, rfl⟩, rfl⟩

/-- a complete frame reaches the packet reader -/
theorem v5_read_frame (max : Nat) (b1 : UInt8) (bs bd rest : Bytes) (hv : IsVbi bs)
    (hl : vbiValue bs = bd.length) (hm : bd.length ≤ max) :
    V5.read max (b1 :: (bs ++ (bd ++ rest)))
      = (V5.readFrame ⟨b1, bs.length + 1, bd.length⟩ ((b1 :: bs) ++ bd), rest) := by
  have hc := check_frame b1 bs (bd ++ rest) max hv (by omega) (by simp; omega)
  rw [v5_read_eq, readG_ok _ max hc]
  have e : b1 :: (bs ++ (bd ++ rest)) = ((b1 :: bs) ++ bd) ++ rest := by simp
  simp only [FixedHeader.frame_length]
  rw [e, List.take_left' (by simp; omega), List.drop_left' (by simp; omega), hl]

end Mqtt
