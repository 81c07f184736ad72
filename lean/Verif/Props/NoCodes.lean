import Verif.Props.Errors
import Verif.Props.V5RoundTrip
/-! C37: SUBACK and UNSUBACK without codes. -/
namespace Props
open Mqtt Spec Mqtt.V5 Spec.V5

theorem reason_section (o : Option ReasonProps) (hf : PropsFit reasonProps o)
    (hl : (optSec reasonProps o).length ≤ maxRemaining) : ∃ ps, SecDenotes reasonKind (optSec reasonProps o) ps := by
  by_cases hne : NonEmpty reasonProps o
  · obtain ⟨ps, h, -⟩ := optSec_denotes reason_set o hne hf (fun p _ => readable_none no_vbi_reason reason_kinds p) hl
    exact ⟨ps, h⟩
  · cases o with
    | none => exact absurd (fun p h => by cases h) hne
    | some p =>
      have he : reasonProps p = [] := by
        refine Classical.byContradiction fun h => hne fun q hq => ?_
        cases hq; exact h
      refine ⟨none, ?_⟩
      show IsVbi (sec (reasonProps p)) ∧ vbiValue (sec (reasonProps p)) = 0
      rw [he]
      exact ⟨vbi_isVbi (n := 0) (by decide), rfl⟩

/-- C37: a SUBACK or UNSUBACK without codes, whatever its properties, is written, but every read of it fails with
`MalformedPacket` (and removes it). -/
theorem C37_v5_no_codes_unreadable (p : Packet)
    (hp : (∃ a, p = .SubAck a ∧ a.return_codes = []) ∨ ∃ a, p = .UnsubAck a ∧ a.reasons = [])
    (hf : FieldsFit p) (hl : (body p).length ≤ 268435455) (s : Bytes) :
    ∃ bytes, p.write s = (.ok bytes.length, s ++ bytes) ∧
      ∀ max rest, (body p).length ≤ max → V5.read max (bytes ++ rest) = (.err .MalformedPacket, rest) := by
  rcases hp with ⟨a, rfl, h0⟩ | ⟨a, rfl, h0⟩
  · refine ⟨encode (.SubAck a), SubAck.write_run a hf hl s, fun max rest hm => ?_⟩
    have hb : body (.SubAck a) = u16 a.pkid.toNat ++ optSec reasonProps a.properties := by simp [body, h0]
    obtain ⟨ps, hs⟩ := reason_section a.properties hf (by
      rw [hb] at hl; simp only [List.length_append] at hl; unfold maxRemaining; omega)
    refine (C62_v5_read_err_iff _ _ _ _).2 (.inr ⟨0x90, vbi (body (.SubAck a)).length, body (.SubAck a), ?_, vbi_isVbi hl,
      vbiValue_vbi hl, hm, ?_⟩)
    · simp [encode, frame, byte1, Spec.u8]
    · rw [hb]
      simp only [Rejects, show Spec.V4.typeNum 0x90 = 9 by decide]
      rw [if_neg (by simp [Spec.u16])]
      exact .none a.pkid.toNat_lt hs
  · refine ⟨encode (.UnsubAck a), UnsubAck.write_run a hf hl s, fun max rest hm => ?_⟩
    have hb : body (.UnsubAck a) = u16 a.pkid.toNat ++ optSec reasonProps a.properties := by simp [body, h0]
    obtain ⟨ps, hs⟩ := reason_section a.properties hf (by
      rw [hb] at hl; simp only [List.length_append] at hl; unfold maxRemaining; omega)
    refine (C62_v5_read_err_iff _ _ _ _).2 (.inr ⟨0xB0, vbi (body (.UnsubAck a)).length, body (.UnsubAck a), ?_, vbi_isVbi hl,
      vbiValue_vbi hl, hm, ?_⟩)
    · simp [encode, frame, byte1, Spec.u8]
    · rw [hb]
      simp only [Rejects, show Spec.V4.typeNum 0xB0 = 11 by decide]
      rw [if_neg (by simp [Spec.u16])]
      exact .none a.pkid.toNat_lt hs

example : (Packet.UnsubAck ⟨7, [], some ⟨some "no", []⟩⟩).write [1] = (.ok 10, [1, 0xB0, 8, 0, 7, 5, 31, 0, 2, 110, 111]) ∧
    V5.read 99 [0xB0, 8, 0, 7, 5, 31, 0, 2, 110, 111, 9] = (.err .MalformedPacket, [9]) := by decide +kernel
end Props
