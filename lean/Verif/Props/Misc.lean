import Verif.Spec.Codes
import Verif.Spec.V5
import Verif.Props.V4RoundTrip
import Verif.Props.V5RoundTrip
/-! Code tables (C43), login (C54). -/
namespace Props
open Mqtt Spec

/-! ### C43 -/

/-- a table that is total and right where it answers is faithful -/
theorem faithful_of {α : Type} {dec : UInt8 → Res α} {enc : α → UInt8} {code : α → Nat} {e : UInt8 → Error}
    (h1 : ∀ v, (enc v).toNat = code v) (h2 : ∀ v b, dec b = .ok v ↔ b.toNat = code v)
    (h3 : ∀ b, (∃ v, dec b = .ok v) ∨ dec b = .err (e b)) : Faithful dec enc code e := by
  refine ⟨h1, fun b v => h2 v b, fun b hb => ?_⟩
  rcases h3 b with ⟨v, hv⟩ | h
  · exact absurd ((h2 v b).1 hv) (hb v)
  · exact h

/-- C43, both versions: QoS -/
theorem C43_qos : Faithful Mqtt.qos QoS.toU8 Spec.V4.qosNum .InvalidQoS :=
  faithful_of (by intro v; cases v <;> rfl) (by intro v; cases v <;> exact forall_u8 (by decide +kernel))
    (by intro b; unfold Mqtt.qos; split <;> simp)

/-- C43, both versions: packet type, from the upper four bits of the first byte -/
theorem C43_packet_type (h : FixedHeader) :
    (∀ t : PacketType, t.toU8.toNat = packetNum t)
      ∧ (∀ t, h.packet_type = .ok t ↔ h.byte1.toNat / 16 = packetNum t)
      ∧ ((∀ t, h.byte1.toNat / 16 ≠ packetNum t) →
          h.packet_type = .err (.InvalidPacketType (UInt8.ofNat (h.byte1.toNat / 16)))) := by
  have h1 : ∀ t : PacketType, t.toU8.toNat = packetNum t := by intro t; cases t <;> rfl
  refine ⟨h1, fun t => by rw [packet_type_ok_iff, h1], fun hn => ?_⟩
  rcases packet_type_cases h with ⟨t, ht⟩ | ⟨_, he⟩
  · exact absurd (by rw [packet_type_ok_iff, h1] at ht; exact ht) (hn t)
  · exact he

example : (FixedHeader.new 0x3d 2 0).packet_type = .ok .Publish ∧ (FixedHeader.new 0xf0 2 0).packet_type = .err (.InvalidPacketType 15) := by decide +kernel

/-- C43, v4: CONNACK return codes -/
theorem C43_v4_connect_return :
    Faithful V4.connect_return V4.ConnectReturnCode.toU8 Spec.V4.returnCode .InvalidConnectReturnCode :=
  faithful_of (by intro v; cases v <;> rfl) (by intro v; cases v <;> exact forall_u8 (by decide +kernel))
    (by intro b; unfold V4.connect_return; split <;> simp)

/-- C43, v4: SUBACK return codes -/
theorem C43_v4_subscribe_reason :
    Faithful V4.SubscribeReasonCode.try_from V4.SubscribeReasonCode.toU8 Spec.V4.subCode
      .InvalidSubscribeReasonCode :=
  faithful_of (by intro v; rcases v with q | _; (cases q <;> rfl); rfl)
    (by
      intro v
      rcases v with q | _
      · cases q <;> exact forall_u8 (by decide +kernel)
      · exact forall_u8 (by decide +kernel))
    (by intro b; unfold V4.SubscribeReasonCode.try_from; split <;> simp)

/-- C43, v5: property identifiers -/
theorem C43_v5_property :
    Faithful V5.property V5.PropertyType.toU8 propertyId .InvalidPropertyType :=
  faithful_of (by intro v; cases v <;> rfl) (by intro v; cases v <;> exact forall_u8 (by decide +kernel))
    (by intro b; unfold V5.property; split <;> simp)

/-- C43, v5: CONNACK reason codes -/
theorem C43_v5_connect_return :
    Faithful V5.connect_return V5.ConnectReturnCode.toU8 Spec.V5.connectCode .InvalidConnectReturnCode :=
  faithful_of (by intro v; cases v <;> rfl) (by intro v; cases v <;> exact forall_u8 (by decide +kernel))
    (by intro b; unfold V5.connect_return; split <;> simp)

/-- C43, v5: PUBACK reason codes -/
theorem C43_v5_puback_reason :
    Faithful V5.PubAckReason.reason V5.PubAckReason.toU8 Spec.V5.pubackCode .InvalidConnectReturnCode :=
  faithful_of (by intro v; cases v <;> rfl) (by intro v; cases v <;> exact forall_u8 (by decide +kernel))
    (by intro b; unfold V5.PubAckReason.reason; split <;> simp)

/-- C43, v5: PUBREC reason codes -/
theorem C43_v5_pubrec_reason :
    Faithful V5.PubRecReason.reason V5.PubRecReason.toU8 Spec.V5.pubrecCode .InvalidConnectReturnCode :=
  faithful_of (by intro v; cases v <;> rfl) (by intro v; cases v <;> exact forall_u8 (by decide +kernel))
    (by intro b; unfold V5.PubRecReason.reason; split <;> simp)

/-- C43, v5: PUBREL reason codes -/
theorem C43_v5_pubrel_reason :
    Faithful V5.PubRelReason.reason V5.PubRelReason.toU8 Spec.V5.pubrelCode .InvalidConnectReturnCode :=
  faithful_of (by intro v; cases v <;> rfl) (by intro v; cases v <;> exact forall_u8 (by decide +kernel))
    (by intro b; unfold V5.PubRelReason.reason; split <;> simp)

/-- C43, v5: PUBCOMP reason codes -/
theorem C43_v5_pubcomp_reason :
    Faithful V5.PubCompReason.reason V5.PubCompReason.toU8 Spec.V5.pubcompCode .InvalidConnectReturnCode :=
  faithful_of (by intro v; cases v <;> rfl) (by intro v; cases v <;> exact forall_u8 (by decide +kernel))
    (by intro b; unfold V5.PubCompReason.reason; split <;> simp)

/-- C43, v5: SUBACK reason codes -/
theorem C43_v5_subscribe_reason :
    Faithful V5.SubscribeReasonCode.try_from V5.SubscribeReasonCode.toU8 Spec.V5.subCode
      .InvalidSubscribeReasonCode :=
  faithful_of (by intro v; cases v <;> rfl) (by intro v; cases v <;> exact forall_u8 (by decide +kernel))
    (by intro b; unfold V5.SubscribeReasonCode.try_from; split <;> simp)

/-- C43, v5: UNSUBACK reason codes -/
theorem C43_v5_unsuback_reason :
    Faithful V5.UnsubAckReason.reason V5.UnsubAckReason.toU8 Spec.V5.unsubCode .InvalidSubscribeReasonCode :=
  faithful_of (by intro v; cases v <;> rfl) (by intro v; cases v <;> exact forall_u8 (by decide +kernel))
    (by intro b; unfold V5.UnsubAckReason.reason; split <;> simp)

/-- C43, v5: DISCONNECT reason codes -/
theorem C43_v5_disconnect_reason :
    Faithful V5.DisconnectReasonCode.try_from V5.DisconnectReasonCode.toU8 Spec.V5.disconnectCode
      .InvalidConnectReturnCode :=
  faithful_of (by intro v; cases v <;> rfl) (by intro v; cases v <;> exact forall_u8 (by decide +kernel))
    (by intro b; unfold V5.DisconnectReasonCode.try_from; split <;> simp)

/-! ### C54 -/

/-- C54: `Login::validate` (v4) accepts exactly the stored user name and password -/
theorem C54_v4_login_validate (l : V4.Login) (u p : String) :
    l.validate u p = true ↔ l.username = u ∧ l.password = p := by
  simp [V4.Login.validate]

/-- hypotheses met both ways -/
example : V4.Login.validate ⟨"a", "b"⟩ "a" "b" = true ∧ V4.Login.validate ⟨"a", "b"⟩ "b" "a" = false := by decide

end Props
