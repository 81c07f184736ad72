import Verif.Model.V5Packets
/-! Numeric codes of the standards that are not in `Spec.V4` / `Spec.V5`, and what it means for a table to
be faithful. -/
namespace Spec
open Mqtt

/-- 2.1.2: control packet types -/
def packetNum : PacketType → Nat
  | .Connect => 1 | .ConnAck => 2 | .Publish => 3 | .PubAck => 4 | .PubRec => 5 | .PubRel => 6
  | .PubComp => 7 | .Subscribe => 8 | .SubAck => 9 | .Unsubscribe => 10 | .UnsubAck => 11
  | .PingReq => 12 | .PingResp => 13 | .Disconnect => 14

/-- MQTT 5.0, 2.2.2.2: property identifiers -/
def propertyId : V5.PropertyType → Nat
  | .PayloadFormatIndicator => 0x01 | .MessageExpiryInterval => 0x02 | .ContentType => 0x03
  | .ResponseTopic => 0x08 | .CorrelationData => 0x09 | .SubscriptionIdentifier => 0x0B
  | .SessionExpiryInterval => 0x11 | .AssignedClientIdentifier => 0x12 | .ServerKeepAlive => 0x13
  | .AuthenticationMethod => 0x15 | .AuthenticationData => 0x16 | .RequestProblemInformation => 0x17
  | .WillDelayInterval => 0x18 | .RequestResponseInformation => 0x19 | .ResponseInformation => 0x1A
  | .ServerReference => 0x1C | .ReasonString => 0x1F | .ReceiveMaximum => 0x21
  | .TopicAliasMaximum => 0x22 | .TopicAlias => 0x23 | .MaximumQos => 0x24 | .RetainAvailable => 0x25
  | .UserProperty => 0x26 | .MaximumPacketSize => 0x27 | .WildcardSubscriptionAvailable => 0x28
  | .SubscriptionIdentifierAvailable => 0x29 | .SharedSubscriptionAvailable => 0x2A

/-- `enc` gives the standard's code of a value, `dec` returns a value for exactly its code, and for any
other byte the error `e` -/
def Faithful {α : Type} (dec : UInt8 → Res α) (enc : α → UInt8) (code : α → Nat) (e : UInt8 → Error) : Prop :=
  (∀ v, (enc v).toNat = code v) ∧ (∀ b v, dec b = .ok v ↔ b.toNat = code v)
    ∧ ∀ b, (∀ v, b.toNat ≠ code v) → dec b = .err (e b)

end Spec
