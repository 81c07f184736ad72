import Verif.Model.V4
import Verif.Model.V5Packets
/-! The flag bits of the first byte of a packet (MQTT 2.2.2 / 2.1.3), for C87. -/
namespace Spec

/-- the packet with DUP and RETAIN as in the first byte `b`; only PUBLISH has them -/
def V4.withFlags (b : UInt8) : Mqtt.V4.Packet → Mqtt.V4.Packet
  | .Publish p => .Publish { p with dup := decide (b.toNat / 8 % 2 = 1), retain := decide (b.toNat % 2 = 1) }
  | p => p

/-- the packet with DUP and RETAIN as in the first byte `b`; only PUBLISH has them -/
def V5.withFlags (b : UInt8) : Mqtt.V5.Packet → Mqtt.V5.Packet
  | .Publish p => .Publish { p with dup := decide (b.toNat / 8 % 2 = 1), retain := decide (b.toNat % 2 = 1) }
  | p => p

/-- first bytes of the same packet type, and of the same QoS if that is PUBLISH -/
def SameKind (b1 b2 : UInt8) : Prop :=
  b1.toNat / 16 = b2.toNat / 16 ∧ (b1.toNat / 16 = 3 → b1.toNat / 2 % 4 = b2.toNat / 2 % 4)

end Spec
