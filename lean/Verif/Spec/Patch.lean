import Verif.Spec.V4
import Verif.Spec.V5
/-! Packets with another packet identifier. -/
namespace Spec
open Mqtt

namespace V4
/-- the same packet with packet identifier `k`, where it has one -/
def withPkid (k : UInt16) : Mqtt.V4.Packet → Mqtt.V4.Packet
  | .Publish p => .Publish { p with pkid := k }
  | .PubAck _ => .PubAck ⟨k⟩
  | .PubRec _ => .PubRec ⟨k⟩
  | .PubRel _ => .PubRel ⟨k⟩
  | .PubComp _ => .PubComp ⟨k⟩
  | .Subscribe p => .Subscribe { p with pkid := k }
  | .SubAck p => .SubAck { p with pkid := k }
  | .Unsubscribe p => .Unsubscribe { p with pkid := k }
  | .UnsubAck _ => .UnsubAck ⟨k⟩
  | p => p

/-- the packet carries a packet identifier (2.3.1) -/
def CarriesPkid : Mqtt.V4.Packet → Prop
  | .Publish p => p.qos ≠ .AtMostOnce
  | .Connect _ | .ConnAck _ | .PingReq | .PingResp | .Disconnect => False
  | _ => True
end V4

namespace V5
/-- the same packet with packet identifier `k`, where it has one -/
def withPkid (k : UInt16) : Mqtt.V5.Packet → Mqtt.V5.Packet
  | .Publish p => .Publish { p with pkid := k }
  | .PubAck p => .PubAck { p with pkid := k }
  | .PubRec p => .PubRec { p with pkid := k }
  | .PubRel p => .PubRel { p with pkid := k }
  | .PubComp p => .PubComp { p with pkid := k }
  | .Subscribe p => .Subscribe { p with pkid := k }
  | .SubAck p => .SubAck { p with pkid := k }
  | .Unsubscribe p => .Unsubscribe { p with pkid := k }
  | .UnsubAck p => .UnsubAck { p with pkid := k }
  | p => p

/-- the packet carries a packet identifier (2.2.1) -/
def CarriesPkid : Mqtt.V5.Packet → Prop
  | .Publish p => p.qos ≠ .AtMostOnce
  | .Connect _ | .ConnAck _ | .PingReq | .PingResp | .Disconnect _ => False
  | _ => True
end V5
end Spec
