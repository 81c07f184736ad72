import Verif.Spec.Written
/-! What the bytes of a packet tell: packets with the same `essence` are indistinguishable on the wire. -/
namespace Spec

namespace V4
open Mqtt Mqtt.V4

/-- The packet as far as its bytes tell.  A login whose user name and password are both empty counts as no login, the
packet identifier of a QoS 0 PUBLISH counts as 0; everything else is told. -/
def essence : Packet → Packet
  | .Connect c => .Connect { c with login := if c.login = some ⟨"", ""⟩ then none else c.login }
  | .Publish p => .Publish { p with pkid := if p.qos = .AtMostOnce then 0 else p.pkid }
  | p => p
end V4

namespace V5
open Mqtt Mqtt.V5

/-- a property set that is present but contains nothing counts as absent -/
def told {π : Type} (props : π → List Property) : Option π → Option π
  | some p => if props p = [] then none else some p
  | none => none

/-- The packet as far as its bytes tell.  As for 3.1.1; moreover an empty property set counts as an absent one in
CONNECT, in a will, in PUBLISH, SUBSCRIBE, SUBACK, UNSUBSCRIBE and UNSUBACK (but not in CONNACK, PUBACK, PUBREC, PUBREL,
PUBCOMP), and a DISCONNECT with an empty property set counts as a normal one without properties. -/
def essence : Packet → Packet
  | .Connect c => .Connect { c with
      login := if c.login = some ⟨"", ""⟩ then none else c.login
      last_will := c.last_will.map fun w => { w with properties := told willProps w.properties }
      properties := told connectProps c.properties }
  | .Publish p => .Publish { p with
      pkid := if p.qos = .AtMostOnce then 0 else p.pkid
      properties := told publishProps p.properties }
  | .Subscribe s => .Subscribe { s with properties := told subscribeProps s.properties }
  | .SubAck s => .SubAck { s with properties := told reasonProps s.properties }
  | .Unsubscribe u => .Unsubscribe { u with properties := told unsubscribeProps u.properties }
  | .UnsubAck u => .UnsubAck { u with properties := told reasonProps u.properties }
  | .Disconnect d => .Disconnect
      (if d.properties ≠ none ∧ told disconnectProps d.properties = none then
        { d with reason_code := .NormalDisconnection, properties := none } else d)
  | p => p
end V5
end Spec
