import Verif.Spec.V4
import Verif.Spec.V5
/-! What a gateway between MQTT 5.0 and MQTT 3.1.1 clients passes on. -/
namespace Spec.Gateway
open Mqtt

/-- a 5.0 subscribe reason code as a 3.1.1 return code: every refusal is "Failure" -/
def granted : V5.SubscribeReasonCode → V4.SubscribeReasonCode
  | .QoS0 => .Success .AtMostOnce
  | .QoS1 => .Success .AtLeastOnce
  | .QoS2 => .Success .ExactlyOnce
  | _ => .Failure

/-- The 3.1.1 packet says what the 5.0 packet says, as far as 3.1.1 has words for it: properties, the reason codes of
acknowledgements and the options of subscriptions have no counterpart; in CONNACK the gateway may choose among the codes of
refusal. The protocol level of CONNECT is the gateway's to set. -/
def Same : V5.Packet → V4.Packet → Prop
  | .Connect a, .Connect b => a.keep_alive = b.keep_alive ∧ a.client_id = b.client_id ∧ a.clean_session = b.clean_session
      ∧ b.last_will = a.last_will.map (fun w => ⟨w.topic, w.message, w.qos, w.retain⟩)
      ∧ b.login = a.login.map (fun l => ⟨l.username, l.password⟩)
  | .ConnAck a, .ConnAck b => a.session_present = b.session_present ∧ (a.code = .Success ↔ b.code = .Success)
  | .Publish a, .Publish b => a.dup = b.dup ∧ a.qos = b.qos ∧ a.retain = b.retain ∧ a.topic = b.topic ∧ a.pkid = b.pkid
      ∧ a.payload = b.payload
  | .PubAck a, .PubAck b => a.pkid = b.pkid
  | .PubRec a, .PubRec b => a.pkid = b.pkid
  | .PubRel a, .PubRel b => a.pkid = b.pkid
  | .PubComp a, .PubComp b => a.pkid = b.pkid
  | .Subscribe a, .Subscribe b => a.pkid = b.pkid ∧ b.filters = a.filters.map (fun f => ⟨f.path, f.qos⟩)
  | .SubAck a, .SubAck b => a.pkid = b.pkid ∧ b.return_codes = a.return_codes.map granted
  | .Unsubscribe a, .Unsubscribe b => a.pkid = b.pkid ∧ a.filters = b.topics
  | .UnsubAck a, .UnsubAck b => a.pkid = b.pkid
  | .PingReq, .PingReq => True
  | .PingResp, .PingResp => True
  | .Disconnect _, .Disconnect => True
  | _, _ => False

/-- A 5.0 packet as a gateway makes it from a 3.1.1 packet: level 5, without properties; an UNSUBACK has a reason code.
A CONNACK or DISCONNECT without properties is not read by `v5::read` (C34, C39); it needs at least one property. -/
def Plain : V5.Packet → Prop
  | .Connect c => c.protocol = .V5 ∧ c.properties = none ∧ ∀ w, c.last_will = some w → w.properties = none
  | .ConnAck c => ∃ p, c.properties = some p ∧ V5.connackProps p = [⟨31, .str ""⟩]
  | .Publish p => p.properties = none
  | .PubAck a => a.properties = none
  | .PubRec a => a.properties = none
  | .PubRel a => a.properties = none
  | .PubComp a => a.properties = none
  | .Subscribe s => s.properties = none
  | .SubAck s => s.properties = none
  | .Unsubscribe u => u.properties = none
  | .UnsubAck u => u.properties = none ∧ u.reasons ≠ []
  | .PingReq => True
  | .PingResp => True
  | .Disconnect d => ∃ p, d.properties = some p ∧ V5.disconnectProps p = [⟨31, .str ""⟩]

/-- the bytes by which the body of the 5.0 packet is longer -/
def extra : V5.Packet → Nat
  | .Connect c => if c.last_will.isSome then 2 else 1
  | .ConnAck _ => 4
  | .PubAck a => if V5.pubackCode a.reason = 0 then 0 else 1
  | .PubRec a => if V5.pubrecCode a.reason = 0 then 0 else 1
  | .PubRel a => if V5.pubrelCode a.reason = 0 then 0 else 1
  | .PubComp a => if V5.pubcompCode a.reason = 0 then 0 else 1
  | .UnsubAck u => 1 + u.reasons.length
  | .Disconnect _ => 5
  | .PingReq => 0
  | .PingResp => 0
  | _ => 1

end Spec.Gateway
