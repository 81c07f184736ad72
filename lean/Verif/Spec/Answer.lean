import Verif.Spec.V4
import Verif.Spec.V5
/-! Requests and the packets that answer them (3.1.1 and 5.0: chapters 3 and 4.3). -/
namespace Spec
open Mqtt

/-- 3.1.1: the second packet answers the first -/
def V4.Answers : Mqtt.V4.Packet → Mqtt.V4.Packet → Prop
  | .Connect _, .ConnAck _ => True
  | .Publish p, .PubAck a => p.qos = .AtLeastOnce ∧ a.pkid = p.pkid
  | .Publish p, .PubRec a => p.qos = .ExactlyOnce ∧ a.pkid = p.pkid
  | .PubRec r, .PubRel a => a.pkid = r.pkid
  | .PubRel r, .PubComp a => a.pkid = r.pkid
  | .Subscribe s, .SubAck a => a.pkid = s.pkid ∧ a.return_codes.length = s.filters.length
  | .Unsubscribe u, .UnsubAck a => a.pkid = u.pkid
  | .PingReq, .PingResp => True
  | _, _ => False

/-- 5.0: the second packet answers the first, without properties except those of CONNACK, which the reader requires (C34) and
which shall be an empty reason string. A SUBSCRIBE or UNSUBSCRIBE without filters, which the standard forbids and the reader
accepts, has no answer: the reader refuses an answer without codes. -/
def V5.Answers : Mqtt.V5.Packet → Mqtt.V5.Packet → Prop
  | .Connect _, .ConnAck a => ∃ p, a.properties = some p ∧ connackProps p = [⟨31, .str ""⟩]
  | .Publish p, .PubAck a => p.qos = .AtLeastOnce ∧ a.pkid = p.pkid ∧ a.properties = none
  | .Publish p, .PubRec a => p.qos = .ExactlyOnce ∧ a.pkid = p.pkid ∧ a.properties = none
  | .PubRec r, .PubRel a => a.pkid = r.pkid ∧ a.properties = none
  | .PubRel r, .PubComp a => a.pkid = r.pkid ∧ a.properties = none
  | .Subscribe s, .SubAck a => a.pkid = s.pkid ∧ a.return_codes.length = s.filters.length ∧ s.filters ≠ [] ∧ a.properties = none
  | .Unsubscribe u, .UnsubAck a => a.pkid = u.pkid ∧ a.reasons.length = u.filters.length ∧ u.filters ≠ [] ∧ a.properties = none
  | .PingReq, .PingResp => True
  | _, _ => False

end Spec
