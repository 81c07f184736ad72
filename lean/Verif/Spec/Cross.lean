import Verif.Spec.V4
import Verif.Spec.V5
/-! What the decoder of one protocol version may make of a packet written by the encoder of the other. -/
namespace Spec
open Mqtt

/-- `SeenByV4 p r`: `v4::read` may answer `r` to the v5 packet `p` -/
def SeenByV4 : V5.Packet → Res V4.Packet → Prop
  -- CONNECT: an error, or a CONNECT with the same version, keep alive and clean start flag (the rest may be wrong)
  | .Connect c, r => (∃ e, r = .err e) ∨ ∃ d, r = .ok (.Connect d) ∧ d.protocol = c.protocol
      ∧ d.keep_alive = c.keep_alive ∧ d.clean_session = c.clean_session
  -- CONNACK: success is success; every refusal of v5 is an unknown return code
  | .ConnAck c, r => r = if c.code = .Success then .ok (.ConnAck ⟨c.session_present, .Success⟩)
      else .err (.InvalidConnectReturnCode (UInt8.ofNat (V5.connectCode c.code)))
  -- PUBLISH: accepted, and the encoded properties become part of the payload
  | .Publish p, r => r = .ok (.Publish ⟨p.dup, p.qos, p.retain, p.topic, if p.qos = .AtMostOnce then 0 else p.pkid,
      V5.optSec V5.publishProps p.properties ++ p.payload⟩)
  -- acknowledgements: accepted whatever their reason code, which is lost
  | .PubAck a, r => r = .ok (.PubAck ⟨a.pkid⟩)
  | .PubRec a, r => r = .ok (.PubRec ⟨a.pkid⟩)
  | .PubRel a, r => r = .ok (.PubRel ⟨a.pkid⟩)
  | .PubComp a, r => r = .ok (.PubComp ⟨a.pkid⟩)
  -- SUBSCRIBE, SUBACK, UNSUBSCRIBE: an error, or the same type and packet identifier
  | .Subscribe s, r => (∃ e, r = .err e) ∨ ∃ t, r = .ok (.Subscribe t) ∧ t.pkid = s.pkid
  | .SubAck s, r => (∃ e, r = .err e) ∨ ∃ t, r = .ok (.SubAck t) ∧ t.pkid = s.pkid
      ∧ t.return_codes.length = (V5.optSec V5.reasonProps s.properties).length + s.return_codes.length
  | .Unsubscribe u, r => (∃ e, r = .err e) ∨ ∃ t, r = .ok (.Unsubscribe t) ∧ t.pkid = u.pkid
  -- UNSUBACK: never accepted
  | .UnsubAck _, r => r = .err .PayloadSizeIncorrect
  | .PingReq, r => r = .ok .PingReq
  | .PingResp, r => r = .ok .PingResp
  | .Disconnect _, r => r = .ok .Disconnect

/-- `SeenByV5 p r`: `v5::read` may answer `r` to the v4 packet `p` -/
def SeenByV5 : V4.Packet → Res V5.Packet → Prop
  -- CONNECT (if of version 4): an error, or a CONNECT with the same version, keep alive, clean session flag, client id
  | .Connect c, r => (∃ e, r = .err e) ∨ ∃ d, r = .ok (.Connect d) ∧ d.protocol = c.protocol
      ∧ d.keep_alive = c.keep_alive ∧ d.clean_session = c.clean_session ∧ d.client_id = c.client_id ∧ d.properties = none
  -- CONNACK: never accepted
  | .ConnAck c, r => r = .err (if c.code = .Success then .InsufficientBytes 1
      else .InvalidConnectReturnCode (UInt8.ofNat (V4.returnCode c.code)))
  -- PUBLISH: an error, or the start of the payload is taken for properties
  | .Publish p, r => (∃ e, r = .err e) ∨ ∃ q section_, r = .ok (.Publish q) ∧ q.dup = p.dup ∧ q.qos = p.qos
      ∧ q.retain = p.retain ∧ q.topic = p.topic ∧ q.pkid = (if p.qos = .AtMostOnce then 0 else p.pkid)
      ∧ p.payload = section_ ++ q.payload ∧ section_ ≠ []
      ∧ V5.SetDenotes V5.publishKind V5.publishOf section_ q.properties
  -- acknowledgements: accepted as successful
  | .PubAck a, r => r = .ok (.PubAck ⟨a.pkid, .Success, none⟩)
  | .PubRec a, r => r = .ok (.PubRec ⟨a.pkid, .Success, none⟩)
  | .PubRel a, r => r = .ok (.PubRel ⟨a.pkid, .Success, none⟩)
  | .PubComp a, r => r = .ok (.PubComp ⟨a.pkid, .Success, none⟩)
  -- SUBSCRIBE, SUBACK, UNSUBSCRIBE: an error, or the same type and packet identifier
  | .Subscribe s, r => (∃ e, r = .err e) ∨ ∃ t, r = .ok (.Subscribe t) ∧ t.pkid = s.pkid
  | .SubAck s, r => (∃ e, r = .err e) ∨ ∃ t, r = .ok (.SubAck t) ∧ t.pkid = s.pkid
      ∧ t.return_codes.length < s.return_codes.length
  | .Unsubscribe u, r => (∃ e, r = .err e) ∨ ∃ t, r = .ok (.Unsubscribe t) ∧ t.pkid = u.pkid
  -- UNSUBACK, DISCONNECT: never accepted
  | .UnsubAck _, r => r = .err (.InsufficientBytes 1)
  | .PingReq, r => r = .ok .PingReq
  | .PingResp, r => r = .ok .PingResp
  | .Disconnect, r => r = .err .PayloadRequired

end Spec
