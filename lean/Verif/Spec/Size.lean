import Verif.Model.V4
import Verif.Model.V5Packets
/-! How many bytes an encoded packet has, counted from its fields alone (MQTT 3.1.1 and 5.0, section 3), for C118.
`String.utf8ByteSize` is the number of bytes of a string. -/
namespace Spec.Size
open Mqtt

/-- bytes taken by a length `n` (table 2.4): seven bits each -/
def lenBytes (n : Nat) : Nat := if n < 128 then 1 else if n < 16384 then 2 else if n < 2097152 then 3 else 4

/-- a whole packet with `n` bytes after the fixed header -/
def whole (n : Nat) : Nat := 1 + lenBytes n + n

/-- a string field: its bytes after two bytes of length -/
def text (s : String) : Nat := 2 + s.utf8ByteSize

/-- a string field that is left out when empty (user name, password) -/
def textUnlessEmpty (s : String) : Nat := if s = "" then 0 else text s

/-- `n` bytes for a field that is present -/
def ifThere {α : Type} (n : Nat) : Option α → Nat
  | none => 0
  | some _ => n

/-- bytes of an optional field -/
def maybe {α : Type} (size : α → Nat) : Option α → Nat
  | none => 0
  | some a => size a

/-- bytes of a list of fields -/
def all {α : Type} (size : α → Nat) (l : List α) : Nat := (l.map size).sum

namespace V4

/-- bytes after the fixed header of a 3.1.1 packet -/
def remaining : Mqtt.V4.Packet → Nat
  | .Connect c => 10 + text c.client_id + maybe (fun w => text w.topic + (2 + w.message.length)) c.last_will
      + maybe (fun l => textUnlessEmpty l.username + textUnlessEmpty l.password) c.login
  | .ConnAck _ => 2
  | .Publish p => text p.topic + (if p.qos = .AtMostOnce then 0 else 2) + p.payload.length
  | .PubAck _ => 2
  | .PubRec _ => 2
  | .PubRel _ => 2
  | .PubComp _ => 2
  | .Subscribe s => 2 + all (fun f => text f.path + 1) s.filters
  | .SubAck s => 2 + s.return_codes.length
  | .Unsubscribe u => 2 + all text u.topics
  | .UnsubAck _ => 2
  | .PingReq => 0
  | .PingResp => 0
  | .Disconnect => 0
end V4

namespace V5

/-- a property with a string value: identifier, then the string -/
def textProp (s : String) : Nat := 1 + text s
/-- a property with a binary value -/
def binProp (b : Bytes) : Nat := 1 + (2 + b.length)
/-- user properties: identifier, name, value -/
def userProps (l : List (String × String)) : Nat := all (fun kv => 1 + text kv.1 + text kv.2) l
/-- a subscription identifier -/
def idProp (n : Nat) : Nat := 1 + lenBytes n

/-- `n` bytes of properties with their length -/
def sect (n : Nat) : Nat := lenBytes n + n
/-- a property section that is always present; one byte without properties -/
def sectOr {α : Type} (size : α → Nat) : Option α → Nat
  | none => 1
  | some p => sect (size p)

/-- properties of acknowledgements -/
def reasonProps (p : Mqtt.V5.ReasonProps) : Nat := maybe textProp p.reason_string + userProps p.user_properties
/-- properties of a will -/
def willProps (p : Mqtt.V5.WillProperties) : Nat :=
  ifThere 5 p.delay_interval + ifThere 2 p.payload_format_indicator + ifThere 5 p.message_expiry_interval
  + maybe textProp p.content_type + maybe textProp p.response_topic + maybe binProp p.correlation_data
  + userProps p.user_properties
/-- properties of CONNECT -/
def connectProps (p : Mqtt.V5.ConnectProperties) : Nat :=
  ifThere 5 p.session_expiry_interval + ifThere 3 p.receive_maximum + ifThere 5 p.max_packet_size
  + ifThere 3 p.topic_alias_max + ifThere 2 p.request_response_info + ifThere 2 p.request_problem_info
  + userProps p.user_properties + maybe textProp p.authentication_method + maybe binProp p.authentication_data
/-- properties of CONNACK -/
def connackProps (p : Mqtt.V5.ConnAckProperties) : Nat :=
  ifThere 5 p.session_expiry_interval + ifThere 3 p.receive_max + ifThere 2 p.max_qos + ifThere 2 p.retain_available
  + ifThere 5 p.max_packet_size + maybe textProp p.assigned_client_identifier + ifThere 3 p.topic_alias_max
  + maybe textProp p.reason_string + userProps p.user_properties + ifThere 2 p.wildcard_subscription_available
  + ifThere 2 p.subscription_identifiers_available + ifThere 2 p.shared_subscription_available
  + ifThere 3 p.server_keep_alive + maybe textProp p.response_information + maybe textProp p.server_reference
  + maybe textProp p.authentication_method + maybe binProp p.authentication_data
/-- properties of PUBLISH -/
def publishProps (p : Mqtt.V5.PublishProperties) : Nat :=
  ifThere 2 p.payload_format_indicator + ifThere 5 p.message_expiry_interval + ifThere 3 p.topic_alias
  + maybe textProp p.response_topic + maybe binProp p.correlation_data + userProps p.user_properties
  + all idProp p.subscription_identifiers + maybe textProp p.content_type
/-- properties of SUBSCRIBE -/
def subscribeProps (p : Mqtt.V5.SubscribeProperties) : Nat := maybe idProp p.id + userProps p.user_properties
/-- properties of DISCONNECT -/
def disconnectProps (p : Mqtt.V5.DisconnectProperties) : Nat :=
  ifThere 5 p.session_expiry_interval + maybe textProp p.reason_string + userProps p.user_properties
  + maybe textProp p.server_reference

/-- an acknowledgement: success is not mentioned if there are no properties -/
def ack {R : Type} [DecidableEq R] (success : R) (a : Mqtt.V5.Ack R) : Nat :=
  match a.properties with
  | some p => 3 + sect (reasonProps p)
  | none => if a.reason = success then 2 else 3

/-- bytes after the fixed header of a 5.0 packet, as this library writes it -/
def remaining : Mqtt.V5.Packet → Nat
  | .Connect c => 10 + sectOr connectProps c.properties + text c.client_id
      + maybe (fun w => sectOr willProps w.properties + text w.topic + (2 + w.message.length)) c.last_will
      + maybe (fun l => textUnlessEmpty l.username + textUnlessEmpty l.password) c.login
  -- the property length is left out without properties
  | .ConnAck c => 2 + maybe (fun p => sect (connackProps p)) c.properties
  | .Publish p => text p.topic + (if p.qos = .AtMostOnce then 0 else 2) + sectOr publishProps p.properties
      + p.payload.length
  | .PubAck a => ack .Success a
  | .PubRec a => ack .Success a
  | .PubRel a => ack .Success a
  | .PubComp a => ack .Success a
  | .Subscribe s => 2 + sectOr subscribeProps s.properties + all (fun f => text f.path + 1) s.filters
  | .SubAck s => 2 + sectOr reasonProps s.properties + s.return_codes.length
  | .Unsubscribe u => 2 + sectOr (fun p => userProps p.user_properties) u.properties + all text u.filters
  | .UnsubAck u => 2 + sectOr reasonProps u.properties + u.reasons.length
  | .PingReq => 0
  | .PingResp => 0
  -- an empty set of properties takes the reason code with it
  | .Disconnect d => match d.properties with
    | some p => if disconnectProps p = 0 then 0 else 1 + sect (disconnectProps p)
    | none => if d.reason_code = .NormalDisconnection then 0 else 1
end V5
end Spec.Size
