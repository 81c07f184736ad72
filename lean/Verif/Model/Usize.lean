import Verif.Model.V4
import Verif.Model.V5Shared
/-! The writers once more, with `usize` of `W` bits: in debug builds an addition whose result does not fit panics, in
release builds it wraps around.  The definitions are those of `Model/V4` and `Model/V5*` with another type of numbers;
when they agree is C96. -/
namespace Mqtt

/-- with overflow checks or without -/
inductive Build where
  | debug
  | release
  deriving DecidableEq

/-- a `usize` of `W` bits, or a panic; the sums of e.g. src/v4/connect.rs 45-64 -/
inductive Usz (bld : Build) (W : Nat) where
  | val (n : Nat)
  | overflow
  deriving DecidableEq
namespace Usz
/-- the outcome of a computation on `usize` whose mathematical result is `n` -/
def lit {bld : Build} {W : Nat} (n : Nat) : Usz bld W :=
  if n < 2 ^ W then .val n else
  match bld with
  | .debug => .overflow
  | .release => .val (n % 2 ^ W)
/-- `a + b` on `usize`; e.g. src/v4/connect.rs 51 -/
def add {bld : Build} {W : Nat} (a b : Usz bld W) : Usz bld W :=
  match a, b with
  | .val m, .val n => lit (m + n)
  | _, _ => .overflow
instance {bld : Build} {W : Nat} : Add (Usz bld W) := ⟨add⟩
instance {bld : Build} {W n : Nat} : OfNat (Usz bld W) n := ⟨lit n⟩
/-- src/lib.rs 288-298 `len_len` -/
def len_len {bld : Build} {W : Nat} (a : Usz bld W) : Usz bld W :=
  match a with
  | .val n => lit (Mqtt.len_len n)
  | .overflow => .overflow
/-- the number, or the panic -/
def get {bld : Build} {W : Nat} (a : Usz bld W) : M Nat :=
  match a with
  | .val n => pure n
  | .overflow => M.panic
end Usz
open Usz

namespace V4
/-- checked: src/v4/connect.rs 163-167 `LastWill::len` -/
def LastWill.lenU (bld : Build) (W : Nat) (w : LastWill) : Usz bld W := 2 + lit (strLen w.topic) + 2 + lit w.message.length

/-- checked: src/v4/connect.rs 237-249 `Login::len` -/
def Login.lenU (bld : Build) (W : Nat) (l : Login) : Usz bld W :=
  let len : Usz bld W := 0
  let len := if !l.username.isEmpty then len + (2 + lit (strLen l.username)) else len
  let len := if !l.password.isEmpty then len + (2 + lit (strLen l.password)) else len
  len

/-- checked: src/v4/connect.rs 45-64 `Connect::len` -/
def Connect.lenU (bld : Build) (W : Nat) (c : Connect) : Usz bld W :=
  let len : Usz bld W := 2 + 4 + 1 + 1 + 2
  let len := len + (2 + lit (strLen c.client_id))
  let len := match c.last_will with | some w => len + (w.lenU bld W) | none => len
  let len := match c.login with | some l => len + (l.lenU bld W) | none => len
  len

/-- checked: src/v4/connack.rs 31-35 `ConnAck::len` -/
def ConnAck.lenU (bld : Build) (W : Nat) (_ : ConnAck) : Usz bld W := 1 + 1

/-- checked: src/v4/publish.rs 41-49 `Publish::len` -/
def Publish.lenU (bld : Build) (W : Nat) (p : Publish) : Usz bld W :=
  let len : Usz bld W := 2 + lit (strLen p.topic)
  let len := if p.qos ≠ .AtMostOnce ∧ p.pkid ≠ 0 then len + 2 else len
  len + lit p.payload.length

/-- checked: src/v4/puback.rs 15-18 -/
def PubAck.lenU (bld : Build) (W : Nat) (_ : PubAck) : Usz bld W := 2

/-- checked: src/v4/pubrec.rs 15-18 -/
def PubRec.lenU (bld : Build) (W : Nat) (_ : PubRec) : Usz bld W := 2

/-- checked: src/v4/pubrel.rs 15-18 -/
def PubRel.lenU (bld : Build) (W : Nat) (_ : PubRel) : Usz bld W := 2

/-- checked: src/v4/pubcomp.rs 15-18 -/
def PubComp.lenU (bld : Build) (W : Nat) (_ : PubComp) : Usz bld W := 2

/-- checked: src/v4/subscribe.rs 109-112 `SubscribeFilter::len` -/
def SubscribeFilter.lenU (bld : Build) (W : Nat) (f : SubscribeFilter) : Usz bld W := 2 + lit (strLen f.path) + 1

/-- checked: src/v4/subscribe.rs 46-49 `Subscribe::len` -/
def Subscribe.lenU (bld : Build) (W : Nat) (s : Subscribe) : Usz bld W := 2 + s.filters.foldl (fun s t => s + (t.lenU bld W)) 0

/-- checked: src/v4/suback.rs 18-21 `SubAck::len` -/
def SubAck.lenU (bld : Build) (W : Nat) (s : SubAck) : Usz bld W := 2 + lit s.return_codes.length

/-- checked: src/v4/unsubscribe.rs 40-43, the length `Unsubscribe::write` computes -/
def Unsubscribe.lenU (bld : Build) (W : Nat) (u : Unsubscribe) : Usz bld W :=
  2 + u.topics.foldl (fun s topic => s + lit (strLen topic) + 2) 0

/-- the length computation of each packet's `write` -/
def Packet.lenU (bld : Build) (W : Nat) : Packet → Usz bld W
  | .Connect p => p.lenU bld W | .ConnAck p => p.lenU bld W | .Publish p => p.lenU bld W | .PubAck p => p.lenU bld W
  | .PubRec p => p.lenU bld W | .PubRel p => p.lenU bld W | .PubComp p => p.lenU bld W | .Subscribe p => p.lenU bld W
  | .SubAck p => p.lenU bld W | .Unsubscribe p => p.lenU bld W
  | .UnsubAck _ => 2 | .PingReq | .PingResp | .Disconnect => 0

end V4

namespace V5
/-- checked: `for (key, value) in self.user_properties.iter() { len += 1 + 2 + key.len() + 2 + value.len() }`,
starting from `len`; e.g. src/v5/publish.rs 168-170 -/
def addUserPropsLenU (bld : Build) (W : Nat) (ups : List (String × String)) (len : Usz bld W) : Usz bld W :=
  ups.foldl (fun len kv => len + (1 + 2 + lit (strLen kv.1) + 2 + lit (strLen kv.2))) len

/-- checked: `if let Some(x) = &self.field { len += f(x) }`, starting from `len`; e.g. src/v5/publish.rs 160-162 -/
def addSomeU (bld : Build) (W : Nat) {α : Type} (o : Option α) (f : α → Usz bld W) (len : Usz bld W) : Usz bld W :=
  match o with
  | some x => len + f x
  | none => len

/-- checked: `properties_len_len + properties_len` for a property section of `properties_len` bytes
(`len()` of every v5 packet with properties); e.g. src/v5/publish.rs 52-54 -/
def propSectionLenU (bld : Build) (W : Nat) (properties_len : Usz bld W) : Usz bld W := properties_len.len_len + properties_len

/-- checked: `match &self.properties { Some(p) => { len += properties_len_len + properties_len }, None =>
{ len += 1 } }`, starting from `n`; e.g. src/v5/publish.rs 50-60 -/
def lenPropsOrOneU (bld : Build) (W : Nat) {π : Type} (len : π → Usz bld W) (o : Option π) (n : Usz bld W) : Usz bld W :=
  match o with
  | some properties => n + propSectionLenU bld W (len properties)
  | none => n + 1

/-- checked: puback.rs 117-129, pubrec.rs 113-125, pubrel.rs 104-116, pubcomp.rs 105-117, suback.rs 94-106,
unsuback.rs 105-117 `len` -/
def ReasonProps.lenU (bld : Build) (W : Nat) (p : ReasonProps) : Usz bld W :=
  let len : Usz bld W := 0
  let len := addSomeU bld W p.reason_string (fun r => 1 + 2 + lit (strLen r)) len
  addUserPropsLenU bld W p.user_properties len

/-- checked: src/v5/connect.rs 273-305 `WillProperties::len` -/
def WillProperties.lenU (bld : Build) (W : Nat) (p : WillProperties) : Usz bld W :=
  let len : Usz bld W := 0
  let len := if p.delay_interval.isSome then len + (1 + 4) else len
  let len := if p.payload_format_indicator.isSome then len + (1 + 1) else len
  let len := if p.message_expiry_interval.isSome then len + (1 + 4) else len
  let len := addSomeU bld W p.content_type (fun typ => 1 + 2 + lit (strLen typ)) len
  let len := addSomeU bld W p.response_topic (fun t => 1 + 2 + lit (strLen t)) len
  let len := addSomeU bld W p.correlation_data (fun d => 1 + 2 + lit d.length) len
  addUserPropsLenU bld W p.user_properties len

/-- checked: src/v5/connect.rs 195-212 `LastWill::len` -/
def LastWill.lenU (bld : Build) (W : Nat) (w : LastWill) : Usz bld W :=
  let len : Usz bld W := 0
  let len := lenPropsOrOneU bld W (WillProperties.lenU bld W) w.properties len
  len + (2 + lit (strLen w.topic) + 2 + lit w.message.length)

/-- checked: src/v5/connect.rs 453-465 `Login::len` -/
def Login.lenU (bld : Build) (W : Nat) (l : Login) : Usz bld W :=
  let len : Usz bld W := 0
  let len := if !l.username.isEmpty then len + (2 + lit (strLen l.username)) else len
  let len := if !l.password.isEmpty then len + (2 + lit (strLen l.password)) else len
  len

/-- checked: src/v5/connect.rs 598-638 `ConnectProperties::len` -/
def ConnectProperties.lenU (bld : Build) (W : Nat) (p : ConnectProperties) : Usz bld W :=
  let len : Usz bld W := 0
  let len := if p.session_expiry_interval.isSome then len + (1 + 4) else len
  let len := if p.receive_maximum.isSome then len + (1 + 2) else len
  let len := if p.max_packet_size.isSome then len + (1 + 4) else len
  let len := if p.topic_alias_max.isSome then len + (1 + 2) else len
  let len := if p.request_response_info.isSome then len + (1 + 1) else len
  let len := if p.request_problem_info.isSome then len + (1 + 1) else len
  let len := addUserPropsLenU bld W p.user_properties len
  let len := addSomeU bld W p.authentication_method (fun m => 1 + 2 + lit (strLen m)) len
  let len := addSomeU bld W p.authentication_data (fun d => 1 + 2 + lit d.length) len
  len

/-- checked: src/v5/connect.rs 48-79 `Connect::len` -/
def Connect.lenU (bld : Build) (W : Nat) (c : Connect) : Usz bld W :=
  let len : Usz bld W := 2 + 4 + 1 + 1 + 2
  let len := lenPropsOrOneU bld W (ConnectProperties.lenU bld W) c.properties len
  let len := len + (2 + lit (strLen c.client_id))
  let len := match c.last_will with | some w => len + (w.lenU bld W) | none => len
  let len := match c.login with | some l => len + (l.lenU bld W) | none => len
  len

/-- checked: src/v5/connack.rs 142-214 `ConnAckProperties::len` -/
def ConnAckProperties.lenU (bld : Build) (W : Nat) (p : ConnAckProperties) : Usz bld W :=
  let len : Usz bld W := 0
  let len := if p.session_expiry_interval.isSome then len + (1 + 4) else len
  let len := if p.receive_max.isSome then len + (1 + 2) else len
  let len := if p.max_qos.isSome then len + (1 + 1) else len
  let len := if p.retain_available.isSome then len + (1 + 1) else len
  let len := if p.max_packet_size.isSome then len + (1 + 4) else len
  let len := addSomeU bld W p.assigned_client_identifier (fun id => 1 + 2 + lit (strLen id)) len
  let len := if p.topic_alias_max.isSome then len + (1 + 2) else len
  let len := addSomeU bld W p.reason_string (fun r => 1 + 2 + lit (strLen r)) len
  let len := addUserPropsLenU bld W p.user_properties len
  let len := if p.wildcard_subscription_available.isSome then len + (1 + 1) else len
  let len := if p.subscription_identifiers_available.isSome then len + (1 + 1) else len
  let len := if p.shared_subscription_available.isSome then len + (1 + 1) else len
  let len := if p.server_keep_alive.isSome then len + (1 + 2) else len
  let len := addSomeU bld W p.response_information (fun i => 1 + 2 + lit (strLen i)) len
  let len := addSomeU bld W p.server_reference (fun r => 1 + 2 + lit (strLen r)) len
  let len := addSomeU bld W p.authentication_method (fun m => 1 + 2 + lit (strLen m)) len
  let len := addSomeU bld W p.authentication_data (fun d => 1 + 2 + lit d.length) len
  len

/-- checked: src/v5/connack.rs 51-62 `ConnAck::len` -/
def ConnAck.lenU (bld : Build) (W : Nat) (c : ConnAck) : Usz bld W :=
  let len : Usz bld W := 1 + 1
  match c.properties with
  | some properties => len + propSectionLenU bld W (properties.lenU bld W)
  | none => len

/-- checked: src/v5/publish.rs 145-181 `PublishProperties::len` -/
def PublishProperties.lenU (bld : Build) (W : Nat) (p : PublishProperties) : Usz bld W :=
  let len : Usz bld W := 0
  let len := if p.payload_format_indicator.isSome then len + (1 + 1) else len
  let len := if p.message_expiry_interval.isSome then len + (1 + 4) else len
  let len := if p.topic_alias.isSome then len + (1 + 2) else len
  let len := addSomeU bld W p.response_topic (fun t => 1 + 2 + lit (strLen t)) len
  let len := addSomeU bld W p.correlation_data (fun d => 1 + 2 + lit d.length) len
  let len := addUserPropsLenU bld W p.user_properties len
  let len := p.subscription_identifiers.foldl (fun len id => len + (1 + lit (Mqtt.len_len id))) len
  let len := addSomeU bld W p.content_type (fun typ => 1 + 2 + lit (strLen typ)) len
  len

/-- checked: src/v5/publish.rs 44-64 `Publish::len` -/
def Publish.lenU (bld : Build) (W : Nat) (p : Publish) : Usz bld W :=
  let len : Usz bld W := 2 + lit (strLen p.topic)
  let len := if p.qos ≠ .AtMostOnce ∧ p.pkid ≠ 0 then len + 2 else len
  let len := lenPropsOrOneU bld W (PublishProperties.lenU bld W) p.properties len
  len + lit p.payload.length

/-- checked: `len` of puback.rs 36-54, pubrec.rs 36-53, pubrel.rs 29-44, pubcomp.rs 29-44 (textually the
same); `success` is the `Success` variant -/
def Ack.lenU (bld : Build) (W : Nat) {R : Type} [DecidableEq R] (success : R) (a : Ack R) : Usz bld W :=
  let len : Usz bld W := 2 + 1
  if a.reason = success ∧ a.properties = none then 2
  else match a.properties with
    | some properties => len + propSectionLenU bld W (properties.lenU bld W)
    | none => len

/-- checked: src/v5/subscribe.rs 270-273 `SubscribeFilter::len` -/
def SubscribeFilter.lenU (bld : Build) (W : Nat) (f : SubscribeFilter) : Usz bld W := 2 + lit (strLen f.path) + 1

/-- checked: src/v5/subscribe.rs 160-172 `SubscribeProperties::len` -/
def SubscribeProperties.lenU (bld : Build) (W : Nat) (p : SubscribeProperties) : Usz bld W :=
  let len : Usz bld W := 0
  let len := addSomeU bld W p.id (fun id => 1 + lit (Mqtt.len_len id)) len
  addUserPropsLenU bld W p.user_properties len

/-- checked: src/v5/subscribe.rs 64-77 `Subscribe::len` -/
def Subscribe.lenU (bld : Build) (W : Nat) (s : Subscribe) : Usz bld W :=
  let len : Usz bld W := 2 + s.filters.foldl (fun s t => s + (t.lenU bld W)) 0
  lenPropsOrOneU bld W (SubscribeProperties.lenU bld W) s.properties len

/-- checked: src/v5/suback.rs 23-39 `SubAck::len` -/
def SubAck.lenU (bld : Build) (W : Nat) (s : SubAck) : Usz bld W :=
  let len : Usz bld W := 2 + lit s.return_codes.length
  lenPropsOrOneU bld W (ReasonProps.lenU bld W) s.properties len

/-- checked: src/v5/unsubscribe.rs 94-102 -/
def UnsubscribeProperties.lenU (bld : Build) (W : Nat) (p : UnsubscribeProperties) : Usz bld W :=
  addUserPropsLenU bld W p.user_properties 0

/-- checked: src/v5/unsubscribe.rs 23-38 `Unsubscribe::len` -/
def Unsubscribe.lenU (bld : Build) (W : Nat) (u : Unsubscribe) : Usz bld W :=
  let len : Usz bld W := 2 + u.filters.foldl (fun s t => 2 + s + lit (strLen t)) 0
  lenPropsOrOneU bld W (UnsubscribeProperties.lenU bld W) u.properties len

/-- checked: src/v5/unsuback.rs 34-50 `UnsubAck::len` -/
def UnsubAck.lenU (bld : Build) (W : Nat) (u : UnsubAck) : Usz bld W :=
  let len : Usz bld W := 2 + lit u.reasons.length
  lenPropsOrOneU bld W (ReasonProps.lenU bld W) u.properties len

/-- checked: src/v5/disconnect.rs 147-167 `DisconnectProperties::len` -/
def DisconnectProperties.lenU (bld : Build) (W : Nat) (p : DisconnectProperties) : Usz bld W :=
  let len : Usz bld W := 0
  let len := if p.session_expiry_interval.isSome then len + (1 + 4) else len
  let len := addSomeU bld W p.reason_string (fun r => 1 + 2 + lit (strLen r)) len
  let len := addUserPropsLenU bld W p.user_properties len
  let len := addSomeU bld W p.server_reference (fun r => 1 + 2 + lit (strLen r)) len
  len

/-- checked: src/v5/disconnect.rs 262-286 `Disconnect::len` -/
def Disconnect.lenU (bld : Build) (W : Nat) (d : Disconnect) : Usz bld W :=
  if d.reason_code = .NormalDisconnection ∧ d.properties = none then 2
  else
    let length : Usz bld W := 0
    match d.properties with
    | some properties =>
      let length := length + 1
      length + propSectionLenU bld W (properties.lenU bld W)
    | none => if d.reason_code = .NormalDisconnection then length else length + 1

/-- the length computation of each packet's `write` -/
def Packet.lenU (bld : Build) (W : Nat) : Packet → Usz bld W
  | .Connect p => p.lenU bld W | .ConnAck p => p.lenU bld W | .Publish p => p.lenU bld W
  | .PubAck p => Ack.lenU bld W .Success p | .PubRec p => Ack.lenU bld W .Success p
  | .PubRel p => Ack.lenU bld W .Success p | .PubComp p => Ack.lenU bld W .Success p
  | .Subscribe p => p.lenU bld W | .SubAck p => p.lenU bld W | .Unsubscribe p => p.lenU bld W
  | .UnsubAck p => p.lenU bld W | .PingReq | .PingResp => 0 | .Disconnect p => p.lenU bld W

end V5
end Mqtt
