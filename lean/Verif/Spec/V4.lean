import Verif.Spec.Wire
import Verif.Model.V4
/-! MQTT 3.1.1 packets (section 3 of the standard) for the packet types of `v4`, and which packet
values have an encoding. Uses the model only for the data types. -/
namespace Spec.V4
open Mqtt Mqtt.V4 Spec

/-- QoS number -/
def qosNum : QoS → Nat
  | .AtMostOnce => 0 | .AtLeastOnce => 1 | .ExactlyOnce => 2

/-- 3.1.2.4: protocol level -/
def level : Protocol → Nat
  | .V4 => 4 | .V5 => 5

/-- 3.1.2.3: connect flags, bits 7..0 = user name, password, will retain, will QoS (2 bits),
will flag, clean session, reserved 0.  An empty user name or password is "absent". -/
def connectFlags (c : Connect) : Nat :=
  (match c.login with
    | some l => flag (l.username ≠ "") 128 + flag (l.password ≠ "") 64
    | none => 0)
  + (match c.last_will with
    | some w => flag w.retain 32 + 8 * qosNum w.qos + 4
    | none => 0)
  + flag c.clean_session 2

/-- 3.1.3: will topic, will message -/
def willFields : Option LastWill → Bytes
  | some w => str w.topic ++ bin w.message
  | none => []

/-- 3.1.3: user name, password -/
def loginFields : Option Login → Bytes
  | some l => (if l.username = "" then [] else str l.username)
      ++ (if l.password = "" then [] else str l.password)
  | none => []

/-- 3.2.2.3: connect return code -/
def returnCode : ConnectReturnCode → Nat
  | .Success => 0 | .RefusedProtocolVersion => 1 | .BadClientId => 2 | .ServiceUnavailable => 3
  | .BadUserNamePassword => 4 | .NotAuthorized => 5

/-- 3.9.3: subscribe return code -/
def subCode : SubscribeReasonCode → Nat
  | .Success q => qosNum q
  | .Failure => 128

/-- body (variable header and payload) -/
def body : Packet → Bytes
  | .Connect c => str "MQTT" ++ u8 (level c.protocol) ++ u8 (connectFlags c)
      ++ u16 c.keep_alive.toNat ++ str c.client_id ++ willFields c.last_will
      ++ loginFields c.login
  | .ConnAck c => u8 (flag c.session_present 1) ++ u8 (returnCode c.code)
  | .Publish p => str p.topic ++ (if p.qos = .AtMostOnce then [] else u16 p.pkid.toNat)
      ++ p.payload
  | .PubAck p => u16 p.pkid.toNat
  | .PubRec p => u16 p.pkid.toNat
  | .PubRel p => u16 p.pkid.toNat
  | .PubComp p => u16 p.pkid.toNat
  | .Subscribe s => u16 s.pkid.toNat ++ s.filters.flatMap fun f => str f.path ++ u8 (qosNum f.qos)
  | .SubAck s => u16 s.pkid.toNat ++ s.return_codes.flatMap fun c => u8 (subCode c)
  | .Unsubscribe u => u16 u.pkid.toNat ++ u.topics.flatMap str
  | .UnsubAck u => u16 u.pkid.toNat
  | .PingReq => []
  | .PingResp => []
  | .Disconnect => []

/-- first byte: packet type in the high four bits, flags in the low four (2.2.1, 2.2.2) -/
def byte1 : Packet → Nat
  | .Connect _ => 1 * 16
  | .ConnAck _ => 2 * 16
  | .Publish p => 3 * 16 + flag p.dup 8 + 2 * qosNum p.qos + flag p.retain 1
  | .PubAck _ => 4 * 16
  | .PubRec _ => 5 * 16
  | .PubRel _ => 6 * 16 + 2
  | .PubComp _ => 7 * 16
  | .Subscribe _ => 8 * 16 + 2
  | .SubAck _ => 9 * 16
  | .Unsubscribe _ => 10 * 16 + 2
  | .UnsubAck _ => 11 * 16
  | .PingReq => 12 * 16
  | .PingResp => 13 * 16
  | .Disconnect => 14 * 16

/-- the whole packet on the wire -/
def encode (p : Packet) : Bytes := frame (byte1 p) (body p)

/-- all length-prefixed fields have at most 65535 bytes -/
def FieldsFit : Packet → Prop
  | .Connect c => fits (utf8 c.client_id).length
      ∧ (∀ w, c.last_will = some w → fits (utf8 w.topic).length ∧ fits w.message.length)
      ∧ (∀ l, c.login = some l → fits (utf8 l.username).length ∧ fits (utf8 l.password).length)
  | .Publish p => fits (utf8 p.topic).length
  | .Subscribe s => ∀ f ∈ s.filters, fits (utf8 f.path).length
  | .Unsubscribe u => ∀ t ∈ u.topics, fits (utf8 t).length
  | _ => True

/-- conditions of MQTT 3.1.1 beyond field sizes: login not entirely empty (it has no encoding
distinct from "no login"), packet id present exactly for QoS > 0, at least one subscription /
return code -/
def Meaningful : Packet → Prop
  | .Connect c => ∀ l, c.login = some l → l.username ≠ "" ∨ l.password ≠ ""
  | .Publish p => p.qos = .AtMostOnce ↔ p.pkid = 0
  | .Subscribe s => s.filters ≠ []
  | .SubAck s => s.return_codes ≠ []
  | _ => True

/-- a well-formed v4 packet -/
def WF (p : Packet) : Prop :=
  FieldsFit p ∧ Meaningful p ∧ (body p).length ≤ maxRemaining

/-! ### Decoding relation

`Denotes b1 bd p`: a frame with first byte `b1` and body `bd` denotes packet `p`.  It is the MQTT
3.1.1 grammar, with the following listed tolerances: reserved bits (low four bits of the first byte
except for PUBLISH, bit 0 of the connect flags, bits 7-1 of the connack flags, bits 7-2 of the
subscription options) are ignored; trailing bytes after CONNECT, CONNACK, PUBACK, PUBREC, PUBREL,
PUBCOMP, PINGREQ, PINGRESP, DISCONNECT are ignored; an announced but empty user name and password
count as no login. -/

/-- bit `i` of a byte -/
def bit (b : UInt8) (i : Nat) : Prop := b.toNat / 2 ^ i % 2 = 1
instance (b : UInt8) (i : Nat) : Decidable (bit b i) := inferInstanceAs (Decidable (_ = _))

/-- the packet type in the first byte -/
def typeNum (b1 : UInt8) : Nat := b1.toNat / 16

/-- the will denoted by the connect flags and the will fields -/
def WillDenotes (flags : UInt8) (bd : Bytes) : Option LastWill → Prop
  | none => ¬ bit flags 2 ∧ ¬ bit flags 3 ∧ ¬ bit flags 4 ∧ ¬ bit flags 5 ∧ bd = []
  | some w => bit flags 2 ∧ flags.toNat / 8 % 4 = qosNum w.qos ∧ (w.retain = true ↔ bit flags 5)
      ∧ fits (utf8 w.topic).length ∧ fits w.message.length ∧ bd = str w.topic ++ bin w.message

/-- the login denoted by the connect flags and the login fields -/
def LoginDenotes (flags : UInt8) (bd : Bytes) (login : Option Login) : Prop :=
  ∃ u p : String, fits (utf8 u).length ∧ fits (utf8 p).length
    ∧ (¬ bit flags 7 → u = "") ∧ (¬ bit flags 6 → p = "")
    ∧ bd = (if bit flags 7 then str u else []) ++ (if bit flags 6 then str p else [])
    ∧ login = if u = "" ∧ p = "" then none else some ⟨u, p⟩

/-- a sequence of subscription filters with their option bytes -/
inductive FiltersDenote : Bytes → List SubscribeFilter → Prop where
  | nil : FiltersDenote [] []
  | cons (path : String) (q : QoS) (opt : UInt8) (bd : Bytes) (fs : List SubscribeFilter)
      (hp : fits (utf8 path).length) (ho : opt.toNat % 4 = qosNum q) (h : FiltersDenote bd fs) :
      FiltersDenote (str path ++ [opt] ++ bd) (⟨path, q⟩ :: fs)

/-- a frame with first byte `b1` and body `bd` denotes the packet -/
def Denotes (b1 : UInt8) (bd : Bytes) : Packet → Prop
  | .Connect c => typeNum b1 = 1 ∧ ∃ flags will login junk,
      bd = str "MQTT" ++ u8 (level c.protocol) ++ [flags] ++ u16 c.keep_alive.toNat
        ++ str c.client_id ++ will ++ login ++ junk
      ∧ fits (utf8 c.client_id).length ∧ (c.clean_session = true ↔ bit flags 1)
      ∧ WillDenotes flags will c.last_will ∧ LoginDenotes flags login c.login
  | .ConnAck c => typeNum b1 = 2 ∧ ∃ flags junk, bd = [flags] ++ u8 (returnCode c.code) ++ junk
      ∧ (c.session_present = true ↔ bit flags 0)
  | .Publish p => b1 = UInt8.ofNat (byte1 (.Publish p)) ∧ bd = body (.Publish p)
      ∧ fits (utf8 p.topic).length ∧ (p.qos = .AtMostOnce ↔ p.pkid = 0)
  | .PubAck p => typeNum b1 = 4 ∧ ∃ junk, bd = u16 p.pkid.toNat ++ junk
  | .PubRec p => typeNum b1 = 5 ∧ ∃ junk, bd = u16 p.pkid.toNat ++ junk
  | .PubRel p => typeNum b1 = 6 ∧ ∃ junk, bd = u16 p.pkid.toNat ++ junk
  | .PubComp p => typeNum b1 = 7 ∧ ∃ junk, bd = u16 p.pkid.toNat ++ junk
  | .Subscribe s => typeNum b1 = 8 ∧ ∃ fs, bd = u16 s.pkid.toNat ++ fs
      ∧ FiltersDenote fs s.filters ∧ s.filters ≠ []
  | .SubAck s => typeNum b1 = 9 ∧ bd = body (.SubAck s) ∧ s.return_codes ≠ []
  | .Unsubscribe u => typeNum b1 = 10 ∧ bd = body (.Unsubscribe u)
      ∧ ∀ t ∈ u.topics, fits (utf8 t).length
  | .UnsubAck u => typeNum b1 = 11 ∧ bd = body (.UnsubAck u)
  | .PingReq => typeNum b1 = 12
  | .PingResp => typeNum b1 = 13
  | .Disconnect => typeNum b1 = 14

end Spec.V4
