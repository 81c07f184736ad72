import Verif.Spec.V5
/-! Control packets as a conforming peer sends them, written from the standards: MQTT 5.0 (namespace `Std5`) and
MQTT 3.1.1 (namespace `Std4`).  Unlike in `Spec.V5` / `Spec.V4` a packet here is not one of the crate's values but what the
standard lets a peer say: properties are a list in any order, an optional reason code or property length may be left out,
a password is binary data, user name and password may be present but empty, and there is AUTH.  `result` says what the
crate's decoder makes of each. -/
namespace Spec

/-- the text with these UTF-8 bytes, if there is one -/
def text (b : Mqtt.Bytes) : Option String := String.fromUTF8? ⟨⟨b⟩⟩

namespace Std5
open Mqtt Mqtt.V5 Spec
open Spec.V4 (qosNum)
open Spec.V5 (Kind Val Property encAll sec Readable)

/-! ### Table 2-4: properties -/

/-- where a property section occurs -/
inductive Place where
  | connect | will | connack | publish | puback | pubrec | pubrel | pubcomp | subscribe | suback | unsubscribe
  | unsuback | disconnect | auth
  deriving DecidableEq, Repr

open Place in
/-- Table 2-4: identifier, data type, places -/
def table : List (Nat × Kind × List Place) :=
  [ (0x01, .u8, [publish, will])                       -- Payload Format Indicator
  , (0x02, .u32, [publish, will])                      -- Message Expiry Interval
  , (0x03, .str, [publish, will])                      -- Content Type
  , (0x08, .str, [publish, will])                      -- Response Topic
  , (0x09, .bin, [publish, will])                      -- Correlation Data
  , (0x0B, .vbi, [publish, subscribe])                 -- Subscription Identifier
  , (0x11, .u32, [connect, connack, disconnect])       -- Session Expiry Interval
  , (0x12, .str, [connack])                            -- Assigned Client Identifier
  , (0x13, .u16, [connack])                            -- Server Keep Alive
  , (0x15, .str, [connect, connack, auth])             -- Authentication Method
  , (0x16, .bin, [connect, connack, auth])             -- Authentication Data
  , (0x17, .u8, [connect])                             -- Request Problem Information
  , (0x18, .u32, [will])                               -- Will Delay Interval
  , (0x19, .u8, [connect])                             -- Request Response Information
  , (0x1A, .str, [connack])                            -- Response Information
  , (0x1C, .str, [connack, disconnect])                -- Server Reference
  , (0x1F, .str, [connack, puback, pubrec, pubrel, pubcomp, suback, unsuback, disconnect, auth]) -- Reason String
  , (0x21, .u16, [connect, connack])                   -- Receive Maximum
  , (0x22, .u16, [connect, connack])                   -- Topic Alias Maximum
  , (0x23, .u16, [publish])                            -- Topic Alias
  , (0x24, .u8, [connack])                             -- Maximum QoS
  , (0x25, .u8, [connack])                             -- Retain Available
  , (0x26, .pair, [connect, connack, publish, will, puback, pubrec, pubrel, pubcomp, subscribe, suback, unsubscribe,
      unsuback, disconnect, auth])                     -- User Property
  , (0x27, .u32, [connect, connack])                   -- Maximum Packet Size
  , (0x28, .u8, [connack])                             -- Wildcard Subscription Available
  , (0x29, .u8, [connack])                             -- Subscription Identifier Available
  , (0x2A, .u8, [connack]) ]                           -- Shared Subscription Available

/-- data type of the property with this identifier, if it is allowed at this place -/
def kindAt (pl : Place) (id : Nat) : Option Kind :=
  (table.find? fun e => e.1 = id ∧ pl ∈ e.2.2).map (·.2.1)

/-- the properties that may occur more than once: user property, and in PUBLISH the subscription identifier -/
def Multi (pl : Place) (id : Nat) : Prop := id = 0x26 ∨ (pl = .publish ∧ id = 0x0B)

/-- 2.2.2: a list of properties a conforming peer may send at this place -/
def PropsOk (pl : Place) (ps : List Property) : Prop :=
  (∀ p ∈ ps, kindAt pl p.id = some p.val.kind ∧ p.val.Fits)
  ∧ ∀ i, ¬ Multi pl i → (ps.filter (·.id = i)).length ≤ 1

/-- what a list of properties becomes: an empty one counts as no properties -/
def props {π : Type} (of : List Property → π) (ps : List Property) : Option π :=
  if ps = [] then none else some (of ps)

/-! ### Control packets -/

/-- 3.1.3.2 - 3.1.3.4 -/
structure Will where
  qos : QoS
  retain : Bool
  props : List Property
  topic : String
  payload : Bytes

/-- 3.8.3: a subscription: topic filter, maximum QoS, no local, retain as published, retain handling -/
structure Sub where
  filter : String
  qos : QoS
  noLocal : Bool
  retainAsPublished : Bool
  retainHandling : RetainForwardRule

/-- A control packet.  `Option R` for a reason code or `Option (List Property)` for a property section: absent if left
out of the packet (3.4.2, 3.14.2, 3.15.2). -/
inductive Ctl where
  | connect (cleanStart : Bool) (keepAlive : UInt16) (props : List Property) (clientId : String) (will : Option Will)
      (user : Option String) (password : Option Bytes)
  | connack (sessionPresent : Bool) (code : ConnectReturnCode) (props : List Property)
  | publish (dup : Bool) (qos : QoS) (retain : Bool) (topic : String) (pkid : UInt16) (props : List Property)
      (payload : Bytes)
  | puback (pkid : UInt16) (code : Option PubAckReason) (props : Option (List Property))
  | pubrec (pkid : UInt16) (code : Option PubRecReason) (props : Option (List Property))
  | pubrel (pkid : UInt16) (code : Option PubRelReason) (props : Option (List Property))
  | pubcomp (pkid : UInt16) (code : Option PubCompReason) (props : Option (List Property))
  | subscribe (pkid : UInt16) (props : List Property) (subs : List Sub)
  | suback (pkid : UInt16) (props : List Property) (codes : List SubscribeReasonCode)
  | unsubscribe (pkid : UInt16) (props : List Property) (filters : List String)
  | unsuback (pkid : UInt16) (props : List Property) (codes : List UnsubAckReason)
  | pingreq
  | pingresp
  | disconnect (code : Option DisconnectReasonCode) (props : Option (List Property))
  | auth (code : Option Nat) (props : Option (List Property))

/-- encoding of something that may be left out -/
def maybe {α : Type} (f : α → Bytes) : Option α → Bytes
  | some a => f a
  | none => []

/-- 3.1.2.3, bits 7..0: user name, password, will retain, will QoS (two bits), will flag, clean start, reserved -/
def connectFlags (cleanStart : Bool) (will : Option Will) (user : Option String) (password : Option Bytes) : Nat :=
  flag user.isSome 128 + flag password.isSome 64
  + (match will with
    | some w => flag w.retain 32 + 8 * qosNum w.qos + 4
    | none => 0)
  + flag cleanStart 2

/-- variable header and payload -/
def body : Ctl → Bytes
  | .connect cs ka ps id w u pw =>
      str "MQTT" ++ u8 5 ++ u8 (connectFlags cs w u pw) ++ u16 ka.toNat ++ sec ps
      ++ str id ++ maybe (fun w : Will => sec w.props ++ str w.topic ++ bin w.payload) w ++ maybe str u ++ maybe bin pw
  | .connack sp c ps => u8 (flag sp 1) ++ u8 (Spec.V5.connectCode c) ++ sec ps
  | .publish _ q _ t id ps pl => str t ++ (if q = .AtMostOnce then [] else u16 id.toNat) ++ sec ps ++ pl
  | .puback id c ps => u16 id.toNat ++ maybe (fun r => u8 (Spec.V5.pubackCode r)) c ++ maybe sec ps
  | .pubrec id c ps => u16 id.toNat ++ maybe (fun r => u8 (Spec.V5.pubrecCode r)) c ++ maybe sec ps
  | .pubrel id c ps => u16 id.toNat ++ maybe (fun r => u8 (Spec.V5.pubrelCode r)) c ++ maybe sec ps
  | .pubcomp id c ps => u16 id.toNat ++ maybe (fun r => u8 (Spec.V5.pubcompCode r)) c ++ maybe sec ps
  | .subscribe id ps ss => u16 id.toNat ++ sec ps ++ ss.flatMap fun s => str s.filter
      ++ u8 (16 * Spec.V5.ruleNum s.retainHandling + flag s.retainAsPublished 8 + flag s.noLocal 4 + qosNum s.qos)
  | .suback id ps cs => u16 id.toNat ++ sec ps ++ cs.flatMap fun c => u8 (Spec.V5.subCode c)
  | .unsubscribe id ps fs => u16 id.toNat ++ sec ps ++ fs.flatMap str
  | .unsuback id ps cs => u16 id.toNat ++ sec ps ++ cs.flatMap fun c => u8 (Spec.V5.unsubCode c)
  | .pingreq => []
  | .pingresp => []
  | .disconnect c ps => maybe (fun r => u8 (Spec.V5.disconnectCode r)) c ++ maybe sec ps
  | .auth c ps => maybe u8 c ++ maybe sec ps

/-- 2.1: packet type and flags -/
def byte1 : Ctl → Nat
  | .connect .. => 0x10
  | .connack .. => 0x20
  | .publish dup q retain .. => 0x30 + flag dup 8 + 2 * qosNum q + flag retain 1
  | .puback .. => 0x40
  | .pubrec .. => 0x50
  | .pubrel .. => 0x62
  | .pubcomp .. => 0x70
  | .subscribe .. => 0x82
  | .suback .. => 0x90
  | .unsubscribe .. => 0xA2
  | .unsuback .. => 0xB0
  | .pingreq => 0xC0
  | .pingresp => 0xD0
  | .disconnect .. => 0xE0
  | .auth .. => 0xF0

/-- the bytes a conforming peer sends -/
def encode (k : Ctl) : Bytes := frame (byte1 k) (body k)

/-- reason code and properties that may be left out: the properties only together with a present reason code, the
reason code only if it is 0 -/
def ShortOk (pl : Place) {R : Type} (code : Option R) (ps : Option (List Property)) : Prop :=
  (∀ l, ps = some l → code.isSome ∧ PropsOk pl l)

/-- what the standard demands of a control packet (of these demands only those the decoder depends on, so that the
theorems also cover packets that break the others) -/
def Valid (k : Ctl) : Prop :=
  (body k).length ≤ maxRemaining ∧
  match k with
  | .connect _ _ ps id w u pw => PropsOk .connect ps ∧ fits (utf8 id).length
      ∧ (∀ x, w = some x → PropsOk .will x.props ∧ fits (utf8 x.topic).length ∧ fits x.payload.length)
      ∧ (∀ x, u = some x → fits (utf8 x).length) ∧ (∀ x, pw = some x → fits x.length)
  | .connack _ _ ps => PropsOk .connack ps
  | .publish _ q _ t id ps _ => PropsOk .publish ps ∧ fits (utf8 t).length ∧ (q = .AtMostOnce ↔ id = 0)
  | .puback _ c ps => ShortOk .puback c ps
  | .pubrec _ c ps => ShortOk .pubrec c ps
  | .pubrel _ c ps => ShortOk .pubrel c ps
  | .pubcomp _ c ps => ShortOk .pubcomp c ps
  | .subscribe _ ps ss => PropsOk .subscribe ps ∧ ∀ s ∈ ss, fits (utf8 s.filter).length
  | .suback _ ps cs => PropsOk .suback ps ∧ cs ≠ []
  | .unsubscribe _ ps fs => PropsOk .unsubscribe ps ∧ ∀ f ∈ fs, fits (utf8 f).length
  | .unsuback _ ps cs => PropsOk .unsuback ps ∧ cs ≠ []
  | .pingreq => True
  | .pingresp => True
  | .disconnect c ps => ShortOk .disconnect c ps
  | .auth c ps => ShortOk .auth c ps

/-- the subscription identifiers of a PUBLISH are not miscounted by the decoder (always so for at most one) -/
def Counted : Ctl → Prop
  | .publish _ _ _ _ _ ps _ => Readable ps
  | _ => True

/-- the login of a CONNECT: user name and password, none if both are absent or empty -/
def login (user password : String) : Option Login :=
  if user = "" ∧ password = "" then none else some ⟨user, password⟩

/-- a subscription as the crate's filter -/
def filter (s : Sub) : SubscribeFilter where
  path := s.filter
  qos := s.qos
  nolocal := s.noLocal
  preserve_retain := s.retainAsPublished
  retain_forward_rule := s.retainHandling

/-- what the decoder makes of a conforming control packet: the packet, or one of four errors -/
def result : Ctl → Res Packet
  | .connect cs ka ps id w u pw =>
      match text (pw.getD []) with
      | none => .err .TopicNotUtf8    -- a password that is not UTF-8
      | some pw => .ok (.Connect
          { protocol := .V5, keep_alive := ka, client_id := id, clean_session := cs,
            last_will := w.map fun w =>
              { topic := w.topic, message := w.payload, qos := w.qos, retain := w.retain,
                properties := props Spec.V5.willOf w.props },
            login := login (u.getD "") pw, properties := props Spec.V5.connectOf ps })
  | .connack sp c ps => .ok (.ConnAck { session_present := sp, code := c, properties := props Spec.V5.connackOf ps })
  | .publish d q r t id ps pl => .ok (.Publish
      { dup := d, qos := q, retain := r, topic := t, pkid := id, properties := props Spec.V5.publishOf ps, payload := pl })
  | .puback id c ps => .ok (.PubAck
      { pkid := id, reason := c.getD .Success, properties := props Spec.V5.reasonOf (ps.getD []) })
  | .pubrec id c ps => .ok (.PubRec
      { pkid := id, reason := c.getD .Success, properties := props Spec.V5.reasonOf (ps.getD []) })
  | .pubrel id c ps => .ok (.PubRel
      { pkid := id, reason := c.getD .Success, properties := props Spec.V5.reasonOf (ps.getD []) })
  | .pubcomp id c ps => .ok (.PubComp
      { pkid := id, reason := c.getD .Success, properties := props Spec.V5.reasonOf (ps.getD []) })
  | .subscribe id ps ss => .ok (.Subscribe
      { pkid := id, properties := props Spec.V5.subscribeOf ps,
        filters := ss.map filter })
  | .suback id ps cs => .ok (.SubAck { pkid := id, return_codes := cs, properties := props Spec.V5.reasonOf ps })
  | .unsubscribe id ps fs => .ok (.Unsubscribe
      { pkid := id, filters := fs, properties := props Spec.V5.unsubscribeOf ps })
  | .unsuback id ps cs => .ok (.UnsubAck { pkid := id, reasons := cs, properties := props Spec.V5.reasonOf ps })
  | .pingreq => .ok .PingReq
  | .pingresp => .ok .PingResp
  | .disconnect none _ => .err .PayloadRequired               -- reason code left out
  | .disconnect (some _) none => .err (.InsufficientBytes 1)  -- property length left out
  | .disconnect (some c) (some ps) => .ok (.Disconnect
      { reason_code := c, properties := props Spec.V5.disconnectOf ps })
  | .auth .. => .err (.InvalidPacketType 15)

/-! ### What a value of the crate stands for -/

/-- the properties of an optional set; absent and empty are the same -/
def list {π : Type} (toList : π → List Property) : Option π → List Property
  | some p => toList p
  | none => []

/-- an empty text is left out -/
def unlessEmpty (s : String) : Option String := if s = "" then none else some s

/-- PUBACK, PUBREC, PUBREL, PUBCOMP: the reason code is left out if it is success and there are no properties, the
properties if there are none -/
def ackCode {R : Type} (code : R → Nat) (a : Ack R) : Option R :=
  if a.properties = none ∧ code a.reason = 0 then none else some a.reason

/-- the control packet a packet value of the crate stands for -/
def say : Packet → Ctl
  | .Connect c => .connect c.clean_session c.keep_alive (list Spec.V5.connectProps c.properties) c.client_id
      (c.last_will.map fun w => ⟨w.qos, w.retain, list Spec.V5.willProps w.properties, w.topic, w.message⟩)
      (c.login.bind fun l => unlessEmpty l.username)
      (c.login.bind fun l => (unlessEmpty l.password).map utf8)
  | .ConnAck c => .connack c.session_present c.code (list Spec.V5.connackProps c.properties)
  | .Publish p => .publish p.dup p.qos p.retain p.topic p.pkid (list Spec.V5.publishProps p.properties) p.payload
  | .PubAck a => .puback a.pkid (ackCode Spec.V5.pubackCode a) (a.properties.map Spec.V5.reasonProps)
  | .PubRec a => .pubrec a.pkid (ackCode Spec.V5.pubrecCode a) (a.properties.map Spec.V5.reasonProps)
  | .PubRel a => .pubrel a.pkid (ackCode Spec.V5.pubrelCode a) (a.properties.map Spec.V5.reasonProps)
  | .PubComp a => .pubcomp a.pkid (ackCode Spec.V5.pubcompCode a) (a.properties.map Spec.V5.reasonProps)
  | .Subscribe s => .subscribe s.pkid (list Spec.V5.subscribeProps s.properties)
      (s.filters.map fun f => ⟨f.path, f.qos, f.nolocal, f.preserve_retain, f.retain_forward_rule⟩)
  | .SubAck s => .suback s.pkid (list Spec.V5.reasonProps s.properties) s.return_codes
  | .Unsubscribe u => .unsubscribe u.pkid (list Spec.V5.unsubscribeProps u.properties) u.filters
  | .UnsubAck u => .unsuback u.pkid (list Spec.V5.reasonProps u.properties) u.reasons
  | .PingReq => .pingreq
  | .PingResp => .pingresp
  | .Disconnect d => .disconnect
      (if d.properties = none ∧ d.reason_code = .NormalDisconnection then none else some d.reason_code)
      (d.properties.map Spec.V5.disconnectProps)

end Std5

namespace Std4
open Mqtt Mqtt.V4 Spec
open Spec.V4 (qosNum)

/-- 3.1.3.2, 3.1.3.3 -/
structure Will where
  qos : QoS
  retain : Bool
  topic : String
  message : Bytes

/-- A control packet of MQTT 3.1.1. -/
inductive Ctl where
  | connect (cleanSession : Bool) (keepAlive : UInt16) (clientId : String) (will : Option Will)
      (user : Option String) (password : Option Bytes)
  | connack (sessionPresent : Bool) (code : ConnectReturnCode)
  | publish (dup : Bool) (qos : QoS) (retain : Bool) (topic : String) (pkid : UInt16) (payload : Bytes)
  | puback (pkid : UInt16)
  | pubrec (pkid : UInt16)
  | pubrel (pkid : UInt16)
  | pubcomp (pkid : UInt16)
  | subscribe (pkid : UInt16) (subs : List (String × QoS))
  | suback (pkid : UInt16) (codes : List SubscribeReasonCode)
  | unsubscribe (pkid : UInt16) (filters : List String)
  | unsuback (pkid : UInt16)
  | pingreq
  | pingresp
  | disconnect

/-- 3.1.2.3 -/
def connectFlags (cleanSession : Bool) (will : Option Will) (user : Option String) (password : Option Bytes) : Nat :=
  flag user.isSome 128 + flag password.isSome 64
  + (match will with
    | some w => flag w.retain 32 + 8 * qosNum w.qos + 4
    | none => 0)
  + flag cleanSession 2

/-- variable header and payload -/
def body : Ctl → Bytes
  | .connect cs ka id w u pw =>
      str "MQTT" ++ u8 4 ++ u8 (connectFlags cs w u pw) ++ u16 ka.toNat ++ str id
      ++ Std5.maybe (fun w : Will => str w.topic ++ bin w.message) w ++ Std5.maybe str u ++ Std5.maybe bin pw
  | .connack sp c => u8 (flag sp 1) ++ u8 (Spec.V4.returnCode c)
  | .publish _ q _ t id pl => str t ++ (if q = .AtMostOnce then [] else u16 id.toNat) ++ pl
  | .puback id => u16 id.toNat
  | .pubrec id => u16 id.toNat
  | .pubrel id => u16 id.toNat
  | .pubcomp id => u16 id.toNat
  | .subscribe id ss => u16 id.toNat ++ ss.flatMap fun s => str s.1 ++ u8 (qosNum s.2)
  | .suback id cs => u16 id.toNat ++ cs.flatMap fun c => u8 (Spec.V4.subCode c)
  | .unsubscribe id fs => u16 id.toNat ++ fs.flatMap str
  | .unsuback id => u16 id.toNat
  | .pingreq => []
  | .pingresp => []
  | .disconnect => []

/-- 2.2: packet type and flags -/
def byte1 : Ctl → Nat
  | .connect .. => 0x10
  | .connack .. => 0x20
  | .publish dup q retain .. => 0x30 + flag dup 8 + 2 * qosNum q + flag retain 1
  | .puback .. => 0x40
  | .pubrec .. => 0x50
  | .pubrel .. => 0x62
  | .pubcomp .. => 0x70
  | .subscribe .. => 0x82
  | .suback .. => 0x90
  | .unsubscribe .. => 0xA2
  | .unsuback .. => 0xB0
  | .pingreq => 0xC0
  | .pingresp => 0xD0
  | .disconnect => 0xE0

/-- the bytes a conforming peer sends -/
def encode (k : Ctl) : Bytes := frame (byte1 k) (body k)

/-- what the standard demands of a control packet, as far as the decoder depends on it -/
def Valid (k : Ctl) : Prop :=
  (body k).length ≤ maxRemaining ∧
  match k with
  | .connect _ _ id w u pw => fits (utf8 id).length
      ∧ (∀ x, w = some x → fits (utf8 x.topic).length ∧ fits x.message.length)
      ∧ (∀ x, u = some x → fits (utf8 x).length) ∧ (∀ x, pw = some x → fits x.length)
  | .publish _ q _ t id _ => fits (utf8 t).length ∧ (q = .AtMostOnce ↔ id = 0)
  | .subscribe _ ss => ss ≠ [] ∧ ∀ s ∈ ss, fits (utf8 s.1).length
  | .suback _ cs => cs ≠ []
  | .unsubscribe _ fs => ∀ f ∈ fs, fits (utf8 f).length
  | _ => True

/-- the login of a CONNECT: user name and password, none if both are absent or empty -/
def login (user password : String) : Option Login :=
  if user = "" ∧ password = "" then none else some ⟨user, password⟩

/-- what the decoder makes of a conforming control packet: the packet, or the error for a password that is not UTF-8 -/
def result : Ctl → Res Packet
  | .connect cs ka id w u pw =>
      match text (pw.getD []) with
      | none => .err .TopicNotUtf8
      | some pw => .ok (.Connect
          { protocol := .V4, keep_alive := ka, client_id := id, clean_session := cs,
            last_will := w.map fun w => { topic := w.topic, message := w.message, qos := w.qos, retain := w.retain },
            login := login (u.getD "") pw })
  | .connack sp c => .ok (.ConnAck { session_present := sp, code := c })
  | .publish d q r t id pl => .ok (.Publish
      { dup := d, qos := q, retain := r, topic := t, pkid := id, payload := pl })
  | .puback id => .ok (.PubAck { pkid := id })
  | .pubrec id => .ok (.PubRec { pkid := id })
  | .pubrel id => .ok (.PubRel { pkid := id })
  | .pubcomp id => .ok (.PubComp { pkid := id })
  | .subscribe id ss => .ok (.Subscribe { pkid := id, filters := ss.map fun s => { path := s.1, qos := s.2 } })
  | .suback id cs => .ok (.SubAck { pkid := id, return_codes := cs })
  | .unsubscribe id fs => .ok (.Unsubscribe { pkid := id, topics := fs })
  | .unsuback id => .ok (.UnsubAck { pkid := id })
  | .pingreq => .ok .PingReq
  | .pingresp => .ok .PingResp
  | .disconnect => .ok .Disconnect

/-- the control packet a packet value of the crate stands for -/
def say : Packet → Ctl
  | .Connect c => .connect c.clean_session c.keep_alive c.client_id
      (c.last_will.map fun w => ⟨w.qos, w.retain, w.topic, w.message⟩)
      (c.login.bind fun l => Std5.unlessEmpty l.username)
      (c.login.bind fun l => (Std5.unlessEmpty l.password).map utf8)
  | .ConnAck c => .connack c.session_present c.code
  | .Publish p => .publish p.dup p.qos p.retain p.topic p.pkid p.payload
  | .PubAck a => .puback a.pkid
  | .PubRec a => .pubrec a.pkid
  | .PubRel a => .pubrel a.pkid
  | .PubComp a => .pubcomp a.pkid
  | .Subscribe s => .subscribe s.pkid (s.filters.map fun f => (f.path, f.qos))
  | .SubAck s => .suback s.pkid s.return_codes
  | .Unsubscribe u => .unsubscribe u.pkid u.topics
  | .UnsubAck u => .unsuback u.pkid
  | .PingReq => .pingreq
  | .PingResp => .pingresp
  | .Disconnect => .disconnect

end Std4
end Spec
