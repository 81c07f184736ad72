import Verif.Model.Lib
/-! Model of src/v4/*.rs.  Field and function names follow the Rust code. -/
namespace Mqtt.V4
open Mqtt

/-! ### src/v4/connect.rs -/

/-- src/v4/connect.rs 139-146 `struct LastWill` -/
structure LastWill where
  topic : String
  message : Bytes
  qos : QoS
  retain : Bool
  deriving DecidableEq

/-- src/v4/connect.rs 205-209 `struct Login` -/
structure Login where
  username : String
  password : String
  deriving DecidableEq

/-- src/v4/connect.rs 7-21 `struct Connect` -/
structure Connect where
  protocol : Protocol
  keep_alive : UInt16
  client_id : String
  clean_session : Bool
  last_will : Option LastWill
  login : Option Login
  deriving DecidableEq

/-- src/v4/connect.rs 149-161 `LastWill::new` -/
def LastWill.new (topic : String) (payload : Bytes) (qos : QoS) (retain : Bool) : LastWill :=
  { topic := topic, message := payload, qos := qos, retain := retain }

/-- src/v4/connect.rs 163-167 `LastWill::len` -/
def LastWill.len (w : LastWill) : Nat := 2 + strLen w.topic + 2 + w.message.length

/-- src/v4/connect.rs 169-189 `LastWill::read` -/
def LastWill.read (connect_flags : UInt8) : M (Option LastWill) :=
  if connect_flags &&& 0b100 = 0 then
    if connect_flags &&& 0b00111000 ≠ 0 then M.fail .IncorrectPacketFormat
    else pure none
  else do
    let will_topic ← read_mqtt_string
    let will_message ← read_mqtt_bytes
    let will_qos ← M.lift (Mqtt.qos ((connect_flags &&& 0b11000) >>> 3))
    pure (some { topic := will_topic, message := will_message, qos := will_qos,
                 retain := decide (connect_flags &&& 0b00100000 ≠ 0) })

/-- src/v4/connect.rs 191-202 `LastWill::write`; returns the flag bits -/
def LastWill.write (w : LastWill) : M UInt8 := do
  let connect_flags : UInt8 := (0 : UInt8) ||| ((0x04 : UInt8) ||| (w.qos.toU8 <<< 3))
  let connect_flags := if w.retain then connect_flags ||| 0x20 else connect_flags
  write_mqtt_string w.topic
  write_mqtt_bytes w.message
  pure connect_flags

/-- src/v4/connect.rs 212-217 `Login::new` -/
def Login.new (u p : String) : Login := { username := u, password := p }

/-- src/v4/connect.rs 219-235 `Login::read` -/
def Login.read (connect_flags : UInt8) : M (Option Login) := do
  let username ← (if connect_flags &&& 0b10000000 = 0 then pure "" else read_mqtt_string : M String)
  let password ← (if connect_flags &&& 0b01000000 = 0 then pure "" else read_mqtt_string : M String)
  if username.isEmpty && password.isEmpty then pure none
  else pure (some { username := username, password := password })

/-- src/v4/connect.rs 237-249 `Login::len` -/
def Login.len (l : Login) : Nat :=
  let len := 0
  let len := if !l.username.isEmpty then len + (2 + strLen l.username) else len
  let len := if !l.password.isEmpty then len + (2 + strLen l.password) else len
  len

/-- src/v4/connect.rs 251-264 `Login::write`; returns the flag bits -/
def Login.write (l : Login) : M UInt8 := do
  let connect_flags : UInt8 := 0
  let connect_flags ← (if !l.username.isEmpty then do
      write_mqtt_string l.username
      pure (connect_flags ||| 0x80)
    else pure connect_flags : M UInt8)
  let connect_flags ← (if !l.password.isEmpty then do
      write_mqtt_string l.password
      pure (connect_flags ||| 0x40)
    else pure connect_flags : M UInt8)
  pure connect_flags

/-- src/v4/connect.rs 266-268 `Login::validate` -/
def Login.validate (l : Login) (username password : String) : Bool :=
  (l.username == username) && (l.password == password)

/-- src/v4/connect.rs 24-33 `Connect::new` -/
def Connect.new (id : String) : Connect :=
  { protocol := .V4, keep_alive := 10, client_id := id, clean_session := true,
    last_will := none, login := none }

/-- src/v4/connect.rs 35-43 `Connect::set_login` -/
def Connect.set_login (c : Connect) (u p : String) : Connect :=
  { c with login := some { username := u, password := p } }

/-- src/v4/connect.rs 45-64 `Connect::len` -/
def Connect.len (c : Connect) : Nat :=
  let len := 2 + 4 + 1 + 1 + 2
  let len := len + (2 + strLen c.client_id)
  let len := match c.last_will with | some w => len + w.len | none => len
  let len := match c.login with | some l => len + l.len | none => len
  len

/-- src/v4/connect.rs 66-101 `Connect::read` -/
def Connect.readM (h : FixedHeader) : M Connect := do
  advance h.fixed_header_len
  let protocol_name ← read_mqtt_string
  let protocol_level ← read_u8
  if protocol_name ≠ "MQTT" then M.fail .InvalidProtocol else
  let protocol ← (match protocol_level with
    | 4 => pure Protocol.V4
    | 5 => pure Protocol.V5
    | num => M.fail (.InvalidProtocolLevel num) : M Protocol)
  let connect_flags ← read_u8
  let clean_session := decide (connect_flags &&& 0b10 ≠ 0)
  let keep_alive ← read_u16
  let client_id ← read_mqtt_string
  let last_will ← LastWill.read connect_flags
  let login ← Login.read connect_flags
  pure { protocol := protocol, keep_alive := keep_alive, client_id := client_id,
         clean_session := clean_session, last_will := last_will, login := login }

/-- src/v4/connect.rs 103-136 `Connect::write` -/
def Connect.write (c : Connect) : M Nat := do
  let len := c.len
  putU8 0b00010000
  let count ← write_remaining_length len
  write_mqtt_string "MQTT"
  putU8 c.protocol.level
  let flags_index := 1 + count + 2 + 4 + 1
  let connect_flags : UInt8 := 0
  let connect_flags := if c.clean_session then connect_flags ||| 0x02 else connect_flags
  putU8 connect_flags
  putU16 c.keep_alive
  write_mqtt_string c.client_id
  let connect_flags ← orFlags c.last_will LastWill.write connect_flags
  let connect_flags ← orFlags c.login Login.write connect_flags
  setIdx flags_index connect_flags
  pure len

/-! ### src/v4/connack.rs -/

/-- src/v4/connack.rs 5-14 `enum ConnectReturnCode` -/
inductive ConnectReturnCode where
  | Success | RefusedProtocolVersion | BadClientId | ServiceUnavailable
  | BadUserNamePassword | NotAuthorized
  deriving DecidableEq, Repr

/-- src/v4/connack.rs 7-14: discriminants from `Success = 0` upwards (`code as u8`) -/
def ConnectReturnCode.toU8 : ConnectReturnCode → UInt8
  | .Success => 0 | .RefusedProtocolVersion => 1 | .BadClientId => 2 | .ServiceUnavailable => 3
  | .BadUserNamePassword => 4 | .NotAuthorized => 5

/-- src/v4/connack.rs 17-21 `struct ConnAck` -/
structure ConnAck where
  session_present : Bool
  code : ConnectReturnCode
  deriving DecidableEq

/-- src/v4/connack.rs 24-29 `ConnAck::new` -/
def ConnAck.new (code : ConnectReturnCode) (session_present : Bool) : ConnAck :=
  { session_present := session_present, code := code }

/-- src/v4/connack.rs 31-35 `ConnAck::len` -/
def ConnAck.len (_ : ConnAck) : Nat := 1 + 1

/-- src/v4/connack.rs 67-77 `connect_return` -/
def connect_return (num : UInt8) : Res ConnectReturnCode :=
  match num with
  | 0 => .ok .Success
  | 1 => .ok .RefusedProtocolVersion
  | 2 => .ok .BadClientId
  | 3 => .ok .ServiceUnavailable
  | 4 => .ok .BadUserNamePassword
  | 5 => .ok .NotAuthorized
  | num => .err (.InvalidConnectReturnCode num)

/-- src/v4/connack.rs 37-52 `ConnAck::read` -/
def ConnAck.readM (h : FixedHeader) : M ConnAck := do
  advance h.fixed_header_len
  let flags ← read_u8
  let return_code ← read_u8
  let session_present := decide (flags &&& 0x01 = 1)
  let code ← M.lift (connect_return return_code)
  pure { session_present := session_present, code := code }

/-- src/v4/connack.rs 54-63 `ConnAck::write` -/
def ConnAck.write (c : ConnAck) : M Nat := do
  let len := c.len
  putU8 0x20
  let count ← write_remaining_length len
  putU8 (boolU8 c.session_present)
  putU8 c.code.toU8
  pure (1 + count + len)

/-! ### src/v4/publish.rs -/

/-- src/v4/publish.rs 8-16 `struct Publish` -/
structure Publish where
  dup : Bool
  qos : QoS
  retain : Bool
  topic : String
  pkid : UInt16
  payload : Bytes
  deriving DecidableEq

/-- src/v4/publish.rs 19-28 `Publish::new` -/
def Publish.new (topic : String) (qos : QoS) (payload : Bytes) : Publish :=
  { dup := false, qos := qos, retain := false, pkid := 0, topic := topic, payload := payload }

/-- src/v4/publish.rs 30-39 `Publish::from_bytes` -/
def Publish.from_bytes (topic : String) (qos : QoS) (payload : Bytes) : Publish :=
  { dup := false, qos := qos, retain := false, pkid := 0, topic := topic, payload := payload }

/-- src/v4/publish.rs 41-49 `Publish::len` -/
def Publish.len (p : Publish) : Nat :=
  let len := 2 + strLen p.topic
  let len := if p.qos ≠ .AtMostOnce ∧ p.pkid ≠ 0 then len + 2 else len
  len + p.payload.length

/-- src/v4/publish.rs 51-80 `Publish::read` -/
def Publish.readM (h : FixedHeader) : M Publish := do
  let qos ← M.lift (Mqtt.qos ((h.byte1 &&& 0b0110) >>> 1))
  let dup := decide (h.byte1 &&& 0b1000 ≠ 0)
  let retain := decide (h.byte1 &&& 0b0001 ≠ 0)
  advance h.fixed_header_len
  let topic ← read_mqtt_string
  let pkid ← (match qos with
    | .AtMostOnce => pure 0
    | .AtLeastOnce | .ExactlyOnce => read_u16 : M UInt16)
  if qos ≠ .AtMostOnce ∧ pkid = 0 then M.fail .PacketIdZero else
  let bytes ← M.look
  pure { dup := dup, retain := retain, qos := qos, pkid := pkid, topic := topic, payload := bytes }

/-- src/v4/publish.rs 82-106 `Publish::write` -/
def Publish.write (p : Publish) : M Nat := do
  let len := p.len
  let dup := boolU8 p.dup
  let qos := p.qos.toU8
  let retain := boolU8 p.retain
  putU8 ((0b00110000 : UInt8) ||| retain ||| (qos <<< 1) ||| (dup <<< 3))
  let count ← write_remaining_length len
  write_mqtt_string p.topic
  (if p.qos ≠ .AtMostOnce then
    (if p.pkid = 0 then M.fail .PacketIdZero else putU16 p.pkid)
    else pure () : M Unit)
  putSlice p.payload
  pure (1 + count + len)

/-! ### src/v4/puback.rs, pubrec.rs, pubrel.rs, pubcomp.rs -/

/-- src/v4/puback.rs 5-8 `struct PubAck` -/
structure PubAck where
  pkid : UInt16
  deriving DecidableEq
/-- src/v4/puback.rs 11-13 -/
def PubAck.new (pkid : UInt16) : PubAck := { pkid := pkid }
/-- src/v4/puback.rs 15-18 -/
def PubAck.len (_ : PubAck) : Nat := 2
/-- src/v4/puback.rs 20-38 `PubAck::read` -/
def PubAck.readM (h : FixedHeader) : M PubAck := do
  advance h.fixed_header_len
  let pkid ← read_u16
  if h.remaining_len = 2 then pure { pkid := pkid }
  else if h.remaining_len < 4 then pure { pkid := pkid }
  else pure { pkid := pkid }
/-- src/v4/puback.rs 40-46 `PubAck::write` -/
def PubAck.write (p : PubAck) : M Nat := do
  let len := p.len
  putU8 0x40
  let count ← write_remaining_length len
  putU16 p.pkid
  pure (1 + count + len)

/-- src/v4/pubrec.rs 5-8 `struct PubRec` -/
structure PubRec where
  pkid : UInt16
  deriving DecidableEq
/-- src/v4/pubrec.rs 11-13 -/
def PubRec.new (pkid : UInt16) : PubRec := { pkid := pkid }
/-- src/v4/pubrec.rs 15-18 -/
def PubRec.len (_ : PubRec) : Nat := 2
/-- src/v4/pubrec.rs 20-35 `PubRec::read` -/
def PubRec.readM (h : FixedHeader) : M PubRec := do
  advance h.fixed_header_len
  let pkid ← read_u16
  if h.remaining_len = 2 then pure { pkid := pkid }
  else if h.remaining_len < 4 then pure { pkid := pkid }
  else pure { pkid := pkid }
/-- src/v4/pubrec.rs 37-43 `PubRec::write` -/
def PubRec.write (p : PubRec) : M Nat := do
  let len := p.len
  putU8 0x50
  let count ← write_remaining_length len
  putU16 p.pkid
  pure (1 + count + len)

/-- src/v4/pubrel.rs 5-8 `struct PubRel` -/
structure PubRel where
  pkid : UInt16
  deriving DecidableEq
/-- src/v4/pubrel.rs 11-13 -/
def PubRel.new (pkid : UInt16) : PubRel := { pkid := pkid }
/-- src/v4/pubrel.rs 15-18 -/
def PubRel.len (_ : PubRel) : Nat := 2
/-- src/v4/pubrel.rs 20-35 `PubRel::read` -/
def PubRel.readM (h : FixedHeader) : M PubRel := do
  advance h.fixed_header_len
  let pkid ← read_u16
  if h.remaining_len = 2 then pure { pkid := pkid }
  else if h.remaining_len < 4 then pure { pkid := pkid }
  else pure { pkid := pkid }
/-- src/v4/pubrel.rs 37-43 `PubRel::write` -/
def PubRel.write (p : PubRel) : M Nat := do
  let len := p.len
  putU8 0x62
  let count ← write_remaining_length len
  putU16 p.pkid
  pure (1 + count + len)

/-- src/v4/pubcomp.rs 5-8 `struct PubComp` -/
structure PubComp where
  pkid : UInt16
  deriving DecidableEq
/-- src/v4/pubcomp.rs 11-13 -/
def PubComp.new (pkid : UInt16) : PubComp := { pkid := pkid }
/-- src/v4/pubcomp.rs 15-18 -/
def PubComp.len (_ : PubComp) : Nat := 2
/-- src/v4/pubcomp.rs 20-36 `PubComp::read` -/
def PubComp.readM (h : FixedHeader) : M PubComp := do
  advance h.fixed_header_len
  let pkid ← read_u16
  if h.remaining_len = 2 then pure { pkid := pkid }
  else if h.remaining_len < 4 then pure { pkid := pkid }
  else pure { pkid := pkid }
/-- src/v4/pubcomp.rs 38-44 `PubComp::write` -/
def PubComp.write (p : PubComp) : M Nat := do
  let len := p.len
  putU8 0x70
  let count ← write_remaining_length len
  putU16 p.pkid
  pure (1 + count + len)

/-! ### src/v4/subscribe.rs -/

/-- src/v4/subscribe.rs 97-102 `struct SubscribeFilter` -/
structure SubscribeFilter where
  path : String
  qos : QoS
  deriving DecidableEq

/-- src/v4/subscribe.rs 8-12 `struct Subscribe` -/
structure Subscribe where
  pkid : UInt16
  filters : List SubscribeFilter
  deriving DecidableEq

/-- src/v4/subscribe.rs 105-107 `SubscribeFilter::new` -/
def SubscribeFilter.new (path : String) (qos : QoS) : SubscribeFilter :=
  { path := path, qos := qos }

/-- src/v4/subscribe.rs 109-112 `SubscribeFilter::len` -/
def SubscribeFilter.len (f : SubscribeFilter) : Nat := 2 + strLen f.path + 1

/-- src/v4/subscribe.rs 114-120 `SubscribeFilter::write` -/
def SubscribeFilter.write (f : SubscribeFilter) : M Unit := do
  let options : UInt8 := 0
  let options := options ||| f.qos.toU8
  write_mqtt_string f.path
  putU8 options

/-- src/v4/subscribe.rs 15-25 `Subscribe::new` -/
def Subscribe.new (path : String) (qos : QoS) : Subscribe :=
  { pkid := 0, filters := [{ path := path, qos := qos }] }

/-- src/v4/subscribe.rs 27-37 `Subscribe::new_many` -/
def Subscribe.new_many (topics : List SubscribeFilter) : Res Subscribe :=
  match topics.length with
  | 0 => .err .EmptySubscription
  | _ => .ok { pkid := 0, filters := topics }

/-- src/v4/subscribe.rs 39-44 `Subscribe::add` -/
def Subscribe.add (s : Subscribe) (path : String) (qos : QoS) : Subscribe :=
  { s with filters := s.filters ++ [{ path := path, qos := qos }] }

/-- src/v4/subscribe.rs 46-49 `Subscribe::len` -/
def Subscribe.len (s : Subscribe) : Nat := 2 + s.filters.foldl (fun s t => s + t.len) 0

/-- src/v4/subscribe.rs 60-69, the `while bytes.has_remaining()` loop; `filters` is the vector
built so far -/
def Subscribe.readLoop : (fuel : Nat) → List SubscribeFilter → M (List SubscribeFilter)
  | 0, _ => M.diverge
  | fuel + 1, filters => do
    let bytes ← M.look
    if bytes.isEmpty then pure filters else
    let path ← read_mqtt_string
    let options ← read_u8
    let requested_qos := options &&& 0b00000011
    let q ← M.lift (Mqtt.qos requested_qos)
    readLoop fuel (filters ++ [{ path := path, qos := q }])

/-- src/v4/subscribe.rs 51-75 `Subscribe::read` -/
def Subscribe.readM (h : FixedHeader) : M Subscribe := do
  advance h.fixed_header_len
  let pkid ← read_u16
  let bytes ← M.look
  let filters ← Subscribe.readLoop (bytes.length + 1) []
  match filters.length with
  | 0 => M.fail .EmptySubscription
  | _ => pure { pkid := pkid, filters := filters }

/-- src/v4/subscribe.rs 77-94 `Subscribe::write` -/
def Subscribe.write (s : Subscribe) : M Nat := do
  putU8 0x82
  let remaining_len := s.len
  let remaining_len_bytes ← write_remaining_length remaining_len
  putU16 s.pkid
  forEach s.filters SubscribeFilter.write
  pure (1 + remaining_len_bytes + remaining_len)

/-! ### src/v4/suback.rs -/

/-- src/v4/suback.rs 61-65 `enum SubscribeReasonCode` -/
inductive SubscribeReasonCode where
  | Success (q : QoS)
  | Failure
  deriving DecidableEq, Repr

/-- src/v4/suback.rs 7-11 `struct SubAck` -/
structure SubAck where
  pkid : UInt16
  return_codes : List SubscribeReasonCode
  deriving DecidableEq

/-- src/v4/suback.rs 14-16 `SubAck::new` -/
def SubAck.new (pkid : UInt16) (return_codes : List SubscribeReasonCode) : SubAck :=
  { pkid := pkid, return_codes := return_codes }

/-- src/v4/suback.rs 18-21 `SubAck::len` -/
def SubAck.len (s : SubAck) : Nat := 2 + s.return_codes.length

/-- src/v4/suback.rs 70-80 `TryFrom<u8> for SubscribeReasonCode` -/
def SubscribeReasonCode.try_from (value : UInt8) : Res SubscribeReasonCode :=
  match value with
  | 0 => .ok (.Success .AtMostOnce)
  | 1 => .ok (.Success .AtLeastOnce)
  | 2 => .ok (.Success .ExactlyOnce)
  | 128 => .ok .Failure
  | v => .err (.InvalidSubscribeReasonCode v)

/-- src/v4/suback.rs 51-54, the closure of `map` in `SubAck::write` -/
def SubscribeReasonCode.toU8 : SubscribeReasonCode → UInt8
  | .Success qos => qos.toU8
  | .Failure => 0x80

/-- src/v4/suback.rs 33-36, the `while bytes.has_remaining()` loop -/
def SubAck.readLoop : (fuel : Nat) → List SubscribeReasonCode → M (List SubscribeReasonCode)
  | 0, _ => M.diverge
  | fuel + 1, return_codes => do
    let bytes ← M.look
    if bytes.isEmpty then pure return_codes else
    let return_code ← read_u8
    let c ← M.lift (SubscribeReasonCode.try_from return_code)
    readLoop fuel (return_codes ++ [c])

/-- src/v4/suback.rs 23-40 `SubAck::read` -/
def SubAck.readM (h : FixedHeader) : M SubAck := do
  advance h.fixed_header_len
  let pkid ← read_u16
  let bytes ← M.look
  if bytes.isEmpty then M.fail .MalformedPacket else
  let return_codes ← SubAck.readLoop (bytes.length + 1) []
  pure { pkid := pkid, return_codes := return_codes }

/-- src/v4/suback.rs 42-58 `SubAck::write` -/
def SubAck.write (s : SubAck) : M Nat := do
  putU8 0x90
  let remaining_len := s.len
  let remaining_len_bytes ← write_remaining_length remaining_len
  putU16 s.pkid
  let p : Bytes := s.return_codes.map SubscribeReasonCode.toU8
  putSlice p
  pure (1 + remaining_len_bytes + remaining_len)

/-! ### src/v4/unsubscribe.rs -/

/-- src/v4/unsubscribe.rs 7-11 `struct Unsubscribe` -/
structure Unsubscribe where
  pkid : UInt16
  topics : List String
  deriving DecidableEq

/-- src/v4/unsubscribe.rs 14-19 `Unsubscribe::new` -/
def Unsubscribe.new (topic : String) : Unsubscribe := { pkid := 0, topics := [topic] }

/-- src/v4/unsubscribe.rs 29-33, the `while payload_bytes > 0` loop -/
def Unsubscribe.readLoop : (fuel payload_bytes : Nat) → List String → M (List String)
  | 0, _, _ => M.diverge
  | fuel + 1, payload_bytes, topics =>
    if payload_bytes > 0 then do
      let topic_filter ← read_mqtt_string
      let payload_bytes ← usub payload_bytes (strLen topic_filter + 2)
      readLoop fuel payload_bytes (topics ++ [topic_filter])
    else pure topics

/-- src/v4/unsubscribe.rs 21-37 `Unsubscribe::read` -/
def Unsubscribe.readM (h : FixedHeader) : M Unsubscribe := do
  advance h.fixed_header_len
  let pkid ← read_u16
  let payload_bytes ← usub h.remaining_len 2
  let bytes ← M.look
  let topics ← Unsubscribe.readLoop (bytes.length + 1) payload_bytes []
  pure { pkid := pkid, topics := topics }

/-- src/v4/unsubscribe.rs 39-53 `Unsubscribe::write` -/
def Unsubscribe.write (u : Unsubscribe) : M Nat := do
  let remaining_len := 2 + u.topics.foldl (fun s topic => s + strLen topic + 2) 0
  putU8 0xA2
  let remaining_len_bytes ← write_remaining_length remaining_len
  putU16 u.pkid
  forEach u.topics write_mqtt_string
  pure (1 + remaining_len_bytes + remaining_len)

/-! ### src/v4/unsuback.rs, ping.rs, disconnect.rs -/

/-- src/v4/unsuback.rs 5-8 `struct UnsubAck` -/
structure UnsubAck where
  pkid : UInt16
  deriving DecidableEq
/-- src/v4/unsuback.rs 11-13 -/
def UnsubAck.new (pkid : UInt16) : UnsubAck := { pkid := pkid }
/-- src/v4/unsuback.rs 15-26 `UnsubAck::read` -/
def UnsubAck.readM (h : FixedHeader) : M UnsubAck := do
  if h.remaining_len ≠ 2 then M.fail .PayloadSizeIncorrect else
  advance h.fixed_header_len
  let pkid ← read_u16
  pure { pkid := pkid }
/-- src/v4/unsuback.rs 28-32 `UnsubAck::write` -/
def UnsubAck.write (u : UnsubAck) : M Nat := do
  putSlice [0xB0, 0x02]
  putU16 u.pkid
  pure 4

/-- src/v4/ping.rs 7-10 `PingReq::write` -/
def PingReq.write : M Nat := do putSlice [0xC0, 0x00]; pure 2
/-- src/v4/ping.rs 16-19 `PingResp::write` -/
def PingResp.write : M Nat := do putSlice [0xD0, 0x00]; pure 2
/-- src/v4/disconnect.rs 7-10 `Disconnect::write` -/
def Disconnect.write : M Nat := do putSlice [0xE0, 0x00]; pure 2

/-! ### src/v4/mod.rs -/

/-- src/v4/mod.rs 31-48 `enum Packet` -/
inductive Packet where
  | Connect (p : Connect)
  | ConnAck (p : ConnAck)
  | Publish (p : Publish)
  | PubAck (p : PubAck)
  | PubRec (p : PubRec)
  | PubRel (p : PubRel)
  | PubComp (p : PubComp)
  | Subscribe (p : Subscribe)
  | SubAck (p : SubAck)
  | Unsubscribe (p : Unsubscribe)
  | UnsubAck (p : UnsubAck)
  | PingReq
  | PingResp
  | Disconnect
  deriving DecidableEq

/-- src/v4/mod.rs 56-86, the part of `read` after the frame has been split off the stream -/
def readFrame (fixed_header : FixedHeader) (packet : Bytes) : Res Packet :=
  match fixed_header.packet_type with
  | .ok packet_type =>
    if fixed_header.remaining_len = 0 then
      match packet_type with
      | .PingReq => .ok .PingReq
      | .PingResp => .ok .PingResp
      | .Disconnect => .ok .Disconnect
      | _ => .err .PayloadRequired
    else
      match packet_type with
      | .Connect => onFrame (Connect.readM fixed_header) packet .Connect
      | .ConnAck => onFrame (ConnAck.readM fixed_header) packet .ConnAck
      | .Publish => onFrame (Publish.readM fixed_header) packet .Publish
      | .PubAck => onFrame (PubAck.readM fixed_header) packet .PubAck
      | .PubRec => onFrame (PubRec.readM fixed_header) packet .PubRec
      | .PubRel => onFrame (PubRel.readM fixed_header) packet .PubRel
      | .PubComp => onFrame (PubComp.readM fixed_header) packet .PubComp
      | .Subscribe => onFrame (Subscribe.readM fixed_header) packet .Subscribe
      | .SubAck => onFrame (SubAck.readM fixed_header) packet .SubAck
      | .Unsubscribe => onFrame (Unsubscribe.readM fixed_header) packet .Unsubscribe
      | .UnsubAck => onFrame (UnsubAck.readM fixed_header) packet .UnsubAck
      | .PingReq => .ok .PingReq
      | .PingResp => .ok .PingResp
      | .Disconnect => .ok .Disconnect
  | .err e => .err e
  | .panic => .panic
  | .diverge => .diverge

/-- src/v4/mod.rs 51-87 `read` -/
def read (max_size : Nat) : M Packet := do
  let stream ← M.look
  let fixed_header ← M.lift (check stream max_size)
  let packet ← splitTo fixed_header.frame_length
  M.lift (readFrame fixed_header packet)

/-- Client glue (not in /repo): write whichever packet it is with that packet's own `write`. -/
def Packet.write : Packet → M Nat
  | .Connect p => p.write
  | .ConnAck p => p.write
  | .Publish p => p.write
  | .PubAck p => p.write
  | .PubRec p => p.write
  | .PubRel p => p.write
  | .PubComp p => p.write
  | .Subscribe p => p.write
  | .SubAck p => p.write
  | .Unsubscribe p => p.write
  | .UnsubAck p => p.write
  | .PingReq => PingReq.write
  | .PingResp => PingResp.write
  | .Disconnect => Disconnect.write

end Mqtt.V4
