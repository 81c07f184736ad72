import Verif.Model.V4
import Verif.Model.V5Shared
/-! The code that contains, or calls code that contains, checked `usize` arithmetic, as it behaves in release builds: `+=`,
`-` and `-=` wrap around modulo `2 ^ W` (`W` the width of `usize`) instead of panicking.  Everything else is unchanged, so
each definition is the one of the same name without `R` (in `Model/V4`, `Model/V5Base`, `Model/V5Connect`,
`Model/V5Packets`), except that `usub` / `uadd` are replaced by `wsub` / `wadd`. -/
namespace Mqtt

/-- `a - b` on `usize` without overflow checks (release builds, used by src/v4/unsubscribe.rs 26 and 31) -/
def wsub (W a b : Nat) : M Nat := pure ((a + 2 ^ W - b) % 2 ^ W)
/-- `a + b` on `usize` without overflow checks (release builds, used by the property loops in src/v5); e.g. src/v5/publish.rs 203 -/
def wadd (W a b : Nat) : M Nat := pure ((a + b) % 2 ^ W)

namespace V4

/-- src/v4/unsubscribe.rs 29-33, the `while payload_bytes > 0` loop.  Release build. -/
def Unsubscribe.readLoopR (W : Nat) : (fuel payload_bytes : Nat) → List String → M (List String)
  | 0, _, _ => M.diverge
  | fuel + 1, payload_bytes, topics =>
    if payload_bytes > 0 then do
      let topic_filter ← read_mqtt_string
      let payload_bytes ← wsub W payload_bytes (strLen topic_filter + 2)
      Unsubscribe.readLoopR W fuel payload_bytes (topics ++ [topic_filter])
    else pure topics

/-- src/v4/unsubscribe.rs 21-37 `Unsubscribe::read`.  Release build. -/
def Unsubscribe.readMR (W : Nat) (h : FixedHeader) : M Unsubscribe := do
  advance h.fixed_header_len
  let pkid ← read_u16
  let payload_bytes ← wsub W h.remaining_len 2
  let bytes ← M.look
  let topics ← Unsubscribe.readLoopR W (bytes.length + 1) payload_bytes []
  pure { pkid := pkid, topics := topics }

/-- src/v4/mod.rs 56-86, the part of `read` after the frame has been split off the stream.  Release build. -/
def readFrameR (W : Nat) (fixed_header : FixedHeader) (packet : Bytes) : Res Packet :=
  match fixed_header.packet_type with
  | .ok packet_type =>
    if fixed_header.remaining_len = 0 then
      match packet_type with
      | .PingReq => .ok .PingReq
      | .PingResp => .ok .PingResp
      | .Disconnect => .ok .Disconnect
      | _ => .err .PayloadRequired
    else
      match packet_type with
      | .Connect => onFrame (Connect.readM fixed_header) packet .Connect
      | .ConnAck => onFrame (ConnAck.readM fixed_header) packet .ConnAck
      | .Publish => onFrame (Publish.readM fixed_header) packet .Publish
      | .PubAck => onFrame (PubAck.readM fixed_header) packet .PubAck
      | .PubRec => onFrame (PubRec.readM fixed_header) packet .PubRec
      | .PubRel => onFrame (PubRel.readM fixed_header) packet .PubRel
      | .PubComp => onFrame (PubComp.readM fixed_header) packet .PubComp
      | .Subscribe => onFrame (Subscribe.readM fixed_header) packet .Subscribe
      | .SubAck => onFrame (SubAck.readM fixed_header) packet .SubAck
      | .Unsubscribe => onFrame (Unsubscribe.readMR W fixed_header) packet .Unsubscribe
      | .UnsubAck => onFrame (UnsubAck.readM fixed_header) packet .UnsubAck
      | .PingReq => .ok .PingReq
      | .PingResp => .ok .PingResp
      | .Disconnect => .ok .Disconnect
  | .err e => .err e
  | .panic => .panic
  | .diverge => .diverge

/-- src/v4/mod.rs 51-87 `read`.  Release build. -/
def readR (W : Nat) (max_size : Nat) : M Packet := do
  let stream ← M.look
  let fixed_header ← M.lift (check stream max_size)
  let packet ← splitTo fixed_header.frame_length
  M.lift (readFrameR W fixed_header packet)

end V4

namespace V5

/-- The loop `while cursor < properties_len { ... }`, identical in src/v5/connect.rs 322-364 and
535-583, connack.rs 241-326, publish.rs 199-247, puback.rs 141-161, pubrec.rs 137-157,
pubrel.rs 128-148, pubcomp.rs 129-149, subscribe.rs 185-207, suback.rs 118-138,
unsubscribe.rs 114-129, unsuback.rs 129-149, disconnect.rs 183-213; the arms are `step`.
The local variables are the argument `st`.
Simplification: `cursor += n` happens after the value is read; in the code it sometimes precedes
`bytes.advance` / the assignment, which has no observable effect.  Release build. -/
def propLoopR (W : Nat) {σ : Type} (step : PropStep σ) : (fuel properties_len cursor : Nat) → σ → M σ
  | 0, _, _, _ => M.diverge
  | fuel + 1, properties_len, cursor, st =>
    if cursor < properties_len then do
      let prop ← read_u8
      let cursor ← wadd W cursor 1
      let ty ← M.lift (property prop)
      let (st, n) ← step ty prop st
      let cursor ← wadd W cursor n
      propLoopR W step fuel properties_len cursor st
    else pure st

/-- The frame of `extract`/`read` of all property structs: read the property length, return
`None` when it is 0, otherwise run the loop.  Same files as `propLoop` (e.g. puback.rs 131-167).  Release build. -/
def extractPropsR (W : Nat) {σ : Type} (step : PropStep σ) (init : σ) : M (Option σ) := do
  let (properties_len_len, properties_len) ← peek_length
  advance properties_len_len
  if properties_len = 0 then pure none
  else do
    let bytes ← M.look
    let st ← propLoopR W step (bytes.length + 1) properties_len 0 init
    pure (some st)

/-- puback.rs 131-167, pubrec.rs 127-163, pubrel.rs 118-154, pubcomp.rs 119-155,
suback.rs 108-144, unsuback.rs 119-155 `extract`.  Release build. -/
def ReasonProps.extractR (W : Nat) : M (Option ReasonProps) :=
  extractPropsR W ReasonProps.step { reason_string := none, user_properties := [] }

/-- src/v5/connect.rs 307-375 `WillProperties::read`.  Release build. -/
def WillProperties.readR (W : Nat) : M (Option WillProperties) :=
  extractPropsR W WillProperties.step WillProperties.empty

/-- src/v5/connect.rs 214-238 `LastWill::read`.  Release build. -/
def LastWill.readR (W : Nat) (connect_flags : UInt8) : M (Option LastWill) :=
  if connect_flags &&& 0b100 = 0 then
    if connect_flags &&& 0b00111000 ≠ 0 then M.fail .IncorrectPacketFormat
    else pure none
  else do
    let properties ← WillProperties.readR W
    let will_topic ← read_mqtt_string
    let will_message ← read_mqtt_bytes
    let will_qos ← M.lift (Mqtt.qos ((connect_flags &&& 0b11000) >>> 3))
    pure (some { topic := will_topic, message := will_message, qos := will_qos,
                 retain := decide (connect_flags &&& 0b00100000 ≠ 0), properties := properties })

/-- src/v5/connect.rs 518-596 `ConnectProperties::read`.  Release build. -/
def ConnectProperties.readR (W : Nat) : M (Option ConnectProperties) :=
  extractPropsR W ConnectProperties.step ConnectProperties.empty

/-- src/v5/connect.rs 81-123 `Connect::read`.  Release build. -/
def Connect.readMR (W : Nat) (h : FixedHeader) : M Connect := do
  advance h.fixed_header_len
  let protocol_name ← read_mqtt_string
  let protocol_level ← read_u8
  if protocol_name ≠ "MQTT" then M.fail .InvalidProtocol else
  let protocol ← (match protocol_level with
    | 4 => pure Protocol.V4
    | 5 => pure Protocol.V5
    | num => M.fail (.InvalidProtocolLevel num) : M Protocol)
  let connect_flags ← read_u8
  let clean_session := decide (connect_flags &&& 0b10 ≠ 0)
  let keep_alive ← read_u16
  let properties ← (match protocol with
    | .V5 => ConnectProperties.readR W
    | .V4 => pure none : M (Option ConnectProperties))
  let client_id ← read_mqtt_string
  let last_will ← LastWill.readR W connect_flags
  let login ← Login.read connect_flags
  pure { protocol := protocol, keep_alive := keep_alive, client_id := client_id,
         clean_session := clean_session, last_will := last_will, login := login,
         properties := properties }

/-- src/v5/connack.rs 216-347 `ConnAckProperties::extract`.  Release build. -/
def ConnAckProperties.extractR (W : Nat) : M (Option ConnAckProperties) :=
  extractPropsR W ConnAckProperties.step ConnAckProperties.new

/-- src/v5/connack.rs 64-80 `ConnAck::read`.  Release build. -/
def ConnAck.readMR (W : Nat) (h : FixedHeader) : M ConnAck := do
  advance h.fixed_header_len
  let flags ← read_u8
  let return_code ← read_u8
  let session_present := decide (flags &&& 0x01 = 1)
  let code ← M.lift (connect_return return_code)
  let properties ← ConnAckProperties.extractR W
  pure { session_present := session_present, code := code, properties := properties }

/-- src/v5/publish.rs 183-259 `PublishProperties::extract`.  Release build. -/
def PublishProperties.extractR (W : Nat) : M (Option PublishProperties) :=
  extractPropsR W PublishProperties.step PublishProperties.empty

/-- src/v5/publish.rs 66-96 `Publish::read`.  Release build. -/
def Publish.readMR (W : Nat) (h : FixedHeader) : M Publish := do
  let qos ← M.lift (Mqtt.qos ((h.byte1 &&& 0b0110) >>> 1))
  let dup := decide (h.byte1 &&& 0b1000 ≠ 0)
  let retain := decide (h.byte1 &&& 0b0001 ≠ 0)
  advance h.fixed_header_len
  let topic ← read_mqtt_string
  let pkid ← (match qos with
    | .AtMostOnce => pure 0
    | .AtLeastOnce | .ExactlyOnce => read_u16 : M UInt16)
  if qos ≠ .AtMostOnce ∧ pkid = 0 then M.fail .PacketIdZero else
  let properties ← PublishProperties.extractR W
  let payload ← M.look
  pure { dup := dup, retain := retain, qos := qos, pkid := pkid, topic := topic,
         properties := properties, payload := payload }

/-- `read` of puback.rs 56-87, pubrec.rs 55-83, pubrel.rs 46-74, pubcomp.rs 46-75 (textually the
same); `reason` is that file's function `reason`.  Release build. -/
def Ack.readMR (W : Nat) {R : Type} (success : R) (reason : UInt8 → Res R) (h : FixedHeader) :
    M (Ack R) := do
  advance h.fixed_header_len
  let pkid ← read_u16
  if h.remaining_len = 2 then pure { pkid := pkid, reason := success, properties := none } else
  let ack_reason ← read_u8
  if h.remaining_len < 4 then do
    let r ← M.lift (reason ack_reason)
    pure { pkid := pkid, reason := r, properties := none }
  else
  let r ← M.lift (reason ack_reason)
  let properties ← ReasonProps.extractR W
  pure { pkid := pkid, reason := r, properties := properties }

/-- src/v5/puback.rs 56-87 `PubAck::read`.  Release build. -/
def PubAck.readMR (W : Nat) (h : FixedHeader) : M PubAck := Ack.readMR W .Success PubAckReason.reason h

/-- src/v5/pubrec.rs 55-83 `PubRec::read`.  Release build. -/
def PubRec.readMR (W : Nat) (h : FixedHeader) : M PubRec := Ack.readMR W .Success PubRecReason.reason h

/-- src/v5/pubrel.rs 46-74 `PubRel::read`.  Release build. -/
def PubRel.readMR (W : Nat) (h : FixedHeader) : M PubRel := Ack.readMR W .Success PubRelReason.reason h

/-- src/v5/pubcomp.rs 46-75 `PubComp::read`.  Release build. -/
def PubComp.readMR (W : Nat) (h : FixedHeader) : M PubComp := Ack.readMR W .Success PubCompReason.reason h

/-- src/v5/subscribe.rs 174-213 `SubscribeProperties::extract`.  Release build. -/
def SubscribeProperties.extractR (W : Nat) : M (Option SubscribeProperties) :=
  extractPropsR W SubscribeProperties.step { id := none, user_properties := [] }

/-- src/v5/subscribe.rs 79-124 `Subscribe::read`.  Release build. -/
def Subscribe.readMR (W : Nat) (h : FixedHeader) : M Subscribe := do
  advance h.fixed_header_len
  let pkid ← read_u16
  let properties ← SubscribeProperties.extractR W
  let bytes ← M.look
  let filters ← Subscribe.readLoop (bytes.length + 1) []
  pure { pkid := pkid, filters := filters, properties := properties }

/-- src/v5/suback.rs 41-65 `SubAck::read`.  Release build. -/
def SubAck.readMR (W : Nat) (h : FixedHeader) : M SubAck := do
  advance h.fixed_header_len
  let pkid ← read_u16
  let properties ← ReasonProps.extractR W
  let bytes ← M.look
  if bytes.isEmpty then M.fail .MalformedPacket else
  let return_codes ← readCodesLoop SubscribeReasonCode.try_from (bytes.length + 1) []
  pure { pkid := pkid, return_codes := return_codes, properties := properties }

/-- src/v5/unsubscribe.rs 104-132.  Release build. -/
def UnsubscribeProperties.extractR (W : Nat) : M (Option UnsubscribeProperties) :=
  extractPropsR W UnsubscribeProperties.step { user_properties := [] }

/-- src/v5/unsubscribe.rs 40-60 `Unsubscribe::read`.  Simplification: the `dbg!` output of
line 45 is dropped.  Release build. -/
def Unsubscribe.readMR (W : Nat) (h : FixedHeader) : M Unsubscribe := do
  advance h.fixed_header_len
  let pkid ← read_u16
  let properties ← UnsubscribeProperties.extractR W
  let bytes ← M.look
  let filters ← Unsubscribe.readLoop (bytes.length + 1) []
  pure { pkid := pkid, filters := filters, properties := properties }

/-- src/v5/unsuback.rs 52-76 `UnsubAck::read`.  Release build. -/
def UnsubAck.readMR (W : Nat) (h : FixedHeader) : M UnsubAck := do
  advance h.fixed_header_len
  let pkid ← read_u16
  let properties ← ReasonProps.extractR W
  let bytes ← M.look
  if bytes.isEmpty then M.fail .MalformedPacket else
  let reasons ← readCodesLoop UnsubAckReason.reason (bytes.length + 1) []
  pure { pkid := pkid, reasons := reasons, properties := properties }

/-- src/v5/disconnect.rs 169-223 `DisconnectProperties::extract`.  Release build. -/
def DisconnectProperties.extractR (W : Nat) : M (Option DisconnectProperties) :=
  extractPropsR W DisconnectProperties.step DisconnectProperties.new

/-- src/v5/disconnect.rs 288-314 `Disconnect::read`.  Release build. -/
def Disconnect.readMR (W : Nat) (h : FixedHeader) : M Disconnect := do
  let packet_type := h.byte1 >>> 4
  let flags := h.byte1 &&& 0b00001111
  advance h.fixed_header_len
  if packet_type ≠ PacketType.Disconnect.toU8 then M.fail (.InvalidPacketType packet_type) else
  if flags ≠ 0x00 then M.fail .MalformedPacket else
  if h.remaining_len = 0 then pure Disconnect.new else
  let reason_code ← read_u8
  let reason_code ← M.lift (DisconnectReasonCode.try_from reason_code)
  let properties ← DisconnectProperties.extractR W
  pure { reason_code := reason_code, properties := properties }

/-- src/v5/mod.rs 123-152, the part of `read` after the frame has been split off the stream.  Release build. -/
def readFrameR (W : Nat) (fixed_header : FixedHeader) (packet : Bytes) : Res Packet :=
  match fixed_header.packet_type with
  | .ok packet_type =>
    if fixed_header.remaining_len = 0 then
      match packet_type with
      | .PingReq => .ok .PingReq
      | .PingResp => .ok .PingResp
      | _ => .err .PayloadRequired
    else
      match packet_type with
      | .Connect => onFrame (Connect.readMR W fixed_header) packet .Connect
      | .ConnAck => onFrame (ConnAck.readMR W fixed_header) packet .ConnAck
      | .Publish => onFrame (Publish.readMR W fixed_header) packet .Publish
      | .PubAck => onFrame (PubAck.readMR W fixed_header) packet .PubAck
      | .PubRec => onFrame (PubRec.readMR W fixed_header) packet .PubRec
      | .PubRel => onFrame (PubRel.readMR W fixed_header) packet .PubRel
      | .PubComp => onFrame (PubComp.readMR W fixed_header) packet .PubComp
      | .Subscribe => onFrame (Subscribe.readMR W fixed_header) packet .Subscribe
      | .SubAck => onFrame (SubAck.readMR W fixed_header) packet .SubAck
      | .Unsubscribe => onFrame (Unsubscribe.readMR W fixed_header) packet .Unsubscribe
      | .UnsubAck => onFrame (UnsubAck.readMR W fixed_header) packet .UnsubAck
      | .PingReq => .ok .PingReq
      | .PingResp => .ok .PingResp
      | .Disconnect => onFrame (Disconnect.readMR W fixed_header) packet .Disconnect
  | .err e => .err e
  | .panic => .panic
  | .diverge => .diverge

/-- src/v5/mod.rs 118-153 `read`.  Release build. -/
def readR (W : Nat) (max_size : Nat) : M Packet := do
  let stream ← M.look
  let fixed_header ← M.lift (check stream max_size)
  let packet ← splitTo fixed_header.frame_length
  M.lift (readFrameR W fixed_header packet)

end V5
end Mqtt
