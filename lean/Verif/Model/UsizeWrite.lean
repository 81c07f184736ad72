import Verif.Model.Usize
/-! The writers on `usize` of `W` bits, debug and release builds.  Same text as in `Model/V4`, `Model/V5*`; lengths are
computed with the functions of `Model/Usize`.  Writers without length arithmetic are used as they are.
Simplification: the index of the CONNECT flags byte, `1 + count + 2 + 4 + 1` with `count` at most 4, stays a plain number. -/
namespace Mqtt
open Usz

namespace V4
/-- on `usize`: src/v4/connect.rs 103-136 `Connect::write` -/
def Connect.writeU (bld : Build) (W : Nat) (c : Connect) : M Nat := do
  let len ← (c.lenU bld W).get
  putU8 0b00010000
  let count ← write_remaining_length len
  write_mqtt_string "MQTT"
  putU8 c.protocol.level
  let flags_index := 1 + count + 2 + 4 + 1
  let connect_flags : UInt8 := 0
  let connect_flags := if c.clean_session then connect_flags ||| 0x02 else connect_flags
  putU8 connect_flags
  putU16 c.keep_alive
  write_mqtt_string c.client_id
  let connect_flags ← orFlags c.last_will LastWill.write connect_flags
  let connect_flags ← orFlags c.login Login.write connect_flags
  setIdx flags_index connect_flags
  pure len

/-- on `usize`: src/v4/connack.rs 54-63 `ConnAck::write` -/
def ConnAck.writeU (bld : Build) (W : Nat) (c : ConnAck) : M Nat := do
  let len ← (c.lenU bld W).get
  putU8 0x20
  let count ← write_remaining_length len
  putU8 (boolU8 c.session_present)
  putU8 c.code.toU8
  (1 + Usz.lit count + Usz.lit len : Usz bld W).get

/-- on `usize`: src/v4/publish.rs 82-106 `Publish::write` -/
def Publish.writeU (bld : Build) (W : Nat) (p : Publish) : M Nat := do
  let len ← (p.lenU bld W).get
  let dup := boolU8 p.dup
  let qos := p.qos.toU8
  let retain := boolU8 p.retain
  putU8 ((0b00110000 : UInt8) ||| retain ||| (qos <<< 1) ||| (dup <<< 3))
  let count ← write_remaining_length len
  write_mqtt_string p.topic
  (if p.qos ≠ .AtMostOnce then
    (if p.pkid = 0 then M.fail .PacketIdZero else putU16 p.pkid)
    else pure () : M Unit)
  putSlice p.payload
  (1 + Usz.lit count + Usz.lit len : Usz bld W).get

/-- on `usize`: src/v4/puback.rs 40-46 `PubAck::write` -/
def PubAck.writeU (bld : Build) (W : Nat) (p : PubAck) : M Nat := do
  let len ← (p.lenU bld W).get
  putU8 0x40
  let count ← write_remaining_length len
  putU16 p.pkid
  (1 + Usz.lit count + Usz.lit len : Usz bld W).get

/-- on `usize`: src/v4/pubrec.rs 37-43 `PubRec::write` -/
def PubRec.writeU (bld : Build) (W : Nat) (p : PubRec) : M Nat := do
  let len ← (p.lenU bld W).get
  putU8 0x50
  let count ← write_remaining_length len
  putU16 p.pkid
  (1 + Usz.lit count + Usz.lit len : Usz bld W).get

/-- on `usize`: src/v4/pubrel.rs 37-43 `PubRel::write` -/
def PubRel.writeU (bld : Build) (W : Nat) (p : PubRel) : M Nat := do
  let len ← (p.lenU bld W).get
  putU8 0x62
  let count ← write_remaining_length len
  putU16 p.pkid
  (1 + Usz.lit count + Usz.lit len : Usz bld W).get

/-- on `usize`: src/v4/pubcomp.rs 38-44 `PubComp::write` -/
def PubComp.writeU (bld : Build) (W : Nat) (p : PubComp) : M Nat := do
  let len ← (p.lenU bld W).get
  putU8 0x70
  let count ← write_remaining_length len
  putU16 p.pkid
  (1 + Usz.lit count + Usz.lit len : Usz bld W).get

/-- on `usize`: src/v4/subscribe.rs 77-94 `Subscribe::write` -/
def Subscribe.writeU (bld : Build) (W : Nat) (s : Subscribe) : M Nat := do
  putU8 0x82
  let remaining_len ← (s.lenU bld W).get
  let remaining_len_bytes ← write_remaining_length remaining_len
  putU16 s.pkid
  forEach s.filters SubscribeFilter.write
  (1 + Usz.lit remaining_len_bytes + Usz.lit remaining_len : Usz bld W).get

/-- on `usize`: src/v4/suback.rs 42-58 `SubAck::write` -/
def SubAck.writeU (bld : Build) (W : Nat) (s : SubAck) : M Nat := do
  putU8 0x90
  let remaining_len ← (s.lenU bld W).get
  let remaining_len_bytes ← write_remaining_length remaining_len
  putU16 s.pkid
  let p : Bytes := s.return_codes.map SubscribeReasonCode.toU8
  putSlice p
  (1 + Usz.lit remaining_len_bytes + Usz.lit remaining_len : Usz bld W).get

/-- on `usize`: src/v4/unsubscribe.rs 39-53 `Unsubscribe::write` -/
def Unsubscribe.writeU (bld : Build) (W : Nat) (u : Unsubscribe) : M Nat := do
  let remaining_len ← (u.lenU bld W).get
  putU8 0xA2
  let remaining_len_bytes ← write_remaining_length remaining_len
  putU16 u.pkid
  forEach u.topics write_mqtt_string
  (1 + Usz.lit remaining_len_bytes + Usz.lit remaining_len : Usz bld W).get

/-- Client glue (not in /repo): write whichever packet it is with that packet's own `write`. -/
def Packet.writeU (bld : Build) (W : Nat) : Packet → M Nat
  | .Connect p => p.writeU bld W
  | .ConnAck p => p.writeU bld W
  | .Publish p => p.writeU bld W
  | .PubAck p => p.writeU bld W
  | .PubRec p => p.writeU bld W
  | .PubRel p => p.writeU bld W
  | .PubComp p => p.writeU bld W
  | .Subscribe p => p.writeU bld W
  | .SubAck p => p.writeU bld W
  | .Unsubscribe p => p.writeU bld W
  | .UnsubAck p => p.write
  | .PingReq => PingReq.write
  | .PingResp => PingResp.write
  | .Disconnect => Disconnect.write

end V4

namespace V5
/-- on `usize`: puback.rs 169-185, pubrec.rs 165-181, pubrel.rs 156-172, pubcomp.rs 157-173,
suback.rs 146-162, unsuback.rs 157-173 `write` -/
def ReasonProps.writeU (bld : Build) (W : Nat) (p : ReasonProps) : M Unit := do
  let len ← (p.lenU bld W).get
  let _ ← write_remaining_length len
  ifSome p.reason_string (putPropStr .ReasonString)
  forEach p.user_properties (putPropPair .UserProperty)

/-- on `usize`: src/v5/connect.rs 377-418 `WillProperties::write` -/
def WillProperties.writeU (bld : Build) (W : Nat) (p : WillProperties) : M Unit := do
  let len ← (p.lenU bld W).get
  let _ ← write_remaining_length len
  ifSome p.delay_interval (putPropU32 .WillDelayInterval)
  ifSome p.payload_format_indicator (putPropU8 .PayloadFormatIndicator)
  ifSome p.message_expiry_interval (putPropU32 .MessageExpiryInterval)
  ifSome p.content_type (putPropStr .ContentType)
  ifSome p.response_topic (putPropStr .ResponseTopic)
  ifSome p.correlation_data (putPropBytes .CorrelationData)
  forEach p.user_properties (putPropPair .UserProperty)

/-- on `usize`: src/v5/connect.rs 240-258 `LastWill::write`; returns the flag bits -/
def LastWill.writeU (bld : Build) (W : Nat) (w : LastWill) : M UInt8 := do
  let connect_flags : UInt8 := (0 : UInt8) ||| ((0x04 : UInt8) ||| (w.qos.toU8 <<< 3))
  let connect_flags := if w.retain then connect_flags ||| 0x20 else connect_flags
  writePropsOrZero (WillProperties.writeU bld W) w.properties
  write_mqtt_string w.topic
  write_mqtt_bytes w.message
  pure connect_flags

/-- on `usize`: src/v5/connect.rs 640-691 `ConnectProperties::write` -/
def ConnectProperties.writeU (bld : Build) (W : Nat) (p : ConnectProperties) : M Unit := do
  let len ← (p.lenU bld W).get
  let _ ← write_remaining_length len
  ifSome p.session_expiry_interval (putPropU32 .SessionExpiryInterval)
  ifSome p.receive_maximum (putPropU16 .ReceiveMaximum)
  ifSome p.max_packet_size (putPropU32 .MaximumPacketSize)
  ifSome p.topic_alias_max (putPropU16 .TopicAliasMaximum)
  ifSome p.request_response_info (putPropU8 .RequestResponseInformation)
  ifSome p.request_problem_info (putPropU8 .RequestProblemInformation)
  forEach p.user_properties (putPropPair .UserProperty)
  ifSome p.authentication_method (putPropStr .AuthenticationMethod)
  ifSome p.authentication_data (putPropBytes .AuthenticationData)

/-- on `usize`: src/v5/connect.rs 125-166 `Connect::write` -/
def Connect.writeU (bld : Build) (W : Nat) (c : Connect) : M Nat := do
  let len ← (c.lenU bld W).get
  putU8 0b00010000
  let count ← write_remaining_length len
  write_mqtt_string "MQTT"
  putU8 c.protocol.level
  let flags_index := 1 + count + 2 + 4 + 1
  let connect_flags : UInt8 := 0
  let connect_flags := if c.clean_session then connect_flags ||| 0x02 else connect_flags
  putU8 connect_flags
  putU16 c.keep_alive
  writePropsOrZero (ConnectProperties.writeU bld W) c.properties
  write_mqtt_string c.client_id
  let connect_flags ← orFlags c.last_will (LastWill.writeU bld W) connect_flags
  let connect_flags ← orFlags c.login Login.write connect_flags
  setIdx flags_index connect_flags
  pure len

/-- on `usize`: src/v5/connack.rs 349-440 `ConnAckProperties::write` -/
def ConnAckProperties.writeU (bld : Build) (W : Nat) (p : ConnAckProperties) : M Unit := do
  let len ← (p.lenU bld W).get
  let _ ← write_remaining_length len
  ifSome p.session_expiry_interval (putPropU32 .SessionExpiryInterval)
  ifSome p.receive_max (putPropU16 .ReceiveMaximum)
  ifSome p.max_qos (putPropU8 .MaximumQos)
  ifSome p.retain_available (putPropU8 .RetainAvailable)
  ifSome p.max_packet_size (putPropU32 .MaximumPacketSize)
  ifSome p.assigned_client_identifier (putPropStr .AssignedClientIdentifier)
  ifSome p.topic_alias_max (putPropU16 .TopicAliasMaximum)
  ifSome p.reason_string (putPropStr .ReasonString)
  forEach p.user_properties (putPropPair .UserProperty)
  ifSome p.wildcard_subscription_available (putPropU8 .WildcardSubscriptionAvailable)
  ifSome p.subscription_identifiers_available (putPropU8 .SubscriptionIdentifierAvailable)
  ifSome p.shared_subscription_available (putPropU8 .SharedSubscriptionAvailable)
  ifSome p.server_keep_alive (putPropU16 .ServerKeepAlive)
  ifSome p.response_information (putPropStr .ResponseInformation)
  ifSome p.server_reference (putPropStr .ServerReference)
  ifSome p.authentication_method (putPropStr .AuthenticationMethod)
  ifSome p.authentication_data (putPropBytes .AuthenticationData)

/-- on `usize`: src/v5/connack.rs 82-95 `ConnAck::write` -/
def ConnAck.writeU (bld : Build) (W : Nat) (c : ConnAck) : M Nat := do
  let len ← (c.lenU bld W).get
  putU8 0x20
  let count ← write_remaining_length len
  putU8 (boolU8 c.session_present)
  putU8 c.code.toU8
  ifSome c.properties (ConnAckProperties.writeU bld W)
  (1 + Usz.lit count + Usz.lit len : Usz bld W).get

/-- on `usize`: src/v5/publish.rs 261-307 `PublishProperties::write` -/
def PublishProperties.writeU (bld : Build) (W : Nat) (p : PublishProperties) : M Unit := do
  let len ← (p.lenU bld W).get
  let _ ← write_remaining_length len
  ifSome p.payload_format_indicator (putPropU8 .PayloadFormatIndicator)
  ifSome p.message_expiry_interval (putPropU32 .MessageExpiryInterval)
  ifSome p.topic_alias (putPropU16 .TopicAlias)
  ifSome p.response_topic (putPropStr .ResponseTopic)
  ifSome p.correlation_data (putPropBytes .CorrelationData)
  forEach p.user_properties (putPropPair .UserProperty)
  forEach p.subscription_identifiers (putPropVbi .SubscriptionIdentifier)
  ifSome p.content_type (putPropStr .ContentType)

/-- on `usize`: src/v5/publish.rs 98-129 `Publish::write` -/
def Publish.writeU (bld : Build) (W : Nat) (p : Publish) : M Nat := do
  let len ← (p.lenU bld W).get
  let dup := boolU8 p.dup
  let qos := p.qos.toU8
  let retain := boolU8 p.retain
  putU8 ((0b00110000 : UInt8) ||| retain ||| (qos <<< 1) ||| (dup <<< 3))
  let count ← write_remaining_length len
  write_mqtt_string p.topic
  (if p.qos ≠ .AtMostOnce then
    (if p.pkid = 0 then M.fail .PacketIdZero else putU16 p.pkid)
  else pure () : M Unit)
  writePropsOrZero (PublishProperties.writeU bld W) p.properties
  putSlice p.payload
  (1 + Usz.lit count + Usz.lit len : Usz bld W).get

/-- on `usize`: `write` of puback.rs 89-107, pubrec.rs 85-103, pubrel.rs 76-94, pubcomp.rs 77-95 (the same up
to the first byte) -/
def Ack.writeU (bld : Build) (W : Nat) {R : Type} [DecidableEq R] (byte1 : UInt8) (success : R) (toU8 : R → UInt8)
    (a : Ack R) : M Nat := do
  let len ← (a.lenU bld W success).get
  putU8 byte1
  let count ← write_remaining_length len
  putU16 a.pkid
  if a.reason = success ∧ a.properties = none then pure 4 else
  putU8 (toU8 a.reason)
  ifSome a.properties (ReasonProps.writeU bld W)
  (1 + Usz.lit count + Usz.lit len : Usz bld W).get

/-- on `usize`: src/v5/puback.rs 89-107 `PubAck::write` -/
def PubAck.writeU (bld : Build) (W : Nat) (a : PubAck) : M Nat := Ack.writeU bld W 0x40 .Success PubAckReason.toU8 a

/-- on `usize`: src/v5/pubrec.rs 85-103 `PubRec::write` -/
def PubRec.writeU (bld : Build) (W : Nat) (a : PubRec) : M Nat := Ack.writeU bld W 0x50 .Success PubRecReason.toU8 a

/-- on `usize`: src/v5/pubrel.rs 76-94 `PubRel::write` -/
def PubRel.writeU (bld : Build) (W : Nat) (a : PubRel) : M Nat := Ack.writeU bld W 0x62 .Success PubRelReason.toU8 a

/-- on `usize`: src/v5/pubcomp.rs 77-95 `PubComp::write` -/
def PubComp.writeU (bld : Build) (W : Nat) (a : PubComp) : M Nat := Ack.writeU bld W 0x70 .Success PubCompReason.toU8 a

/-- on `usize`: src/v5/subscribe.rs 215-231 `SubscribeProperties::write` -/
def SubscribeProperties.writeU (bld : Build) (W : Nat) (p : SubscribeProperties) : M Unit := do
  let len ← (p.lenU bld W).get
  let _ ← write_remaining_length len
  ifSome p.id (putPropVbi .SubscriptionIdentifier)
  forEach p.user_properties (putPropPair .UserProperty)

/-- on `usize`: src/v5/subscribe.rs 126-150 `Subscribe::write` -/
def Subscribe.writeU (bld : Build) (W : Nat) (s : Subscribe) : M Nat := do
  putU8 0x82
  let remaining_len ← (s.lenU bld W).get
  let remaining_len_bytes ← write_remaining_length remaining_len
  putU16 s.pkid
  writePropsOrZero (SubscribeProperties.writeU bld W) s.properties
  forEach s.filters SubscribeFilter.write
  (1 + Usz.lit remaining_len_bytes + Usz.lit remaining_len : Usz bld W).get

/-- on `usize`: src/v5/suback.rs 67-84 `SubAck::write` -/
def SubAck.writeU (bld : Build) (W : Nat) (s : SubAck) : M Nat := do
  putU8 0x90
  let remaining_len ← (s.lenU bld W).get
  let remaining_len_bytes ← write_remaining_length remaining_len
  putU16 s.pkid
  writePropsOrZero (ReasonProps.writeU bld W) s.properties
  let p : Bytes := s.return_codes.map SubscribeReasonCode.toU8
  putSlice p
  (1 + Usz.lit remaining_len_bytes + Usz.lit remaining_len : Usz bld W).get

/-- on `usize`: src/v5/unsubscribe.rs 134-145 -/
def UnsubscribeProperties.writeU (bld : Build) (W : Nat) (p : UnsubscribeProperties) : M Unit := do
  let len ← (p.lenU bld W).get
  let _ ← write_remaining_length len
  forEach p.user_properties (putPropPair .UserProperty)

/-- on `usize`: src/v5/unsubscribe.rs 62-85 `Unsubscribe::write` -/
def Unsubscribe.writeU (bld : Build) (W : Nat) (u : Unsubscribe) : M Nat := do
  putU8 0xA2
  let remaining_len ← (u.lenU bld W).get
  let remaining_len_bytes ← write_remaining_length remaining_len
  putU16 u.pkid
  writePropsOrZero (UnsubscribeProperties.writeU bld W) u.properties
  forEach u.filters write_mqtt_string
  (1 + Usz.lit remaining_len_bytes + Usz.lit remaining_len : Usz bld W).get

/-- on `usize`: src/v5/unsuback.rs 78-95 `UnsubAck::write` -/
def UnsubAck.writeU (bld : Build) (W : Nat) (u : UnsubAck) : M Nat := do
  putU8 0xB0
  let remaining_len ← (u.lenU bld W).get
  let remaining_len_bytes ← write_remaining_length remaining_len
  putU16 u.pkid
  writePropsOrZero (ReasonProps.writeU bld W) u.properties
  let p : Bytes := u.reasons.map UnsubAckReason.toU8
  putSlice p
  (1 + Usz.lit remaining_len_bytes + Usz.lit remaining_len : Usz bld W).get

/-- on `usize`: src/v5/disconnect.rs 225-251 `DisconnectProperties::write` -/
def DisconnectProperties.writeU (bld : Build) (W : Nat) (p : DisconnectProperties) : M Unit := do
  let length ← (p.lenU bld W).get
  let _ ← write_remaining_length length
  ifSome p.session_expiry_interval (putPropU32 .SessionExpiryInterval)
  ifSome p.reason_string (putPropStr .ReasonString)
  forEach p.user_properties (putPropPair .UserProperty)
  ifSome p.server_reference (putPropStr .ServerReference)

/-- on `usize`: src/v5/disconnect.rs 316-336 `Disconnect::write` -/
def Disconnect.writeU (bld : Build) (W : Nat) (d : Disconnect) : M Nat := do
  putU8 0xE0
  let length ← (d.lenU bld W).get
  if length = 2 then do
    putU8 0x00
    pure length
  else
  let len_len ← write_remaining_length length
  putU8 d.reason_code.toU8
  ifSome d.properties (DisconnectProperties.writeU bld W)
  (1 + Usz.lit len_len + Usz.lit length : Usz bld W).get

/-- Client glue (not in /repo): write whichever packet it is with that packet's own `write`. -/
def Packet.writeU (bld : Build) (W : Nat) : Packet → M Nat
  | .Connect p => p.writeU bld W
  | .ConnAck p => p.writeU bld W
  | .Publish p => p.writeU bld W
  | .PubAck p => PubAck.writeU bld W p
  | .PubRec p => PubRec.writeU bld W p
  | .PubRel p => PubRel.writeU bld W p
  | .PubComp p => PubComp.writeU bld W p
  | .Subscribe p => p.writeU bld W
  | .SubAck p => p.writeU bld W
  | .Unsubscribe p => p.writeU bld W
  | .UnsubAck p => p.writeU bld W
  | .PingReq => PingReq.write
  | .PingResp => PingResp.write
  | .Disconnect p => p.writeU bld W

end V5

end Mqtt
