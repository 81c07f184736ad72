import Verif.Model.V5Connect
/-! Model of src/v5: publish, acknowledgements, subscribe, unsubscribe, ping, disconnect and
the dispatcher `read` (src/v5/mod.rs). -/
namespace Mqtt.V5
open Mqtt

/-! ### src/v5/publish.rs -/

/-- src/v5/publish.rs 132-142 `struct PublishProperties` -/
structure PublishProperties where
  payload_format_indicator : Option UInt8
  message_expiry_interval : Option UInt32
  topic_alias : Option UInt16
  response_topic : Option String
  correlation_data : Option Bytes
  user_properties : List (String × String)
  subscription_identifiers : List Nat
  content_type : Option String
  deriving DecidableEq

/-- src/v5/publish.rs 184-191: the initial local variables of `PublishProperties::extract` -/
def PublishProperties.empty : PublishProperties :=
  { payload_format_indicator := none, message_expiry_interval := none, topic_alias := none,
    response_topic := none, correlation_data := none, user_properties := [],
    subscription_identifiers := [], content_type := none }

/-- src/v5/publish.rs 145-181 `PublishProperties::len` -/
def PublishProperties.len (p : PublishProperties) : Nat :=
  let len := 0
  let len := if p.payload_format_indicator.isSome then len + (1 + 1) else len
  let len := if p.message_expiry_interval.isSome then len + (1 + 4) else len
  let len := if p.topic_alias.isSome then len + (1 + 2) else len
  let len := addSome p.response_topic (fun t => 1 + 2 + strLen t) len
  let len := addSome p.correlation_data (fun d => 1 + 2 + d.length) len
  let len := addUserPropsLen p.user_properties len
  let len := p.subscription_identifiers.foldl (fun len id => len + (1 + len_len id)) len
  let len := addSome p.content_type (fun typ => 1 + 2 + strLen typ) len
  len

/-- src/v5/publish.rs 205-246: the arms of `PublishProperties::extract` -/
def PublishProperties.step : PropStep PublishProperties := fun ty prop st =>
  match ty with
  | .PayloadFormatIndicator => armU8 fun v => { st with payload_format_indicator := some v }
  | .MessageExpiryInterval => armU32 fun v => { st with message_expiry_interval := some v }
  | .TopicAlias => armU16 fun v => { st with topic_alias := some v }
  | .ResponseTopic => armStr fun v => { st with response_topic := some v }
  | .CorrelationData => armBytes fun v => { st with correlation_data := some v }
  | .UserProperty => armPair fun kv => { st with user_properties := st.user_properties ++ [kv] }
  | .SubscriptionIdentifier =>
    armVbi fun id => { st with subscription_identifiers := st.subscription_identifiers ++ [id] }
  | .ContentType => armStr fun v => { st with content_type := some v }
  | _ => M.fail (.InvalidPropertyType prop)

/-- src/v5/publish.rs 183-259 `PublishProperties::extract` -/
def PublishProperties.extract : M (Option PublishProperties) :=
  extractProps PublishProperties.step PublishProperties.empty

/-- src/v5/publish.rs 261-307 `PublishProperties::write` -/
def PublishProperties.write (p : PublishProperties) : M Unit := do
  let len := p.len
  let _ ← write_remaining_length len
  ifSome p.payload_format_indicator (putPropU8 .PayloadFormatIndicator)
  ifSome p.message_expiry_interval (putPropU32 .MessageExpiryInterval)
  ifSome p.topic_alias (putPropU16 .TopicAlias)
  ifSome p.response_topic (putPropStr .ResponseTopic)
  ifSome p.correlation_data (putPropBytes .CorrelationData)
  forEach p.user_properties (putPropPair .UserProperty)
  forEach p.subscription_identifiers (putPropVbi .SubscriptionIdentifier)
  ifSome p.content_type (putPropStr .ContentType)

/-- src/v5/publish.rs 8-17 `struct Publish` -/
structure Publish where
  dup : Bool
  qos : QoS
  retain : Bool
  topic : String
  pkid : UInt16
  properties : Option PublishProperties
  payload : Bytes
  deriving DecidableEq

/-- src/v5/publish.rs 20-30 `Publish::new` -/
def Publish.new (topic : String) (qos : QoS) (payload : Bytes) : Publish :=
  { dup := false, qos := qos, retain := false, pkid := 0, topic := topic, properties := none,
    payload := payload }

/-- src/v5/publish.rs 32-42 `Publish::from_bytes` -/
def Publish.from_bytes (topic : String) (qos : QoS) (payload : Bytes) : Publish :=
  { dup := false, qos := qos, retain := false, pkid := 0, topic := topic, properties := none,
    payload := payload }

/-- src/v5/publish.rs 44-64 `Publish::len` -/
def Publish.len (p : Publish) : Nat :=
  let len := 2 + strLen p.topic
  let len := if p.qos ≠ .AtMostOnce ∧ p.pkid ≠ 0 then len + 2 else len
  let len := lenPropsOrOne PublishProperties.len p.properties len
  len + p.payload.length

/-- src/v5/publish.rs 66-96 `Publish::read` -/
def Publish.readM (h : FixedHeader) : M Publish := do
  let qos ← M.lift (Mqtt.qos ((h.byte1 &&& 0b0110) >>> 1))
  let dup := decide (h.byte1 &&& 0b1000 ≠ 0)
  let retain := decide (h.byte1 &&& 0b0001 ≠ 0)
  advance h.fixed_header_len
  let topic ← read_mqtt_string
  let pkid ← (match qos with
    | .AtMostOnce => pure 0
    | .AtLeastOnce | .ExactlyOnce => read_u16 : M UInt16)
  if qos ≠ .AtMostOnce ∧ pkid = 0 then M.fail .PacketIdZero else
  let properties ← PublishProperties.extract
  let payload ← M.look
  pure { dup := dup, retain := retain, qos := qos, pkid := pkid, topic := topic,
         properties := properties, payload := payload }

/-- src/v5/publish.rs 98-129 `Publish::write` -/
def Publish.write (p : Publish) : M Nat := do
  let len := p.len
  let dup := boolU8 p.dup
  let qos := p.qos.toU8
  let retain := boolU8 p.retain
  putU8 ((0b00110000 : UInt8) ||| retain ||| (qos <<< 1) ||| (dup <<< 3))
  let count ← write_remaining_length len
  write_mqtt_string p.topic
  (if p.qos ≠ .AtMostOnce then
    (if p.pkid = 0 then M.fail .PacketIdZero else putU16 p.pkid)
  else pure () : M Unit)
  writePropsOrZero PublishProperties.write p.properties
  putSlice p.payload
  pure (1 + count + len)

/-! ### src/v5/puback.rs, pubrec.rs, pubrel.rs, pubcomp.rs -/

/-- src/v5/puback.rs 7-17 `enum PubAckReason` -/
inductive PubAckReason where
  | Success | NoMatchingSubscribers | UnspecifiedError | ImplementationSpecificError
  | NotAuthorized | TopicNameInvalid | PacketIdentifierInUse | QuotaExceeded
  | PayloadFormatInvalid
  deriving DecidableEq, Repr

/-- src/v5/puback.rs 8-16: the discriminants (`reason as u8`) -/
def PubAckReason.toU8 : PubAckReason → UInt8
  | .Success => 0
  | .NoMatchingSubscribers => 16
  | .UnspecifiedError => 128
  | .ImplementationSpecificError => 131
  | .NotAuthorized => 135
  | .TopicNameInvalid => 144
  | .PacketIdentifierInUse => 145
  | .QuotaExceeded => 151
  | .PayloadFormatInvalid => 153

/-- src/v5/puback.rs 188-203 `reason` -/
def PubAckReason.reason (num : UInt8) : Res PubAckReason :=
  match num with
  | 0 => .ok .Success
  | 16 => .ok .NoMatchingSubscribers
  | 128 => .ok .UnspecifiedError
  | 131 => .ok .ImplementationSpecificError
  | 135 => .ok .NotAuthorized
  | 144 => .ok .TopicNameInvalid
  | 145 => .ok .PacketIdentifierInUse
  | 151 => .ok .QuotaExceeded
  | 153 => .ok .PayloadFormatInvalid
  | num => .err (.InvalidConnectReturnCode num)

/-- src/v5/pubrec.rs 7-17 `enum PubRecReason` -/
inductive PubRecReason where
  | Success | NoMatchingSubscribers | UnspecifiedError | ImplementationSpecificError
  | NotAuthorized | TopicNameInvalid | PacketIdentifierInUse | QuotaExceeded
  | PayloadFormatInvalid
  deriving DecidableEq, Repr

/-- src/v5/pubrec.rs 8-16: the discriminants (`reason as u8`) -/
def PubRecReason.toU8 : PubRecReason → UInt8
  | .Success => 0
  | .NoMatchingSubscribers => 16
  | .UnspecifiedError => 128
  | .ImplementationSpecificError => 131
  | .NotAuthorized => 135
  | .TopicNameInvalid => 144
  | .PacketIdentifierInUse => 145
  | .QuotaExceeded => 151
  | .PayloadFormatInvalid => 153

/-- src/v5/pubrec.rs 184-199 `reason` -/
def PubRecReason.reason (num : UInt8) : Res PubRecReason :=
  match num with
  | 0 => .ok .Success
  | 16 => .ok .NoMatchingSubscribers
  | 128 => .ok .UnspecifiedError
  | 131 => .ok .ImplementationSpecificError
  | 135 => .ok .NotAuthorized
  | 144 => .ok .TopicNameInvalid
  | 145 => .ok .PacketIdentifierInUse
  | 151 => .ok .QuotaExceeded
  | 153 => .ok .PayloadFormatInvalid
  | num => .err (.InvalidConnectReturnCode num)

/-- src/v5/pubrel.rs 7-10 `enum PubRelReason` -/
inductive PubRelReason where
  | Success | PacketIdentifierNotFound
  deriving DecidableEq, Repr

/-- src/v5/pubrel.rs 8-9: the discriminants (`reason as u8`) -/
def PubRelReason.toU8 : PubRelReason → UInt8
  | .Success => 0
  | .PacketIdentifierNotFound => 146

/-- src/v5/pubrel.rs 175-183 `reason` -/
def PubRelReason.reason (num : UInt8) : Res PubRelReason :=
  match num with
  | 0 => .ok .Success
  | 146 => .ok .PacketIdentifierNotFound
  | num => .err (.InvalidConnectReturnCode num)

/-- src/v5/pubcomp.rs 7-10 `enum PubCompReason` -/
inductive PubCompReason where
  | Success | PacketIdentifierNotFound
  deriving DecidableEq, Repr

/-- src/v5/pubcomp.rs 8-9: the discriminants (`reason as u8`) -/
def PubCompReason.toU8 : PubCompReason → UInt8
  | .Success => 0
  | .PacketIdentifierNotFound => 146

/-- src/v5/pubcomp.rs 176-184 `reason` -/
def PubCompReason.reason (num : UInt8) : Res PubCompReason :=
  match num with
  | 0 => .ok .Success
  | 146 => .ok .PacketIdentifierNotFound
  | num => .err (.InvalidConnectReturnCode num)

/-- `struct PubAck` (src/v5/puback.rs 21-25), `PubRec` (pubrec.rs 21-25), `PubRel`
(pubrel.rs 14-18), `PubComp` (pubcomp.rs 14-18): same fields, differing in the reason type `R`,
modelled once. -/
structure Ack (R : Type) where
  pkid : UInt16
  reason : R
  properties : Option ReasonProps
  deriving DecidableEq

/-- src/v5/puback.rs 21-25 -/
abbrev PubAck := Ack PubAckReason
/-- src/v5/pubrec.rs 21-25 -/
abbrev PubRec := Ack PubRecReason
/-- src/v5/pubrel.rs 14-18 -/
abbrev PubRel := Ack PubRelReason
/-- src/v5/pubcomp.rs 14-18 -/
abbrev PubComp := Ack PubCompReason

/-- src/v5/puback.rs 28-34 `PubAck::new` -/
def PubAck.new (pkid : UInt16) : PubAck := { pkid := pkid, reason := .Success, properties := none }
/-- src/v5/pubrec.rs 28-34 `PubRec::new` -/
def PubRec.new (pkid : UInt16) : PubRec := { pkid := pkid, reason := .Success, properties := none }
/-- src/v5/pubrel.rs 21-27 `PubRel::new` -/
def PubRel.new (pkid : UInt16) : PubRel := { pkid := pkid, reason := .Success, properties := none }
/-- src/v5/pubcomp.rs 21-27 `PubComp::new` -/
def PubComp.new (pkid : UInt16) : PubComp :=
  { pkid := pkid, reason := .Success, properties := none }

/-- src/v5/puback.rs 110-114 `struct PubAckProperties` -/
abbrev PubAckProperties := ReasonProps

/-- src/v5/puback.rs 117-129 `PubAckProperties::len` -/
def PubAckProperties.len (p : PubAckProperties) : Nat :=
  let len := 0
  let len := addSome p.reason_string (fun r => 1 + 2 + strLen r) len
  addUserPropsLen p.user_properties len

/-- src/v5/puback.rs 147-160: the arms -/
def PubAckProperties.step : PropStep PubAckProperties := fun ty prop st =>
  match ty with
  | .ReasonString => armStr fun v => { st with reason_string := some v }
  | .UserProperty => armPair fun kv => { st with user_properties := st.user_properties ++ [kv] }
  | _ => M.fail (.InvalidPropertyType prop)

/-- src/v5/puback.rs 131-167 `PubAckProperties::extract` -/
def PubAckProperties.extract : M (Option PubAckProperties) :=
  extractProps PubAckProperties.step { reason_string := none, user_properties := [] }

/-- src/v5/puback.rs 169-185 `PubAckProperties::write` -/
def PubAckProperties.write (p : PubAckProperties) : M Unit := do
  let len := PubAckProperties.len p
  let _ ← write_remaining_length len
  ifSome p.reason_string (putPropStr .ReasonString)
  forEach p.user_properties (putPropPair .UserProperty)

/-- src/v5/puback.rs 36-54 `PubAck::len` -/
def PubAck.len (a : PubAck) : Nat :=
  let len := 2 + 1
  if a.reason = .Success ∧ a.properties = none then 2
  else match a.properties with
    | some properties => len + propSectionLen (PubAckProperties.len properties)
    | none => len

/-- src/v5/puback.rs 56-87 `PubAck::read` -/
def PubAck.readM (h : FixedHeader) : M PubAck := do
  advance h.fixed_header_len
  let pkid ← read_u16
  if h.remaining_len = 2 then pure { pkid := pkid, reason := .Success, properties := none } else
  let ack_reason ← read_u8
  if h.remaining_len < 4 then do
    let r ← M.lift (PubAckReason.reason ack_reason)
    pure { pkid := pkid, reason := r, properties := none }
  else
  let r ← M.lift (PubAckReason.reason ack_reason)
  let properties ← PubAckProperties.extract
  pure { pkid := pkid, reason := r, properties := properties }

/-- src/v5/puback.rs 89-107 `PubAck::write` -/
def PubAck.write (a : PubAck) : M Nat := do
  let len := PubAck.len a
  putU8 0x40
  let count ← write_remaining_length len
  putU16 a.pkid
  if a.reason = .Success ∧ a.properties = none then pure 4 else
  putU8 a.reason.toU8
  ifSome a.properties PubAckProperties.write
  pure (1 + count + len)

/-- src/v5/pubrec.rs 106-110 `struct PubRecProperties` -/
abbrev PubRecProperties := ReasonProps

/-- src/v5/pubrec.rs 113-125 `PubRecProperties::len` -/
def PubRecProperties.len (p : PubRecProperties) : Nat :=
  let len := 0
  let len := addSome p.reason_string (fun r => 1 + 2 + strLen r) len
  addUserPropsLen p.user_properties len

/-- src/v5/pubrec.rs 143-156: the arms -/
def PubRecProperties.step : PropStep PubRecProperties := fun ty prop st =>
  match ty with
  | .ReasonString => armStr fun v => { st with reason_string := some v }
  | .UserProperty => armPair fun kv => { st with user_properties := st.user_properties ++ [kv] }
  | _ => M.fail (.InvalidPropertyType prop)

/-- src/v5/pubrec.rs 127-163 `PubRecProperties::extract` -/
def PubRecProperties.extract : M (Option PubRecProperties) :=
  extractProps PubRecProperties.step { reason_string := none, user_properties := [] }

/-- src/v5/pubrec.rs 165-181 `PubRecProperties::write` -/
def PubRecProperties.write (p : PubRecProperties) : M Unit := do
  let len := PubRecProperties.len p
  let _ ← write_remaining_length len
  ifSome p.reason_string (putPropStr .ReasonString)
  forEach p.user_properties (putPropPair .UserProperty)

/-- src/v5/pubrec.rs 36-53 `PubRec::len` -/
def PubRec.len (a : PubRec) : Nat :=
  let len := 2 + 1
  if a.reason = .Success ∧ a.properties = none then 2
  else match a.properties with
    | some properties => len + propSectionLen (PubRecProperties.len properties)
    | none => len

/-- src/v5/pubrec.rs 55-83 `PubRec::read` -/
def PubRec.readM (h : FixedHeader) : M PubRec := do
  advance h.fixed_header_len
  let pkid ← read_u16
  if h.remaining_len = 2 then pure { pkid := pkid, reason := .Success, properties := none } else
  let ack_reason ← read_u8
  if h.remaining_len < 4 then do
    let r ← M.lift (PubRecReason.reason ack_reason)
    pure { pkid := pkid, reason := r, properties := none }
  else
  let r ← M.lift (PubRecReason.reason ack_reason)
  let properties ← PubRecProperties.extract
  pure { pkid := pkid, reason := r, properties := properties }

/-- src/v5/pubrec.rs 85-103 `PubRec::write` -/
def PubRec.write (a : PubRec) : M Nat := do
  let len := PubRec.len a
  putU8 0x50
  let count ← write_remaining_length len
  putU16 a.pkid
  if a.reason = .Success ∧ a.properties = none then pure 4 else
  putU8 a.reason.toU8
  ifSome a.properties PubRecProperties.write
  pure (1 + count + len)

/-- src/v5/pubrel.rs 97-101 `struct PubRelProperties` -/
abbrev PubRelProperties := ReasonProps

/-- src/v5/pubrel.rs 104-116 `PubRelProperties::len` -/
def PubRelProperties.len (p : PubRelProperties) : Nat :=
  let len := 0
  let len := addSome p.reason_string (fun r => 1 + 2 + strLen r) len
  addUserPropsLen p.user_properties len

/-- src/v5/pubrel.rs 134-147: the arms -/
def PubRelProperties.step : PropStep PubRelProperties := fun ty prop st =>
  match ty with
  | .ReasonString => armStr fun v => { st with reason_string := some v }
  | .UserProperty => armPair fun kv => { st with user_properties := st.user_properties ++ [kv] }
  | _ => M.fail (.InvalidPropertyType prop)

/-- src/v5/pubrel.rs 118-154 `PubRelProperties::extract` -/
def PubRelProperties.extract : M (Option PubRelProperties) :=
  extractProps PubRelProperties.step { reason_string := none, user_properties := [] }

/-- src/v5/pubrel.rs 156-172 `PubRelProperties::write` -/
def PubRelProperties.write (p : PubRelProperties) : M Unit := do
  let len := PubRelProperties.len p
  let _ ← write_remaining_length len
  ifSome p.reason_string (putPropStr .ReasonString)
  forEach p.user_properties (putPropPair .UserProperty)

/-- src/v5/pubrel.rs 29-44 `PubRel::len` -/
def PubRel.len (a : PubRel) : Nat :=
  let len := 2 + 1
  if a.reason = .Success ∧ a.properties = none then 2
  else match a.properties with
    | some properties => len + propSectionLen (PubRelProperties.len properties)
    | none => len

/-- src/v5/pubrel.rs 46-74 `PubRel::read` -/
def PubRel.readM (h : FixedHeader) : M PubRel := do
  advance h.fixed_header_len
  let pkid ← read_u16
  if h.remaining_len = 2 then pure { pkid := pkid, reason := .Success, properties := none } else
  let ack_reason ← read_u8
  if h.remaining_len < 4 then do
    let r ← M.lift (PubRelReason.reason ack_reason)
    pure { pkid := pkid, reason := r, properties := none }
  else
  let r ← M.lift (PubRelReason.reason ack_reason)
  let properties ← PubRelProperties.extract
  pure { pkid := pkid, reason := r, properties := properties }

/-- src/v5/pubrel.rs 76-94 `PubRel::write` -/
def PubRel.write (a : PubRel) : M Nat := do
  let len := PubRel.len a
  putU8 0x62
  let count ← write_remaining_length len
  putU16 a.pkid
  if a.reason = .Success ∧ a.properties = none then pure 4 else
  putU8 a.reason.toU8
  ifSome a.properties PubRelProperties.write
  pure (1 + count + len)

/-- src/v5/pubcomp.rs 98-102 `struct PubCompProperties` -/
abbrev PubCompProperties := ReasonProps

/-- src/v5/pubcomp.rs 105-117 `PubCompProperties::len` -/
def PubCompProperties.len (p : PubCompProperties) : Nat :=
  let len := 0
  let len := addSome p.reason_string (fun r => 1 + 2 + strLen r) len
  addUserPropsLen p.user_properties len

/-- src/v5/pubcomp.rs 135-148: the arms -/
def PubCompProperties.step : PropStep PubCompProperties := fun ty prop st =>
  match ty with
  | .ReasonString => armStr fun v => { st with reason_string := some v }
  | .UserProperty => armPair fun kv => { st with user_properties := st.user_properties ++ [kv] }
  | _ => M.fail (.InvalidPropertyType prop)

/-- src/v5/pubcomp.rs 119-155 `PubCompProperties::extract` -/
def PubCompProperties.extract : M (Option PubCompProperties) :=
  extractProps PubCompProperties.step { reason_string := none, user_properties := [] }

/-- src/v5/pubcomp.rs 157-173 `PubCompProperties::write` -/
def PubCompProperties.write (p : PubCompProperties) : M Unit := do
  let len := PubCompProperties.len p
  let _ ← write_remaining_length len
  ifSome p.reason_string (putPropStr .ReasonString)
  forEach p.user_properties (putPropPair .UserProperty)

/-- src/v5/pubcomp.rs 29-44 `PubComp::len` -/
def PubComp.len (a : PubComp) : Nat :=
  let len := 2 + 1
  if a.reason = .Success ∧ a.properties = none then 2
  else match a.properties with
    | some properties => len + propSectionLen (PubCompProperties.len properties)
    | none => len

/-- src/v5/pubcomp.rs 46-75 `PubComp::read` -/
def PubComp.readM (h : FixedHeader) : M PubComp := do
  advance h.fixed_header_len
  let pkid ← read_u16
  if h.remaining_len = 2 then pure { pkid := pkid, reason := .Success, properties := none } else
  let ack_reason ← read_u8
  if h.remaining_len < 4 then do
    let r ← M.lift (PubCompReason.reason ack_reason)
    pure { pkid := pkid, reason := r, properties := none }
  else
  let r ← M.lift (PubCompReason.reason ack_reason)
  let properties ← PubCompProperties.extract
  pure { pkid := pkid, reason := r, properties := properties }

/-- src/v5/pubcomp.rs 77-95 `PubComp::write` -/
def PubComp.write (a : PubComp) : M Nat := do
  let len := PubComp.len a
  putU8 0x70
  let count ← write_remaining_length len
  putU16 a.pkid
  if a.reason = .Success ∧ a.properties = none then pure 4 else
  putU8 a.reason.toU8
  ifSome a.properties PubCompProperties.write
  pure (1 + count + len)

/-! ### src/v5/subscribe.rs -/

/-- src/v5/subscribe.rs 298-303 `enum RetainForwardRule` -/
inductive RetainForwardRule where
  | OnEverySubscribe | OnNewSubscribe | Never
  deriving DecidableEq, Repr

/-- src/v5/subscribe.rs 235-242 `struct SubscribeFilter` -/
structure SubscribeFilter where
  path : String
  qos : QoS
  nolocal : Bool
  preserve_retain : Bool
  retain_forward_rule : RetainForwardRule
  deriving DecidableEq

/-- src/v5/subscribe.rs 245-253 `SubscribeFilter::new` -/
def SubscribeFilter.new (path : String) (qos : QoS) : SubscribeFilter :=
  { path := path, qos := qos, nolocal := false, preserve_retain := false,
    retain_forward_rule := .OnEverySubscribe }
/-- src/v5/subscribe.rs 255-258 -/
def SubscribeFilter.set_nolocal (f : SubscribeFilter) (flag : Bool) : SubscribeFilter :=
  { f with nolocal := flag }
/-- src/v5/subscribe.rs 260-263 -/
def SubscribeFilter.set_preserve_retain (f : SubscribeFilter) (flag : Bool) : SubscribeFilter :=
  { f with preserve_retain := flag }
/-- src/v5/subscribe.rs 265-268 -/
def SubscribeFilter.set_retain_forward_rule (f : SubscribeFilter) (rule : RetainForwardRule) :
    SubscribeFilter :=
  { f with retain_forward_rule := rule }

/-- src/v5/subscribe.rs 270-273 `SubscribeFilter::len` -/
def SubscribeFilter.len (f : SubscribeFilter) : Nat := 2 + strLen f.path + 1

/-- src/v5/subscribe.rs 275-295 `SubscribeFilter::write` -/
def SubscribeFilter.write (f : SubscribeFilter) : M Unit := do
  let options : UInt8 := 0
  let options := options ||| f.qos.toU8
  let options := if f.nolocal then options ||| ((1 : UInt8) <<< 2) else options
  let options := if f.preserve_retain then options ||| ((1 : UInt8) <<< 3) else options
  let options := match f.retain_forward_rule with
    | .OnEverySubscribe => options ||| ((0 : UInt8) <<< 4)
    | .OnNewSubscribe => options ||| ((1 : UInt8) <<< 4)
    | .Never => options ||| ((2 : UInt8) <<< 4)
  write_mqtt_string f.path
  putU8 options

/-- src/v5/subscribe.rs 153-157 `struct SubscribeProperties` -/
structure SubscribeProperties where
  id : Option Nat
  user_properties : List (String × String)
  deriving DecidableEq

/-- src/v5/subscribe.rs 160-172 `SubscribeProperties::len` -/
def SubscribeProperties.len (p : SubscribeProperties) : Nat :=
  let len := 0
  let len := addSome p.id (fun id => 1 + len_len id) len
  addUserPropsLen p.user_properties len

/-- src/v5/subscribe.rs 191-206: the arms -/
def SubscribeProperties.step : PropStep SubscribeProperties := fun ty prop st =>
  match ty with
  | .SubscriptionIdentifier => armVbi fun v => { st with id := some v }
  | .UserProperty => armPair fun kv => { st with user_properties := st.user_properties ++ [kv] }
  | _ => M.fail (.InvalidPropertyType prop)

/-- src/v5/subscribe.rs 174-213 `SubscribeProperties::extract` -/
def SubscribeProperties.extract : M (Option SubscribeProperties) :=
  extractProps SubscribeProperties.step { id := none, user_properties := [] }

/-- src/v5/subscribe.rs 215-231 `SubscribeProperties::write` -/
def SubscribeProperties.write (p : SubscribeProperties) : M Unit := do
  let len := p.len
  let _ ← write_remaining_length len
  ifSome p.id (putPropVbi .SubscriptionIdentifier)
  forEach p.user_properties (putPropPair .UserProperty)

/-- src/v5/subscribe.rs 8-13 `struct Subscribe` -/
structure Subscribe where
  pkid : UInt16
  filters : List SubscribeFilter
  properties : Option SubscribeProperties
  deriving DecidableEq

/-- src/v5/subscribe.rs 16-30 `Subscribe::new` -/
def Subscribe.new (path : String) (qos : QoS) : Subscribe :=
  { pkid := 0,
    filters := [{ path := path, qos := qos, nolocal := false, preserve_retain := false,
                  retain_forward_rule := .OnEverySubscribe }],
    properties := none }
/-- src/v5/subscribe.rs 32-41 `Subscribe::new_many` -/
def Subscribe.new_many (topics : List SubscribeFilter) : Subscribe :=
  { pkid := 0, filters := topics, properties := none }
/-- src/v5/subscribe.rs 43-49 `Subscribe::empty_subscribe` -/
def Subscribe.empty_subscribe : Subscribe := { pkid := 0, filters := [], properties := none }
/-- src/v5/subscribe.rs 51-62 `Subscribe::add` -/
def Subscribe.add (s : Subscribe) (path : String) (qos : QoS) : Subscribe :=
  { s with filters := s.filters ++
      [{ path := path, qos := qos, nolocal := false, preserve_retain := false,
         retain_forward_rule := .OnEverySubscribe }] }

/-- src/v5/subscribe.rs 64-77 `Subscribe::len` -/
def Subscribe.len (s : Subscribe) : Nat :=
  let len := 2 + s.filters.foldl (fun s t => s + t.len) 0
  lenPropsOrOne SubscribeProperties.len s.properties len

/-- src/v5/subscribe.rs 101-106: the retain forward rule bits -/
def retainForwardRule (n : UInt8) : Res RetainForwardRule :=
  match n with
  | 0 => .ok .OnEverySubscribe
  | 1 => .ok .OnNewSubscribe
  | 2 => .ok .Never
  | r => .err (.InvalidRetainForwardRule r)

/-- src/v5/subscribe.rs 89-115: the `while bytes.has_remaining()` loop -/
def Subscribe.readLoop : (fuel : Nat) → List SubscribeFilter → M (List SubscribeFilter)
  | 0, _ => M.diverge
  | fuel + 1, filters => do
    let bytes ← M.look
    if bytes.isEmpty then pure filters else
    let path ← read_mqtt_string
    let options ← read_u8
    let requested_qos := options &&& 0b00000011
    let nolocal := (options >>> 2) &&& 0b00000001
    let nolocal := decide (nolocal ≠ 0)
    let preserve_retain := (options >>> 3) &&& 0b00000001
    let preserve_retain := decide (preserve_retain ≠ 0)
    let retain_forward_rule := (options >>> 4) &&& 0b00000011
    let retain_forward_rule ← M.lift (retainForwardRule retain_forward_rule)
    let qos ← M.lift (Mqtt.qos requested_qos)
    readLoop fuel (filters ++
      [{ path := path, qos := qos, nolocal := nolocal, preserve_retain := preserve_retain,
         retain_forward_rule := retain_forward_rule }])

/-- src/v5/subscribe.rs 79-124 `Subscribe::read` -/
def Subscribe.readM (h : FixedHeader) : M Subscribe := do
  advance h.fixed_header_len
  let pkid ← read_u16
  let properties ← SubscribeProperties.extract
  let bytes ← M.look
  let filters ← Subscribe.readLoop (bytes.length + 1) []
  pure { pkid := pkid, filters := filters, properties := properties }

/-- src/v5/subscribe.rs 126-150 `Subscribe::write` -/
def Subscribe.write (s : Subscribe) : M Nat := do
  putU8 0x82
  let remaining_len := s.len
  let remaining_len_bytes ← write_remaining_length remaining_len
  putU16 s.pkid
  writePropsOrZero SubscribeProperties.write s.properties
  forEach s.filters SubscribeFilter.write
  pure (1 + remaining_len_bytes + remaining_len)

/-! ### src/v5/suback.rs -/

/-- src/v5/suback.rs 167-180 `enum SubscribeReasonCode` -/
inductive SubscribeReasonCode where
  | QoS0 | QoS1 | QoS2 | Unspecified | ImplementationSpecific | NotAuthorized
  | TopicFilterInvalid | PkidInUse | QuotaExceeded | SharedSubscriptionsNotSupported
  | SubscriptionIdNotSupported | WildcardSubscriptionsNotSupported
  deriving DecidableEq, Repr

/-- src/v5/suback.rs 168-179: the discriminants -/
def SubscribeReasonCode.toU8 : SubscribeReasonCode → UInt8
  | .QoS0 => 0
  | .QoS1 => 1
  | .QoS2 => 2
  | .Unspecified => 128
  | .ImplementationSpecific => 131
  | .NotAuthorized => 135
  | .TopicFilterInvalid => 143
  | .PkidInUse => 145
  | .QuotaExceeded => 151
  | .SharedSubscriptionsNotSupported => 158
  | .SubscriptionIdNotSupported => 161
  | .WildcardSubscriptionsNotSupported => 162

/-- src/v5/suback.rs 185-203 `try_from` -/
def SubscribeReasonCode.try_from (value : UInt8) : Res SubscribeReasonCode :=
  match value with
  | 0 => .ok .QoS0
  | 1 => .ok .QoS1
  | 2 => .ok .QoS2
  | 128 => .ok .Unspecified
  | 131 => .ok .ImplementationSpecific
  | 135 => .ok .NotAuthorized
  | 143 => .ok .TopicFilterInvalid
  | 145 => .ok .PkidInUse
  | 151 => .ok .QuotaExceeded
  | 158 => .ok .SharedSubscriptionsNotSupported
  | 161 => .ok .SubscriptionIdNotSupported
  | 162 => .ok .WildcardSubscriptionsNotSupported
  | v => .err (.InvalidSubscribeReasonCode v)

/-- src/v5/suback.rs 53-56 and src/v5/unsuback.rs 64-67: the `while bytes.has_remaining()` loop
reading one code byte per turn; `conv` is the conversion of that file -/
def readCodesLoop {C : Type} (conv : UInt8 → Res C) : (fuel : Nat) → List C → M (List C)
  | 0, _ => M.diverge
  | fuel + 1, return_codes => do
    let bytes ← M.look
    if bytes.isEmpty then pure return_codes else
    let return_code ← read_u8
    let c ← M.lift (conv return_code)
    readCodesLoop conv fuel (return_codes ++ [c])

/-- src/v5/suback.rs 87-91 `struct SubAckProperties` -/
abbrev SubAckProperties := ReasonProps

/-- src/v5/suback.rs 94-106 `SubAckProperties::len` -/
def SubAckProperties.len (p : SubAckProperties) : Nat :=
  let len := 0
  let len := addSome p.reason_string (fun r => 1 + 2 + strLen r) len
  addUserPropsLen p.user_properties len

/-- src/v5/suback.rs 124-137: the arms -/
def SubAckProperties.step : PropStep SubAckProperties := fun ty prop st =>
  match ty with
  | .ReasonString => armStr fun v => { st with reason_string := some v }
  | .UserProperty => armPair fun kv => { st with user_properties := st.user_properties ++ [kv] }
  | _ => M.fail (.InvalidPropertyType prop)

/-- src/v5/suback.rs 108-144 `SubAckProperties::extract` -/
def SubAckProperties.extract : M (Option SubAckProperties) :=
  extractProps SubAckProperties.step { reason_string := none, user_properties := [] }

/-- src/v5/suback.rs 146-162 `SubAckProperties::write` -/
def SubAckProperties.write (p : SubAckProperties) : M Unit := do
  let len := SubAckProperties.len p
  let _ ← write_remaining_length len
  ifSome p.reason_string (putPropStr .ReasonString)
  forEach p.user_properties (putPropPair .UserProperty)

/-- src/v5/suback.rs 8-12 `struct SubAck` -/
structure SubAck where
  pkid : UInt16
  return_codes : List SubscribeReasonCode
  properties : Option SubAckProperties
  deriving DecidableEq

/-- src/v5/suback.rs 15-21 `SubAck::new` -/
def SubAck.new (pkid : UInt16) (return_codes : List SubscribeReasonCode) : SubAck :=
  { pkid := pkid, return_codes := return_codes, properties := none }

/-- src/v5/suback.rs 23-39 `SubAck::len` -/
def SubAck.len (s : SubAck) : Nat :=
  let len := 2 + s.return_codes.length
  lenPropsOrOne SubAckProperties.len s.properties len

/-- src/v5/suback.rs 41-65 `SubAck::read` -/
def SubAck.readM (h : FixedHeader) : M SubAck := do
  advance h.fixed_header_len
  let pkid ← read_u16
  let properties ← SubAckProperties.extract
  let bytes ← M.look
  if bytes.isEmpty then M.fail .MalformedPacket else
  let return_codes ← readCodesLoop SubscribeReasonCode.try_from (bytes.length + 1) []
  pure { pkid := pkid, return_codes := return_codes, properties := properties }

/-- src/v5/suback.rs 67-84 `SubAck::write` -/
def SubAck.write (s : SubAck) : M Nat := do
  putU8 0x90
  let remaining_len := s.len
  let remaining_len_bytes ← write_remaining_length remaining_len
  putU16 s.pkid
  writePropsOrZero SubAckProperties.write s.properties
  let p : Bytes := s.return_codes.map SubscribeReasonCode.toU8
  putSlice p
  pure (1 + remaining_len_bytes + remaining_len)

/-! ### src/v5/unsubscribe.rs -/

/-- src/v5/unsubscribe.rs 88-91 `struct UnsubscribeProperties` -/
structure UnsubscribeProperties where
  user_properties : List (String × String)
  deriving DecidableEq

/-- src/v5/unsubscribe.rs 94-102 -/
def UnsubscribeProperties.len (p : UnsubscribeProperties) : Nat :=
  addUserPropsLen p.user_properties 0

/-- src/v5/unsubscribe.rs 120-128: the arms -/
def UnsubscribeProperties.step : PropStep UnsubscribeProperties := fun ty prop st =>
  match ty with
  | .UserProperty => armPair fun kv => { st with user_properties := st.user_properties ++ [kv] }
  | _ => M.fail (.InvalidPropertyType prop)

/-- src/v5/unsubscribe.rs 104-132 -/
def UnsubscribeProperties.extract : M (Option UnsubscribeProperties) :=
  extractProps UnsubscribeProperties.step { user_properties := [] }

/-- src/v5/unsubscribe.rs 134-145 -/
def UnsubscribeProperties.write (p : UnsubscribeProperties) : M Unit := do
  let len := p.len
  let _ ← write_remaining_length len
  forEach p.user_properties (putPropPair .UserProperty)

/-- src/v5/unsubscribe.rs 7-12 `struct Unsubscribe` -/
structure Unsubscribe where
  pkid : UInt16
  filters : List String
  properties : Option UnsubscribeProperties
  deriving DecidableEq

/-- src/v5/unsubscribe.rs 15-21 `Unsubscribe::new` -/
def Unsubscribe.new (topic : String) : Unsubscribe :=
  { pkid := 0, filters := [topic], properties := none }

/-- src/v5/unsubscribe.rs 23-38 `Unsubscribe::len` -/
def Unsubscribe.len (u : Unsubscribe) : Nat :=
  let len := 2 + u.filters.foldl (fun s t => 2 + s + strLen t) 0
  lenPropsOrOne UnsubscribeProperties.len u.properties len

/-- src/v5/unsubscribe.rs 49-52: the `while bytes.has_remaining()` loop -/
def Unsubscribe.readLoop : (fuel : Nat) → List String → M (List String)
  | 0, _ => M.diverge
  | fuel + 1, filters => do
    let bytes ← M.look
    if bytes.isEmpty then pure filters else
    let filter ← read_mqtt_string
    readLoop fuel (filters ++ [filter])

/-- src/v5/unsubscribe.rs 40-60 `Unsubscribe::read`.  Simplification: the `dbg!` output of
line 45 is dropped. -/
def Unsubscribe.readM (h : FixedHeader) : M Unsubscribe := do
  advance h.fixed_header_len
  let pkid ← read_u16
  let properties ← UnsubscribeProperties.extract
  let bytes ← M.look
  let filters ← Unsubscribe.readLoop (bytes.length + 1) []
  pure { pkid := pkid, filters := filters, properties := properties }

/-- src/v5/unsubscribe.rs 62-85 `Unsubscribe::write` -/
def Unsubscribe.write (u : Unsubscribe) : M Nat := do
  putU8 0xA2
  let remaining_len := u.len
  let remaining_len_bytes ← write_remaining_length remaining_len
  putU16 u.pkid
  writePropsOrZero UnsubscribeProperties.write u.properties
  forEach u.filters write_mqtt_string
  pure (1 + remaining_len_bytes + remaining_len)

/-! ### src/v5/unsuback.rs -/

/-- src/v5/unsuback.rs 7-15 `enum UnsubAckReason` -/
inductive UnsubAckReason where
  | Success | NoSubscriptionExisted | UnspecifiedError | ImplementationSpecificError
  | NotAuthorized | TopicFilterInvalid | PacketIdentifierInUse
  deriving DecidableEq, Repr

/-- src/v5/unsuback.rs 8-14: the discriminants -/
def UnsubAckReason.toU8 : UnsubAckReason → UInt8
  | .Success => 0x00
  | .NoSubscriptionExisted => 0x11
  | .UnspecifiedError => 0x80
  | .ImplementationSpecificError => 0x83
  | .NotAuthorized => 0x87
  | .TopicFilterInvalid => 0x8F
  | .PacketIdentifierInUse => 0x91

/-- src/v5/unsuback.rs 177-190 `reason` -/
def UnsubAckReason.reason (num : UInt8) : Res UnsubAckReason :=
  match num with
  | 0x00 => .ok .Success
  | 0x11 => .ok .NoSubscriptionExisted
  | 0x80 => .ok .UnspecifiedError
  | 0x83 => .ok .ImplementationSpecificError
  | 0x87 => .ok .NotAuthorized
  | 0x8F => .ok .TopicFilterInvalid
  | 0x91 => .ok .PacketIdentifierInUse
  | num => .err (.InvalidSubscribeReasonCode num)

/-- src/v5/unsuback.rs 98-102 `struct UnsubAckProperties` -/
abbrev UnsubAckProperties := ReasonProps

/-- src/v5/unsuback.rs 105-117 `UnsubAckProperties::len` -/
def UnsubAckProperties.len (p : UnsubAckProperties) : Nat :=
  let len := 0
  let len := addSome p.reason_string (fun r => 1 + 2 + strLen r) len
  addUserPropsLen p.user_properties len

/-- src/v5/unsuback.rs 135-148: the arms -/
def UnsubAckProperties.step : PropStep UnsubAckProperties := fun ty prop st =>
  match ty with
  | .ReasonString => armStr fun v => { st with reason_string := some v }
  | .UserProperty => armPair fun kv => { st with user_properties := st.user_properties ++ [kv] }
  | _ => M.fail (.InvalidPropertyType prop)

/-- src/v5/unsuback.rs 119-155 `UnsubAckProperties::extract` -/
def UnsubAckProperties.extract : M (Option UnsubAckProperties) :=
  extractProps UnsubAckProperties.step { reason_string := none, user_properties := [] }

/-- src/v5/unsuback.rs 157-173 `UnsubAckProperties::write` -/
def UnsubAckProperties.write (p : UnsubAckProperties) : M Unit := do
  let len := UnsubAckProperties.len p
  let _ ← write_remaining_length len
  ifSome p.reason_string (putPropStr .ReasonString)
  forEach p.user_properties (putPropPair .UserProperty)

/-- src/v5/unsuback.rs 19-23 `struct UnsubAck` -/
structure UnsubAck where
  pkid : UInt16
  reasons : List UnsubAckReason
  properties : Option UnsubAckProperties
  deriving DecidableEq

/-- src/v5/unsuback.rs 26-32 `UnsubAck::new` -/
def UnsubAck.new (pkid : UInt16) : UnsubAck := { pkid := pkid, reasons := [], properties := none }

/-- src/v5/unsuback.rs 34-50 `UnsubAck::len` -/
def UnsubAck.len (u : UnsubAck) : Nat :=
  let len := 2 + u.reasons.length
  lenPropsOrOne UnsubAckProperties.len u.properties len

/-- src/v5/unsuback.rs 52-76 `UnsubAck::read` -/
def UnsubAck.readM (h : FixedHeader) : M UnsubAck := do
  advance h.fixed_header_len
  let pkid ← read_u16
  let properties ← UnsubAckProperties.extract
  let bytes ← M.look
  if bytes.isEmpty then M.fail .MalformedPacket else
  let reasons ← readCodesLoop UnsubAckReason.reason (bytes.length + 1) []
  pure { pkid := pkid, reasons := reasons, properties := properties }

/-- src/v5/unsuback.rs 78-95 `UnsubAck::write` -/
def UnsubAck.write (u : UnsubAck) : M Nat := do
  putU8 0xB0
  let remaining_len := u.len
  let remaining_len_bytes ← write_remaining_length remaining_len
  putU16 u.pkid
  writePropsOrZero UnsubAckProperties.write u.properties
  let p : Bytes := u.reasons.map UnsubAckReason.toU8
  putSlice p
  pure (1 + remaining_len_bytes + remaining_len)

/-! ### src/v5/ping.rs -/

/-- src/v5/ping.rs 7-10 `PingReq::write` -/
def PingReq.write : M Nat := do putSlice [0xC0, 0x00]; pure 2
/-- src/v5/ping.rs 16-19 `PingResp::write` -/
def PingResp.write : M Nat := do putSlice [0xD0, 0x00]; pure 2

/-! ### src/v5/disconnect.rs -/

/-- src/v5/disconnect.rs 11-70 `enum DisconnectReasonCode` -/
inductive DisconnectReasonCode where
  | NormalDisconnection | DisconnectWithWillMessage | UnspecifiedError | MalformedPacket
  | ProtocolError | ImplementationSpecificError | NotAuthorized | ServerBusy
  | ServerShuttingDown | KeepAliveTimeout | SessionTakenOver | TopicFilterInvalid
  | TopicNameInvalid | ReceiveMaximumExceeded | TopicAliasInvalid | PacketTooLarge
  | MessageRateTooHigh | QuotaExceeded | AdministrativeAction | PayloadFormatInvalid
  | RetainNotSupported | QoSNotSupported | UseAnotherServer | ServerMoved
  | SharedSubscriptionNotSupported | ConnectionRateExceeded | MaximumConnectTime
  | SubscriptionIdentifiersNotSupported | WildcardSubscriptionsNotSupported
  deriving DecidableEq, Repr

/-- src/v5/disconnect.rs 12-69: the discriminants -/
def DisconnectReasonCode.toU8 : DisconnectReasonCode → UInt8
  | .NormalDisconnection => 0x00
  | .DisconnectWithWillMessage => 0x04
  | .UnspecifiedError => 0x80
  | .MalformedPacket => 0x81
  | .ProtocolError => 0x82
  | .ImplementationSpecificError => 0x83
  | .NotAuthorized => 0x87
  | .ServerBusy => 0x89
  | .ServerShuttingDown => 0x8B
  | .KeepAliveTimeout => 0x8D
  | .SessionTakenOver => 0x8E
  | .TopicFilterInvalid => 0x8F
  | .TopicNameInvalid => 0x90
  | .ReceiveMaximumExceeded => 0x93
  | .TopicAliasInvalid => 0x94
  | .PacketTooLarge => 0x95
  | .MessageRateTooHigh => 0x96
  | .QuotaExceeded => 0x97
  | .AdministrativeAction => 0x98
  | .PayloadFormatInvalid => 0x99
  | .RetainNotSupported => 0x9A
  | .QoSNotSupported => 0x9B
  | .UseAnotherServer => 0x9C
  | .ServerMoved => 0x9D
  | .SharedSubscriptionNotSupported => 0x9E
  | .ConnectionRateExceeded => 0x9F
  | .MaximumConnectTime => 0xA0
  | .SubscriptionIdentifiersNotSupported => 0xA1
  | .WildcardSubscriptionsNotSupported => 0xA2

/-- src/v5/disconnect.rs 75-110 `try_from` -/
def DisconnectReasonCode.try_from (value : UInt8) : Res DisconnectReasonCode :=
  match value with
  | 0x00 => .ok .NormalDisconnection
  | 0x04 => .ok .DisconnectWithWillMessage
  | 0x80 => .ok .UnspecifiedError
  | 0x81 => .ok .MalformedPacket
  | 0x82 => .ok .ProtocolError
  | 0x83 => .ok .ImplementationSpecificError
  | 0x87 => .ok .NotAuthorized
  | 0x89 => .ok .ServerBusy
  | 0x8B => .ok .ServerShuttingDown
  | 0x8D => .ok .KeepAliveTimeout
  | 0x8E => .ok .SessionTakenOver
  | 0x8F => .ok .TopicFilterInvalid
  | 0x90 => .ok .TopicNameInvalid
  | 0x93 => .ok .ReceiveMaximumExceeded
  | 0x94 => .ok .TopicAliasInvalid
  | 0x95 => .ok .PacketTooLarge
  | 0x96 => .ok .MessageRateTooHigh
  | 0x97 => .ok .QuotaExceeded
  | 0x98 => .ok .AdministrativeAction
  | 0x99 => .ok .PayloadFormatInvalid
  | 0x9A => .ok .RetainNotSupported
  | 0x9B => .ok .QoSNotSupported
  | 0x9C => .ok .UseAnotherServer
  | 0x9D => .ok .ServerMoved
  | 0x9E => .ok .SharedSubscriptionNotSupported
  | 0x9F => .ok .ConnectionRateExceeded
  | 0xA0 => .ok .MaximumConnectTime
  | 0xA1 => .ok .SubscriptionIdentifiersNotSupported
  | 0xA2 => .ok .WildcardSubscriptionsNotSupported
  | other => .err (.InvalidConnectReturnCode other)

/-- src/v5/disconnect.rs 113-126 `struct DisconnectProperties` -/
structure DisconnectProperties where
  session_expiry_interval : Option UInt32
  reason_string : Option String
  user_properties : List (String × String)
  server_reference : Option String
  deriving DecidableEq

/-- src/v5/disconnect.rs 138-145 `DisconnectProperties::new`, and 178-181 the initial local
variables of `extract` -/
def DisconnectProperties.new : DisconnectProperties :=
  { session_expiry_interval := none, reason_string := none, user_properties := [],
    server_reference := none }

/-- src/v5/disconnect.rs 147-167 `DisconnectProperties::len` -/
def DisconnectProperties.len (p : DisconnectProperties) : Nat :=
  let len := 0
  let len := if p.session_expiry_interval.isSome then len + (1 + 4) else len
  let len := addSome p.reason_string (fun r => 1 + 2 + strLen r) len
  let len := addUserPropsLen p.user_properties len
  let len := addSome p.server_reference (fun r => 1 + 2 + strLen r) len
  len

/-- src/v5/disconnect.rs 190-212: the arms -/
def DisconnectProperties.step : PropStep DisconnectProperties := fun ty prop st =>
  match ty with
  | .SessionExpiryInterval => armU32 fun v => { st with session_expiry_interval := some v }
  | .ReasonString => armStr fun v => { st with reason_string := some v }
  | .UserProperty => armPair fun kv => { st with user_properties := st.user_properties ++ [kv] }
  | .ServerReference => armStr fun v => { st with server_reference := some v }
  | _ => M.fail (.InvalidPropertyType prop)

/-- src/v5/disconnect.rs 169-223 `DisconnectProperties::extract` -/
def DisconnectProperties.extract : M (Option DisconnectProperties) :=
  extractProps DisconnectProperties.step DisconnectProperties.new

/-- src/v5/disconnect.rs 225-251 `DisconnectProperties::write` -/
def DisconnectProperties.write (p : DisconnectProperties) : M Unit := do
  let length := p.len
  let _ ← write_remaining_length length
  ifSome p.session_expiry_interval (putPropU32 .SessionExpiryInterval)
  ifSome p.reason_string (putPropStr .ReasonString)
  forEach p.user_properties (putPropPair .UserProperty)
  ifSome p.server_reference (putPropStr .ServerReference)

/-- src/v5/disconnect.rs 128-135 `struct Disconnect` -/
structure Disconnect where
  reason_code : DisconnectReasonCode
  properties : Option DisconnectProperties
  deriving DecidableEq

/-- src/v5/disconnect.rs 255-260 `Disconnect::new` -/
def Disconnect.new : Disconnect := { reason_code := .NormalDisconnection, properties := none }

/-- src/v5/disconnect.rs 262-286 `Disconnect::len` -/
def Disconnect.len (d : Disconnect) : Nat :=
  if d.reason_code = .NormalDisconnection ∧ d.properties = none then 2
  else
    let length := 0
    match d.properties with
    | some properties =>
      let length := length + 1
      length + propSectionLen properties.len
    | none => if d.reason_code = .NormalDisconnection then length else length + 1

/-- src/v5/disconnect.rs 288-314 `Disconnect::read` -/
def Disconnect.readM (h : FixedHeader) : M Disconnect := do
  let packet_type := h.byte1 >>> 4
  let flags := h.byte1 &&& 0b00001111
  advance h.fixed_header_len
  if packet_type ≠ PacketType.Disconnect.toU8 then M.fail (.InvalidPacketType packet_type) else
  if flags ≠ 0x00 then M.fail .MalformedPacket else
  if h.remaining_len = 0 then pure Disconnect.new else
  let reason_code ← read_u8
  let reason_code ← M.lift (DisconnectReasonCode.try_from reason_code)
  let properties ← DisconnectProperties.extract
  pure { reason_code := reason_code, properties := properties }

/-- src/v5/disconnect.rs 316-336 `Disconnect::write` -/
def Disconnect.write (d : Disconnect) : M Nat := do
  putU8 0xE0
  let length := d.len
  if length = 2 then do
    putU8 0x00
    pure length
  else
  let len_len ← write_remaining_length length
  putU8 d.reason_code.toU8
  ifSome d.properties DisconnectProperties.write
  pure (1 + len_len + length)

/-! ### src/v5/mod.rs -/

/-- src/v5/mod.rs 31-48 `enum Packet` -/
inductive Packet where
  | Connect (p : Connect)
  | ConnAck (p : ConnAck)
  | Publish (p : Publish)
  | PubAck (p : PubAck)
  | PubRec (p : PubRec)
  | PubRel (p : PubRel)
  | PubComp (p : PubComp)
  | Subscribe (p : Subscribe)
  | SubAck (p : SubAck)
  | Unsubscribe (p : Unsubscribe)
  | UnsubAck (p : UnsubAck)
  | PingReq
  | PingResp
  | Disconnect (p : Disconnect)
  deriving DecidableEq

/-- src/v5/mod.rs 123-152, the part of `read` after the frame has been split off the stream -/
def readFrame (fixed_header : FixedHeader) (packet : Bytes) : Res Packet :=
  match fixed_header.packet_type with
  | .ok packet_type =>
    if fixed_header.remaining_len = 0 then
      match packet_type with
      | .PingReq => .ok .PingReq
      | .PingResp => .ok .PingResp
      | _ => .err .PayloadRequired
    else
      match packet_type with
      | .Connect => onFrame (Connect.readM fixed_header) packet .Connect
      | .ConnAck => onFrame (ConnAck.readM fixed_header) packet .ConnAck
      | .Publish => onFrame (Publish.readM fixed_header) packet .Publish
      | .PubAck => onFrame (PubAck.readM fixed_header) packet .PubAck
      | .PubRec => onFrame (PubRec.readM fixed_header) packet .PubRec
      | .PubRel => onFrame (PubRel.readM fixed_header) packet .PubRel
      | .PubComp => onFrame (PubComp.readM fixed_header) packet .PubComp
      | .Subscribe => onFrame (Subscribe.readM fixed_header) packet .Subscribe
      | .SubAck => onFrame (SubAck.readM fixed_header) packet .SubAck
      | .Unsubscribe => onFrame (Unsubscribe.readM fixed_header) packet .Unsubscribe
      | .UnsubAck => onFrame (UnsubAck.readM fixed_header) packet .UnsubAck
      | .PingReq => .ok .PingReq
      | .PingResp => .ok .PingResp
      | .Disconnect => onFrame (Disconnect.readM fixed_header) packet .Disconnect
  | .err e => .err e
  | .panic => .panic
  | .diverge => .diverge

/-- src/v5/mod.rs 118-153 `read` -/
def read (max_size : Nat) : M Packet := do
  let stream ← M.look
  let fixed_header ← M.lift (check stream max_size)
  let packet ← splitTo fixed_header.frame_length
  M.lift (readFrame fixed_header packet)

/-- Client glue (not in /repo): write whichever packet it is with that packet's own `write`. -/
def Packet.write : Packet → M Nat
  | .Connect p => p.write
  | .ConnAck p => p.write
  | .Publish p => p.write
  | .PubAck p => PubAck.write p
  | .PubRec p => PubRec.write p
  | .PubRel p => PubRel.write p
  | .PubComp p => PubComp.write p
  | .Subscribe p => p.write
  | .SubAck p => p.write
  | .Unsubscribe p => p.write
  | .UnsubAck p => p.write
  | .PingReq => PingReq.write
  | .PingResp => PingResp.write
  | .Disconnect p => p.write

end Mqtt.V5
