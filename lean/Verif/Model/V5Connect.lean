import Verif.Model.V5Base
/-! Model of src/v5/connect.rs and src/v5/connack.rs -/
namespace Mqtt.V5
open Mqtt

/-! ### src/v5/connect.rs -/

/-- src/v5/connect.rs 261-270 `struct WillProperties` -/
structure WillProperties where
  delay_interval : Option UInt32
  payload_format_indicator : Option UInt8
  message_expiry_interval : Option UInt32
  content_type : Option String
  response_topic : Option String
  correlation_data : Option Bytes
  user_properties : List (String × String)
  deriving DecidableEq

/-- src/v5/connect.rs 308-314: the initial local variables of `WillProperties::read` -/
def WillProperties.empty : WillProperties :=
  { delay_interval := none, payload_format_indicator := none, message_expiry_interval := none,
    content_type := none, response_topic := none, correlation_data := none,
    user_properties := [] }

/-- src/v5/connect.rs 273-305 `WillProperties::len` -/
def WillProperties.len (p : WillProperties) : Nat :=
  let len := 0
  let len := if p.delay_interval.isSome then len + (1 + 4) else len
  let len := if p.payload_format_indicator.isSome then len + (1 + 1) else len
  let len := if p.message_expiry_interval.isSome then len + (1 + 4) else len
  let len := addSome p.content_type (fun typ => 1 + 2 + strLen typ) len
  let len := addSome p.response_topic (fun t => 1 + 2 + strLen t) len
  let len := addSome p.correlation_data (fun d => 1 + 2 + d.length) len
  addUserPropsLen p.user_properties len

/-- src/v5/connect.rs 328-363: the arms of `WillProperties::read` -/
def WillProperties.step : PropStep WillProperties := fun ty prop st =>
  match ty with
  | .WillDelayInterval => armU32 fun v => { st with delay_interval := some v }
  | .PayloadFormatIndicator => armU8 fun v => { st with payload_format_indicator := some v }
  | .MessageExpiryInterval => armU32 fun v => { st with message_expiry_interval := some v }
  | .ContentType => armStr fun v => { st with content_type := some v }
  | .ResponseTopic => armStr fun v => { st with response_topic := some v }
  | .CorrelationData => armBytes fun v => { st with correlation_data := some v }
  | .UserProperty => armPair fun kv => { st with user_properties := st.user_properties ++ [kv] }
  | _ => M.fail (.InvalidPropertyType prop)

/-- src/v5/connect.rs 307-375 `WillProperties::read` -/
def WillProperties.read : M (Option WillProperties) :=
  extractProps WillProperties.step WillProperties.empty

/-- src/v5/connect.rs 377-418 `WillProperties::write` -/
def WillProperties.write (p : WillProperties) : M Unit := do
  let len := p.len
  let _ ← write_remaining_length len
  ifSome p.delay_interval (putPropU32 .WillDelayInterval)
  ifSome p.payload_format_indicator (putPropU8 .PayloadFormatIndicator)
  ifSome p.message_expiry_interval (putPropU32 .MessageExpiryInterval)
  ifSome p.content_type (putPropStr .ContentType)
  ifSome p.response_topic (putPropStr .ResponseTopic)
  ifSome p.correlation_data (putPropBytes .CorrelationData)
  forEach p.user_properties (putPropPair .UserProperty)

/-- src/v5/connect.rs 170-177 `struct LastWill` -/
structure LastWill where
  topic : String
  message : Bytes
  qos : QoS
  retain : Bool
  properties : Option WillProperties
  deriving DecidableEq

/-- src/v5/connect.rs 180-193 `LastWill::new` -/
def LastWill.new (topic : String) (payload : Bytes) (qos : QoS) (retain : Bool) : LastWill :=
  { topic := topic, message := payload, qos := qos, retain := retain, properties := none }

/-- src/v5/connect.rs 195-212 `LastWill::len` -/
def LastWill.len (w : LastWill) : Nat :=
  let len := 0
  let len := lenPropsOrOne WillProperties.len w.properties len
  len + (2 + strLen w.topic + 2 + w.message.length)

/-- src/v5/connect.rs 214-238 `LastWill::read` -/
def LastWill.read (connect_flags : UInt8) : M (Option LastWill) :=
  if connect_flags &&& 0b100 = 0 then
    if connect_flags &&& 0b00111000 ≠ 0 then M.fail .IncorrectPacketFormat
    else pure none
  else do
    let properties ← WillProperties.read
    let will_topic ← read_mqtt_string
    let will_message ← read_mqtt_bytes
    let will_qos ← M.lift (Mqtt.qos ((connect_flags &&& 0b11000) >>> 3))
    pure (some { topic := will_topic, message := will_message, qos := will_qos,
                 retain := decide (connect_flags &&& 0b00100000 ≠ 0), properties := properties })

/-- `match &self.properties { Some(p) => p.write(buffer)?, None => { write_remaining_length(buffer, 0)?; } }`; e.g. src/v5/publish.rs 118-123 -/
def writePropsOrZero {π : Type} (w : π → M Unit) (o : Option π) : M Unit :=
  match o with
  | some p => w p
  | none => do let _ ← write_remaining_length 0; pure ()

/-- src/v5/connect.rs 240-258 `LastWill::write`; returns the flag bits -/
def LastWill.write (w : LastWill) : M UInt8 := do
  let connect_flags : UInt8 := (0 : UInt8) ||| ((0x04 : UInt8) ||| (w.qos.toU8 <<< 3))
  let connect_flags := if w.retain then connect_flags ||| 0x20 else connect_flags
  writePropsOrZero WillProperties.write w.properties
  write_mqtt_string w.topic
  write_mqtt_bytes w.message
  pure connect_flags

/-- src/v5/connect.rs 421-425 `struct Login` -/
structure Login where
  username : String
  password : String
  deriving DecidableEq

/-- src/v5/connect.rs 428-433 `Login::new` -/
def Login.new (u p : String) : Login := { username := u, password := p }

/-- src/v5/connect.rs 435-451 `Login::read` -/
def Login.read (connect_flags : UInt8) : M (Option Login) := do
  let username ← (if connect_flags &&& 0b10000000 = 0 then pure "" else read_mqtt_string : M String)
  let password ← (if connect_flags &&& 0b01000000 = 0 then pure "" else read_mqtt_string : M String)
  if username.isEmpty && password.isEmpty then pure none
  else pure (some { username := username, password := password })

/-- src/v5/connect.rs 453-465 `Login::len` -/
def Login.len (l : Login) : Nat :=
  let len := 0
  let len := if !l.username.isEmpty then len + (2 + strLen l.username) else len
  let len := if !l.password.isEmpty then len + (2 + strLen l.password) else len
  len

/-- src/v5/connect.rs 467-480 `Login::write`; returns the flag bits -/
def Login.write (l : Login) : M UInt8 := do
  let connect_flags : UInt8 := 0
  let connect_flags ← (if !l.username.isEmpty then do
      write_mqtt_string l.username
      pure (connect_flags ||| 0x80)
    else pure connect_flags : M UInt8)
  let connect_flags ← (if !l.password.isEmpty then do
      write_mqtt_string l.password
      pure (connect_flags ||| 0x40)
    else pure connect_flags : M UInt8)
  pure connect_flags

/-- src/v5/connect.rs 483-501 `struct ConnectProperties` -/
structure ConnectProperties where
  session_expiry_interval : Option UInt32
  receive_maximum : Option UInt16
  max_packet_size : Option UInt32
  topic_alias_max : Option UInt16
  request_response_info : Option UInt8
  request_problem_info : Option UInt8
  user_properties : List (String × String)
  authentication_method : Option String
  authentication_data : Option Bytes
  deriving DecidableEq

/-- src/v5/connect.rs 504-516 `ConnectProperties::_new`, and 519-527 the initial local variables
of `ConnectProperties::read` -/
def ConnectProperties.empty : ConnectProperties :=
  { session_expiry_interval := none, receive_maximum := none, max_packet_size := none,
    topic_alias_max := none, request_response_info := none, request_problem_info := none,
    user_properties := [], authentication_method := none, authentication_data := none }

/-- src/v5/connect.rs 540-582: the arms of `ConnectProperties::read` -/
def ConnectProperties.step : PropStep ConnectProperties := fun ty prop st =>
  match ty with
  | .SessionExpiryInterval => armU32 fun v => { st with session_expiry_interval := some v }
  | .ReceiveMaximum => armU16 fun v => { st with receive_maximum := some v }
  | .MaximumPacketSize => armU32 fun v => { st with max_packet_size := some v }
  | .TopicAliasMaximum => armU16 fun v => { st with topic_alias_max := some v }
  | .RequestResponseInformation => armU8 fun v => { st with request_response_info := some v }
  | .RequestProblemInformation => armU8 fun v => { st with request_problem_info := some v }
  | .UserProperty => armPair fun kv => { st with user_properties := st.user_properties ++ [kv] }
  | .AuthenticationMethod => armStr fun v => { st with authentication_method := some v }
  | .AuthenticationData => armBytes fun v => { st with authentication_data := some v }
  | _ => M.fail (.InvalidPropertyType prop)

/-- src/v5/connect.rs 518-596 `ConnectProperties::read` -/
def ConnectProperties.read : M (Option ConnectProperties) :=
  extractProps ConnectProperties.step ConnectProperties.empty

/-- src/v5/connect.rs 598-638 `ConnectProperties::len` -/
def ConnectProperties.len (p : ConnectProperties) : Nat :=
  let len := 0
  let len := if p.session_expiry_interval.isSome then len + (1 + 4) else len
  let len := if p.receive_maximum.isSome then len + (1 + 2) else len
  let len := if p.max_packet_size.isSome then len + (1 + 4) else len
  let len := if p.topic_alias_max.isSome then len + (1 + 2) else len
  let len := if p.request_response_info.isSome then len + (1 + 1) else len
  let len := if p.request_problem_info.isSome then len + (1 + 1) else len
  let len := addUserPropsLen p.user_properties len
  let len := addSome p.authentication_method (fun m => 1 + 2 + strLen m) len
  let len := addSome p.authentication_data (fun d => 1 + 2 + d.length) len
  len

/-- src/v5/connect.rs 640-691 `ConnectProperties::write` -/
def ConnectProperties.write (p : ConnectProperties) : M Unit := do
  let len := p.len
  let _ ← write_remaining_length len
  ifSome p.session_expiry_interval (putPropU32 .SessionExpiryInterval)
  ifSome p.receive_maximum (putPropU16 .ReceiveMaximum)
  ifSome p.max_packet_size (putPropU32 .MaximumPacketSize)
  ifSome p.topic_alias_max (putPropU16 .TopicAliasMaximum)
  ifSome p.request_response_info (putPropU8 .RequestResponseInformation)
  ifSome p.request_problem_info (putPropU8 .RequestProblemInformation)
  forEach p.user_properties (putPropPair .UserProperty)
  ifSome p.authentication_method (putPropStr .AuthenticationMethod)
  ifSome p.authentication_data (putPropBytes .AuthenticationData)

/-- src/v5/connect.rs 7-23 `struct Connect` -/
structure Connect where
  protocol : Protocol
  keep_alive : UInt16
  client_id : String
  clean_session : Bool
  last_will : Option LastWill
  login : Option Login
  properties : Option ConnectProperties
  deriving DecidableEq

/-- src/v5/connect.rs 26-36 `Connect::new` -/
def Connect.new (id : String) : Connect :=
  { protocol := .V5, keep_alive := 10, properties := none, client_id := id,
    clean_session := true, last_will := none, login := none }

/-- src/v5/connect.rs 38-46 `Connect::set_login` -/
def Connect.set_login (c : Connect) (u p : String) : Connect :=
  { c with login := some { username := u, password := p } }

/-- src/v5/connect.rs 48-79 `Connect::len` -/
def Connect.len (c : Connect) : Nat :=
  let len := 2 + 4 + 1 + 1 + 2
  let len := lenPropsOrOne ConnectProperties.len c.properties len
  let len := len + (2 + strLen c.client_id)
  let len := match c.last_will with | some w => len + w.len | none => len
  let len := match c.login with | some l => len + l.len | none => len
  len

/-- src/v5/connect.rs 81-123 `Connect::read` -/
def Connect.readM (h : FixedHeader) : M Connect := do
  advance h.fixed_header_len
  let protocol_name ← read_mqtt_string
  let protocol_level ← read_u8
  if protocol_name ≠ "MQTT" then M.fail .InvalidProtocol else
  let protocol ← (match protocol_level with
    | 4 => pure Protocol.V4
    | 5 => pure Protocol.V5
    | num => M.fail (.InvalidProtocolLevel num) : M Protocol)
  let connect_flags ← read_u8
  let clean_session := decide (connect_flags &&& 0b10 ≠ 0)
  let keep_alive ← read_u16
  let properties ← (match protocol with
    | .V5 => ConnectProperties.read
    | .V4 => pure none : M (Option ConnectProperties))
  let client_id ← read_mqtt_string
  let last_will ← LastWill.read connect_flags
  let login ← Login.read connect_flags
  pure { protocol := protocol, keep_alive := keep_alive, client_id := client_id,
         clean_session := clean_session, last_will := last_will, login := login,
         properties := properties }

/-- src/v5/connect.rs 125-166 `Connect::write` -/
def Connect.write (c : Connect) : M Nat := do
  let len := c.len
  putU8 0b00010000
  let count ← write_remaining_length len
  write_mqtt_string "MQTT"
  putU8 c.protocol.level
  let flags_index := 1 + count + 2 + 4 + 1
  let connect_flags : UInt8 := 0
  let connect_flags := if c.clean_session then connect_flags ||| 0x02 else connect_flags
  putU8 connect_flags
  putU16 c.keep_alive
  writePropsOrZero ConnectProperties.write c.properties
  write_mqtt_string c.client_id
  let connect_flags ← orFlags c.last_will LastWill.write connect_flags
  let connect_flags ← orFlags c.login Login.write connect_flags
  setIdx flags_index connect_flags
  pure len

/-! ### src/v5/connack.rs -/

/-- src/v5/connack.rs 7-32 `enum ConnectReturnCode` -/
inductive ConnectReturnCode where
  | Success | UnspecifiedError | MalformedPacket | ProtocolError | ImplementationSpecificError
  | UnsupportedProtocolVersion | ClientIdentifierNotValid | BadUserNamePassword | NotAuthorized
  | ServerUnavailable | ServerBusy | Banned | BadAuthenticationMethod | TopicNameInvalid
  | PacketTooLarge | QuotaExceeded | PayloadFormatInvalid | RetainNotSupported
  | QoSNotSupported | UseAnotherServer | ServerMoved | ConnectionRateExceeded
  deriving DecidableEq, Repr

/-- src/v5/connack.rs 9-32: explicit discriminants (`code as u8`) -/
def ConnectReturnCode.toU8 : ConnectReturnCode → UInt8
  | .Success => 0
  | .UnspecifiedError => 128
  | .MalformedPacket => 129
  | .ProtocolError => 130
  | .ImplementationSpecificError => 131
  | .UnsupportedProtocolVersion => 132
  | .ClientIdentifierNotValid => 133
  | .BadUserNamePassword => 134
  | .NotAuthorized => 135
  | .ServerUnavailable => 136
  | .ServerBusy => 137
  | .Banned => 138
  | .BadAuthenticationMethod => 140
  | .TopicNameInvalid => 144
  | .PacketTooLarge => 149
  | .QuotaExceeded => 151
  | .PayloadFormatInvalid => 153
  | .RetainNotSupported => 154
  | .QoSNotSupported => 155
  | .UseAnotherServer => 156
  | .ServerMoved => 157
  | .ConnectionRateExceeded => 159

/-- src/v5/connack.rs 444-472 `connect_return` -/
def connect_return (num : UInt8) : Res ConnectReturnCode :=
  match num with
  | 0 => .ok .Success
  | 128 => .ok .UnspecifiedError
  | 129 => .ok .MalformedPacket
  | 130 => .ok .ProtocolError
  | 131 => .ok .ImplementationSpecificError
  | 132 => .ok .UnsupportedProtocolVersion
  | 133 => .ok .ClientIdentifierNotValid
  | 134 => .ok .BadUserNamePassword
  | 135 => .ok .NotAuthorized
  | 136 => .ok .ServerUnavailable
  | 137 => .ok .ServerBusy
  | 138 => .ok .Banned
  | 140 => .ok .BadAuthenticationMethod
  | 144 => .ok .TopicNameInvalid
  | 149 => .ok .PacketTooLarge
  | 151 => .ok .QuotaExceeded
  | 153 => .ok .PayloadFormatInvalid
  | 154 => .ok .RetainNotSupported
  | 155 => .ok .QoSNotSupported
  | 156 => .ok .UseAnotherServer
  | 157 => .ok .ServerMoved
  | 159 => .ok .ConnectionRateExceeded
  | num => .err (.InvalidConnectReturnCode num)

/-- src/v5/connack.rs 98-117 `struct ConnAckProperties` -/
structure ConnAckProperties where
  session_expiry_interval : Option UInt32
  receive_max : Option UInt16
  max_qos : Option UInt8
  retain_available : Option UInt8
  max_packet_size : Option UInt32
  assigned_client_identifier : Option String
  topic_alias_max : Option UInt16
  reason_string : Option String
  user_properties : List (String × String)
  wildcard_subscription_available : Option UInt8
  subscription_identifiers_available : Option UInt8
  shared_subscription_available : Option UInt8
  server_keep_alive : Option UInt16
  response_information : Option String
  server_reference : Option String
  authentication_method : Option String
  authentication_data : Option Bytes
  deriving DecidableEq

/-- src/v5/connack.rs 120-140 `ConnAckProperties::new`, and 217-233 the initial local variables
of `extract` -/
def ConnAckProperties.new : ConnAckProperties :=
  { session_expiry_interval := none, receive_max := none, max_qos := none,
    retain_available := none, max_packet_size := none, assigned_client_identifier := none,
    topic_alias_max := none, reason_string := none, user_properties := [],
    wildcard_subscription_available := none, subscription_identifiers_available := none,
    shared_subscription_available := none, server_keep_alive := none,
    response_information := none, server_reference := none, authentication_method := none,
    authentication_data := none }

/-- src/v5/connack.rs 142-214 `ConnAckProperties::len` -/
def ConnAckProperties.len (p : ConnAckProperties) : Nat :=
  let len := 0
  let len := if p.session_expiry_interval.isSome then len + (1 + 4) else len
  let len := if p.receive_max.isSome then len + (1 + 2) else len
  let len := if p.max_qos.isSome then len + (1 + 1) else len
  let len := if p.retain_available.isSome then len + (1 + 1) else len
  let len := if p.max_packet_size.isSome then len + (1 + 4) else len
  let len := addSome p.assigned_client_identifier (fun id => 1 + 2 + strLen id) len
  let len := if p.topic_alias_max.isSome then len + (1 + 2) else len
  let len := addSome p.reason_string (fun r => 1 + 2 + strLen r) len
  let len := addUserPropsLen p.user_properties len
  let len := if p.wildcard_subscription_available.isSome then len + (1 + 1) else len
  let len := if p.subscription_identifiers_available.isSome then len + (1 + 1) else len
  let len := if p.shared_subscription_available.isSome then len + (1 + 1) else len
  let len := if p.server_keep_alive.isSome then len + (1 + 2) else len
  let len := addSome p.response_information (fun i => 1 + 2 + strLen i) len
  let len := addSome p.server_reference (fun r => 1 + 2 + strLen r) len
  let len := addSome p.authentication_method (fun m => 1 + 2 + strLen m) len
  let len := addSome p.authentication_data (fun d => 1 + 2 + d.length) len
  len

/-- src/v5/connack.rs 247-325: the arms of `ConnAckProperties::extract` -/
def ConnAckProperties.step : PropStep ConnAckProperties := fun ty prop st =>
  match ty with
  | .SessionExpiryInterval => armU32 fun v => { st with session_expiry_interval := some v }
  | .ReceiveMaximum => armU16 fun v => { st with receive_max := some v }
  | .MaximumQos => armU8 fun v => { st with max_qos := some v }
  | .RetainAvailable => armU8 fun v => { st with retain_available := some v }
  | .AssignedClientIdentifier => armStr fun v => { st with assigned_client_identifier := some v }
  | .MaximumPacketSize => armU32 fun v => { st with max_packet_size := some v }
  | .TopicAliasMaximum => armU16 fun v => { st with topic_alias_max := some v }
  | .ReasonString => armStr fun v => { st with reason_string := some v }
  | .UserProperty => armPair fun kv => { st with user_properties := st.user_properties ++ [kv] }
  | .WildcardSubscriptionAvailable =>
    armU8 fun v => { st with wildcard_subscription_available := some v }
  | .SubscriptionIdentifierAvailable =>
    armU8 fun v => { st with subscription_identifiers_available := some v }
  | .SharedSubscriptionAvailable =>
    armU8 fun v => { st with shared_subscription_available := some v }
  | .ServerKeepAlive => armU16 fun v => { st with server_keep_alive := some v }
  | .ResponseInformation => armStr fun v => { st with response_information := some v }
  | .ServerReference => armStr fun v => { st with server_reference := some v }
  | .AuthenticationMethod => armStr fun v => { st with authentication_method := some v }
  | .AuthenticationData => armBytes fun v => { st with authentication_data := some v }
  | _ => M.fail (.InvalidPropertyType prop)

/-- src/v5/connack.rs 216-347 `ConnAckProperties::extract` -/
def ConnAckProperties.extract : M (Option ConnAckProperties) :=
  extractProps ConnAckProperties.step ConnAckProperties.new

/-- src/v5/connack.rs 349-440 `ConnAckProperties::write` -/
def ConnAckProperties.write (p : ConnAckProperties) : M Unit := do
  let len := p.len
  let _ ← write_remaining_length len
  ifSome p.session_expiry_interval (putPropU32 .SessionExpiryInterval)
  ifSome p.receive_max (putPropU16 .ReceiveMaximum)
  ifSome p.max_qos (putPropU8 .MaximumQos)
  ifSome p.retain_available (putPropU8 .RetainAvailable)
  ifSome p.max_packet_size (putPropU32 .MaximumPacketSize)
  ifSome p.assigned_client_identifier (putPropStr .AssignedClientIdentifier)
  ifSome p.topic_alias_max (putPropU16 .TopicAliasMaximum)
  ifSome p.reason_string (putPropStr .ReasonString)
  forEach p.user_properties (putPropPair .UserProperty)
  ifSome p.wildcard_subscription_available (putPropU8 .WildcardSubscriptionAvailable)
  ifSome p.subscription_identifiers_available (putPropU8 .SubscriptionIdentifierAvailable)
  ifSome p.shared_subscription_available (putPropU8 .SharedSubscriptionAvailable)
  ifSome p.server_keep_alive (putPropU16 .ServerKeepAlive)
  ifSome p.response_information (putPropStr .ResponseInformation)
  ifSome p.server_reference (putPropStr .ServerReference)
  ifSome p.authentication_method (putPropStr .AuthenticationMethod)
  ifSome p.authentication_data (putPropBytes .AuthenticationData)

/-- src/v5/connack.rs 35-40 `struct ConnAck` -/
structure ConnAck where
  session_present : Bool
  code : ConnectReturnCode
  properties : Option ConnAckProperties
  deriving DecidableEq

/-- src/v5/connack.rs 43-49 `ConnAck::new` -/
def ConnAck.new (code : ConnectReturnCode) (session_present : Bool) : ConnAck :=
  { code := code, session_present := session_present, properties := none }

/-- src/v5/connack.rs 51-62 `ConnAck::len` -/
def ConnAck.len (c : ConnAck) : Nat :=
  let len := 1 + 1
  match c.properties with
  | some properties => len + propSectionLen properties.len
  | none => len

/-- src/v5/connack.rs 64-80 `ConnAck::read` -/
def ConnAck.readM (h : FixedHeader) : M ConnAck := do
  advance h.fixed_header_len
  let flags ← read_u8
  let return_code ← read_u8
  let session_present := decide (flags &&& 0x01 = 1)
  let code ← M.lift (connect_return return_code)
  let properties ← ConnAckProperties.extract
  pure { session_present := session_present, code := code, properties := properties }

/-- src/v5/connack.rs 82-95 `ConnAck::write` -/
def ConnAck.write (c : ConnAck) : M Nat := do
  let len := c.len
  putU8 0x20
  let count ← write_remaining_length len
  putU8 (boolU8 c.session_present)
  putU8 c.code.toU8
  ifSome c.properties ConnAckProperties.write
  pure (1 + count + len)

end Mqtt.V5
