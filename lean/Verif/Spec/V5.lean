import Verif.Spec.V4
import Verif.Model.V5Packets
/-! MQTT 5.0 packets (sections 2.2.2 "properties" and 3 of the standard) for the packet types of
`v5`, and which packet values have an encoding. Uses the model only for the data types. -/
namespace Spec.V5
open Mqtt Mqtt.V5 Spec
open Spec.V4 (qosNum level bit typeNum)

/-! ### Properties (2.2.2) -/

/-- the seven data types of property values -/
inductive Kind where
  | u8 | u16 | u32 | vbi | str | bin | pair
  deriving DecidableEq, Repr

/-- a property value -/
inductive Val where
  | u8 (v : UInt8) | u16 (v : UInt16) | u32 (v : UInt32) | vbi (n : Nat) | str (s : String)
  | bin (b : Bytes) | pair (k v : String)
  deriving DecidableEq

/-- its data type -/
def Val.kind : Val → Kind
  | .u8 _ => .u8 | .u16 _ => .u16 | .u32 _ => .u32 | .vbi _ => .vbi | .str _ => .str
  | .bin _ => .bin | .pair _ _ => .pair

/-- the encoding of a property value -/
def Val.enc : Val → Bytes
  | .u8 v => Spec.u8 v.toNat
  | .u16 v => Spec.u16 v.toNat
  | .u32 v => Spec.u32 v.toNat
  | .vbi n => Spec.vbi n
  | .str s => Spec.str s
  | .bin b => Spec.bin b
  | .pair k v => Spec.str k ++ Spec.str v

/-- the value has an encoding -/
def Val.Fits : Val → Prop
  | .u8 _ => True | .u16 _ => True | .u32 _ => True
  | .vbi n => n ≤ maxRemaining
  | .str s => fits (utf8 s).length
  | .bin b => fits b.length
  | .pair k v => fits (utf8 k).length ∧ fits (utf8 v).length

/-- a property: identifier and value -/
structure Property where
  id : Nat
  val : Val
  deriving DecidableEq

/-- identifier byte followed by the value -/
def Property.enc (p : Property) : Bytes := Spec.u8 p.id ++ p.val.enc

/-- the encodings of a list of properties one after the other -/
def encAll (ps : List Property) : Bytes := ps.flatMap Property.enc

/-- 2.2.2.1: property length, then the properties -/
def sec (ps : List Property) : Bytes := vbi (encAll ps).length ++ encAll ps

/-- an optional property set; absent means an empty section -/
def optSec {π : Type} (props : π → List Property) : Option π → Bytes
  | some p => sec (props p)
  | none => sec []

/-- the property with this identifier for a present value, nothing for an absent one -/
def opt {α : Type} (id : Nat) (f : α → Val) : Option α → List Property
  | some v => [⟨id, f v⟩]
  | none => []

/-- the user properties (38) -/
def users (l : List (String × String)) : List Property := l.map fun kv => ⟨38, .pair kv.1 kv.2⟩

/-- all values of property `id` in the list, in order -/
def valuesOf {α : Type} (id : Nat) (sel : Val → Option α) (ps : List Property) : List α :=
  ps.filterMap fun p => if p.id = id then sel p.val else none

/-- the last value of property `id` in the list -/
def lastOf {α : Type} (id : Nat) (sel : Val → Option α) (ps : List Property) : Option α :=
  (valuesOf id sel ps).getLast?

/-- values of one data type -/
def Val.u8? : Val → Option UInt8 | .u8 v => some v | _ => none
/-- values of one data type -/
def Val.u16? : Val → Option UInt16 | .u16 v => some v | _ => none
/-- values of one data type -/
def Val.u32? : Val → Option UInt32 | .u32 v => some v | _ => none
/-- values of one data type -/
def Val.vbi? : Val → Option Nat | .vbi v => some v | _ => none
/-- values of one data type -/
def Val.str? : Val → Option String | .str v => some v | _ => none
/-- values of one data type -/
def Val.bin? : Val → Option Bytes | .bin v => some v | _ => none
/-- values of one data type -/
def Val.pair? : Val → Option (String × String) | .pair k v => some (k, v) | _ => none

/-! ### The property sets: which identifiers a packet may carry (table 2-4), the set as a list of
properties (in the order of the Rust fields), and the set a list of properties denotes (the last value
of each, all values of the repeatable ones) -/

/-- PUBACK, PUBREC, PUBREL, PUBCOMP, SUBACK, UNSUBACK -/
def reasonKind : Nat → Option Kind
  | 31 => some .str
  | 38 => some .pair
  | _ => none
/-- reason string and user properties as properties -/
def reasonProps (p : ReasonProps) : List Property :=
  opt 31 .str p.reason_string ++ users p.user_properties
/-- the set denoted by a list of properties -/
def reasonOf (ps : List Property) : ReasonProps :=
  { reason_string := lastOf 31 Val.str? ps, user_properties := valuesOf 38 Val.pair? ps }

/-- will properties (3.1.3.2) -/
def willKind : Nat → Option Kind
  | 24 => some .u32
  | 1 => some .u8
  | 2 => some .u32
  | 3 => some .str
  | 8 => some .str
  | 9 => some .bin
  | 38 => some .pair
  | _ => none
/-- will properties as properties -/
def willProps (p : WillProperties) : List Property :=
  opt 24 .u32 p.delay_interval ++ opt 1 .u8 p.payload_format_indicator
  ++ opt 2 .u32 p.message_expiry_interval ++ opt 3 .str p.content_type
  ++ opt 8 .str p.response_topic ++ opt 9 .bin p.correlation_data ++ users p.user_properties
/-- the set denoted by a list of properties -/
def willOf (ps : List Property) : WillProperties :=
  { delay_interval := lastOf 24 Val.u32? ps, payload_format_indicator := lastOf 1 Val.u8? ps,
    message_expiry_interval := lastOf 2 Val.u32? ps, content_type := lastOf 3 Val.str? ps,
    response_topic := lastOf 8 Val.str? ps, correlation_data := lastOf 9 Val.bin? ps,
    user_properties := valuesOf 38 Val.pair? ps }

/-- connect properties (3.1.2.11) -/
def connectKind : Nat → Option Kind
  | 17 => some .u32
  | 33 => some .u16
  | 39 => some .u32
  | 34 => some .u16
  | 25 => some .u8
  | 23 => some .u8
  | 38 => some .pair
  | 21 => some .str
  | 22 => some .bin
  | _ => none
/-- connect properties as properties -/
def connectProps (p : ConnectProperties) : List Property :=
  opt 17 .u32 p.session_expiry_interval ++ opt 33 .u16 p.receive_maximum
  ++ opt 39 .u32 p.max_packet_size ++ opt 34 .u16 p.topic_alias_max
  ++ opt 25 .u8 p.request_response_info ++ opt 23 .u8 p.request_problem_info
  ++ users p.user_properties ++ opt 21 .str p.authentication_method
  ++ opt 22 .bin p.authentication_data
/-- the set denoted by a list of properties -/
def connectOf (ps : List Property) : ConnectProperties :=
  { session_expiry_interval := lastOf 17 Val.u32? ps, receive_maximum := lastOf 33 Val.u16? ps,
    max_packet_size := lastOf 39 Val.u32? ps, topic_alias_max := lastOf 34 Val.u16? ps,
    request_response_info := lastOf 25 Val.u8? ps, request_problem_info := lastOf 23 Val.u8? ps,
    user_properties := valuesOf 38 Val.pair? ps, authentication_method := lastOf 21 Val.str? ps,
    authentication_data := lastOf 22 Val.bin? ps }

/-- connack properties (3.2.2.3) -/
def connackKind : Nat → Option Kind
  | 17 => some .u32
  | 33 => some .u16
  | 36 => some .u8
  | 37 => some .u8
  | 39 => some .u32
  | 18 => some .str
  | 34 => some .u16
  | 31 => some .str
  | 38 => some .pair
  | 40 => some .u8
  | 41 => some .u8
  | 42 => some .u8
  | 19 => some .u16
  | 26 => some .str
  | 28 => some .str
  | 21 => some .str
  | 22 => some .bin
  | _ => none
/-- connack properties as properties -/
def connackProps (p : ConnAckProperties) : List Property :=
  opt 17 .u32 p.session_expiry_interval ++ opt 33 .u16 p.receive_max ++ opt 36 .u8 p.max_qos
  ++ opt 37 .u8 p.retain_available ++ opt 39 .u32 p.max_packet_size
  ++ opt 18 .str p.assigned_client_identifier ++ opt 34 .u16 p.topic_alias_max
  ++ opt 31 .str p.reason_string ++ users p.user_properties
  ++ opt 40 .u8 p.wildcard_subscription_available
  ++ opt 41 .u8 p.subscription_identifiers_available
  ++ opt 42 .u8 p.shared_subscription_available ++ opt 19 .u16 p.server_keep_alive
  ++ opt 26 .str p.response_information ++ opt 28 .str p.server_reference
  ++ opt 21 .str p.authentication_method ++ opt 22 .bin p.authentication_data
/-- the set denoted by a list of properties -/
def connackOf (ps : List Property) : ConnAckProperties :=
  { session_expiry_interval := lastOf 17 Val.u32? ps, receive_max := lastOf 33 Val.u16? ps,
    max_qos := lastOf 36 Val.u8? ps, retain_available := lastOf 37 Val.u8? ps,
    max_packet_size := lastOf 39 Val.u32? ps, assigned_client_identifier := lastOf 18 Val.str? ps,
    topic_alias_max := lastOf 34 Val.u16? ps, reason_string := lastOf 31 Val.str? ps,
    user_properties := valuesOf 38 Val.pair? ps,
    wildcard_subscription_available := lastOf 40 Val.u8? ps,
    subscription_identifiers_available := lastOf 41 Val.u8? ps,
    shared_subscription_available := lastOf 42 Val.u8? ps, server_keep_alive := lastOf 19 Val.u16? ps,
    response_information := lastOf 26 Val.str? ps, server_reference := lastOf 28 Val.str? ps,
    authentication_method := lastOf 21 Val.str? ps, authentication_data := lastOf 22 Val.bin? ps }

/-- publish properties (3.3.2.3) -/
def publishKind : Nat → Option Kind
  | 1 => some .u8
  | 2 => some .u32
  | 35 => some .u16
  | 8 => some .str
  | 9 => some .bin
  | 38 => some .pair
  | 11 => some .vbi
  | 3 => some .str
  | _ => none
/-- publish properties as properties -/
def publishProps (p : PublishProperties) : List Property :=
  opt 1 .u8 p.payload_format_indicator ++ opt 2 .u32 p.message_expiry_interval
  ++ opt 35 .u16 p.topic_alias ++ opt 8 .str p.response_topic ++ opt 9 .bin p.correlation_data
  ++ users p.user_properties ++ p.subscription_identifiers.map (fun n => ⟨11, .vbi n⟩)
  ++ opt 3 .str p.content_type
/-- the set denoted by a list of properties -/
def publishOf (ps : List Property) : PublishProperties :=
  { payload_format_indicator := lastOf 1 Val.u8? ps, message_expiry_interval := lastOf 2 Val.u32? ps,
    topic_alias := lastOf 35 Val.u16? ps, response_topic := lastOf 8 Val.str? ps,
    correlation_data := lastOf 9 Val.bin? ps, user_properties := valuesOf 38 Val.pair? ps,
    subscription_identifiers := valuesOf 11 Val.vbi? ps, content_type := lastOf 3 Val.str? ps }

/-- subscribe properties (3.8.2.1) -/
def subscribeKind : Nat → Option Kind
  | 11 => some .vbi
  | 38 => some .pair
  | _ => none
/-- subscribe properties as properties -/
def subscribeProps (p : SubscribeProperties) : List Property :=
  opt 11 .vbi p.id ++ users p.user_properties
/-- the set denoted by a list of properties -/
def subscribeOf (ps : List Property) : SubscribeProperties :=
  { id := lastOf 11 Val.vbi? ps, user_properties := valuesOf 38 Val.pair? ps }

/-- unsubscribe properties (3.10.2.1) -/
def unsubscribeKind : Nat → Option Kind
  | 38 => some .pair
  | _ => none
/-- unsubscribe properties as properties -/
def unsubscribeProps (p : UnsubscribeProperties) : List Property := users p.user_properties
/-- the set denoted by a list of properties -/
def unsubscribeOf (ps : List Property) : UnsubscribeProperties :=
  { user_properties := valuesOf 38 Val.pair? ps }

/-- disconnect properties (3.14.2.2) -/
def disconnectKind : Nat → Option Kind
  | 17 => some .u32
  | 31 => some .str
  | 38 => some .pair
  | 28 => some .str
  | _ => none
/-- disconnect properties as properties -/
def disconnectProps (p : DisconnectProperties) : List Property :=
  opt 17 .u32 p.session_expiry_interval ++ opt 31 .str p.reason_string ++ users p.user_properties
  ++ opt 28 .str p.server_reference
/-- the set denoted by a list of properties -/
def disconnectOf (ps : List Property) : DisconnectProperties :=
  { session_expiry_interval := lastOf 17 Val.u32? ps, reason_string := lastOf 31 Val.str? ps,
    user_properties := valuesOf 38 Val.pair? ps, server_reference := lastOf 28 Val.str? ps }

/-! ### Reason codes (section 2.4 and the packet sections) -/

/-- 3.2.2.2 connect reason code -/
def connectCode : ConnectReturnCode → Nat
  | .Success => 0 | .UnspecifiedError => 128 | .MalformedPacket => 129 | .ProtocolError => 130
  | .ImplementationSpecificError => 131 | .UnsupportedProtocolVersion => 132
  | .ClientIdentifierNotValid => 133 | .BadUserNamePassword => 134 | .NotAuthorized => 135
  | .ServerUnavailable => 136 | .ServerBusy => 137 | .Banned => 138
  | .BadAuthenticationMethod => 140 | .TopicNameInvalid => 144 | .PacketTooLarge => 149
  | .QuotaExceeded => 151 | .PayloadFormatInvalid => 153 | .RetainNotSupported => 154
  | .QoSNotSupported => 155 | .UseAnotherServer => 156 | .ServerMoved => 157
  | .ConnectionRateExceeded => 159
/-- 3.4.2.1 -/
def pubackCode : PubAckReason → Nat
  | .Success => 0 | .NoMatchingSubscribers => 16 | .UnspecifiedError => 128
  | .ImplementationSpecificError => 131 | .NotAuthorized => 135 | .TopicNameInvalid => 144
  | .PacketIdentifierInUse => 145 | .QuotaExceeded => 151 | .PayloadFormatInvalid => 153
/-- 3.5.2.1 -/
def pubrecCode : PubRecReason → Nat
  | .Success => 0 | .NoMatchingSubscribers => 16 | .UnspecifiedError => 128
  | .ImplementationSpecificError => 131 | .NotAuthorized => 135 | .TopicNameInvalid => 144
  | .PacketIdentifierInUse => 145 | .QuotaExceeded => 151 | .PayloadFormatInvalid => 153
/-- 3.6.2.1 -/
def pubrelCode : PubRelReason → Nat
  | .Success => 0 | .PacketIdentifierNotFound => 146
/-- 3.7.2.1 -/
def pubcompCode : PubCompReason → Nat
  | .Success => 0 | .PacketIdentifierNotFound => 146
/-- 3.9.3 -/
def subCode : SubscribeReasonCode → Nat
  | .QoS0 => 0 | .QoS1 => 1 | .QoS2 => 2 | .Unspecified => 128 | .ImplementationSpecific => 131
  | .NotAuthorized => 135 | .TopicFilterInvalid => 143 | .PkidInUse => 145 | .QuotaExceeded => 151
  | .SharedSubscriptionsNotSupported => 158 | .SubscriptionIdNotSupported => 161
  | .WildcardSubscriptionsNotSupported => 162
/-- 3.11.3 -/
def unsubCode : UnsubAckReason → Nat
  | .Success => 0 | .NoSubscriptionExisted => 17 | .UnspecifiedError => 128
  | .ImplementationSpecificError => 131 | .NotAuthorized => 135 | .TopicFilterInvalid => 143
  | .PacketIdentifierInUse => 145
/-- 3.14.2.1 -/
def disconnectCode : DisconnectReasonCode → Nat
  | .NormalDisconnection => 0 | .DisconnectWithWillMessage => 4 | .UnspecifiedError => 128
  | .MalformedPacket => 129 | .ProtocolError => 130 | .ImplementationSpecificError => 131
  | .NotAuthorized => 135 | .ServerBusy => 137 | .ServerShuttingDown => 139
  | .KeepAliveTimeout => 141 | .SessionTakenOver => 142 | .TopicFilterInvalid => 143
  | .TopicNameInvalid => 144 | .ReceiveMaximumExceeded => 147 | .TopicAliasInvalid => 148
  | .PacketTooLarge => 149 | .MessageRateTooHigh => 150 | .QuotaExceeded => 151
  | .AdministrativeAction => 152 | .PayloadFormatInvalid => 153 | .RetainNotSupported => 154
  | .QoSNotSupported => 155 | .UseAnotherServer => 156 | .ServerMoved => 157
  | .SharedSubscriptionNotSupported => 158 | .ConnectionRateExceeded => 159
  | .MaximumConnectTime => 160 | .SubscriptionIdentifiersNotSupported => 161
  | .WildcardSubscriptionsNotSupported => 162

/-! ### Packets -/

/-- 3.1.2.3: connect flags, bits 7..0 = user name, password, will retain, will QoS (2 bits),
will flag, clean start, reserved 0.  An empty user name or password is "absent". -/
def connectFlags (c : Connect) : Nat :=
  (match c.login with
    | some l => flag (l.username ≠ "") 128 + flag (l.password ≠ "") 64
    | none => 0)
  + (match c.last_will with
    | some w => flag w.retain 32 + 8 * qosNum w.qos + 4
    | none => 0)
  + flag c.clean_session 2

/-- 3.1.3: will properties, will topic, will payload -/
def willFields : Option LastWill → Bytes
  | some w => optSec willProps w.properties ++ str w.topic ++ bin w.message
  | none => []

/-- 3.1.3: user name, password -/
def loginFields : Option Login → Bytes
  | some l => (if l.username = "" then [] else str l.username)
      ++ (if l.password = "" then [] else str l.password)
  | none => []

/-- 3.8.3.1 retain handling -/
def ruleNum : RetainForwardRule → Nat
  | .OnEverySubscribe => 0 | .OnNewSubscribe => 1 | .Never => 2

/-- 3.8.3.1: subscription options byte: bits 5-4 retain handling, 3 retain as published, 2 no local,
1-0 maximum QoS -/
def subOptions (f : SubscribeFilter) : Nat :=
  16 * ruleNum f.retain_forward_rule + flag f.preserve_retain 8 + flag f.nolocal 4 + qosNum f.qos

/-- 3.4.2 (also 3.5.2, 3.6.2, 3.7.2): packet id; the reason code may be left out when it is 0 and there
are no properties, the property length when there are no properties -/
def ackBody {R : Type} (code : R → Nat) (a : Ack R) : Bytes :=
  u16 a.pkid.toNat ++
    (match a.properties with
      | some p => u8 (code a.reason) ++ sec (reasonProps p)
      | none => if code a.reason = 0 then [] else u8 (code a.reason))

/-- body (variable header and payload) -/
def body : Packet → Bytes
  | .Connect c => str "MQTT" ++ u8 (level c.protocol) ++ u8 (connectFlags c)
      ++ u16 c.keep_alive.toNat ++ optSec connectProps c.properties ++ str c.client_id
      ++ willFields c.last_will ++ loginFields c.login
  | .ConnAck c => u8 (flag c.session_present 1) ++ u8 (connectCode c.code)
      ++ optSec connackProps c.properties
  | .Publish p => str p.topic ++ (if p.qos = .AtMostOnce then [] else u16 p.pkid.toNat)
      ++ optSec publishProps p.properties ++ p.payload
  | .PubAck a => ackBody pubackCode a
  | .PubRec a => ackBody pubrecCode a
  | .PubRel a => ackBody pubrelCode a
  | .PubComp a => ackBody pubcompCode a
  | .Subscribe s => u16 s.pkid.toNat ++ optSec subscribeProps s.properties
      ++ s.filters.flatMap fun f => str f.path ++ u8 (subOptions f)
  | .SubAck s => u16 s.pkid.toNat ++ optSec reasonProps s.properties
      ++ s.return_codes.flatMap fun c => u8 (subCode c)
  | .Unsubscribe u => u16 u.pkid.toNat ++ optSec unsubscribeProps u.properties
      ++ u.filters.flatMap str
  | .UnsubAck u => u16 u.pkid.toNat ++ optSec reasonProps u.properties
      ++ u.reasons.flatMap fun c => u8 (unsubCode c)
  | .PingReq => []
  | .PingResp => []
  | .Disconnect d =>
    -- 3.14.2: reason code and properties may be left out when normal and without properties, the
    -- property length when there are no properties
    match d.properties with
    | some p => u8 (disconnectCode d.reason_code) ++ sec (disconnectProps p)
    | none => if d.reason_code = .NormalDisconnection then [] else u8 (disconnectCode d.reason_code)

/-- first byte: packet type in the high four bits, flags in the low four (2.1.2, 2.1.3) -/
def byte1 : Packet → Nat
  | .Connect _ => 1 * 16
  | .ConnAck _ => 2 * 16
  | .Publish p => 3 * 16 + flag p.dup 8 + 2 * qosNum p.qos + flag p.retain 1
  | .PubAck _ => 4 * 16
  | .PubRec _ => 5 * 16
  | .PubRel _ => 6 * 16 + 2
  | .PubComp _ => 7 * 16
  | .Subscribe _ => 8 * 16 + 2
  | .SubAck _ => 9 * 16
  | .Unsubscribe _ => 10 * 16 + 2
  | .UnsubAck _ => 11 * 16
  | .PingReq => 12 * 16
  | .PingResp => 13 * 16
  | .Disconnect _ => 14 * 16

/-- the whole packet on the wire -/
def encode (p : Packet) : Bytes := frame (byte1 p) (body p)

/-! ### Well-formedness -/

/-- all values of a property set have an encoding -/
def PropsFit {π : Type} (props : π → List Property) (o : Option π) : Prop :=
  ∀ p, o = some p → ∀ q ∈ props p, q.val.Fits

/-- all length-prefixed fields have at most 65535 bytes and all subscription identifiers at most
268435455 -/
def FieldsFit : Packet → Prop
  | .Connect c => fits (utf8 c.client_id).length ∧ PropsFit connectProps c.properties
      ∧ (∀ w, c.last_will = some w → fits (utf8 w.topic).length ∧ fits w.message.length
          ∧ PropsFit willProps w.properties)
      ∧ (∀ l, c.login = some l → fits (utf8 l.username).length ∧ fits (utf8 l.password).length)
  | .ConnAck c => PropsFit connackProps c.properties
  | .Publish p => fits (utf8 p.topic).length ∧ PropsFit publishProps p.properties
  | .PubAck a => PropsFit reasonProps a.properties
  | .PubRec a => PropsFit reasonProps a.properties
  | .PubRel a => PropsFit reasonProps a.properties
  | .PubComp a => PropsFit reasonProps a.properties
  | .Subscribe s => PropsFit subscribeProps s.properties
      ∧ ∀ f ∈ s.filters, fits (utf8 f.path).length
  | .SubAck s => PropsFit reasonProps s.properties
  | .Unsubscribe u => PropsFit unsubscribeProps u.properties
      ∧ ∀ t ∈ u.filters, fits (utf8 t).length
  | .UnsubAck u => PropsFit reasonProps u.properties
  | .PingReq => True
  | .PingResp => True
  | .Disconnect d => PropsFit disconnectProps d.properties

/-- a property set that is present is not empty (an empty section denotes absence) -/
def NonEmpty {π : Type} (props : π → List Property) (o : Option π) : Prop :=
  ∀ p, o = some p → props p ≠ []

/-- conditions of MQTT 5.0 beyond field sizes: a property set that is present is not empty, a login is
not entirely empty (neither has an encoding distinct from absence), packet id present exactly for
QoS > 0, at least one reason code -/
def Meaningful : Packet → Prop
  | .Connect c => NonEmpty connectProps c.properties
      ∧ (∀ w, c.last_will = some w → NonEmpty willProps w.properties)
      ∧ (∀ l, c.login = some l → l.username ≠ "" ∨ l.password ≠ "")
  | .ConnAck c => NonEmpty connackProps c.properties
  | .Publish p => NonEmpty publishProps p.properties ∧ (p.qos = .AtMostOnce ↔ p.pkid = 0)
  | .PubAck a => NonEmpty reasonProps a.properties
  | .PubRec a => NonEmpty reasonProps a.properties
  | .PubRel a => NonEmpty reasonProps a.properties
  | .PubComp a => NonEmpty reasonProps a.properties
  | .Subscribe s => NonEmpty subscribeProps s.properties
  | .SubAck s => NonEmpty reasonProps s.properties ∧ s.return_codes ≠ []
  | .Unsubscribe u => NonEmpty unsubscribeProps u.properties
  | .UnsubAck u => NonEmpty reasonProps u.properties ∧ u.reasons ≠ []
  | .PingReq => True
  | .PingResp => True
  | .Disconnect d => NonEmpty disconnectProps d.properties

/-- a well-formed v5 packet -/
def WF (p : Packet) : Prop :=
  FieldsFit p ∧ Meaningful p ∧ (body p).length ≤ maxRemaining

/-! ### Decoding relation

What the decoder accepts, as a grammar.  It is the MQTT 5.0 grammar with the following listed
tolerances and deviations: reserved bits are ignored (low four bits of the first byte except for
PUBLISH and DISCONNECT, bit 0 of the connect flags, bits 7-1 of the connack flags, bits 7-6 of the
subscription options); trailing bytes after CONNECT, CONNACK, PUBACK, PUBREC, PUBREL, PUBCOMP,
PINGREQ, PINGRESP, DISCONNECT are ignored; an announced but empty user name and password count as no
login; CONNECT with protocol level 4 has no connect properties; a repeated property overrides the
earlier one; the property section ends at the first property at which the *counted* size reaches the
declared length, where each subscription identifier counts one byte too many (`counted`), so that the
section may end after or, with subscription identifiers, before the declared length; CONNACK and
DISCONNECT must carry a property length; a DISCONNECT must have a reason code. -/

/-- the bytes denote the value; a variable byte integer need not be minimal -/
def Val.Denotes : Val → Bytes → Prop
  | .vbi n, bs => IsVbi bs ∧ vbiValue bs = n
  | v, bs => v.Fits ∧ bs = v.enc

/-- what the decoder counts for a property: identifier and value, and one more for a variable byte
integer -/
def counted (v : Val) (bs : Bytes) : Nat :=
  1 + bs.length + (if v.kind = .vbi then 1 else 0)

/-- `PropSeq kind n c bs ps`: with `c` bytes counted of the declared `n`, the bytes `bs` are the
remaining properties `ps`: as long as fewer than `n` bytes have been counted another property follows -/
inductive PropSeq (kind : Nat → Option Kind) (n : Nat) : Nat → Bytes → List Property → Prop where
  | done {c : Nat} (h : n ≤ c) : PropSeq kind n c [] []
  | more {c : Nat} (h : c < n) (id : UInt8) (v : Val) (vb bs : Bytes) (ps : List Property)
      (hk : kind id.toNat = some v.kind) (hv : v.Denotes vb)
      (ht : PropSeq kind n (c + counted v vb) bs ps) :
      PropSeq kind n c ([id] ++ vb ++ bs) (⟨id.toNat, v⟩ :: ps)

/-- a property section: its length, then the properties; length 0 denotes "no properties" -/
def SecDenotes (kind : Nat → Option Kind) (sec : Bytes) : Option (List Property) → Prop
  | none => IsVbi sec ∧ vbiValue sec = 0
  | some ps => ∃ len bs, sec = len ++ bs ∧ IsVbi len ∧ vbiValue len ≠ 0
      ∧ PropSeq kind (vbiValue len) 0 bs ps

/-- The grammar of packets below is parametric in the grammar of property sections, a relation between
the bytes of a section and "no properties" or a list of properties.  The decoder's is `SecDenotes`; the
one of the standard is `ExactSec`. -/
abbrev SecGrammar : Type := (Nat → Option Kind) → Bytes → Option (List Property) → Prop

/-- a property section denotes an optional property set -/
def SetDenotesBy (sg : SecGrammar) {π : Type} (kind : Nat → Option Kind) (dec : List Property → π)
    (sec : Bytes) (o : Option π) : Prop :=
  ∃ ps, sg kind sec ps ∧ o = ps.map dec

/-- with the decoder's grammar of property sections -/
abbrev SetDenotes {π : Type} (kind : Nat → Option Kind) (dec : List Property → π) (sec : Bytes)
    (o : Option π) : Prop :=
  SetDenotesBy SecDenotes kind dec sec o

/-- the will denoted by the connect flags and the will fields -/
def WillDenotesBy (sg : SecGrammar) (flags : UInt8) (bd : Bytes) : Option LastWill → Prop
  | none => ¬ bit flags 2 ∧ ¬ bit flags 3 ∧ ¬ bit flags 4 ∧ ¬ bit flags 5 ∧ bd = []
  | some w => bit flags 2 ∧ flags.toNat / 8 % 4 = qosNum w.qos ∧ (w.retain = true ↔ bit flags 5)
      ∧ fits (utf8 w.topic).length ∧ fits w.message.length
      ∧ ∃ props, bd = props ++ str w.topic ++ bin w.message
        ∧ SetDenotesBy sg willKind willOf props w.properties

/-- with the decoder's grammar of property sections -/
abbrev WillDenotes : UInt8 → Bytes → Option LastWill → Prop := WillDenotesBy SecDenotes

/-- the login denoted by the connect flags and the login fields -/
def LoginDenotes (flags : UInt8) (bd : Bytes) (login : Option Login) : Prop :=
  ∃ u p : String, fits (utf8 u).length ∧ fits (utf8 p).length
    ∧ (¬ bit flags 7 → u = "") ∧ (¬ bit flags 6 → p = "")
    ∧ bd = (if bit flags 7 then str u else []) ++ (if bit flags 6 then str p else [])
    ∧ login = if u = "" ∧ p = "" then none else some ⟨u, p⟩

/-- a sequence of subscription filters with their option bytes -/
inductive FiltersDenote : Bytes → List SubscribeFilter → Prop where
  | nil : FiltersDenote [] []
  | cons (f : SubscribeFilter) (opt : UInt8) (bd : Bytes) (fs : List SubscribeFilter)
      (hp : fits (utf8 f.path).length) (ho : opt.toNat % 64 = subOptions f)
      (h : FiltersDenote bd fs) :
      FiltersDenote (str f.path ++ [opt] ++ bd) (f :: fs)

/-- PUBACK, PUBREC, PUBREL, PUBCOMP: two bytes, three bytes, or more -/
def AckDenotesBy (sg : SecGrammar) {R : Type} (code : R → Nat) (bd : Bytes) (a : Ack R) : Prop :=
  (bd = u16 a.pkid.toNat ∧ code a.reason = 0 ∧ a.properties = none)
  ∨ (bd = u16 a.pkid.toNat ++ u8 (code a.reason) ∧ a.properties = none)
  ∨ (∃ props junk, bd = u16 a.pkid.toNat ++ u8 (code a.reason) ++ props ++ junk
      ∧ SetDenotesBy sg reasonKind reasonOf props a.properties)

/-- with the decoder's grammar of property sections -/
abbrev AckDenotes {R : Type} (code : R → Nat) (bd : Bytes) (a : Ack R) : Prop :=
  AckDenotesBy SecDenotes code bd a

/-- a frame with first byte `b1` and body `bd` denotes the packet -/
def DenotesBy (sg : SecGrammar) (b1 : UInt8) (bd : Bytes) : Packet → Prop
  | .Connect c => typeNum b1 = 1 ∧ ∃ flags props will login junk,
      bd = str "MQTT" ++ u8 (level c.protocol) ++ [flags] ++ u16 c.keep_alive.toNat ++ props
        ++ str c.client_id ++ will ++ login ++ junk
      ∧ (match c.protocol with
        | .V5 => SetDenotesBy sg connectKind connectOf props c.properties
        | .V4 => props = [] ∧ c.properties = none)
      ∧ fits (utf8 c.client_id).length ∧ (c.clean_session = true ↔ bit flags 1)
      ∧ WillDenotesBy sg flags will c.last_will ∧ LoginDenotes flags login c.login
  | .ConnAck c => typeNum b1 = 2 ∧ ∃ flags props junk,
      bd = [flags] ++ u8 (connectCode c.code) ++ props ++ junk
      ∧ (c.session_present = true ↔ bit flags 0)
      ∧ SetDenotesBy sg connackKind connackOf props c.properties
  | .Publish p => b1 = UInt8.ofNat (byte1 (.Publish p)) ∧ ∃ props,
      bd = str p.topic ++ (if p.qos = .AtMostOnce then [] else u16 p.pkid.toNat) ++ props
        ++ p.payload
      ∧ fits (utf8 p.topic).length ∧ (p.qos = .AtMostOnce ↔ p.pkid = 0)
      ∧ SetDenotesBy sg publishKind publishOf props p.properties
  | .PubAck a => typeNum b1 = 4 ∧ AckDenotesBy sg pubackCode bd a
  | .PubRec a => typeNum b1 = 5 ∧ AckDenotesBy sg pubrecCode bd a
  | .PubRel a => typeNum b1 = 6 ∧ AckDenotesBy sg pubrelCode bd a
  | .PubComp a => typeNum b1 = 7 ∧ AckDenotesBy sg pubcompCode bd a
  | .Subscribe s => typeNum b1 = 8 ∧ ∃ props fs, bd = u16 s.pkid.toNat ++ props ++ fs
      ∧ SetDenotesBy sg subscribeKind subscribeOf props s.properties ∧ FiltersDenote fs s.filters
  | .SubAck s => typeNum b1 = 9 ∧ ∃ props,
      bd = u16 s.pkid.toNat ++ props ++ (s.return_codes.flatMap fun c => u8 (subCode c))
      ∧ SetDenotesBy sg reasonKind reasonOf props s.properties ∧ s.return_codes ≠ []
  | .Unsubscribe u => typeNum b1 = 10 ∧ ∃ props,
      bd = u16 u.pkid.toNat ++ props ++ u.filters.flatMap str
      ∧ SetDenotesBy sg unsubscribeKind unsubscribeOf props u.properties
      ∧ ∀ t ∈ u.filters, fits (utf8 t).length
  | .UnsubAck u => typeNum b1 = 11 ∧ ∃ props,
      bd = u16 u.pkid.toNat ++ props ++ (u.reasons.flatMap fun c => u8 (unsubCode c))
      ∧ SetDenotesBy sg reasonKind reasonOf props u.properties ∧ u.reasons ≠ []
  | .PingReq => typeNum b1 = 12
  | .PingResp => typeNum b1 = 13
  | .Disconnect d => b1 = UInt8.ofNat (byte1 (.Disconnect d)) ∧ ∃ props junk,
      bd = u8 (disconnectCode d.reason_code) ++ props ++ junk
      ∧ SetDenotesBy sg disconnectKind disconnectOf props d.properties

/-- what this decoder accepts -/
abbrev Denotes (b1 : UInt8) (bd : Bytes) (p : Packet) : Prop := DenotesBy SecDenotes b1 bd p

/-! ### The property sections of the standard -/

/-- the bytes are the properties `ps` one after the other, all of them allowed -/
inductive Props (kind : Nat → Option Kind) : Bytes → List Property → Prop where
  | nil : Props kind [] []
  | cons (id : UInt8) (v : Val) (vb bs : Bytes) (ps : List Property)
      (hk : kind id.toNat = some v.kind) (hv : v.Denotes vb) (ht : Props kind bs ps) :
      Props kind ([id] ++ vb ++ bs) (⟨id.toNat, v⟩ :: ps)

/-- 2.2.2: the declared length is the number of bytes of the properties that follow; length 0 is "no
properties" -/
def ExactSec (kind : Nat → Option Kind) (sec : Bytes) : Option (List Property) → Prop
  | none => IsVbi sec ∧ vbiValue sec = 0
  | some ps => ∃ len bs, sec = len ++ bs ∧ IsVbi len ∧ vbiValue len = bs.length ∧ bs ≠ []
      ∧ Props kind bs ps

/-- the same properties up to order, where the order among properties of one identifier is kept -/
def SameById (ps qs : List Property) : Prop := ∀ i, ps.filter (·.id = i) = qs.filter (·.id = i)

/-- `SectionAt b1 pre kind`: in a frame with first byte `b1` whose body starts with `pre`, a property
section with the properties of table `kind` follows -/
inductive SectionAt : UInt8 → Bytes → (Nat → Option Kind) → Prop where
  | connect (b1 flags : UInt8) (keepAlive : UInt16) (h : typeNum b1 = 1) :
      SectionAt b1 (str "MQTT" ++ u8 5 ++ [flags] ++ u16 keepAlive.toNat) connectKind
  | will (b1 flags : UInt8) (keepAlive : UInt16) (sec : Bytes) (ps : Option (List Property))
      (clientId : String) (h : typeNum b1 = 1) (hs : SecDenotes connectKind sec ps)
      (hc : fits (utf8 clientId).length) (hw : bit flags 2) :
      SectionAt b1 (str "MQTT" ++ u8 5 ++ [flags] ++ u16 keepAlive.toNat ++ sec ++ str clientId) willKind
  | connack (b1 flags : UInt8) (code : ConnectReturnCode) (h : typeNum b1 = 2) :
      SectionAt b1 ([flags] ++ u8 (connectCode code)) connackKind
  | publish0 (b1 : UInt8) (topic : String) (h : typeNum b1 = 3) (hq : b1.toNat / 2 % 4 = 0)
      (ht : fits (utf8 topic).length) : SectionAt b1 (str topic) publishKind
  | publish (b1 : UInt8) (topic : String) (pkid : UInt16) (h : typeNum b1 = 3)
      (hq : b1.toNat / 2 % 4 = 1 ∨ b1.toNat / 2 % 4 = 2) (ht : fits (utf8 topic).length)
      (hp : pkid ≠ 0) : SectionAt b1 (str topic ++ u16 pkid.toNat) publishKind
  | puback (b1 : UInt8) (pkid : UInt16) (r : PubAckReason) (h : typeNum b1 = 4) :
      SectionAt b1 (u16 pkid.toNat ++ u8 (pubackCode r)) reasonKind
  | pubrec (b1 : UInt8) (pkid : UInt16) (r : PubRecReason) (h : typeNum b1 = 5) :
      SectionAt b1 (u16 pkid.toNat ++ u8 (pubrecCode r)) reasonKind
  | pubrel (b1 : UInt8) (pkid : UInt16) (r : PubRelReason) (h : typeNum b1 = 6) :
      SectionAt b1 (u16 pkid.toNat ++ u8 (pubrelCode r)) reasonKind
  | pubcomp (b1 : UInt8) (pkid : UInt16) (r : PubCompReason) (h : typeNum b1 = 7) :
      SectionAt b1 (u16 pkid.toNat ++ u8 (pubcompCode r)) reasonKind
  | subscribe (b1 : UInt8) (pkid : UInt16) (h : typeNum b1 = 8) :
      SectionAt b1 (u16 pkid.toNat) subscribeKind
  | suback (b1 : UInt8) (pkid : UInt16) (h : typeNum b1 = 9) :
      SectionAt b1 (u16 pkid.toNat) reasonKind
  | unsubscribe (b1 : UInt8) (pkid : UInt16) (h : typeNum b1 = 10) :
      SectionAt b1 (u16 pkid.toNat) unsubscribeKind
  | unsuback (b1 : UInt8) (pkid : UInt16) (h : typeNum b1 = 11) :
      SectionAt b1 (u16 pkid.toNat) reasonKind
  | disconnect (code : DisconnectReasonCode) :
      SectionAt 0xE0 (u8 (disconnectCode code)) disconnectKind

/-! ### Which encodings the decoder reads back -/

/-- number of subscription identifiers (variable byte integers) in a list of properties -/
def vbis (ps : List Property) : Nat := (ps.filter fun p => p.val.kind = .vbi).length

/-- The decoder counts every subscription identifier one byte too long; it still reads the whole
section iff before each property the excess is smaller than what remains. -/
def Readable (ps : List Property) : Prop :=
  ∀ a b, ps = a ++ b → b ≠ [] → vbis a < (encAll b).length

/-- CONNECT packets that this decoder reads back: those with protocol level 5, and those with level 4
(which are written with, but read without, property length) in which everything after the keep alive is
empty -/
def ConnectReadsBack (c : Connect) : Prop :=
  c.protocol = .V5 ∨
    (c.properties = none ∧ c.client_id = "" ∧ c.login = none
      ∧ ∀ w, c.last_will = some w → w.properties = none ∧ w.topic = "" ∧ w.message = [])

/-- packets whose encoding this decoder reads back: CONNECT as above, CONNACK / DISCONNECT with
properties, and no PUBLISH whose subscription identifiers overrun the counting -/
def ReadsBack : Packet → Prop
  | .Connect c => ConnectReadsBack c
  | .ConnAck c => c.properties ≠ none
  | .Publish p => ∀ q, p.properties = some q → Readable (publishProps q)
  | .Disconnect d => d.properties ≠ none
  | _ => True

/-! ### Where the writer deviates -/

/-- The body the writer emits.  It is `body p` except for two deviations: CONNACK without properties
lacks the property length, and DISCONNECT with a present but empty property set lacks everything. -/
def wireBody : Packet → Bytes
  | .ConnAck c =>
    match c.properties with
    | some p => u8 (flag c.session_present 1) ++ u8 (connectCode c.code) ++ sec (connackProps p)
    | none => u8 (flag c.session_present 1) ++ u8 (connectCode c.code)
  | .Disconnect d =>
    match d.properties with
    | some p => if disconnectProps p = [] then []
        else u8 (disconnectCode d.reason_code) ++ sec (disconnectProps p)
    | none => if d.reason_code = .NormalDisconnection then [] else u8 (disconnectCode d.reason_code)
  | p => body p

/-- all subscription identifiers are at most 268435455 -/
def IdsOk : Packet → Prop
  | .Publish p => ∀ q, p.properties = some q → ∀ n ∈ q.subscription_identifiers, n ≤ maxRemaining
  | .Subscribe s => ∀ q, s.properties = some q → ∀ n, q.id = some n → n ≤ maxRemaining
  | _ => True

/-- a PUBLISH with QoS 1 or 2 has a packet identifier -/
def PkidOk : Packet → Prop
  | .Publish p => p.qos ≠ .AtMostOnce → p.pkid ≠ 0
  | _ => True

end Spec.V5
