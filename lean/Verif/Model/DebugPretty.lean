import Verif.Model.Debug
/-! The derived `Debug` implementations of /repo in the pretty form `{:#?}`: the same derive attributes, with the alternate
mode of the standard library's builders (`debug_struct`, `debug_tuple`, `debug_list`), which put every entry on its own
lines, indented by a `PadAdapter`.  Numbers, `bool`, `str`, `Bytes` and enums without fields print as in the plain form.
The hand-written implementations (PUBLISH, SUBSCRIBE) print with `write!`, which does not pass the alternate flag on; only
the indentation reaches into them. -/
namespace Mqtt

/-- core `PadAdapter`: four spaces before the first character of every line; `nl`: at the start of a line; used for `{:#?}` of e.g. src/v4/connect.rs 7 -/
def padList : (nl : Bool) → List Char → List Char
  | _, [] => []
  | true, c :: cs => ' ' :: ' ' :: ' ' :: ' ' :: c :: padList (c == '\n') cs
  | false, c :: cs => c :: padList (c == '\n') cs
/-- one entry: the value, a comma and a line end, indented; used for `{:#?}` of e.g. src/v4/connect.rs 7 -/
def entry (s : String) : String := String.ofList (padList true (s ++ ",\n").toList)
/-- entries between an opening and a closing text; used for `{:#?}` of e.g. src/v4/connect.rs 7 -/
def block (op : String) (entries : List String) (cl : String) : String :=
  op ++ "\n" ++ String.join (entries.map entry) ++ cl
/-- `{:#?}` of a tuple variant with one field; e.g. src/v4/mod.rs 32 -/
def fmtTupleP (name arg : String) : String := block (name ++ "(") [arg] ")"
/-- `{:#?}` of a `Vec`; e.g. src/v4/unsubscribe.rs 10 -/
def fmtVecP {α : Type} (f : α → String) (l : List α) : String :=
  match l with
  | [] => "[]"
  | l => block "[" (l.map f) "]"
/-- `{:#?}` of an `Option`; e.g. src/v4/connect.rs 18 -/
def fmtOptionP {α : Type} (f : α → String) : Option α → String
  | none => "None"
  | some a => fmtTupleP "Some" (f a)
/-- `{:#?}` of a pair; e.g. src/v5/disconnect.rs 122 -/
def fmtPairP {α β : Type} (f : α → String) (g : β → String) (p : α × β) : String := block "(" [f p.1, g p.2] ")"
/-- `{:#?}` of a struct with at least one field; e.g. src/v4/connect.rs 7 -/
def fmtStructP (name : String) (fields : List (String × String)) : String :=
  block (name ++ " {") (fields.map fun f => f.1 ++ ": " ++ f.2) "}"

/-- src/lib.rs 14-43: derived `Debug`, pretty form, of `Error` -/
def Error.pretty : Error → String
  | .NotConnect t => fmtTupleP "NotConnect" t.debug
  | .UnexpectedConnect => "UnexpectedConnect"
  | .InvalidConnectReturnCode n => fmtTupleP "InvalidConnectReturnCode" (fmtNat n.toNat)
  | .InvalidReason n => fmtTupleP "InvalidReason" (fmtNat n.toNat)
  | .InvalidProtocol => "InvalidProtocol"
  | .InvalidProtocolLevel n => fmtTupleP "InvalidProtocolLevel" (fmtNat n.toNat)
  | .IncorrectPacketFormat => "IncorrectPacketFormat"
  | .InvalidPacketType n => fmtTupleP "InvalidPacketType" (fmtNat n.toNat)
  | .InvalidPropertyType n => fmtTupleP "InvalidPropertyType" (fmtNat n.toNat)
  | .InvalidRetainForwardRule n => fmtTupleP "InvalidRetainForwardRule" (fmtNat n.toNat)
  | .InvalidQoS n => fmtTupleP "InvalidQoS" (fmtNat n.toNat)
  | .InvalidSubscribeReasonCode n => fmtTupleP "InvalidSubscribeReasonCode" (fmtNat n.toNat)
  | .PacketIdZero => "PacketIdZero"
  | .SubscriptionIdZero => "SubscriptionIdZero"
  | .PayloadSizeIncorrect => "PayloadSizeIncorrect"
  | .PayloadTooLong => "PayloadTooLong"
  | .PayloadSizeLimitExceeded n => fmtTupleP "PayloadSizeLimitExceeded" (fmtNat n)
  | .PayloadRequired => "PayloadRequired"
  | .TopicNotUtf8 => "TopicNotUtf8"
  | .BoundaryCrossed n => fmtTupleP "BoundaryCrossed" (fmtNat n)
  | .MalformedPacket => "MalformedPacket"
  | .MalformedRemainingLength => "MalformedRemainingLength"
  | .EmptySubscription => "EmptySubscription"
  | .InsufficientBytes n => fmtTupleP "InsufficientBytes" (fmtNat n)

/-- src/lib.rs 93-105: derived `Debug`, pretty form, of `FixedHeader` -/
def FixedHeader.pretty (p : FixedHeader) : String :=
  fmtStructP "FixedHeader" [("byte1", fmtU8 p.byte1),
    ("fixed_header_len", fmtNat p.fixed_header_len),
    ("remaining_len", fmtNat p.remaining_len)]

namespace V4

/-- src/v4/connack.rs 17-21: derived `Debug`, pretty form, of `ConnAck` -/
def ConnAck.pretty (p : ConnAck) : String :=
  fmtStructP "ConnAck" [("session_present", fmtBool p.session_present),
    ("code", ConnectReturnCode.debug p.code)]

/-- src/v4/connect.rs 140-146: derived `Debug`, pretty form, of `LastWill` -/
def LastWill.pretty (esc : Char → Bool) (p : LastWill) : String :=
  fmtStructP "LastWill" [("topic", (fmtStr esc) p.topic),
    ("message", fmtBytes p.message),
    ("qos", QoS.debug p.qos),
    ("retain", fmtBool p.retain)]

/-- src/v4/connect.rs 205-209: derived `Debug`, pretty form, of `Login` -/
def Login.pretty (esc : Char → Bool) (p : Login) : String :=
  fmtStructP "Login" [("username", (fmtStr esc) p.username),
    ("password", (fmtStr esc) p.password)]

/-- src/v4/connect.rs 7-21: derived `Debug`, pretty form, of `Connect` -/
def Connect.pretty (esc : Char → Bool) (p : Connect) : String :=
  fmtStructP "Connect" [("protocol", Protocol.debug p.protocol),
    ("keep_alive", fmtU16 p.keep_alive),
    ("client_id", (fmtStr esc) p.client_id),
    ("clean_session", fmtBool p.clean_session),
    ("last_will", (fmtOptionP (LastWill.pretty esc)) p.last_will),
    ("login", (fmtOptionP (Login.pretty esc)) p.login)]

/-- src/v4/puback.rs 5-8: derived `Debug`, pretty form, of `PubAck` -/
def PubAck.pretty (p : PubAck) : String :=
  fmtStructP "PubAck" [("pkid", fmtU16 p.pkid)]

/-- src/v4/pubcomp.rs 5-8: derived `Debug`, pretty form, of `PubComp` -/
def PubComp.pretty (p : PubComp) : String :=
  fmtStructP "PubComp" [("pkid", fmtU16 p.pkid)]

/-- src/v4/pubrec.rs 5-8: derived `Debug`, pretty form, of `PubRec` -/
def PubRec.pretty (p : PubRec) : String :=
  fmtStructP "PubRec" [("pkid", fmtU16 p.pkid)]

/-- src/v4/pubrel.rs 5-8: derived `Debug`, pretty form, of `PubRel` -/
def PubRel.pretty (p : PubRel) : String :=
  fmtStructP "PubRel" [("pkid", fmtU16 p.pkid)]

/-- src/v4/suback.rs 61-65: derived `Debug`, pretty form, of `SubscribeReasonCode` -/
def SubscribeReasonCode.pretty : SubscribeReasonCode → String
  | .Success x => fmtTupleP "Success" (QoS.debug x)
  | .Failure => "Failure"

/-- src/v4/suback.rs 7-11: derived `Debug`, pretty form, of `SubAck` -/
def SubAck.pretty (p : SubAck) : String :=
  fmtStructP "SubAck" [("pkid", fmtU16 p.pkid),
    ("return_codes", (fmtVecP SubscribeReasonCode.pretty) p.return_codes)]

/-- src/v4/unsuback.rs 5-8: derived `Debug`, pretty form, of `UnsubAck` -/
def UnsubAck.pretty (p : UnsubAck) : String :=
  fmtStructP "UnsubAck" [("pkid", fmtU16 p.pkid)]

/-- src/v4/unsubscribe.rs 7-11: derived `Debug`, pretty form, of `Unsubscribe` -/
def Unsubscribe.pretty (esc : Char → Bool) (p : Unsubscribe) : String :=
  fmtStructP "Unsubscribe" [("pkid", fmtU16 p.pkid),
    ("topics", (fmtVecP (fmtStr esc)) p.topics)]

/-- src/v4/mod.rs 32-48: derived `Debug`, pretty form, of `Packet`; PUBLISH and SUBSCRIBE have hand-written texts (`Model/Fmt`) -/
def Packet.pretty (esc : Char → Bool) : Packet → String
  | .Connect x => fmtTupleP "Connect" (Connect.pretty esc x)
  | .ConnAck x => fmtTupleP "ConnAck" (ConnAck.pretty x)
  | .Publish x => fmtTupleP "Publish" (Publish.debug x)
  | .PubAck x => fmtTupleP "PubAck" (PubAck.pretty x)
  | .PubRec x => fmtTupleP "PubRec" (PubRec.pretty x)
  | .PubRel x => fmtTupleP "PubRel" (PubRel.pretty x)
  | .PubComp x => fmtTupleP "PubComp" (PubComp.pretty x)
  | .Subscribe x => fmtTupleP "Subscribe" (Subscribe.debug x)
  | .SubAck x => fmtTupleP "SubAck" (SubAck.pretty x)
  | .Unsubscribe x => fmtTupleP "Unsubscribe" (Unsubscribe.pretty esc x)
  | .UnsubAck x => fmtTupleP "UnsubAck" (UnsubAck.pretty x)
  | .PingReq => "PingReq"
  | .PingResp => "PingResp"
  | .Disconnect => "Disconnect"

end V4

namespace V5

/-- src/v5/puback.rs 110-114, pubrec.rs 106-110, pubrel.rs 97-101, pubcomp.rs 98-102, suback.rs 87-91, unsuback.rs 98-102:
derived `Debug`, pretty form, of the six structs modelled by `ReasonProps`, which differ in the name only -/
def ReasonProps.pretty (esc : Char → Bool) (name : String) (p : ReasonProps) : String :=
  fmtStructP name [("reason_string", (fmtOptionP (fmtStr esc)) p.reason_string),
    ("user_properties", (fmtVecP (fmtPairP (fmtStr esc) (fmtStr esc))) p.user_properties)]

/-- src/v5/connack.rs 98-117: derived `Debug`, pretty form, of `ConnAckProperties` -/
def ConnAckProperties.pretty (esc : Char → Bool) (p : ConnAckProperties) : String :=
  fmtStructP "ConnAckProperties" [("session_expiry_interval", (fmtOptionP fmtU32) p.session_expiry_interval),
    ("receive_max", (fmtOptionP fmtU16) p.receive_max),
    ("max_qos", (fmtOptionP fmtU8) p.max_qos),
    ("retain_available", (fmtOptionP fmtU8) p.retain_available),
    ("max_packet_size", (fmtOptionP fmtU32) p.max_packet_size),
    ("assigned_client_identifier", (fmtOptionP (fmtStr esc)) p.assigned_client_identifier),
    ("topic_alias_max", (fmtOptionP fmtU16) p.topic_alias_max),
    ("reason_string", (fmtOptionP (fmtStr esc)) p.reason_string),
    ("user_properties", (fmtVecP (fmtPairP (fmtStr esc) (fmtStr esc))) p.user_properties),
    ("wildcard_subscription_available", (fmtOptionP fmtU8) p.wildcard_subscription_available),
    ("subscription_identifiers_available", (fmtOptionP fmtU8) p.subscription_identifiers_available),
    ("shared_subscription_available", (fmtOptionP fmtU8) p.shared_subscription_available),
    ("server_keep_alive", (fmtOptionP fmtU16) p.server_keep_alive),
    ("response_information", (fmtOptionP (fmtStr esc)) p.response_information),
    ("server_reference", (fmtOptionP (fmtStr esc)) p.server_reference),
    ("authentication_method", (fmtOptionP (fmtStr esc)) p.authentication_method),
    ("authentication_data", (fmtOptionP fmtBytes) p.authentication_data)]

/-- src/v5/connack.rs 35-40: derived `Debug`, pretty form, of `ConnAck` -/
def ConnAck.pretty (esc : Char → Bool) (p : ConnAck) : String :=
  fmtStructP "ConnAck" [("session_present", fmtBool p.session_present),
    ("code", ConnectReturnCode.debug p.code),
    ("properties", (fmtOptionP (ConnAckProperties.pretty esc)) p.properties)]

/-- src/v5/connect.rs 261-270: derived `Debug`, pretty form, of `WillProperties` -/
def WillProperties.pretty (esc : Char → Bool) (p : WillProperties) : String :=
  fmtStructP "WillProperties" [("delay_interval", (fmtOptionP fmtU32) p.delay_interval),
    ("payload_format_indicator", (fmtOptionP fmtU8) p.payload_format_indicator),
    ("message_expiry_interval", (fmtOptionP fmtU32) p.message_expiry_interval),
    ("content_type", (fmtOptionP (fmtStr esc)) p.content_type),
    ("response_topic", (fmtOptionP (fmtStr esc)) p.response_topic),
    ("correlation_data", (fmtOptionP fmtBytes) p.correlation_data),
    ("user_properties", (fmtVecP (fmtPairP (fmtStr esc) (fmtStr esc))) p.user_properties)]

/-- src/v5/connect.rs 170-177: derived `Debug`, pretty form, of `LastWill` -/
def LastWill.pretty (esc : Char → Bool) (p : LastWill) : String :=
  fmtStructP "LastWill" [("topic", (fmtStr esc) p.topic),
    ("message", fmtBytes p.message),
    ("qos", QoS.debug p.qos),
    ("retain", fmtBool p.retain),
    ("properties", (fmtOptionP (WillProperties.pretty esc)) p.properties)]

/-- src/v5/connect.rs 421-425: derived `Debug`, pretty form, of `Login` -/
def Login.pretty (esc : Char → Bool) (p : Login) : String :=
  fmtStructP "Login" [("username", (fmtStr esc) p.username),
    ("password", (fmtStr esc) p.password)]

/-- src/v5/connect.rs 483-501: derived `Debug`, pretty form, of `ConnectProperties` -/
def ConnectProperties.pretty (esc : Char → Bool) (p : ConnectProperties) : String :=
  fmtStructP "ConnectProperties" [("session_expiry_interval", (fmtOptionP fmtU32) p.session_expiry_interval),
    ("receive_maximum", (fmtOptionP fmtU16) p.receive_maximum),
    ("max_packet_size", (fmtOptionP fmtU32) p.max_packet_size),
    ("topic_alias_max", (fmtOptionP fmtU16) p.topic_alias_max),
    ("request_response_info", (fmtOptionP fmtU8) p.request_response_info),
    ("request_problem_info", (fmtOptionP fmtU8) p.request_problem_info),
    ("user_properties", (fmtVecP (fmtPairP (fmtStr esc) (fmtStr esc))) p.user_properties),
    ("authentication_method", (fmtOptionP (fmtStr esc)) p.authentication_method),
    ("authentication_data", (fmtOptionP fmtBytes) p.authentication_data)]

/-- src/v5/connect.rs 7-23: derived `Debug`, pretty form, of `Connect` -/
def Connect.pretty (esc : Char → Bool) (p : Connect) : String :=
  fmtStructP "Connect" [("protocol", Protocol.debug p.protocol),
    ("keep_alive", fmtU16 p.keep_alive),
    ("client_id", (fmtStr esc) p.client_id),
    ("clean_session", fmtBool p.clean_session),
    ("last_will", (fmtOptionP (LastWill.pretty esc)) p.last_will),
    ("login", (fmtOptionP (Login.pretty esc)) p.login),
    ("properties", (fmtOptionP (ConnectProperties.pretty esc)) p.properties)]

/-- src/v5/disconnect.rs 113-126: derived `Debug`, pretty form, of `DisconnectProperties` -/
def DisconnectProperties.pretty (esc : Char → Bool) (p : DisconnectProperties) : String :=
  fmtStructP "DisconnectProperties" [("session_expiry_interval", (fmtOptionP fmtU32) p.session_expiry_interval),
    ("reason_string", (fmtOptionP (fmtStr esc)) p.reason_string),
    ("user_properties", (fmtVecP (fmtPairP (fmtStr esc) (fmtStr esc))) p.user_properties),
    ("server_reference", (fmtOptionP (fmtStr esc)) p.server_reference)]

/-- src/v5/disconnect.rs 128-135: derived `Debug`, pretty form, of `Disconnect` -/
def Disconnect.pretty (esc : Char → Bool) (p : Disconnect) : String :=
  fmtStructP "Disconnect" [("reason_code", DisconnectReasonCode.debug p.reason_code),
    ("properties", (fmtOptionP (DisconnectProperties.pretty esc)) p.properties)]

/-- src/v5/puback.rs 20-25: derived `Debug`, pretty form, of `PubAck` -/
def PubAck.pretty (esc : Char → Bool) (p : PubAck) : String :=
  fmtStructP "PubAck" [("pkid", fmtU16 p.pkid),
    ("reason", PubAckReason.debug p.reason),
    ("properties", (fmtOptionP (ReasonProps.pretty esc "PubAckProperties")) p.properties)]

/-- src/v5/pubcomp.rs 13-18: derived `Debug`, pretty form, of `PubComp` -/
def PubComp.pretty (esc : Char → Bool) (p : PubComp) : String :=
  fmtStructP "PubComp" [("pkid", fmtU16 p.pkid),
    ("reason", PubCompReason.debug p.reason),
    ("properties", (fmtOptionP (ReasonProps.pretty esc "PubCompProperties")) p.properties)]

/-- src/v5/publish.rs 132-142: derived `Debug`, pretty form, of `PublishProperties` -/
def PublishProperties.pretty (esc : Char → Bool) (p : PublishProperties) : String :=
  fmtStructP "PublishProperties" [("payload_format_indicator", (fmtOptionP fmtU8) p.payload_format_indicator),
    ("message_expiry_interval", (fmtOptionP fmtU32) p.message_expiry_interval),
    ("topic_alias", (fmtOptionP fmtU16) p.topic_alias),
    ("response_topic", (fmtOptionP (fmtStr esc)) p.response_topic),
    ("correlation_data", (fmtOptionP fmtBytes) p.correlation_data),
    ("user_properties", (fmtVecP (fmtPairP (fmtStr esc) (fmtStr esc))) p.user_properties),
    ("subscription_identifiers", (fmtVecP fmtNat) p.subscription_identifiers),
    ("content_type", (fmtOptionP (fmtStr esc)) p.content_type)]

/-- src/v5/pubrec.rs 20-25: derived `Debug`, pretty form, of `PubRec` -/
def PubRec.pretty (esc : Char → Bool) (p : PubRec) : String :=
  fmtStructP "PubRec" [("pkid", fmtU16 p.pkid),
    ("reason", PubRecReason.debug p.reason),
    ("properties", (fmtOptionP (ReasonProps.pretty esc "PubRecProperties")) p.properties)]

/-- src/v5/pubrel.rs 13-18: derived `Debug`, pretty form, of `PubRel` -/
def PubRel.pretty (esc : Char → Bool) (p : PubRel) : String :=
  fmtStructP "PubRel" [("pkid", fmtU16 p.pkid),
    ("reason", PubRelReason.debug p.reason),
    ("properties", (fmtOptionP (ReasonProps.pretty esc "PubRelProperties")) p.properties)]

/-- src/v5/suback.rs 7-12: derived `Debug`, pretty form, of `SubAck` -/
def SubAck.pretty (esc : Char → Bool) (p : SubAck) : String :=
  fmtStructP "SubAck" [("pkid", fmtU16 p.pkid),
    ("return_codes", (fmtVecP SubscribeReasonCode.debug) p.return_codes),
    ("properties", (fmtOptionP (ReasonProps.pretty esc "SubAckProperties")) p.properties)]

/-- src/v5/subscribe.rs 153-157: derived `Debug`, pretty form, of `SubscribeProperties` -/
def SubscribeProperties.pretty (esc : Char → Bool) (p : SubscribeProperties) : String :=
  fmtStructP "SubscribeProperties" [("id", (fmtOptionP fmtNat) p.id),
    ("user_properties", (fmtVecP (fmtPairP (fmtStr esc) (fmtStr esc))) p.user_properties)]

/-- src/v5/unsuback.rs 18-23: derived `Debug`, pretty form, of `UnsubAck` -/
def UnsubAck.pretty (esc : Char → Bool) (p : UnsubAck) : String :=
  fmtStructP "UnsubAck" [("pkid", fmtU16 p.pkid),
    ("reasons", (fmtVecP UnsubAckReason.debug) p.reasons),
    ("properties", (fmtOptionP (ReasonProps.pretty esc "UnsubAckProperties")) p.properties)]

/-- src/v5/unsubscribe.rs 88-91: derived `Debug`, pretty form, of `UnsubscribeProperties` -/
def UnsubscribeProperties.pretty (esc : Char → Bool) (p : UnsubscribeProperties) : String :=
  fmtStructP "UnsubscribeProperties" [("user_properties", (fmtVecP (fmtPairP (fmtStr esc) (fmtStr esc))) p.user_properties)]

/-- src/v5/unsubscribe.rs 7-12: derived `Debug`, pretty form, of `Unsubscribe` -/
def Unsubscribe.pretty (esc : Char → Bool) (p : Unsubscribe) : String :=
  fmtStructP "Unsubscribe" [("pkid", fmtU16 p.pkid),
    ("filters", (fmtVecP (fmtStr esc)) p.filters),
    ("properties", (fmtOptionP (UnsubscribeProperties.pretty esc)) p.properties)]

/-- src/v5/mod.rs 32-48: derived `Debug`, pretty form, of `Packet`; PUBLISH and SUBSCRIBE have hand-written texts (`Model/Fmt`) -/
def Packet.pretty (esc : Char → Bool) : Packet → String
  | .Connect x => fmtTupleP "Connect" (Connect.pretty esc x)
  | .ConnAck x => fmtTupleP "ConnAck" (ConnAck.pretty esc x)
  | .Publish x => fmtTupleP "Publish" (Publish.debug x)
  | .PubAck x => fmtTupleP "PubAck" (PubAck.pretty esc x)
  | .PubRec x => fmtTupleP "PubRec" (PubRec.pretty esc x)
  | .PubRel x => fmtTupleP "PubRel" (PubRel.pretty esc x)
  | .PubComp x => fmtTupleP "PubComp" (PubComp.pretty esc x)
  | .Subscribe x => fmtTupleP "Subscribe" (Subscribe.debug x)
  | .SubAck x => fmtTupleP "SubAck" (SubAck.pretty esc x)
  | .Unsubscribe x => fmtTupleP "Unsubscribe" (Unsubscribe.pretty esc x)
  | .UnsubAck x => fmtTupleP "UnsubAck" (UnsubAck.pretty esc x)
  | .PingReq => "PingReq"
  | .PingResp => "PingResp"
  | .Disconnect x => fmtTupleP "Disconnect" (Disconnect.pretty esc x)

end V5
end Mqtt
