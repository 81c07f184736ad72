import Verif.Model.Fmt
/-! The derived `Debug` implementations of /repo, plain form `{:?}`: what the compiler generates from the derive attributes,
and the `Debug` of the library types they use (`str`, `Bytes`, `Vec`, `Option`, tuples).  Which characters above the six
special ones `str` escapes is a table of the standard library (not printable, or extending a grapheme); the table is a
parameter `esc`, about which nothing is assumed. -/
namespace Mqtt

/-- lower-case hexadecimal digits, no leading zeros; used for strings and bytes of e.g. src/v4/connect.rs 7 -/
def hexDigits (n : Nat) : List Char := Nat.toDigits 16 n

/-- core `char::escape_debug_ext` with `escape_single_quote: false`, as used by `<str as Debug>::fmt`; used for the strings of e.g. src/v4/connect.rs 7 -/
def escChar (esc : Char → Bool) (c : Char) : List Char :=
  if c = '\x00' then ['\\', '0']
  else if c = '\t' then ['\\', 't']
  else if c = '\r' then ['\\', 'r']
  else if c = '\n' then ['\\', 'n']
  else if c = '\\' then ['\\', '\\']
  else if c = '"' then ['\\', '"']
  else if esc c then ['\\', 'u', '{'] ++ hexDigits c.toNat ++ ['}']
  else [c]

/-- `{:?}` of a `str`; `String` fields, e.g. src/v4/connect.rs 7-21 -/
def fmtStr (esc : Char → Bool) (s : String) : String := String.ofList ('"' :: (s.toList.flatMap (escChar esc) ++ ['"']))

/-- bytes 1.1.0 `impl Debug for BytesRef`: one byte; used for the bytes of e.g. src/v4/connect.rs 140 -/
def escByte (b : UInt8) : List Char :=
  if b = 10 then ['\\', 'n']
  else if b = 13 then ['\\', 'r']
  else if b = 9 then ['\\', 't']
  else if b = 92 ∨ b = 34 then ['\\', Char.ofNat b.toNat]
  else if b = 0 then ['\\', '0']
  else if 0x20 ≤ b ∧ b < 0x7f then [Char.ofNat b.toNat]
  else ['\\', 'x', Nat.digitChar (b.toNat / 16), Nat.digitChar (b.toNat % 16)]

/-- `{:?}` of `Bytes`; `Bytes` fields, e.g. src/v4/connect.rs 140-146 -/
def fmtBytes (b : Bytes) : String := String.ofList ('b' :: '"' :: (b.flatMap escByte ++ ['"']))

/-- `{:?}` of a `u8`; e.g. src/v5/publish.rs 134 -/
def fmtU8 (n : UInt8) : String := fmtNat n.toNat
/-- `{:?}` of a `u16`; e.g. src/v4/connect.rs 12 -/
def fmtU16 (n : UInt16) : String := fmtNat n.toNat
/-- `{:?}` of a `u32`; e.g. src/v5/disconnect.rs 116 -/
def fmtU32 (n : UInt32) : String := fmtNat n.toNat
/-- `{:?}` of a `Vec`; e.g. src/v4/unsubscribe.rs 10 -/
def fmtVec {α : Type} (f : α → String) (l : List α) : String := fmtList (l.map f)
/-- `{:?}` of an `Option`; e.g. src/v4/connect.rs 18 -/
def fmtOption {α : Type} (f : α → String) : Option α → String
  | none => "None"
  | some a => fmtTuple "Some" (f a)
/-- `{:?}` of a pair; e.g. src/v5/disconnect.rs 122 -/
def fmtPair {α β : Type} (f : α → String) (g : β → String) (p : α × β) : String := fmtTuple "" (f p.1 ++ ", " ++ g p.2)
/-- derived `Debug` of a struct (`debug_struct`) with at least one field; e.g. src/v4/connect.rs 7 -/
def fmtStruct (name : String) (fields : List (String × String)) : String :=
  name ++ " { " ++ ", ".intercalate (fields.map fun f => f.1 ++ ": " ++ f.2) ++ " }"

/-- src/lib.rs 66-70: derived `Debug` of `Protocol` -/
def Protocol.debug : Protocol → String
  | .V4 => "V4"
  | .V5 => "V5"

/-- src/lib.rs 93-105: derived `Debug` of `FixedHeader` -/
def FixedHeader.debug (p : FixedHeader) : String :=
  fmtStruct "FixedHeader" [("byte1", fmtU8 p.byte1),
    ("fixed_header_len", fmtNat p.fixed_header_len),
    ("remaining_len", fmtNat p.remaining_len)]

namespace V4

/-- src/v4/connack.rs 5-14: derived `Debug` of `ConnectReturnCode` -/
def ConnectReturnCode.debug : ConnectReturnCode → String
  | .Success => "Success"
  | .RefusedProtocolVersion => "RefusedProtocolVersion"
  | .BadClientId => "BadClientId"
  | .ServiceUnavailable => "ServiceUnavailable"
  | .BadUserNamePassword => "BadUserNamePassword"
  | .NotAuthorized => "NotAuthorized"

/-- src/v4/connack.rs 17-21: derived `Debug` of `ConnAck` -/
def ConnAck.debug (p : ConnAck) : String :=
  fmtStruct "ConnAck" [("session_present", fmtBool p.session_present),
    ("code", ConnectReturnCode.debug p.code)]

/-- src/v4/connect.rs 140-146: derived `Debug` of `LastWill` -/
def LastWill.debug (esc : Char → Bool) (p : LastWill) : String :=
  fmtStruct "LastWill" [("topic", (fmtStr esc) p.topic),
    ("message", fmtBytes p.message),
    ("qos", QoS.debug p.qos),
    ("retain", fmtBool p.retain)]

/-- src/v4/connect.rs 205-209: derived `Debug` of `Login` -/
def Login.debug (esc : Char → Bool) (p : Login) : String :=
  fmtStruct "Login" [("username", (fmtStr esc) p.username),
    ("password", (fmtStr esc) p.password)]

/-- src/v4/connect.rs 7-21: derived `Debug` of `Connect` -/
def Connect.debug (esc : Char → Bool) (p : Connect) : String :=
  fmtStruct "Connect" [("protocol", Protocol.debug p.protocol),
    ("keep_alive", fmtU16 p.keep_alive),
    ("client_id", (fmtStr esc) p.client_id),
    ("clean_session", fmtBool p.clean_session),
    ("last_will", (fmtOption (LastWill.debug esc)) p.last_will),
    ("login", (fmtOption (Login.debug esc)) p.login)]

/-- src/v4/puback.rs 5-8: derived `Debug` of `PubAck` -/
def PubAck.debug (p : PubAck) : String :=
  fmtStruct "PubAck" [("pkid", fmtU16 p.pkid)]

/-- src/v4/pubcomp.rs 5-8: derived `Debug` of `PubComp` -/
def PubComp.debug (p : PubComp) : String :=
  fmtStruct "PubComp" [("pkid", fmtU16 p.pkid)]

/-- src/v4/pubrec.rs 5-8: derived `Debug` of `PubRec` -/
def PubRec.debug (p : PubRec) : String :=
  fmtStruct "PubRec" [("pkid", fmtU16 p.pkid)]

/-- src/v4/pubrel.rs 5-8: derived `Debug` of `PubRel` -/
def PubRel.debug (p : PubRel) : String :=
  fmtStruct "PubRel" [("pkid", fmtU16 p.pkid)]

/-- src/v4/suback.rs 61-65: derived `Debug` of `SubscribeReasonCode` -/
def SubscribeReasonCode.debug : SubscribeReasonCode → String
  | .Success x => fmtTuple "Success" (QoS.debug x)
  | .Failure => "Failure"

/-- src/v4/suback.rs 7-11: derived `Debug` of `SubAck` -/
def SubAck.debug (p : SubAck) : String :=
  fmtStruct "SubAck" [("pkid", fmtU16 p.pkid),
    ("return_codes", (fmtVec SubscribeReasonCode.debug) p.return_codes)]

/-- src/v4/unsuback.rs 5-8: derived `Debug` of `UnsubAck` -/
def UnsubAck.debug (p : UnsubAck) : String :=
  fmtStruct "UnsubAck" [("pkid", fmtU16 p.pkid)]

/-- src/v4/unsubscribe.rs 7-11: derived `Debug` of `Unsubscribe` -/
def Unsubscribe.debug (esc : Char → Bool) (p : Unsubscribe) : String :=
  fmtStruct "Unsubscribe" [("pkid", fmtU16 p.pkid),
    ("topics", (fmtVec (fmtStr esc)) p.topics)]

/-- src/v4/mod.rs 32-48: derived `Debug` of `Packet`; PUBLISH and SUBSCRIBE have hand-written texts (`Model/Fmt`) -/
def Packet.debug (esc : Char → Bool) : Packet → String
  | .Connect x => fmtTuple "Connect" (Connect.debug esc x)
  | .ConnAck x => fmtTuple "ConnAck" (ConnAck.debug x)
  | .Publish x => fmtTuple "Publish" (Publish.debug x)
  | .PubAck x => fmtTuple "PubAck" (PubAck.debug x)
  | .PubRec x => fmtTuple "PubRec" (PubRec.debug x)
  | .PubRel x => fmtTuple "PubRel" (PubRel.debug x)
  | .PubComp x => fmtTuple "PubComp" (PubComp.debug x)
  | .Subscribe x => fmtTuple "Subscribe" (Subscribe.debug x)
  | .SubAck x => fmtTuple "SubAck" (SubAck.debug x)
  | .Unsubscribe x => fmtTuple "Unsubscribe" (Unsubscribe.debug esc x)
  | .UnsubAck x => fmtTuple "UnsubAck" (UnsubAck.debug x)
  | .PingReq => "PingReq"
  | .PingResp => "PingResp"
  | .Disconnect => "Disconnect"

end V4

namespace V5

/-- src/v5/puback.rs 110-114, pubrec.rs 106-110, pubrel.rs 97-101, pubcomp.rs 98-102, suback.rs 87-91, unsuback.rs 98-102:
derived `Debug` of the six structs modelled by `ReasonProps`, which differ in the name only -/
def ReasonProps.debug (esc : Char → Bool) (name : String) (p : ReasonProps) : String :=
  fmtStruct name [("reason_string", (fmtOption (fmtStr esc)) p.reason_string),
    ("user_properties", (fmtVec (fmtPair (fmtStr esc) (fmtStr esc))) p.user_properties)]

/-- src/v5/connack.rs 7-32: derived `Debug` of `ConnectReturnCode` -/
def ConnectReturnCode.debug : ConnectReturnCode → String
  | .Success => "Success"
  | .UnspecifiedError => "UnspecifiedError"
  | .MalformedPacket => "MalformedPacket"
  | .ProtocolError => "ProtocolError"
  | .ImplementationSpecificError => "ImplementationSpecificError"
  | .UnsupportedProtocolVersion => "UnsupportedProtocolVersion"
  | .ClientIdentifierNotValid => "ClientIdentifierNotValid"
  | .BadUserNamePassword => "BadUserNamePassword"
  | .NotAuthorized => "NotAuthorized"
  | .ServerUnavailable => "ServerUnavailable"
  | .ServerBusy => "ServerBusy"
  | .Banned => "Banned"
  | .BadAuthenticationMethod => "BadAuthenticationMethod"
  | .TopicNameInvalid => "TopicNameInvalid"
  | .PacketTooLarge => "PacketTooLarge"
  | .QuotaExceeded => "QuotaExceeded"
  | .PayloadFormatInvalid => "PayloadFormatInvalid"
  | .RetainNotSupported => "RetainNotSupported"
  | .QoSNotSupported => "QoSNotSupported"
  | .UseAnotherServer => "UseAnotherServer"
  | .ServerMoved => "ServerMoved"
  | .ConnectionRateExceeded => "ConnectionRateExceeded"

/-- src/v5/connack.rs 98-117: derived `Debug` of `ConnAckProperties` -/
def ConnAckProperties.debug (esc : Char → Bool) (p : ConnAckProperties) : String :=
  fmtStruct "ConnAckProperties" [("session_expiry_interval", (fmtOption fmtU32) p.session_expiry_interval),
    ("receive_max", (fmtOption fmtU16) p.receive_max),
    ("max_qos", (fmtOption fmtU8) p.max_qos),
    ("retain_available", (fmtOption fmtU8) p.retain_available),
    ("max_packet_size", (fmtOption fmtU32) p.max_packet_size),
    ("assigned_client_identifier", (fmtOption (fmtStr esc)) p.assigned_client_identifier),
    ("topic_alias_max", (fmtOption fmtU16) p.topic_alias_max),
    ("reason_string", (fmtOption (fmtStr esc)) p.reason_string),
    ("user_properties", (fmtVec (fmtPair (fmtStr esc) (fmtStr esc))) p.user_properties),
    ("wildcard_subscription_available", (fmtOption fmtU8) p.wildcard_subscription_available),
    ("subscription_identifiers_available", (fmtOption fmtU8) p.subscription_identifiers_available),
    ("shared_subscription_available", (fmtOption fmtU8) p.shared_subscription_available),
    ("server_keep_alive", (fmtOption fmtU16) p.server_keep_alive),
    ("response_information", (fmtOption (fmtStr esc)) p.response_information),
    ("server_reference", (fmtOption (fmtStr esc)) p.server_reference),
    ("authentication_method", (fmtOption (fmtStr esc)) p.authentication_method),
    ("authentication_data", (fmtOption fmtBytes) p.authentication_data)]

/-- src/v5/connack.rs 35-40: derived `Debug` of `ConnAck` -/
def ConnAck.debug (esc : Char → Bool) (p : ConnAck) : String :=
  fmtStruct "ConnAck" [("session_present", fmtBool p.session_present),
    ("code", ConnectReturnCode.debug p.code),
    ("properties", (fmtOption (ConnAckProperties.debug esc)) p.properties)]

/-- src/v5/connect.rs 261-270: derived `Debug` of `WillProperties` -/
def WillProperties.debug (esc : Char → Bool) (p : WillProperties) : String :=
  fmtStruct "WillProperties" [("delay_interval", (fmtOption fmtU32) p.delay_interval),
    ("payload_format_indicator", (fmtOption fmtU8) p.payload_format_indicator),
    ("message_expiry_interval", (fmtOption fmtU32) p.message_expiry_interval),
    ("content_type", (fmtOption (fmtStr esc)) p.content_type),
    ("response_topic", (fmtOption (fmtStr esc)) p.response_topic),
    ("correlation_data", (fmtOption fmtBytes) p.correlation_data),
    ("user_properties", (fmtVec (fmtPair (fmtStr esc) (fmtStr esc))) p.user_properties)]

/-- src/v5/connect.rs 170-177: derived `Debug` of `LastWill` -/
def LastWill.debug (esc : Char → Bool) (p : LastWill) : String :=
  fmtStruct "LastWill" [("topic", (fmtStr esc) p.topic),
    ("message", fmtBytes p.message),
    ("qos", QoS.debug p.qos),
    ("retain", fmtBool p.retain),
    ("properties", (fmtOption (WillProperties.debug esc)) p.properties)]

/-- src/v5/connect.rs 421-425: derived `Debug` of `Login` -/
def Login.debug (esc : Char → Bool) (p : Login) : String :=
  fmtStruct "Login" [("username", (fmtStr esc) p.username),
    ("password", (fmtStr esc) p.password)]

/-- src/v5/connect.rs 483-501: derived `Debug` of `ConnectProperties` -/
def ConnectProperties.debug (esc : Char → Bool) (p : ConnectProperties) : String :=
  fmtStruct "ConnectProperties" [("session_expiry_interval", (fmtOption fmtU32) p.session_expiry_interval),
    ("receive_maximum", (fmtOption fmtU16) p.receive_maximum),
    ("max_packet_size", (fmtOption fmtU32) p.max_packet_size),
    ("topic_alias_max", (fmtOption fmtU16) p.topic_alias_max),
    ("request_response_info", (fmtOption fmtU8) p.request_response_info),
    ("request_problem_info", (fmtOption fmtU8) p.request_problem_info),
    ("user_properties", (fmtVec (fmtPair (fmtStr esc) (fmtStr esc))) p.user_properties),
    ("authentication_method", (fmtOption (fmtStr esc)) p.authentication_method),
    ("authentication_data", (fmtOption fmtBytes) p.authentication_data)]

/-- src/v5/connect.rs 7-23: derived `Debug` of `Connect` -/
def Connect.debug (esc : Char → Bool) (p : Connect) : String :=
  fmtStruct "Connect" [("protocol", Protocol.debug p.protocol),
    ("keep_alive", fmtU16 p.keep_alive),
    ("client_id", (fmtStr esc) p.client_id),
    ("clean_session", fmtBool p.clean_session),
    ("last_will", (fmtOption (LastWill.debug esc)) p.last_will),
    ("login", (fmtOption (Login.debug esc)) p.login),
    ("properties", (fmtOption (ConnectProperties.debug esc)) p.properties)]

/-- src/v5/disconnect.rs 9-70: derived `Debug` of `DisconnectReasonCode` -/
def DisconnectReasonCode.debug : DisconnectReasonCode → String
  | .NormalDisconnection => "NormalDisconnection"
  | .DisconnectWithWillMessage => "DisconnectWithWillMessage"
  | .UnspecifiedError => "UnspecifiedError"
  | .MalformedPacket => "MalformedPacket"
  | .ProtocolError => "ProtocolError"
  | .ImplementationSpecificError => "ImplementationSpecificError"
  | .NotAuthorized => "NotAuthorized"
  | .ServerBusy => "ServerBusy"
  | .ServerShuttingDown => "ServerShuttingDown"
  | .KeepAliveTimeout => "KeepAliveTimeout"
  | .SessionTakenOver => "SessionTakenOver"
  | .TopicFilterInvalid => "TopicFilterInvalid"
  | .TopicNameInvalid => "TopicNameInvalid"
  | .ReceiveMaximumExceeded => "ReceiveMaximumExceeded"
  | .TopicAliasInvalid => "TopicAliasInvalid"
  | .PacketTooLarge => "PacketTooLarge"
  | .MessageRateTooHigh => "MessageRateTooHigh"
  | .QuotaExceeded => "QuotaExceeded"
  | .AdministrativeAction => "AdministrativeAction"
  | .PayloadFormatInvalid => "PayloadFormatInvalid"
  | .RetainNotSupported => "RetainNotSupported"
  | .QoSNotSupported => "QoSNotSupported"
  | .UseAnotherServer => "UseAnotherServer"
  | .ServerMoved => "ServerMoved"
  | .SharedSubscriptionNotSupported => "SharedSubscriptionNotSupported"
  | .ConnectionRateExceeded => "ConnectionRateExceeded"
  | .MaximumConnectTime => "MaximumConnectTime"
  | .SubscriptionIdentifiersNotSupported => "SubscriptionIdentifiersNotSupported"
  | .WildcardSubscriptionsNotSupported => "WildcardSubscriptionsNotSupported"

/-- src/v5/disconnect.rs 113-126: derived `Debug` of `DisconnectProperties` -/
def DisconnectProperties.debug (esc : Char → Bool) (p : DisconnectProperties) : String :=
  fmtStruct "DisconnectProperties" [("session_expiry_interval", (fmtOption fmtU32) p.session_expiry_interval),
    ("reason_string", (fmtOption (fmtStr esc)) p.reason_string),
    ("user_properties", (fmtVec (fmtPair (fmtStr esc) (fmtStr esc))) p.user_properties),
    ("server_reference", (fmtOption (fmtStr esc)) p.server_reference)]

/-- src/v5/disconnect.rs 128-135: derived `Debug` of `Disconnect` -/
def Disconnect.debug (esc : Char → Bool) (p : Disconnect) : String :=
  fmtStruct "Disconnect" [("reason_code", DisconnectReasonCode.debug p.reason_code),
    ("properties", (fmtOption (DisconnectProperties.debug esc)) p.properties)]

/-- src/v5/puback.rs 5-17: derived `Debug` of `PubAckReason` -/
def PubAckReason.debug : PubAckReason → String
  | .Success => "Success"
  | .NoMatchingSubscribers => "NoMatchingSubscribers"
  | .UnspecifiedError => "UnspecifiedError"
  | .ImplementationSpecificError => "ImplementationSpecificError"
  | .NotAuthorized => "NotAuthorized"
  | .TopicNameInvalid => "TopicNameInvalid"
  | .PacketIdentifierInUse => "PacketIdentifierInUse"
  | .QuotaExceeded => "QuotaExceeded"
  | .PayloadFormatInvalid => "PayloadFormatInvalid"

/-- src/v5/puback.rs 20-25: derived `Debug` of `PubAck` -/
def PubAck.debug (esc : Char → Bool) (p : PubAck) : String :=
  fmtStruct "PubAck" [("pkid", fmtU16 p.pkid),
    ("reason", PubAckReason.debug p.reason),
    ("properties", (fmtOption (ReasonProps.debug esc "PubAckProperties")) p.properties)]

/-- src/v5/pubcomp.rs 5-10: derived `Debug` of `PubCompReason` -/
def PubCompReason.debug : PubCompReason → String
  | .Success => "Success"
  | .PacketIdentifierNotFound => "PacketIdentifierNotFound"

/-- src/v5/pubcomp.rs 13-18: derived `Debug` of `PubComp` -/
def PubComp.debug (esc : Char → Bool) (p : PubComp) : String :=
  fmtStruct "PubComp" [("pkid", fmtU16 p.pkid),
    ("reason", PubCompReason.debug p.reason),
    ("properties", (fmtOption (ReasonProps.debug esc "PubCompProperties")) p.properties)]

/-- src/v5/publish.rs 132-142: derived `Debug` of `PublishProperties` -/
def PublishProperties.debug (esc : Char → Bool) (p : PublishProperties) : String :=
  fmtStruct "PublishProperties" [("payload_format_indicator", (fmtOption fmtU8) p.payload_format_indicator),
    ("message_expiry_interval", (fmtOption fmtU32) p.message_expiry_interval),
    ("topic_alias", (fmtOption fmtU16) p.topic_alias),
    ("response_topic", (fmtOption (fmtStr esc)) p.response_topic),
    ("correlation_data", (fmtOption fmtBytes) p.correlation_data),
    ("user_properties", (fmtVec (fmtPair (fmtStr esc) (fmtStr esc))) p.user_properties),
    ("subscription_identifiers", (fmtVec fmtNat) p.subscription_identifiers),
    ("content_type", (fmtOption (fmtStr esc)) p.content_type)]

/-- src/v5/pubrec.rs 5-17: derived `Debug` of `PubRecReason` -/
def PubRecReason.debug : PubRecReason → String
  | .Success => "Success"
  | .NoMatchingSubscribers => "NoMatchingSubscribers"
  | .UnspecifiedError => "UnspecifiedError"
  | .ImplementationSpecificError => "ImplementationSpecificError"
  | .NotAuthorized => "NotAuthorized"
  | .TopicNameInvalid => "TopicNameInvalid"
  | .PacketIdentifierInUse => "PacketIdentifierInUse"
  | .QuotaExceeded => "QuotaExceeded"
  | .PayloadFormatInvalid => "PayloadFormatInvalid"

/-- src/v5/pubrec.rs 20-25: derived `Debug` of `PubRec` -/
def PubRec.debug (esc : Char → Bool) (p : PubRec) : String :=
  fmtStruct "PubRec" [("pkid", fmtU16 p.pkid),
    ("reason", PubRecReason.debug p.reason),
    ("properties", (fmtOption (ReasonProps.debug esc "PubRecProperties")) p.properties)]

/-- src/v5/pubrel.rs 5-10: derived `Debug` of `PubRelReason` -/
def PubRelReason.debug : PubRelReason → String
  | .Success => "Success"
  | .PacketIdentifierNotFound => "PacketIdentifierNotFound"

/-- src/v5/pubrel.rs 13-18: derived `Debug` of `PubRel` -/
def PubRel.debug (esc : Char → Bool) (p : PubRel) : String :=
  fmtStruct "PubRel" [("pkid", fmtU16 p.pkid),
    ("reason", PubRelReason.debug p.reason),
    ("properties", (fmtOption (ReasonProps.debug esc "PubRelProperties")) p.properties)]

/-- src/v5/suback.rs 166-180: derived `Debug` of `SubscribeReasonCode` -/
def SubscribeReasonCode.debug : SubscribeReasonCode → String
  | .QoS0 => "QoS0"
  | .QoS1 => "QoS1"
  | .QoS2 => "QoS2"
  | .Unspecified => "Unspecified"
  | .ImplementationSpecific => "ImplementationSpecific"
  | .NotAuthorized => "NotAuthorized"
  | .TopicFilterInvalid => "TopicFilterInvalid"
  | .PkidInUse => "PkidInUse"
  | .QuotaExceeded => "QuotaExceeded"
  | .SharedSubscriptionsNotSupported => "SharedSubscriptionsNotSupported"
  | .SubscriptionIdNotSupported => "SubscriptionIdNotSupported"
  | .WildcardSubscriptionsNotSupported => "WildcardSubscriptionsNotSupported"

/-- src/v5/suback.rs 7-12: derived `Debug` of `SubAck` -/
def SubAck.debug (esc : Char → Bool) (p : SubAck) : String :=
  fmtStruct "SubAck" [("pkid", fmtU16 p.pkid),
    ("return_codes", (fmtVec SubscribeReasonCode.debug) p.return_codes),
    ("properties", (fmtOption (ReasonProps.debug esc "SubAckProperties")) p.properties)]

/-- src/v5/subscribe.rs 153-157: derived `Debug` of `SubscribeProperties` -/
def SubscribeProperties.debug (esc : Char → Bool) (p : SubscribeProperties) : String :=
  fmtStruct "SubscribeProperties" [("id", (fmtOption fmtNat) p.id),
    ("user_properties", (fmtVec (fmtPair (fmtStr esc) (fmtStr esc))) p.user_properties)]

/-- src/v5/unsuback.rs 5-15: derived `Debug` of `UnsubAckReason` -/
def UnsubAckReason.debug : UnsubAckReason → String
  | .Success => "Success"
  | .NoSubscriptionExisted => "NoSubscriptionExisted"
  | .UnspecifiedError => "UnspecifiedError"
  | .ImplementationSpecificError => "ImplementationSpecificError"
  | .NotAuthorized => "NotAuthorized"
  | .TopicFilterInvalid => "TopicFilterInvalid"
  | .PacketIdentifierInUse => "PacketIdentifierInUse"

/-- src/v5/unsuback.rs 18-23: derived `Debug` of `UnsubAck` -/
def UnsubAck.debug (esc : Char → Bool) (p : UnsubAck) : String :=
  fmtStruct "UnsubAck" [("pkid", fmtU16 p.pkid),
    ("reasons", (fmtVec UnsubAckReason.debug) p.reasons),
    ("properties", (fmtOption (ReasonProps.debug esc "UnsubAckProperties")) p.properties)]

/-- src/v5/unsubscribe.rs 88-91: derived `Debug` of `UnsubscribeProperties` -/
def UnsubscribeProperties.debug (esc : Char → Bool) (p : UnsubscribeProperties) : String :=
  fmtStruct "UnsubscribeProperties" [("user_properties", (fmtVec (fmtPair (fmtStr esc) (fmtStr esc))) p.user_properties)]

/-- src/v5/unsubscribe.rs 7-12: derived `Debug` of `Unsubscribe` -/
def Unsubscribe.debug (esc : Char → Bool) (p : Unsubscribe) : String :=
  fmtStruct "Unsubscribe" [("pkid", fmtU16 p.pkid),
    ("filters", (fmtVec (fmtStr esc)) p.filters),
    ("properties", (fmtOption (UnsubscribeProperties.debug esc)) p.properties)]

/-- src/v5/mod.rs 32-48: derived `Debug` of `Packet`; PUBLISH and SUBSCRIBE have hand-written texts (`Model/Fmt`) -/
def Packet.debug (esc : Char → Bool) : Packet → String
  | .Connect x => fmtTuple "Connect" (Connect.debug esc x)
  | .ConnAck x => fmtTuple "ConnAck" (ConnAck.debug esc x)
  | .Publish x => fmtTuple "Publish" (Publish.debug x)
  | .PubAck x => fmtTuple "PubAck" (PubAck.debug esc x)
  | .PubRec x => fmtTuple "PubRec" (PubRec.debug esc x)
  | .PubRel x => fmtTuple "PubRel" (PubRel.debug esc x)
  | .PubComp x => fmtTuple "PubComp" (PubComp.debug esc x)
  | .Subscribe x => fmtTuple "Subscribe" (Subscribe.debug x)
  | .SubAck x => fmtTuple "SubAck" (SubAck.debug esc x)
  | .Unsubscribe x => fmtTuple "Unsubscribe" (Unsubscribe.debug esc x)
  | .UnsubAck x => fmtTuple "UnsubAck" (UnsubAck.debug esc x)
  | .PingReq => "PingReq"
  | .PingResp => "PingResp"
  | .Disconnect x => fmtTuple "Disconnect" (Disconnect.debug esc x)

end V5
end Mqtt
