import Verif.Model.V4
import Verif.Model.V5Packets
/-! Texts: the hand-written `Debug`/`Display` implementations of /repo and the derived ones they use.
The alternate form `{:#?}` is in `Model/DebugPretty`. -/
namespace Mqtt

/-- `{}` and `{:?}` of an unsigned number: decimal digits; e.g. src/v4/publish.rs 117 -/
def fmtNat (n : Nat) : String := n.repr
/-- `{}` of a `bool`; e.g. src/v4/publish.rs 116 -/
def fmtBool (b : Bool) : String := if b then "true" else "false"
/-- derived `Debug` of a tuple variant with one field (`debug_tuple`); e.g. src/lib.rs 14 -/
def fmtTuple (name arg : String) : String := name ++ "(" ++ arg ++ ")"

/-- src/lib.rs 46-63: derived `Debug` of `PacketType` -/
def PacketType.debug : PacketType → String
  | .Connect => "Connect" | .ConnAck => "ConnAck" | .Publish => "Publish" | .PubAck => "PubAck"
  | .PubRec => "PubRec" | .PubRel => "PubRel" | .PubComp => "PubComp" | .Subscribe => "Subscribe"
  | .SubAck => "SubAck" | .Unsubscribe => "Unsubscribe" | .UnsubAck => "UnsubAck" | .PingReq => "PingReq"
  | .PingResp => "PingResp" | .Disconnect => "Disconnect"

/-- src/lib.rs 73-79: derived `Debug` of `QoS` -/
def QoS.debug : QoS → String
  | .AtMostOnce => "AtMostOnce" | .AtLeastOnce => "AtLeastOnce" | .ExactlyOnce => "ExactlyOnce"

/-- src/lib.rs 74: derived `PartialOrd` of `QoS`, `partial_cmp` (always `Some`): by position in the declaration (75-79) -/
def QoS.partial_cmp : QoS → QoS → Option Ordering
  | .AtMostOnce, .AtMostOnce => some .eq
  | .AtMostOnce, _ => some .lt
  | .AtLeastOnce, .AtMostOnce => some .gt
  | .AtLeastOnce, .AtLeastOnce => some .eq
  | .AtLeastOnce, .ExactlyOnce => some .lt
  | .ExactlyOnce, .ExactlyOnce => some .eq
  | .ExactlyOnce, _ => some .gt
/-- src/lib.rs 74: `a < b` on `QoS`, std's default in terms of `partial_cmp` -/
def QoS.lt (a b : QoS) : Bool := match a.partial_cmp b with | some .lt => true | _ => false
/-- src/lib.rs 74: `a <= b` on `QoS`, std's default in terms of `partial_cmp` -/
def QoS.le (a b : QoS) : Bool := match a.partial_cmp b with | some .lt => true | some .eq => true | _ => false
/-- src/lib.rs 74: `a > b` on `QoS`, std's default in terms of `partial_cmp` -/
def QoS.gt (a b : QoS) : Bool := match a.partial_cmp b with | some .gt => true | _ => false
/-- src/lib.rs 74: `a >= b` on `QoS`, std's default in terms of `partial_cmp` -/
def QoS.ge (a b : QoS) : Bool := match a.partial_cmp b with | some .gt => true | some .eq => true | _ => false

/-- src/lib.rs 93: derived `PartialOrd` of `FixedHeader`, `partial_cmp` (always `Some`): field by field in the order of the
declaration (94-105) -/
def FixedHeader.partial_cmp (a b : FixedHeader) : Option Ordering :=
  some (((compare a.byte1 b.byte1).then (compare a.fixed_header_len b.fixed_header_len)).then
    (compare a.remaining_len b.remaining_len))

/-- src/lib.rs 14-43: derived `Debug` of `Error` -/
def Error.debug : Error → String
  | .NotConnect t => fmtTuple "NotConnect" t.debug
  | .UnexpectedConnect => "UnexpectedConnect"
  | .InvalidConnectReturnCode n => fmtTuple "InvalidConnectReturnCode" (fmtNat n.toNat)
  | .InvalidReason n => fmtTuple "InvalidReason" (fmtNat n.toNat)
  | .InvalidProtocol => "InvalidProtocol"
  | .InvalidProtocolLevel n => fmtTuple "InvalidProtocolLevel" (fmtNat n.toNat)
  | .IncorrectPacketFormat => "IncorrectPacketFormat"
  | .InvalidPacketType n => fmtTuple "InvalidPacketType" (fmtNat n.toNat)
  | .InvalidPropertyType n => fmtTuple "InvalidPropertyType" (fmtNat n.toNat)
  | .InvalidRetainForwardRule n => fmtTuple "InvalidRetainForwardRule" (fmtNat n.toNat)
  | .InvalidQoS n => fmtTuple "InvalidQoS" (fmtNat n.toNat)
  | .InvalidSubscribeReasonCode n => fmtTuple "InvalidSubscribeReasonCode" (fmtNat n.toNat)
  | .PacketIdZero => "PacketIdZero"
  | .SubscriptionIdZero => "SubscriptionIdZero"
  | .PayloadSizeIncorrect => "PayloadSizeIncorrect"
  | .PayloadTooLong => "PayloadTooLong"
  | .PayloadSizeLimitExceeded n => fmtTuple "PayloadSizeLimitExceeded" (fmtNat n)
  | .PayloadRequired => "PayloadRequired"
  | .TopicNotUtf8 => "TopicNotUtf8"
  | .BoundaryCrossed n => fmtTuple "BoundaryCrossed" (fmtNat n)
  | .MalformedPacket => "MalformedPacket"
  | .MalformedRemainingLength => "MalformedRemainingLength"
  | .EmptySubscription => "EmptySubscription"
  | .InsufficientBytes n => fmtTuple "InsufficientBytes" (fmtNat n)

/-- src/lib.rs 339-343 `impl Display for Error` -/
def Error.display (e : Error) : String := "Error = " ++ e.debug

/-- src/v4/publish.rs 109-121 `impl fmt::Debug for Publish` -/
def V4.Publish.debug (p : V4.Publish) : String :=
  "Topic = " ++ p.topic ++ ", Qos = " ++ p.qos.debug ++ ", Retain = " ++ fmtBool p.retain
    ++ ", Pkid = " ++ fmtNat p.pkid.toNat ++ ", Payload Size = " ++ fmtNat p.payload.length

/-- src/v5/publish.rs 310-322 `impl fmt::Debug for Publish` -/
def V5.Publish.debug (p : V5.Publish) : String :=
  "Topic = " ++ p.topic ++ ", Qos = " ++ p.qos.debug ++ ", Retain = " ++ fmtBool p.retain
    ++ ", Pkid = " ++ fmtNat p.pkid.toNat ++ ", Payload Size = " ++ fmtNat p.payload.length

/-- src/v4/subscribe.rs 140-144 `impl fmt::Debug for SubscribeFilter` -/
def V4.SubscribeFilter.debug (f : V4.SubscribeFilter) : String :=
  "Filter = " ++ f.path ++ ", Qos = " ++ f.qos.debug

/-- src/v5/subscribe.rs 298-303: derived `Debug` of `RetainForwardRule` -/
def V5.RetainForwardRule.debug : V5.RetainForwardRule → String
  | .OnEverySubscribe => "OnEverySubscribe" | .OnNewSubscribe => "OnNewSubscribe" | .Never => "Never"

/-- src/v5/subscribe.rs 315-323 `impl fmt::Debug for SubscribeFilter` -/
def V5.SubscribeFilter.debug (f : V5.SubscribeFilter) : String :=
  "Filter = " ++ f.path ++ ", Qos = " ++ f.qos.debug ++ ", Nolocal = " ++ fmtBool f.nolocal
    ++ ", Preserve retain = " ++ fmtBool f.preserve_retain ++ ", Forward rule = " ++ f.retain_forward_rule.debug

/-- `{:?}` of a `Vec`: elements separated by ", " in square brackets; e.g. src/v4/subscribe.rs 134 -/
def fmtList (l : List String) : String := "[" ++ ", ".intercalate l ++ "]"

/-- src/v4/subscribe.rs 130-138 `impl fmt::Debug for Subscribe` -/
def V4.Subscribe.debug (s : V4.Subscribe) : String :=
  "Filters = " ++ fmtList (s.filters.map V4.SubscribeFilter.debug) ++ ", Packet id = " ++ fmtNat s.pkid.toNat

/-- src/v5/subscribe.rs 305-313 `impl fmt::Debug for Subscribe` -/
def V5.Subscribe.debug (s : V5.Subscribe) : String :=
  "Filters = " ++ fmtList (s.filters.map V5.SubscribeFilter.debug) ++ ", Packet id = " ++ fmtNat s.pkid.toNat

end Mqtt
