import Verif.Spec.V5
/-! Which errors a caller can meet, entry point by entry point. -/
namespace Spec
open Mqtt

/-- errors of `check` -/
def checkError : Error → Prop
  | .InsufficientBytes n => 1 ≤ n ∧ n ≤ 268435455
  | .MalformedRemainingLength => True
  | .PayloadSizeLimitExceeded n => 1 ≤ n ∧ n ≤ 268435455
  | _ => False

/-- errors of `check` with a given limit -/
def checkErrorAt (max : Nat) : Error → Prop
  | .InsufficientBytes n => 1 ≤ n ∧ (n ≤ 2 ∨ (n ≤ max ∧ n ≤ 268435455))
  | .MalformedRemainingLength => True
  | .PayloadSizeLimitExceeded n => max < n ∧ n ≤ 268435455
  | _ => False

/-- errors of `v4::read` -/
def V4.readError : Error → Prop
  | .InsufficientBytes n => 1 ≤ n ∧ n ≤ 268435455
  | .MalformedRemainingLength => True
  | .PayloadSizeLimitExceeded n => 1 ≤ n ∧ n ≤ 268435455
  | .InvalidPacketType n => n = 0 ∨ n = 15
  | .PayloadRequired => True
  | .MalformedPacket => True
  | .BoundaryCrossed n => 1 ≤ n ∧ n ≤ 65535
  | .TopicNotUtf8 => True
  | .InvalidProtocol => True
  | .InvalidProtocolLevel n => n ≠ 4 ∧ n ≠ 5
  | .IncorrectPacketFormat => True
  | .InvalidQoS n => n = 3
  | .InvalidConnectReturnCode n => 6 ≤ n.toNat
  | .PacketIdZero => True
  | .EmptySubscription => True
  | .InvalidSubscribeReasonCode n => n ≠ 0 ∧ n ≠ 1 ∧ n ≠ 2 ∧ n ≠ 128
  | .PayloadSizeIncorrect => True
  | .NotConnect _ | .UnexpectedConnect | .InvalidReason _ | .InvalidPropertyType _ | .InvalidRetainForwardRule _
  | .SubscriptionIdZero | .PayloadTooLong => False

/-- errors of `v5::read`: code 0 is valid everywhere, so never reported; the codes that both SUBACK and UNSUBACK may
carry are not reported either, nor is the user property (38), allowed everywhere -/
def V5.readError : Error → Prop
  | .InsufficientBytes n => 1 ≤ n ∧ n ≤ 268435455
  | .MalformedRemainingLength => True
  | .PayloadSizeLimitExceeded n => 1 ≤ n ∧ n ≤ 268435455
  | .InvalidPacketType n => n = 0 ∨ n = 15
  | .PayloadRequired => True
  | .MalformedPacket => True
  | .BoundaryCrossed n => 1 ≤ n ∧ n ≤ 65535
  | .TopicNotUtf8 => True
  | .InvalidProtocol => True
  | .InvalidProtocolLevel n => n ≠ 4 ∧ n ≠ 5
  | .IncorrectPacketFormat => True
  | .InvalidQoS n => n = 3
  | .InvalidConnectReturnCode n => n ≠ 0
  | .PacketIdZero => True
  | .InvalidSubscribeReasonCode n => n ∉ ([0, 128, 131, 135, 143, 145] : List UInt8)
  | .InvalidPropertyType n => n ≠ 38
  | .InvalidRetainForwardRule n => n = 3
  | .EmptySubscription | .PayloadSizeIncorrect
  | .NotConnect _ | .UnexpectedConnect | .InvalidReason _ | .SubscriptionIdZero | .PayloadTooLong => False

/-- errors of writing, either version -/
def writeError : Error → Prop
  | .PayloadTooLong => True
  | .PacketIdZero => True
  | _ => False

end Spec
