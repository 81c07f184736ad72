import Verif.Spec.V4
import Verif.Spec.V5
/-! What writing a packet does, for *every* packet: the result and the bytes added to the buffer, also when the packet
is refused, and also when a field is longer than its two-byte length can say (`u16 n` and hence `str` keep the length
modulo 65536). -/
namespace Spec
open Mqtt

namespace V5
/-- a variable byte integer without encoding -/
def tooBig : Val → Bool
  | .vbi n => decide (maxRemaining < n)
  | _ => false

/-- what is left behind where the properties contain a variable byte integer without encoding: everything before it
and its identifier; `none` if there is no such property -/
def torn : List Property → Option Bytes
  | [] => none
  | q :: l => if tooBig q.val then some (u8 q.id) else (torn l).map (q.enc ++ ·)

/-- writing properties one after the other -/
def emit (ps : List Property) : Res Unit × Bytes :=
  match torn ps with
  | none => (.ok (), encAll ps)
  | some t => (.err .PayloadTooLong, t)

/-- … and their section: length, then the properties up to the bad one -/
def tornSec (ps : List Property) : Option Bytes := (torn ps).map (vbi (encAll ps).length ++ ·)
end V5

namespace V4
/-- a PUBLISH with QoS 1 or 2 without packet identifier -/
def pkidMissing : Mqtt.V4.Packet → Bool
  | .Publish q => decide (q.qos ≠ .AtMostOnce ∧ q.pkid = 0)
  | _ => false

/-- the remaining length a writer announces: that of the body; a missing packet identifier does not count -/
def announced (p : Mqtt.V4.Packet) : Nat := (body p).length - if pkidMissing p then 2 else 0

/-- Result of writing `p` and the bytes this adds to the buffer.  Too long a packet leaves its first byte, a missing
packet identifier everything before it.  CONNECT returns only its remaining length. -/
def written (p : Mqtt.V4.Packet) : Res Nat × Bytes :=
  if maxRemaining < announced p then (.err .PayloadTooLong, u8 (byte1 p))
  else match p with
    | .Connect c => (.ok (body (.Connect c)).length, encode (.Connect c))
    | .Publish q =>
      if pkidMissing (.Publish q) then (.err .PacketIdZero, u8 (byte1 p) ++ vbi (announced p) ++ str q.topic)
      else (.ok (encode (.Publish q)).length, encode (.Publish q))
    | p => (.ok (encode p).length, encode p)
end V4

namespace V5
/-- a PUBLISH with QoS 1 or 2 without packet identifier -/
def pkidMissing : Mqtt.V5.Packet → Bool
  | .Publish q => decide (q.qos ≠ .AtMostOnce ∧ q.pkid = 0)
  | _ => false

/-- the remaining length a writer announces: that of the body; a missing packet identifier does not count -/
def announced (p : Mqtt.V5.Packet) : Nat := (wireBody p).length - if pkidMissing p then 2 else 0

/-- Result of writing `p` and the bytes this adds to the buffer.  Too long a packet leaves its first byte, a missing
packet identifier everything before it, a subscription identifier above 268435455 everything before its value.  CONNECT
returns only its remaining length. -/
def written (p : Mqtt.V5.Packet) : Res Nat × Bytes :=
  if maxRemaining < announced p then (.err .PayloadTooLong, u8 (byte1 p))
  else match p with
    | .Connect c => (.ok (body (.Connect c)).length, encode (.Connect c))
    | .Publish q =>
      if pkidMissing (.Publish q) then
        (.err .PacketIdZero, u8 (byte1 p) ++ vbi (announced p) ++ str q.topic)
      else match q.properties.bind fun ps => tornSec (publishProps ps) with
        | some t => (.err .PayloadTooLong, u8 (byte1 p) ++ vbi (announced p) ++ str q.topic
            ++ (if q.qos = .AtMostOnce then [] else u16 q.pkid.toNat) ++ t)
        | none => (.ok (encode (.Publish q)).length, encode (.Publish q))
    | .Subscribe q =>
      match q.properties.bind fun ps => tornSec (subscribeProps ps) with
      | some t => (.err .PayloadTooLong, u8 (byte1 p) ++ vbi (announced p) ++ u16 q.pkid.toNat ++ t)
      | none => (.ok (encode (.Subscribe q)).length, encode (.Subscribe q))
    | p => (.ok (frame (byte1 p) (wireBody p)).length, frame (byte1 p) (wireBody p))
end V5
end Spec
