import Verif.Model.V4
import Verif.Model.V5Packets
/-! C120: a server that speaks both versions and looks at the protocol level of the first packet before it calls
one of the two `read` functions. -/
namespace Spec.Dual
open Mqtt

/-- what follows the remaining length: the length ends with the first byte below 128 -/
def skipLength : Bytes → Bytes
  | [] => []
  | b :: t => if b.toNat < 128 then t else skipLength t

/-- the protocol level of a CONNECT at the front of the buffer, if it has arrived: the seventh byte after the fixed
header, behind the six bytes of the protocol name -/
def version : Bytes → Option UInt8
  | [] => none
  | _ :: t => (skipLength t)[6]?

/-- what the server makes of the buffer -/
inductive Answer where
  | v4 (r : Res V4.Packet × Bytes)   -- what `v4::read` made of it
  | v5 (r : Res V5.Packet × Bytes)   -- what `v5::read` made of it
  | refuse (level : UInt8)           -- some other version
  | framing (r : Res FixedHeader)    -- no level, and none to come: a complete packet without one, or a bad length
  | wait                             -- not enough bytes to tell

/-- the server's first call -/
def first (max : Nat) (s : Bytes) : Answer :=
  match version s with
  | none =>
    match check s max with
    | .err (.InsufficientBytes _) => .wait
    | r => .framing r
  | some v => if v = 4 then .v4 (V4.read max s) else if v = 5 then .v5 (V5.read max s) else .refuse v

end Spec.Dual
