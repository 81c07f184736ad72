import Verif.Spec.Client
import Verif.Model.Trace
import Verif.Spec.V5
/-! Standard error: what a client that pumps a reader sees and what is printed meanwhile. -/
namespace Spec
open Mqtt

section
variable {P : Type} (rd : T P) (retry : Error → Bytes → Bytes → Prop)
/-- `Pump` (`Spec/Client`) with the lines printed -/
inductive PumpT : Bytes → List P → Option Error → Bytes → List String → Prop where
  | wait {s s' : Bytes} {e : Error} {o : List String} (h : rd s = ((.err e, s'), o)) (hr : retry e s s') :
      PumpT s [] none s' o
  | fail {s s' : Bytes} {e : Error} {o : List String} (h : rd s = ((.err e, s'), o)) (hr : ¬ retry e s s') :
      PumpT s [] (some e) s' o
  | step {s s' : Bytes} {p : P} {ps : List P} {e : Option Error} {r : Bytes} {o o' : List String}
      (h : rd s = ((.ok p, s'), o)) (ht : PumpT s' ps e r o') : PumpT s (p :: ps) e r (o ++ o')

/-- `Feed` (`Spec/Client`) with the lines printed -/
inductive FeedT : Bytes → List Bytes → List P → Option Error → Bytes → List String → Prop where
  | nil {buf : Bytes} : FeedT buf [] [] none buf []
  | more {buf c r : Bytes} {cs : List Bytes} {ps qs : List P} {e : Option Error} {r' : Bytes} {o o' : List String}
      (h : PumpT rd retry (buf ++ c) ps none r o) (ht : FeedT r cs qs e r' o') :
      FeedT buf (c :: cs) (ps ++ qs) e r' (o ++ o')
  | dead {buf c r : Bytes} {cs : List Bytes} {ps : List P} {e : Error} {o : List String}
      (h : PumpT rd retry (buf ++ c) ps (some e) r o) : FeedT buf (c :: cs) ps (some e) (r ++ cs.flatten) o
end

/-- the stream starts with a complete frame of type UNSUBSCRIBE (10) within the limit, whose body has at least the two bytes
of the packet identifier `k`; `rest` follows the frame -/
def UnsubscribeFrame (max : Nat) (s : Bytes) (k : UInt16) (rest : Bytes) : Prop :=
  ∃ b1 bs tail, s = b1 :: (bs ++ (u16 k.toNat ++ tail ++ rest)) ∧ b1.toNat / 16 = 10 ∧ IsVbi bs
    ∧ vbiValue bs = 2 + tail.length ∧ 2 + tail.length ≤ max

/-- the line printed for packet identifier `k` by a `dbg!` at `loc` -/
def dbgLine (loc : String) (k : UInt16) : String := "[" ++ loc ++ "] pkid = " ++ toString k.toNat

/-- the lines for a packet -/
def linesOf (loc : String) : V5.Packet → List String
  | .Unsubscribe u => [dbgLine loc u.pkid]
  | _ => []
end Spec
