import Verif.Spec.V4
import Verif.Spec.V5
/-! One buffer shared by a producer that writes packets into it and a consumer that reads packets from it. -/
namespace Spec
open Mqtt

/-- what the program does next with the buffer -/
inductive BufOp (P : Type) where
  | send (p : P)
  | recv

/-- the packet to be written, if it is one that is accepted -/
def BufOp.accepted? {P : Type} (accepts : P → Prop) [DecidablePred accepts] : BufOp P → Option P
  | .send p => if accepts p then some p else none
  | .recv => none

/-- what it sees -/
inductive Seen (P : Type) where
  | sent            -- the write returned Ok
  | refused         -- the write returned an error
  | got (p : P)     -- the read returned a packet
  | nothing         -- the read asked for more bytes
  | broken          -- anything else: a read error, a panic, a loop
  deriving DecidableEq

/-- the packet received -/
def Seen.got? {P : Type} : Seen P → Option P
  | .got p => some p
  | _ => none

/-- The program: after a write that returned an error it cuts the buffer back to the length it had before
(`BytesMut::truncate`). -/
def useBuffer {P : Type} (write : P → M Nat) (read : M P) : List (BufOp P) → Bytes → List (Seen P) × Bytes
  | [], b => ([], b)
  | .send p :: ops, b =>
    match write p b with
    | (.ok _, b') => let r := useBuffer write read ops b'; (.sent :: r.1, r.2)
    | (.err _, b') => let r := useBuffer write read ops (b'.take b.length); (.refused :: r.1, r.2)
    | (_, b') => ([.broken], b')
  | .recv :: ops, b =>
    match read b with
    | (.ok p, b') => let r := useBuffer write read ops b'; (.got p :: r.1, r.2)
    | (.err (.InsufficientBytes _), b') => let r := useBuffer write read ops b'; (.nothing :: r.1, r.2)
    | (_, b') => ([.broken], b')

/-- The same operations on a plain first-in-first-out queue of packets that takes the packets in `accepts`. -/
def useQueue {P : Type} (accepts : P → Prop) [DecidablePred accepts] : List (BufOp P) → List P → List (Seen P) × List P
  | [], q => ([], q)
  | .send p :: ops, q =>
    if accepts p then let r := useQueue accepts ops (q ++ [p]); (.sent :: r.1, r.2)
    else let r := useQueue accepts ops q; (.refused :: r.1, r.2)
  | .recv :: ops, [] => let r := useQueue accepts ops []; (.nothing :: r.1, r.2)
  | .recv :: ops, p :: q => let r := useQueue accepts ops q; (.got p :: r.1, r.2)

/-- The packets in `special` (CONNECT) are only sent when the queue is empty. -/
def OnlyWhenEmpty {P : Type} (accepts special : P → Prop) [DecidablePred accepts] : List (BufOp P) → List P → Prop
  | [], _ => True
  | .send p :: ops, q =>
    (special p → q = []) ∧ OnlyWhenEmpty accepts special ops (if accepts p then q ++ [p] else q)
  | .recv :: ops, q => OnlyWhenEmpty accepts special ops q.tail

/-- what a v4 write accepts -/
def V4.Accepts (p : Mqtt.V4.Packet) : Prop :=
  (V4.body p).length ≤ 268435455 ∧ ∀ q, p = .Publish q → q.qos ≠ .AtMostOnce → q.pkid ≠ 0

/-- what a v5 write accepts: short enough, subscription identifiers at most 268435455, packet identifier present for
QoS 1 and 2 -/
def V5.Accepts (p : Mqtt.V5.Packet) : Prop :=
  (V5.wireBody p).length ≤ 268435455 ∧ V5.IdsOk p ∧ ∀ q, p = .Publish q → q.qos ≠ .AtMostOnce → q.pkid ≠ 0

end Spec
