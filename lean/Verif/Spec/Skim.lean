import Verif.Spec.Wire
import Verif.Model.Base
/-! A client that does not give up on a bad packet: it calls `read` again as long as something was consumed. -/
namespace Spec
open Mqtt (Bytes Res M Error)

/-- `Skim rd s os r`: calling `rd` on the buffer `s` until it fails without consuming anything gives the outcomes
`os` (packets and errors, in order) and leaves `r` buffered. -/
inductive Skim {P : Type} (rd : M P) : Bytes → List (Except Error P) → Bytes → Prop where
  | wait {s : Bytes} {e : Error} (h : rd s = (.err e, s)) : Skim rd s [] s
  | packet {s s' r : Bytes} {p : P} {os} (h : rd s = (.ok p, s')) (t : Skim rd s' os r) : Skim rd s (.ok p :: os) r
  | skip {s s' r : Bytes} {e : Error} {os} (h : rd s = (.err e, s')) (hne : s' ≠ s) (t : Skim rd s' os r) :
      Skim rd s (.error e :: os) r

/-- a frame: first byte, the bytes of the remaining length, body -/
structure RawFrame where
  byte1 : UInt8
  len : Bytes
  body : Bytes

/-- the length bytes say how long the body is, and it is within the limit -/
def RawFrame.Valid (max : Nat) (f : RawFrame) : Prop :=
  IsVbi f.len ∧ vbiValue f.len = f.body.length ∧ f.body.length ≤ max

def RawFrame.bytes (f : RawFrame) : Bytes := f.byte1 :: (f.len ++ f.body)

/-- the outcome of a frame: a packet it denotes, or a reason for which it is rejected -/
def Outcome {P : Type} (denotes : UInt8 → Bytes → P → Prop) (rejects : UInt8 → Bytes → Error → Prop)
    (f : RawFrame) : Except Error P → Prop
  | .ok p => denotes f.byte1 f.body p
  | .error e => rejects f.byte1 f.body e

/-- no frame within the limit is complete at the start of `r` -/
def NoFrame (max : Nat) (r : Bytes) : Prop := ∀ f : RawFrame, f.Valid max → ∀ t, r ≠ f.bytes ++ t

end Spec
