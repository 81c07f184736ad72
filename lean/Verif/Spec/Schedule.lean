import Verif.Spec.Skim
/-! A client under an arbitrary schedule: bytes arrive in chunks whenever they like, and the client calls `read` whenever
it likes, with whatever size limit it likes. -/
namespace Spec
open Mqtt

/-- one step of a schedule -/
inductive Event where
  /-- these bytes are appended to the buffer -/
  | arrive (chunk : Bytes)
  /-- `read` is called once, with this size limit -/
  | call (max : Nat)

/-- all bytes that arrive, in order -/
def received : List Event → Bytes
  | [] => []
  | .arrive c :: es => c ++ received es
  | .call _ :: es => received es

/-- `Scheduled rd s es os r`: starting with the buffer `s`, the schedule `es` gives the outcomes `os` (those of the calls
that took something from the buffer) and leaves `r` in the buffer. -/
inductive Scheduled {P : Type} (rd : Nat → M P) : Bytes → List Event → List (Except Error P) → Bytes → Prop where
  | done {s} : Scheduled rd s [] [] s
  | arrive {s c es os r} (t : Scheduled rd (s ++ c) es os r) : Scheduled rd s (.arrive c :: es) os r
  | packet {s s' max p es os r} (h : rd max s = (.ok p, s')) (t : Scheduled rd s' es os r) :
      Scheduled rd s (.call max :: es) (.ok p :: os) r
  | bad {s s' max e es os r} (h : rd max s = (.err e, s')) (hne : s' ≠ s) (t : Scheduled rd s' es os r) :
      Scheduled rd s (.call max :: es) (.error e :: os) r
  | nothing {s max e es os r} (h : rd max s = (.err e, s)) (t : Scheduled rd s es os r) :
      Scheduled rd s (.call max :: es) os r

end Spec
