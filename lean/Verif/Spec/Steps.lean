import Verif.Model.Lib
/-! Bounding the number of turns of a loop. -/
namespace Spec
open Mqtt

/-- `loop k` is the loop of the code cut off after its condition was tested `k` times (then the model answers
`diverge`).  On the bytes `s` the loop ends by itself after at most `n` tests: cutting it off there, or anywhere
later, makes no difference to the result or to the bytes left, and the cut is never noticed. -/
def EndsWithin {α : Type} (loop : Nat → M α) (s : Bytes) (n : Nat) : Prop :=
  (loop n s).1 ≠ .diverge ∧ ∀ k, n ≤ k → loop k s = loop n s

end Spec
