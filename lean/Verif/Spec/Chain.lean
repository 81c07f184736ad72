import Verif.Model.Base
/-! A chain of relays: each writes the packet it holds into an empty buffer and sends it to the next, which reads it. -/
namespace Spec
open Mqtt

/-- one link: `p` is written, and what was written is read as `p'`, nothing being left over -/
def Hop {P : Type} (write : P → M Nat) (read : M P) (p p' : P) : Prop :=
  ∃ n bytes, write p [] = (.ok n, bytes) ∧ read bytes = (.ok p', [])

/-- `p` sent along a chain of relays, the i-th of which reads with the size limit `maxs[i]`, arrives as `p'` -/
def Hops {P : Type} (write : P → M Nat) (read : Nat → M P) : (maxs : List Nat) → P → P → Prop
  | [], p, p' => p' = p
  | m :: maxs, p, p'' => ∃ p', Hop write (read m) p p' ∧ Hops write read maxs p' p''

end Spec
