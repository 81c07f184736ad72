import Verif.Spec.Wire
import Verif.Model.Lib
/-! What it means for a `len()` method to predict a `write()`. -/
namespace Spec
open Mqtt

/-- `len` predicts the writer `w`: whatever is in the buffer already,
* a length above 268435455 makes the writer fail with `PayloadTooLong`;
* when the writer succeeds, exactly `len` bytes follow the fixed header (one byte, then `len` as a
  variable byte integer), and that fixed header is the one for `len`. -/
def Predicts (len : Nat) (w : M Nat) : Prop :=
  ∀ s : Bytes,
    (268435455 < len → (w s).1 = .err .PayloadTooLong) ∧
    ∀ n s', w s = (.ok n, s') → len ≤ 268435455 ∧ s'.length = s.length + 1 + (vbi len).length + len

end Spec
