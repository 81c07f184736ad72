import Verif.Model.Base
import Verif.Spec.Wire
/-! What a receiver makes of the bytes a failed write leaves behind, when more bytes follow. -/
namespace Spec
open Mqtt

/-- `t` is the beginning of a frame that lacks `missing` bytes: the receiver waits until that many bytes follow, whatever
they are, and takes exactly these as the rest of the frame -/
def Swallows {P : Type} (read : Nat → M P) (t : Bytes) (missing : Nat) : Prop :=
  ∃ b1 bs part, t = b1 :: (bs ++ part) ∧ IsVbi bs ∧ vbiValue bs = part.length + missing ∧
    ∀ max next, vbiValue bs ≤ max →
      (next.length < missing → read max (t ++ next) = (.err (.InsufficientBytes (missing - next.length)), t ++ next)) ∧
      (missing ≤ next.length → ∃ r, read max (t ++ next) = (r, next.drop missing))

/-- `b1` stands alone: the byte that follows it (the type of the next packet, if that is at most 7) is taken for a
length, and that many bytes after it are lost -/
def TakesTypeForLength {P : Type} (read : Nat → M P) (b1 : UInt8) : Prop :=
  ∀ (max : Nat) (c : UInt8) (next : Bytes), c.toNat < 128 → c.toNat ≤ max → c.toNat ≤ next.length →
    ∃ r, read max ([b1] ++ c :: next) = (r, next.drop c.toNat)

end Spec
