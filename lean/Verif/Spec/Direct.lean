import Verif.Spec.Wire
import Verif.Model.Lib
/-! Calling a packet's own `read(fixed_header, bytes)` with an arbitrary header. -/
namespace Spec
open Mqtt

/-- The reader `m`, given `s`, panics exactly when `p` holds and otherwise returns a packet or an error
(it never loops for ever). -/
def PanicsExactly {α : Type} (m : M α) (s : Bytes) (p : Prop) : Prop :=
  ((m s).1 = .panic ↔ p) ∧ ((∃ a, (m s).1 = .ok a) ∨ (∃ e, (m s).1 = .err e) ∨ (m s).1 = .panic)

/-- Among the strings at the start of `s`, one is longer than what is left of the announced `n` bytes
(while no string before it used the `n` bytes up exactly, and no string before it is malformed). -/
inductive Overruns : Nat → Bytes → Prop where
  | here {n v t} : 0 < n → (utf8 v).length ≤ 65535 → n < 2 + (utf8 v).length → Overruns n (str v ++ t)
  | later {n v t} : (utf8 v).length ≤ 65535 → 2 + (utf8 v).length ≤ n →
      Overruns (n - (2 + (utf8 v).length)) t → Overruns n (str v ++ t)

/-- Calling the reader with any header of `fixed_header_len` bytes `hd` before the body `bd`, where `guard`
holds of the header and the body: it returns `a` exactly when `good` says so, and fails with `e` exactly when
`bad` says so.  `good` and `bad` see the header's first byte and the body. -/
def ReadsExactly {α : Type} (m : FixedHeader → M α) (guard : FixedHeader → Bytes → Prop)
    (good : UInt8 → Bytes → α → Prop) (bad : UInt8 → Bytes → Error → Prop) : Prop :=
  ∀ (h : FixedHeader) (hd bd : Bytes), hd.length = h.fixed_header_len → bd.length ≤ maxRemaining → guard h bd →
    (∀ a, (m h (hd ++ bd)).1 = .ok a ↔ good h.byte1 bd a) ∧ (∀ e, (m h (hd ++ bd)).1 = .err e ↔ bad h.byte1 bd e)

/-- no condition on the header: neither its type nor its length are looked at -/
def anyHeader : FixedHeader → Bytes → Prop := fun _ _ => True
/-- the header announces the length of the body -/
def rightLength : FixedHeader → Bytes → Prop := fun h bd => h.remaining_len = bd.length

end Spec
