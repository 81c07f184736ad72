import Verif.Spec.Wire
/-! UTF-8 as the Unicode standard (table 3-7 "Well-Formed UTF-8 Byte Sequences", also the table of Rust's
`core::str::from_utf8`) defines it, byte by byte, and the code points the bytes stand for (table 3-6).  Nothing of the
model is used but the type of byte strings. -/
namespace Spec.Unicode
open Mqtt (Bytes)

/-- a byte in a range -/
def within (lo hi : Nat) (b : UInt8) : Prop := lo ≤ b.toNat ∧ b.toNat ≤ hi
instance (lo hi : Nat) (b : UInt8) : Decidable (within lo hi b) := inferInstanceAs (Decidable (_ ∧ _))

/-- a continuation byte 80..BF -/
def cont (b : UInt8) : Prop := within 0x80 0xBF b
instance (b : UInt8) : Decidable (cont b) := inferInstanceAs (Decidable (within _ _ b))

/-- value of two, three and four bytes: 110xxxxx, 1110xxxx, 11110xxx, then six bits each -/
def val2 (a b : UInt8) : Nat := (a.toNat - 0xC0) * 64 + (b.toNat - 0x80)
def val3 (a b c : UInt8) : Nat := (a.toNat - 0xE0) * 4096 + (b.toNat - 0x80) * 64 + (c.toNat - 0x80)
def val4 (a b c d : UInt8) : Nat :=
  (a.toNat - 0xF0) * 262144 + (b.toNat - 0x80) * 4096 + (c.toNat - 0x80) * 64 + (d.toNat - 0x80)

/-- the nine rows of table 3-7: the bytes of one character and its code point -/
inductive Row : Bytes → Nat → Prop
  | ascii {a} : within 0x00 0x7F a → Row [a] a.toNat
  | two {a b} : within 0xC2 0xDF a → cont b → Row [a, b] (val2 a b)
  | e0 {a b c} : within 0xE0 0xE0 a → within 0xA0 0xBF b → cont c → Row [a, b, c] (val3 a b c)
  | e1 {a b c} : within 0xE1 0xEC a → cont b → cont c → Row [a, b, c] (val3 a b c)
  | ed {a b c} : within 0xED 0xED a → within 0x80 0x9F b → cont c → Row [a, b, c] (val3 a b c)
  | ee {a b c} : within 0xEE 0xEF a → cont b → cont c → Row [a, b, c] (val3 a b c)
  | f0 {a b c d} : within 0xF0 0xF0 a → within 0x90 0xBF b → cont c → cont d → Row [a, b, c, d] (val4 a b c d)
  | f1 {a b c d} : within 0xF1 0xF3 a → cont b → cont c → cont d → Row [a, b, c, d] (val4 a b c d)
  | f4 {a b c d} : within 0xF4 0xF4 a → within 0x80 0x8F b → cont c → cont d → Row [a, b, c, d] (val4 a b c d)

/-- a byte string is well-formed UTF-8 for a sequence of code points -/
inductive Decodes : Bytes → List Nat → Prop
  | nil : Decodes [] []
  | cons {r n b l} : Row r n → Decodes b l → Decodes (r ++ b) (n :: l)

/-- well-formed UTF-8 -/
def WellFormed (b : Bytes) : Prop := ∃ l, Decodes b l

/-- the code points that can be encoded: all but the surrogates -/
def Scalar (n : Nat) : Prop := n < 0xD800 ∨ 0xDFFF < n ∧ n ≤ 0x10FFFF

/-- the code points of a string -/
def points (s : String) : List Nat := s.toList.map fun c => c.val.toNat

/-- somewhere in `bd` there is a two-byte length and that many bytes which are not UTF-8 -/
def HoldsBadString (bd : Bytes) : Prop :=
  ∃ pre b t, b.length ≤ 65535 ∧ bd = pre ++ (u16 b.length ++ b ++ t) ∧ ¬ WellFormed b

end Spec.Unicode
