import Verif.Model.Base
/-!
The MQTT wire vocabulary, written from the MQTT 3.1.1 / 5.0 standards (section 1.5 "data
representation" and 2.2.3 "remaining length"), not from the code: plain natural-number
arithmetic, no buffers, no monad.
-/
namespace Spec
open Mqtt (Bytes)

/-- one byte -/
def u8 (n : Nat) : Bytes := [UInt8.ofNat n]

/-- two byte integer, big endian -/
def u16 (n : Nat) : Bytes := [UInt8.ofNat (n / 256), UInt8.ofNat (n % 256)]

/-- four byte integer, big endian -/
def u32 (n : Nat) : Bytes :=
  [UInt8.ofNat (n / 16777216), UInt8.ofNat (n / 65536 % 256), UInt8.ofNat (n / 256 % 256),
   UInt8.ofNat (n % 256)]

/-- the UTF-8 bytes of a string -/
def utf8 (s : String) : Bytes := s.toUTF8.data.toList

/-- binary data: two byte length, then the bytes -/
def bin (b : Bytes) : Bytes := u16 b.length ++ b

/-- UTF-8 encoded string: two byte length, then the UTF-8 bytes -/
def str (s : String) : Bytes := bin (utf8 s)

/-- the largest remaining length -/
def maxRemaining : Nat := 268435455

/-- minimal variable byte integer (table 2.4 of MQTT 3.1.1): 7 bits per byte, least significant
first, bit 7 set on all but the last byte -/
def vbi (n : Nat) : Bytes :=
  if n < 128 then u8 n
  else if n < 128 * 128 then u8 (128 + n % 128) ++ u8 (n / 128)
  else if n < 128 * 128 * 128 then
    u8 (128 + n % 128) ++ u8 (128 + n / 128 % 128) ++ u8 (n / (128 * 128))
  else u8 (128 + n % 128) ++ u8 (128 + n / 128 % 128) ++ u8 (128 + n / (128 * 128) % 128)
    ++ u8 (n / (128 * 128 * 128))

/-- number denoted by the bytes of a variable byte integer: 7 bits per byte, least significant
first -/
def vbiValue : Bytes → Nat
  | [] => 0
  | b :: bs => b.toNat % 128 + 128 * vbiValue bs

/-- `bs` is a complete variable byte integer (not necessarily minimal): one to four bytes, the
continuation bit set on every byte but the last -/
def IsVbi (bs : Bytes) : Prop :=
  bs.length ≤ 4 ∧ ∃ ini last, bs = ini ++ [last] ∧ last.toNat < 128 ∧ ∀ b ∈ ini, 128 ≤ b.toNat

/-- a control packet: first byte, remaining length, body -/
def frame (byte1 : Nat) (body : Bytes) : Bytes := u8 byte1 ++ vbi body.length ++ body

/-- `n` when the flag is set, else 0 -/
def flag (b : Bool) (n : Nat) : Nat := if b then n else 0

/-- a string or binary field that has a wire encoding -/
def fits (n : Nat) : Prop := n ≤ 65535
instance (n : Nat) : Decidable (fits n) := inferInstanceAs (Decidable (n ≤ 65535))

end Spec
