/-
Base of the model: outcomes, errors, the buffer monad and the operations of the `bytes`
crate that mqttbytes uses.  Everything is core Lean.
-/

namespace Mqtt

/-- Contents of a `bytes::Bytes` / `bytes::BytesMut`. Simplification: only the bytes; no
sharing, capacity or allocation; src/lib.rs 3. -/
abbrev Bytes := List UInt8

/-- src/lib.rs 45-63 `enum PacketType` -/
inductive PacketType where
  | Connect | ConnAck | Publish | PubAck | PubRec | PubRel | PubComp | Subscribe | SubAck
  | Unsubscribe | UnsubAck | PingReq | PingResp | Disconnect
  deriving DecidableEq, Repr

/-- src/lib.rs 46-63: the discriminants (`Connect = 1`, then consecutive), i.e. `t as u8`. -/
def PacketType.toU8 : PacketType → UInt8
  | .Connect => 1 | .ConnAck => 2 | .Publish => 3 | .PubAck => 4 | .PubRec => 5
  | .PubRel => 6 | .PubComp => 7 | .Subscribe => 8 | .SubAck => 9 | .Unsubscribe => 10
  | .UnsubAck => 11 | .PingReq => 12 | .PingResp => 13 | .Disconnect => 14

/-- src/lib.rs 13-43 `enum Error` -/
inductive Error where
  | NotConnect (t : PacketType)
  | UnexpectedConnect
  | InvalidConnectReturnCode (n : UInt8)
  | InvalidReason (n : UInt8)
  | InvalidProtocol
  | InvalidProtocolLevel (n : UInt8)
  | IncorrectPacketFormat
  | InvalidPacketType (n : UInt8)
  | InvalidPropertyType (n : UInt8)
  | InvalidRetainForwardRule (n : UInt8)
  | InvalidQoS (n : UInt8)
  | InvalidSubscribeReasonCode (n : UInt8)
  | PacketIdZero
  | SubscriptionIdZero
  | PayloadSizeIncorrect
  | PayloadTooLong
  | PayloadSizeLimitExceeded (n : Nat)
  | PayloadRequired
  | TopicNotUtf8
  | BoundaryCrossed (n : Nat)
  | MalformedPacket
  | MalformedRemainingLength
  | EmptySubscription
  | InsufficientBytes (n : Nat)
  deriving DecidableEq, Repr

/-- Outcome of running a piece of Rust code: `Ok`, `Err`, a panic, or a loop that does not
terminate (fuel exhausted); the `Result`s and panics of src/lib.rs 151-337. -/
inductive Res (α : Type) where
  | ok (a : α)
  | err (e : Error)
  | panic
  | diverge
  deriving DecidableEq, Repr

/-- Code with one `&mut Bytes` / `&mut BytesMut` argument: maps the buffer before to the
outcome and the buffer after.  The buffer is kept on error, because in Rust the caller still
owns it; functions with a `&mut` buffer, e.g. src/lib.rs 228-337. -/
def M (α : Type) := Bytes → Res α × Bytes

namespace M

/-- sequencing, with `?` on errors; the `?` of e.g. src/lib.rs 229 -/
def bind {α β : Type} (m : M α) (f : α → M β) : M β := fun s =>
  match m s with
  | (.ok a, s') => f a s'
  | (.err e, s') => (.err e, s')
  | (.panic, s') => (.panic, s')
  | (.diverge, s') => (.diverge, s')

instance : Monad M where
  pure a := fun s => (.ok a, s)
  bind := M.bind

/-- `return Err(e)`; e.g. src/lib.rs 236 -/
def fail {α : Type} (e : Error) : M α := fun s => (.err e, s)
/-- a panic; e.g. the index of src/v4/connect.rs 134 -/
def panic {α : Type} : M α := fun s => (.panic, s)
/-- a loop that ran out of fuel; only in loops; C85 shows it is never reached -/
def diverge {α : Type} : M α := fun s => (.diverge, s)
/-- look at the buffer without changing it (`bytes.iter()`, `bytes.len()`); e.g. src/lib.rs 235, src/v5/publish.rs 193 -/
def look : M Bytes := fun s => (.ok s, s)
/-- use the result of a pure fallible function with `?`; e.g. src/v4/publish.rs 52 -/
def lift {α : Type} (r : Res α) : M α := fun s => (r, s)

end M

/-! ### `bytes` crate: writing (`BufMut`, `BytesMut`) -/

/-- `BufMut::put_u8`; e.g. src/lib.rs 279 -/
def putU8 (b : UInt8) : M Unit := fun s => (.ok (), s ++ [b])
/-- `BufMut::put_u16` (big endian); e.g. src/lib.rs 253 -/
def putU16 (n : UInt16) : M Unit := fun s => (.ok (), s ++ [(n >>> 8).toUInt8, n.toUInt8])
/-- `BufMut::put_u32` (big endian); e.g. src/v5/publish.rs 272 -/
def putU32 (n : UInt32) : M Unit := fun s =>
  (.ok (), s ++ [(n >>> 24).toUInt8, (n >>> 16).toUInt8, (n >>> 8).toUInt8, n.toUInt8])
/-- `BytesMut::extend_from_slice`, `BufMut::put_slice`; e.g. src/lib.rs 254 -/
def putSlice (l : Bytes) : M Unit := fun s => (.ok (), s ++ l)
/-- `buffer[i] = b` (panics out of range); src/v4/connect.rs 134, src/v5/connect.rs 164 -/
def setIdx (i : Nat) (b : UInt8) : M Unit := fun s =>
  if i < s.length then (.ok (), s.set i b) else (.panic, s)

/-! ### `bytes` crate: reading (`Buf`, `Bytes`) -/

/-- `Buf::advance` (panics when out of range); e.g. src/v4/publish.rs 57 -/
def advance (n : Nat) : M Unit := fun s =>
  if n ≤ s.length then (.ok (), s.drop n) else (.panic, s)
/-- `Bytes::split_to` (panics when out of range): returns the first `n` bytes, the buffer keeps
the rest; src/lib.rs 239, src/v4/mod.rs 55 -/
def splitTo (n : Nat) : M Bytes := fun s =>
  if n ≤ s.length then (.ok (s.take n), s.drop n) else (.panic, s)
/-- `Buf::get_u8` (panics when empty); src/lib.rs 328 -/
def getU8 : M UInt8 := fun s =>
  match s with
  | b :: t => (.ok b, t)
  | [] => (.panic, [])
/-- `Buf::get_u16`, big endian (panics when fewer than 2 bytes); src/lib.rs 320 -/
def getU16 : M UInt16 := fun s =>
  match s with
  | a :: b :: t => (.ok ((a.toUInt16 <<< 8) ||| b.toUInt16), t)
  | _ => (.panic, s)
/-- `Buf::get_u32`, big endian (panics when fewer than 4 bytes); src/lib.rs 336 -/
def getU32 : M UInt32 := fun s =>
  match s with
  | a :: b :: c :: d :: t =>
    (.ok ((a.toUInt32 <<< 24) ||| (b.toUInt32 <<< 16) ||| (c.toUInt32 <<< 8) ||| d.toUInt32), t)
  | _ => (.panic, s)

/-! ### `usize` arithmetic -/

/-- `a - b` on `usize`: underflow panics (debug builds).  Release builds wrap instead (`Model/Release`, C83): `v4::read` and
`v5::read` never get there (C07, C08), only v4 `Unsubscribe::read` called directly with a header that does not match
the bytes does (C64); src/v4/unsubscribe.rs 26 and 31. -/
def usub (a b : Nat) : M Nat := if b ≤ a then pure (a - b) else M.panic
/-- `a + b` on `usize`, with the smallest supported width (32 bits): overflow panics; e.g. src/v5/publish.rs 203 -/
def uadd (a b : Nat) : M Nat := if a + b < 2 ^ 32 then pure (a + b) else M.panic

/-! ### `String` -/

/-- `str::as_bytes`; src/lib.rs 259 -/
def strBytes (s : String) : Bytes := s.toByteArray.data.toList
/-- `String::from_utf8`; src/lib.rs 245 -/
def fromUtf8 (b : Bytes) : Option String := String.fromUTF8? ⟨⟨b⟩⟩
/-- `str::len` (number of bytes); e.g. src/v4/publish.rs 42 -/
def strLen (s : String) : Nat := (strBytes s).length

/-- `for x in l { f(x)? }`; e.g. src/v5/unsubscribe.rs 80-82 -/
def forEach {α : Type} (l : List α) (f : α → M Unit) : M Unit :=
  match l with
  | [] => pure ()
  | x :: xs => do f x; forEach xs f

end Mqtt
