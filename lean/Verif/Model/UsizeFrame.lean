import Verif.Model.Usize
import Verif.Model.Release
/-! Framing (src/lib.rs) and `read` once more, with `usize` of `W` bits: in debug builds an addition whose result does not
fit, a subtraction below zero and a shift by `W` or more panic; in release builds they wrap around, and the shift distance is
taken modulo `W`.  In both, bits shifted out are lost.  When these agree with the unbounded ones is C109. -/
namespace Mqtt

/-- the `?` operator (and panics propagate) -/
instance : Monad Res where
  pure a := .ok a
  bind r f := match r with
    | .ok a => f a
    | .err e => .err e
    | .panic => .panic
    | .diverge => .diverge

/-- `a + b` on `usize`; e.g. src/lib.rs 199 -/
def addU (bld : Build) (W a b : Nat) : Res Nat :=
  if a + b < 2 ^ W then .ok (a + b) else
  match bld with
  | .debug => .panic
  | .release => .ok ((a + b) % 2 ^ W)

/-- `a - b` on `usize`; src/lib.rs 165, 176 -/
def subU (bld : Build) (W a b : Nat) : Res Nat :=
  if b ≤ a then .ok (a - b) else
  match bld with
  | .debug => .panic
  | .release => .ok ((a + 2 ^ W - b) % 2 ^ W)

/-- `a << n` on `usize`; src/lib.rs 201 -/
def shlU (bld : Build) (W a n : Nat) : Res Nat :=
  if n < W then .ok ((a <<< n) % 2 ^ W) else
  match bld with
  | .debug => .panic
  | .release => .ok ((a <<< (n % W)) % 2 ^ W)

/-- src/lib.rs 108-114 `FixedHeader::new`, on `usize` of `W` bits -/
def FixedHeader.newU (bld : Build) (W : Nat) (byte1 : UInt8) (remaining_len_len remaining_len : Nat) : Res FixedHeader := do
  let fixed_header_len ← addU bld W remaining_len_len 1
  pure { byte1 := byte1, fixed_header_len := fixed_header_len, remaining_len := remaining_len }

/-- src/lib.rs 139-141 `FixedHeader::frame_length`, on `usize` of `W` bits -/
def FixedHeader.frame_lengthU (bld : Build) (W : Nat) (h : FixedHeader) : Res Nat :=
  addU bld W h.fixed_header_len h.remaining_len

/-- src/lib.rs 198-222, the loop of `length`, on `usize` of `W` bits (`shift` is an `i32` and at most 28) -/
def lengthLoopU (bld : Build) (W : Nat) : Bytes → (len len_len shift : Nat) → Res (Nat × Nat)
  | [], _, _, _ => .err (.InsufficientBytes 1)
  | b :: stream, len, len_len, shift => do
    let len_len ← addU bld W len_len 1
    let byte := b.toNat
    let shifted ← shlU bld W (byte &&& 0x7F) shift
    let len ← addU bld W len shifted
    if byte &&& 0x80 = 0 then pure (len_len, len)
    else
      let shift := shift + 7
      if shift > 21 then Res.err .MalformedRemainingLength
      else lengthLoopU bld W stream len len_len shift

/-- src/lib.rs 188-225 `length`, on `usize` of `W` bits -/
def lengthU (bld : Build) (W : Nat) (stream : Bytes) : Res (Nat × Nat) := lengthLoopU bld W stream 0 0 0

/-- src/lib.rs 172-183 `parse_fixed_header`, on `usize` of `W` bits -/
def parse_fixed_headerU (bld : Build) (W : Nat) (stream : Bytes) : Res FixedHeader :=
  let stream_len := stream.length
  if stream_len < 2 then do
    let missing ← subU bld W 2 stream_len
    Res.err (.InsufficientBytes missing)
  else match stream with
    | [] => .panic   -- `stream.next().unwrap()` on an empty iterator
    | byte1 :: stream => do
      let (len_len, len) ← lengthU bld W stream
      FixedHeader.newU bld W byte1 len_len len

/-- src/lib.rs 149-169 `check`, on `usize` of `W` bits -/
def checkU (bld : Build) (W : Nat) (stream : Bytes) (max_packet_size : Nat) : Res FixedHeader := do
  let stream_len := stream.length
  let fixed_header ← parse_fixed_headerU bld W stream
  if fixed_header.remaining_len > max_packet_size then
    Res.err (.PayloadSizeLimitExceeded fixed_header.remaining_len)
  else
    let frame_length ← fixed_header.frame_lengthU bld W
    if stream_len < frame_length then do
      let missing ← subU bld W frame_length stream_len
      Res.err (.InsufficientBytes missing)
    else pure fixed_header

/-- src/v4/mod.rs 51-87 `read`, on `usize` of `W` bits (`frame_length` did not overflow in `check`) -/
def V4.readU (bld : Build) (W : Nat) (max_size : Nat) : M V4.Packet := do
  let stream ← M.look
  let fixed_header ← M.lift (checkU bld W stream max_size)
  let frame_length ← M.lift (fixed_header.frame_lengthU bld W)
  let packet ← splitTo frame_length
  match bld with
  | .debug => M.lift (V4.readFrame fixed_header packet)
  | .release => M.lift (V4.readFrameR W fixed_header packet)

/-- src/v5/mod.rs 118-153 `read`, on `usize` of `W` bits -/
def V5.readU (bld : Build) (W : Nat) (max_size : Nat) : M V5.Packet := do
  let stream ← M.look
  let fixed_header ← M.lift (checkU bld W stream max_size)
  let frame_length ← M.lift (fixed_header.frame_lengthU bld W)
  let packet ← splitTo frame_length
  match bld with
  | .debug => M.lift (V5.readFrame fixed_header packet)
  | .release => M.lift (V5.readFrameR W fixed_header packet)

end Mqtt
