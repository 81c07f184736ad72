import Verif.Model.Base
/-! Model of src/lib.rs -/
namespace Mqtt

/-- src/lib.rs 65-70 `enum Protocol` -/
inductive Protocol where
  | V4 | V5
  deriving DecidableEq, Repr

/-- src/lib.rs 72-79 `enum QoS` -/
inductive QoS where
  | AtMostOnce | AtLeastOnce | ExactlyOnce
  deriving DecidableEq, Repr

/-- src/lib.rs 73-79: `qos as u8` (explicit discriminants 0, 1, 2) -/
def QoS.toU8 : QoS → UInt8
  | .AtMostOnce => 0 | .AtLeastOnce => 1 | .ExactlyOnce => 2

/-- `b as u8` for a `bool`; e.g. src/v4/publish.rs 85 -/
def boolU8 (b : Bool) : UInt8 := if b then 1 else 0

/-- src/lib.rs 93-105 `struct FixedHeader` -/
structure FixedHeader where
  byte1 : UInt8
  fixed_header_len : Nat
  remaining_len : Nat
  deriving DecidableEq, Repr

/-- src/lib.rs 108-114 `FixedHeader::new` -/
def FixedHeader.new (byte1 : UInt8) (remaining_len_len remaining_len : Nat) : FixedHeader :=
  { byte1 := byte1, fixed_header_len := remaining_len_len + 1, remaining_len := remaining_len }

/-- src/lib.rs 116-135 `FixedHeader::packet_type` -/
def FixedHeader.packet_type (h : FixedHeader) : Res PacketType :=
  let num := h.byte1 >>> 4
  match num with
  | 1 => .ok .Connect
  | 2 => .ok .ConnAck
  | 3 => .ok .Publish
  | 4 => .ok .PubAck
  | 5 => .ok .PubRec
  | 6 => .ok .PubRel
  | 7 => .ok .PubComp
  | 8 => .ok .Subscribe
  | 9 => .ok .SubAck
  | 10 => .ok .Unsubscribe
  | 11 => .ok .UnsubAck
  | 12 => .ok .PingReq
  | 13 => .ok .PingResp
  | 14 => .ok .Disconnect
  | _ => .err (.InvalidPacketType num)

/-- src/lib.rs 139-141 `FixedHeader::frame_length` -/
def FixedHeader.frame_length (h : FixedHeader) : Nat := h.fixed_header_len + h.remaining_len

/-- src/lib.rs 198-216, the `for byte in stream` loop of `length`, with its local variables
`len`, `len_len`, `shift` as arguments.  Running out of bytes with `done = false` is the error
of lines 220-222. -/
def lengthLoop : Bytes → (len len_len shift : Nat) → Res (Nat × Nat)
  | [], _, _, _ => .err (.InsufficientBytes 1)
  | b :: stream, len, len_len, shift =>
    let len_len := len_len + 1
    let byte := b.toNat
    let len := len + ((byte &&& 0x7F) <<< shift)
    if byte &&& 0x80 = 0 then .ok (len_len, len)
    else
      let shift := shift + 7
      if shift > 21 then .err .MalformedRemainingLength
      else lengthLoop stream len len_len shift

/-- src/lib.rs 188-225 `length`: (number of length bytes, value) -/
def length (stream : Bytes) : Res (Nat × Nat) := lengthLoop stream 0 0 0

/-- src/lib.rs 172-183 `parse_fixed_header` -/
def parse_fixed_header (stream : Bytes) : Res FixedHeader :=
  let stream_len := stream.length
  if stream_len < 2 then .err (.InsufficientBytes (2 - stream_len))
  else match stream with
    | [] => .panic   -- `stream.next().unwrap()` on an empty iterator
    | byte1 :: stream =>
      match length stream with
      | .ok (len_len, len) => .ok (FixedHeader.new byte1 len_len len)
      | .err e => .err e
      | .panic => .panic
      | .diverge => .diverge

/-- src/lib.rs 149-169 `check` -/
def check (stream : Bytes) (max_packet_size : Nat) : Res FixedHeader :=
  let stream_len := stream.length
  match parse_fixed_header stream with
  | .ok fixed_header =>
    if fixed_header.remaining_len > max_packet_size then
      .err (.PayloadSizeLimitExceeded fixed_header.remaining_len)
    else
      let frame_length := fixed_header.frame_length
      if stream_len < frame_length then .err (.InsufficientBytes (frame_length - stream_len))
      else .ok fixed_header
  | .err e => .err e
  | .panic => .panic
  | .diverge => .diverge

/-- src/lib.rs 315-321 `read_u16` -/
def read_u16 : M UInt16 := do
  let stream ← M.look
  if stream.length < 2 then M.fail .MalformedPacket else getU16

/-- src/lib.rs 323-329 `read_u8` -/
def read_u8 : M UInt8 := do
  let stream ← M.look
  if stream.isEmpty then M.fail .MalformedPacket else getU8

/-- src/lib.rs 331-337 `read_u32` -/
def read_u32 : M UInt32 := do
  let stream ← M.look
  if stream.length < 4 then M.fail .MalformedPacket else getU32

/-- src/lib.rs 228-240 `read_mqtt_bytes` -/
def read_mqtt_bytes : M Bytes := do
  let len ← read_u16
  let stream ← M.look
  if len.toNat > stream.length then M.fail (.BoundaryCrossed len.toNat) else splitTo len.toNat

/-- src/lib.rs 243-249 `read_mqtt_string` -/
def read_mqtt_string : M String := do
  let s ← read_mqtt_bytes
  match fromUtf8 s with
  | some v => pure v
  | none => M.fail .TopicNotUtf8

/-- src/lib.rs 252-255 `write_mqtt_bytes`; `bytes.len() as u16` truncates -/
def write_mqtt_bytes (bytes : Bytes) : M Unit := do
  putU16 (UInt16.ofNat bytes.length)
  putSlice bytes

/-- src/lib.rs 258-260 `write_mqtt_string` -/
def write_mqtt_string (string : String) : M Unit := write_mqtt_bytes (strBytes string)

/-- src/lib.rs 272-282, the `while !done` loop of `write_remaining_length`; returns `count` -/
def write_remaining_length_loop : (fuel x count : Nat) → M Nat
  | 0, _, _ => M.diverge
  | fuel + 1, x, count => do
    let byte := UInt8.ofNat (x % 128)
    let x := x / 128
    let byte := if x > 0 then byte ||| 128 else byte
    putU8 byte
    let count := count + 1
    if x = 0 then pure count else write_remaining_length_loop fuel x count

/-- src/lib.rs 263-285 `write_remaining_length` -/
def write_remaining_length (len : Nat) : M Nat :=
  if len > 268435455 then M.fail .PayloadTooLong
  else write_remaining_length_loop (len + 1) len 0

/-- src/lib.rs 288-298 `len_len` -/
def len_len (len : Nat) : Nat :=
  if len ≥ 2097152 then 4
  else if len ≥ 16384 then 3
  else if len ≥ 128 then 2
  else 1

/-- src/lib.rs 301-308 `qos` -/
def qos (num : UInt8) : Res QoS :=
  match num with
  | 0 => .ok .AtMostOnce
  | 1 => .ok .AtLeastOnce
  | 2 => .ok .ExactlyOnce
  | q => .err (.InvalidQoS q)

/-- `if let Some(x) = &self.x { connect_flags |= x.write(buffer)?; }` (or `... |= x.write(buffer)`); src/v4/connect.rs 125-131, src/v5/connect.rs 155-161 -/
def orFlags {α : Type} (o : Option α) (w : α → M UInt8) (connect_flags : UInt8) : M UInt8 :=
  match o with
  | some x => do
    let f ← w x
    pure (connect_flags ||| f)
  | none => pure connect_flags

/-- `match self.protocol { V4 => 0x04, V5 => 0x05 }`, the protocol level byte; src/v4/connect.rs 109-112, src/v5/connect.rs 131-134 -/
def Protocol.level : Protocol → UInt8
  | .V4 => 0x04
  | .V5 => 0x05

/-- `T::read(fixed_header, packet)?` with an owned `Bytes`: run the reader on the frame, keep
only the outcome, wrap the value; src/v4/mod.rs 69-84, src/v5/mod.rs 135-150 -/
def onFrame {α β : Type} (m : M α) (frame : Bytes) (wrap : α → β) : Res β :=
  match (m frame).1 with
  | .ok a => .ok (wrap a)
  | .err e => .err e
  | .panic => .panic
  | .diverge => .diverge

end Mqtt
