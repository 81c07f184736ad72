import Verif.Model.Debug
/-! What `v5::read` prints.  The only statement of /repo (outside tests) that prints is the `dbg!(pkid)` of
src/v5/unsubscribe.rs 45.  Here the reader is written once more, with standard error. -/
namespace Mqtt

/-- code with a buffer, which may also print lines to standard error; for src/v5/unsubscribe.rs 45 -/
def T (α : Type) := Bytes → (Res α × Bytes) × List String
namespace T
/-- sequencing, with `?` on errors; what was printed stays printed; as `M.bind`, e.g. src/v5/unsubscribe.rs 44 -/
def bind {α β : Type} (m : T α) (f : α → T β) : T β := fun s =>
  match m s with
  | ((.ok a, s'), o) => ((f a s').1, o ++ (f a s').2)
  | ((.err e, s'), o) => ((.err e, s'), o)
  | ((.panic, s'), o) => ((.panic, s'), o)
  | ((.diverge, s'), o) => ((.diverge, s'), o)
instance : Monad T where
  pure a := fun s => ((.ok a, s), [])
  bind := T.bind
/-- code that prints nothing; all of src/v5 but unsubscribe.rs 45 -/
def quiet {α : Type} (m : M α) : T α := fun s => (m s, [])
/-- a result together with what printing it took; leaves the buffer alone; src/v5/unsubscribe.rs 45 -/
def emit {α : Type} (r : Res α × List String) : T α := fun s => ((r.1, s), r.2)
end T

/-- std `eprintln!`; panics if standard error cannot be written (`works = false`); used by src/v5/unsubscribe.rs 45 -/
def eprintln (works : Bool) (line : String) : T Unit := fun s =>
  if works then ((.ok (), s), [line]) else ((.panic, s), [])

/-- std `dbg!(pkid)` for a `u16`; `loc` is the place in the source as the compiler prints it (file, line and, since Rust
1.79, column); src/v5/unsubscribe.rs 45 -/
def dbgPkid (works : Bool) (loc : String) (pkid : UInt16) : T Unit :=
  eprintln works ("[" ++ loc ++ "] pkid = " ++ fmtU16 pkid)

/-- `onFrame` for code that prints; src/v5/mod.rs 135-150 -/
def onFrameT {α β : Type} (m : T α) (frame : Bytes) (wrap : α → β) : Res β × List String :=
  (match (m frame).1.1 with
  | .ok a => .ok (wrap a)
  | .err e => .err e
  | .panic => .panic
  | .diverge => .diverge, (m frame).2)

namespace V5
/-- src/v5/unsubscribe.rs 40-60 `Unsubscribe::read`, with the output of line 45 -/
def Unsubscribe.readT (works : Bool) (loc : String) (h : FixedHeader) : T Unsubscribe := do
  T.quiet (advance h.fixed_header_len)
  let pkid ← T.quiet read_u16
  dbgPkid works loc pkid
  let properties ← T.quiet UnsubscribeProperties.extract
  let bytes ← T.quiet M.look
  let filters ← T.quiet (Unsubscribe.readLoop (bytes.length + 1) [])
  pure { pkid := pkid, filters := filters, properties := properties }

/-- src/v5/mod.rs 118-153 `read`: the part after `split_to`, with output -/
def readFrameT (works : Bool) (loc : String) (fixed_header : FixedHeader) (packet : Bytes) : Res Packet × List String :=
  match fixed_header.packet_type with
  | .ok packet_type =>
    if fixed_header.remaining_len = 0 then
      match packet_type with
      | .PingReq => (.ok .PingReq, [])
      | .PingResp => (.ok .PingResp, [])
      | _ => (.err .PayloadRequired, [])
    else
      match packet_type with
      | .Connect => onFrameT (T.quiet (Connect.readM fixed_header)) packet .Connect
      | .ConnAck => onFrameT (T.quiet (ConnAck.readM fixed_header)) packet .ConnAck
      | .Publish => onFrameT (T.quiet (Publish.readM fixed_header)) packet .Publish
      | .PubAck => onFrameT (T.quiet (PubAck.readM fixed_header)) packet .PubAck
      | .PubRec => onFrameT (T.quiet (PubRec.readM fixed_header)) packet .PubRec
      | .PubRel => onFrameT (T.quiet (PubRel.readM fixed_header)) packet .PubRel
      | .PubComp => onFrameT (T.quiet (PubComp.readM fixed_header)) packet .PubComp
      | .Subscribe => onFrameT (T.quiet (Subscribe.readM fixed_header)) packet .Subscribe
      | .SubAck => onFrameT (T.quiet (SubAck.readM fixed_header)) packet .SubAck
      | .Unsubscribe => onFrameT (Unsubscribe.readT works loc fixed_header) packet .Unsubscribe
      | .UnsubAck => onFrameT (T.quiet (UnsubAck.readM fixed_header)) packet .UnsubAck
      | .PingReq => (.ok .PingReq, [])
      | .PingResp => (.ok .PingResp, [])
      | .Disconnect => onFrameT (T.quiet (Disconnect.readM fixed_header)) packet .Disconnect
  | .err e => (.err e, [])
  | .panic => (.panic, [])
  | .diverge => (.diverge, [])

/-- src/v5/mod.rs 118-153 `read`, with output -/
def readT (works : Bool) (loc : String) (max_size : Nat) : T Packet := do
  let stream ← T.quiet M.look
  let fixed_header ← T.quiet (M.lift (check stream max_size))
  let packet ← T.quiet (splitTo fixed_header.frame_length)
  T.emit (readFrameT works loc fixed_header packet)
end V5
end Mqtt
