import Verif.Spec.Strict
import Verif.Spec.V5
/-! MQTT 5.0 frames without any of the liberties the reader tolerates. -/
namespace Spec.V5
open Mqtt Mqtt.V5 Spec
open Spec.V4 (bit LowBitsOk Shortest textLen)

/-- the order in which the writers emit the properties of a table (that of the fields of the Rust struct), and the
properties that may be repeated -/
inductive WriterOrder : (Nat → Option Kind) → List Nat → List Nat → Prop where
  | connect : WriterOrder connectKind [17, 33, 39, 34, 25, 23, 38, 21, 22] [38]
  | will : WriterOrder willKind [24, 1, 2, 3, 8, 9, 38] [38]
  | connack : WriterOrder connackKind [17, 33, 36, 37, 39, 18, 34, 31, 38, 40, 41, 42, 19, 26, 28, 21, 22] [38]
  | publish : WriterOrder publishKind [1, 2, 35, 8, 9, 38, 11, 3] [38, 11]
  | reason : WriterOrder reasonKind [31, 38] [38]
  | subscribe : WriterOrder subscribeKind [11, 38] [38]
  | unsubscribe : WriterOrder unsubscribeKind [38] [38]
  | disconnect : WriterOrder disconnectKind [17, 31, 38, 28] [38]

/-- the properties are sorted by identifier as in the first list; only those of `many` occur more than once -/
inductive InOrder (many : List Nat) : List Nat → List Property → Prop where
  | nil : InOrder many [] []
  | cons (i : Nat) (is : List Nat) (ps qs : List Property) (hi : ∀ p ∈ ps, p.id = i) (h1 : i ∈ many ∨ ps.length ≤ 1)
      (h : InOrder many is qs) : InOrder many (i :: is) (ps ++ qs)

/-- a property section without liberties: no properties are the single byte 0; otherwise the shortest encoding of the exact
number of bytes of the properties, then the properties in the order of the writer, none repeated that must not be, and the
subscription identifiers in their shortest encoding -/
def StrictSec (kind : Nat → Option Kind) (bytes : Bytes) : Option (List Property) → Prop
  | none => bytes = [0]
  | some ps => ps ≠ [] ∧ bytes = vbi (encAll ps).length ++ encAll ps
      ∧ (∀ p ∈ ps, kind p.id = some p.val.kind ∧ p.val.Fits)
      ∧ ∃ is many, WriterOrder kind is many ∧ InOrder many is ps

/-- subscription filters whose option bytes have the two reserved bits clear -/
inductive PlainOptions : Bytes → List SubscribeFilter → Prop where
  | nil : PlainOptions [] []
  | cons (f : SubscribeFilter) (opt : UInt8) (bd : Bytes) (fs : List SubscribeFilter)
      (ho : opt.toNat < 64) (h : PlainOptions bd fs) : PlainOptions (str f.path ++ [opt] ++ bd) (f :: fs)

/-- bytes of a strict property section -/
def secLen {π : Type} (props : π → List Property) (o : Option π) : Nat := (optSec props o).length

/-- bytes of a will -/
def willLen : Option LastWill → Nat
  | some w => 4 + secLen willProps w.properties + (utf8 w.topic).length + w.message.length
  | none => 0

/-- bytes of a user name and a password -/
def loginLen : Option Login → Nat
  | some l => textLen l.username + textLen l.password
  | none => 0

/-- PUBACK, PUBREC, PUBREL, PUBCOMP: without properties no property length, and without a reason code if it is 0 -/
def ackLen {R : Type} (code : R → Nat) (a : Ack R) : Nat :=
  match a.properties with
  | some p => 3 + (sec (reasonProps p)).length
  | none => if code a.reason = 0 then 2 else 3

/-- the body of a frame that the reader takes for the packet has no reserved bit set and no bytes that contribute nothing.
CONNECT of level 4 is read without and written with connect properties, so that all bytes after the keep alive must be 0.
CONNACK and DISCONNECT have properties: the reader demands a property length, and the writer omits it if there are none. -/
def NothingElse (bd : Bytes) : Packet → Prop
  | .Connect c => ∃ flags, bd[7]? = some flags ∧ ¬ bit flags 0 ∧
      (c.protocol = .V5 →
        bd.length = 12 + secLen connectProps c.properties + (utf8 c.client_id).length + willLen c.last_will + loginLen c.login) ∧
      (c.protocol = .V4 → ¬ bit flags 7 ∧ ¬ bit flags 6 ∧
        bd.drop 10 = List.replicate (if c.last_will.isNone then 3 else 8) 0)
  | .ConnAck c => (∃ flags, bd[0]? = some flags ∧ flags.toNat ≤ 1) ∧ c.properties ≠ none ∧
      bd.length = 2 + secLen connackProps c.properties
  | .PubAck a => bd.length = ackLen pubackCode a
  | .PubRec a => bd.length = ackLen pubrecCode a
  | .PubRel a => bd.length = ackLen pubrelCode a
  | .PubComp a => bd.length = ackLen pubcompCode a
  | .Subscribe s => PlainOptions (bd.drop (2 + secLen subscribeProps s.properties)) s.filters
  | .PingReq => bd = []
  | .PingResp => bd = []
  | .Disconnect d => d.properties ≠ none ∧ bd.length = 1 + secLen disconnectProps d.properties
  | _ => True

/-- a frame that says the packet and nothing else -/
def Strict (f : RawFrame) (p : Packet) : Prop :=
  LowBitsOk f.byte1 ∧ Shortest f.len ∧ DenotesBy StrictSec f.byte1 f.body p ∧ NothingElse f.body p

end Spec.V5
