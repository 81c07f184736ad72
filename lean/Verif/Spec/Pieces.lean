import Verif.Spec.V4
import Verif.Spec.V5
/-! The texts and byte strings in a packet, and where they may come from. -/
namespace Spec
open Mqtt

/-- the byte strings occur in `s` one after the other, in this order, without overlap -/
inductive Inside : List Bytes → Bytes → Prop where
  | nil {s : Bytes} : Inside [] s
  | cons {gap x s : Bytes} {xs : List Bytes} (h : Inside xs s) : Inside (x :: xs) (gap ++ x ++ s)

/-- … in some order, without overlap -/
def Among (xs : List Bytes) (s : Bytes) : Prop := ∃ ys, ys.Perm xs ∧ Inside ys s

/-- the pieces of something optional -/
def piecesOf {α : Type} (f : α → List Bytes) : Option α → List Bytes
  | none => []
  | some a => f a

namespace V4
/-- all texts (their UTF-8) and byte strings of a packet -/
def pieces : Mqtt.V4.Packet → List Bytes
  | .Connect c => [utf8 c.client_id] ++ piecesOf (fun w => [utf8 w.topic, w.message]) c.last_will
      ++ piecesOf (fun l => [utf8 l.username, utf8 l.password]) c.login
  | .Publish p => [utf8 p.topic, p.payload]
  | .Subscribe s => s.filters.map fun f => utf8 f.path
  | .Unsubscribe u => u.topics.map utf8
  | _ => []
end V4

namespace V5
open Mqtt.V5

/-- texts and byte strings of a property value -/
def Val.pieces : Val → List Bytes
  | .str s => [utf8 s]
  | .bin b => [b]
  | .pair k v => [utf8 k, utf8 v]
  | _ => []

/-- … of a list of properties -/
def propPieces (ps : List Property) : List Bytes := ps.flatMap fun q => q.val.pieces

/-- all texts (their UTF-8) and byte strings of a packet, those in its properties included -/
def pieces : Mqtt.V5.Packet → List Bytes
  | .Connect c => piecesOf (fun p => propPieces (connectProps p)) c.properties ++ [utf8 c.client_id]
      ++ piecesOf (fun w => piecesOf (fun p => propPieces (willProps p)) w.properties ++ [utf8 w.topic, w.message]) c.last_will
      ++ piecesOf (fun l => [utf8 l.username, utf8 l.password]) c.login
  | .ConnAck c => piecesOf (fun p => propPieces (connackProps p)) c.properties
  | .Publish p => [utf8 p.topic] ++ piecesOf (fun p => propPieces (publishProps p)) p.properties ++ [p.payload]
  | .PubAck a => piecesOf (fun p => propPieces (reasonProps p)) a.properties
  | .PubRec a => piecesOf (fun p => propPieces (reasonProps p)) a.properties
  | .PubRel a => piecesOf (fun p => propPieces (reasonProps p)) a.properties
  | .PubComp a => piecesOf (fun p => propPieces (reasonProps p)) a.properties
  | .Subscribe s => piecesOf (fun p => propPieces (subscribeProps p)) s.properties ++ s.filters.map fun f => utf8 f.path
  | .SubAck s => piecesOf (fun p => propPieces (reasonProps p)) s.properties
  | .Unsubscribe u => piecesOf (fun p => propPieces (unsubscribeProps p)) u.properties ++ u.filters.map utf8
  | .UnsubAck u => piecesOf (fun p => propPieces (reasonProps p)) u.properties
  | .PingReq => []
  | .PingResp => []
  | .Disconnect d => piecesOf (fun p => propPieces (disconnectProps p)) d.properties
end V5
end Spec
