import Verif.Spec.Essence
/-! What the peer gets of a packet that was written: the packet, or the error with which its bytes are refused. -/
namespace Spec
open Mqtt

/-- A client that gives up at the first packet it cannot read: the packets it gets, the error, and what was sent after
the refused packet. -/
def upTo {Q P : Type} (received : Q → Except Error P) : List Q → List P × Option Error × List Q
  | [] => ([], none, [])
  | p :: ps =>
    match received p with
    | .ok q => (q :: (upTo received ps).1, (upTo received ps).2)
    | .error e => ([], some e, ps)

namespace V4
open Mqtt.V4

/-- What `read` gives for the bytes of a packet.  A SUBSCRIBE without filters and a SUBACK without codes can be written
but not read; of all others the receiver gets all that their bytes tell. -/
def received : Packet → Except Error Packet
  | .Subscribe s => if s.filters = [] then .error .EmptySubscription else .ok (.Subscribe s)
  | .SubAck s => if s.return_codes = [] then .error .MalformedPacket else .ok (.SubAck s)
  | p => .ok (essence p)
end V4

namespace V5
open Mqtt Mqtt.V5

/-- How far the decoder gets in a list of properties: it goes on as long as the bytes that remain outnumber the
subscription identifiers it has met (`v` at the start), each of which it counts one byte too long. -/
def cut (v : Nat) : List Property → List Property × List Property
  | [] => ([], [])
  | q :: ps =>
    if v < (encAll (q :: ps)).length then
      let r := cut (if q.val.kind = .vbi then v + 1 else v) ps
      (q :: r.1, r.2)
    else ([], q :: ps)

/-- What `read` gives for the bytes of a packet (of a CONNECT: with protocol level 5).  A CONNACK without a property set
and a DISCONNECT without properties can be written but not read, likewise a SUBACK or UNSUBACK without codes.  Of a
PUBLISH the properties that the decoder does not get to become the start of the payload.  Of all others the receiver
gets all that their bytes tell, where a property set without properties counts as none. -/
def received : Packet → Except Error Packet
  | .ConnAck c =>
    if c.properties = none then .error (.InsufficientBytes 1)
    else .ok (.ConnAck { c with properties := told connackProps c.properties })
  | .Publish p => .ok (.Publish { p with
      pkid := if p.qos = .AtMostOnce then 0 else p.pkid
      properties := (told publishProps p.properties).map fun q => publishOf (cut 0 (publishProps q)).1
      payload := (match p.properties with
        | some q => encAll (cut 0 (publishProps q)).2
        | none => []) ++ p.payload })
  | .PubAck a => .ok (.PubAck { a with properties := told reasonProps a.properties })
  | .PubRec a => .ok (.PubRec { a with properties := told reasonProps a.properties })
  | .PubRel a => .ok (.PubRel { a with properties := told reasonProps a.properties })
  | .PubComp a => .ok (.PubComp { a with properties := told reasonProps a.properties })
  | .SubAck s => if s.return_codes = [] then .error .MalformedPacket else .ok (essence (.SubAck s))
  | .UnsubAck u => if u.reasons = [] then .error .MalformedPacket else .ok (essence (.UnsubAck u))
  | .Disconnect d =>
    if told disconnectProps d.properties ≠ none then .ok (.Disconnect d)
    else if d.reason_code = .NormalDisconnection ∨ d.properties ≠ none then .error .PayloadRequired
    else .error (.InsufficientBytes 1)
  | p => .ok (essence p)

end V5
end Spec
