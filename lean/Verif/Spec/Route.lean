import Verif.Model.Topic
import Verif.Model.V4
import Verif.Model.V5Packets
/-! A broker's routing decision and the copies it sends, made of the functions of this library. -/
namespace Spec.Route
open Mqtt Mqtt.Topic

/-- `filters.iter().any(|f| matches(topic, f))`: the filters are tried in order until one matches -/
def wanted (topic : String) : List String → Res Bool
  | [] => .ok false
  | f :: fs =>
    match «matches» topic f with
    | .ok true => .ok true
    | .ok false => wanted topic fs
    | r => r

/-- the QoS of a copy is not above that of the original, and it carries a packet identifier exactly if it needs one -/
def Granted (original granted : QoS) (pkid : UInt16) : Prop :=
  (granted = .AtMostOnce ↔ pkid = 0) ∧ granted.toU8 ≤ original.toU8

/-- the copy of a 3.1.1 PUBLISH for one subscriber: same topic and payload, own flags and packet identifier -/
def copy4 (p : V4.Publish) (q : QoS) (pkid : UInt16) (retain : Bool) : V4.Publish :=
  { dup := false, qos := q, retain := retain, topic := p.topic, pkid := pkid, payload := p.payload }

/-- the copy of a 5.0 PUBLISH for one subscriber: moreover the same properties -/
def copy5 (p : V5.Publish) (q : QoS) (pkid : UInt16) (retain : Bool) : V5.Publish :=
  { dup := false, qos := q, retain := retain, topic := p.topic, pkid := pkid, properties := p.properties
    payload := p.payload }

/-- the copy of a 3.1.1 PUBLISH for a 5.0 subscriber -/
def copy45 (p : V4.Publish) (q : QoS) (pkid : UInt16) (retain : Bool) : V5.Publish :=
  { dup := false, qos := q, retain := retain, topic := p.topic, pkid := pkid, properties := none, payload := p.payload }

/-- the copy of a 5.0 PUBLISH for a 3.1.1 subscriber: without its properties -/
def copy54 (p : V5.Publish) (q : QoS) (pkid : UInt16) (retain : Bool) : V4.Publish :=
  { dup := false, qos := q, retain := retain, topic := p.topic, pkid := pkid, payload := p.payload }

end Spec.Route
