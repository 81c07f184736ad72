import Verif.Spec.V5
/-! MQTT 5.0 packets with one more user property. -/
namespace Spec.V5
open Mqtt Mqtt.V5

/-- the packet with the user property `k`, `v` behind those it has; `xOf []` is the property set in which nothing is set -/
def tag (k v : String) : Packet → Packet
  | .Connect c =>
    let q := c.properties.getD (connectOf [])
    .Connect { c with properties := some { q with user_properties := q.user_properties ++ [(k, v)] } }
  | .ConnAck c =>
    let q := c.properties.getD (connackOf [])
    .ConnAck { c with properties := some { q with user_properties := q.user_properties ++ [(k, v)] } }
  | .Publish p =>
    let q := p.properties.getD (publishOf [])
    .Publish { p with properties := some { q with user_properties := q.user_properties ++ [(k, v)] } }
  | .PubAck a =>
    let q := a.properties.getD (reasonOf [])
    .PubAck { a with properties := some { q with user_properties := q.user_properties ++ [(k, v)] } }
  | .PubRec a =>
    let q := a.properties.getD (reasonOf [])
    .PubRec { a with properties := some { q with user_properties := q.user_properties ++ [(k, v)] } }
  | .PubRel a =>
    let q := a.properties.getD (reasonOf [])
    .PubRel { a with properties := some { q with user_properties := q.user_properties ++ [(k, v)] } }
  | .PubComp a =>
    let q := a.properties.getD (reasonOf [])
    .PubComp { a with properties := some { q with user_properties := q.user_properties ++ [(k, v)] } }
  | .Subscribe s =>
    let q := s.properties.getD (subscribeOf [])
    .Subscribe { s with properties := some { q with user_properties := q.user_properties ++ [(k, v)] } }
  | .SubAck s =>
    let q := s.properties.getD (reasonOf [])
    .SubAck { s with properties := some { q with user_properties := q.user_properties ++ [(k, v)] } }
  | .Unsubscribe u =>
    let q := u.properties.getD (unsubscribeOf [])
    .Unsubscribe { u with properties := some { q with user_properties := q.user_properties ++ [(k, v)] } }
  | .UnsubAck u =>
    let q := u.properties.getD (reasonOf [])
    .UnsubAck { u with properties := some { q with user_properties := q.user_properties ++ [(k, v)] } }
  | .Disconnect d =>
    let q := d.properties.getD (disconnectOf [])
    .Disconnect { d with properties := some { q with user_properties := q.user_properties ++ [(k, v)] } }
  | p => p

/-- packets that come back with one more user property: all but a CONNECT of level 4 and a PUBLISH that does not come back
without it -/
def TagReadsBack : Packet → Prop
  | .Connect c => c.protocol = .V5
  | .Publish p => ReadsBack (.Publish p)
  | _ => True

end Spec.V5
