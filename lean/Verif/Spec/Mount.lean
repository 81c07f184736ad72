import Verif.Spec.V4
import Verif.Spec.V5
import Verif.Spec.Terms
/-! Mount points: all names of a client are moved below a common topic. -/
namespace Spec
open Mqtt

/-- the name `t` below the mount point `m` -/
def below (m t : String) : String := m ++ "/" ++ t

/-- the topic names and filters of a packet -/
def V4.names : Mqtt.V4.Packet → List String
  | .Connect c => c.last_will.toList.map (·.topic)
  | .Publish p => [p.topic]
  | .Subscribe s => s.filters.map (·.path)
  | .Unsubscribe u => u.topics
  | _ => []

/-- the packet with all of them below the mount point `m` -/
def V4.mount (m : String) : Mqtt.V4.Packet → Mqtt.V4.Packet
  | .Connect c => .Connect { c with last_will := c.last_will.map fun w => { w with topic := below m w.topic } }
  | .Publish p => .Publish { p with topic := below m p.topic }
  | .Subscribe s => .Subscribe { s with filters := s.filters.map fun f => { f with path := below m f.path } }
  | .Unsubscribe u => .Unsubscribe { u with topics := u.topics.map (below m) }
  | p => p

/-- the topic names and filters of a packet, but for response topics -/
def V5.names : Mqtt.V5.Packet → List String
  | .Connect c => c.last_will.toList.map (·.topic)
  | .Publish p => [p.topic]
  | .Subscribe s => s.filters.map (·.path)
  | .Unsubscribe u => u.filters
  | _ => []

/-- the packet with all of them below the mount point `m` -/
def V5.mount (m : String) : Mqtt.V5.Packet → Mqtt.V5.Packet
  | .Connect c => .Connect { c with last_will := c.last_will.map fun w => { w with topic := below m w.topic } }
  | .Publish p => .Publish { p with topic := below m p.topic }
  | .Subscribe s => .Subscribe { s with filters := s.filters.map fun f => { f with path := below m f.path } }
  | .Unsubscribe u => .Unsubscribe { u with filters := u.filters.map (below m) }
  | p => p

end Spec
