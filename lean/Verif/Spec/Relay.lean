import Verif.Spec.Std
/-! When two control packets say the same thing: what a relay (read a packet, write it again) must preserve. -/
namespace Spec

namespace Std5
open Spec.V5 (Property SameById)

/-- wills with the same content -/
def SameWill : Option Will → Option Will → Prop
  | none, none => True
  | some w, some w' => w.qos = w'.qos ∧ w.retain = w'.retain ∧ SameById w.props w'.props ∧ w.topic = w'.topic
      ∧ w.payload = w'.payload
  | _, _ => False

/-- MQTT 5.0 control packets of the same type with the same content.  Properties may come in another order, but the
order of the properties with the same identifier is kept (user properties, subscription identifiers).  No difference is
made between an absent and an empty user name or password, between a reason code left out and success (3.4.2.1,
3.14.2.1), and between a property section left out and an empty one. -/
def Same : Ctl → Ctl → Prop
  | .connect cs ka ps id w u pw, .connect cs' ka' ps' id' w' u' pw' =>
      cs = cs' ∧ ka = ka' ∧ SameById ps ps' ∧ id = id' ∧ SameWill w w' ∧ u.getD "" = u'.getD "" ∧ pw.getD [] = pw'.getD []
  | .connack sp c ps, .connack sp' c' ps' => sp = sp' ∧ c = c' ∧ SameById ps ps'
  | .publish d q r t id ps pl, .publish d' q' r' t' id' ps' pl' =>
      d = d' ∧ q = q' ∧ r = r' ∧ t = t' ∧ id = id' ∧ SameById ps ps' ∧ pl = pl'
  | .puback id c ps, .puback id' c' ps' =>
      id = id' ∧ c.getD .Success = c'.getD .Success ∧ SameById (ps.getD []) (ps'.getD [])
  | .pubrec id c ps, .pubrec id' c' ps' =>
      id = id' ∧ c.getD .Success = c'.getD .Success ∧ SameById (ps.getD []) (ps'.getD [])
  | .pubrel id c ps, .pubrel id' c' ps' =>
      id = id' ∧ c.getD .Success = c'.getD .Success ∧ SameById (ps.getD []) (ps'.getD [])
  | .pubcomp id c ps, .pubcomp id' c' ps' =>
      id = id' ∧ c.getD .Success = c'.getD .Success ∧ SameById (ps.getD []) (ps'.getD [])
  | .subscribe id ps ss, .subscribe id' ps' ss' => id = id' ∧ SameById ps ps' ∧ ss = ss'
  | .suback id ps cs, .suback id' ps' cs' => id = id' ∧ SameById ps ps' ∧ cs = cs'
  | .unsubscribe id ps fs, .unsubscribe id' ps' fs' => id = id' ∧ SameById ps ps' ∧ fs = fs'
  | .unsuback id ps cs, .unsuback id' ps' cs' => id = id' ∧ SameById ps ps' ∧ cs = cs'
  | .pingreq, .pingreq => True
  | .pingresp, .pingresp => True
  | .disconnect c ps, .disconnect c' ps' =>
      c.getD .NormalDisconnection = c'.getD .NormalDisconnection ∧ SameById (ps.getD []) (ps'.getD [])
  | .auth c ps, .auth c' ps' => c = c' ∧ ps = ps'
  | _, _ => False

end Std5

namespace Std4

/-- MQTT 3.1.1: leave out a user name or password that is empty; nothing else changes -/
def dropEmpty : Ctl → Ctl
  | .connect cs ka id w u pw => .connect cs ka id w (u.filter (· ≠ "")) (pw.filter (· ≠ []))
  | k => k

end Std4
end Spec
