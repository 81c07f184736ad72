import Verif.Spec.V5
/-! Repeated v5 properties. -/
namespace Spec.V5
open Mqtt Mqtt.V5 Spec
open Spec.V4 (typeNum)

/-- MQTT 5, 2.2.2.2: the properties that may appear more than once in a packet with first byte `b1`: user
properties, and subscription identifiers in a PUBLISH -/
def Repeatable (b1 : UInt8) (id : Nat) : Prop := id = 38 ∨ (id = 11 ∧ typeNum b1 = 3)

/-- two lists of properties say the same if the last occurrence counts: the same occurrences in the same
order of each repeatable property, the same last occurrence of every other -/
structure SameIfLastWins (b1 : UInt8) (ps qs : List Property) : Prop where
  all : ∀ i, Repeatable b1 i → ps.filter (·.id = i) = qs.filter (·.id = i)
  last : ∀ i, (ps.filter (·.id = i)).getLast? = (qs.filter (·.id = i)).getLast?

end Spec.V5
