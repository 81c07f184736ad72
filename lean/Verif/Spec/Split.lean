import Verif.Spec.Answer
/-! Splitting and merging requests with several filters, and their answers. -/
namespace Spec
open Mqtt

/-- the second packet is the first with some of its filters or codes only, at least one, in their order, and the packet
identifier `k` -/
def V4.Part (k : UInt16) : Mqtt.V4.Packet → Mqtt.V4.Packet → Prop
  | .Subscribe s, .Subscribe t => t.pkid = k ∧ t.filters ≠ [] ∧ t.filters.Sublist s.filters
  | .SubAck s, .SubAck t => t.pkid = k ∧ t.return_codes ≠ [] ∧ t.return_codes.Sublist s.return_codes
  | .Unsubscribe s, .Unsubscribe t => t.pkid = k ∧ t.topics ≠ [] ∧ t.topics.Sublist s.topics
  | _, _ => False

/-- the third packet has the filters or codes of the first, then those of the second, and the packet identifier `k`; a 3.1.1
UNSUBACK has no codes -/
def V4.Merged (k : UInt16) : Mqtt.V4.Packet → Mqtt.V4.Packet → Mqtt.V4.Packet → Prop
  | .Subscribe s, .Subscribe t, m => m = .Subscribe ⟨k, s.filters ++ t.filters⟩
  | .SubAck s, .SubAck t, m => m = .SubAck ⟨k, s.return_codes ++ t.return_codes⟩
  | .Unsubscribe s, .Unsubscribe t, m => m = .Unsubscribe ⟨k, s.topics ++ t.topics⟩
  | .UnsubAck _, .UnsubAck _, m => m = .UnsubAck ⟨k⟩
  | _, _, _ => False

/-- the same for 5.0; the properties stay -/
def V5.Part (k : UInt16) : Mqtt.V5.Packet → Mqtt.V5.Packet → Prop
  | .Subscribe s, .Subscribe t =>
    t.pkid = k ∧ t.filters ≠ [] ∧ t.filters.Sublist s.filters ∧ t.properties = s.properties
  | .SubAck s, .SubAck t =>
    t.pkid = k ∧ t.return_codes ≠ [] ∧ t.return_codes.Sublist s.return_codes ∧ t.properties = s.properties
  | .Unsubscribe s, .Unsubscribe t =>
    t.pkid = k ∧ t.filters ≠ [] ∧ t.filters.Sublist s.filters ∧ t.properties = s.properties
  | .UnsubAck s, .UnsubAck t =>
    t.pkid = k ∧ t.reasons ≠ [] ∧ t.reasons.Sublist s.reasons ∧ t.properties = s.properties
  | _, _ => False

/-- the same for 5.0; the properties are those of the first -/
def V5.Merged (k : UInt16) : Mqtt.V5.Packet → Mqtt.V5.Packet → Mqtt.V5.Packet → Prop
  | .Subscribe s, .Subscribe t, m => m = .Subscribe ⟨k, s.filters ++ t.filters, s.properties⟩
  | .SubAck s, .SubAck t, m => m = .SubAck ⟨k, s.return_codes ++ t.return_codes, s.properties⟩
  | .Unsubscribe s, .Unsubscribe t, m => m = .Unsubscribe ⟨k, s.filters ++ t.filters, s.properties⟩
  | .UnsubAck s, .UnsubAck t, m => m = .UnsubAck ⟨k, s.reasons ++ t.reasons, s.properties⟩
  | _, _, _ => False

end Spec
