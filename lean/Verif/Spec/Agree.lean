import Verif.Spec.Schedule
import Verif.Spec.V4
import Verif.Spec.V5
/-! What a 3.1.1 packet and a 5.0 packet decoded from the same bytes have in common. -/
namespace Spec
open Mqtt

/-- both without a will, or both with one of the same QoS and the same retain flag -/
def SameWill : Option V4.LastWill → Option V5.LastWill → Prop
  | none, none => True
  | some v, some w => v.qos = w.qos ∧ v.retain = w.retain
  | _, _ => False

/-- the same packet type, and the same envelope -/
def Agree : V4.Packet → V5.Packet → Prop
  | .Connect c, .Connect d => d.protocol = c.protocol ∧ d.keep_alive = c.keep_alive ∧ d.clean_session = c.clean_session ∧
      SameWill c.last_will d.last_will ∧
      (c.protocol = .V4 → d.client_id = c.client_id ∧ d.properties = none ∧
        (c.last_will = none → d.login = c.login.map fun l => ⟨l.username, l.password⟩))
  | .ConnAck c, .ConnAck d => d.session_present = c.session_present ∧ c.code = .Success ∧ d.code = .Success
  -- what the 5.0 reader takes for properties starts the payload of the 3.1.1 reader
  | .Publish p, .Publish q => q.dup = p.dup ∧ q.qos = p.qos ∧ q.retain = p.retain ∧ q.topic = p.topic ∧ q.pkid = p.pkid ∧
      ∃ props, props ≠ [] ∧ p.payload = props ++ q.payload
  | .PubAck a, .PubAck b => b.pkid = a.pkid
  | .PubRec a, .PubRec b => b.pkid = a.pkid
  | .PubRel a, .PubRel b => b.pkid = a.pkid
  | .PubComp a, .PubComp b => b.pkid = a.pkid
  | .Subscribe a, .Subscribe b => b.pkid = a.pkid
  | .SubAck a, .SubAck b => b.pkid = a.pkid ∧ b.return_codes.length < a.return_codes.length
  | .Unsubscribe a, .Unsubscribe b => b.pkid = a.pkid
  | .PingReq, .PingReq => True
  | .PingResp, .PingResp => True
  | .Disconnect, .Disconnect _ => True
  -- in particular no bytes are an UNSUBACK of both versions
  | _, _ => False

/-- what a reader of each version makes of the same frame: if both accept it, the packets agree -/
def BothAgree : Except Error V4.Packet → Except Error V5.Packet → Prop
  | .ok p, .ok q => Agree p q
  | _, _ => True

/-- an event of a schedule in which each call chooses one of the two readers -/
inductive MixEvent where
  | arrive (chunk : Bytes)
  | call4 (max : Nat)
  | call5 (max : Nat)

/-- the same schedule, for a client that does not choose -/
def MixEvent.event : MixEvent → Event
  | .arrive c => .arrive c
  | .call4 m => .call m
  | .call5 m => .call m

/-- a call that took something from the buffer ended with this outcome -/
def Ended {P : Type} (r : Res P) : Except Error P → Prop
  | .ok p => r = .ok p
  | .error e => r = .err e

/-- `Mixed s es os r`: starting with the buffer `s`, the schedule `es` gives the outcomes `os` (of the calls that took
something, on the left those of `v4::read`, on the right those of `v5::read`) and leaves `r` in the buffer. -/
inductive Mixed : Bytes → List MixEvent → List (Except Error V4.Packet ⊕ Except Error V5.Packet) → Bytes → Prop where
  | done {s} : Mixed s [] [] s
  | arrive {s c es os r} (t : Mixed (s ++ c) es os r) : Mixed s (.arrive c :: es) os r
  | took4 {s s' max x o es os r} (h : V4.read max s = (x, s')) (hx : Ended x o) (hne : s' ≠ s) (t : Mixed s' es os r) :
      Mixed s (.call4 max :: es) (.inl o :: os) r
  | took5 {s s' max x o es os r} (h : V5.read max s = (x, s')) (hx : Ended x o) (hne : s' ≠ s) (t : Mixed s' es os r) :
      Mixed s (.call5 max :: es) (.inr o :: os) r
  | nothing4 {s max e es os r} (h : V4.read max s = (.err e, s)) (t : Mixed s es os r) :
      Mixed s (.call4 max :: es) os r
  | nothing5 {s max e es os r} (h : V5.read max s = (.err e, s)) (t : Mixed s es os r) :
      Mixed s (.call5 max :: es) os r

/-- the third list picks from the first and the second, place by place -/
inductive Picks {A B : Type} : List A → List B → List (A ⊕ B) → Prop where
  | nil : Picks [] [] []
  | left {a b as bs cs} (t : Picks as bs cs) : Picks (a :: as) (b :: bs) (.inl a :: cs)
  | right {a b as bs cs} (t : Picks as bs cs) : Picks (a :: as) (b :: bs) (.inr b :: cs)

end Spec
