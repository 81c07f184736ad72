import Verif.Proof.Monad
import Verif.Model.V4
import Verif.Proof.V5Shared
/-! Writers whose output does not depend on what the buffer holds. -/
namespace Mqtt

/-- `m` appends the same bytes and returns the same whatever is in the buffer -/
def Uni {α : Type} (m : M α) : Prop := ∃ r t, ∀ s, m s = (r, s ++ t)

section
variable {α β : Type}
theorem Uni.bind {m : M α} {f : α → M β} (h : Uni m) (hf : ∀ a, Uni (f a)) : Uni (m >>= f) := by
  obtain ⟨r, t, h⟩ := h
  cases r with
  | ok a =>
    obtain ⟨r', t', h'⟩ := hf a
    exact ⟨r', t ++ t', fun s => by rw [bind_run, h, andThen_ok, h', List.append_assoc]⟩
  | err e => exact ⟨.err e, t, fun s => by rw [bind_run, h, andThen_err]⟩
  | panic => exact ⟨.panic, t, fun s => by rw [bind_run, h, andThen_panic]⟩
  | diverge => exact ⟨.diverge, t, fun s => by rw [bind_run, h, andThen_diverge]⟩
theorem Uni.pure (a : α) : Uni (Pure.pure a : M α) := ⟨.ok a, [], fun s => by rw [List.append_nil]; rfl⟩
theorem Uni.fail (e : Error) : Uni (M.fail e : M α) := ⟨.err e, [], fun s => by rw [List.append_nil]; rfl⟩
theorem Uni.diverge : Uni (M.diverge : M α) := ⟨.diverge, [], fun s => by rw [List.append_nil]; rfl⟩
theorem Uni.ite {c : Prop} [Decidable c] {m n : M α} (h1 : Uni m) (h2 : Uni n) : Uni (if c then m else n) := by
  split
  · exact h1
  · exact h2
theorem Uni.u8 (b : UInt8) : Uni (putU8 b) := ⟨_, _, fun _ => rfl⟩
theorem Uni.u16 (b : UInt16) : Uni (putU16 b) := ⟨_, _, fun _ => rfl⟩
theorem Uni.u32 (b : UInt32) : Uni (putU32 b) := ⟨_, _, fun _ => rfl⟩
theorem Uni.slice (l : Bytes) : Uni (putSlice l) := ⟨_, _, fun _ => rfl⟩
theorem Uni.bytes (l : Bytes) : Uni (write_mqtt_bytes l) := .bind (.u16 _) fun _ => .slice _
theorem Uni.string (v : String) : Uni (write_mqtt_string v) := .bytes _
theorem Uni.vbi_loop (k : Nat) : ∀ n c, Uni (write_remaining_length_loop k n c) := by
  induction k with
  | zero => exact fun _ _ => .diverge
  | succ k ih => exact fun n c => .bind (.u8 _) fun _ => .ite (.pure _) (ih _ _)
theorem Uni.vbi (n : Nat) : Uni (write_remaining_length n) := .ite (.fail _) (.vbi_loop _ _ _)
end

theorem Uni.forEach {α : Type} (l : List α) {w : α → M Unit} (h : ∀ x, Uni (w x)) : Uni (forEach l w) := by
  induction l with
  | nil => exact .pure _
  | cons x xs ih => exact .bind (h x) fun _ => ih
theorem Uni.ifSome {α : Type} (o : Option α) {w : α → M Unit} (h : ∀ x, Uni (w x)) : Uni (V5.ifSome o w) := by
  cases o with
  | none => exact .pure _
  | some x => exact h x
theorem Uni.orZero {π : Type} {w : π → M Unit} (h : ∀ x, Uni (w x)) (o : Option π) : Uni (V5.writePropsOrZero w o) := by
  cases o with
  | none => exact .bind (.vbi _) fun _ => .pure _
  | some x => exact h x
theorem Uni.propU8 (t : V5.PropertyType) (v : UInt8) : Uni (V5.putPropU8 t v) := .bind (.u8 _) fun _ => .u8 _
theorem Uni.propU16 (t : V5.PropertyType) (v : UInt16) : Uni (V5.putPropU16 t v) := .bind (.u8 _) fun _ => .u16 _
theorem Uni.propU32 (t : V5.PropertyType) (v : UInt32) : Uni (V5.putPropU32 t v) := .bind (.u8 _) fun _ => .u32 _
theorem Uni.propStr (t : V5.PropertyType) (v : String) : Uni (V5.putPropStr t v) := .bind (.u8 _) fun _ => .string _
theorem Uni.propBytes (t : V5.PropertyType) (v : Bytes) : Uni (V5.putPropBytes t v) := .bind (.u8 _) fun _ => .bytes _
theorem Uni.propVbi (t : V5.PropertyType) (v : Nat) : Uni (V5.putPropVbi t v) :=
  .bind (.u8 _) fun _ => .bind (.vbi _) fun _ => .pure _
theorem Uni.propPair (t : V5.PropertyType) (v : String × String) : Uni (V5.putPropPair t v) :=
  .bind (.u8 _) fun _ => .bind (.string _) fun _ => .string _

/-- go through a `do` block -/
macro "uni" : tactic => `(tactic| repeat' first
  | with_reducible exact Uni.u8 _ | with_reducible exact Uni.u16 _ | with_reducible exact Uni.u32 _ | with_reducible exact Uni.slice _ | with_reducible exact Uni.bytes _ | with_reducible exact Uni.string _
  | with_reducible exact Uni.vbi _ | with_reducible exact Uni.pure _ | with_reducible exact Uni.fail _ | with_reducible apply Uni.ite | with_reducible refine Uni.bind ?_ fun _ => ?_ | assumption
  | with_reducible refine Uni.forEach _ fun _ => ?_ | with_reducible refine Uni.ifSome _ fun _ => ?_ | with_reducible refine Uni.orZero (fun _ => ?_) _
  | with_reducible exact Uni.propU8 _ _ | with_reducible exact Uni.propU16 _ _ | with_reducible exact Uni.propU32 _ _ | with_reducible exact Uni.propStr _ _ | with_reducible exact Uni.propBytes _ _
  | with_reducible exact Uni.propVbi _ _ | with_reducible exact Uni.propPair _ _)

namespace V4
theorem write_uni (p : Packet) (hc : ∀ c, p ≠ .Connect c) : Uni p.write := by
  cases p with
  | Connect c => exact absurd rfl (hc c)
  | ConnAck c => show Uni c.write; unfold ConnAck.write; uni
  | Publish c => show Uni c.write; unfold Publish.write; uni
  | PubAck c => show Uni c.write; unfold PubAck.write; uni
  | PubRec c => show Uni c.write; unfold PubRec.write; uni
  | PubRel c => show Uni c.write; unfold PubRel.write; uni
  | PubComp c => show Uni c.write; unfold PubComp.write; uni
  | Subscribe c => show Uni c.write; unfold Subscribe.write SubscribeFilter.write; uni
  | SubAck c => show Uni c.write; unfold SubAck.write; uni
  | Unsubscribe c => show Uni c.write; unfold Unsubscribe.write; uni
  | UnsubAck c => show Uni c.write; unfold UnsubAck.write; uni
  | PingReq => show Uni PingReq.write; unfold PingReq.write; uni
  | PingResp => show Uni PingResp.write; unfold PingResp.write; uni
  | Disconnect => show Uni Disconnect.write; unfold Disconnect.write; uni
end V4

namespace V5
theorem reason_uni (p : ReasonProps) : Uni p.write := by unfold ReasonProps.write; uni
theorem connack_uni (p : ConnAckProperties) : Uni p.write := by unfold ConnAckProperties.write; uni
theorem publish_uni (p : PublishProperties) : Uni p.write := by unfold PublishProperties.write; uni
theorem subscribe_uni (p : SubscribeProperties) : Uni p.write := by unfold SubscribeProperties.write; uni
theorem unsubscribe_uni (p : UnsubscribeProperties) : Uni p.write := by unfold UnsubscribeProperties.write; uni
theorem disconnect_uni (p : DisconnectProperties) : Uni p.write := by unfold DisconnectProperties.write; uni
theorem ack_uni {R : Type} [DecidableEq R] (b : UInt8) (x : R) (f : R → UInt8) (a : Ack R) : Uni (a.write b x f) := by
  unfold Ack.write; uni; exact reason_uni _

theorem write_uni (p : Packet) (hc : ∀ c, p ≠ .Connect c) : Uni p.write := by
  cases p with
  | Connect c => exact absurd rfl (hc c)
  | ConnAck c => show Uni c.write; unfold ConnAck.write; uni; exact connack_uni _
  | Publish c => show Uni c.write; unfold Publish.write; uni; exact publish_uni _
  | PubAck c => exact ack_uni _ _ _ _
  | PubRec c => exact ack_uni _ _ _ _
  | PubRel c => exact ack_uni _ _ _ _
  | PubComp c => exact ack_uni _ _ _ _
  | Subscribe c => show Uni c.write; unfold Subscribe.write SubscribeFilter.write; uni; exact subscribe_uni _
  | SubAck c => show Uni c.write; unfold SubAck.write; uni; exact reason_uni _
  | Unsubscribe c => show Uni c.write; unfold Unsubscribe.write; uni; exact unsubscribe_uni _
  | UnsubAck c => show Uni c.write; unfold UnsubAck.write; uni; exact reason_uni _
  | PingReq => show Uni PingReq.write; unfold PingReq.write; uni
  | PingResp => show Uni PingResp.write; unfold PingResp.write; uni
  | Disconnect c => show Uni c.write; unfold Disconnect.write; uni; exact disconnect_uni _
end V5

end Mqtt
