import Verif.Proof.Frame
/-! Packet type dispatch and small facts about bytes. -/
namespace Mqtt
open Spec

/-- a statement about all bytes follows from the 256 cases -/
theorem forall_u8 {P : UInt8 → Prop} (h : ∀ n : Fin 256, P (UInt8.ofNat n.val)) (b : UInt8) :
    P b := by
  have := h ⟨b.toNat, b.toNat_lt⟩
  simpa using this

theorem packet_type_byte (h : FixedHeader) :
    h.packet_type = FixedHeader.packet_type ⟨h.byte1, 0, 0⟩ := rfl

theorem packet_type_ok_iff (h : FixedHeader) (t : PacketType) :
    h.packet_type = .ok t ↔ h.byte1.toNat / 16 = t.toU8.toNat := by
  obtain ⟨b, k, n⟩ := h
  show FixedHeader.packet_type ⟨b, 0, 0⟩ = _ ↔ b.toNat / 16 = _
  clear k n
  revert b
  cases t <;> exact forall_u8 (by decide +kernel)

theorem packet_type_cases (h : FixedHeader) :
    (∃ t, h.packet_type = .ok t) ∨
      ((h.byte1.toNat / 16 = 0 ∨ h.byte1.toNat / 16 = 15)
        ∧ h.packet_type = .err (.InvalidPacketType (UInt8.ofNat (h.byte1.toNat / 16)))) := by
  rw [packet_type_byte]
  generalize h.byte1 = b
  have key : ∀ b : UInt8, (b.toNat / 16 = 0 ∨ b.toNat / 16 = 15) ∨
      ∃ t ∈ [PacketType.Connect, .ConnAck, .Publish, .PubAck, .PubRec, .PubRel, .PubComp, .Subscribe,
        .SubAck, .Unsubscribe, .UnsubAck, .PingReq, .PingResp, .Disconnect],
        b.toNat / 16 = t.toU8.toNat := forall_u8 (by decide +kernel)
  have key2 : ∀ b : UInt8, (b.toNat / 16 = 0 ∨ b.toNat / 16 = 15) →
      FixedHeader.packet_type ⟨b, 0, 0⟩ = .err (.InvalidPacketType (UInt8.ofNat (b.toNat / 16))) :=
    forall_u8 (by decide +kernel)
  rcases key b with hb | ⟨t, _, ht⟩
  · exact .inr ⟨hb, key2 b hb⟩
  · exact .inl ⟨t, (packet_type_ok_iff ⟨b, 0, 0⟩ t).2 ht⟩

section
variable {α β : Type}
theorem onFrame_ok_iff (m : M α) (f : Bytes) (w : α → β) (b : β) :
    onFrame m f w = .ok b ↔ ∃ a s, m f = (.ok a, s) ∧ b = w a := by
  unfold onFrame
  cases h : m f with
  | mk r s =>
    cases r with
    | ok a =>
      simp only [Res.ok.injEq, Prod.mk.injEq]
      constructor
      · intro h; exact ⟨a, s, ⟨rfl, rfl⟩, h.symm⟩
      · rintro ⟨a', s', ⟨rfl, _⟩, rfl⟩; rfl
    | err e => simp
    | panic => simp
    | diverge => simp

theorem onFrame_err_iff (m : M α) (f : Bytes) (w : α → β) (e : Error) :
    onFrame m f w = .err e ↔ (m f).1 = .err e := by
  unfold onFrame
  cases h : (m f).1 <;> simp

theorem onFrame_of_ok {m : M α} {f : Bytes} {w : α → β} {a : α} {s : Bytes}
    (h : m f = (.ok a, s)) : onFrame m f w = .ok (w a) := by
  unfold onFrame; rw [h]
end

theorem advance_run (hd bd : Bytes) (n : Nat) (h : hd.length = n) :
    advance n (hd ++ bd) = (.ok (), bd) := by
  subst h
  unfold advance
  rw [if_pos (by simp), List.drop_left]

theorem qos_ok_iff (n : UInt8) (q : QoS) : Mqtt.qos n = .ok q ↔ n = q.toU8 := by
  revert n; cases q <;> exact forall_u8 (by decide +kernel)

theorem qos_cases (n : UInt8) : (∃ q, Mqtt.qos n = .ok q) ∨ Mqtt.qos n = .err (.InvalidQoS n) := by
  unfold Mqtt.qos; split <;> simp

theorem ok_inj {α : Type} {a b : α} {s t : Bytes} :
    ((Res.ok a, s) = (Res.ok b, t)) ↔ a = b ∧ s = t := by simp

theorem advance_iff (n : Nat) (s s' : Bytes) (u : Unit) :
    advance n s = (.ok u, s') ↔ n ≤ s.length ∧ s' = s.drop n := by
  unfold advance; split
  · simp_all [eq_comm]
  · simp only [Prod.mk.injEq, reduceCtorEq, false_and, false_iff]; omega

/-- turn "the `do` block returned this value" into equations about its parts -/
syntax "minv" ("[" Lean.Parser.Tactic.simpLemma,* "]")? (Lean.Parser.Tactic.location)? : tactic
macro_rules
  | `(tactic| minv $[$loc:location]?) => `(tactic| simp only [bind_run, pure_run, andThen_eq_ok, fail_run, look_run, lift_run, ite_run, Prod.mk.injEq, Res.ok.injEq, reduceCtorEq, false_and, read_u8_iff, read_u16_iff, read_u32_iff, read_mqtt_bytes_iff, read_mqtt_string_iff] $[$loc]?)
  | `(tactic| minv [$ls,*] $[$loc:location]?) => `(tactic| simp only [bind_run, pure_run, andThen_eq_ok, fail_run, look_run, lift_run, ite_run, Prod.mk.injEq, Res.ok.injEq, reduceCtorEq, false_and, read_u8_iff, read_u16_iff, read_u32_iff, read_mqtt_bytes_iff, read_mqtt_string_iff, $ls,*] $[$loc]?)

end Mqtt
