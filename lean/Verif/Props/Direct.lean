import Verif.Proof.Direct
/-! C64: a packet's own `read(fixed_header, bytes)`, called with an arbitrary fixed header. -/
namespace Props
open Mqtt Spec

/-- C64 (v4): the readers which only skip the header: they panic exactly when there are fewer bytes than
the header announces for itself. -/
theorem C64_v4_direct_read (h : FixedHeader) (s : Bytes) :
    PanicsExactly (V4.Connect.readM h) s (s.length < h.fixed_header_len) ∧
    PanicsExactly (V4.ConnAck.readM h) s (s.length < h.fixed_header_len) ∧
    PanicsExactly (V4.PubAck.readM h) s (s.length < h.fixed_header_len) ∧
    PanicsExactly (V4.PubRec.readM h) s (s.length < h.fixed_header_len) ∧
    PanicsExactly (V4.PubRel.readM h) s (s.length < h.fixed_header_len) ∧
    PanicsExactly (V4.PubComp.readM h) s (s.length < h.fixed_header_len) ∧
    PanicsExactly (V4.Subscribe.readM h) s (s.length < h.fixed_header_len) ∧
    PanicsExactly (V4.SubAck.readM h) s (s.length < h.fixed_header_len) := by
  refine ⟨?_, ?_, ?_, ?_, ?_, ?_, ?_, ?_⟩
  · exact panics_advance (V4.Connect.read_good h s) fun hs => by unfold V4.Connect.readM; rw [advance_short hs]
  · exact panics_advance (V4.ConnAck.read_good h s) fun hs => by unfold V4.ConnAck.readM; rw [advance_short hs]
  · exact panics_advance (V4.PubAck.read_good h s) fun hs => by unfold V4.PubAck.readM; rw [advance_short hs]
  · exact panics_advance (V4.PubRec.read_good h s) fun hs => by unfold V4.PubRec.readM; rw [advance_short hs]
  · exact panics_advance (V4.PubRel.read_good h s) fun hs => by unfold V4.PubRel.readM; rw [advance_short hs]
  · exact panics_advance (V4.PubComp.read_good h s) fun hs => by unfold V4.PubComp.readM; rw [advance_short hs]
  · exact panics_advance (V4.Subscribe.read_good h s) fun hs => by unfold V4.Subscribe.readM; rw [advance_short hs]
  · exact panics_advance (V4.SubAck.read_good h s) fun hs => by unfold V4.SubAck.readM; rw [advance_short hs]

/-- QoS bits of the first byte that are not the reserved value 3 -/
theorem qos_bits (b : UInt8) : (∃ q, qos ((b &&& 0b0110) >>> 1) = .ok q ∧ b.toNat / 2 % 4 ≠ 3) ∨
    (qos ((b &&& 0b0110) >>> 1) = .err (.InvalidQoS 3) ∧ b.toNat / 2 % 4 = 3) := by
  have h : ∀ b : UInt8, (b.toNat / 2 % 4 = 3 ∧ qos ((b &&& 0b0110) >>> 1) = .err (.InvalidQoS 3)) ∨
      (b.toNat / 2 % 4 ≠ 3 ∧ (qos ((b &&& 0b0110) >>> 1) = .ok .AtMostOnce ∨
        qos ((b &&& 0b0110) >>> 1) = .ok .AtLeastOnce ∨ qos ((b &&& 0b0110) >>> 1) = .ok .ExactlyOnce)) :=
    forall_u8 (by decide +kernel)
  rcases h b with ⟨h1, h2⟩ | ⟨h1, h2 | h2 | h2⟩
  · exact .inr ⟨h2, h1⟩
  all_goals exact .inl ⟨_, h2, h1⟩

/-- C64 (v4 and v5): `Publish::read` looks at the QoS bits of the header first. -/
theorem C64_direct_read_publish (h : FixedHeader) (s : Bytes) :
    PanicsExactly (V4.Publish.readM h) s (s.length < h.fixed_header_len ∧ h.byte1.toNat / 2 % 4 ≠ 3) ∧
    PanicsExactly (V5.Publish.readM h) s (s.length < h.fixed_header_len ∧ h.byte1.toNat / 2 % 4 ≠ 3) := by
  have key : ∀ {α : Type} {E : Error → Prop} (m : M α) (f : QoS → Unit → M α),
      (h.fixed_header_len ≤ s.length → Good E 0 m s) →
      m = (M.lift (qos ((h.byte1 &&& 0b0110) >>> 1)) >>= fun q => advance h.fixed_header_len >>= f q) →
      PanicsExactly m s (s.length < h.fixed_header_len ∧ h.byte1.toNat / 2 % 4 ≠ 3) := by
    intro α E m f hg hm
    rcases qos_bits h.byte1 with ⟨q, hq, h3⟩ | ⟨hq, h3⟩
    · refine panicsExactly_of_good (fun hn => hg (by
        by_cases h' : h.fixed_header_len ≤ s.length
        · exact h'
        · exact absurd ⟨by omega, h3⟩ hn)) fun hp => ?_
      rw [hm, hq, bind_run, lift_run, andThen_ok, advance_short hp.1]
    · have e : m s = (.err (.InvalidQoS 3), s) := by
        rw [hm, hq, bind_run, lift_run, andThen_err]
      refine ⟨by rw [e]; simp [h3], .inr (.inl ⟨_, by rw [e]⟩)⟩
  exact ⟨key _ _ (V4.Publish.read_good h s) rfl, key _ _ (V5.Publish.read_good h s) rfl⟩

/-- C64 (v4): `UnsubAck::read` insists on an announced length of 2 first. -/
theorem C64_v4_direct_read_unsuback (h : FixedHeader) (s : Bytes) :
    PanicsExactly (V4.UnsubAck.readM h) s (s.length < h.fixed_header_len ∧ h.remaining_len = 2) := by
  by_cases h2 : h.remaining_len = 2
  · simp only [h2, and_true]
    exact panics_advance (V4.UnsubAck.read_good h s) fun hs => by
      unfold V4.UnsubAck.readM; rw [if_neg (by omega), advance_short hs]
  · refine ⟨?_, .inr (.inl ⟨.PayloadSizeIncorrect, ?_⟩)⟩ <;> unfold V4.UnsubAck.readM <;>
      rw [if_pos h2, fail_run]
    simp [h2]

/-- C64 (v4): `Unsubscribe::read` trusts the announced length: besides the short header, it panics (by
subtraction underflow) when that length does not cover the packet id it has read, or ends inside a topic
filter it has read. -/
theorem C64_v4_direct_read_unsubscribe (h : FixedHeader) (s : Bytes) :
    PanicsExactly (V4.Unsubscribe.readM h) s (s.length < h.fixed_header_len ∨
      (h.fixed_header_len + 2 ≤ s.length ∧
        (h.remaining_len < 2 ∨ Overruns (h.remaining_len - 2) (s.drop (h.fixed_header_len + 2))))) :=
  V4.Unsubscribe.read_panics h s

/-- C64 (v5): all the other readers panic exactly when there are fewer bytes than the header announces for
itself. -/
theorem C64_v5_direct_read (h : FixedHeader) (s : Bytes) :
    PanicsExactly (V5.Connect.readM h) s (s.length < h.fixed_header_len) ∧
    PanicsExactly (V5.ConnAck.readM h) s (s.length < h.fixed_header_len) ∧
    PanicsExactly (V5.PubAck.readM h) s (s.length < h.fixed_header_len) ∧
    PanicsExactly (V5.PubRec.readM h) s (s.length < h.fixed_header_len) ∧
    PanicsExactly (V5.PubRel.readM h) s (s.length < h.fixed_header_len) ∧
    PanicsExactly (V5.PubComp.readM h) s (s.length < h.fixed_header_len) ∧
    PanicsExactly (V5.Subscribe.readM h) s (s.length < h.fixed_header_len) ∧
    PanicsExactly (V5.SubAck.readM h) s (s.length < h.fixed_header_len) ∧
    PanicsExactly (V5.Unsubscribe.readM h) s (s.length < h.fixed_header_len) ∧
    PanicsExactly (V5.UnsubAck.readM h) s (s.length < h.fixed_header_len) ∧
    PanicsExactly (V5.Disconnect.readM h) s (s.length < h.fixed_header_len) := by
  have ack : ∀ {R : Type} (ok : R) (conv : UInt8 → Res R),
      (∀ n, (∃ c, conv n = .ok c) ∨ ∃ e, conv n = .err e ∧ NotMore e) →
      PanicsExactly (V5.Ack.readM ok conv h) s (s.length < h.fixed_header_len) := fun ok conv hc =>
    panics_advance (fun hh => V5.Ack.read_good h s hh ok conv hc) fun hs => by
      unfold V5.Ack.readM; rw [advance_short hs]
  refine ⟨?_, ?_, ack _ _ V5.PubAckReason.conv, ack _ _ V5.PubRecReason.conv, ack _ _ V5.PubRelReason.conv,
    ack _ _ V5.PubCompReason.conv, ?_, ?_, ?_, ?_, ?_⟩
  · exact panics_advance (V5.Connect.read_good h s) fun hs => by unfold V5.Connect.readM; rw [advance_short hs]
  · exact panics_advance (V5.ConnAck.read_good h s) fun hs => by unfold V5.ConnAck.readM; rw [advance_short hs]
  · exact panics_advance (V5.Subscribe.read_good h s) fun hs => by unfold V5.Subscribe.readM; rw [advance_short hs]
  · exact panics_advance (V5.SubAck.read_good h s) fun hs => by unfold V5.SubAck.readM; rw [advance_short hs]
  · exact panics_advance (V5.Unsubscribe.read_good h s) fun hs => by unfold V5.Unsubscribe.readM; rw [advance_short hs]
  · exact panics_advance (V5.UnsubAck.read_good h s) fun hs => by unfold V5.UnsubAck.readM; rw [advance_short hs]
  · exact panics_advance (V5.Disconnect.read_good h s) fun hs => by unfold V5.Disconnect.readM; rw [advance_short hs]

/-- C64 (v5): the public property-set readers `extract` never panic, on bytes of any length. -/
theorem C64_v5_extract (s : Bytes) :
    PanicsExactly V5.PubAckProperties.extract s False ∧
    PanicsExactly V5.PubRecProperties.extract s False ∧
    PanicsExactly V5.PubRelProperties.extract s False ∧
    PanicsExactly V5.PubCompProperties.extract s False ∧
    PanicsExactly V5.SubAckProperties.extract s False ∧
    PanicsExactly V5.UnsubAckProperties.extract s False ∧
    PanicsExactly V5.WillProperties.read s False ∧
    PanicsExactly V5.ConnectProperties.read s False ∧ PanicsExactly V5.ConnAckProperties.extract s False ∧
    PanicsExactly V5.PublishProperties.extract s False ∧ PanicsExactly V5.SubscribeProperties.extract s False ∧
    PanicsExactly V5.UnsubscribeProperties.extract s False ∧
    PanicsExactly V5.DisconnectProperties.extract s False :=
  have hr : PanicsExactly V5.ReasonProps.extract s False :=
    panicsExactly_of_good (fun _ => V5.reason_good s) False.elim
  ⟨hr, hr, hr, hr, hr, hr,
   panicsExactly_of_good (fun _ => V5.will_good s) False.elim,
   panicsExactly_of_good (fun _ => V5.connect_good s) False.elim,
   panicsExactly_of_good (fun _ => V5.connack_good s) False.elim,
   panicsExactly_of_good (fun _ => V5.publish_good s) False.elim,
   panicsExactly_of_good (fun _ => V5.subscribe_good s) False.elim,
   panicsExactly_of_good (fun _ => V5.unsubscribe_good s) False.elim,
   panicsExactly_of_good (fun _ => V5.disconnect_good s) False.elim⟩

/-- C64 (v5): `Disconnect::read` called directly accepts an empty DISCONNECT (MQTT 5.0 3.14.2.1: reason
"normal disconnection", no properties), which `v5::read` refuses (see C39). -/
theorem C64_v5_direct_read_empty_disconnect (n : Nat) (s : Bytes) (hs : n ≤ s.length) :
    (V5.Disconnect.readM ⟨0xE0, n, 0⟩ s).1 = .ok ⟨.NormalDisconnection, none⟩ := by
  unfold V5.Disconnect.readM
  rw [bind_run, show advance n s = (.ok (), s.drop n) from (advance_iff n s (s.drop n) ()).2 ⟨hs, rfl⟩, andThen_ok, if_neg (by simp only; decide), if_neg (by simp only; decide)]
  rfl

/-! ### witnesses -/
/-- header longer than the bytes -/
example : (V4.PubAck.readM (FixedHeader.new 0x40 1 2) [0x40]).1 = .panic := by decide +kernel
/-- announced length too short for the packet id, and ending inside a filter -/
example : (V4.Unsubscribe.readM (FixedHeader.new 0xA2 1 1) [0xA2, 1, 0, 7]).1 = .panic := by decide +kernel
example : (V4.Unsubscribe.readM (FixedHeader.new 0xA2 1 4) [0xA2, 4, 0, 7, 0, 1, 97]).1 = .panic := by
  decide +kernel
example : Overruns 2 [0, 1, 97] :=
  .here (n := 2) (v := "a") (t := []) (by decide) (by decide +kernel) (by decide +kernel)
/-- the v5 reader of the same packet does not trust the announced length -/
example : (V5.Unsubscribe.readM (FixedHeader.new 0xA2 1 1) [0xA2, 1, 0, 7, 0, 0, 1, 97]).1
    = .ok ⟨7, ["a"], none⟩ := by decide +kernel
/-- a v5 DISCONNECT without body, which `v5::read` refuses, is accepted by `Disconnect::read` -/
example : (V5.Disconnect.readM (FixedHeader.new 0xE0 1 0) [0xE0, 0]).1 = .ok V5.Disconnect.new := by
  decide +kernel
end Props
