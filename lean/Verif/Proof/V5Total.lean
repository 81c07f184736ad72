import Verif.Proof.V4Total
import Verif.Proof.V5Read
/-! v5 decoding never panics and terminates, and a content error asks for at most one more byte. -/
set_option linter.unusedSimpArgs false
namespace Mqtt.V5
open Mqtt Spec
open Spec.V5
open _root_.Mqtt.V4 (onFrame_good)

theorem one_fail {e : Error} (h : ∀ n, e ≠ .InsufficientBytes n) : One e := fun n hn => absurd hn (h n)

/-- lifting a conversion that fails only with its own error -/
theorem conv_good {C : Type} {r : Res C} {s : Bytes} (h : (∃ c, r = .ok c) ∨ ∃ e, r = .err e ∧ NotMore e) :
    Good One 0 (M.lift r) s := (_root_.Mqtt.Good.lift h).one

section
variable (s : Bytes)
theorem reason_good : Good One 1 ReasonProps.extract s := extractProps_good reason_gen s
theorem will_good : Good One 1 WillProperties.read s := extractProps_good will_gen s
theorem connect_good : Good One 1 ConnectProperties.read s := extractProps_good connect_gen s
theorem connack_good : Good One 1 ConnAckProperties.extract s := extractProps_good connack_gen s
theorem publish_good : Good One 1 PublishProperties.extract s := extractProps_good publish_gen s
theorem subscribe_good : Good One 1 SubscribeProperties.extract s := extractProps_good subscribe_gen s
theorem unsubscribe_good : Good One 1 UnsubscribeProperties.extract s :=
  extractProps_good unsubscribe_gen s
theorem disconnect_good : Good One 1 DisconnectProperties.extract s :=
  extractProps_good disconnect_gen s

theorem LastWill.read_good (f : UInt8) : Good One 0 (LastWill.read f) s := by
  unfold LastWill.read
  refine .ite (fun _ => .ite (fun _ => .fail _ (one_fail (by intro n; simp))) fun _ => .pure _) fun _ => ?_
  refine .bind0 (will_good s) fun t s1 _ _ => ?_
  refine .bind0 (read_mqtt_string_good s1).one fun t s1 _ _ => ?_
  refine .bind0 (read_mqtt_bytes_good s1).one fun m s2 _ _ => ?_
  exact .bind0 (conv_good (qos_good _)) fun q s3 _ _ => .pure _
end

theorem Login.read_good (f : UInt8) (s : Bytes) : Good One 0 (Login.read f) s := by
  unfold Login.read
  refine .bind0 (k := 0) (.ite (fun _ => .pure _) fun _ => (read_mqtt_string_good s).one.mono (fun _ h => h)
    (by omega)) fun u s1 _ _ => ?_
  refine .bind0 (k := 0) (.ite (fun _ => .pure _) fun _ => (read_mqtt_string_good s1).one.mono (fun _ h => h)
    (by omega)) fun p s2 _ _ => ?_
  exact .ite (fun _ => .pure _) fun _ => .pure _

theorem PubAckReason.conv (n : UInt8) :
    (∃ c, PubAckReason.reason n = .ok c) ∨ ∃ e, PubAckReason.reason n = .err e ∧ NotMore e := by
  unfold PubAckReason.reason
  split
  all_goals first
    | exact .inl ⟨_, rfl⟩
    | exact .inr ⟨_, rfl, by intro n; simp⟩
theorem PubRecReason.conv (n : UInt8) :
    (∃ c, PubRecReason.reason n = .ok c) ∨ ∃ e, PubRecReason.reason n = .err e ∧ NotMore e := by
  unfold PubRecReason.reason
  split
  all_goals first
    | exact .inl ⟨_, rfl⟩
    | exact .inr ⟨_, rfl, by intro n; simp⟩
theorem PubRelReason.conv (n : UInt8) :
    (∃ c, PubRelReason.reason n = .ok c) ∨ ∃ e, PubRelReason.reason n = .err e ∧ NotMore e := by
  unfold PubRelReason.reason
  split
  all_goals first
    | exact .inl ⟨_, rfl⟩
    | exact .inr ⟨_, rfl, by intro n; simp⟩
theorem PubCompReason.conv (n : UInt8) :
    (∃ c, PubCompReason.reason n = .ok c) ∨ ∃ e, PubCompReason.reason n = .err e ∧ NotMore e := by
  unfold PubCompReason.reason
  split
  all_goals first
    | exact .inl ⟨_, rfl⟩
    | exact .inr ⟨_, rfl, by intro n; simp⟩

variable (h : FixedHeader) (s : Bytes) (hh : h.fixed_header_len ≤ s.length)

section
include hh
theorem Connect.read_good : Good One 0 (Connect.readM h) s := by
  unfold Connect.readM
  refine .bind0 (advance_good _ s hh) fun _ s _ _ => ?_
  refine .bind0 (read_mqtt_string_good s).one fun nm s _ _ => ?_
  refine .bind0 (read_u8_good s).one fun lv s _ _ => ?_
  refine .ite (fun _ => .fail _ (one_fail (by intro n; simp))) fun _ => ?_
  refine .bind0 (k := 0) ?_ fun pr s _ _ => ?_
  · split
    · exact .pure _
    · exact .pure _
    · exact .fail _ (one_fail (by intro n; simp))
  refine .bind0 (read_u8_good s).one fun f s _ _ => ?_
  refine .bind0 (read_u16_good s).one fun ka s _ _ => ?_
  refine .bind0 (k := 0) ?_ fun ps s _ _ => ?_
  · cases pr
    · exact .pure _
    · exact (connect_good s).mono (fun _ h => h) (by omega)
  refine .bind0 (read_mqtt_string_good s).one fun id s _ _ => ?_
  refine .bind0 (LastWill.read_good s f) fun w s _ _ => ?_
  exact .bind0 (Login.read_good f s) fun l s _ _ => .pure _

theorem ConnAck.read_good : Good One 0 (ConnAck.readM h) s := by
  unfold ConnAck.readM
  refine .bind0 (advance_good _ s hh) fun _ s _ _ => ?_
  refine .bind0 (read_u8_good s).one fun f s _ _ => ?_
  refine .bind0 (read_u8_good s).one fun c s _ _ => ?_
  refine .bind0 (k := 0) (conv_good ?_) fun c s _ _ => ?_
  · unfold connect_return
    split
    all_goals first
      | exact .inl ⟨_, rfl⟩
      | exact .inr ⟨_, rfl, by intro n; simp⟩
  exact .bind0 (connack_good s) fun ps s _ _ => .pure _

theorem Publish.read_good : Good One 0 (Publish.readM h) s := by
  unfold Publish.readM
  refine .bind0 (conv_good (qos_good _)) fun q s1 h1 h2 => ?_
  have : s1 = s := by
    rw [lift_run] at h1; exact (Prod.mk.inj h1).2.symm
  subst this
  refine .bind0 (advance_good _ s1 hh) fun _ s _ _ => ?_
  refine .bind0 (read_mqtt_string_good s).one fun t s _ _ => ?_
  refine .bind0 (k := 0) ?_ fun k s _ _ => ?_
  · cases q
    · exact .pure _
    · exact (read_u16_good s).one.mono (fun _ h => h) (by omega)
    · exact (read_u16_good s).one.mono (fun _ h => h) (by omega)
  refine .ite (fun _ => .fail _ (one_fail (by intro n; simp))) fun _ => ?_
  refine .bind0 (publish_good s) fun _ s _ _ => ?_
  exact .bind0 .look fun _ s _ _ => .pure _

theorem Ack.read_good {R : Type} (ok : R) (conv : UInt8 → Res R)
    (hc : ∀ n, (∃ c, conv n = .ok c) ∨ ∃ e, conv n = .err e ∧ NotMore e) :
    Good One 0 (Ack.readM ok conv h) s := by
  unfold Ack.readM
  refine .bind0 (advance_good _ s hh) fun _ s _ _ => ?_
  refine .bind0 (read_u16_good s).one fun k s _ _ => ?_
  refine .ite (fun _ => .pure _) fun _ => ?_
  refine .bind0 (read_u8_good s).one fun r s _ _ => ?_
  refine .ite (fun _ => .bind0 (conv_good (hc r)) fun _ _ _ _ => .pure _) fun _ => ?_
  refine .bind0 (conv_good (hc r)) fun _ s _ _ => ?_
  exact .bind0 (reason_good s) fun ps s _ _ => .pure _
end

theorem retain_good (n : UInt8) :
    (∃ c, retainForwardRule n = .ok c) ∨ ∃ e, retainForwardRule n = .err e ∧ NotMore e := by
  unfold retainForwardRule
  split
  all_goals first
    | exact .inl ⟨_, rfl⟩
    | exact .inr ⟨_, rfl, by intro n; simp⟩

theorem Subscribe.readLoop_good (fuel : Nat) (acc : List SubscribeFilter) (hf : s.length < fuel) :
    Good One 0 (Subscribe.readLoop fuel acc) s := by
  induction fuel generalizing s acc with
  | zero => omega
  | succ n ih =>
    rw [Subscribe.readLoop]
    refine .bind0 .look fun _ s' h1 _ => ?_
    obtain ⟨rfl, rfl⟩ := ok_inj.1 h1
    refine .ite (fun _ => .pure _) fun _ => ?_
    refine .bind0 (read_mqtt_string_good _).one fun p s1 _ h1 => ?_
    refine .bind0 (read_u8_good _).one fun o s2 _ h2 => ?_
    refine .bind0 (conv_good (retain_good _)) fun q s3 _ h3 => ?_
    refine .bind0 (conv_good (qos_good _)) fun q s4 _ h4 => ?_
    exact ih s4 _ (by omega)

theorem readCodesLoop_good {C : Type} (conv : UInt8 → Res C)
    (hc : ∀ n, (∃ c, conv n = .ok c) ∨ ∃ e, conv n = .err e ∧ NotMore e)
    (fuel : Nat) (acc : List C) (hf : s.length < fuel) :
    Good One 0 (readCodesLoop conv fuel acc) s := by
  induction fuel generalizing s acc with
  | zero => omega
  | succ n ih =>
    rw [readCodesLoop]
    refine .bind0 .look fun _ s' h1 _ => ?_
    obtain ⟨rfl, rfl⟩ := ok_inj.1 h1
    refine .ite (fun _ => .pure _) fun _ => ?_
    refine .bind0 (read_u8_good _).one fun o s2 _ h2 => ?_
    exact .bind0 (k := 0) (conv_good (hc o)) fun q s3 _ h3 => ih s3 _ (by omega)

theorem Unsubscribe.readLoop_good (fuel : Nat) (acc : List String) (hf : s.length < fuel) :
    Good One 0 (Unsubscribe.readLoop fuel acc) s := by
  induction fuel generalizing s acc with
  | zero => omega
  | succ k ih =>
    rw [Unsubscribe.readLoop]
    refine .bind0 .look fun _ s' h1 _ => ?_
    obtain ⟨rfl, rfl⟩ := ok_inj.1 h1
    refine .ite (fun _ => .pure _) fun _ => ?_
    exact .bind0 (read_mqtt_string_good _).one fun t s1 h0 h1 => ih s1 _ (by omega)

section
include hh

theorem Subscribe.read_good : Good One 0 (Subscribe.readM h) s := by
  unfold Subscribe.readM
  refine .bind0 (advance_good _ s hh) fun _ s _ _ => ?_
  refine .bind0 (read_u16_good s).one fun k s _ _ => ?_
  refine .bind0 (subscribe_good s) fun _ s _ _ => ?_
  refine .bind0 .look fun b s' h1 _ => ?_
  obtain ⟨rfl, rfl⟩ := ok_inj.1 h1
  exact .bind0 (Subscribe.readLoop_good _ _ _ (Nat.lt_succ_self _)) fun fs s _ _ => .pure _

theorem SubAck.read_good : Good One 0 (SubAck.readM h) s := by
  unfold SubAck.readM
  refine .bind0 (advance_good _ s hh) fun _ s _ _ => ?_
  refine .bind0 (read_u16_good s).one fun k s _ _ => ?_
  refine .bind0 (reason_good s) fun _ s _ _ => ?_
  refine .bind0 .look fun b s' h1 _ => ?_
  obtain ⟨rfl, rfl⟩ := ok_inj.1 h1
  refine .ite (fun _ => .fail _ (one_fail (by intro n; simp))) fun _ => ?_
  refine .bind0 (readCodesLoop_good _ _ (fun n => ?_) _ _ (Nat.lt_succ_self _)) fun fs s _ _ => .pure _
  unfold SubscribeReasonCode.try_from
  split
  all_goals first
    | exact .inl ⟨_, rfl⟩
    | exact .inr ⟨_, rfl, by intro n; simp⟩

theorem Unsubscribe.read_good : Good One 0 (Unsubscribe.readM h) s := by
  unfold Unsubscribe.readM
  refine .bind0 (advance_good _ s hh) fun _ s _ _ => ?_
  refine .bind0 (read_u16_good s).one fun k s _ _ => ?_
  refine .bind0 (unsubscribe_good s) fun _ s _ _ => ?_
  refine .bind0 .look fun b s' h1 _ => ?_
  obtain ⟨rfl, rfl⟩ := ok_inj.1 h1
  exact .bind0 (Unsubscribe.readLoop_good _ _ _ (Nat.lt_succ_self _)) fun fs s _ _ => .pure _

theorem UnsubAck.read_good : Good One 0 (UnsubAck.readM h) s := by
  unfold UnsubAck.readM
  refine .bind0 (advance_good _ s hh) fun _ s _ _ => ?_
  refine .bind0 (read_u16_good s).one fun k s _ _ => ?_
  refine .bind0 (reason_good s) fun _ s _ _ => ?_
  refine .bind0 .look fun b s' h1 _ => ?_
  obtain ⟨rfl, rfl⟩ := ok_inj.1 h1
  refine .ite (fun _ => .fail _ (one_fail (by intro n; simp))) fun _ => ?_
  refine .bind0 (readCodesLoop_good _ _ (fun n => ?_) _ _ (Nat.lt_succ_self _)) fun fs s _ _ => .pure _
  unfold UnsubAckReason.reason
  split
  all_goals first
    | exact .inl ⟨_, rfl⟩
    | exact .inr ⟨_, rfl, by intro n; simp⟩

theorem Disconnect.read_good : Good One 0 (Disconnect.readM h) s := by
  unfold Disconnect.readM
  refine .bind0 (advance_good _ s hh) fun _ s _ _ => ?_
  refine .ite (fun _ => .fail _ (one_fail (by intro n; simp))) fun _ => ?_
  refine .ite (fun _ => .fail _ (one_fail (by intro n; simp))) fun _ => ?_
  refine .ite (fun _ => .pure _) fun _ => ?_
  refine .bind0 (read_u8_good s).one fun r s _ _ => ?_
  refine .bind0 (k := 0) (conv_good ?_) fun _ s _ _ => ?_
  · unfold DisconnectReasonCode.try_from
    split
    all_goals first
      | exact .inl ⟨_, rfl⟩
      | exact .inr ⟨_, rfl, by intro n; simp⟩
  exact .bind0 (disconnect_good s) fun ps s _ _ => .pure _

theorem readFrame_good :
    (∃ p, readFrame h s = .ok p) ∨ ∃ e, readFrame h s = .err e ∧ One e := by
  unfold readFrame
  rcases packet_type_cases h with ⟨t, ht⟩ | ⟨_, ht⟩
  · rw [ht]
    simp only
    split
    · cases t
      all_goals first
        | exact .inl ⟨_, rfl⟩
        | exact .inr ⟨_, rfl, one_fail (by intro n; simp)⟩
    · cases t
      · exact onFrame_good _ (Connect.read_good h s hh)
      · exact onFrame_good _ (ConnAck.read_good h s hh)
      · exact onFrame_good _ (Publish.read_good h s hh)
      · exact onFrame_good _ (Ack.read_good h s hh _ _ PubAckReason.conv)
      · exact onFrame_good _ (Ack.read_good h s hh _ _ PubRecReason.conv)
      · exact onFrame_good _ (Ack.read_good h s hh _ _ PubRelReason.conv)
      · exact onFrame_good _ (Ack.read_good h s hh _ _ PubCompReason.conv)
      · exact onFrame_good _ (Subscribe.read_good h s hh)
      · exact onFrame_good _ (SubAck.read_good h s hh)
      · exact onFrame_good _ (Unsubscribe.read_good h s hh)
      · exact onFrame_good _ (UnsubAck.read_good h s hh)
      · exact .inl ⟨_, rfl⟩
      · exact .inl ⟨_, rfl⟩
      · exact onFrame_good _ (Disconnect.read_good h s hh)
  · rw [ht]; exact .inr ⟨_, rfl, one_fail (by intro n; simp)⟩
end

end Mqtt.V5
