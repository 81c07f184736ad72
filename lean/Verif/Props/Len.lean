import Verif.Props.V5Write
import Verif.Spec.Len
/-! C63: the public `len()` methods. -/
namespace Props
open Mqtt Spec
open Mqtt.V4 (frame_length)

/-! ### v4 -/
section
open Mqtt.V4

theorem predicts_v4 (p : V4.Packet) (hc : ∀ c, p ≠ .Connect c) (n : Nat)
    (hn : n = (Spec.V4.body p).length) (hm : ∀ q, p = .Publish q → q.qos ≠ .AtMostOnce → q.pkid ≠ 0) :
    Predicts n p.write := by
  subst hn
  intro s
  have hM : maxRemaining = 268435455 := rfl
  rcases V4.write_cases p hc s with ⟨h, _, e⟩ | ⟨h, _, t, ht, e⟩ | ⟨q, rfl, h1, h2, _⟩
  · rw [e]; simp
  · rw [e]
    refine ⟨fun h' => by omega, fun n s' h' => ?_⟩
    simp only [Prod.mk.injEq, Res.ok.injEq] at h'
    rw [← h'.2, List.length_append, ht, Spec.V4.encode, frame_length]
    omega
  · exact absurd h2 (hm q rfl h1)

/-- C63 (v4): `Connect::len` -/
theorem C63_v4_connect_len (c : V4.Connect) : Predicts c.len c.write := by
  intro s
  have hM : maxRemaining = 268435455 := rfl
  rcases V4.Connect.write_cases c s with ⟨h, e⟩ | ⟨h, t, f, ht, e⟩ <;> rw [e, V4.Connect.len_eq]
  · simp
  · refine ⟨fun h' => by omega, fun n s' h' => ?_⟩
    simp only [Prod.mk.injEq, Res.ok.injEq] at h'
    rw [← h'.2, List.length_set, List.length_append, ht, Spec.V4.encode, frame_length]
    omega

/-- C63 (v4): `Publish::len`, also for packets which `write` refuses -/
theorem C63_v4_publish_len (p : V4.Publish) : Predicts p.len p.write := by
  by_cases hm : p.qos ≠ .AtMostOnce → p.pkid ≠ 0
  · exact predicts_v4 (.Publish p) (by simp) _ (V4.Publish.len_eq p hm) (by rintro _ ⟨⟩; exact hm)
  · push Not at hm
    intro s
    refine ⟨fun h => ?_, fun n s' h => ?_⟩
    · unfold V4.Publish.write
      mrun [putU8_run, write_remaining_length_too_long (show maxRemaining < p.len from h)]
    · rcases V4.write_cases (.Publish p) (by simp) s with ⟨_, h', _⟩ | ⟨_, h', _⟩ | ⟨q, hq, h1, h2, e, t, _, e', _⟩
      · exact absurd hm.2 (h' p rfl hm.1)
      · exact absurd hm.2 (h' p rfl hm.1)
      · have e'' : p.write s = _ := e'
        rw [e''] at h; simp at h

/-- C63 (v4): `Subscribe::len` -/
theorem C63_v4_subscribe_len (p : V4.Subscribe) : Predicts p.len p.write :=
  predicts_v4 (.Subscribe p) (by simp) _ (V4.Subscribe.len_eq p) (by simp)

/-- C63 (v4): `SubAck::len` -/
theorem C63_v4_suback_len (p : V4.SubAck) : Predicts p.len p.write :=
  predicts_v4 (.SubAck p) (by simp) _ (V4.SubAck.len_eq p) (by simp)

/-- C63 (v4): `SubscribeFilter::len` is the size of one filter: adding a filter to a SUBSCRIBE adds that
much to its length, and a SUBSCRIBE without filters has two bytes. -/
theorem C63_v4_filter_len (k : UInt16) (fs : List V4.SubscribeFilter) :
    V4.Subscribe.len ⟨k, fs⟩ = 2 + (fs.map V4.SubscribeFilter.len).sum := by
  unfold V4.Subscribe.len
  rw [V4.foldl_len, Nat.zero_add]

end

/-! ### v5 -/

theorem predicts_v5 (p : V5.Packet) (hc : ∀ c, p ≠ .Connect c) (n : Nat)
    (hn : n = (Spec.V5.wireBody p).length) (hm : Spec.V5.PkidOk p) : Predicts n p.write := by
  subst hn
  intro s
  have hM : maxRemaining = 268435455 := rfl
  rcases V5.write_cases p hc s with ⟨h, _, _, t, ht, e⟩ | ⟨t, e, h⟩ | ⟨t, e, h⟩ <;> rw [e]
  · refine ⟨fun h' => by omega, fun n s' h' => ?_⟩
    simp only [Prod.mk.injEq, Res.ok.injEq] at h'
    rw [← h'.2, List.length_append, ht, frame_length]
    omega
  · simp
  · exact absurd hm h

/-- C63 (v5): `Connect::len` -/
theorem C63_v5_connect_len (c : V5.Connect) : Predicts c.len c.write := by
  intro s
  have hM : maxRemaining = 268435455 := rfl
  rcases V5.Connect.write_cases c s with ⟨h, e⟩ | ⟨h, t, f, ht, e⟩ <;> rw [e, V5.Connect.len_eq]
  · simp
  · refine ⟨fun h' => by omega, fun n s' h' => ?_⟩
    simp only [Prod.mk.injEq, Res.ok.injEq] at h'
    rw [← h'.2, List.length_set, List.length_append, ht, Spec.V5.encode, frame_length]
    omega

/-- C63 (v5): `Publish::len`, also for packets which `write` refuses -/
theorem C63_v5_publish_len (p : V5.Publish) : Predicts p.len p.write := by
  by_cases hm : p.qos ≠ .AtMostOnce → p.pkid ≠ 0
  · exact predicts_v5 (.Publish p) (by simp) _ (V5.Publish.len_eq p hm) (by
      simp only [Spec.V5.PkidOk]; exact hm)
  · intro s
    refine ⟨fun h => ?_, fun n s' h => ?_⟩
    · unfold V5.Publish.write
      mrun [putU8_run, write_remaining_length_too_long (show maxRemaining < p.len from h)]
    · rcases V5.write_cases (.Publish p) (by simp) s with ⟨_, _, h', _⟩ | ⟨t, e, _⟩ | ⟨t, e, _⟩
      · exact absurd h' hm
      all_goals
        have e'' : p.write s = _ := e
        rw [e''] at h; simp at h

/-- C63 (v5): `Subscribe::len` -/
theorem C63_v5_subscribe_len (p : V5.Subscribe) : Predicts p.len p.write :=
  predicts_v5 (.Subscribe p) (by simp) _ (V5.Subscribe.len_eq p) trivial

/-- C63 (v5): `SubAck::len` -/
theorem C63_v5_suback_len (p : V5.SubAck) : Predicts p.len p.write :=
  predicts_v5 (.SubAck p) (by simp) _ (V5.SubAck.len_eq p) trivial

/-- C63 (v5): `Unsubscribe::len` -/
theorem C63_v5_unsubscribe_len (p : V5.Unsubscribe) : Predicts p.len p.write :=
  predicts_v5 (.Unsubscribe p) (by simp) _ (V5.Unsubscribe.len_eq p) trivial

/-- C63 (v5): `UnsubAck::len` -/
theorem C63_v5_unsuback_len (p : V5.UnsubAck) : Predicts p.len p.write :=
  predicts_v5 (.UnsubAck p) (by simp) _ (V5.UnsubAck.len_eq p) trivial

/-- C63 (v5): the `len()` methods of the property sets are the number of bytes of their properties in
MQTT 5.0 encoding (identifier and value of each property which is present). -/
theorem C63_v5_properties_len :
    (∀ p : V5.PubAckProperties, V5.PubAckProperties.len p = (Spec.V5.encAll (Spec.V5.reasonProps p)).length) ∧
    (∀ p : V5.PubRecProperties, V5.PubRecProperties.len p = (Spec.V5.encAll (Spec.V5.reasonProps p)).length) ∧
    (∀ p : V5.PubRelProperties, V5.PubRelProperties.len p = (Spec.V5.encAll (Spec.V5.reasonProps p)).length) ∧
    (∀ p : V5.PubCompProperties, V5.PubCompProperties.len p = (Spec.V5.encAll (Spec.V5.reasonProps p)).length) ∧
    (∀ p : V5.SubAckProperties, V5.SubAckProperties.len p = (Spec.V5.encAll (Spec.V5.reasonProps p)).length) ∧
    (∀ p : V5.UnsubAckProperties, V5.UnsubAckProperties.len p = (Spec.V5.encAll (Spec.V5.reasonProps p)).length) ∧
    (∀ p : V5.WillProperties, p.len = (Spec.V5.encAll (Spec.V5.willProps p)).length) ∧
    (∀ p : V5.ConnectProperties, p.len = (Spec.V5.encAll (Spec.V5.connectProps p)).length) ∧
    (∀ p : V5.ConnAckProperties, p.len = (Spec.V5.encAll (Spec.V5.connackProps p)).length) ∧
    (∀ p : V5.PublishProperties, p.len = (Spec.V5.encAll (Spec.V5.publishProps p)).length) ∧
    (∀ p : V5.SubscribeProperties, p.len = (Spec.V5.encAll (Spec.V5.subscribeProps p)).length) ∧
    (∀ p : V5.UnsubscribeProperties, p.len = (Spec.V5.encAll (Spec.V5.unsubscribeProps p)).length) ∧
    (∀ p : V5.DisconnectProperties, p.len = (Spec.V5.encAll (Spec.V5.disconnectProps p)).length) :=
  ⟨V5.reason_len, V5.reason_len, V5.reason_len, V5.reason_len, V5.reason_len, V5.reason_len, V5.will_len, V5.connect_len, V5.connack_len, V5.publish_len, V5.subscribe_len,
    V5.unsubscribe_len, V5.disconnect_len⟩

/-- C63 (v5): `SubscribeFilter::len` is the size of one filter -/
theorem C63_v5_filter_len (k : UInt16) (fs : List V5.SubscribeFilter) :
    V5.Subscribe.len ⟨k, fs, none⟩ = 3 + (fs.map V5.SubscribeFilter.len).sum := by
  show 2 + fs.foldl (fun s t => s + t.len) 0 + 1 = _
  rw [V4.foldl_len, Nat.zero_add]; omega

/-! ### witnesses -/
example : V4.Publish.len ⟨false, .AtLeastOnce, false, "a/b", 7, [1, 2, 3]⟩ = 10 := by decide +kernel
example : (V4.Publish.write ⟨false, .AtLeastOnce, false, "a/b", 7, [1, 2, 3]⟩ [9]).2.length = 1 + 1 + 1 + 10 := by
  decide +kernel
/-- a refused publish: `len` leaves out the packet id -/
example : V4.Publish.len ⟨false, .AtLeastOnce, false, "a/b", 0, [1, 2, 3]⟩ = 8 := by decide +kernel
example : (V5.Connect.new "id").len = 15 ∧ ((V5.Connect.new "id").write []).2.length = 17 := by decide +kernel
example : V5.Subscribe.len ⟨1, [⟨"a", .AtLeastOnce, true, false, .Never⟩], some ⟨some 300, [("k", "v")]⟩⟩ = 17 := by
  decide +kernel
end Props
