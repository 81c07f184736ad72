import Verif.Proof.Good
import Verif.Proof.V4Read
/-! v4 decoding never panics, terminates, and content errors never ask for more bytes. -/
namespace Mqtt.V4
open Spec

theorem LastWill.read_good (f : UInt8) (s : Bytes) : Good NotMore 0 (LastWill.read f) s := by
  unfold LastWill.read
  refine .ite (fun _ => .ite (fun _ => .fail _ (by intro n; simp)) fun _ => .pure _) fun _ => ?_
  refine .bind0 (read_mqtt_string_good s) fun t s1 _ _ => ?_
  refine .bind0 (read_mqtt_bytes_good s1) fun m s2 _ _ => ?_
  exact .bind0 (.lift (qos_good _)) fun q s3 _ _ => .pure _

theorem Login.read_good (f : UInt8) (s : Bytes) : Good NotMore 0 (Login.read f) s := by
  unfold Login.read
  refine .bind0 (k := 0) (.ite (fun _ => .pure _) fun _ => (read_mqtt_string_good s).mono (fun _ h => h)
    (by omega)) fun u s1 _ _ => ?_
  refine .bind0 (k := 0) (.ite (fun _ => .pure _) fun _ => (read_mqtt_string_good s1).mono (fun _ h => h)
    (by omega)) fun p s2 _ _ => ?_
  exact .ite (fun _ => .pure _) fun _ => .pure _

variable (h : FixedHeader) (s : Bytes) (hh : h.fixed_header_len ≤ s.length)
include hh

theorem Connect.read_good : Good NotMore 0 (Connect.readM h) s := by
  unfold Connect.readM
  refine .bind0 (advance_good _ s hh) fun _ s _ _ => ?_
  refine .bind0 (read_mqtt_string_good s) fun nm s _ _ => ?_
  refine .bind0 (read_u8_good s) fun lv s _ _ => ?_
  refine .ite (fun _ => .fail _ (by intro n; simp)) fun _ => ?_
  refine .bind0 (k := 0) ?_ fun pr s _ _ => ?_
  · split
    · exact .pure _
    · exact .pure _
    · exact .fail _ (by intro n; simp)
  refine .bind0 (read_u8_good s) fun f s _ _ => ?_
  refine .bind0 (read_u16_good s) fun ka s _ _ => ?_
  refine .bind0 (read_mqtt_string_good s) fun id s _ _ => ?_
  refine .bind0 (LastWill.read_good f s) fun w s _ _ => ?_
  exact .bind0 (Login.read_good f s) fun l s _ _ => .pure _

theorem ConnAck.read_good : Good NotMore 0 (ConnAck.readM h) s := by
  unfold ConnAck.readM
  refine .bind0 (advance_good _ s hh) fun _ s _ _ => ?_
  refine .bind0 (read_u8_good s) fun f s _ _ => ?_
  refine .bind0 (read_u8_good s) fun c s _ _ => ?_
  refine .bind0 (k := 0) (.lift ?_) fun c s _ _ => .pure _
  unfold connect_return
  split
  all_goals first
    | exact .inl ⟨_, rfl⟩
    | exact .inr ⟨_, rfl, by intro n; simp⟩

theorem Publish.read_good : Good NotMore 0 (Publish.readM h) s := by
  unfold Publish.readM
  refine .bind0 (.lift (qos_good _)) fun q s1 h1 h2 => ?_
  have : s1 = s := by
    rw [lift_run] at h1; exact (Prod.mk.inj h1).2.symm
  subst this
  refine .bind0 (advance_good _ s1 hh) fun _ s _ _ => ?_
  refine .bind0 (read_mqtt_string_good s) fun t s _ _ => ?_
  refine .bind0 (k := 0) ?_ fun k s _ _ => ?_
  · cases q
    · exact .pure _
    · exact (read_u16_good s).mono (fun _ h => h) (by omega)
    · exact (read_u16_good s).mono (fun _ h => h) (by omega)
  refine .ite (fun _ => .fail _ (by intro n; simp)) fun _ => ?_
  exact .bind0 .look fun _ s _ _ => .pure _

theorem PubAck.read_good : Good NotMore 0 (PubAck.readM h) s := by
  unfold PubAck.readM
  refine .bind0 (advance_good _ s hh) fun _ s _ _ => ?_
  refine .bind0 (read_u16_good s) fun k s _ _ => ?_
  exact .ite (fun _ => .pure _) fun _ => .ite (fun _ => .pure _) fun _ => .pure _
theorem PubRec.read_good : Good NotMore 0 (PubRec.readM h) s := by
  unfold PubRec.readM
  refine .bind0 (advance_good _ s hh) fun _ s _ _ => ?_
  refine .bind0 (read_u16_good s) fun k s _ _ => ?_
  exact .ite (fun _ => .pure _) fun _ => .ite (fun _ => .pure _) fun _ => .pure _
theorem PubRel.read_good : Good NotMore 0 (PubRel.readM h) s := by
  unfold PubRel.readM
  refine .bind0 (advance_good _ s hh) fun _ s _ _ => ?_
  refine .bind0 (read_u16_good s) fun k s _ _ => ?_
  exact .ite (fun _ => .pure _) fun _ => .ite (fun _ => .pure _) fun _ => .pure _
theorem PubComp.read_good : Good NotMore 0 (PubComp.readM h) s := by
  unfold PubComp.readM
  refine .bind0 (advance_good _ s hh) fun _ s _ _ => ?_
  refine .bind0 (read_u16_good s) fun k s _ _ => ?_
  exact .ite (fun _ => .pure _) fun _ => .ite (fun _ => .pure _) fun _ => .pure _

omit hh h in
theorem Subscribe.readLoop_good (fuel : Nat) (acc : List SubscribeFilter) (hf : s.length < fuel) :
    Good NotMore 0 (Subscribe.readLoop fuel acc) s := by
  induction fuel generalizing s acc with
  | zero => omega
  | succ n ih =>
    rw [Subscribe.readLoop]
    refine .bind0 .look fun _ s' h1 _ => ?_
    obtain ⟨rfl, rfl⟩ := ok_inj.1 h1
    refine .ite (fun _ => .pure _) fun _ => ?_
    refine .bind0 (read_mqtt_string_good _) fun p s1 _ h1 => ?_
    refine .bind0 (read_u8_good _) fun o s2 _ h2 => ?_
    refine .bind0 (.lift (qos_good _)) fun q s3 _ h3 => ?_
    exact ih s3 _ (by omega)

theorem Subscribe.read_good : Good NotMore 0 (Subscribe.readM h) s := by
  unfold Subscribe.readM
  refine .bind0 (advance_good _ s hh) fun _ s _ _ => ?_
  refine .bind0 (read_u16_good s) fun k s _ _ => ?_
  refine .bind0 .look fun b s' h1 _ => ?_
  obtain ⟨rfl, rfl⟩ := ok_inj.1 h1
  refine .bind0 (Subscribe.readLoop_good _ _ _ (Nat.lt_succ_self _)) fun fs s _ _ => ?_
  split
  · exact .fail _ (by intro n; simp)
  · exact .pure _

omit hh h in
theorem SubAck.readLoop_good (fuel : Nat) (acc : List SubscribeReasonCode) (hf : s.length < fuel) :
    Good NotMore 0 (SubAck.readLoop fuel acc) s := by
  induction fuel generalizing s acc with
  | zero => omega
  | succ n ih =>
    rw [SubAck.readLoop]
    refine .bind0 .look fun _ s' h1 _ => ?_
    obtain ⟨rfl, rfl⟩ := ok_inj.1 h1
    refine .ite (fun _ => .pure _) fun _ => ?_
    refine .bind0 (read_u8_good _) fun o s2 _ h2 => ?_
    refine .bind0 (k := 0) (.lift ?_) fun q s3 _ h3 => ih s3 _ (by omega)
    unfold SubscribeReasonCode.try_from
    split
    all_goals first
      | exact .inl ⟨_, rfl⟩
      | exact .inr ⟨_, rfl, by intro n; simp⟩

theorem SubAck.read_good : Good NotMore 0 (SubAck.readM h) s := by
  unfold SubAck.readM
  refine .bind0 (advance_good _ s hh) fun _ s _ _ => ?_
  refine .bind0 (read_u16_good s) fun k s _ _ => ?_
  refine .bind0 .look fun b s' h1 _ => ?_
  obtain ⟨rfl, rfl⟩ := ok_inj.1 h1
  refine .ite (fun _ => .fail _ (by intro n; simp)) fun _ => ?_
  exact .bind0 (SubAck.readLoop_good _ _ _ (Nat.lt_succ_self _)) fun fs s _ _ => .pure _

omit hh h in
theorem Unsubscribe.readLoop_good (fuel : Nat) (acc : List String) (n : Nat) (hn : n = s.length)
    (hf : s.length < fuel) :
    Good NotMore 0 (Unsubscribe.readLoop fuel n acc) s := by
  induction fuel generalizing s acc n with
  | zero => omega
  | succ k ih =>
    rw [Unsubscribe.readLoop]
    refine .ite (fun _ => ?_) fun _ => .pure _
    refine .bind0 (read_mqtt_string_good _) fun t s1 h0 h1 => ?_
    obtain ⟨_, rfl⟩ := (read_mqtt_string_iff _ _ _).1 h0
    have hle : strLen t + 2 ≤ n := by
      rw [hn]; simp only [List.length_append, str_len, strLen_eq]; omega
    refine .bind0 (usub_good _ _ _ hle) fun n' s2 h2 _ => ?_
    unfold usub at h2
    rw [if_pos hle, pure_run] at h2
    obtain ⟨rfl, rfl⟩ := ok_inj.1 h2
    refine ih s1 _ _ ?_ (by omega)
    rw [hn]; simp only [List.length_append, str_len, strLen_eq]; omega

theorem Unsubscribe.read_good (hr : h.remaining_len + h.fixed_header_len = s.length) :
    Good NotMore 0 (Unsubscribe.readM h) s := by
  unfold Unsubscribe.readM
  refine .bind0 (advance_good _ s hh) fun _ s1 h1 _ => ?_
  obtain ⟨_, rfl⟩ := (advance_iff _ _ _ _).1 h1
  refine .bind0 (read_u16_good _) fun k s2 h2 _ => ?_
  rw [read_u16_iff] at h2
  have hl := congrArg List.length h2
  simp only [List.length_drop, List.length_append, u16_len] at hl
  have hle : 2 ≤ h.remaining_len := by omega
  refine .bind0 (usub_good _ _ _ hle) fun n' s3 h3 _ => ?_
  unfold usub at h3
  rw [if_pos hle, pure_run] at h3
  obtain ⟨rfl, rfl⟩ := ok_inj.1 h3
  refine .bind0 .look fun b s' h1 _ => ?_
  obtain ⟨rfl, rfl⟩ := ok_inj.1 h1
  exact .bind0 (Unsubscribe.readLoop_good _ _ _ _ (by omega) (Nat.lt_succ_self _))
    fun fs s _ _ => .pure _

theorem UnsubAck.read_good : Good NotMore 0 (UnsubAck.readM h) s := by
  unfold UnsubAck.readM
  refine .ite (fun _ => .fail _ (by intro n; simp)) fun _ => ?_
  refine .bind0 (advance_good _ s hh) fun _ s _ _ => ?_
  exact .bind0 (read_u16_good s) fun k s _ _ => .pure _

omit hh h s in
theorem onFrame_good {α β : Type} {E : Error → Prop} {k : Nat} {m : M α} {s : Bytes} (w : α → β)
    (hg : Good E k m s) :
    (∃ p, onFrame m s w = .ok p) ∨ ∃ e, onFrame m s w = .err e ∧ E e := by
  unfold onFrame
  rcases hg.res with ⟨a, ha⟩ | ⟨e, he, hE⟩
  · rw [ha]; exact .inl ⟨_, rfl⟩
  · rw [he]; exact .inr ⟨e, rfl, hE⟩

theorem readFrame_good (hr : h.remaining_len + h.fixed_header_len = s.length) :
    (∃ p, readFrame h s = .ok p) ∨ ∃ e, readFrame h s = .err e ∧ NotMore e := by
  unfold readFrame
  rcases packet_type_cases h with ⟨t, ht⟩ | ⟨_, ht⟩
  · rw [ht]
    simp only
    split
    · cases t
      all_goals first
        | exact .inl ⟨_, rfl⟩
        | exact .inr ⟨_, rfl, by intro n; simp⟩
    · cases t
      · exact onFrame_good _ (Connect.read_good h s hh)
      · exact onFrame_good _ (ConnAck.read_good h s hh)
      · exact onFrame_good _ (Publish.read_good h s hh)
      · exact onFrame_good _ (PubAck.read_good h s hh)
      · exact onFrame_good _ (PubRec.read_good h s hh)
      · exact onFrame_good _ (PubRel.read_good h s hh)
      · exact onFrame_good _ (PubComp.read_good h s hh)
      · exact onFrame_good _ (Subscribe.read_good h s hh)
      · exact onFrame_good _ (SubAck.read_good h s hh)
      · exact onFrame_good _ (Unsubscribe.read_good h s hh hr)
      · exact onFrame_good _ (UnsubAck.read_good h s hh)
      · exact .inl ⟨_, rfl⟩
      · exact .inl ⟨_, rfl⟩
      · exact .inl ⟨_, rfl⟩
  · rw [ht]; exact .inr ⟨_, rfl, by intro n; simp⟩

end Mqtt.V4
