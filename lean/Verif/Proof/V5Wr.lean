import Verif.Proof.V4Wr
import Verif.Proof.V5Spec
/-! v5 writers on arbitrary packets (also those that are not well formed). -/
set_option linter.unusedSimpArgs false
namespace Mqtt.V5
open Mqtt Spec
open Spec.V5
open Spec.V4 (qosNum level)
open _root_.Mqtt.V4 (strLen_eq frame_length foldl_len flatMap_length publish_byte1 mqtt_len)

/-- errors of v5 writers -/
abbrev Long (e : Error) : Prop := e = .PayloadTooLong

theorem hdrWrite_x {D : Prop} {b : UInt8} {n : Nat} {k : Nat → M Nat}
    (hk : WrX D Long n (1 + (vbi n).length + n) (k (vbi n).length)) (s : Bytes) :
    (n ≤ maxRemaining ∧ D ∧ ∃ t, t.length = 1 + (vbi n).length + n ∧
      hdrWrite b n k s = (.ok t.length, s ++ t)) ∨
    ((maxRemaining < n ∨ ¬ D) ∧ ∃ t, hdrWrite b n k s = (.err .PayloadTooLong, s ++ b :: t)) := by
  by_cases hn : n ≤ maxRemaining
  · by_cases hD : D
    · left
      refine ⟨hn, hD, ?_⟩
      have h := WrN.seq (putU8_N b) (WrN.bind (f := k) (write_remaining_length_N hn) (hk.ok hD))
      obtain ⟨t, ht, h⟩ := h s
      refine ⟨t, by omega, ?_⟩
      rw [show t.length = 1 + (vbi n).length + n by omega]
      exact h
    · right
      refine ⟨.inr hD, ?_⟩
      obtain ⟨t, e, ht, rfl⟩ := hk.bad hD (s ++ [b] ++ vbi n)
      refine ⟨vbi n ++ t, ?_⟩
      unfold hdrWrite
      mrun [putU8_run, write_remaining_length_run hn]
      rw [ht]; simp
  · right
    exact ⟨.inl (by omega), [], hdrWrite_long (by omega) s⟩

/-- all variable byte integers of a property set fit -/
def PropsVbi {π : Type} (props : π → List Property) (o : Option π) : Prop :=
  ∀ p, o = some p → (∀ q ∈ props p, VbiFits q.val) ∧ (encAll (props p)).length ≤ maxRemaining

section
variable {π : Type} {kind : Nat → Option Kind} {props : π → List Property}
  {dec : List Property → π} {step : PropStep π} {len : π → Nat} {write : π → M Unit}
  (S : PropSet kind props dec step len write)
include S
theorem writeOrZero_x (o : Option π) :
    WrX (PropsVbi props o) Long (optSec props o).length () (writePropsOrZero write o) := by
  cases o with
  | none =>
    refine .of_N ?_ (by intro p h; simp at h)
    exact (WrN.bind (write_remaining_length_N (n := 0) (by decide)) (.pure ())).cast rfl
  | some p => exact (S.chunk p).wrx.cast rfl (by simp [PropsVbi])

theorem ifSome_x (o : Option π) :
    WrX (PropsVbi props o) Long (presentSec props o).length () (ifSome o write) := by
  cases o with
  | none => exact .of_N (.pure ()) (by intro p h; simp at h)
  | some p => exact (S.chunk p).wrx.cast rfl (by simp [PropsVbi])

theorem propsVbi_of (hk : ∀ i, kind i ≠ some .vbi) (o : Option π)
    (hl : ∀ p, o = some p → (sec (props p)).length ≤ maxRemaining) : PropsVbi props o := by
  intro p hp
  refine ⟨fun q hq => ?_, ?_⟩
  · have h := (S.kinds p q hq).2
    cases hv : q.val
    case vbi n => rw [hv] at h; exact absurd h (hk _)
    all_goals trivial
  · have := hl p hp
    simp only [sec, List.length_append] at this; omega
end

theorem presentSec_len {π : Type} {props : π → List Property} {o : Option π} {p : π}
    (h : o = some p) : (sec (props p)).length = (presentSec props o).length := by
  rw [h]; rfl
theorem optSec_some_len {π : Type} {props : π → List Property} {o : Option π} {p : π}
    (h : o = some p) : (sec (props p)).length = (optSec props o).length := by
  rw [h]; rfl

theorem publish_ids (p : Publish) (hl : (optSec publishProps p.properties).length ≤ maxRemaining) :
    PropsVbi publishProps p.properties ↔ IdsOk (.Publish p) := by
  constructor
  · intro h q hq n hn
    exact (h q hq).1 ⟨11, .vbi n⟩ (by simp [publishProps, hn])
  · intro h q hq
    refine ⟨fun r hr => ?_, ?_⟩
    · have hk := (publish_kinds q r hr).2
      cases hv : r.val
      case vbi n =>
        simp only [publishProps, List.mem_append, mem_opt, mem_users, mem_ids] at hr
        rcases hr with ((((((⟨_, _, h'⟩ | ⟨_, _, h'⟩) | ⟨_, _, h'⟩) | ⟨_, _, h'⟩) | ⟨_, _, h'⟩) | ⟨_, _, h'⟩) | ⟨n', h1, h'⟩) | ⟨_, _, h'⟩
        all_goals (subst h'; simp at hv)
        subst hv; exact h q hq _ h1
      all_goals trivial
    · rw [← optSec_some_len hq] at hl
      simp only [sec, List.length_append] at hl; omega

theorem subscribe_ids (p : Subscribe) (hl : (optSec subscribeProps p.properties).length ≤ maxRemaining) :
    PropsVbi subscribeProps p.properties ↔ IdsOk (.Subscribe p) := by
  constructor
  · intro h q hq n hn
    exact (h q hq).1 ⟨11, .vbi n⟩ (by simp [subscribeProps, hn, opt])
  · intro h q hq
    refine ⟨fun r hr => ?_, ?_⟩
    · cases hv : r.val
      case vbi n =>
        simp only [subscribeProps, List.mem_append, mem_opt, mem_users] at hr
        rcases hr with ⟨n', h1, h'⟩ | ⟨_, _, h'⟩
        all_goals (subst h'; simp at hv)
        subst hv; exact h q hq _ h1
      all_goals trivial
    · rw [← optSec_some_len hq] at hl
      simp only [sec, List.length_append] at hl; omega

/-- what a v5 writer other than CONNECT does on an arbitrary packet -/
def WriteCases (p : Packet) (s : Bytes) : Prop :=
  ((wireBody p).length ≤ maxRemaining ∧ IdsOk p ∧ PkidOk p ∧
    ∃ t, t.length = (frame (byte1 p) (wireBody p)).length ∧ p.write s = (.ok t.length, s ++ t)) ∨
  (∃ t, p.write s = (.err .PayloadTooLong, s ++ UInt8.ofNat (byte1 p) :: t) ∧
    (maxRemaining < (wireBody p).length ∨ ¬ IdsOk p)) ∨
  (∃ t, p.write s = (.err .PacketIdZero, s ++ UInt8.ofNat (byte1 p) :: t) ∧ ¬ PkidOk p)

theorem cases_of_hdr (p : Packet) (s : Bytes) {D : Prop} {b : UInt8} {k : Nat → M Nat}
    (h1 : p.write = hdrWrite b (wireBody p).length k) (h2 : b = UInt8.ofNat (byte1 p))
    (h3 : WrX D Long (wireBody p).length (1 + (vbi (wireBody p).length).length + (wireBody p).length)
      (k (vbi (wireBody p).length).length))
    (h4 : (wireBody p).length ≤ maxRemaining → (D ↔ IdsOk p)) (h5 : PkidOk p) : WriteCases p s := by
  rcases hdrWrite_x (b := b) h3 s with ⟨hn, hD, t, ht, h⟩ | ⟨hD, t, h⟩
  · exact .inl ⟨hn, (h4 hn).1 hD, h5, t, by rw [ht, frame_length], by rw [h1, h]⟩
  · refine .inr (.inl ⟨t, by rw [h1, h, h2], ?_⟩)
    by_cases hn : maxRemaining < (wireBody p).length
    · exact .inl hn
    · rcases hD with h | h
      · exact absurd h hn
      · exact .inr fun h' => h ((h4 (by omega)).2 h')

theorem ack_cases {R : Type} [DecidableEq R] (success : R) (code : R → Nat)
    (h0 : ∀ r, code r = 0 ↔ r = success) (b1 : UInt8) (toU8 : R → UInt8) (a : Ack R)
    (p : Packet) (s : Bytes) (hw : p.write = a.write b1 success toU8) (hb : b1 = UInt8.ofNat (byte1 p))
    (hbody : wireBody p = ackBody code a) (hi : IdsOk p) (hk : PkidOk p) : WriteCases p s := by
  refine cases_of_hdr p s (D := PropsVbi reasonProps a.properties) (b := b1) (k := fun count => do
    putU16 a.pkid
    if a.reason = success ∧ a.properties = none then pure 4 else
    putU8 (toU8 a.reason)
    ifSome a.properties ReasonProps.write
    pure (1 + count + (ackBody code a).length)) ?_ hb ?_ ?_ hk
  · rw [hw, hbody, ← ack_len success code h0]; rfl
  · rw [hbody]
    by_cases h : a.reason = success ∧ a.properties = none
    · have e : ackBody code a = u16 a.pkid.toNat := by
        unfold ackBody; rw [h.2, h.1]; simp [(h0 success).2 rfl]
      simp only [if_pos h, e, u16_len]
      refine .of_N ((putU16_N _).seq (.pure 4)) ?_
      rw [h.2]; intro p hp; simp at hp
    · simp only [if_neg h]
      have e : (ackBody code a).length = 2 + (1 + ((presentSec reasonProps a.properties).length + 0)) := by
        unfold ackBody
        cases hp : a.properties with
        | none =>
          have : a.reason ≠ success := fun h' => h ⟨h', hp⟩
          simp [(h0 a.reason).not.2 this, presentSec, u16_len, u8_len]
        | some p => simp [presentSec, u16_len, u8_len]
      refine (WrX.after (putU16_N _) (WrX.after (putU8_N _)
        ((ifSome_x reason_set a.properties).beforeU (.pure _)))).cast e.symm Iff.rfl
  · intro hl
    refine ⟨fun _ => hi, fun _ => propsVbi_of reason_set no_vbi_reason _ fun q hq => ?_⟩
    rw [hbody, ackBody, hq] at hl
    simp only [List.length_append] at hl; omega

theorem write_cases (p : Packet) (hc : ∀ c, p ≠ .Connect c) (s : Bytes) : WriteCases p s := by
  cases p with
  | Connect c => exact absurd rfl (hc c)
  | ConnAck c =>
    have e : (wireBody (.ConnAck c)).length = 1 + (1 + ((presentSec connackProps c.properties).length + 0)) := by
      unfold wireBody
      cases hp : c.properties <;> simp [presentSec, u8_len, hp]
    have e2 : c.len = (wireBody (.ConnAck c)).length := by
      rw [e]; unfold ConnAck.len
      cases hp : c.properties with
      | none => rfl
      | some p => simp [presentSec, propSectionLen_eq connack_set]; omega
    refine cases_of_hdr _ s (D := PropsVbi connackProps c.properties) (b := 0x20) (k := fun count => do
      putU8 (boolU8 c.session_present)
      putU8 c.code.toU8
      ifSome c.properties ConnAckProperties.write
      pure (1 + count + c.len)) ?_ rfl ?_ ?_ trivial
    · rw [← e2]; rfl
    · rw [e2]
      exact (WrX.after (putU8_N _) (WrX.after (putU8_N _)
        ((ifSome_x connack_set c.properties).beforeU (.pure _)))).cast e.symm Iff.rfl
    · intro hl
      refine ⟨fun _ => trivial, fun _ => propsVbi_of connack_set no_vbi_connack _ fun q hq => ?_⟩
      rw [presentSec_len hq]; omega
  | Publish q =>
    by_cases hq : q.qos ≠ .AtMostOnce ∧ q.pkid = 0
    · right
      have hnk : ¬ PkidOk (.Publish q) := fun h => h hq.1 hq.2
      let n := q.len
      have hn : n + 2 = (wireBody (.Publish q)).length := by
        simp only [n, wireBody, body, List.length_append, Publish.len, hq.1, hq.2, optSec_len publish_set,
          strLen_eq, str_len, u16_len, if_false]
        simp; omega
      let k : Nat → M Nat := fun count => do
        write_mqtt_string q.topic
        (if q.qos ≠ .AtMostOnce then
          (if q.pkid = 0 then M.fail .PacketIdZero else putU16 q.pkid)
        else pure () : M Unit)
        writePropsOrZero PublishProperties.write q.properties
        putSlice q.payload
        pure (1 + count + q.len)
      have hw : (Packet.Publish q).write = hdrWrite ((0b00110000 : UInt8) ||| boolU8 q.retain
        ||| (q.qos.toU8 <<< 1) ||| (boolU8 q.dup <<< 3)) n k := rfl
      rw [hw, publish_byte1]
      by_cases hl : n ≤ maxRemaining
      · right
        obtain ⟨t, _, ht⟩ := write_mqtt_string_N q.topic (s ++ [UInt8.ofNat (byte1 (.Publish q))] ++ vbi n)
        refine ⟨vbi n ++ t, ?_, hnk⟩
        unfold hdrWrite
        rw [bind_run, putU8_run, andThen_ok, bind_run, write_remaining_length_run hl, andThen_ok]
        simp only [k]
        rw [bind_run]
        refine (congrArg (fun x => M.andThen x _) ht).trans ?_
        rw [andThen_ok, bind_run, if_pos hq.1, if_pos hq.2, fail_run, andThen_err]
        simp
      · left
        exact ⟨[], hdrWrite_long (by omega) s, .inl (by omega)⟩
    · have hm : q.qos ≠ .AtMostOnce → q.pkid ≠ 0 := fun h1 h2 => hq ⟨h1, h2⟩
      refine cases_of_hdr _ s (D := PropsVbi publishProps q.properties)
        (b := (0b00110000 : UInt8) ||| boolU8 q.retain ||| (q.qos.toU8 <<< 1) ||| (boolU8 q.dup <<< 3))
        (k := fun c => do
          write_mqtt_string q.topic
          (if q.qos ≠ .AtMostOnce then
            (if q.pkid = 0 then M.fail .PacketIdZero else putU16 q.pkid)
            else pure () : M Unit)
          writePropsOrZero PublishProperties.write q.properties
          putSlice q.payload
          pure (1 + c + (body (.Publish q)).length)) ?_ (publish_byte1 _ _ _) ?_ ?_ hm
      · show _ = hdrWrite _ (body (.Publish q)).length _
        rw [← Publish.len_eq q hm]; rfl
      · show WrX _ _ (body (.Publish q)).length _ _
        refine (WrX.after (write_mqtt_string_N _) (WrX.after (n := if q.qos = .AtMostOnce then 0 else 2) (a := ())
          ?_ ((writeOrZero_x publish_set q.properties).before (WrN.seq (putSlice_N _) (.pure _))))).cast ?_ Iff.rfl
        · by_cases h : q.qos = .AtMostOnce
          · simp only [h, ne_eq, not_true, if_false, if_true]; exact .pure _
          · rw [if_pos h, if_neg (hm h), if_neg h]; exact putU16_N _
        · by_cases h : q.qos = .AtMostOnce
          · simp [body, h, str_len]
          · simp [body, h, str_len, u16_len]
      · intro hl
        refine publish_ids q ?_
        simp only [wireBody, body, List.length_append] at hl; omega
  | PubAck q => exact ack_cases .Success pubackCode puback_zero 0x40 PubAckReason.toU8 q _ s rfl rfl rfl trivial trivial
  | PubRec q => exact ack_cases .Success pubrecCode pubrec_zero 0x50 PubRecReason.toU8 q _ s rfl rfl rfl trivial trivial
  | PubRel q => exact ack_cases .Success pubrelCode pubrel_zero 0x62 PubRelReason.toU8 q _ s rfl rfl rfl trivial trivial
  | PubComp q => exact ack_cases .Success pubcompCode pubcomp_zero 0x70 PubCompReason.toU8 q _ s rfl rfl rfl trivial trivial
  | Subscribe q =>
    refine cases_of_hdr _ s (D := PropsVbi subscribeProps q.properties) (b := 0x82) (k := fun c => do
      putU16 q.pkid
      writePropsOrZero SubscribeProperties.write q.properties
      forEach q.filters SubscribeFilter.write
      pure (1 + c + (body (.Subscribe q)).length)) ?_ rfl ?_ ?_ trivial
    · show _ = hdrWrite _ (body (.Subscribe q)).length _
      rw [← Subscribe.len_eq]; rfl
    · show WrX _ _ (body (.Subscribe q)).length _ _
      refine (WrX.after (putU16_N _) ((writeOrZero_x subscribe_set q.properties).before
        ((forEach_N q.filters SubscribeFilter.write SubscribeFilter.len fun f => ?_).seq (.pure _)))).cast
        ?_ Iff.rfl
      · exact (write_mqtt_string_N f.path).seq (putU8_N _)
      · rw [← Subscribe.len_eq]
        unfold Subscribe.len; simp only [optSec_len subscribe_set]; rw [foldl_len]; omega
    · intro hl
      refine subscribe_ids q ?_
      simp only [wireBody, body, List.length_append] at hl; omega
  | SubAck q =>
    refine cases_of_hdr _ s (D := PropsVbi reasonProps q.properties) (b := 0x90) (k := fun c => do
      putU16 q.pkid
      writePropsOrZero ReasonProps.write q.properties
      putSlice (q.return_codes.map SubscribeReasonCode.toU8)
      pure (1 + c + (body (.SubAck q)).length)) ?_ rfl ?_ ?_ trivial
    · show _ = hdrWrite _ (body (.SubAck q)).length _
      rw [← SubAck.len_eq]; rfl
    · show WrX _ _ (body (.SubAck q)).length _ _
      refine (WrX.after (putU16_N _) ((writeOrZero_x reason_set q.properties).before
        ((putSlice_N _).seq (.pure _)))).cast ?_ Iff.rfl
      rw [← SubAck.len_eq]
      unfold SubAck.len; rw [SubAckProperties.len_eq]; simp only [optSec_len reason_set]; simp; omega
    · intro hl
      refine ⟨fun _ => trivial, fun _ => propsVbi_of reason_set no_vbi_reason _ fun p hp => ?_⟩
      rw [optSec_some_len hp]
      simp only [wireBody, body, List.length_append] at hl; omega
  | Unsubscribe q =>
    refine cases_of_hdr _ s (D := PropsVbi unsubscribeProps q.properties) (b := 0xA2) (k := fun c => do
      putU16 q.pkid
      writePropsOrZero UnsubscribeProperties.write q.properties
      forEach q.filters write_mqtt_string
      pure (1 + c + (body (.Unsubscribe q)).length)) ?_ rfl ?_ ?_ trivial
    · show _ = hdrWrite _ (body (.Unsubscribe q)).length _
      rw [← Unsubscribe.len_eq]; rfl
    · show WrX _ _ (body (.Unsubscribe q)).length _ _
      refine (WrX.after (putU16_N _) ((writeOrZero_x unsubscribe_set q.properties).before
        ((forEach_N q.filters write_mqtt_string (fun t => 2 + (utf8 t).length)
        fun f => write_mqtt_string_N f).seq (.pure _)))).cast ?_ Iff.rfl
      simp only [body, List.length_append, u16_len, flatMap_length, str_len]; omega
    · intro hl
      refine ⟨fun _ => trivial, fun _ => propsVbi_of unsubscribe_set no_vbi_unsubscribe _ fun p hp => ?_⟩
      rw [optSec_some_len hp]
      simp only [wireBody, body, List.length_append] at hl; omega
  | UnsubAck q =>
    refine cases_of_hdr _ s (D := PropsVbi reasonProps q.properties) (b := 0xB0) (k := fun c => do
      putU16 q.pkid
      writePropsOrZero ReasonProps.write q.properties
      putSlice (q.reasons.map UnsubAckReason.toU8)
      pure (1 + c + (body (.UnsubAck q)).length)) ?_ rfl ?_ ?_ trivial
    · show _ = hdrWrite _ (body (.UnsubAck q)).length _
      rw [← UnsubAck.len_eq]; rfl
    · show WrX _ _ (body (.UnsubAck q)).length _ _
      refine (WrX.after (putU16_N _) ((writeOrZero_x reason_set q.properties).before
        ((putSlice_N _).seq (.pure _)))).cast ?_ Iff.rfl
      rw [← UnsubAck.len_eq]
      unfold UnsubAck.len; rw [UnsubAckProperties.len_eq]; simp only [optSec_len reason_set]; simp; omega
    · intro hl
      refine ⟨fun _ => trivial, fun _ => propsVbi_of reason_set no_vbi_reason _ fun p hp => ?_⟩
      rw [optSec_some_len hp]
      simp only [wireBody, body, List.length_append] at hl; omega
  | PingReq => exact .inl ⟨by decide, trivial, trivial, _, rfl, PingReq.write_run s⟩
  | PingResp => exact .inl ⟨by decide, trivial, trivial, _, rfl, PingResp.write_run s⟩
  | Disconnect d =>
    by_cases hs : (wireBody (.Disconnect d)) = []
    · refine .inl ⟨by rw [hs]; decide, trivial, trivial, [0xE0, 0x00], by rw [hs]; rfl, ?_⟩
      cases hp : d.properties with
      | none =>
        have hr : d.reason_code = .NormalDisconnection := by
          refine Classical.byContradiction fun h => ?_
          simp [wireBody, hp, h, Spec.u8] at hs
        have := Disconnect.write_run d (by intro p h; simp [hp] at h) (by intro p h; simp [hp] at h)
          (by simp [body, hp, hr]) s
        refine this.trans ?_
        simp [encode, body, hp, hr, byte1, frame, Spec.u8, vbi]
      | some p =>
        have he : disconnectProps p = [] := by
          refine Classical.byContradiction fun h => ?_
          simp [wireBody, hp, h, Spec.u8] at hs
        exact Disconnect.write_empty_props d p hp he s
    · have e : (wireBody (.Disconnect d)).length = 1 + ((presentSec disconnectProps d.properties).length + 0) := by
        cases hp : d.properties with
        | none =>
          simp only [wireBody, hp] at hs ⊢
          split at hs
          · exact absurd rfl hs
          · rename_i h; simp [h, presentSec, Spec.u8]
        | some p =>
          simp only [wireBody, hp] at hs ⊢
          split at hs
          · exact absurd rfl hs
          · rename_i h; simp [h, presentSec, Spec.u8]; omega
      have e2 : d.len = (wireBody (.Disconnect d)).length := by
        rw [e]; unfold Disconnect.len
        cases hp : d.properties with
        | none =>
          have hr : d.reason_code ≠ .NormalDisconnection := by
            intro h; simp [wireBody, hp, h] at hs
          simp [hr, presentSec]
        | some p => simp [presentSec, propSectionLen_eq disconnect_set]
      have e3 : d.len ≠ 2 := by
        rw [e2, e]
        cases hp : d.properties with
        | none => simp [presentSec]
        | some p =>
          have he : disconnectProps p ≠ [] := by
            intro h; simp [wireBody, hp, h] at hs
          have := sec_len_ne he
          simp [presentSec]; omega
      refine cases_of_hdr _ s (D := PropsVbi disconnectProps d.properties) (b := 0xE0) (k := fun count => do
        putU8 d.reason_code.toU8
        ifSome d.properties DisconnectProperties.write
        pure (1 + count + d.len)) ?_ rfl ?_ ?_ trivial
      · rw [← e2]
        show d.write = _
        unfold Disconnect.write hdrWrite
        simp only [if_neg e3]
      · rw [e2]
        exact (WrX.after (putU8_N _)
          ((ifSome_x disconnect_set d.properties).beforeU (.pure _))).cast e.symm Iff.rfl
      · intro hl
        refine ⟨fun _ => trivial, fun _ => propsVbi_of disconnect_set no_vbi_disconnect _ fun q hq => ?_⟩
        rw [presentSec_len hq]; omega

/-- what `Connect::write` does on an arbitrary packet -/
theorem Connect.write_cases (c : Connect) (s : Bytes) :
    (maxRemaining < (body (.Connect c)).length ∧ c.write s = (.err .PayloadTooLong, s ++ [16])) ∨
    ((body (.Connect c)).length ≤ maxRemaining ∧ ∃ t f, t.length = (encode (.Connect c)).length ∧
      c.write s = (.ok (body (.Connect c)).length,
        (s ++ t).set (8 + (vbi (body (.Connect c)).length).length) f)) := by
  by_cases hn : (body (.Connect c)).length ≤ maxRemaining
  · right
    refine ⟨hn, ?_⟩
    have hcp : WrN (optSec connectProps c.properties).length ()
        (writePropsOrZero ConnectProperties.write c.properties) := by
      refine (writeOrZero_x connect_set c.properties).ok
        (propsVbi_of connect_set no_vbi_connect _ fun q hq => ?_)
      rw [optSec_some_len hq]
      simp only [body, List.length_append] at hn; omega
    have hp : ∀ w, c.last_will = some w → WrN (optSec willProps w.properties).length ()
        (writePropsOrZero WillProperties.write w.properties) := by
      intro w hw
      refine (writeOrZero_x will_set w.properties).ok
        (propsVbi_of will_set no_vbi_will _ fun q hq => ?_)
      rw [optSec_some_len hq]
      simp only [body, hw, willFields, List.length_append] at hn; omega
    -- everything up to the index assignment
    have hw : ∃ f : UInt8, ∀ f0, WrN (willFields c.last_will).length (f0 ||| f)
        (orFlags c.last_will LastWill.write f0) := by
      cases h : c.last_will with
      | none => exact ⟨0, fun f0 => by rw [UInt8.or_zero]; exact WrN.pure _⟩
      | some w =>
        refine ⟨(if w.retain = true then (0 : UInt8) ||| ((0x04 : UInt8) ||| (w.qos.toU8 <<< 3)) ||| (0x20 : UInt8)
          else (0 : UInt8) ||| ((0x04 : UInt8) ||| (w.qos.toU8 <<< 3))), fun f0 => ?_⟩
        have : WrN (willFields (some w)).length _ (w.write) :=
          ((hp w h).seq ((write_mqtt_string_N _).seq ((write_mqtt_bytes_N _).seq (.pure _)))).cast (by
            simp [willFields, str_len, bin_len])
        exact this.bind (f := fun f => pure (f0 ||| f)) (.pure _)
    have hl : ∃ f : UInt8, ∀ f0, WrN (loginFields c.login).length (f0 ||| f)
        (orFlags c.login Login.write f0) := by
      cases h : c.login with
      | none => exact ⟨0, fun f0 => by rw [UInt8.or_zero]; exact WrN.pure _⟩
      | some l =>
        have one : ∀ (u : String) (b f0 : UInt8),
            WrN (if u = "" then ([] : Bytes) else str u).length (if u = "" then f0 else f0 ||| b)
              (if !u.isEmpty then do write_mqtt_string u; pure (f0 ||| b) else pure f0 : M UInt8) := by
          intro u b f0
          by_cases hu : u = ""
          · simp only [hu, if_true]; exact WrN.pure _
          · have : (!u.isEmpty) = true := by rw [Mqtt.V4.isEmpty_iff]; simp [hu]
            rw [if_pos this, if_neg hu, if_neg hu]
            exact ((write_mqtt_string_N _).seq (.pure _)).cast (by simp [str_len])
        refine ⟨(if l.password = "" then (if l.username = "" then (0 : UInt8) else 0 ||| 0x80)
          else (if l.username = "" then (0 : UInt8) else 0 ||| 0x80) ||| 0x40), fun f0 => ?_⟩
        have : WrN (loginFields (some l)).length _ (l.write) :=
          ((one l.username 0x80 0).bind (one l.password 0x40 _)).cast (by
            simp [loginFields])
        exact this.bind (f := fun f => pure (f0 ||| f)) (.pure _)
    obtain ⟨fw, hw⟩ := hw
    obtain ⟨fl, hl⟩ := hl
    let f0 : UInt8 := if c.clean_session = true then (0 : UInt8) ||| 0x02 else 0
    let n := (body (.Connect c)).length
    let tail : M UInt8 := do
      write_mqtt_string "MQTT"
      putU8 c.protocol.level
      putU8 f0
      putU16 c.keep_alive
      writePropsOrZero ConnectProperties.write c.properties
      write_mqtt_string c.client_id
      let f ← orFlags c.last_will LastWill.write f0
      orFlags c.login Login.write f
    have htail : WrN n (f0 ||| fw ||| fl) tail := by
      refine ((write_mqtt_string_N _).seq
        ((putU8_N _).seq ((putU8_N _).seq ((putU16_N _).seq (hcp.seq ((write_mqtt_string_N _).seq
        ((hw f0).bind (hl _)))))))).cast ?_
      have hM : (utf8 "MQTT").length = 4 := by decide +kernel
      simp only [n, body, List.length_append, mqtt_len, u8_len, u16_len, str_len c.client_id, hM]
      omega
    obtain ⟨t, ht, hrun⟩ := htail (s ++ [0b00010000] ++ vbi n)
    refine ⟨[0b00010000] ++ vbi n ++ t, f0 ||| fw ||| fl, ?_, ?_⟩
    · rw [encode, frame_length]; simp only [List.length_append, ht, n, List.length_cons, List.length_nil, Nat.zero_add]
    have e : c.write s = M.andThen (tail (s ++ [0b00010000] ++ vbi n)) (fun f => do
        setIdx (1 + (vbi n).length + 2 + 4 + 1) f
        pure n) := by
      unfold Connect.write
      simp only [Connect.len_eq]
      rw [bind_run, putU8_run, andThen_ok, bind_run, write_remaining_length_run hn, andThen_ok,
        ← bind_run]
      simp only [tail, M.bind_assoc]
      rfl
    rw [e, hrun, andThen_ok, bind_run]
    unfold setIdx
    have h10 : 10 ≤ (body (.Connect c)).length := by
      unfold body; simp only [List.length_append, mqtt_len, u8_len, u16_len]; omega
    rw [if_pos (by simp only [List.length_append, n] at *; omega)]
    rw [show 1 + (vbi n).length + 2 + 4 + 1 = 8 + (vbi n).length by omega]
    simp only [List.append_assoc]
    rfl
  · left
    refine ⟨by omega, ?_⟩
    unfold Connect.write
    rw [Connect.len_eq]
    mrun [putU8_run, write_remaining_length_too_long (show maxRemaining < (body (.Connect c)).length by omega)]


end Mqtt.V5
