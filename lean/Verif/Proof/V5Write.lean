import Verif.Proof.V5Section
import Verif.Proof.V5Read
/-! v5 writers emit the specified bytes. -/
set_option linter.unusedSimpArgs false
namespace Mqtt.V5
open Mqtt Spec
open Spec.V5
open Spec.V4 (qosNum level)
open Mqtt.V4 (strLen_eq frame_length foldl_len flatMap_length forEach_run publish_byte1 qos_toU8
  isEmpty_iff mqtt_len)

/-! ### acknowledgements -/

theorem puback_code (r : PubAckReason) : r.toU8 = UInt8.ofNat (pubackCode r) := by cases r <;> rfl
theorem pubrec_code (r : PubRecReason) : r.toU8 = UInt8.ofNat (pubrecCode r) := by cases r <;> rfl
theorem pubrel_code (r : PubRelReason) : r.toU8 = UInt8.ofNat (pubrelCode r) := by cases r <;> rfl
theorem pubcomp_code (r : PubCompReason) : r.toU8 = UInt8.ofNat (pubcompCode r) := by cases r <;> rfl
theorem sub_code (r : SubscribeReasonCode) : r.toU8 = UInt8.ofNat (subCode r) := by cases r <;> rfl
theorem unsub_code (r : UnsubAckReason) : r.toU8 = UInt8.ofNat (unsubCode r) := by cases r <;> rfl
theorem connect_code (r : ConnectReturnCode) : r.toU8 = UInt8.ofNat (connectCode r) := by
  cases r <;> rfl
theorem disconnect_code (r : DisconnectReasonCode) : r.toU8 = UInt8.ofNat (disconnectCode r) := by
  cases r <;> rfl

section
variable {R : Type} [DecidableEq R] (success : R) (code : R → Nat)
  (h0 : ∀ r, code r = 0 ↔ r = success)
include h0

theorem ack_len (a : Ack R) : a.len success = (ackBody code a).length := by
  unfold Ack.len ackBody
  cases hp : a.properties with
  | none =>
    by_cases h : a.reason = success
    · simp [h, (h0 success).2 rfl, u16_len]
    · simp [h, (h0 a.reason).not.2 h, u16_len, u8_len]
  | some p =>
    simp [u16_len, u8_len, propSectionLen_eq reason_set]; omega

theorem ack_write (b1 : UInt8) (toU8 : R → UInt8) (hc : ∀ r, toU8 r = UInt8.ofNat (code r))
    (a : Ack R) (hf : PropsFit reasonProps a.properties)
    (hl : (ackBody code a).length ≤ maxRemaining) (s : Bytes) :
    a.write b1 success toU8 s = (.ok (frame b1.toNat (ackBody code a)).length,
      s ++ frame b1.toNat (ackBody code a)) := by
  unfold Ack.write
  rw [ack_len success code h0]
  mrun [putU8_run, putU16_run, write_remaining_length_run hl]
  by_cases h : a.reason = success ∧ a.properties = none
  · rw [if_pos h]
    have e : ackBody code a = u16 a.pkid.toNat := by
      unfold ackBody; rw [h.2, h.1]; simp [(h0 success).2 rfl]
    rw [frame_length, e]
    simp [frame, u8_toNat, u16_len, vbi, u8_len]
  · rw [if_neg h]
    have hb : (optSec reasonProps a.properties).length ≤ maxRemaining := by
      unfold ackBody at hl
      cases hp : a.properties with
      | none => decide
      | some p =>
        rw [hp] at hl; simp only [List.length_append] at hl; simp only [optSec]; omega
    rw [ifSome_run reason_set a.properties hf hb]
    simp only [andThen_ok]
    have e : ackBody code a = u16 a.pkid.toNat ++ u8 (code a.reason)
        ++ presentSec reasonProps a.properties := by
      unfold ackBody
      cases hp : a.properties with
      | none =>
        have : a.reason ≠ success := fun h' => h ⟨h', hp⟩
        simp [(h0 a.reason).not.2 this, presentSec]
      | some p => simp [presentSec]
    rw [frame_length]
    simp [frame, u8_toNat, e, Spec.u8, hc, pure_run]
end


/-! ### connack -/

theorem boolU8_eq (b : Bool) : boolU8 b = UInt8.ofNat (flag b 1) := by cases b <;> rfl

theorem ConnAck.len_eq (c : ConnAck) (hp : c.properties ≠ none) :
    c.len = (body (.ConnAck c)).length := by
  unfold ConnAck.len body
  cases h : c.properties with
  | none => exact absurd h hp
  | some p => simp [h, optSec, u8_len, propSectionLen_eq connack_set]; omega

theorem ConnAck.write_run (c : ConnAck) (hp : c.properties ≠ none)
    (hf : FieldsFit (.ConnAck c)) (hl : (body (.ConnAck c)).length ≤ maxRemaining) (s : Bytes) :
    c.write s = (.ok (encode (.ConnAck c)).length, s ++ encode (.ConnAck c)) := by
  unfold ConnAck.write
  rw [ConnAck.len_eq c hp]
  have hb : (optSec connackProps c.properties).length ≤ maxRemaining := by
    simp only [body, List.length_append] at hl; omega
  mrun [putU8_run, write_remaining_length_run hl, ifSome_run connack_set c.properties hf hb]
  rw [encode, frame_length]
  cases h : c.properties with
  | none => exact absurd h hp
  | some p =>
    simp [frame, body, byte1, Spec.u8, boolU8_eq, connect_code, h, optSec, presentSec]

/-- without properties the property length is missing -/
theorem ConnAck.write_none (c : ConnAck) (hp : c.properties = none) (s : Bytes) :
    c.write s = (.ok 4, s ++ frame 32 (u8 (flag c.session_present 1) ++ u8 (connectCode c.code))) := by
  unfold ConnAck.write ConnAck.len
  rw [hp]
  mrun [putU8_run, write_remaining_length_run (n := 1 + 1) (by decide), ifSome]
  simp [frame, Spec.u8, boolU8_eq, connect_code, vbi]

/-! ### publish -/

theorem optSec_len {π : Type} {kind : Nat → Option Kind} {props : π → List Property}
    {dec : List Property → π} {step : PropStep π} {len : π → Nat} {write : π → M Unit}
    (S : PropSet kind props dec step len write) (o : Option π) (n : Nat) :
    lenPropsOrOne len o n = n + (optSec props o).length := by
  cases o with
  | none => rfl
  | some p => simp [lenPropsOrOne, optSec, propSectionLen_eq S]

theorem Publish.len_eq (p : Publish) (h : p.qos ≠ .AtMostOnce → p.pkid ≠ 0) :
    p.len = (body (.Publish p)).length := by
  unfold Publish.len body
  simp only [optSec_len publish_set]
  by_cases hq : p.qos = .AtMostOnce
  · simp [hq, str_len, strLen_eq]; omega
  · simp [hq, h hq, str_len, strLen_eq, u16_len]; omega

theorem Publish.write_run (p : Publish) (hf : FieldsFit (.Publish p))
    (hm : p.qos ≠ .AtMostOnce → p.pkid ≠ 0)
    (hl : (body (.Publish p)).length ≤ maxRemaining) (s : Bytes) :
    p.write s = (.ok (encode (.Publish p)).length, s ++ encode (.Publish p)) := by
  unfold Publish.write
  rw [Publish.len_eq p hm]
  have hb : (optSec publishProps p.properties).length ≤ maxRemaining := by
    simp only [body, List.length_append] at hl; omega
  have e := fun s => writeOrZero_run publish_set p.properties hf.2 hb s
  mrun [putU8_run, write_remaining_length_run hl,
    fun s => write_mqtt_string_run p.topic s hf.1, publish_byte1]
  rw [encode, frame_length]
  by_cases hq : p.qos = .AtMostOnce
  · simp [hq, pure_run, andThen_ok, putSlice_run, bind_run, frame, body, byte1, Spec.u8, e]
  · simp [hq, hm hq, pure_run, andThen_ok, putSlice_run, putU16_run, bind_run, frame, body, byte1,
      Spec.u8, e]

/-! ### subscribe, suback, unsubscribe, unsuback -/

theorem subOptions_eq (f : SubscribeFilter) :
    (let options : UInt8 := 0
     let options := options ||| f.qos.toU8
     let options := if f.nolocal then options ||| ((1 : UInt8) <<< 2) else options
     let options := if f.preserve_retain then options ||| ((1 : UInt8) <<< 3) else options
     (match f.retain_forward_rule with
      | .OnEverySubscribe => options ||| ((0 : UInt8) <<< 4)
      | .OnNewSubscribe => options ||| ((1 : UInt8) <<< 4)
      | .Never => options ||| ((2 : UInt8) <<< 4))) = UInt8.ofNat (subOptions f) := by
  obtain ⟨_, q, n, pr, r⟩ := f
  simp only [subOptions]
  cases q <;> cases n <;> cases pr <;> cases r <;> decide +kernel

theorem SubscribeFilter.write_run (f : SubscribeFilter) (h : fits (utf8 f.path).length)
    (s : Bytes) :
    f.write s = (.ok (), s ++ (str f.path ++ Spec.u8 (subOptions f))) := by
  unfold SubscribeFilter.write
  simp only [bind_run, write_mqtt_string_run f.path s h, andThen_ok, putU8_run]
  refine (congrArg (fun b => ((Res.ok () : Res Unit), s ++ str f.path ++ [b])) (subOptions_eq f)).trans ?_
  simp [Spec.u8]

theorem Subscribe.len_eq (p : Subscribe) : p.len = (body (.Subscribe p)).length := by
  unfold Subscribe.len body
  simp only [optSec_len subscribe_set]
  rw [foldl_len, List.length_append, List.length_append, u16_len, flatMap_length]
  have : SubscribeFilter.len = fun a : SubscribeFilter =>
      (str a.path ++ Spec.u8 (subOptions a)).length := by
    funext a; simp [SubscribeFilter.len, str_len, u8_len, strLen_eq]
  rw [this]; omega

theorem Subscribe.write_run (p : Subscribe) (hf : FieldsFit (.Subscribe p))
    (hl : (body (.Subscribe p)).length ≤ maxRemaining) (s : Bytes) :
    p.write s = (.ok (encode (.Subscribe p)).length, s ++ encode (.Subscribe p)) := by
  unfold Subscribe.write
  rw [Subscribe.len_eq]
  have hb : (optSec subscribeProps p.properties).length ≤ maxRemaining := by
    simp only [body, List.length_append] at hl; omega
  mrun [putU8_run, putU16_run, write_remaining_length_run hl,
    fun s => writeOrZero_run subscribe_set p.properties hf.1 hb s,
    forEach_run p.filters SubscribeFilter.write
      (fun f => str f.path ++ Spec.u8 (subOptions f))
      (fun f hx => SubscribeFilter.write_run f (hf.2 f hx))]
  rw [encode, frame_length]
  simp [frame, body, byte1, Spec.u8]

theorem codes_eq {C : Type} (toU8 : C → UInt8) (code : C → Nat)
    (h : ∀ c, toU8 c = UInt8.ofNat (code c)) (l : List C) :
    l.map toU8 = l.flatMap fun c => Spec.u8 (code c) := by
  induction l with
  | nil => rfl
  | cons x xs ih => simp [ih, Spec.u8, h]

theorem SubAck.len_eq (p : SubAck) : p.len = (body (.SubAck p)).length := by
  unfold SubAck.len body
  rw [SubAckProperties.len_eq]
  simp only [optSec_len reason_set, ← codes_eq _ subCode sub_code]
  simp [u16_len]; omega

theorem SubAck.write_run (p : SubAck) (hf : FieldsFit (.SubAck p))
    (hl : (body (.SubAck p)).length ≤ maxRemaining) (s : Bytes) :
    p.write s = (.ok (encode (.SubAck p)).length, s ++ encode (.SubAck p)) := by
  unfold SubAck.write
  rw [SubAckProperties.write_eq]
  rw [SubAck.len_eq]
  have hb : (optSec reasonProps p.properties).length ≤ maxRemaining := by
    simp only [body, List.length_append] at hl; omega
  mrun [putU8_run, putU16_run, write_remaining_length_run hl, putSlice_run,
    fun s => writeOrZero_run reason_set p.properties hf hb s, codes_eq _ subCode sub_code]
  rw [encode, frame_length]
  simp [frame, body, byte1, Spec.u8]

theorem UnsubAck.len_eq (p : UnsubAck) : p.len = (body (.UnsubAck p)).length := by
  unfold UnsubAck.len body
  rw [UnsubAckProperties.len_eq]
  simp only [optSec_len reason_set, ← codes_eq _ unsubCode unsub_code]
  simp [u16_len]; omega

theorem UnsubAck.write_run (p : UnsubAck) (hf : FieldsFit (.UnsubAck p))
    (hl : (body (.UnsubAck p)).length ≤ maxRemaining) (s : Bytes) :
    p.write s = (.ok (encode (.UnsubAck p)).length, s ++ encode (.UnsubAck p)) := by
  unfold UnsubAck.write
  rw [UnsubAckProperties.write_eq]
  rw [UnsubAck.len_eq]
  have hb : (optSec reasonProps p.properties).length ≤ maxRemaining := by
    simp only [body, List.length_append] at hl; omega
  mrun [putU8_run, putU16_run, write_remaining_length_run hl, putSlice_run,
    fun s => writeOrZero_run reason_set p.properties hf hb s, codes_eq _ unsubCode unsub_code]
  rw [encode, frame_length]
  simp [frame, body, byte1, Spec.u8]

theorem Unsubscribe.len_eq (p : Unsubscribe) : p.len = (body (.Unsubscribe p)).length := by
  unfold Unsubscribe.len body
  simp only [optSec_len unsubscribe_set]
  have : (fun (s : Nat) (t : String) => 2 + s + strLen t)
      = fun s t => s + (2 + strLen t) := by
    funext s t; omega
  rw [this, foldl_len, List.length_append, List.length_append, u16_len, flatMap_length]
  simp only [str_len, strLen_eq]; omega

theorem Unsubscribe.write_run (p : Unsubscribe) (hf : FieldsFit (.Unsubscribe p))
    (hl : (body (.Unsubscribe p)).length ≤ maxRemaining) (s : Bytes) :
    p.write s = (.ok (encode (.Unsubscribe p)).length, s ++ encode (.Unsubscribe p)) := by
  unfold Unsubscribe.write
  rw [Unsubscribe.len_eq]
  have hb : (optSec unsubscribeProps p.properties).length ≤ maxRemaining := by
    simp only [body, List.length_append] at hl; omega
  mrun [putU8_run, putU16_run, write_remaining_length_run hl,
    fun s => writeOrZero_run unsubscribe_set p.properties hf.1 hb s,
    forEach_run p.filters write_mqtt_string str
      (fun f hx s => write_mqtt_string_run f s (hf.2 f hx))]
  rw [encode, frame_length]
  simp [frame, body, byte1, Spec.u8]

/-! ### ping, disconnect -/

theorem PingReq.write_run (s : Bytes) :
    PingReq.write s = (.ok (encode .PingReq).length, s ++ encode .PingReq) := rfl
theorem PingResp.write_run (s : Bytes) :
    PingResp.write s = (.ok (encode .PingResp).length, s ++ encode .PingResp) := rfl

theorem sec_len_ne {ps : List Property} (h : ps ≠ []) : 2 ≤ (sec ps).length := by
  have h1 := encAll_pos h
  have h2 := vbi_length_pos (encAll ps).length
  simp only [sec, List.length_append]; omega

theorem Disconnect.write_run (d : Disconnect) (hf : FieldsFit (.Disconnect d))
    (hm : NonEmpty disconnectProps d.properties)
    (hl : (body (.Disconnect d)).length ≤ maxRemaining) (s : Bytes) :
    d.write s = (.ok (encode (.Disconnect d)).length, s ++ encode (.Disconnect d)) := by
  unfold Disconnect.write
  rw [encode, frame_length]
  cases hp : d.properties with
  | none =>
    by_cases hr : d.reason_code = .NormalDisconnection
    · have : d.len = 2 := by unfold Disconnect.len; simp [hp, hr]
      mrun [putU8_run, this]
      simp [frame, body, hp, hr, byte1, Spec.u8, vbi]
    · have : d.len = 1 := by unfold Disconnect.len; simp [hp, hr]
      mrun [putU8_run, this, write_remaining_length_run (n := 1) (by decide), ifSome]
      simp [frame, body, hp, hr, byte1, Spec.u8, vbi, disconnect_code]
  | some p =>
    have hlen : d.len = (body (.Disconnect d)).length := by
      unfold Disconnect.len body; simp [hp, u8_len, propSectionLen_eq disconnect_set]
    have hs := sec_len_ne (hm p hp)
    have h3 : d.len ≠ 2 := by
      rw [hlen]; simp only [body, hp, List.length_append, u8_len]; omega
    have hb : (optSec disconnectProps (some p)).length ≤ maxRemaining := by
      simp only [body, hp, List.length_append] at hl; simp only [optSec]; omega
    have hf' : PropsFit disconnectProps (some p) := hp ▸ hf
    rw [hlen] at h3
    mrun [putU8_run, hlen, if_neg h3, write_remaining_length_run hl,
      fun s => ifSome_run disconnect_set (some p) hf' hb s]
    simp [frame, body, hp, byte1, Spec.u8, disconnect_code, presentSec]

/-- a present but empty property set loses the reason code -/
theorem Disconnect.write_empty_props (d : Disconnect) (p : DisconnectProperties)
    (hp : d.properties = some p) (he : disconnectProps p = []) (s : Bytes) :
    d.write s = (.ok 2, s ++ [0xE0, 0x00]) := by
  have : d.len = 2 := by
    unfold Disconnect.len; simp [hp, propSectionLen_eq disconnect_set, he]; rfl
  unfold Disconnect.write
  mrun [putU8_run, this]
  simp

/-! ### connect -/

/-- what `Login::write` appends and the flags it returns -/
theorem Login.write_run (l : Login) (s : Bytes) :
    l.write s = (.ok (UInt8.ofNat (flag (l.username ≠ "") 128 + flag (l.password ≠ "") 64)),
      s ++ loginFields (some l)) := by
  unfold Login.write loginFields
  have e1 := fun s => write_mqtt_string_all l.username s
  have e2 := fun s => write_mqtt_string_all l.password s
  by_cases hu : l.username = "" <;> by_cases hp : l.password = "" <;>
    simp [Mqtt.V4.isEmpty_iff, hu, hp, flag, andThen_ok, bind_run, pure_run, e1, e2] <;> rfl

theorem LastWill.write_run (w : LastWill)
    (hl : (optSec willProps w.properties).length ≤ maxRemaining) (s : Bytes) :
    w.write s = (.ok (UInt8.ofNat (flag w.retain 32 + 8 * qosNum w.qos + 4)),
      s ++ willFields (some w)) := by
  unfold LastWill.write willFields
  mrun [fun s => write_mqtt_string_all w.topic s,
    fun s => write_mqtt_bytes_all w.message s,
    fun s => writeOrZero_no_vbi will_set no_vbi_will w.properties hl s]
  have : (if w.retain = true then (0 : UInt8) ||| ((4 : UInt8) ||| (w.qos.toU8 <<< 3)) ||| (32 : UInt8)
      else (0 : UInt8) ||| ((4 : UInt8) ||| (w.qos.toU8 <<< 3)))
      = UInt8.ofNat (flag w.retain 32 + 8 * qosNum w.qos + 4) := by
    cases w.retain <;> cases w.qos <;> rfl
  rw [this]; simp

theorem Login.len_eq (l : Login) : l.len = (loginFields (some l)).length := by
  unfold Login.len loginFields
  simp only [Mqtt.V4.isEmpty_iff]
  by_cases hu : l.username = "" <;> by_cases hp : l.password = "" <;>
    simp [hu, hp, str_len, strLen_eq]

theorem LastWill.len_eq (w : LastWill) : w.len = (willFields (some w)).length := by
  unfold LastWill.len willFields
  simp only [List.length_append, str_len, bin_len, strLen_eq, optSec_len will_set]; omega

theorem Connect.len_eq (c : Connect) : c.len = (body (.Connect c)).length := by
  unfold Connect.len body
  simp only [List.length_append, mqtt_len, u8_len, u16_len, str_len c.client_id, strLen_eq,
    optSec_len connect_set]
  cases hw : c.last_will <;> cases hl : c.login
  all_goals
    simp only [LastWill.len_eq, Login.len_eq, willFields, loginFields, List.length_nil]
    try omega

/-- the connect body with an arbitrary flags byte -/
def bodyWith (c : Connect) (flags : UInt8) : Bytes :=
  str "MQTT" ++ Spec.u8 (level c.protocol) ++ [flags]
      ++ Spec.u16 c.keep_alive.toNat ++ optSec connectProps c.properties ++ str c.client_id
      ++ willFields c.last_will ++ loginFields c.login

theorem bodyWith_flags (c : Connect) :
    bodyWith c (UInt8.ofNat (connectFlags c)) = body (.Connect c) := rfl

theorem bodyWith_length (c : Connect) (f : UInt8) :
    (bodyWith c f).length = (body (.Connect c)).length := by
  rw [← bodyWith_flags]; simp [bodyWith]

theorem flags_or (cs : Bool) (w : Option LastWill) (l : Option Login) :
    ((if cs = true then (0 : UInt8) ||| 2 else 0)
      ||| UInt8.ofNat (match w with
        | some w => flag w.retain 32 + 8 * qosNum w.qos + 4 | none => 0))
      ||| UInt8.ofNat (match l with
        | some l => flag (l.username ≠ "") 128 + flag (l.password ≠ "") 64 | none => 0)
      = UInt8.ofNat ((match l with
        | some l => flag (l.username ≠ "") 128 + flag (l.password ≠ "") 64 | none => 0)
        + (match w with
        | some w => flag w.retain 32 + 8 * qosNum w.qos + 4 | none => 0)
        + flag cs 2) := by
  cases w with
  | none =>
    cases l with
    | none => cases cs <;> rfl
    | some l =>
      obtain ⟨u, p⟩ := l
      simp only
      generalize decide (u ≠ "") = a
      generalize decide (p ≠ "") = b
      cases cs <;> cases a <;> cases b <;> rfl
  | some w =>
    obtain ⟨_, _, q, r⟩ := w
    cases l with
    | none => simp only; cases cs <;> cases q <;> cases r <;> rfl
    | some l =>
      obtain ⟨u, p⟩ := l
      simp only
      generalize decide (u ≠ "") = a
      generalize decide (p ≠ "") = b
      cases cs <;> cases a <;> cases b <;> cases q <;> cases r <;> rfl

/-- Exact effect of `Connect::write` on any buffer: the packet with only the clean-session flag is
appended, then the byte at the absolute index `1 + count + 7` is overwritten with the flags. -/
theorem Connect.write_run (c : Connect)
    (hl : (body (.Connect c)).length ≤ maxRemaining) (s : Bytes) :
    c.write s = (.ok (body (.Connect c)).length,
      (s ++ (Spec.u8 16 ++ vbi (body (.Connect c)).length
        ++ bodyWith c (UInt8.ofNat (flag c.clean_session 2)))).set
        (8 + (vbi (body (.Connect c)).length).length)
        (UInt8.ofNat (connectFlags c))) := by
  have hb : (optSec connectProps c.properties).length ≤ maxRemaining := by
    simp only [body, List.length_append] at hl; omega
  have hbw : (willFields c.last_will).length ≤ maxRemaining := by
    simp only [body, List.length_append] at hl; omega
  unfold Connect.write
  rw [Connect.len_eq]
  have hlev : [c.protocol.level] = Spec.u8 (level c.protocol) := by
    cases c.protocol <;> rfl
  have hwill : ∀ (f : UInt8) (s : Bytes), orFlags c.last_will LastWill.write f s =
      (.ok (f ||| UInt8.ofNat (match c.last_will with
        | some w => flag w.retain 32 + 8 * qosNum w.qos + 4
        | none => 0)), s ++ willFields c.last_will) := by
    intro f s
    unfold orFlags
    cases h : c.last_will with
    | none => simp [pure_run, willFields]
    | some w =>
      have h4 : (optSec willProps w.properties).length ≤ maxRemaining := by
        rw [h] at hbw; simp only [willFields, List.length_append] at hbw; omega
      mrun [fun s => LastWill.write_run w h4 s]
  have hlogin : ∀ (f : UInt8) (s : Bytes), orFlags c.login Login.write f s =
      (.ok (f ||| UInt8.ofNat (match c.login with
        | some l => flag (l.username ≠ "") 128 + flag (l.password ≠ "") 64
        | none => 0)), s ++ loginFields c.login) := by
    intro f s
    unfold orFlags
    cases h : c.login with
    | none => simp [pure_run, loginFields]
    | some l =>
      mrun [fun s => Login.write_run l s]
  have hcs : (if c.clean_session = true then (0 : UInt8) ||| 2 else 0)
      = UInt8.ofNat (flag c.clean_session 2) := by cases c.clean_session <;> rfl
  mrun [putU8_run, putU16_run, write_remaining_length_run hl,
    fun s => write_mqtt_string_all c.client_id s,
    fun s => write_mqtt_string_all "MQTT" s, hlev, hwill, hlogin,
    fun s => writeOrZero_no_vbi connect_set no_vbi_connect c.properties hb s]
  rw [flags_or, hcs]
  have e : s ++ [16] ++ vbi (body (.Connect c)).length ++ str "MQTT"
        ++ Spec.u8 (level c.protocol) ++ [UInt8.ofNat (flag c.clean_session 2)]
        ++ Spec.u16 c.keep_alive.toNat ++ optSec connectProps c.properties
        ++ str c.client_id ++ willFields c.last_will ++ loginFields c.login
      = s ++ (Spec.u8 16 ++ vbi (body (.Connect c)).length
        ++ bodyWith c (UInt8.ofNat (flag c.clean_session 2))) := by
    simp [bodyWith, Spec.u8]
  rw [e]
  have hi : 1 + (vbi (body (.Connect c)).length).length + 2 + 4 + 1
      = 8 + (vbi (body (.Connect c)).length).length := by omega
  rw [hi]
  unfold setIdx
  rw [if_pos]
  · rfl
  · simp only [List.length_append, bodyWith_length, u8_len]
    have h10 : 10 ≤ (body (.Connect c)).length := by
      unfold body; simp only [List.length_append, mqtt_len, u8_len, u16_len]; omega
    omega

/-- on an empty buffer `Connect::write` produces exactly the encoding -/
theorem Connect.write_empty (c : Connect)
    (hl : (body (.Connect c)).length ≤ maxRemaining) :
    c.write [] = (.ok (body (.Connect c)).length, encode (.Connect c)) := by
  rw [Connect.write_run c hl]
  congr 1
  have e : [] ++ (Spec.u8 16 ++ vbi (body (.Connect c)).length
        ++ bodyWith c (UInt8.ofNat (flag c.clean_session 2)))
      = (Spec.u8 16 ++ vbi (body (.Connect c)).length ++ str "MQTT"
          ++ Spec.u8 (level c.protocol))
        ++ UInt8.ofNat (flag c.clean_session 2) ::
          (Spec.u16 c.keep_alive.toNat ++ optSec connectProps c.properties ++ str c.client_id
            ++ willFields c.last_will ++ loginFields c.login) := by
    simp [bodyWith]
  rw [e, List.set_append_right]
  · have : 8 + (vbi (body (.Connect c)).length).length
      - (Spec.u8 16 ++ vbi (body (.Connect c)).length ++ str "MQTT"
          ++ Spec.u8 (level c.protocol)).length = 0 := by
      simp only [List.length_append, u8_len, mqtt_len]; omega
    rw [this, List.set_cons_zero]
    simp [encode, frame, body, byte1, Spec.u8]
  · simp only [List.length_append, u8_len, mqtt_len]; omega

/-- the encoding of a CONNECT split at its flags byte, which sits at index `8 + count` -/
theorem Connect.encode_split (c : Connect) : ∃ A B : Bytes,
    A.length = 8 + (vbi (body (.Connect c)).length).length ∧
    encode (.Connect c) = A ++ UInt8.ofNat (connectFlags c) :: B ∧
    ∀ f : UInt8, Spec.u8 16 ++ vbi (body (.Connect c)).length ++ bodyWith c f = A ++ f :: B := by
  have key : ∀ f : UInt8, Spec.u8 16 ++ vbi (body (.Connect c)).length ++ bodyWith c f
      = (Spec.u8 16 ++ vbi (body (.Connect c)).length ++ (bodyWith c f).take 7) ++ f :: (bodyWith c f).drop 8 := by
    intro f
    have : (bodyWith c f).take 7 ++ f :: (bodyWith c f).drop 8 = bodyWith c f := by
      have h7 : (str "MQTT" ++ Spec.u8 (Spec.V4.level c.protocol)).length = 7 := by
        simp only [List.length_append, V4.mqtt_len, u8_len]
      unfold bodyWith
      simp only [List.append_assoc]
      rw [← List.append_assoc (str "MQTT"), ← h7, List.take_left]
      have : (str "MQTT" ++ Spec.u8 (Spec.V4.level c.protocol)).length + 1 = 8 := by omega
      rw [show (8 : Nat) = (str "MQTT" ++ Spec.u8 (Spec.V4.level c.protocol) ++ [f]).length by
        rw [List.length_append]; simp [h7]]
      rw [← List.append_assoc _ [f], List.drop_left]
      simp
    rw [List.append_assoc, List.append_assoc, this, ← List.append_assoc]
  have ht : ∀ f : UInt8, (bodyWith c f).take 7 = (bodyWith c 0).take 7 ∧ (bodyWith c f).drop 8 = (bodyWith c 0).drop 8 := by
    intro f
    constructor <;> (unfold bodyWith; rfl)
  refine ⟨_, _, ?_, ?_, fun f => by rw [key, (ht f).1, (ht f).2]⟩
  · have h7 : 7 ≤ (bodyWith c 0).length := by
      unfold bodyWith; simp only [List.length_append, V4.mqtt_len, u8_len]; omega
    simp only [List.length_append, u8_len, List.length_take]; omega
  · rw [← (ht (UInt8.ofNat (connectFlags c))).1, ← (ht (UInt8.ofNat (connectFlags c))).2, ← key]
    rfl

/-- `Connect::write` in terms of the encoding: the flags land at the absolute index -/
theorem Connect.write_exact (c : Connect)
    (hl : (body (.Connect c)).length ≤ maxRemaining) (s : Bytes) (i : Nat)
    (hi : i = 8 + (vbi (body (.Connect c)).length).length) :
    ∃ f, (encode (.Connect c))[i]? = some f ∧
      c.write s = (.ok (body (.Connect c)).length,
        (s ++ (encode (.Connect c)).set i (if c.clean_session then 2 else 0)).set i f) := by
  obtain ⟨A, B, hA, he, hw⟩ := Connect.encode_split c
  refine ⟨UInt8.ofNat (connectFlags c), ?_, ?_⟩
  · rw [he, hi, ← hA]; simp
  · rw [Connect.write_run c hl, hw, he, hi, ← hA, List.set_append_right _ _ (Nat.le_refl _),
      Nat.sub_self, List.set_cons_zero]
    congr 5
    cases c.clean_session <;> rfl

end Mqtt.V5
