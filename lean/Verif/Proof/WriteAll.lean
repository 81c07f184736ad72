import Verif.Proof.V5Wr
import Verif.Spec.Written
/-! The writers on every packet, byte for byte. -/
set_option linter.unusedSimpArgs false
namespace Mqtt
open Spec

/-- the header, then something that (given the header fits) has a known effect -/
theorem hdrWrite_all {b : UInt8} {n : Nat} {k : Nat → M Nat} {r : Res Nat} {t : Bytes} (s : Bytes)
    (h : n ≤ maxRemaining → ∀ s, k (vbi n).length s = (r, s ++ t)) :
    hdrWrite b n k s = if maxRemaining < n then (.err .PayloadTooLong, s ++ [b]) else (r, s ++ ([b] ++ vbi n ++ t)) := by
  split
  · exact hdrWrite_long (by omega) s
  · rename_i hn
    unfold hdrWrite
    mrun [putU8_run, write_remaining_length_run (Nat.le_of_not_lt hn)]
    rw [h (by omega)]
    simp

namespace V4
open Spec.V4

theorem announced_eq (p : Packet) (h : pkidMissing p = false) : announced p = (body p).length := by
  simp [announced, h]

theorem written_ok (p : Packet) (h : pkidMissing p = false) (hc : ∀ c, p ≠ .Connect c) : written p =
    if maxRemaining < (body p).length then (.err .PayloadTooLong, Spec.u8 (byte1 p))
    else (.ok (encode p).length, encode p) := by
  unfold written
  rw [announced_eq p h]
  split
  · rfl
  · cases p with
    | Connect c => exact absurd rfl (hc c)
    | Publish q => simp only [h]; rfl
    | _ => rfl

/-- a writer that is a header and a body that never fails -/
theorem written_hdr (p : Packet) (s : Bytes) {b : UInt8} {k : Nat → M Nat} (h : pkidMissing p = false)
    (hc : ∀ c, p ≠ .Connect c) (h1 : p.write = hdrWrite b (body p).length k) (h2 : b = UInt8.ofNat (byte1 p))
    (h3 : ∀ c s, k c s = (.ok (1 + c + (body p).length), s ++ body p)) :
    p.write s = ((written p).1, s ++ (written p).2) := by
  rw [h1, hdrWrite_all s (fun _ s => h3 _ s), written_ok p h hc]
  subst h2
  split
  · rfl
  · simp [encode, frame, Spec.u8]; omega

theorem subscribe_body_all (fs : List SubscribeFilter) (s : Bytes) :
    forEach fs SubscribeFilter.write s = (.ok (), s ++ fs.flatMap fun f => str f.path ++ Spec.u8 (qosNum f.qos)) := by
  refine forEach_run fs SubscribeFilter.write (fun f => str f.path ++ Spec.u8 (qosNum f.qos)) (fun f _ s => ?_) s
  unfold SubscribeFilter.write
  mrun [putU8_run, write_mqtt_string_all]
  simp [Spec.u8, qos_toU8]

theorem write_all (p : Packet) (hc : ∀ c, p ≠ .Connect c) (s : Bytes) :
    p.write s = ((written p).1, s ++ (written p).2) := by
  cases p with
  | Connect c => exact absurd rfl (hc c)
  | ConnAck c => rw [written_ok _ rfl (by simp), if_neg (by simp [body, u8_len, maxRemaining])]; exact ConnAck.write_run c s
  | PubAck c => rw [written_ok _ rfl (by simp), if_neg (by simp [body, u16_len, maxRemaining])]; exact PubAck.write_run c s
  | PubRec c => rw [written_ok _ rfl (by simp), if_neg (by simp [body, u16_len, maxRemaining])]; exact PubRec.write_run c s
  | PubRel c => rw [written_ok _ rfl (by simp), if_neg (by simp [body, u16_len, maxRemaining])]; exact PubRel.write_run c s
  | PubComp c => rw [written_ok _ rfl (by simp), if_neg (by simp [body, u16_len, maxRemaining])]; exact PubComp.write_run c s
  | UnsubAck c => rw [written_ok _ rfl (by simp), if_neg (by simp [body, u16_len, maxRemaining])]; exact UnsubAck.write_run c s
  | PingReq => exact PingReq.write_run s
  | PingResp => exact PingResp.write_run s
  | Disconnect => exact Disconnect.write_run s
  | Subscribe q =>
    refine written_hdr (.Subscribe q) s rfl (by simp) (b := 0x82) (k := fun c => do
      putU16 q.pkid
      forEach q.filters SubscribeFilter.write
      pure (1 + c + (body (.Subscribe q)).length)) ?_ rfl (fun c s => ?_)
    · rw [← Subscribe.len_eq]; rfl
    · mrun [putU16_run, subscribe_body_all]
      simp [body]
  | SubAck q =>
    refine written_hdr (.SubAck q) s rfl (by simp) (b := 0x90) (k := fun c => do
      putU16 q.pkid
      putSlice (q.return_codes.map SubscribeReasonCode.toU8)
      pure (1 + c + (body (.SubAck q)).length)) ?_ rfl (fun c s => ?_)
    · rw [← SubAck.len_eq]; rfl
    · mrun [putU16_run, putSlice_run]
      have : ∀ l : List SubscribeReasonCode, l.map SubscribeReasonCode.toU8 = l.flatMap fun c => Spec.u8 (subCode c) := by
        intro l
        induction l with
        | nil => rfl
        | cons x xs ih => rw [List.map_cons, List.flatMap_cons, ih]; cases x with
          | Failure => rfl
          | Success q => cases q <;> rfl
      simp [body, this]
  | Unsubscribe q =>
    refine written_hdr (.Unsubscribe q) s rfl (by simp) (b := 0xA2) (k := fun c => do
      putU16 q.pkid
      forEach q.topics write_mqtt_string
      pure (1 + c + (body (.Unsubscribe q)).length)) ?_ rfl (fun c s => ?_)
    · rw [← Unsubscribe.len_eq]; rfl
    · mrun [putU16_run, forEach_run q.topics write_mqtt_string str (fun f _ s => write_mqtt_string_all f s)]
      simp [body]
  | Publish q =>
    by_cases hq : q.qos ≠ .AtMostOnce ∧ q.pkid = 0
    · have hl : q.len = announced (.Publish q) := by
        simp [Publish.len, announced, pkidMissing, hq.1, hq.2, strLen_eq, body, str_len, u16_len]; omega
      have hw : (Packet.Publish q).write = hdrWrite ((0b00110000 : UInt8) ||| boolU8 q.retain ||| (q.qos.toU8 <<< 1) ||| (boolU8 q.dup <<< 3))
        (announced (.Publish q)) (fun c => do
          write_mqtt_string q.topic
          (if q.qos ≠ .AtMostOnce then
            (if q.pkid = 0 then M.fail .PacketIdZero else putU16 q.pkid)
            else pure () : M Unit)
          putSlice q.payload
          pure (1 + c + q.len)) := by rw [← hl]; rfl
      rw [hw, hdrWrite_all (r := .err .PacketIdZero) (t := str q.topic) s (fun _ s => by
        mrun [write_mqtt_string_all, hq.1, hq.2]
        simp [hq.1, fail_run]; rfl)]
      have hm : pkidMissing (.Publish q) = true := by simp [pkidMissing, hq.1, hq.2]
      rw [publish_byte1]
      simp only [written, hm]
      split
      · rfl
      · simp [Spec.u8, byte1]
    · have hm : q.qos ≠ .AtMostOnce → q.pkid ≠ 0 := fun h1 h2 => hq ⟨h1, h2⟩
      refine written_hdr (.Publish q) s (by simp [pkidMissing]; simpa using hm) (by simp)
        (b := (0b00110000 : UInt8) ||| boolU8 q.retain ||| (q.qos.toU8 <<< 1) ||| (boolU8 q.dup <<< 3)) (k := fun c => do
          write_mqtt_string q.topic
          (if q.qos ≠ .AtMostOnce then
            (if q.pkid = 0 then M.fail .PacketIdZero else putU16 q.pkid)
            else pure () : M Unit)
          putSlice q.payload
          pure (1 + c + (body (.Publish q)).length)) ?_ (publish_byte1 _ _ _) (fun c s => ?_)
      · rw [← Publish.len_eq q hm]; rfl
      · by_cases h : q.qos = .AtMostOnce
        · mrun [write_mqtt_string_all, h, putSlice_run]
          simp [body, h, andThen_ok, bind_run, pure_run, putSlice_run]
        · mrun [write_mqtt_string_all, h, putSlice_run, hm h, putU16_run]
          simp [body, h, andThen_ok, bind_run, pure_run, putSlice_run]

theorem Connect.write_all_empty (c : Connect) : c.write [] = written (.Connect c) := by
  unfold written
  rw [announced_eq _ rfl]
  split
  · rename_i hl
    rcases Connect.write_cases c [] with ⟨_, e⟩ | ⟨h, _⟩
    · exact e
    · omega
  · exact Connect.write_empty c (by omega)
end V4

namespace V5
open Spec.V5
open Spec.V4 (qosNum level)

open _root_.Mqtt.V4 (strLen_eq frame_length publish_byte1)

theorem announced_eq (p : Packet) (h : pkidMissing p = false) : announced p = (wireBody p).length := by
  simp [announced, h]

/-- a writer that is a header and a body that never fails -/
theorem written_hdr (p : Packet) (s : Bytes) {b : UInt8} {k : Nat → M Nat}
    (hw : written p = if maxRemaining < (wireBody p).length then (.err .PayloadTooLong, Spec.u8 (byte1 p))
      else (.ok (frame (byte1 p) (wireBody p)).length, frame (byte1 p) (wireBody p)))
    (h1 : p.write = hdrWrite b (wireBody p).length k) (h2 : b = UInt8.ofNat (byte1 p))
    (h3 : (wireBody p).length ≤ maxRemaining → ∀ s, k (vbi (wireBody p).length).length s =
      (.ok (1 + (vbi (wireBody p).length).length + (wireBody p).length), s ++ wireBody p)) :
    p.write s = ((written p).1, s ++ (written p).2) := by
  rw [h1, hdrWrite_all s h3, hw]
  subst h2
  split
  · rfl
  · rw [frame_length]; simp [frame, Spec.u8]

theorem written_plain (p : Packet) (h : pkidMissing p = false) (h1 : ∀ c, p ≠ .Connect c) (h2 : ∀ c, p ≠ .Publish c)
    (h3 : ∀ c, p ≠ .Subscribe c) :
    written p = if maxRemaining < (wireBody p).length then (.err .PayloadTooLong, Spec.u8 (byte1 p))
      else (.ok (frame (byte1 p) (wireBody p)).length, frame (byte1 p) (wireBody p)) := by
  unfold written
  rw [announced_eq p h]
  split
  · rfl
  · cases p with
    | Connect c => exact absurd rfl (h1 c)
    | Publish c => exact absurd rfl (h2 c)
    | Subscribe c => exact absurd rfl (h3 c)
    | _ => rfl

theorem ack_all {R : Type} [DecidableEq R] (success : R) (code : R → Nat)
    (h0 : ∀ r, code r = 0 ↔ r = success) (b1 : UInt8) (toU8 : R → UInt8) (hu : ∀ r, toU8 r = UInt8.ofNat (code r))
    (a : Ack R) (p : Packet) (s : Bytes) (hw : p.write = a.write b1 success toU8) (hb : b1 = UInt8.ofNat (byte1 p))
    (hbody : wireBody p = ackBody code a)
    (hx : written p = if maxRemaining < (wireBody p).length then (.err .PayloadTooLong, Spec.u8 (byte1 p))
      else (.ok (frame (byte1 p) (wireBody p)).length, frame (byte1 p) (wireBody p))) :
    p.write s = ((written p).1, s ++ (written p).2) := by
  refine written_hdr p s hx (b := b1) (k := fun count => do
    putU16 a.pkid
    if a.reason = success ∧ a.properties = none then pure 4 else
    putU8 (toU8 a.reason)
    ifSome a.properties ReasonProps.write
    pure (1 + count + (ackBody code a).length)) ?_ hb ?_
  · rw [hw, hbody, ← ack_len success code h0]; rfl
  · rw [hbody]
    intro hl s
    by_cases h : a.reason = success ∧ a.properties = none
    · have e : ackBody code a = Spec.u16 a.pkid.toNat := by
        unfold ackBody; rw [h.2, h.1]; simp [(h0 success).2 rfl]
      rw [e, u16_len]
      mrun [putU16_run, if_pos h]
      rfl
    · have e : ackBody code a = Spec.u16 a.pkid.toNat ++ (Spec.u8 (code a.reason) ++ presentSec reasonProps a.properties) := by
        unfold ackBody
        cases hp : a.properties with
        | none =>
          have : a.reason ≠ success := fun h' => h ⟨h', hp⟩
          simp [(h0 a.reason).not.2 this, presentSec]
        | some p => simp [presentSec]
      have hs : (presentSec reasonProps a.properties).length ≤ maxRemaining := by
        rw [e] at hl; simp only [List.length_append] at hl; omega
      rw [e]
      mrun [putU16_run, if_neg h, putU8_run, ifSome_no_vbi reason_set no_vbi_reason a.properties hs]
      simp [hu, Spec.u8]

theorem write_all (p : Packet) (hc : ∀ c, p ≠ .Connect c) (s : Bytes) :
    p.write s = ((written p).1, s ++ (written p).2) := by
  cases p with
  | Connect c => exact absurd rfl (hc c)
  | ConnAck c =>
    have e : wireBody (.ConnAck c) = Spec.u8 (flag c.session_present 1) ++ (Spec.u8 (connectCode c.code)
        ++ presentSec connackProps c.properties) := by
      unfold wireBody
      cases hp : c.properties <;> simp [presentSec, hp]
    have e2 : c.len = (wireBody (.ConnAck c)).length := by
      rw [e]; unfold ConnAck.len
      cases hp : c.properties with
      | none => rfl
      | some p => simp [presentSec, propSectionLen_eq connack_set, u8_len]; omega
    refine written_hdr _ s (written_plain _ rfl (by simp) (by simp) (by simp)) (b := 0x20) (k := fun count => do
      putU8 (boolU8 c.session_present)
      putU8 c.code.toU8
      ifSome c.properties ConnAckProperties.write
      pure (1 + count + (wireBody (.ConnAck c)).length)) ?_ rfl ?_
    · rw [← e2]; rfl
    · intro hl s
      have hs : (presentSec connackProps c.properties).length ≤ maxRemaining := by
        rw [e] at hl; simp only [List.length_append] at hl; omega
      mrun [putU8_run, ifSome_no_vbi connack_set no_vbi_connack c.properties hs]
      rw [e]
      simp [boolU8_eq, connect_code, Spec.u8]
  | Publish q =>
    by_cases hq : q.qos ≠ .AtMostOnce ∧ q.pkid = 0
    · have hl : q.len = announced (.Publish q) := by
        have h1 : (if q.qos = .AtMostOnce then ([] : Bytes) else Spec.u16 q.pkid.toNat).length = 2 := by
          rw [if_neg hq.1, u16_len]
        simp only [Publish.len, announced, pkidMissing, strLen_eq, wireBody, body, str_len, h1,
          optSec_len publish_set, List.length_append]
        simp [hq.1, hq.2]; omega
      have hw : (Packet.Publish q).write = hdrWrite ((0b00110000 : UInt8) ||| boolU8 q.retain ||| (q.qos.toU8 <<< 1) ||| (boolU8 q.dup <<< 3))
        (announced (.Publish q)) (fun c => do
          write_mqtt_string q.topic
          (if q.qos ≠ .AtMostOnce then
            (if q.pkid = 0 then M.fail .PacketIdZero else putU16 q.pkid)
            else pure () : M Unit)
          writePropsOrZero PublishProperties.write q.properties
          putSlice q.payload
          pure (1 + c + q.len)) := by rw [← hl]; rfl
      rw [hw, hdrWrite_all (r := .err .PacketIdZero) (t := str q.topic) s (fun _ s => by
        mrun [write_mqtt_string_all, hq.1, hq.2]
        simp [hq.1, fail_run]; rfl)]
      have hm : pkidMissing (.Publish q) = true := by simp [pkidMissing, hq.1, hq.2]
      rw [publish_byte1]
      simp only [written, hm]
      split
      · rfl
      · simp [Spec.u8, byte1]
    · have hm : q.qos ≠ .AtMostOnce → q.pkid ≠ 0 := fun h1 h2 => hq ⟨h1, h2⟩
      have hmf : pkidMissing (.Publish q) = false := by simp [pkidMissing]; simpa using hm
      have ha := announced_eq (.Publish q) hmf
      have hb : wireBody (.Publish q) = body (.Publish q) := rfl
      have hw : (Packet.Publish q).write = hdrWrite ((0b00110000 : UInt8) ||| boolU8 q.retain ||| (q.qos.toU8 <<< 1) ||| (boolU8 q.dup <<< 3))
        (announced (.Publish q)) (fun c => do
          write_mqtt_string q.topic
          (if q.qos ≠ .AtMostOnce then
            (if q.pkid = 0 then M.fail .PacketIdZero else putU16 q.pkid)
            else pure () : M Unit)
          writePropsOrZero PublishProperties.write q.properties
          putSlice q.payload
          pure (1 + c + (body (.Publish q)).length)) := by
        rw [ha, hb, ← Publish.len_eq q hm]; rfl
      have hpk : ∀ s, (if q.qos ≠ .AtMostOnce then
            (if q.pkid = 0 then M.fail .PacketIdZero else putU16 q.pkid)
            else pure () : M Unit) s = (.ok (), s ++ (if q.qos = .AtMostOnce then [] else Spec.u16 q.pkid.toNat)) := by
        intro s
        by_cases h : q.qos = .AtMostOnce
        · simp [h, pure_run]
        · simp [h, hm h, putU16_run]
      rw [hw, publish_byte1]
      cases ht : q.properties.bind fun ps => tornSec (publishProps ps) with
      | some t =>
        rw [hdrWrite_all (r := .err .PayloadTooLong)
          (t := str q.topic ++ (if q.qos = .AtMostOnce then [] else Spec.u16 q.pkid.toNat) ++ t) s (fun hl s => by
            have hs : (optSec publishProps q.properties).length ≤ maxRemaining := by
              rw [ha, hb] at hl; simp only [body, List.length_append] at hl; omega
            have e := fun s => writeOrZero_all publish_set q.properties hs s
            simp only [ht] at e
            simp only [bind_run, write_mqtt_string_all, andThen_ok, hpk, e]
            simp [andThen_err])]
        simp only [written, hmf, ht]
        split
        · rfl
        · simp [Spec.u8, byte1]
      | none =>
        rw [hdrWrite_all (r := .ok (1 + (vbi (announced (.Publish q))).length + (body (.Publish q)).length))
          (t := body (.Publish q)) s (fun hl s => by
            have hs : (optSec publishProps q.properties).length ≤ maxRemaining := by
              rw [ha, hb] at hl; simp only [body, List.length_append] at hl; omega
            have e := fun s => writeOrZero_all publish_set q.properties hs s
            simp only [ht] at e
            simp only [bind_run, write_mqtt_string_all, andThen_ok, hpk, e, putSlice_run, pure_run]
            simp [body])]
        simp only [written, hmf, ht]
        split
        · rfl
        · rw [encode, frame_length, ha, hb]
          simp [Spec.u8, byte1, frame]
  | PubAck q => exact ack_all .Success pubackCode puback_zero 0x40 PubAckReason.toU8 (by intro r; cases r <;> rfl) q _ s rfl rfl rfl (written_plain _ rfl (by simp) (by simp) (by simp))
  | PubRec q => exact ack_all .Success pubrecCode pubrec_zero 0x50 PubRecReason.toU8 (by intro r; cases r <;> rfl) q _ s rfl rfl rfl (written_plain _ rfl (by simp) (by simp) (by simp))
  | PubRel q => exact ack_all .Success pubrelCode pubrel_zero 0x62 PubRelReason.toU8 (by intro r; cases r <;> rfl) q _ s rfl rfl rfl (written_plain _ rfl (by simp) (by simp) (by simp))
  | PubComp q => exact ack_all .Success pubcompCode pubcomp_zero 0x70 PubCompReason.toU8 (by intro r; cases r <;> rfl) q _ s rfl rfl rfl (written_plain _ rfl (by simp) (by simp) (by simp))
  | Subscribe q =>
    have ha := announced_eq (.Subscribe q) rfl
    have hb : wireBody (.Subscribe q) = body (.Subscribe q) := rfl
    have hf : ∀ s, forEach q.filters SubscribeFilter.write s
        = (.ok (), s ++ q.filters.flatMap fun f => str f.path ++ Spec.u8 (subOptions f)) := by
      intro s
      refine V4.forEach_run q.filters SubscribeFilter.write (fun f => str f.path ++ Spec.u8 (subOptions f)) (fun f _ s => ?_) s
      unfold SubscribeFilter.write
      simp only [bind_run, write_mqtt_string_all, andThen_ok, putU8_run]
      refine (congrArg (fun b => ((Res.ok () : Res Unit), s ++ str f.path ++ [b])) (subOptions_eq f)).trans ?_
      simp [Spec.u8]
    have hw : (Packet.Subscribe q).write = hdrWrite 0x82 (announced (.Subscribe q)) (fun c => do
          putU16 q.pkid
          writePropsOrZero SubscribeProperties.write q.properties
          forEach q.filters SubscribeFilter.write
          pure (1 + c + (body (.Subscribe q)).length)) := by
        rw [ha, hb, ← Subscribe.len_eq q]; rfl
    rw [hw]
    cases ht : q.properties.bind fun ps => tornSec (subscribeProps ps) with
    | some t =>
      rw [hdrWrite_all (r := .err .PayloadTooLong) (t := Spec.u16 q.pkid.toNat ++ t) s (fun hl s => by
          have hs : (optSec subscribeProps q.properties).length ≤ maxRemaining := by
            rw [ha, hb] at hl; simp only [body, List.length_append] at hl; omega
          have e := fun s => writeOrZero_all subscribe_set q.properties hs s
          simp only [ht] at e
          simp only [bind_run, putU16_run, andThen_ok, e]
          simp [andThen_err])]
      simp only [written, ht]
      split
      · rfl
      · simp [Spec.u8, byte1]
    | none =>
      rw [hdrWrite_all (r := .ok (1 + (vbi (announced (.Subscribe q))).length + (body (.Subscribe q)).length))
        (t := body (.Subscribe q)) s (fun hl s => by
          have hs : (optSec subscribeProps q.properties).length ≤ maxRemaining := by
            rw [ha, hb] at hl; simp only [body, List.length_append] at hl; omega
          have e := fun s => writeOrZero_all subscribe_set q.properties hs s
          simp only [ht] at e
          simp only [bind_run, putU16_run, andThen_ok, e, hf, pure_run]
          simp [body])]
      simp only [written, ht]
      split
      · rfl
      · rw [encode, frame_length, ha, hb]
        simp [Spec.u8, byte1, frame]
  | SubAck q =>
    refine written_hdr _ s (written_plain _ rfl (by simp) (by simp) (by simp)) (b := 0x90) (k := fun c => do
      putU16 q.pkid
      writePropsOrZero ReasonProps.write q.properties
      putSlice (q.return_codes.map SubscribeReasonCode.toU8)
      pure (1 + c + (body (.SubAck q)).length)) ?_ rfl (fun hl s => ?_)
    · show _ = hdrWrite _ (body (.SubAck q)).length _
      rw [← SubAck.len_eq]; rfl
    · have hs : (optSec reasonProps q.properties).length ≤ maxRemaining := by
        simp only [wireBody, body, List.length_append] at hl; omega
      mrun [putU16_run, putSlice_run, writeOrZero_no_vbi reason_set no_vbi_reason q.properties hs, codes_eq _ subCode sub_code]
      simp [wireBody, body]
  | Unsubscribe q =>
    refine written_hdr _ s (written_plain _ rfl (by simp) (by simp) (by simp)) (b := 0xA2) (k := fun c => do
      putU16 q.pkid
      writePropsOrZero UnsubscribeProperties.write q.properties
      forEach q.filters write_mqtt_string
      pure (1 + c + (body (.Unsubscribe q)).length)) ?_ rfl (fun hl s => ?_)
    · show _ = hdrWrite _ (body (.Unsubscribe q)).length _
      rw [← Unsubscribe.len_eq]; rfl
    · have hs : (optSec unsubscribeProps q.properties).length ≤ maxRemaining := by
        simp only [wireBody, body, List.length_append] at hl; omega
      mrun [putU16_run, writeOrZero_no_vbi unsubscribe_set no_vbi_unsubscribe q.properties hs,
        V4.forEach_run q.filters write_mqtt_string str (fun f _ s => write_mqtt_string_all f s)]
      simp [wireBody, body]
  | UnsubAck q =>
    refine written_hdr _ s (written_plain _ rfl (by simp) (by simp) (by simp)) (b := 0xB0) (k := fun c => do
      putU16 q.pkid
      writePropsOrZero ReasonProps.write q.properties
      putSlice (q.reasons.map UnsubAckReason.toU8)
      pure (1 + c + (body (.UnsubAck q)).length)) ?_ rfl (fun hl s => ?_)
    · show _ = hdrWrite _ (body (.UnsubAck q)).length _
      rw [← UnsubAck.len_eq]; rfl
    · have hs : (optSec reasonProps q.properties).length ≤ maxRemaining := by
        simp only [wireBody, body, List.length_append] at hl; omega
      mrun [putU16_run, putSlice_run, writeOrZero_no_vbi reason_set no_vbi_reason q.properties hs, codes_eq _ unsubCode unsub_code]
      simp [wireBody, body]
  | PingReq => exact PingReq.write_run s
  | PingResp => exact PingResp.write_run s
  | Disconnect d =>
    have hx := written_plain (.Disconnect d) rfl (by simp) (by simp) (by simp)
    by_cases hs : (wireBody (.Disconnect d)) = []
    · have h0 : ∀ s, (Packet.Disconnect d).write s = (.ok 2, s ++ [0xE0, 0x00]) := by
        intro s
        cases hp : d.properties with
        | none =>
          have hr : d.reason_code = .NormalDisconnection := by
            refine Classical.byContradiction fun h => ?_
            simp [wireBody, hp, h, Spec.u8] at hs
          have := Disconnect.write_run d (by intro p h; simp [hp] at h) (by intro p h; simp [hp] at h)
            (by simp [body, hp, hr]) s
          refine this.trans ?_
          simp [encode, body, hp, hr, byte1, frame, Spec.u8, vbi]
        | some p =>
          have he : disconnectProps p = [] := by
            refine Classical.byContradiction fun h => ?_
            simp [wireBody, hp, h, Spec.u8] at hs
          exact Disconnect.write_empty_props d p hp he s
      rw [h0, hx, hs, if_neg (by decide)]
      rfl
    · have e : wireBody (.Disconnect d) = Spec.u8 (disconnectCode d.reason_code) ++ presentSec disconnectProps d.properties := by
        cases hp : d.properties with
        | none =>
          simp only [wireBody, hp] at hs ⊢
          split at hs
          · exact absurd rfl hs
          · rename_i h; simp [h, presentSec, Spec.u8]
        | some p =>
          simp only [wireBody, hp] at hs ⊢
          split at hs
          · exact absurd rfl hs
          · rename_i h; simp [h, presentSec, Spec.u8]
      have e2 : d.len = (wireBody (.Disconnect d)).length := by
        rw [e]; unfold Disconnect.len
        cases hp : d.properties with
        | none =>
          have hr : d.reason_code ≠ .NormalDisconnection := by
            intro h; simp [wireBody, hp, h] at hs
          simp [hr, presentSec, u8_len]
        | some p => simp [presentSec, propSectionLen_eq disconnect_set, u8_len]
      have e3 : d.len ≠ 2 := by
        rw [e2, e, List.length_append, u8_len]
        cases hp : d.properties with
        | none => simp [presentSec]
        | some p =>
          have he : disconnectProps p ≠ [] := by
            intro h; simp [wireBody, hp, h] at hs
          have := sec_len_ne he
          simp [presentSec]; omega
      refine written_hdr _ s hx (b := 0xE0) (k := fun count => do
        putU8 d.reason_code.toU8
        ifSome d.properties DisconnectProperties.write
        pure (1 + count + d.len)) ?_ rfl (fun hl s => ?_)
      · rw [← e2]
        show d.write = _
        unfold Disconnect.write hdrWrite
        simp only [if_neg e3]
      · have hp : (presentSec disconnectProps d.properties).length ≤ maxRemaining := by
          rw [e] at hl; simp only [List.length_append] at hl; omega
        mrun [putU8_run, ifSome_no_vbi disconnect_set no_vbi_disconnect d.properties hp]
        rw [e2, e]
        simp [disconnect_code, Spec.u8]

theorem Connect.write_all_empty (c : Connect) : c.write [] = written (.Connect c) := by
  unfold written
  rw [announced_eq _ rfl]
  have : wireBody (.Connect c) = body (.Connect c) := rfl
  rw [this]
  split
  · rename_i hl
    rcases Connect.write_cases c [] with ⟨_, e⟩ | ⟨h, _⟩
    · exact e
    · omega
  · exact Connect.write_empty c (by omega)
end V5
end Mqtt
