import Verif.Props.WriteExact
import Verif.Spec.Size
/-! C118: how many bytes a packet takes, and which sizes occur. -/
namespace Props
open Mqtt Spec

theorem lenBytes_eq (n : Nat) : (vbi n).length = Size.lenBytes n := by
  rw [vbi_length_eq]; rfl

theorem utf8_size (s : String) : (utf8 s).length = s.utf8ByteSize := rfl

theorem text_eq (s : String) : (str s).length = Size.text s := by rw [str_len]; rfl

theorem textUnlessEmpty_eq (s : String) : (if s = "" then [] else str s).length = Size.textUnlessEmpty s := by
  unfold Size.textUnlessEmpty; split
  · rfl
  · exact text_eq s

theorem all_eq {α : Type} (f : α → Bytes) (g : α → Nat) (h : ∀ a, (f a).length = g a) (l : List α) :
    (l.flatMap f).length = Size.all g l := by
  induction l with
  | nil => rfl
  | cons a l ih => simp [Size.all, h] at ih ⊢

theorem all_one {α : Type} (f : α → Bytes) (h : ∀ a, (f a).length = 1) (l : List α) : (l.flatMap f).length = l.length := by
  induction l with
  | nil => rfl
  | cons a l ih => simp [h, ih]; omega

theorem size_body4 (p : V4.Packet) : (Spec.V4.body p).length = Size.V4.remaining p := by
  have hM : (str "MQTT").length = 6 := by decide +kernel
  cases p with
  | Connect c =>
    have h1 : (Spec.V4.willFields c.last_will).length
        = Size.maybe (fun w : V4.LastWill => Size.text w.topic + (2 + w.message.length)) c.last_will := by
      cases c.last_will with
      | none => rfl
      | some w => simp [Spec.V4.willFields, Size.maybe, text_eq, bin_len]
    have h2 : (Spec.V4.loginFields c.login).length
        = Size.maybe (fun l : V4.Login => Size.textUnlessEmpty l.username + Size.textUnlessEmpty l.password) c.login := by
      cases c.login with
      | none => rfl
      | some l => rw [Spec.V4.loginFields, List.length_append, textUnlessEmpty_eq, textUnlessEmpty_eq]; rfl
    simp only [Spec.V4.body, Size.V4.remaining, List.length_append, hM, u8_len, u16_len, text_eq, h1, h2]
  | Publish p =>
    simp only [Spec.V4.body, Size.V4.remaining, List.length_append, text_eq]
    split <;> simp [u16_len]
  | Subscribe s =>
    simp only [Spec.V4.body, Size.V4.remaining, List.length_append, u16_len]
    rw [all_eq _ (fun f : V4.SubscribeFilter => Size.text f.path + 1) (fun f => by rw [List.length_append, text_eq, u8_len])]
  | SubAck s =>
    simp only [Spec.V4.body, Size.V4.remaining, List.length_append, u16_len]
    rw [all_one _ (fun f => u8_len _)]
  | Unsubscribe u =>
    simp only [Spec.V4.body, Size.V4.remaining, List.length_append, u16_len]
    rw [all_eq _ _ text_eq]
  | _ => simp [Spec.V4.body, Size.V4.remaining, u8_len, u16_len]

/-- **C118** (v4) The bytes of a packet written into an empty buffer: so many. -/
theorem C118_v4_size (p : V4.Packet) (n : Nat) (bytes : Bytes) (h : p.write [] = (.ok n, bytes)) :
    bytes.length = Size.whole (Size.V4.remaining p) ∧ Size.V4.remaining p ≤ 268435455 := by
  have e : p.write [] = Spec.V4.written p := by
    by_cases hc : ∃ c, p = .Connect c
    · obtain ⟨c, rfl⟩ := hc; exact C91_v4_connect_exact c
    · rw [C91_v4_write_exact p (fun c h => hc ⟨c, h⟩)]; simp
  rw [e] at h
  have hfr : ∀ b, (frame b (Spec.V4.body p)).length = Size.whole (Size.V4.remaining p) := by
    intro b; rw [V4.frame_length, size_body4, lenBytes_eq]; rfl
  unfold Spec.V4.written at h
  split at h
  · simp at h
  · rename_i hlt
    have hle : ¬ Spec.V4.pkidMissing p = true → Size.V4.remaining p ≤ 268435455 := by
      intro hm
      rw [← size_body4]
      simp only [Spec.V4.announced, hm] at hlt
      unfold maxRemaining at hlt
      simp at hlt
      omega
    cases p with
    | Publish q =>
      simp only at h
      split at h
      · simp at h
      · rename_i hm
        simp only [Prod.mk.injEq] at h
        exact ⟨by rw [← h.2]; exact hfr _, hle hm⟩
    | _ =>
      simp only [Prod.mk.injEq] at h
      exact ⟨by rw [← h.2]; exact hfr _, hle (by simp [Spec.V4.pkidMissing])⟩

/-- hypotheses met -/
example : ([0x32, 6, 0, 1, 97, 0, 7, 5] : Bytes).length = Size.whole (2 + 1 + 2 + 1) ∧ 2 + 1 + 2 + 1 ≤ 268435455 :=
  C118_v4_size (.Publish ⟨false, .AtLeastOnce, false, "a", 7, [5]⟩) 8 _ (by decide +kernel)

theorem sect_eq (ps : List Spec.V5.Property) (n : Nat) (h : (Spec.V5.encAll ps).length = n) :
    (Spec.V5.sec ps).length = Size.V5.sect n := by
  rw [Spec.V5.sec, List.length_append, lenBytes_eq, h]; rfl

theorem sectOr_eq {π : Type} (props : π → List Spec.V5.Property) (size : π → Nat)
    (h : ∀ p, (Spec.V5.encAll (props p)).length = size p) (o : Option π) :
    (Spec.V5.optSec props o).length = Size.V5.sectOr size o := by
  cases o with
  | none => exact (by decide +kernel : (Spec.V5.sec []).length = 1)
  | some p => exact sect_eq _ _ (h p)

theorem enc_append (a b : List Spec.V5.Property) :
    (Spec.V5.encAll (a ++ b)).length = (Spec.V5.encAll a).length + (Spec.V5.encAll b).length := by
  simp [Spec.V5.encAll]

theorem enc_u8 (i : Nat) (o : Option UInt8) : (Spec.V5.encAll (Spec.V5.opt i .u8 o)).length = Size.ifThere 2 o := by
  cases o <;> simp [Spec.V5.encAll, Spec.V5.opt, Spec.V5.Property.enc, Spec.V5.Val.enc, Size.ifThere, u8_len]
theorem enc_u16 (i : Nat) (o : Option UInt16) : (Spec.V5.encAll (Spec.V5.opt i .u16 o)).length = Size.ifThere 3 o := by
  cases o <;> simp [Spec.V5.encAll, Spec.V5.opt, Spec.V5.Property.enc, Spec.V5.Val.enc, Size.ifThere, u8_len, u16_len]
theorem enc_u32 (i : Nat) (o : Option UInt32) : (Spec.V5.encAll (Spec.V5.opt i .u32 o)).length = Size.ifThere 5 o := by
  cases o <;> simp [Spec.V5.encAll, Spec.V5.opt, Spec.V5.Property.enc, Spec.V5.Val.enc, Size.ifThere, u8_len, u32_len]
theorem enc_str (i : Nat) (o : Option String) :
    (Spec.V5.encAll (Spec.V5.opt i .str o)).length = Size.maybe Size.V5.textProp o := by
  cases o <;> simp [Spec.V5.encAll, Spec.V5.opt, Spec.V5.Property.enc, Spec.V5.Val.enc, Size.maybe, Size.V5.textProp,
    u8_len, text_eq]
theorem enc_bin (i : Nat) (o : Option Bytes) :
    (Spec.V5.encAll (Spec.V5.opt i .bin o)).length = Size.maybe Size.V5.binProp o := by
  cases o <;> simp [Spec.V5.encAll, Spec.V5.opt, Spec.V5.Property.enc, Spec.V5.Val.enc, Size.maybe, Size.V5.binProp,
    u8_len, bin_len]
theorem enc_vbi (i : Nat) (o : Option Nat) :
    (Spec.V5.encAll (Spec.V5.opt i .vbi o)).length = Size.maybe Size.V5.idProp o := by
  cases o <;> simp [Spec.V5.encAll, Spec.V5.opt, Spec.V5.Property.enc, Spec.V5.Val.enc, Size.maybe, Size.V5.idProp,
    u8_len, lenBytes_eq]
theorem enc_users (l : List (String × String)) : (Spec.V5.encAll (Spec.V5.users l)).length = Size.V5.userProps l := by
  unfold Spec.V5.encAll Spec.V5.users Size.V5.userProps
  rw [List.flatMap_map]
  exact all_eq _ _ (fun kv => by
    simp only [Spec.V5.Property.enc, Spec.V5.Val.enc, List.length_append, u8_len, text_eq]; omega) l
theorem enc_ids (l : List Nat) :
    (Spec.V5.encAll (l.map fun n => ⟨11, .vbi n⟩)).length = Size.all Size.V5.idProp l := by
  unfold Spec.V5.encAll
  rw [List.flatMap_map]
  exact all_eq _ _ (fun kv => by
    simp only [Spec.V5.Property.enc, Spec.V5.Val.enc, List.length_append, u8_len, lenBytes_eq]; rfl) l

theorem size_reason (p : V5.ReasonProps) : (Spec.V5.encAll (Spec.V5.reasonProps p)).length = Size.V5.reasonProps p := by
  simp only [Spec.V5.reasonProps, Size.V5.reasonProps, enc_append, enc_str, enc_users]
theorem size_will (p : V5.WillProperties) : (Spec.V5.encAll (Spec.V5.willProps p)).length = Size.V5.willProps p := by
  simp only [Spec.V5.willProps, Size.V5.willProps, enc_append, enc_str, enc_users, enc_u8, enc_u32, enc_bin]
theorem size_connect (p : V5.ConnectProperties) :
    (Spec.V5.encAll (Spec.V5.connectProps p)).length = Size.V5.connectProps p := by
  simp only [Spec.V5.connectProps, Size.V5.connectProps, enc_append, enc_str, enc_users, enc_u8, enc_u16, enc_u32, enc_bin]
theorem size_connack (p : V5.ConnAckProperties) :
    (Spec.V5.encAll (Spec.V5.connackProps p)).length = Size.V5.connackProps p := by
  simp only [Spec.V5.connackProps, Size.V5.connackProps, enc_append, enc_str, enc_users, enc_u8, enc_u16, enc_u32, enc_bin]
theorem size_publish (p : V5.PublishProperties) :
    (Spec.V5.encAll (Spec.V5.publishProps p)).length = Size.V5.publishProps p := by
  simp only [Spec.V5.publishProps, Size.V5.publishProps, enc_append, enc_str, enc_users, enc_u8, enc_u16, enc_u32, enc_bin,
    enc_ids]
theorem size_subscribe (p : V5.SubscribeProperties) :
    (Spec.V5.encAll (Spec.V5.subscribeProps p)).length = Size.V5.subscribeProps p := by
  simp only [Spec.V5.subscribeProps, Size.V5.subscribeProps, enc_append, enc_vbi, enc_users]
theorem size_disconnect (p : V5.DisconnectProperties) :
    (Spec.V5.encAll (Spec.V5.disconnectProps p)).length = Size.V5.disconnectProps p := by
  simp only [Spec.V5.disconnectProps, Size.V5.disconnectProps, enc_append, enc_str, enc_users, enc_u32]

theorem size_ack {R : Type} [DecidableEq R] (code : R → Nat) (success : R) (hs : ∀ r, code r = 0 ↔ r = success)
    (a : V5.Ack R) : (Spec.V5.ackBody code a).length = Size.V5.ack success a := by
  unfold Spec.V5.ackBody Size.V5.ack
  rw [List.length_append, u16_len]
  cases a.properties with
  | some p => simp only [List.length_append, u8_len, sect_eq _ _ (size_reason p)]; omega
  | none =>
    by_cases h : a.reason = success
    · simp [h, (hs success).2 rfl]
    · simp [h, mt (hs _).1 h, u8_len]

theorem enc_nil_iff (ps : List Spec.V5.Property) : (Spec.V5.encAll ps).length = 0 ↔ ps = [] := by
  cases ps with
  | nil => simp [Spec.V5.encAll]
  | cons q l => simp [Spec.V5.encAll, Spec.V5.Property.enc, Spec.u8]

theorem size_body5 (p : V5.Packet) : (Spec.V5.wireBody p).length = Size.V5.remaining p := by
  have hM : (str "MQTT").length = 6 := by decide +kernel
  cases p with
  | Connect c =>
    have h1 : (Spec.V5.willFields c.last_will).length
        = Size.maybe (fun w : V5.LastWill => Size.V5.sectOr Size.V5.willProps w.properties + Size.text w.topic
            + (2 + w.message.length)) c.last_will := by
      cases c.last_will with
      | none => rfl
      | some w => simp only [Spec.V5.willFields, Size.maybe, text_eq, bin_len, List.length_append, sectOr_eq _ _ size_will]
    have h2 : (Spec.V5.loginFields c.login).length
        = Size.maybe (fun l : V5.Login => Size.textUnlessEmpty l.username + Size.textUnlessEmpty l.password) c.login := by
      cases c.login with
      | none => rfl
      | some l => rw [Spec.V5.loginFields, List.length_append, textUnlessEmpty_eq, textUnlessEmpty_eq]; rfl
    simp only [Spec.V5.wireBody, Spec.V5.body, Size.V5.remaining, List.length_append, hM, u8_len, u16_len, text_eq, h1, h2,
      sectOr_eq _ _ size_connect]
  | ConnAck c =>
    simp only [Spec.V5.wireBody, Size.V5.remaining]
    cases c.properties with
    | none => rfl
    | some p => simp only [List.length_append, u8_len, sect_eq _ _ (size_connack p)]; rfl
  | Publish p =>
    simp only [Spec.V5.wireBody, Spec.V5.body, Size.V5.remaining, List.length_append, text_eq, sectOr_eq _ _ size_publish]
    split <;> simp [u16_len]
  | PubAck a => exact size_ack _ _ (fun r => by cases r <;> decide) a
  | PubRec a => exact size_ack _ _ (fun r => by cases r <;> decide) a
  | PubRel a => exact size_ack _ _ (fun r => by cases r <;> decide) a
  | PubComp a => exact size_ack _ _ (fun r => by cases r <;> decide) a
  | Subscribe s =>
    simp only [Spec.V5.wireBody, Spec.V5.body, Size.V5.remaining, List.length_append, u16_len, sectOr_eq _ _ size_subscribe]
    rw [all_eq _ (fun f : V5.SubscribeFilter => Size.text f.path + 1) (fun f => by rw [List.length_append, text_eq, u8_len])]
  | SubAck s =>
    simp only [Spec.V5.wireBody, Spec.V5.body, Size.V5.remaining, List.length_append, u16_len, sectOr_eq _ _ size_reason]
    rw [all_one _ (fun f => u8_len _)]
  | Unsubscribe u =>
    simp only [Spec.V5.wireBody, Spec.V5.body, Size.V5.remaining, List.length_append, u16_len]
    rw [all_eq _ _ text_eq, sectOr_eq Spec.V5.unsubscribeProps (fun p => Size.V5.userProps p.user_properties)
      (fun p => enc_users _)]
  | UnsubAck u =>
    simp only [Spec.V5.wireBody, Spec.V5.body, Size.V5.remaining, List.length_append, u16_len, sectOr_eq _ _ size_reason]
    rw [all_one _ (fun f => u8_len _)]
  | PingReq => rfl
  | PingResp => rfl
  | Disconnect d =>
    simp only [Spec.V5.wireBody, Size.V5.remaining]
    cases d.properties with
    | none => simp only; split <;> simp [u8_len]
    | some p =>
      simp only
      by_cases h : Spec.V5.disconnectProps p = []
      · rw [if_pos h, if_pos ((size_disconnect p).symm.trans ((enc_nil_iff _).2 h))]; rfl
      · rw [if_neg h, if_neg (fun e => h ((enc_nil_iff _).1 ((size_disconnect p).trans e))), List.length_append, u8_len,
          sect_eq _ _ (size_disconnect p)]

/-- **C118** (v5) The same. -/
theorem C118_v5_size (p : V5.Packet) (n : Nat) (bytes : Bytes) (h : p.write [] = (.ok n, bytes)) :
    bytes.length = Size.whole (Size.V5.remaining p) ∧ Size.V5.remaining p ≤ 268435455 := by
  have e : p.write [] = Spec.V5.written p := by
    by_cases hc : ∃ c, p = .Connect c
    · obtain ⟨c, rfl⟩ := hc; exact C91_v5_connect_exact c
    · rw [C91_v5_write_exact p (fun c h => hc ⟨c, h⟩)]; simp
  rw [e] at h
  have hfr : ∀ b, (frame b (Spec.V5.wireBody p)).length = Size.whole (Size.V5.remaining p) := by
    intro b; rw [V4.frame_length, size_body5, lenBytes_eq]; rfl
  unfold Spec.V5.written at h
  split at h
  · simp at h
  · rename_i hlt
    have hle : ¬ Spec.V5.pkidMissing p = true → Size.V5.remaining p ≤ 268435455 := by
      intro hm
      rw [← size_body5]
      simp only [Spec.V5.announced, hm] at hlt
      unfold maxRemaining at hlt
      simp at hlt
      omega
    cases p with
    | Publish q =>
      simp only at h
      split at h
      · simp at h
      · rename_i hm
        split at h
        · simp at h
        · simp only [Prod.mk.injEq] at h
          exact ⟨by rw [← h.2]; exact hfr _, hle hm⟩
    | Subscribe q =>
      simp only at h
      split at h
      · simp at h
      · simp only [Prod.mk.injEq] at h
        exact ⟨by rw [← h.2]; exact hfr _, hle (by simp [Spec.V5.pkidMissing])⟩
    | _ =>
      simp only [Prod.mk.injEq] at h
      exact ⟨by rw [← h.2]; exact hfr _, hle (by simp [Spec.V5.pkidMissing])⟩

/-- hypotheses met: a DISCONNECT with a reason string -/
example : ([0xE0, 6, 0x89, 4, 31, 0, 1, 97] : Bytes).length = Size.whole 6 :=
  (C118_v5_size (.Disconnect ⟨.ServerBusy, some ⟨none, some "a", [], none⟩⟩) 8 _ (by decide +kernel)).1

/-- the sizes of whole packets -/
theorem whole_range (n : Nat) (h : n ≤ 268435455) : 2 ≤ Size.whole n ∧ Size.whole n ≤ 268435460
    ∧ Size.whole n ≠ 130 ∧ Size.whole n ≠ 16387 ∧ Size.whole n ≠ 2097156 := by
  unfold Size.whole Size.lenBytes
  split
  · omega
  split
  · omega
  split
  · omega
  · omega

theorem whole_onto (k : Nat) (h : 2 ≤ k ∧ k ≤ 268435460 ∧ k ≠ 130 ∧ k ≠ 16387 ∧ k ≠ 2097156) :
    ∃ n, n ≤ 268435455 ∧ Size.whole n = k ∧ k ≤ n + 5 := by
  by_cases h1 : k < 130
  · exact ⟨k - 2, by omega, by unfold Size.whole Size.lenBytes; rw [if_pos (by omega)]; omega, by omega⟩
  by_cases h2 : k < 16387
  · exact ⟨k - 3, by omega, by
      unfold Size.whole Size.lenBytes; rw [if_neg (by omega), if_pos (by omega)]; omega, by omega⟩
  by_cases h3 : k < 2097156
  · exact ⟨k - 4, by omega, by
      unfold Size.whole Size.lenBytes; rw [if_neg (by omega), if_neg (by omega), if_pos (by omega)]; omega, by omega⟩
  · exact ⟨k - 5, by omega, by
      unfold Size.whole Size.lenBytes; rw [if_neg (by omega), if_neg (by omega), if_neg (by omega)]; omega, by omega⟩

/-- **C118** (v4) Which sizes occur: 2, and from 4 to 268435460 all but 130, 16387 and 2097156. -/
theorem C118_v4_sizes (k : Nat) :
    (∃ (p : V4.Packet) (n : Nat) (bytes : Bytes), p.write [] = (.ok n, bytes) ∧ bytes.length = k) ↔
      (k = 2 ∨ 4 ≤ k) ∧ k ≤ 268435460 ∧ k ≠ 130 ∧ k ≠ 16387 ∧ k ≠ 2097156 := by
  constructor
  · rintro ⟨p, n, bytes, h, rfl⟩
    obtain ⟨h1, h2⟩ := C118_v4_size p n bytes h
    have hr := whole_range _ h2
    have h3 : Size.V4.remaining p = 0 ∨ 2 ≤ Size.V4.remaining p := by
      cases p <;> simp [Size.V4.remaining, Size.text] <;> omega
    rw [h1]
    refine ⟨?_, hr.2⟩
    rcases h3 with h3 | h3
    · exact .inl (by rw [h3]; rfl)
    · right
      unfold Size.whole Size.lenBytes
      repeat' split
      all_goals omega
  · rintro ⟨h1, h2⟩
    rcases h1 with rfl | h1
    · exact ⟨.PingReq, 2, [0xC0, 0], by decide +kernel, rfl⟩
    · obtain ⟨n, hn, hw, h5⟩ := whole_onto k ⟨by omega, h2⟩
      have hn2 : 2 ≤ n := by
        refine Classical.byContradiction fun hlt => ?_
        unfold Size.whole Size.lenBytes at hw
        rw [if_pos (by omega)] at hw
        omega
      have hr : Size.V4.remaining (.Publish ⟨false, .AtMostOnce, false, "", 0, List.replicate (n - 2) 0⟩) = n := by
        simp [Size.V4.remaining, Size.text]; omega
      have hok : ∃ m bytes, (V4.Packet.Publish ⟨false, .AtMostOnce, false, "", 0, List.replicate (n - 2) 0⟩).write []
          = (.ok m, bytes) := by
        rw [C91_v4_write_exact _ (by simp)]
        unfold Spec.V4.written
        rw [if_neg]
        · exact ⟨_, _, rfl⟩
        · simp only [Spec.V4.announced, Spec.V4.pkidMissing, size_body4, hr]
          unfold maxRemaining
          simp; omega
      obtain ⟨m, bytes, hb⟩ := hok
      exact ⟨_, m, bytes, hb, by rw [(C118_v4_size _ _ _ hb).1, hr, hw]⟩

/-- **C118** (v5) Which sizes occur: from 2 to 268435460 all but 130, 16387 and 2097156. -/
theorem C118_v5_sizes (k : Nat) :
    (∃ (p : V5.Packet) (n : Nat) (bytes : Bytes), p.write [] = (.ok n, bytes) ∧ bytes.length = k) ↔
      2 ≤ k ∧ k ≤ 268435460 ∧ k ≠ 130 ∧ k ≠ 16387 ∧ k ≠ 2097156 := by
  constructor
  · rintro ⟨p, n, bytes, h, rfl⟩
    obtain ⟨h1, h2⟩ := C118_v5_size p n bytes h
    rw [h1]
    exact whole_range _ h2
  · intro h
    by_cases h2 : k = 2
    · subst h2; exact ⟨.PingReq, 2, [0xC0, 0], by decide +kernel, rfl⟩
    by_cases h3 : k = 3
    · subst h3; exact ⟨.Disconnect ⟨.ServerBusy, none⟩, 3, [0xE0, 1, 0x89], by decide +kernel, rfl⟩
    by_cases h4 : k = 4
    · subst h4; exact ⟨.PubAck ⟨7, .Success, none⟩, 4, [0x40, 2, 0, 7], by decide +kernel, rfl⟩
    obtain ⟨n, hn, hw, h5⟩ := whole_onto k h
    have hn2 : 3 ≤ n := by
      refine Classical.byContradiction fun hlt => ?_
      unfold Size.whole Size.lenBytes at hw
      rw [if_pos (by omega)] at hw
      omega
    have hr : Size.V5.remaining (.Publish ⟨false, .AtMostOnce, false, "", 0, none, List.replicate (n - 3) 0⟩) = n := by
      simp [Size.V5.remaining, Size.text, Size.V5.sectOr]; omega
    have hok : ∃ m bytes, (V5.Packet.Publish ⟨false, .AtMostOnce, false, "", 0, none, List.replicate (n - 3) 0⟩).write []
        = (.ok m, bytes) := by
      rw [C91_v5_write_exact _ (by simp)]
      unfold Spec.V5.written
      rw [if_neg]
      · exact ⟨_, _, rfl⟩
      · simp only [Spec.V5.announced, Spec.V5.pkidMissing, size_body5, hr]
        unfold maxRemaining
        simp; omega
    obtain ⟨m, bytes, hb⟩ := hok
    exact ⟨_, m, bytes, hb, by rw [(C118_v5_size _ _ _ hb).1, hr, hw]⟩

/-- the theorems at work: a packet of 129 bytes exists, one of 130 bytes does not -/
example : ∃ (p : V4.Packet) (n : Nat) (bytes : Bytes), p.write [] = (.ok n, bytes) ∧ bytes.length = 129 :=
  (C118_v4_sizes 129).2 (by decide)
example (p : V5.Packet) (n : Nat) (bytes : Bytes) (h : p.write [] = (.ok n, bytes)) : bytes.length ≠ 130 :=
  ((C118_v5_sizes bytes.length).1 ⟨p, n, bytes, h, rfl⟩).2.2.1

end Props
