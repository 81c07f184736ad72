import Verif.Spec.V4
import Verif.Proof.Frame
/-! v4 writers emit the specified bytes. -/
set_option linter.unusedSimpArgs false
namespace Mqtt.V4
open Spec
open Spec.V4 (body byte1 encode FieldsFit Meaningful WF)

theorem strLen_eq (s : String) : strLen s = (utf8 s).length := rfl

theorem frame_length (b : Nat) (bd : Bytes) :
    (frame b bd).length = 1 + (vbi bd.length).length + bd.length := by
  simp [frame, Spec.u8]; omega

theorem foldl_len {α : Type} (l : List α) (f : α → Nat) (n : Nat) :
    l.foldl (fun s t => s + f t) n = n + (l.map f).sum := by
  induction l generalizing n with
  | nil => simp
  | cons x xs ih => simp [ih]; omega

theorem flatMap_length {α : Type} (l : List α) (f : α → Bytes) :
    (l.flatMap f).length = (l.map fun a => (f a).length).sum := by
  induction l with
  | nil => simp
  | cons x xs ih => simp [ih]

theorem forEach_run {α : Type} (l : List α) (w : α → M Unit) (e : α → Bytes)
    (h : ∀ a ∈ l, ∀ s, w a s = (.ok (), s ++ e a)) (s : Bytes) :
    forEach l w s = (.ok (), s ++ l.flatMap e) := by
  induction l generalizing s with
  | nil => simp [forEach, pure_run]
  | cons x xs ih =>
    rw [forEach]
    mrun [h x (by simp)]
    rw [ih (fun a ha => h a (by simp [ha]))]
    simp

/-! ### small acknowledgements -/

theorem PubAck.write_run (p : PubAck) (s : Bytes) :
    p.write s = (.ok (encode (.PubAck p)).length, s ++ encode (.PubAck p)) := by
  unfold PubAck.write PubAck.len
  mrun [putU8_run, putU16_run, write_remaining_length_run (n := 2) (by decide)]
  rw [encode, frame_length]
  simp [frame, body, byte1, Spec.u8, u16_len]

theorem PubRec.write_run (p : PubRec) (s : Bytes) :
    p.write s = (.ok (encode (.PubRec p)).length, s ++ encode (.PubRec p)) := by
  unfold PubRec.write PubRec.len
  mrun [putU8_run, putU16_run, write_remaining_length_run (n := 2) (by decide)]
  rw [encode, frame_length]
  simp [frame, body, byte1, Spec.u8, u16_len]

theorem PubRel.write_run (p : PubRel) (s : Bytes) :
    p.write s = (.ok (encode (.PubRel p)).length, s ++ encode (.PubRel p)) := by
  unfold PubRel.write PubRel.len
  mrun [putU8_run, putU16_run, write_remaining_length_run (n := 2) (by decide)]
  rw [encode, frame_length]
  simp [frame, body, byte1, Spec.u8, u16_len]

theorem PubComp.write_run (p : PubComp) (s : Bytes) :
    p.write s = (.ok (encode (.PubComp p)).length, s ++ encode (.PubComp p)) := by
  unfold PubComp.write PubComp.len
  mrun [putU8_run, putU16_run, write_remaining_length_run (n := 2) (by decide)]
  rw [encode, frame_length]
  simp [frame, body, byte1, Spec.u8, u16_len]

theorem UnsubAck.write_run (p : UnsubAck) (s : Bytes) :
    p.write s = (.ok (encode (.UnsubAck p)).length, s ++ encode (.UnsubAck p)) := by
  unfold UnsubAck.write
  mrun [putSlice_run, putU16_run]
  simp [encode, frame, body, byte1, Spec.u8, u16_len, vbi]

theorem returnCode_eq (c : ConnectReturnCode) :
    c.toU8 = UInt8.ofNat (Spec.V4.returnCode c) := by cases c <;> rfl

theorem ConnAck.write_run (c : ConnAck) (s : Bytes) :
    c.write s = (.ok (encode (.ConnAck c)).length, s ++ encode (.ConnAck c)) := by
  unfold ConnAck.write ConnAck.len
  mrun [putU8_run, write_remaining_length_run (n := 1 + 1) (by decide)]
  have : boolU8 c.session_present = UInt8.ofNat (flag c.session_present 1) := by
    cases c.session_present <;> rfl
  rw [encode, frame_length]
  simp [frame, body, byte1, Spec.u8, this, returnCode_eq]

theorem PingReq.write_run (s : Bytes) :
    PingReq.write s = (.ok (encode .PingReq).length, s ++ encode .PingReq) := rfl
theorem PingResp.write_run (s : Bytes) :
    PingResp.write s = (.ok (encode .PingResp).length, s ++ encode .PingResp) := rfl
theorem Disconnect.write_run (s : Bytes) :
    Disconnect.write s = (.ok (encode .Disconnect).length, s ++ encode .Disconnect) := rfl

/-! ### publish -/

theorem publish_byte1 (d r : Bool) (q : QoS) :
    ((0b00110000 : UInt8) ||| boolU8 r ||| (q.toU8 <<< 1) ||| (boolU8 d <<< 3))
      = UInt8.ofNat (3 * 16 + flag d 8 + 2 * Spec.V4.qosNum q + flag r 1) := by
  cases d <;> cases r <;> cases q <;> rfl

theorem Publish.len_eq (p : Publish) (h : p.qos ≠ .AtMostOnce → p.pkid ≠ 0) :
    p.len = (body (.Publish p)).length := by
  unfold Publish.len body
  by_cases hq : p.qos = .AtMostOnce
  · simp [hq, str_len, strLen_eq]
  · simp [hq, h hq, str_len, strLen_eq, u16_len]; omega

theorem Publish.write_run (p : Publish) (hf : FieldsFit (.Publish p))
    (hm : p.qos ≠ .AtMostOnce → p.pkid ≠ 0)
    (hl : (body (.Publish p)).length ≤ maxRemaining) (s : Bytes) :
    p.write s = (.ok (encode (.Publish p)).length, s ++ encode (.Publish p)) := by
  unfold Publish.write
  rw [Publish.len_eq p hm]
  mrun [putU8_run, write_remaining_length_run hl,
    fun s => write_mqtt_string_run p.topic s hf, publish_byte1]
  rw [encode, frame_length]
  by_cases hq : p.qos = .AtMostOnce
  · simp [hq, pure_run, andThen_ok, putSlice_run, bind_run, frame, body, byte1, Spec.u8]
  · simp [hq, hm hq, pure_run, andThen_ok, putSlice_run, putU16_run, bind_run, frame, body, byte1, Spec.u8]

/-! ### subscribe, suback, unsubscribe -/

theorem qos_toU8 (q : QoS) : q.toU8 = UInt8.ofNat (Spec.V4.qosNum q) := by cases q <;> rfl

theorem SubscribeFilter.write_run (f : SubscribeFilter) (h : fits (utf8 f.path).length)
    (s : Bytes) :
    f.write s = (.ok (), s ++ (str f.path ++ Spec.u8 (Spec.V4.qosNum f.qos))) := by
  unfold SubscribeFilter.write
  mrun [putU8_run, fun s => write_mqtt_string_run f.path s h]
  simp [Spec.u8, qos_toU8]

theorem Subscribe.len_eq (p : Subscribe) : p.len = (body (.Subscribe p)).length := by
  unfold Subscribe.len body
  rw [foldl_len, List.length_append, u16_len, flatMap_length]
  have : SubscribeFilter.len = fun a : SubscribeFilter =>
      (str a.path ++ Spec.u8 (Spec.V4.qosNum a.qos)).length := by
    funext a; simp [SubscribeFilter.len, str_len, u8_len, strLen_eq]
  rw [this]; omega

theorem Subscribe.write_run (p : Subscribe) (hf : FieldsFit (.Subscribe p))
    (hl : (body (.Subscribe p)).length ≤ maxRemaining) (s : Bytes) :
    p.write s = (.ok (encode (.Subscribe p)).length, s ++ encode (.Subscribe p)) := by
  unfold Subscribe.write
  rw [Subscribe.len_eq]
  mrun [putU8_run, putU16_run, write_remaining_length_run hl,
    forEach_run p.filters SubscribeFilter.write
      (fun f => str f.path ++ Spec.u8 (Spec.V4.qosNum f.qos))
      (fun f hx => SubscribeFilter.write_run f (hf f hx))]
  rw [encode, frame_length]
  simp [frame, body, byte1, Spec.u8]

theorem subCode_eq (c : SubscribeReasonCode) : c.toU8 = UInt8.ofNat (Spec.V4.subCode c) := by
  cases c with
  | Success q => cases q <;> rfl
  | Failure => rfl

theorem SubAck.codes_eq (l : List SubscribeReasonCode) :
    l.map SubscribeReasonCode.toU8 = l.flatMap fun c => Spec.u8 (Spec.V4.subCode c) := by
  induction l with
  | nil => rfl
  | cons x xs ih => simp [ih, Spec.u8, subCode_eq]

theorem SubAck.len_eq (p : SubAck) : p.len = (body (.SubAck p)).length := by
  unfold SubAck.len body
  simp only [← SubAck.codes_eq]; simp [u16_len]

theorem SubAck.write_run (p : SubAck)
    (hl : (body (.SubAck p)).length ≤ maxRemaining) (s : Bytes) :
    p.write s = (.ok (encode (.SubAck p)).length, s ++ encode (.SubAck p)) := by
  unfold SubAck.write
  rw [SubAck.len_eq]
  mrun [putU8_run, putU16_run, write_remaining_length_run hl, putSlice_run, SubAck.codes_eq]
  rw [encode, frame_length]
  simp [frame, body, byte1, Spec.u8]

theorem Unsubscribe.len_eq (p : Unsubscribe) :
    2 + p.topics.foldl (fun s topic => s + strLen topic + 2) 0
      = (body (.Unsubscribe p)).length := by
  unfold body
  have : (fun (s : Nat) (topic : String) => s + strLen topic + 2)
      = fun s t => s + (strLen t + 2) := by
    funext s t; omega
  rw [this, foldl_len, List.length_append, u16_len, flatMap_length]
  simp only [str_len, strLen_eq]
  have : (fun s : String => 2 + (utf8 s).length) = fun s => (utf8 s).length + 2 := by
    funext s; omega
  rw [this]; omega

theorem Unsubscribe.write_run (p : Unsubscribe) (hf : FieldsFit (.Unsubscribe p))
    (hl : (body (.Unsubscribe p)).length ≤ maxRemaining) (s : Bytes) :
    p.write s = (.ok (encode (.Unsubscribe p)).length, s ++ encode (.Unsubscribe p)) := by
  unfold Unsubscribe.write
  rw [Unsubscribe.len_eq]
  mrun [putU8_run, putU16_run, write_remaining_length_run hl,
    forEach_run p.topics write_mqtt_string str
      (fun f hx s => write_mqtt_string_run f s (hf f hx))]
  rw [encode, frame_length]
  simp [frame, body, byte1, Spec.u8]

/-! ### connect -/

theorem isEmpty_iff (s : String) : s.isEmpty = decide (s = "") := by
  by_cases h : s = ""
  · subst h; rfl
  · simp [h]

/-- what `Login::write` appends and the flags it returns -/
theorem Login.write_run (l : Login) (s : Bytes) :
    l.write s = (.ok (UInt8.ofNat (flag (l.username ≠ "") 128 + flag (l.password ≠ "") 64)),
      s ++ Spec.V4.loginFields (some l)) := by
  unfold Login.write Spec.V4.loginFields
  have e1 := fun s => write_mqtt_string_all l.username s
  have e2 := fun s => write_mqtt_string_all l.password s
  by_cases hu : l.username = "" <;> by_cases hp : l.password = "" <;>
    simp [isEmpty_iff, hu, hp, flag, andThen_ok, bind_run, pure_run, e1, e2] <;> rfl

theorem LastWill.write_run (w : LastWill) (s : Bytes) :
    w.write s = (.ok (UInt8.ofNat (flag w.retain 32 + 8 * Spec.V4.qosNum w.qos + 4)),
      s ++ Spec.V4.willFields (some w)) := by
  unfold LastWill.write Spec.V4.willFields
  mrun [fun s => write_mqtt_string_all w.topic s,
    fun s => write_mqtt_bytes_all w.message s]
  have : (if w.retain = true then (0 : UInt8) ||| ((4 : UInt8) ||| (w.qos.toU8 <<< 3)) ||| (32 : UInt8)
      else (0 : UInt8) ||| ((4 : UInt8) ||| (w.qos.toU8 <<< 3)))
      = UInt8.ofNat (flag w.retain 32 + 8 * Spec.V4.qosNum w.qos + 4) := by
    cases w.retain <;> cases w.qos <;> rfl
  rw [this, List.append_assoc]

theorem Login.len_eq (l : Login) : l.len = (Spec.V4.loginFields (some l)).length := by
  unfold Login.len Spec.V4.loginFields
  simp only [isEmpty_iff]
  by_cases hu : l.username = "" <;> by_cases hp : l.password = "" <;>
    simp [hu, hp, str_len, strLen_eq]

theorem LastWill.len_eq (w : LastWill) : w.len = (Spec.V4.willFields (some w)).length := by
  unfold LastWill.len Spec.V4.willFields
  simp only [List.length_append, str_len, bin_len, strLen_eq]; omega

theorem mqtt_len : (str "MQTT").length = 6 := by decide +kernel

theorem Connect.len_eq (c : Connect) : c.len = (body (.Connect c)).length := by
  unfold Connect.len body
  simp only [List.length_append, mqtt_len, u8_len, u16_len, str_len c.client_id, strLen_eq]
  cases hw : c.last_will <;> cases hl : c.login
  all_goals
    simp only [LastWill.len_eq, Login.len_eq, Spec.V4.willFields, Spec.V4.loginFields, List.length_nil]
    try omega

/-- the connect body with an arbitrary flags byte -/
def bodyWith (c : Connect) (flags : UInt8) : Bytes :=
  str "MQTT" ++ Spec.u8 (Spec.V4.level c.protocol) ++ [flags]
      ++ Spec.u16 c.keep_alive.toNat ++ str c.client_id ++ Spec.V4.willFields c.last_will
      ++ Spec.V4.loginFields c.login

theorem bodyWith_flags (c : Connect) :
    bodyWith c (UInt8.ofNat (Spec.V4.connectFlags c)) = body (.Connect c) := rfl

theorem bodyWith_length (c : Connect) (f : UInt8) :
    (bodyWith c f).length = (body (.Connect c)).length := by
  rw [← bodyWith_flags]; simp [bodyWith]

theorem flags_or (cs : Bool) (w : Option LastWill) (l : Option Login) :
    ((if cs = true then (0 : UInt8) ||| 2 else 0)
      ||| UInt8.ofNat (match w with
        | some w => flag w.retain 32 + 8 * Spec.V4.qosNum w.qos + 4 | none => 0))
      ||| UInt8.ofNat (match l with
        | some l => flag (l.username ≠ "") 128 + flag (l.password ≠ "") 64 | none => 0)
      = UInt8.ofNat ((match l with
        | some l => flag (l.username ≠ "") 128 + flag (l.password ≠ "") 64 | none => 0)
        + (match w with
        | some w => flag w.retain 32 + 8 * Spec.V4.qosNum w.qos + 4 | none => 0)
        + flag cs 2) := by
  cases w with
  | none =>
    cases l with
    | none => cases cs <;> rfl
    | some l =>
      obtain ⟨u, p⟩ := l
      simp only
      generalize decide (u ≠ "") = a
      generalize decide (p ≠ "") = b
      cases cs <;> cases a <;> cases b <;> rfl
  | some w =>
    obtain ⟨_, _, q, r⟩ := w
    cases l with
    | none => simp only; cases cs <;> cases q <;> cases r <;> rfl
    | some l =>
      obtain ⟨u, p⟩ := l
      simp only
      generalize decide (u ≠ "") = a
      generalize decide (p ≠ "") = b
      cases cs <;> cases a <;> cases b <;> cases q <;> cases r <;> rfl

/-- Exact effect of `Connect::write` on any buffer: the packet with only the clean-session flag is
appended, then the byte at the absolute index `1 + count + 7` is overwritten with the flags. -/
theorem Connect.write_run (c : Connect)
    (hl : (body (.Connect c)).length ≤ maxRemaining) (s : Bytes) :
    c.write s = (.ok (body (.Connect c)).length,
      (s ++ (Spec.u8 16 ++ vbi (body (.Connect c)).length
        ++ bodyWith c (UInt8.ofNat (flag c.clean_session 2)))).set
        (8 + (vbi (body (.Connect c)).length).length)
        (UInt8.ofNat (Spec.V4.connectFlags c))) := by
  unfold Connect.write
  rw [Connect.len_eq]
  have hlev : [c.protocol.level] = Spec.u8 (Spec.V4.level c.protocol) := by
    cases c.protocol <;> rfl
  have hwill : ∀ (f : UInt8) (s : Bytes), orFlags c.last_will LastWill.write f s =
      (.ok (f ||| UInt8.ofNat (match c.last_will with
        | some w => flag w.retain 32 + 8 * Spec.V4.qosNum w.qos + 4
        | none => 0)), s ++ Spec.V4.willFields c.last_will) := by
    intro f s
    unfold orFlags
    cases h : c.last_will with
    | none => simp [pure_run, Spec.V4.willFields]
    | some w =>
      mrun [fun s => LastWill.write_run w s]
  have hlogin : ∀ (f : UInt8) (s : Bytes), orFlags c.login Login.write f s =
      (.ok (f ||| UInt8.ofNat (match c.login with
        | some l => flag (l.username ≠ "") 128 + flag (l.password ≠ "") 64
        | none => 0)), s ++ Spec.V4.loginFields c.login) := by
    intro f s
    unfold orFlags
    cases h : c.login with
    | none => simp [pure_run, Spec.V4.loginFields]
    | some l =>
      mrun [fun s => Login.write_run l s]
  have hcs : (if c.clean_session = true then (0 : UInt8) ||| 2 else 0)
      = UInt8.ofNat (flag c.clean_session 2) := by cases c.clean_session <;> rfl
  mrun [putU8_run, putU16_run, write_remaining_length_run hl,
    fun s => write_mqtt_string_all c.client_id s,
    fun s => write_mqtt_string_all "MQTT" s, hlev, hwill, hlogin]
  rw [flags_or, hcs]
  have e : s ++ [16] ++ vbi (body (.Connect c)).length ++ str "MQTT"
        ++ Spec.u8 (Spec.V4.level c.protocol) ++ [UInt8.ofNat (flag c.clean_session 2)]
        ++ Spec.u16 c.keep_alive.toNat ++ str c.client_id ++ Spec.V4.willFields c.last_will
        ++ Spec.V4.loginFields c.login
      = s ++ (Spec.u8 16 ++ vbi (body (.Connect c)).length
        ++ bodyWith c (UInt8.ofNat (flag c.clean_session 2))) := by
    simp [bodyWith, Spec.u8]
  rw [e]
  have hi : 1 + (vbi (body (.Connect c)).length).length + 2 + 4 + 1
      = 8 + (vbi (body (.Connect c)).length).length := by omega
  rw [hi]
  unfold setIdx
  rw [if_pos]
  · rfl
  · simp only [List.length_append, bodyWith_length, u8_len]
    have : (body (.Connect c)).length = c.len := (Connect.len_eq c).symm
    have h10 : 10 ≤ (body (.Connect c)).length := by
      unfold body; simp only [List.length_append, mqtt_len, u8_len, u16_len]; omega
    omega

/-- on an empty buffer `Connect::write` produces exactly the encoding -/
theorem Connect.write_empty (c : Connect)
    (hl : (body (.Connect c)).length ≤ maxRemaining) :
    c.write [] = (.ok (body (.Connect c)).length, encode (.Connect c)) := by
  rw [Connect.write_run c hl]
  congr 1
  have e : [] ++ (Spec.u8 16 ++ vbi (body (.Connect c)).length
        ++ bodyWith c (UInt8.ofNat (flag c.clean_session 2)))
      = (Spec.u8 16 ++ vbi (body (.Connect c)).length ++ str "MQTT"
          ++ Spec.u8 (Spec.V4.level c.protocol))
        ++ UInt8.ofNat (flag c.clean_session 2) ::
          (Spec.u16 c.keep_alive.toNat ++ str c.client_id ++ Spec.V4.willFields c.last_will
            ++ Spec.V4.loginFields c.login) := by
    simp [bodyWith]
  rw [e, List.set_append_right]
  · have : 8 + (vbi (body (.Connect c)).length).length
      - (Spec.u8 16 ++ vbi (body (.Connect c)).length ++ str "MQTT"
          ++ Spec.u8 (Spec.V4.level c.protocol)).length = 0 := by
      simp only [List.length_append, u8_len, mqtt_len]; omega
    rw [this, List.set_cons_zero]
    simp [encode, frame, body, byte1, Spec.u8]
  · simp only [List.length_append, u8_len, mqtt_len]; omega

/-- the encoding of a CONNECT split at its flags byte, which sits at index `8 + count` -/
theorem Connect.encode_split (c : Connect) : ∃ A B : Bytes,
    A.length = 8 + (vbi (body (.Connect c)).length).length ∧
    encode (.Connect c) = A ++ UInt8.ofNat (Spec.V4.connectFlags c) :: B ∧
    ∀ f : UInt8, Spec.u8 16 ++ vbi (body (.Connect c)).length ++ bodyWith c f = A ++ f :: B := by
  have key : ∀ f : UInt8, Spec.u8 16 ++ vbi (body (.Connect c)).length ++ bodyWith c f
      = (Spec.u8 16 ++ vbi (body (.Connect c)).length ++ (bodyWith c f).take 7) ++ f :: (bodyWith c f).drop 8 := by
    intro f
    have : (bodyWith c f).take 7 ++ f :: (bodyWith c f).drop 8 = bodyWith c f := by
      have h7 : (str "MQTT" ++ Spec.u8 (Spec.V4.level c.protocol)).length = 7 := by
        simp only [List.length_append, mqtt_len, u8_len]
      unfold bodyWith
      simp only [List.append_assoc]
      rw [← List.append_assoc (str "MQTT"), ← h7, List.take_left]
      have : (str "MQTT" ++ Spec.u8 (Spec.V4.level c.protocol)).length + 1 = 8 := by omega
      rw [show (8 : Nat) = (str "MQTT" ++ Spec.u8 (Spec.V4.level c.protocol) ++ [f]).length by
        rw [List.length_append]; simp [h7]]
      rw [← List.append_assoc _ [f], List.drop_left]
      simp
    rw [List.append_assoc, List.append_assoc, this, ← List.append_assoc]
  have ht : ∀ f : UInt8, (bodyWith c f).take 7 = (bodyWith c 0).take 7 ∧ (bodyWith c f).drop 8 = (bodyWith c 0).drop 8 := by
    intro f
    constructor <;> (unfold bodyWith; rfl)
  refine ⟨_, _, ?_, ?_, fun f => by rw [key, (ht f).1, (ht f).2]⟩
  · have h7 : 7 ≤ (bodyWith c 0).length := by
      unfold bodyWith; simp only [List.length_append, mqtt_len, u8_len]; omega
    simp only [List.length_append, u8_len, List.length_take]; omega
  · rw [← (ht (UInt8.ofNat (Spec.V4.connectFlags c))).1, ← (ht (UInt8.ofNat (Spec.V4.connectFlags c))).2, ← key]
    rfl

/-- `Connect::write` in terms of the encoding: the flags land at the absolute index -/
theorem Connect.write_exact (c : Connect)
    (hl : (body (.Connect c)).length ≤ maxRemaining) (s : Bytes) (i : Nat)
    (hi : i = 8 + (vbi (body (.Connect c)).length).length) :
    ∃ f, (encode (.Connect c))[i]? = some f ∧
      c.write s = (.ok (body (.Connect c)).length,
        (s ++ (encode (.Connect c)).set i (if c.clean_session then 2 else 0)).set i f) := by
  obtain ⟨A, B, hA, he, hw⟩ := Connect.encode_split c
  refine ⟨UInt8.ofNat (Spec.V4.connectFlags c), ?_, ?_⟩
  · rw [he, hi, ← hA]; simp
  · rw [Connect.write_run c hl, hw, he, hi, ← hA, List.set_append_right _ _ (Nat.le_refl _),
      Nat.sub_self, List.set_cons_zero]
    congr 5
    cases c.clean_session <;> rfl

end Mqtt.V4
