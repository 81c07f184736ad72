import Verif.Proof.Wr
import Verif.Proof.V4Spec
/-! v4 writers on arbitrary packets (also those that are not well formed). -/
namespace Mqtt
open Spec

/-- the common shape of writers: first byte, remaining length, rest -/
def hdrWrite (b : UInt8) (n : Nat) (k : Nat → M Nat) : M Nat := do
  putU8 b
  let count ← write_remaining_length n
  k count

theorem hdrWrite_ok {b : UInt8} {n : Nat} {k : Nat → M Nat} (hn : n ≤ maxRemaining)
    (hk : ∀ c, WrN n (1 + c + n) (k c)) (s : Bytes) :
    ∃ t, t.length = 1 + (vbi n).length + n ∧ hdrWrite b n k s = (.ok t.length, s ++ t) := by
  unfold hdrWrite
  have h := WrN.seq (putU8_N b) (WrN.bind (f := k) (write_remaining_length_N hn) (hk _))
  obtain ⟨t, ht, h⟩ := h s
  refine ⟨t, by omega, ?_⟩
  rw [show t.length = 1 + (vbi n).length + n by omega]
  exact h

theorem hdrWrite_long {b : UInt8} {n : Nat} {k : Nat → M Nat} (hn : maxRemaining < n) (s : Bytes) :
    hdrWrite b n k s = (.err .PayloadTooLong, s ++ [b]) := by
  unfold hdrWrite
  mrun [putU8_run, write_remaining_length_too_long hn]

namespace V4
open Spec.V4 (body byte1 encode FieldsFit Meaningful WF)

/-- what a v4 writer other than CONNECT does on an arbitrary packet -/
theorem write_cases (p : Packet) (hc : ∀ c, p ≠ .Connect c) (s : Bytes) :
    (maxRemaining < (body p).length ∧ (∀ q, p = .Publish q → q.qos ≠ .AtMostOnce → q.pkid ≠ 0) ∧
      p.write s = (.err .PayloadTooLong, s ++ [UInt8.ofNat (byte1 p)])) ∨
    ((body p).length ≤ maxRemaining ∧ (∀ q, p = .Publish q → q.qos ≠ .AtMostOnce → q.pkid ≠ 0) ∧
      ∃ t, t.length = (encode p).length ∧ p.write s = (.ok t.length, s ++ t)) ∨
    (∃ q, p = .Publish q ∧ q.qos ≠ .AtMostOnce ∧ q.pkid = 0 ∧
      ∃ e t, t ≠ [] ∧ p.write s = (.err e, s ++ t) ∧
        (e = .PacketIdZero ∨ (e = .PayloadTooLong ∧ maxRemaining < (body p).length))) := by
  have main : ∀ (b : UInt8) (k : Nat → M Nat), p.write = hdrWrite b (body p).length k →
      b = UInt8.ofNat (byte1 p) → (∀ c, WrN (body p).length (1 + c + (body p).length) (k c)) →
      (∀ q, p = .Publish q → q.qos ≠ .AtMostOnce → q.pkid ≠ 0) →
      (maxRemaining < (body p).length ∧ (∀ q, p = .Publish q → q.qos ≠ .AtMostOnce → q.pkid ≠ 0) ∧
        p.write s = (.err .PayloadTooLong, s ++ [UInt8.ofNat (byte1 p)])) ∨
      ((body p).length ≤ maxRemaining ∧ (∀ q, p = .Publish q → q.qos ≠ .AtMostOnce → q.pkid ≠ 0) ∧
        ∃ t, t.length = (encode p).length ∧ p.write s = (.ok t.length, s ++ t)) := by
    intro b k h1 h2 h3 h4
    rw [h1, ← h2]
    by_cases hn : (body p).length ≤ maxRemaining
    · right
      obtain ⟨t, ht, h5⟩ := hdrWrite_ok (b := b) hn h3 s
      exact ⟨hn, h4, t, by rw [ht, encode, frame_length], h5⟩
    · left
      exact ⟨by omega, h4, hdrWrite_long (by omega) s⟩
  have ack : ∀ pk : UInt16, ∀ c, WrN 2 (1 + c + 2) (do putU16 pk; pure (1 + c + 2) : M Nat) :=
    fun pk c => (putU16_N pk).seq (.pure _)
  cases p with
  | Connect c => exact absurd rfl (hc c)
  | Publish q =>
    by_cases hq : q.qos ≠ .AtMostOnce ∧ q.pkid = 0
    · right; right
      refine ⟨q, rfl, hq.1, hq.2, ?_⟩
      let rest : M Nat := do
        let count ← write_remaining_length q.len
        write_mqtt_string q.topic
        (if q.qos ≠ .AtMostOnce then
          (if q.pkid = 0 then M.fail .PacketIdZero else putU16 q.pkid)
          else pure () : M Unit)
        putSlice q.payload
        pure (1 + count + q.len)
      have hw : ∀ s, ∃ b, q.write s = rest (s ++ [b]) := fun s => ⟨_, rfl⟩
      obtain ⟨b, hw⟩ := hw s
      have : Wr (fun e => e = .PacketIdZero
          ∨ (e = .PayloadTooLong ∧ maxRemaining < (body (.Publish q)).length)) rest := by
        refine .bind ((write_remaining_length_Wr' _).mono fun e h => .inr ⟨h.1, ?_⟩) fun _ => ?_
        · have := h.2
          simp [Publish.len, hq.1, hq.2, strLen_eq] at this
          simp [body, str_len, hq.1, u16_len]; omega
        refine .bind (.of_N (write_mqtt_string_N _)) fun _ => ?_
        refine .bind ?_ fun _ => .bind (.of_N (putSlice_N _)) fun _ => .pure _
        exact .ite (fun _ => .ite (fun _ => .fail _ (.inl rfl)) fun _ => .of_N (putU16_N _))
          fun _ => .pure _
      obtain ⟨t, h | ⟨e, h, he⟩⟩ := this (s ++ [b])
      · obtain ⟨n, h⟩ := h
        exfalso
        dsimp only [rest] at h
        simp only [bind_run, andThen_eq_ok] at h
        obtain ⟨_, _, _, _, _, _, _, _, h, _⟩ := h
        rw [if_pos hq.1, if_pos hq.2] at h
        simp [fail_run] at h
      · exact ⟨e, b :: t, by simp, by rw [show (Packet.Publish q).write s = q.write s from rfl, hw, h]; simp, he⟩
    · have hm : q.qos ≠ .AtMostOnce → q.pkid ≠ 0 := fun h1 h2 => hq ⟨h1, h2⟩
      refine (main ((0b00110000 : UInt8) ||| boolU8 q.retain ||| (q.qos.toU8 <<< 1) ||| (boolU8 q.dup <<< 3))
        (fun c => do
          write_mqtt_string q.topic
          (if q.qos ≠ .AtMostOnce then
            (if q.pkid = 0 then M.fail .PacketIdZero else putU16 q.pkid)
            else pure () : M Unit)
          putSlice q.payload
          pure (1 + c + q.len)) ?_ ?_ ?_ ?_).imp id .inl
      · rw [← Publish.len_eq q hm]; rfl
      · exact publish_byte1 _ _ _
      · intro c
        rw [← Publish.len_eq q hm]
        refine (WrN.seq (write_mqtt_string_N _) (WrN.seq (n := if q.qos = .AtMostOnce then 0 else 2)
          ?_ (WrN.seq (putSlice_N _) (.pure _)))).cast ?_
        · by_cases h : q.qos = .AtMostOnce
          · simp only [h, ne_eq, not_true, if_false, if_true]; exact .pure _
          · rw [if_pos h, if_neg (hm h), if_neg h]; exact putU16_N _
        · unfold Publish.len
          by_cases h : q.qos = .AtMostOnce
          · simp [h, strLen_eq]
          · simp [h, hm h, strLen_eq]; omega
      · intro q' e; cases e; exact hm
  | ConnAck c =>
    refine (main 0x20 (fun k => do putU8 (boolU8 c.session_present); putU8 c.code.toU8; pure (1 + k + 2)) rfl rfl ?_
      (by simp)).imp id .inl
    exact fun k => (putU8_N _).seq ((putU8_N _).seq (.pure _))
  | PubAck q => exact (main 0x40 _ rfl rfl (ack q.pkid) (by simp)).imp id .inl
  | PubRec q => exact (main 0x50 _ rfl rfl (ack q.pkid) (by simp)).imp id .inl
  | PubRel q => exact (main 0x62 _ rfl rfl (ack q.pkid) (by simp)).imp id .inl
  | PubComp q => exact (main 0x70 _ rfl rfl (ack q.pkid) (by simp)).imp id .inl
  | Subscribe q =>
    refine (main 0x82 (fun c => do
      putU16 q.pkid
      forEach q.filters SubscribeFilter.write
      pure (1 + c + q.len)) ?_ rfl ?_ (by simp)).imp id .inl
    · rw [← Subscribe.len_eq]; rfl
    · intro c
      rw [← Subscribe.len_eq]
      refine ((putU16_N _).seq ((forEach_N q.filters SubscribeFilter.write SubscribeFilter.len
        fun f => ?_).seq (.pure _))).cast ?_
      · exact (write_mqtt_string_N f.path).seq (putU8_N _)
      · unfold Subscribe.len; rw [foldl_len]; omega
  | SubAck q =>
    refine (main 0x90 (fun c => do
      putU16 q.pkid
      putSlice (q.return_codes.map SubscribeReasonCode.toU8)
      pure (1 + c + q.len)) ?_ rfl ?_ (by simp)).imp id .inl
    · rw [← SubAck.len_eq]; rfl
    · intro c
      rw [← SubAck.len_eq]
      refine ((putU16_N _).seq ((putSlice_N _).seq (.pure _))).cast ?_
      simp [SubAck.len]
  | Unsubscribe q =>
    refine (main 0xA2 (fun c => do
      putU16 q.pkid
      forEach q.topics write_mqtt_string
      pure (1 + c + (body (.Unsubscribe q)).length)) ?_ rfl ?_ (by simp)).imp id .inl
    · rw [← Unsubscribe.len_eq]; rfl
    · intro c
      refine ((putU16_N _).seq ((forEach_N q.topics write_mqtt_string (fun t => 2 + (utf8 t).length)
        fun f => write_mqtt_string_N f).seq (.pure _))).cast ?_
      simp only [body, List.length_append, u16_len, flatMap_length, str_len]; rfl
  | UnsubAck q =>
    right; left
    exact ⟨by simp [body, u16_len, maxRemaining], by simp, _, rfl, UnsubAck.write_run q s⟩
  | PingReq => right; left; exact ⟨by decide, by simp, _, rfl, PingReq.write_run s⟩
  | PingResp => right; left; exact ⟨by decide, by simp, _, rfl, PingResp.write_run s⟩
  | Disconnect => right; left; exact ⟨by decide, by simp, _, rfl, Disconnect.write_run s⟩

/-- what `Connect::write` does on an arbitrary packet -/
theorem Connect.write_cases (c : Connect) (s : Bytes) :
    (maxRemaining < (body (.Connect c)).length ∧ c.write s = (.err .PayloadTooLong, s ++ [16])) ∨
    ((body (.Connect c)).length ≤ maxRemaining ∧ ∃ t f, t.length = (encode (.Connect c)).length ∧
      c.write s = (.ok (body (.Connect c)).length,
        (s ++ t).set (8 + (vbi (body (.Connect c)).length).length) f)) := by
  by_cases hn : (body (.Connect c)).length ≤ maxRemaining
  · right
    refine ⟨hn, ?_⟩
    -- everything up to the index assignment
    have hw : ∃ f : UInt8, ∀ f0, WrN (Spec.V4.willFields c.last_will).length (f0 ||| f)
        (orFlags c.last_will LastWill.write f0) := by
      cases h : c.last_will with
      | none => exact ⟨0, fun f0 => by rw [UInt8.or_zero]; exact WrN.pure _⟩
      | some w =>
        refine ⟨(if w.retain = true then (0 : UInt8) ||| ((0x04 : UInt8) ||| (w.qos.toU8 <<< 3)) ||| (0x20 : UInt8)
          else (0 : UInt8) ||| ((0x04 : UInt8) ||| (w.qos.toU8 <<< 3))), fun f0 => ?_⟩
        have : WrN (Spec.V4.willFields (some w)).length _ (w.write) :=
          ((write_mqtt_string_N _).seq ((write_mqtt_bytes_N _).seq (.pure _))).cast (by
            simp [Spec.V4.willFields, str_len, bin_len])
        exact this.bind (f := fun f => pure (f0 ||| f)) (.pure _)
    have hl : ∃ f : UInt8, ∀ f0, WrN (Spec.V4.loginFields c.login).length (f0 ||| f)
        (orFlags c.login Login.write f0) := by
      cases h : c.login with
      | none => exact ⟨0, fun f0 => by rw [UInt8.or_zero]; exact WrN.pure _⟩
      | some l =>
        have one : ∀ (u : String) (b f0 : UInt8),
            WrN (if u = "" then ([] : Bytes) else str u).length (if u = "" then f0 else f0 ||| b)
              (if !u.isEmpty then do write_mqtt_string u; pure (f0 ||| b) else pure f0 : M UInt8) := by
          intro u b f0
          by_cases hu : u = ""
          · simp only [hu, if_true]; exact WrN.pure _
          · have : (!u.isEmpty) = true := by rw [isEmpty_iff]; simp [hu]
            rw [if_pos this, if_neg hu, if_neg hu]
            exact ((write_mqtt_string_N _).seq (.pure _)).cast (by simp [str_len])
        refine ⟨(if l.password = "" then (if l.username = "" then (0 : UInt8) else 0 ||| 0x80)
          else (if l.username = "" then (0 : UInt8) else 0 ||| 0x80) ||| 0x40), fun f0 => ?_⟩
        have : WrN (Spec.V4.loginFields (some l)).length _ (l.write) :=
          ((one l.username 0x80 0).bind (one l.password 0x40 _)).cast (by
            simp [Spec.V4.loginFields])
        exact this.bind (f := fun f => pure (f0 ||| f)) (.pure _)
    obtain ⟨fw, hw⟩ := hw
    obtain ⟨fl, hl⟩ := hl
    let f0 : UInt8 := if c.clean_session = true then (0 : UInt8) ||| 0x02 else 0
    let n := (body (.Connect c)).length
    let tail : M UInt8 := do
      write_mqtt_string "MQTT"
      putU8 c.protocol.level
      putU8 f0
      putU16 c.keep_alive
      write_mqtt_string c.client_id
      let f ← orFlags c.last_will LastWill.write f0
      orFlags c.login Login.write f
    have htail : WrN n (f0 ||| fw ||| fl) tail := by
      refine ((write_mqtt_string_N _).seq
        ((putU8_N _).seq ((putU8_N _).seq ((putU16_N _).seq ((write_mqtt_string_N _).seq
        ((hw f0).bind (hl _))))))).cast ?_
      have hM : (utf8 "MQTT").length = 4 := by decide +kernel
      simp only [n, body, List.length_append, mqtt_len, u8_len, u16_len, str_len c.client_id, hM]
      omega
    obtain ⟨t, ht, hrun⟩ := htail (s ++ [0b00010000] ++ vbi n)
    refine ⟨[0b00010000] ++ vbi n ++ t, f0 ||| fw ||| fl, ?_, ?_⟩
    · rw [encode, frame_length]; simp only [List.length_append, ht, n, List.length_cons, List.length_nil, Nat.zero_add]
    have e : c.write s = M.andThen (tail (s ++ [0b00010000] ++ vbi n)) (fun f => do
        setIdx (1 + (vbi n).length + 2 + 4 + 1) f
        pure n) := by
      unfold Connect.write
      simp only [Connect.len_eq]
      rw [bind_run, putU8_run, andThen_ok, bind_run, write_remaining_length_run hn, andThen_ok,
        ← bind_run]
      simp only [tail, M.bind_assoc]
      rfl
    rw [e, hrun, andThen_ok, bind_run]
    unfold setIdx
    have h10 : 10 ≤ (body (.Connect c)).length := by
      unfold body; simp only [List.length_append, mqtt_len, u8_len, u16_len]; omega
    rw [if_pos (by simp only [List.length_append, n] at *; omega)]
    rw [show 1 + (vbi n).length + 2 + 4 + 1 = 8 + (vbi n).length by omega]
    simp only [List.append_assoc]
    rfl
  · left
    refine ⟨by omega, ?_⟩
    unfold Connect.write
    rw [Connect.len_eq]
    mrun [putU8_run, write_remaining_length_too_long (show maxRemaining < (body (.Connect c)).length by omega)]

end V4
end Mqtt
