import Verif.Spec.Cross
import Verif.Props.Cross
import Verif.Props.Errors
import Verif.Props.InStep
import Verif.Props.Patch
/-! C107: what each codec makes of the packets written by the other. -/
set_option linter.unusedSimpArgs false
namespace Props
open Mqtt Spec
open Spec.V4 (typeNum)

theorem v4_frame_cases {n : Nat} {bd : Bytes} (rest : Bytes) {max : Nat} (hl : bd.length ≤ maxRemaining)
    (hm : bd.length ≤ max) :
    (∃ p, Spec.V4.Denotes (UInt8.ofNat n) bd p ∧ V4.read max (frame n bd ++ rest) = (.ok p, rest)) ∨
    (∃ e, Spec.V4.Rejects (UInt8.ofNat n) bd e ∧ V4.read max (frame n bd ++ rest) = (.err e, rest)) := by
  rcases C61_v4_accept_xor_reject (UInt8.ofNat n) bd with ⟨⟨p, hp⟩, _⟩ | ⟨⟨e, he⟩, _⟩
  · exact .inl ⟨p, (hp p).2 rfl, v4_frame_read rest hl hm ((hp p).2 rfl)⟩
  · exact .inr ⟨e, (he e).2 rfl, (C61_v4_read_err_iff max _ rest e).2 (.inr ⟨_, vbi bd.length, bd, by simp [frame, Spec.u8],
      vbi_isVbi hl, vbiValue_vbi hl, hm, (he e).2 rfl⟩)⟩

theorem v5_frame_cases {n : Nat} {bd : Bytes} (rest : Bytes) {max : Nat} (hl : bd.length ≤ maxRemaining)
    (hm : bd.length ≤ max) :
    (∃ p, Spec.V5.Denotes (UInt8.ofNat n) bd p ∧ V5.read max (frame n bd ++ rest) = (.ok p, rest)) ∨
    (∃ e, Spec.V5.Rejects (UInt8.ofNat n) bd e ∧ V5.read max (frame n bd ++ rest) = (.err e, rest)) := by
  rcases C62_v5_accept_xor_reject (UInt8.ofNat n) bd hl with ⟨⟨p, hp⟩, _⟩ | ⟨⟨e, he⟩, _⟩
  · exact .inl ⟨p, (hp p).2 rfl, v5_frame_read rest hl hm ((hp p).2 rfl)⟩
  · exact .inr ⟨e, (he e).2 rfl, (C62_v5_read_err_iff max _ rest e).2 (.inr ⟨_, vbi bd.length, bd, by simp [frame, Spec.u8],
      vbi_isVbi hl, vbiValue_vbi hl, hm, (he e).2 rfl⟩)⟩

theorem v4_frame_err {n : Nat} {bd : Bytes} (rest : Bytes) {max : Nat} {e : Error} (hl : bd.length ≤ maxRemaining)
    (hm : bd.length ≤ max) (h : Spec.V4.Rejects (UInt8.ofNat n) bd e) :
    V4.read max (frame n bd ++ rest) = (.err e, rest) :=
  (C61_v4_read_err_iff max _ rest e).2 (.inr ⟨_, vbi bd.length, bd, by simp [frame, Spec.u8],
      vbi_isVbi hl, vbiValue_vbi hl, hm, h⟩)

theorem v5_frame_err {n : Nat} {bd : Bytes} (rest : Bytes) {max : Nat} {e : Error} (hl : bd.length ≤ maxRemaining)
    (hm : bd.length ≤ max) (h : Spec.V5.Rejects (UInt8.ofNat n) bd e) :
    V5.read max (frame n bd ++ rest) = (.err e, rest) :=
  (C62_v5_read_err_iff max _ rest e).2 (.inr ⟨_, vbi bd.length, bd, by simp [frame, Spec.u8],
      vbi_isVbi hl, vbiValue_vbi hl, hm, h⟩)

/-- the bytes of an accepted v5 packet -/
theorem v5_written_bytes (p : V5.Packet) (n : Nat) (bytes : Bytes) (h : p.write [] = (.ok n, bytes)) :
    (Spec.V5.wireBody p).length ≤ maxRemaining ∧ Spec.V5.pkidMissing p = false
      ∧ bytes = frame (Spec.V5.byte1 p) (Spec.V5.wireBody p) := by
  by_cases hc : ∃ c, p = .Connect c
  · obtain ⟨c, rfl⟩ := hc
    rw [C91_v5_connect_exact] at h
    unfold Spec.V5.written at h
    split at h
    · cases h
    · rename_i hl
      refine ⟨?_, rfl, ?_⟩
      · simpa [Spec.V5.announced, Spec.V5.pkidMissing] using hl
      · exact ((Prod.mk.injEq ..).mp h).2.symm
  · have hc : ∀ c, p ≠ .Connect c := fun c h => hc ⟨c, h⟩
    rw [C91_v5_write_exact p hc] at h
    obtain ⟨h1, h2, h3, h4, _⟩ := v5_written_inv p hc n ((Prod.mk.injEq ..).mp h).1
    refine ⟨h1, h2, ?_⟩
    rw [v5_written_ok p hc h1 h2 h3 h4] at h
    simpa using ((Prod.mk.injEq ..).mp h).2.symm

/-- the bytes of an accepted v4 packet -/
theorem v4_written_bytes (p : V4.Packet) (n : Nat) (bytes : Bytes) (h : p.write [] = (.ok n, bytes)) :
    (Spec.V4.body p).length ≤ maxRemaining ∧ Spec.V4.pkidMissing p = false
      ∧ bytes = frame (Spec.V4.byte1 p) (Spec.V4.body p) := by
  by_cases hc : ∃ c, p = .Connect c
  · obtain ⟨c, rfl⟩ := hc
    rw [C91_v4_connect_exact] at h
    unfold Spec.V4.written at h
    split at h
    · cases h
    · rename_i hl
      refine ⟨?_, rfl, ?_⟩
      · simpa [Spec.V4.announced, Spec.V4.pkidMissing] using hl
      · exact ((Prod.mk.injEq ..).mp h).2.symm
  · have hc : ∀ c, p ≠ .Connect c := fun c h => hc ⟨c, h⟩
    rw [C91_v4_write_exact p hc] at h
    obtain ⟨h1, h2, _⟩ := v4_written_inv p hc n ((Prod.mk.injEq ..).mp h).1
    refine ⟨h1, h2, ?_⟩
    rw [v4_written_ok p hc h1 h2] at h
    simpa [Spec.V4.encode] using ((Prod.mk.injEq ..).mp h).2.symm

theorem publish_type (d r : Bool) (q : QoS) :
    typeNum (UInt8.ofNat (3 * 16 + flag d 8 + 2 * Spec.V4.qosNum q + flag r 1)) = 3 := by
  cases d <;> cases r <;> cases q <;> decide

theorem v4_pkid_of_body {b1 : UInt8} {k : UInt16} {t : Bytes} {p : V4.Packet}
    (h : Spec.V4.Denotes b1 (u16 k.toNat ++ t) p) :
    (typeNum b1 = 8 → ∃ s, p = .Subscribe s ∧ s.pkid = k) ∧
    (typeNum b1 = 9 → ∃ s, p = .SubAck s ∧ s.pkid = k ∧ s.return_codes.length = t.length) ∧
    (typeNum b1 = 10 → ∃ s, p = .Unsubscribe s ∧ s.pkid = k) := by
  refine ⟨fun ht => ?_, fun ht => ?_, fun ht => ?_⟩
  · cases p with
    | Subscribe s =>
      obtain ⟨_, fs, hb, _⟩ := h
      exact ⟨s, rfl, (UInt16.toNat_inj.1 (u16_append_inj k.toNat_lt s.pkid.toNat_lt hb).1).symm⟩
    | Publish q => exact absurd (h.1 ▸ publish_type q.dup q.retain q.qos) (by omega : ¬ typeNum b1 = 3)
    | _ => simp [Spec.V4.Denotes, ht] at h
  · cases p with
    | SubAck s =>
      obtain ⟨_, hb, _⟩ := h
      obtain ⟨h1, h2⟩ := u16_append_inj k.toNat_lt s.pkid.toNat_lt hb
      exact ⟨s, rfl, (UInt16.toNat_inj.1 h1).symm, by rw [h2]; simp [List.length_flatMap, Spec.u8]⟩
    | Publish q => exact absurd (h.1 ▸ publish_type q.dup q.retain q.qos) (by omega : ¬ typeNum b1 = 3)
    | _ => simp [Spec.V4.Denotes, ht] at h
  · cases p with
    | Unsubscribe s =>
      obtain ⟨_, hb, _⟩ := h
      exact ⟨s, rfl, (UInt16.toNat_inj.1 (u16_append_inj k.toNat_lt s.pkid.toNat_lt hb).1).symm⟩
    | Publish q => exact absurd (h.1 ▸ publish_type q.dup q.retain q.qos) (by omega : ¬ typeNum b1 = 3)
    | _ => simp [Spec.V4.Denotes, ht] at h

/-- C107: `v4::read` on a packet written by the v5 codec: exactly the packet is consumed and the answer is as listed in
`Spec.SeenByV4` -/
theorem C107_v4_reads_v5 (p : V5.Packet) (n : Nat) (bytes : Bytes) (hw : p.write [] = (.ok n, bytes))
    (ht : ∀ q, p = .Publish q → (utf8 q.topic).length ≤ 65535) (max : Nat) (hm : bytes.length ≤ max) (rest : Bytes) :
    ∃ r, V4.read max (bytes ++ rest) = (r, rest) ∧ SeenByV4 p r := by
  obtain ⟨hl, hp, rfl⟩ := v5_written_bytes p n bytes hw
  have hm : (Spec.V5.wireBody p).length ≤ max := by simp [frame] at hm; omega
  clear hw
  have ok : ∀ q, Spec.V4.Denotes (UInt8.ofNat (Spec.V5.byte1 p)) (Spec.V5.wireBody p) q → SeenByV4 p (.ok q) →
      ∃ r, V4.read max (frame (Spec.V5.byte1 p) (Spec.V5.wireBody p) ++ rest) = (r, rest) ∧ SeenByV4 p r :=
    fun q h1 h2 => ⟨_, v4_frame_read rest hl hm h1, h2⟩
  cases p with
  | Connect c =>
    rcases v4_frame_cases (n := 16) rest hl hm with ⟨q, hd, hr⟩ | ⟨e, _, hr⟩
    · obtain ⟨d, rfl, h⟩ := v4_sees_v5_connect c hd
      exact ⟨_, hr, .inr ⟨d, rfl, h⟩⟩
    · exact ⟨_, hr, .inl ⟨e, rfl⟩⟩
  | ConnAck c =>
    have hb : ∃ t, Spec.V5.wireBody (.ConnAck c) = [UInt8.ofNat (flag c.session_present 1)] ++ Spec.u8 (Spec.V5.connectCode c.code) ++ t := by
      cases hc : c.properties <;> simp [Spec.V5.wireBody, hc, Spec.u8]
    obtain ⟨t, hb⟩ := hb
    by_cases hs : c.code = .Success
    · refine ok (.ConnAck ⟨c.session_present, .Success⟩) ⟨(by decide : typeNum (UInt8.ofNat 32) = 2), _, t, by rw [hb, hs]; rfl, ?_⟩ (by simp [SeenByV4, hs])
      cases c.session_present <;> decide
    · refine ⟨_, v4_frame_err rest hl hm (e := .InvalidConnectReturnCode (UInt8.ofNat (Spec.V5.connectCode c.code))) ?_, by simp [SeenByV4, hs]⟩
      show Spec.V4.Rejects (UInt8.ofNat 32) _ _
      unfold Spec.V4.Rejects
      rw [show typeNum (UInt8.ofNat 32) = 2 from by decide]
      show ite _ _ _
      rw [if_neg (by rw [hb]; simp), hb]
      refine Spec.V4.ConnAckFails.badCode ?_
      intro r; revert hs; cases c.code <;> cases r <;> decide
  | Publish q =>
    refine ok (.Publish ⟨q.dup, q.qos, q.retain, q.topic, if q.qos = .AtMostOnce then 0 else q.pkid,
      Spec.V5.optSec Spec.V5.publishProps q.properties ++ q.payload⟩) ⟨rfl, ?_, ht q rfl, ?_⟩ rfl
    · by_cases hq : q.qos = .AtMostOnce <;> simp [Spec.V5.wireBody, Spec.V5.body, Spec.V4.body, hq]
    · by_cases hq : q.qos = .AtMostOnce
      · simp [hq]
      · simp [Spec.V5.pkidMissing, hq] at hp
        simp [hq, hp]
  | PubAck a => exact ok (.PubAck ⟨a.pkid⟩) ⟨(by decide : typeNum (UInt8.ofNat 64) = 4), _, rfl⟩ rfl
  | PubRec a => exact ok (.PubRec ⟨a.pkid⟩) ⟨(by decide : typeNum (UInt8.ofNat 80) = 5), _, rfl⟩ rfl
  | PubRel a => exact ok (.PubRel ⟨a.pkid⟩) ⟨(by decide : typeNum (UInt8.ofNat 98) = 6), _, rfl⟩ rfl
  | PubComp a => exact ok (.PubComp ⟨a.pkid⟩) ⟨(by decide : typeNum (UInt8.ofNat 112) = 7), _, rfl⟩ rfl
  | Subscribe s =>
    rcases v4_frame_cases (n := 130) rest hl hm with ⟨q, hd, hr⟩ | ⟨e, _, hr⟩
    · simp only [Spec.V5.wireBody, Spec.V5.body, List.append_assoc] at hd
      obtain ⟨d, rfl, h⟩ := (v4_pkid_of_body hd).1 (by decide)
      exact ⟨_, hr, .inr ⟨d, rfl, h⟩⟩
    · exact ⟨_, hr, .inl ⟨e, rfl⟩⟩
  | SubAck s =>
    rcases v4_frame_cases (n := 144) rest hl hm with ⟨q, hd, hr⟩ | ⟨e, _, hr⟩
    · simp only [Spec.V5.wireBody, Spec.V5.body, List.append_assoc] at hd
      obtain ⟨d, rfl, h, h2⟩ := (v4_pkid_of_body hd).2.1 (by decide)
      exact ⟨_, hr, .inr ⟨d, rfl, h, by rw [h2]; simp [List.length_flatMap, Spec.u8]⟩⟩
    · exact ⟨_, hr, .inl ⟨e, rfl⟩⟩
  | Unsubscribe s =>
    rcases v4_frame_cases (n := 162) rest hl hm with ⟨q, hd, hr⟩ | ⟨e, _, hr⟩
    · simp only [Spec.V5.wireBody, Spec.V5.body, List.append_assoc] at hd
      obtain ⟨d, rfl, h⟩ := (v4_pkid_of_body hd).2.2 (by decide)
      exact ⟨_, hr, .inr ⟨d, rfl, h⟩⟩
    · exact ⟨_, hr, .inl ⟨e, rfl⟩⟩
  | UnsubAck u =>
    have h3 : 3 ≤ (Spec.V5.wireBody (.UnsubAck u)).length := by
      have : 1 ≤ (Spec.V5.optSec Spec.V5.reasonProps u.properties).length := by
        cases u.properties with
        | none => decide
        | some ps => simp only [Spec.V5.optSec, Spec.V5.sec, List.length_append]; have := vbi_length_pos (Spec.V5.encAll (Spec.V5.reasonProps ps)).length; omega
      simp [Spec.V5.wireBody, Spec.V5.body, u16_len]; omega
    refine ⟨_, v4_frame_err rest hl hm (e := .PayloadSizeIncorrect) ?_, rfl⟩
    show Spec.V4.Rejects (UInt8.ofNat 176) _ _
    unfold Spec.V4.Rejects
    rw [show typeNum (UInt8.ofNat 176) = 11 from by decide]
    show ite _ _ _
    rw [if_neg (by intro h; rw [h] at h3; simp at h3)]
    exact ⟨by omega, rfl⟩
  | PingReq => exact ok .PingReq (by decide : typeNum (UInt8.ofNat 192) = 12) rfl
  | PingResp => exact ok .PingResp (by decide : typeNum (UInt8.ofNat 208) = 13) rfl
  | Disconnect d => exact ok .Disconnect (by show Spec.V4.typeNum (UInt8.ofNat 224) = 14; decide) rfl

theorem setDenotes_pos {π : Type} {kind : Nat → Option Spec.V5.Kind} {dec : List Spec.V5.Property → π} {b : Bytes} {o : Option π}
    (h : Spec.V5.SetDenotes kind dec b o) : 1 ≤ b.length := by
  have vp : ∀ v, IsVbi v → 1 ≤ v.length := by
    intro v hv; cases v with
    | nil => exact absurd hv (by simp [IsVbi])
    | cons a t => simp
  obtain ⟨ps, h, _⟩ := h
  cases ps with
  | none => exact vp _ h.1
  | some ps =>
    obtain ⟨len, bs, rfl, hv, _⟩ := h
    have := vp _ hv
    simp; omega

theorem v5_pkid_of_body {b1 : UInt8} {k : UInt16} {t : Bytes} {p : V5.Packet}
    (h : Spec.V5.Denotes b1 (u16 k.toNat ++ t) p) :
    (typeNum b1 = 8 → ∃ s, p = .Subscribe s ∧ s.pkid = k) ∧
    (typeNum b1 = 9 → ∃ s, p = .SubAck s ∧ s.pkid = k ∧ s.return_codes.length < t.length) ∧
    (typeNum b1 = 10 → ∃ s, p = .Unsubscribe s ∧ s.pkid = k) := by
  refine ⟨fun ht => ?_, fun ht => ?_, fun ht => ?_⟩
  · cases p with
    | Subscribe s =>
      obtain ⟨_, pb, fs, hb, _⟩ := h
      rw [List.append_assoc] at hb
      exact ⟨s, rfl, (UInt16.toNat_inj.1 (u16_append_inj k.toNat_lt s.pkid.toNat_lt hb).1).symm⟩
    | Publish q => exact absurd (h.1 ▸ publish_type q.dup q.retain q.qos) (by omega : ¬ typeNum b1 = 3)
    | Disconnect d => exact absurd (h.1 ▸ (by decide : typeNum (UInt8.ofNat 224) = 14)) (by omega : ¬ typeNum b1 = 14)
    | _ => simp [Spec.V5.Denotes, Spec.V5.DenotesBy, ht] at h
  · cases p with
    | SubAck s =>
      obtain ⟨_, pb, hb, hs, _⟩ := h
      rw [List.append_assoc] at hb
      obtain ⟨h1, h2⟩ := u16_append_inj k.toNat_lt s.pkid.toNat_lt hb
      have := setDenotes_pos hs
      exact ⟨s, rfl, (UInt16.toNat_inj.1 h1).symm, by rw [h2]; simp [List.length_flatMap, Spec.u8]; omega⟩
    | Publish q => exact absurd (h.1 ▸ publish_type q.dup q.retain q.qos) (by omega : ¬ typeNum b1 = 3)
    | Disconnect d => exact absurd (h.1 ▸ (by decide : typeNum (UInt8.ofNat 224) = 14)) (by omega : ¬ typeNum b1 = 14)
    | _ => simp [Spec.V5.Denotes, Spec.V5.DenotesBy, ht] at h
  · cases p with
    | Unsubscribe s =>
      obtain ⟨_, pb, hb, _⟩ := h
      rw [List.append_assoc] at hb
      exact ⟨s, rfl, (UInt16.toNat_inj.1 (u16_append_inj k.toNat_lt s.pkid.toNat_lt hb).1).symm⟩
    | Publish q => exact absurd (h.1 ▸ publish_type q.dup q.retain q.qos) (by omega : ¬ typeNum b1 = 3)
    | Disconnect d => exact absurd (h.1 ▸ (by decide : typeNum (UInt8.ofNat 224) = 14)) (by omega : ¬ typeNum b1 = 14)
    | _ => simp [Spec.V5.Denotes, Spec.V5.DenotesBy, ht] at h

/-- C107: `v5::read` on a packet written by the v4 codec: exactly the packet is consumed and the answer is as listed in
`Spec.SeenByV5` -/
theorem C107_v5_reads_v4 (p : V4.Packet) (n : Nat) (bytes : Bytes) (hw : p.write [] = (.ok n, bytes))
    (hc : ∀ c, p = .Connect c → c.protocol = .V4 ∧ (utf8 c.client_id).length ≤ 65535)
    (ht : ∀ q, p = .Publish q → (utf8 q.topic).length ≤ 65535) (max : Nat) (hm : bytes.length ≤ max) (rest : Bytes) :
    ∃ r, V5.read max (bytes ++ rest) = (r, rest) ∧ SeenByV5 p r := by
  obtain ⟨hl, hp, rfl⟩ := v4_written_bytes p n bytes hw
  have hm : (Spec.V4.body p).length ≤ max := by simp [frame] at hm; omega
  clear hw
  have ok : ∀ q, Spec.V5.Denotes (UInt8.ofNat (Spec.V4.byte1 p)) (Spec.V4.body p) q → SeenByV5 p (.ok q) →
      ∃ r, V5.read max (frame (Spec.V4.byte1 p) (Spec.V4.body p) ++ rest) = (r, rest) ∧ SeenByV5 p r :=
    fun q h1 h2 => ⟨_, v5_frame_read rest hl hm h1, h2⟩
  cases p with
  | Connect c =>
    rcases v5_frame_cases (n := 16) rest hl hm with ⟨q, hd, hr⟩ | ⟨e, _, hr⟩
    · obtain ⟨d, rfl, h⟩ := v5_sees_v4_connect c (hc c rfl).1 (hc c rfl).2 hd
      exact ⟨_, hr, .inr ⟨d, rfl, h⟩⟩
    · exact ⟨_, hr, .inl ⟨e, rfl⟩⟩
  | ConnAck c =>
    refine ⟨_, v5_frame_err rest hl hm (e := if c.code = .Success then .InsufficientBytes 1
      else .InvalidConnectReturnCode (UInt8.ofNat (Spec.V4.returnCode c.code))) ?_, rfl⟩
    show Spec.V5.Rejects (UInt8.ofNat 32) _ _
    unfold Spec.V5.Rejects
    rw [show typeNum (UInt8.ofNat 32) = 2 from by decide]
    show ite _ _ _
    rw [if_neg (by simp [Spec.V4.body, Spec.u8])]
    by_cases hs : c.code = .Success
    · rw [if_pos hs]
      have : Spec.V4.body (.ConnAck c) = [UInt8.ofNat (flag c.session_present 1)] ++ Spec.u8 (Spec.V5.connectCode .Success) ++ [] := by
        simp [Spec.V4.body, hs, Spec.u8]; rfl
      rw [this]
      exact .props (.length (.inl ⟨by simp, by simp, rfl⟩))
    · rw [if_neg hs]
      have : Spec.V4.body (.ConnAck c) = [UInt8.ofNat (flag c.session_present 1)] ++ [UInt8.ofNat (Spec.V4.returnCode c.code)] ++ [] := by
        simp [Spec.V4.body, Spec.u8]
      rw [this]
      refine .badCode ?_
      intro r; revert hs; cases c.code <;> cases r <;> decide
  | Publish q =>
    rcases v5_frame_cases (n := Spec.V4.byte1 (.Publish q)) rest hl hm with ⟨q', hd, hr⟩ | ⟨e, _, hr⟩
    · refine ⟨_, hr, .inr ?_⟩
      have ht3 : typeNum (UInt8.ofNat (Spec.V4.byte1 (.Publish q))) = 3 := publish_type q.dup q.retain q.qos
      cases q' with
      | Publish q' =>
        obtain ⟨h1, pb, hb, hf, hk, hs⟩ := hd
        have hfl : q'.dup = q.dup ∧ q'.qos = q.qos ∧ q'.retain = q.retain := by
          clear hb hs hf hk hr ok ht3
          simp only [Spec.V4.byte1, Spec.V5.byte1] at h1
          revert h1
          cases q.dup <;> cases q.retain <;> cases q.qos <;> cases q'.dup <;> cases q'.retain <;> cases q'.qos <;> decide
        obtain ⟨hd, hq, hr'⟩ := hfl
        simp only [Spec.V4.body, List.append_assoc] at hb
        obtain ⟨htp, hb⟩ := V4.str_append_inj (ht q rfl) hf hb
        have hpos := setDenotes_pos hs
        refine ⟨q', pb, rfl, hd, hq, hr', htp.symm, ?_, ?_, by rintro rfl; simp at hpos, hs⟩
        · by_cases h0 : q.qos = .AtMostOnce
          · simp [h0]; exact hk.1 (hq.trans h0)
          · rw [hq] at hb; simp only [h0, if_false] at hb ⊢
            exact (UInt16.toNat_inj.1 (u16_append_inj q.pkid.toNat_lt q'.pkid.toNat_lt hb).1).symm
        · by_cases h0 : q.qos = .AtMostOnce
          · rw [hq] at hb; simpa [h0] using hb
          · rw [hq] at hb; simp only [h0, if_false] at hb
            exact (u16_append_inj q.pkid.toNat_lt q'.pkid.toNat_lt hb).2
      | Disconnect d => 
        have h1 := hd.1
        rw [h1] at ht3; exact absurd ht3 (by show ¬ typeNum (UInt8.ofNat 224) = 3; decide)
      | _ => simp [Spec.V5.Denotes, Spec.V5.DenotesBy, ht3] at hd
    · exact ⟨_, hr, .inl ⟨e, rfl⟩⟩
  | PubAck a => exact ok (.PubAck ⟨a.pkid, .Success, none⟩) ⟨(by decide : typeNum (UInt8.ofNat 64) = 4), .inl ⟨rfl, rfl, rfl⟩⟩ rfl
  | PubRec a => exact ok (.PubRec ⟨a.pkid, .Success, none⟩) ⟨(by decide : typeNum (UInt8.ofNat 80) = 5), .inl ⟨rfl, rfl, rfl⟩⟩ rfl
  | PubRel a => exact ok (.PubRel ⟨a.pkid, .Success, none⟩) ⟨(by decide : typeNum (UInt8.ofNat 98) = 6), .inl ⟨rfl, rfl, rfl⟩⟩ rfl
  | PubComp a => exact ok (.PubComp ⟨a.pkid, .Success, none⟩) ⟨(by decide : typeNum (UInt8.ofNat 112) = 7), .inl ⟨rfl, rfl, rfl⟩⟩ rfl
  | Subscribe s =>
    rcases v5_frame_cases (n := 130) rest hl hm with ⟨q, hd, hr⟩ | ⟨e, _, hr⟩
    · simp only [Spec.V4.body, List.append_assoc] at hd
      obtain ⟨d, rfl, h⟩ := (v5_pkid_of_body hd).1 (by decide)
      exact ⟨_, hr, .inr ⟨d, rfl, h⟩⟩
    · exact ⟨_, hr, .inl ⟨e, rfl⟩⟩
  | SubAck s =>
    rcases v5_frame_cases (n := 144) rest hl hm with ⟨q, hd, hr⟩ | ⟨e, _, hr⟩
    · simp only [Spec.V4.body, List.append_assoc] at hd
      obtain ⟨d, rfl, h, h2⟩ := (v5_pkid_of_body hd).2.1 (by decide)
      exact ⟨_, hr, .inr ⟨d, rfl, h, by simpa [List.length_flatMap, Spec.u8] using h2⟩⟩
    · exact ⟨_, hr, .inl ⟨e, rfl⟩⟩
  | Unsubscribe s =>
    rcases v5_frame_cases (n := 162) rest hl hm with ⟨q, hd, hr⟩ | ⟨e, _, hr⟩
    · simp only [Spec.V4.body, List.append_assoc] at hd
      obtain ⟨d, rfl, h⟩ := (v5_pkid_of_body hd).2.2 (by decide)
      exact ⟨_, hr, .inr ⟨d, rfl, h⟩⟩
    · exact ⟨_, hr, .inl ⟨e, rfl⟩⟩
  | UnsubAck u =>
    refine ⟨_, v5_frame_err rest hl hm (e := .InsufficientBytes 1) ?_, rfl⟩
    show Spec.V5.Rejects (UInt8.ofNat 176) _ _
    unfold Spec.V5.Rejects
    rw [show typeNum (UInt8.ofNat 176) = 11 from by decide]
    show ite _ _ _
    rw [if_neg (by simp [Spec.V4.body, Spec.u16])]
    have : Spec.V4.body (.UnsubAck u) = u16 u.pkid.toNat ++ [] := by simp [Spec.V4.body]
    rw [this]
    exact .props u.pkid.toNat_lt (.length (.inl ⟨by simp, by simp, rfl⟩))
  | PingReq => exact ok .PingReq (by decide : typeNum (UInt8.ofNat 192) = 12) rfl
  | PingResp => exact ok .PingResp (by decide : typeNum (UInt8.ofNat 208) = 13) rfl
  | Disconnect =>
    refine ⟨_, v5_frame_err rest hl hm (e := .PayloadRequired) ?_, rfl⟩
    show Spec.V5.Rejects (UInt8.ofNat 224) _ _
    unfold Spec.V5.Rejects
    rw [show typeNum (UInt8.ofNat 224) = 14 from by decide]
    show ite _ _ _
    exact (if_pos (show Spec.V4.body .Disconnect = [] from rfl)) ▸ rfl

/-- hypotheses met: a 3.1.1 CONNACK and a SUBSCRIBE read by the 5.0 reader -/
example : ∃ r, V5.read 9 ([0x20, 2, 1, 0] ++ [5]) = (r, [5]) ∧ SeenByV5 (.ConnAck ⟨true, .Success⟩) r :=
  C107_v5_reads_v4 (.ConnAck ⟨true, .Success⟩) 4 [0x20, 2, 1, 0] (by decide +kernel) (by simp) (by simp) 9 (by decide) [5]


/-- C107, a trap: `v4::read` accepts a v5 SUBACK without properties, with codes known to both versions, but with one
code too many: the property length is taken for the first return code, so each filter gets its neighbour's code -/
theorem C107_suback_shifted (k : UInt16) (qs : List QoS) (max : Nat) (bytes : Bytes) (n : Nat)
    (hw : (V5.Packet.SubAck ⟨k, qs.map fun | .AtMostOnce => .QoS0 | .AtLeastOnce => .QoS1 | .ExactlyOnce => .QoS2, none⟩).write []
      = (.ok n, bytes)) (hm : bytes.length ≤ max) (rest : Bytes) :
    V4.read max (bytes ++ rest) = (.ok (.SubAck ⟨k, .Success .AtMostOnce :: qs.map .Success⟩), rest) := by
  obtain ⟨hl, hp, rfl⟩ := v5_written_bytes _ n bytes hw
  refine v4_frame_read rest hl (by simp [frame] at hm; omega) ⟨(by decide : typeNum (UInt8.ofNat 144) = 9), ?_, by simp⟩
  simp only [Spec.V5.wireBody, Spec.V5.body, Spec.V4.body, List.append_assoc]
  congr 1
  simp only [List.flatMap_cons]
  congr 1
  rw [List.flatMap_map, List.flatMap_map]
  congr 1; funext q; cases q <;> rfl

example : V4.read 9 [0x90, 5, 0, 7, 0, 2, 0, 5] = (.ok (.SubAck ⟨7, [.Success .AtMostOnce, .Success .ExactlyOnce, .Success .AtMostOnce]⟩), [5]) :=
  C107_suback_shifted 7 [.ExactlyOnce, .AtMostOnce] 9 [0x90, 5, 0, 7, 0, 2, 0] 7 (by decide +kernel) (by decide) [5]


/-- C107, a trap: a v5 acknowledgement that reports a failure is a successful one to `v4::read` -/
theorem C107_failure_lost (a : V5.PubAck) (n : Nat) (bytes : Bytes) (hw : (V5.Packet.PubAck a).write [] = (.ok n, bytes))
    (max : Nat) (hm : bytes.length ≤ max) (rest : Bytes) :
    V4.read max (bytes ++ rest) = (.ok (.PubAck ⟨a.pkid⟩), rest) := by
  obtain ⟨r, h, hr⟩ := C107_v4_reads_v5 _ n bytes hw (by simp) max hm rest
  rw [h, show r = _ from hr]

example : V4.read 9 [0x40, 3, 0, 7, 0x87, 5] = (.ok (.PubAck ⟨7⟩), [5]) :=
  C107_failure_lost ⟨7, .NotAuthorized, none⟩ 5 [0x40, 3, 0, 7, 0x87] (by decide +kernel) 9 (by decide) [5]


/-- C107: a v4 PUBLISH with an empty payload is an error for `v5::read`, one whose payload starts with a zero byte is
accepted without this byte -/
theorem C107_v5_reads_v4_publish (p : V4.Publish) (ht : (utf8 p.topic).length ≤ 65535) (n : Nat) (bytes : Bytes)
    (hw : (V4.Packet.Publish p).write [] = (.ok n, bytes)) (max : Nat) (hm : bytes.length ≤ max) (rest : Bytes) :
    (p.payload = [] → V5.read max (bytes ++ rest) = (.err (.InsufficientBytes 1), rest)) ∧
    (∀ t, p.payload = 0 :: t → V5.read max (bytes ++ rest)
      = (.ok (.Publish ⟨p.dup, p.qos, p.retain, p.topic, if p.qos = .AtMostOnce then 0 else p.pkid, none, t⟩), rest)) := by
  obtain ⟨hl, hp, rfl⟩ := v4_written_bytes _ n bytes hw
  have hm : (Spec.V4.body (.Publish p)).length ≤ max := by simp [frame] at hm; omega
  refine ⟨fun h0 => ?_, fun t h0 => ?_⟩
  · refine v5_frame_err rest hl hm ?_
    unfold Spec.V5.Rejects
    rw [show typeNum (UInt8.ofNat (Spec.V4.byte1 (.Publish p))) = 3 from publish_type p.dup p.retain p.qos]
    show ite _ _ _
    rw [if_neg (by simp [Spec.V4.body, str, Spec.bin, u16])]
    have hq : (UInt8.ofNat (Spec.V4.byte1 (.Publish p))).toNat / 2 % 4 = Spec.V4.qosNum p.qos := by
      simp only [Spec.V4.byte1]
      cases p.dup <;> cases p.retain <;> cases p.qos <;> decide
    by_cases hq0 : p.qos = .AtMostOnce
    · have : Spec.V4.body (.Publish p) = str p.topic ++ [] := by simp [Spec.V4.body, hq0, h0]
      rw [this]
      exact .props0 (by rw [hq, hq0]; rfl) ht (.length (.inl ⟨by simp, by simp, rfl⟩))
    · have : Spec.V4.body (.Publish p) = str p.topic ++ u16 p.pkid.toNat ++ [] := by simp [Spec.V4.body, hq0, h0]
      rw [this]
      refine .props ?_ ht ?_ p.pkid.toNat_lt (.length (.inl ⟨by simp, by simp, rfl⟩))
      · rw [hq]; revert hq0; cases p.qos <;> decide
      · simp [Spec.V4.pkidMissing, hq0] at hp
        intro h; exact hp (UInt16.toNat_inj.1 (by simpa using h))
  · refine v5_frame_read rest hl hm ⟨rfl, [0], ?_, ht, ?_, none, ⟨(isVbi_singleton 0).2 (by decide), rfl⟩, rfl⟩
    · by_cases hq : p.qos = .AtMostOnce <;> simp [Spec.V4.body, hq, h0]
    · by_cases hq : p.qos = .AtMostOnce
      · simp [hq]
      · simp [Spec.V4.pkidMissing, hq] at hp
        simp [hq, hp]

/-! ### concrete cases -/
-- a v5 PUBLISH with a property: `v4::read` gives the property to the application as payload
example : V4.read 100 (((V5.Packet.Publish ⟨false, .AtLeastOnce, false, "a", 7,
      some { V5.PublishProperties.empty with topic_alias := some 3 }, [65]⟩).write []).2)
    = (.ok (.Publish ⟨false, .AtLeastOnce, false, "a", 7, [3, 35, 0, 3, 65]⟩), []) := by decide +kernel
-- a refused v5 PUBACK
example : V4.read 100 (((V5.Packet.PubAck ⟨7, .NotAuthorized, none⟩).write []).2) = (.ok (.PubAck ⟨7⟩), []) := by decide +kernel
-- a v5 SUBACK granting QoS 2 for its only filter: `v4::read` reports QoS 0 first
example : V4.read 100 (((V5.Packet.SubAck ⟨7, [.QoS2], none⟩).write []).2)
    = (.ok (.SubAck ⟨7, [.Success .AtMostOnce, .Success .ExactlyOnce]⟩), []) := by decide +kernel
-- a v4 PUBLISH whose payload looks like a property section
example : V5.read 100 (((V4.Packet.Publish ⟨false, .AtLeastOnce, false, "a", 7, [3, 35, 0, 3, 65]⟩).write []).2)
    = (.ok (.Publish ⟨false, .AtLeastOnce, false, "a", 7,
        some { V5.PublishProperties.empty with topic_alias := some 3 }, [65]⟩), []) := by decide +kernel
-- ... and one whose payload does not
example : (V5.read 100 (((V4.Packet.Publish ⟨false, .AtLeastOnce, false, "a", 7, [72, 105]⟩).write []).2)).1
    = .err (.InvalidPropertyType 105) := by decide +kernel

end Props
