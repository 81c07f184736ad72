import Verif.Proof.Cross
import Verif.Proof.V4Write
import Verif.Proof.V5Write
/-! C68: packets of one protocol version given to the decoder of the other. -/
namespace Props
open Mqtt Spec

/-- C68: a broker that does not know the client's version may hand a CONNECT written by the v5 codec to
`v4::read`: if that accepts it, the packet is a CONNECT with the right protocol version, keep alive and
clean session flag, and exactly the frame was consumed. -/
theorem C68_v4_detects_v5 (c : V5.Connect)
    (hl : (Spec.V5.body (.Connect c)).length ≤ 268435455) (max : Nat) (rest s' : Bytes) (q : V4.Packet)
    (h : V4.read max ((c.write []).2 ++ rest) = (.ok q, s')) :
    s' = rest ∧ ∃ d, q = .Connect d ∧ d.protocol = c.protocol ∧ d.keep_alive = c.keep_alive
      ∧ d.clean_session = c.clean_session := by
  rw [V5.Connect.write_empty c hl] at h
  obtain ⟨hd, rfl⟩ := v4_frame_denotes (n := 0x10) hl h
  exact ⟨rfl, v4_sees_v5_connect c hd⟩

/-- C68, a trap: the client id that `v4::read` reports for it is not the client's: for a v5 CONNECT
without properties, will and login and with a client id shorter than 256 bytes, `v4::read` returns `Ok`
with the empty client id. -/
theorem C68_v4_loses_client_id (c : V5.Connect) (hp : c.properties = none) (hw : c.last_will = none)
    (hlg : c.login = none) (hid : (utf8 c.client_id).length < 256) (max : Nat)
    (hm : (Spec.V5.body (.Connect c)).length ≤ max) (rest : Bytes) :
    V4.read max ((c.write []).2 ++ rest)
      = (.ok (.Connect ⟨c.protocol, c.keep_alive, "", c.clean_session, none, none⟩), rest) := by
  have hf : Spec.V5.FieldsFit (.Connect c) := by
    refine ⟨?_, ?_, ?_, ?_⟩
    · show _ ≤ _; omega
    · simp [Spec.V5.PropsFit, hp]
    · simp [hw]
    · simp [hlg]
  have hl : (Spec.V5.body (.Connect c)).length ≤ maxRemaining := by
    have e4 : Spec.V5.optSec Spec.V5.connectProps none = [0] := rfl
    have e5 : (utf8 "MQTT").length = 4 := by decide +kernel
    simp only [Spec.V5.body, hp, hw, hlg, Spec.V5.willFields, Spec.V5.loginFields, e4, str, bin, Spec.u8, Spec.u16,
      List.length_append, List.length_cons, List.length_nil, maxRemaining, e5]
    omega
  rw [V5.Connect.write_empty c hl]
  exact v4_frame_read rest hl hm (v4_misreads_v5_connect c hp hw hlg hid)

example : V4.read 99 (((V5.Connect.new "id").write []).2 ++ [7]) = (.ok (.Connect ⟨.V5, 10, "", true, none, none⟩), [7]) :=
  C68_v4_loses_client_id (V5.Connect.new "id") rfl rfl rfl (by decide +kernel) 99 (by decide +kernel) [7]


/-- C68: conversely `v5::read` on a CONNECT written by the v4 codec (protocol V4): whatever it accepts is
a CONNECT with the right version, keep alive, clean session flag and client id, and no properties. -/
theorem C68_v5_detects_v4 (c : V4.Connect) (h4 : c.protocol = .V4) (hf : Spec.V4.FieldsFit (.Connect c))
    (hl : (Spec.V4.body (.Connect c)).length ≤ 268435455) (max : Nat) (rest s' : Bytes) (q : V5.Packet)
    (h : V5.read max ((c.write []).2 ++ rest) = (.ok q, s')) :
    s' = rest ∧ ∃ d, q = .Connect d ∧ d.protocol = .V4 ∧ d.keep_alive = c.keep_alive
      ∧ d.clean_session = c.clean_session ∧ d.client_id = c.client_id ∧ d.properties = none := by
  rw [V4.Connect.write_empty c hl] at h
  obtain ⟨hd, rfl⟩ := v5_frame_denotes (n := 0x10) hl h
  obtain ⟨d, h0, h1, h2⟩ := v5_sees_v4_connect c h4 hf.1 hd
  exact ⟨rfl, d, h0, h1.trans h4, h2⟩

/-- hypotheses met: a 3.1.1 CONNECT read by the 5.0 reader -/
example : ∃ q s', V5.read 99 (((V4.Connect.new "a").write []).2 ++ [9]) = (.ok q, s') ∧ (V4.Connect.new "a").protocol = .V4 ∧
    Spec.V4.FieldsFit (.Connect (V4.Connect.new "a")) :=
  ⟨.Connect ⟨.V4, 10, "a", true, none, none, none⟩, [9], by decide +kernel, rfl, by
    refine ⟨by decide +kernel, ?_, ?_⟩ <;> intro x h <;> cases h⟩


/-- C68: and without a will it always accepts it and reads every field. -/
theorem C68_v5_reads_v4_without_will (c : V4.Connect) (h4 : c.protocol = .V4) (h : Spec.V4.WF (.Connect c))
    (hn : c.last_will = none) (max : Nat) (hm : (Spec.V4.body (.Connect c)).length ≤ max) (rest : Bytes) :
    V5.read max ((c.write []).2 ++ rest)
      = (.ok (.Connect ⟨.V4, c.keep_alive, c.client_id, c.clean_session, none,
          c.login.map fun l => ⟨l.username, l.password⟩, none⟩), rest) := by
  rw [V4.Connect.write_empty c h.2.2]
  exact v5_frame_read rest h.2.2 hm (h4 ▸ v5_reads_v4_connect c h4 h hn)

example : V5.read 99 ((((V4.Connect.new "id").set_login "u" "p").write []).2 ++ [7])
    = (.ok (.Connect ⟨.V4, 10, "id", true, none, some ⟨"u", "p"⟩, none⟩), [7]) :=
  C68_v5_reads_v4_without_will ((V4.Connect.new "id").set_login "u" "p") rfl
    ⟨⟨by decide +kernel, by simp [V4.Connect.new, V4.Connect.set_login], by
      intro l hl; simp only [V4.Connect.set_login, Option.some.injEq] at hl; subst hl; decide +kernel⟩,
      by intro l hl; simp only [V4.Connect.set_login, Option.some.injEq] at hl; subst hl; decide, by decide +kernel⟩
    rfl 99 (by decide +kernel) [7]


/-- C68: the acknowledgements of a QoS 1/2 publish with reason Success and no properties, and the pings,
are the same bytes in both versions. -/
theorem C68_same_wire (k : UInt16) (s : Bytes) :
    V4.PubAck.write ⟨k⟩ s = V5.PubAck.write ⟨k, .Success, none⟩ s
    ∧ V4.PubRec.write ⟨k⟩ s = V5.PubRec.write ⟨k, .Success, none⟩ s
    ∧ V4.PubRel.write ⟨k⟩ s = V5.PubRel.write ⟨k, .Success, none⟩ s
    ∧ V4.PubComp.write ⟨k⟩ s = V5.PubComp.write ⟨k, .Success, none⟩ s
    ∧ V4.PingReq.write s = V5.PingReq.write s ∧ V4.PingResp.write s = V5.PingResp.write s
    ∧ V4.Disconnect.write s = V5.Disconnect.new.write s := by
  have e2 := fun s => write_remaining_length_run (n := 2) (by decide) s
  refine ⟨?_, ?_, ?_, ?_, rfl, rfl, ?_⟩
  · unfold V4.PubAck.write V4.PubAck.len V5.PubAck.write V5.PubAck.len
    mrun [putU8_run, putU16_run, e2]; simp [vbi, Spec.u8]; mrun [putU16_run, e2]; simp [vbi, Spec.u8]
  · unfold V4.PubRec.write V4.PubRec.len V5.PubRec.write V5.PubRec.len
    mrun [putU8_run, putU16_run, e2]; simp [vbi, Spec.u8]; mrun [putU16_run, e2]; simp [vbi, Spec.u8]
  · unfold V4.PubRel.write V4.PubRel.len V5.PubRel.write V5.PubRel.len
    mrun [putU8_run, putU16_run, e2]; simp [vbi, Spec.u8]; mrun [putU16_run, e2]; simp [vbi, Spec.u8]
  · unfold V4.PubComp.write V4.PubComp.len V5.PubComp.write V5.PubComp.len
    mrun [putU8_run, putU16_run, e2]; simp [vbi, Spec.u8]; mrun [putU16_run, e2]; simp [vbi, Spec.u8]
  · unfold V4.Disconnect.write V5.Disconnect.write V5.Disconnect.new V5.Disconnect.len
    mrun [putU8_run, putSlice_run]; simp

/-- C68: so a v5 DISCONNECT made by `Disconnect::new()`, which `v5::read` refuses, is accepted by `v4::read`,
and every publish acknowledgement of the one version is accepted by the other. -/
theorem C68_v4_reads_v5_short (k : UInt16) (max : Nat) (hm : 2 ≤ max) (rest : Bytes) :
    V4.read max ((V5.Disconnect.new.write []).2 ++ rest) = (.ok .Disconnect, rest)
    ∧ V5.read max ((V5.Disconnect.new.write []).2 ++ rest) = (.err .PayloadRequired, rest)
    ∧ V4.read max ((V5.PubAck.write ⟨k, .Success, none⟩ []).2 ++ rest) = (.ok (.PubAck ⟨k⟩), rest)
    ∧ V5.read max ((V4.PubAck.write ⟨k⟩ []).2 ++ rest) = (.ok (.PubAck ⟨k, .Success, none⟩), rest) := by
  have hd : (V5.Disconnect.new.write []).2 = [0xE0, 0] := by decide +kernel
  have hw4 : (V4.PubAck.write ⟨k⟩ []).2 = frame 0x40 (Spec.u16 k.toNat) := by
    rw [V4.PubAck.write_run]; rfl
  refine ⟨?_, ?_, ?_, ?_⟩
  · rw [hd]
    exact (V4.read_ok_iff max _ rest _).2 ⟨0xE0, [0], [], by simp, (isVbi_singleton 0).2 (by decide), rfl, by simp, by show Spec.V4.typeNum 0xE0 = 14; decide⟩
  · rw [hd, v5_read_eq]
    show readG V5.readFrame max (0xE0 :: ([0] ++ rest)) = _
    rw [readG_ok V5.readFrame max (check_frame 0xE0 [0] rest max ((isVbi_singleton 0).2 (by decide)) (by simp [vbiValue]) (by simp [vbiValue]))]
    rfl
  · rw [← (C68_same_wire k []).1, hw4]
    exact v4_frame_read rest (by simp [u16_len, maxRemaining]) (by simpa [u16_len] using hm) ⟨by decide, [], by simp⟩
  · rw [hw4]
    exact v5_frame_read rest (by simp [u16_len, maxRemaining]) (by simpa [u16_len] using hm) ⟨by decide, .inl ⟨rfl, rfl, rfl⟩⟩

-- non-vacuous: a v5 CONNECT with properties is rejected or misread by v4, a v4 one with login is read by v5
example :
    let c : V5.Connect := { V5.Connect.new "abc" with keep_alive := 7 }
    V4.read 100 (c.write []).2 = (.ok (.Connect ⟨.V5, 7, "", true, none, none⟩), []) := by decide +kernel
example :
    let c : V4.Connect := ⟨.V4, 9, "abc", false, none, some ⟨"u", "p"⟩⟩
    V5.read 100 (c.write []).2 = (.ok (.Connect ⟨.V4, 9, "abc", false, none, some ⟨"u", "p"⟩, none⟩), []) := by
  decide +kernel
-- with a will, v5 can fail on a v4 CONNECT (it looks for will properties)
example :
    let c : V4.Connect := ⟨.V4, 9, "abc", false, some ⟨"w", [1], .AtMostOnce, false⟩, none⟩
    V5.read 100 (c.write []).2 = (.err (.BoundaryCrossed 375), []) := by decide +kernel

end Props
