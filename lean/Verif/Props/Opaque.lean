import Verif.Props.V4Read
import Verif.Props.V5Read
/-! C105: the application's data (topic and payload of PUBLISH, topic and message of the will) is not interpreted. -/
namespace Props
open Mqtt Spec

/-- C105 (v4): the frame of an accepted PUBLISH is topic, some bytes, payload; with any other topic and any other payload in
their places the same packet is read, with these in its topic and payload fields. -/
theorem C105_v4_publish_opaque (max : Nat) (s s' : Bytes) (p : V4.Publish) (h : V4.read max s = (.ok (.Publish p), s')) :
    ∃ b1 bs mid, s = b1 :: (bs ++ (str p.topic ++ mid ++ p.payload ++ s')) ∧
      ∀ (topic : String) (payload rl rest : Bytes) (max' : Nat), (utf8 topic).length ≤ 65535 → IsVbi rl →
        vbiValue rl = (str topic ++ mid ++ payload).length → vbiValue rl ≤ max' →
        V4.read max' (b1 :: (rl ++ (str topic ++ mid ++ payload ++ rest)))
          = (.ok (.Publish { p with topic := topic, payload := payload }), rest) := by
  obtain ⟨b1, bs, bd, rfl, hv, hl, hm, hb, rfl, hf, hq⟩ := (C31_v4_read_iff max s _ s').1 h
  refine ⟨b1, bs, if p.qos = .AtMostOnce then [] else u16 p.pkid.toNat, rfl, ?_⟩
  intro topic payload rl rest max' ht hr hrv hrm
  exact (C31_v4_read_iff max' _ _ rest).2 ⟨b1, rl, _, rfl, hr, hrv, hrv ▸ hrm, hb, rfl, ht, hq⟩

/-- C105 (v5) -/
theorem C105_v5_publish_opaque (max : Nat) (s s' : Bytes) (p : V5.Publish) (h : V5.read max s = (.ok (.Publish p), s')) :
    ∃ b1 bs mid, s = b1 :: (bs ++ (str p.topic ++ mid ++ p.payload ++ s')) ∧
      ∀ (topic : String) (payload rl rest : Bytes) (max' : Nat), (utf8 topic).length ≤ 65535 → IsVbi rl →
        vbiValue rl = (str topic ++ mid ++ payload).length → vbiValue rl ≤ max' →
        V5.read max' (b1 :: (rl ++ (str topic ++ mid ++ payload ++ rest)))
          = (.ok (.Publish { p with topic := topic, payload := payload }), rest) := by
  obtain ⟨b1, bs, bd, rfl, hv, hl, hm, hb, props, rfl, hf, hq, hs⟩ := (C60_v5_read_iff max s _ s').1 h
  refine ⟨b1, bs, (if p.qos = .AtMostOnce then [] else u16 p.pkid.toNat) ++ props, by simp, ?_⟩
  intro topic payload rl rest max' ht hr hrv hrm
  exact (C60_v5_read_iff max' _ _ rest).2
    ⟨b1, rl, _, rfl, hr, hrv, hrv ▸ hrm, hb, props, by simp, ht, hq, hs⟩

/-- C105 (v4): likewise for topic and message of the will in an accepted CONNECT -/
theorem C105_v4_will_opaque (max : Nat) (s s' : Bytes) (c : V4.Connect) (w : V4.LastWill) (hw : c.last_will = some w)
    (h : V4.read max s = (.ok (.Connect c), s')) :
    ∃ b1 bs pre post, s = b1 :: (bs ++ (pre ++ str w.topic ++ bin w.message ++ post ++ s')) ∧
      ∀ (topic : String) (message rl rest : Bytes) (max' : Nat), (utf8 topic).length ≤ 65535 → message.length ≤ 65535 →
        IsVbi rl → vbiValue rl = (pre ++ str topic ++ bin message ++ post).length → vbiValue rl ≤ max' →
        V4.read max' (b1 :: (rl ++ (pre ++ str topic ++ bin message ++ post ++ rest)))
          = (.ok (.Connect { c with last_will := some { w with topic := topic, message := message } }), rest) := by
  obtain ⟨b1, bs, bd, rfl, hv, hl, hm, hb, flags, will, login, junk, rfl, hid, hcs, hwd, hld⟩ :=
    (C31_v4_read_iff max s _ s').1 h
  rw [hw] at hwd
  obtain ⟨h1, h2, h3, h4, h5, rfl⟩ := hwd
  refine ⟨b1, bs, str "MQTT" ++ u8 (Spec.V4.level c.protocol) ++ [flags] ++ u16 c.keep_alive.toNat ++ str c.client_id,
    login ++ junk, by simp, ?_⟩
  intro topic message rl rest max' ht hm hr hrv hrm
  refine (C31_v4_read_iff max' _ _ rest).2 ⟨b1, rl, _, rfl, hr, hrv, hrv ▸ hrm, hb, flags, str topic ++ bin message, login,
    junk, by simp, hid, hcs, ⟨h1, h2, h3, ht, hm, rfl⟩, hld⟩

/-- hypotheses met: a CONNECT with a will -/
example : ∃ b1 bs pre post, ([0x10, 21, 0, 4, 77, 81, 84, 84, 4, 6, 0, 60, 0, 1, 99, 0, 1, 116, 0, 3, 1, 2, 3] : Bytes)
      = b1 :: (bs ++ (pre ++ str "t" ++ bin [1, 2, 3] ++ post ++ [])) ∧
    ∀ (topic : String) (message rl rest : Bytes) (max' : Nat), (utf8 topic).length ≤ 65535 → message.length ≤ 65535 →
      IsVbi rl → vbiValue rl = (pre ++ str topic ++ bin message ++ post).length → vbiValue rl ≤ max' →
      V4.read max' (b1 :: (rl ++ (pre ++ str topic ++ bin message ++ post ++ rest)))
        = (.ok (.Connect ⟨.V4, 60, "c", true, some ⟨topic, message, .AtMostOnce, false⟩, none⟩), rest) := by
  have h : V4.read 99 [0x10, 21, 0, 4, 77, 81, 84, 84, 4, 6, 0, 60, 0, 1, 99, 0, 1, 116, 0, 3, 1, 2, 3]
      = (.ok (.Connect ⟨.V4, 60, "c", true, some ⟨"t", [1, 2, 3], .AtMostOnce, false⟩, none⟩), []) := by decide +kernel
  exact C105_v4_will_opaque 99 _ [] ⟨.V4, 60, "c", true, some ⟨"t", [1, 2, 3], .AtMostOnce, false⟩, none⟩
    ⟨"t", [1, 2, 3], .AtMostOnce, false⟩ rfl h


/-- C105 (v5) -/
theorem C105_v5_will_opaque (max : Nat) (s s' : Bytes) (c : V5.Connect) (w : V5.LastWill) (hw : c.last_will = some w)
    (h : V5.read max s = (.ok (.Connect c), s')) :
    ∃ b1 bs pre post, s = b1 :: (bs ++ (pre ++ str w.topic ++ bin w.message ++ post ++ s')) ∧
      ∀ (topic : String) (message rl rest : Bytes) (max' : Nat), (utf8 topic).length ≤ 65535 → message.length ≤ 65535 →
        IsVbi rl → vbiValue rl = (pre ++ str topic ++ bin message ++ post).length → vbiValue rl ≤ max' →
        V5.read max' (b1 :: (rl ++ (pre ++ str topic ++ bin message ++ post ++ rest)))
          = (.ok (.Connect { c with last_will := some { w with topic := topic, message := message } }), rest) := by
  obtain ⟨b1, bs, bd, rfl, hv, hl, hm, hb, flags, props, will, login, junk, rfl, hps, hid, hcs, hwd, hld⟩ :=
    (C60_v5_read_iff max s _ s').1 h
  rw [hw] at hwd
  obtain ⟨h1, h2, h3, h4, h5, wp, rfl, hwp⟩ := hwd
  refine ⟨b1, bs, str "MQTT" ++ u8 (Spec.V4.level c.protocol) ++ [flags] ++ u16 c.keep_alive.toNat ++ props
      ++ str c.client_id ++ wp, login ++ junk, by simp, ?_⟩
  intro topic message rl rest max' ht hm hr hrv hrm
  refine (C60_v5_read_iff max' _ _ rest).2 ⟨b1, rl, _, rfl, hr, hrv, hrv ▸ hrm, hb, flags, props, wp ++ str topic ++ bin message,
    login, junk, by simp, hps, hid, hcs, ⟨h1, h2, h3, ht, hm, wp, rfl, hwp⟩, hld⟩

/-! cases that meet the hypotheses -/
example : V4.read 9 [0x32, 6, 0, 1, 97, 0, 7, 9, 1] = (.ok (.Publish ⟨false, .AtLeastOnce, false, "a", 7, [9]⟩), [1]) := by
  decide +kernel
/-- the payload looks like a packet, the topic has wildcards -/
example : V4.read 9 [0x32, 9, 0, 2, 35, 43, 0, 7, 0x30, 2, 0]
    = (.ok (.Publish ⟨false, .AtLeastOnce, false, "#+", 7, [0x30, 2, 0]⟩), []) := by decide +kernel
example : V5.read 9 [0x30, 8, 0, 1, 97, 2, 1, 1, 9, 8]
    = (.ok (.Publish ⟨false, .AtMostOnce, false, "a", 0, some ⟨some 1, none, none, none, none, [], [], none⟩, [9, 8]⟩), []) := by
  decide +kernel
example : V4.read 99 [0x10, 18, 0, 4, 77, 81, 84, 84, 4, 6, 0, 10, 0, 0, 0, 1, 97, 0, 1, 9]
    = (.ok (.Connect ⟨.V4, 10, "", true, some ⟨"a", [9], .AtMostOnce, false⟩, none⟩), []) := by decide +kernel
example : V5.read 99 [0x10, 20, 0, 4, 77, 81, 84, 84, 5, 6, 0, 10, 0, 0, 0, 0, 0, 1, 97, 0, 1, 9]
    = (.ok (.Connect ⟨.V5, 10, "", true, some ⟨"a", [9], .AtMostOnce, false, none⟩, none, none⟩), []) := by decide +kernel
end Props
