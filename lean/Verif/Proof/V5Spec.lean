import Verif.Proof.V5Total
import Verif.Proof.V5Write
import Verif.Proof.V4Spec
/-! The v5 wire specification: encodings of well-formed packets that read back denote them, denoted
packets are well formed up to their size. -/
set_option linter.unusedSimpArgs false
namespace Mqtt.V5
open Mqtt Spec
open Spec.V5
open Spec.V4 (qosNum level bit typeNum)
open _root_.Mqtt.V4 (mqtt_len)

/-- the connect flags byte has the bits the fields prescribe -/
theorem flags_bits5 (cs : Bool) (w : Option (QoS × Bool)) (u p : Bool) :
    let f := UInt8.ofNat ((flag u 128 + flag p 64)
      + (match w with | some (q, r) => flag r 32 + 8 * qosNum q + 4 | none => 0) + flag cs 2)
    (cs = true ↔ bit f 1) ∧ (u = true ↔ bit f 7) ∧ (p = true ↔ bit f 6) ∧
    (match w with
      | none => ¬ bit f 2 ∧ ¬ bit f 3 ∧ ¬ bit f 4 ∧ ¬ bit f 5
      | some (q, r) => bit f 2 ∧ f.toNat / 8 % 4 = qosNum q ∧ (r = true ↔ bit f 5)) := by
  rcases w with _ | ⟨q, r⟩
  · cases cs <;> cases u <;> cases p <;> decide
  · cases cs <;> cases u <;> cases p <;> cases q <;> cases r <;> decide

theorem filters_denote (l : List SubscribeFilter) (h : ∀ f ∈ l, fits (utf8 f.path).length) :
    FiltersDenote (l.flatMap fun f => str f.path ++ Spec.u8 (subOptions f)) l := by
  induction l with
  | nil => exact .nil
  | cons f l ih =>
    have h1 : (UInt8.ofNat (subOptions f)).toNat % 64 = subOptions f := by
      unfold subOptions
      cases f.qos <;> cases f.nolocal <;> cases f.preserve_retain <;> cases f.retain_forward_rule <;> rfl
    exact FiltersDenote.cons f _ _ l (h f (by simp)) h1 (ih fun x hx => h x (by simp [hx]))

theorem readable_none {kind : Nat → Option Kind} {π : Type} {props : π → List Property}
    (hk : ∀ i, kind i ≠ some .vbi) (h : ∀ p, ∀ q ∈ props p, q.id < 256 ∧ kind q.id = some q.val.kind)
    (p : π) : Readable (props p) :=
  readable_of_kinds hk fun q hq => h p q hq


/-- at most one subscription identifier, and it comes first, is always counted right -/
theorem readable_subscribe (p : SubscribeProperties) : Readable (subscribeProps p) := by
  intro a b h hb
  have hu : ∀ l : List (String × String), vbis (users l) = 0 := fun l =>
    vbis_eq_zero (by
      intro q hq
      obtain ⟨kv, _, rfl⟩ := List.mem_map.1 hq
      simp [Val.kind])
  have h1 : vbis a + vbis b ≤ 1 := by
    rw [← vbis_append, ← h]
    unfold subscribeProps
    rw [vbis_append, hu]
    cases p.id <;> simp [opt, vbis, Val.kind]
  have : 2 ≤ (encAll b).length := by
    cases b with
    | nil => exact absurd rfl hb
    | cons q l =>
      rw [encAll_cons]
      have := enc_len_pos q.val
      simp [Property.enc, u8_len]; omega
  omega

theorem connect_bits (c : Connect) :
    (bit (UInt8.ofNat (connectFlags c)) 7 ↔ ∃ x, c.login = some x ∧ x.username ≠ "") ∧
    (bit (UInt8.ofNat (connectFlags c)) 6 ↔ ∃ x, c.login = some x ∧ x.password ≠ "") := by
  have hb := flags_bits5 c.clean_session (c.last_will.map fun w => (w.qos, w.retain))
      (match c.login with | some l => decide (l.username ≠ "") | none => false)
      (match c.login with | some l => decide (l.password ≠ "") | none => false)
  have e : (flag (match c.login with | some l => decide (l.username ≠ "") | none => false) 128
        + flag (match c.login with | some l => decide (l.password ≠ "") | none => false) 64)
        + (match c.last_will.map fun w => (w.qos, w.retain) with
          | some (q, r) => flag r 32 + 8 * qosNum q + 4 | none => 0)
        + flag c.clean_session 2 = connectFlags c := by
      unfold connectFlags
      cases c.login <;> cases c.last_will <;> simp [flag]
  simp only [e] at hb
  obtain ⟨h1, h7, h6, hw⟩ := hb
  cases hc : c.login with
  | none =>
    simp only [hc] at h7 h6
    exact ⟨by rw [← h7]; simp, by rw [← h6]; simp⟩
  | some l =>
    simp only [hc] at h7 h6
    exact ⟨by rw [← h7]; simp, by rw [← h6]; simp⟩

/-- the encoding of a well-formed packet that reads back denotes it -/
theorem wf_denotes (p : Packet) (h : WF p) (hb : ReadsBack p) :
    Denotes (UInt8.ofNat (byte1 p)) (body p) p := by
  obtain ⟨hf, hm, hl⟩ := h
  cases p with
  | Connect c =>
    obtain ⟨hf1, hf2, hf3, hf4⟩ := hf
    obtain ⟨hm1, hm2, hm3⟩ := hm
    simp only [ReadsBack, ConnectReadsBack] at hb
    simp only [body, List.length_append] at hl
    obtain ⟨pb, junk, hbd, hpb⟩ : ∃ pb junk, body (.Connect c) = str "MQTT" ++ Spec.u8 (level c.protocol)
        ++ [UInt8.ofNat (connectFlags c)] ++ Spec.u16 c.keep_alive.toNat ++ pb ++ str c.client_id
        ++ willFields c.last_will ++ loginFields c.login ++ junk ∧
        (match c.protocol with
          | .V5 => SetDenotesBy SecDenotes connectKind connectOf pb c.properties
          | .V4 => pb = [] ∧ c.properties = none) := by
      by_cases h5 : c.protocol = .V5
      · refine ⟨optSec connectProps c.properties, [], by simp [body, Spec.u8], ?_⟩
        rw [h5]
        exact optSec_denotes connect_set _ hm1 hf2
          (fun p _ => readable_none no_vbi_connect connect_kinds p) (by omega)
      · obtain ⟨b1, b2, b3, b4⟩ := hb.resolve_left h5
        have h4 : c.protocol = .V4 := by cases h : c.protocol <;> simp_all
        refine ⟨[], [0], ?_, by rw [h4]; exact ⟨rfl, b1⟩⟩
        have e1 : optSec connectProps none = [0] := rfl
        have e2 : str "" = [0, 0] := by decide +kernel
        have e3 : bin [] = [0, 0] := by decide
        have e4 : optSec willProps none = [0] := rfl
        cases hw : c.last_will with
        | none => simp [body, Spec.u8, b1, b2, b3, hw, e1, e2, willFields, loginFields]
        | some w =>
          obtain ⟨w1, w2, w3⟩ := b4 w hw
          simp [body, Spec.u8, b1, b2, b3, hw, w1, w2, w3, e1, e2, e3, e4, willFields, loginFields]
    refine ⟨by simp [typeNum, byte1], UInt8.ofNat (connectFlags c), pb,
      willFields c.last_will, loginFields c.login, junk, hbd, hpb, hf1, ?_⟩
    have hb := flags_bits5 c.clean_session (c.last_will.map fun w => (w.qos, w.retain))
      (match c.login with | some l => decide (l.username ≠ "") | none => false)
      (match c.login with | some l => decide (l.password ≠ "") | none => false)
    have e : (flag (match c.login with | some l => decide (l.username ≠ "") | none => false) 128
        + flag (match c.login with | some l => decide (l.password ≠ "") | none => false) 64)
        + (match c.last_will.map fun w => (w.qos, w.retain) with
          | some (q, r) => flag r 32 + 8 * qosNum q + 4 | none => 0)
        + flag c.clean_session 2 = connectFlags c := by
      unfold connectFlags
      cases c.login <;> cases c.last_will <;> simp [flag]
    simp only [e] at hb
    obtain ⟨h1, h7, h6, hw⟩ := hb
    refine ⟨h1, ?_, ?_⟩
    · cases hc : c.last_will with
      | none =>
        rw [hc] at hw
        exact ⟨hw.1, hw.2.1, hw.2.2.1, hw.2.2.2, rfl⟩
      | some w =>
        rw [hc] at hw
        obtain ⟨hf1, hf2, hf3⟩ := hf3 w hc
        refine ⟨hw.1, hw.2.1, hw.2.2, hf1, hf2, _, rfl, ?_⟩
        rw [hc] at hl
        simp only [willFields, List.length_append] at hl
        exact optSec_denotes will_set _ (hm2 w hc) hf3
          (fun p _ => readable_none no_vbi_will will_kinds p) (by omega)
    · cases hc : c.login with
      | none =>
        rw [hc] at h7 h6
        simp only [Bool.false_eq_true, false_iff] at h7 h6
        refine ⟨"", "", by decide +kernel, by decide +kernel, fun _ => rfl, fun _ => rfl, ?_, by simp⟩
        simp [h7, h6, loginFields]
      | some l =>
        rw [hc] at h7 h6
        simp only [decide_eq_true_eq] at h7 h6
        obtain ⟨hf1, hf2⟩ := hf4 l hc
        have hne := hm3 l hc
        refine ⟨l.username, l.password, hf1, hf2, ?_, ?_, ?_, ?_⟩
        · intro hn; exact Classical.byContradiction fun h => hn (h7.1 h)
        · intro hn; exact Classical.byContradiction fun h => hn (h6.1 h)
        · simp only [loginFields, ← h7, ← h6, ite_not]
        · rw [if_neg (by rintro ⟨h1, h2⟩; rcases hne with h | h <;> contradiction)]
  | ConnAck c =>
    simp only [body, List.length_append] at hl
    refine ⟨by simp [typeNum, byte1], UInt8.ofNat (flag c.session_present 1),
      optSec connackProps c.properties, [], by simp [body, Spec.u8], ?_, ?_⟩
    · cases c.session_present <;> decide
    · exact optSec_denotes connack_set _ hm hf
        (fun p _ => readable_none no_vbi_connack connack_kinds p) (by omega)
  | Publish p =>
    simp only [body, List.length_append] at hl
    exact ⟨rfl, _, rfl, hf.1, hm.2, optSec_denotes publish_set _ hm.1 hf.2 hb (by omega)⟩
  | PubAck p => exact ⟨by simp [typeNum, byte1], ack _ p hm hf hl⟩
  | PubRec p => exact ⟨by simp [typeNum, byte1], ack _ p hm hf hl⟩
  | PubRel p => exact ⟨by simp [typeNum, byte1], ack _ p hm hf hl⟩
  | PubComp p => exact ⟨by simp [typeNum, byte1], ack _ p hm hf hl⟩
  | Subscribe s =>
    simp only [body, List.length_append] at hl
    exact ⟨by simp [typeNum, byte1], _, _, rfl,
      optSec_denotes subscribe_set _ hm hf.1 (fun p _ => readable_subscribe p) (by omega),
      filters_denote s.filters hf.2⟩
  | SubAck s =>
    simp only [body, List.length_append] at hl
    exact ⟨by simp [typeNum, byte1], _, rfl, optSec_denotes reason_set _ hm.1 hf
        (fun p _ => readable_none no_vbi_reason reason_kinds p) (by omega), hm.2⟩
  | Unsubscribe u =>
    simp only [body, List.length_append] at hl
    exact ⟨by simp [typeNum, byte1], _, rfl, optSec_denotes unsubscribe_set _ hm hf.1
        (fun p _ => readable_none no_vbi_unsubscribe unsubscribe_kinds p) (by omega), hf.2⟩
  | UnsubAck u =>
    simp only [body, List.length_append] at hl
    exact ⟨by simp [typeNum, byte1], _, rfl, optSec_denotes reason_set _ hm.1 hf
        (fun p _ => readable_none no_vbi_reason reason_kinds p) (by omega), hm.2⟩
  | PingReq => simp [Denotes, DenotesBy, typeNum, byte1]
  | PingResp => simp [Denotes, DenotesBy, typeNum, byte1]
  | Disconnect d =>
    obtain ⟨q, hq⟩ := Option.ne_none_iff_exists'.1 hb
    have hs : SetDenotes disconnectKind disconnectOf (optSec disconnectProps d.properties) d.properties := by
      refine optSec_denotes disconnect_set _ hm hf
        (fun p _ => readable_none no_vbi_disconnect disconnect_kinds p) ?_
      simp only [body, hq, List.length_append] at hl
      simp only [hq, optSec]; omega
    exact ⟨rfl, _, [], by simp [body, hq, optSec], hs⟩
where
  ack {R : Type} (code : R → Nat) (a : Ack R) (hm : NonEmpty reasonProps a.properties)
      (hf : PropsFit reasonProps a.properties) (hl : (ackBody code a).length ≤ maxRemaining) :
      AckDenotes code (ackBody code a) a := by
    cases hp : a.properties with
    | none =>
      by_cases hc : code a.reason = 0
      · exact .inl ⟨by simp [ackBody, hp, hc], hc, hp⟩
      · exact .inr (.inl ⟨by simp [ackBody, hp, hc], hp⟩)
    | some p =>
      refine .inr (.inr ⟨optSec reasonProps a.properties, [], by simp [ackBody, hp, optSec], ?_⟩)
      refine optSec_denotes reason_set _ hm hf
        (fun p _ => readable_none no_vbi_reason reason_kinds p) ?_
      simp only [ackBody, hp, List.length_append] at hl
      simp only [hp, optSec]; omega

theorem denoted_filters {bd : Bytes} {l : List SubscribeFilter} (h : FiltersDenote bd l) :
    (∀ f ∈ l, fits (utf8 f.path).length) ∧
    bd.length = (l.flatMap fun f => str f.path ++ Spec.u8 (subOptions f)).length := by
  induction h with
  | nil => simp
  | cons f opt bd fs hp ho h ih =>
    refine ⟨?_, ?_⟩
    · intro f hf
      rcases List.mem_cons.1 hf with rfl | hf
      · exact hp
      · exact ih.1 f hf
    · simp only [List.flatMap_cons, List.length_append, ih.2, u8_len, List.length_cons,
        List.length_nil]

/-- a denoted packet has fields that fit, is meaningful, and its own body is at most 6 bytes longer
(3 bytes for each of at most two property sections) -/
theorem denotes_wf {b1 : UInt8} {bd : Bytes} {p : Packet} (h : Denotes b1 bd p) :
    FieldsFit p ∧ Meaningful p ∧ (body p).length ≤ bd.length + 6 := by
  cases p with
  | Connect c =>
    obtain ⟨_, f, pb, wb, lb, junk, rfl, hp, hid, _, hw, hl⟩ := h
    have hp' : PropsFit connectProps c.properties ∧ NonEmpty connectProps c.properties ∧
        (optSec connectProps c.properties).length ≤ pb.length + 3 := by
      cases hc : c.protocol with
      | V4 =>
        rw [hc] at hp
        obtain ⟨rfl, hn⟩ := hp
        rw [hn]
        exact ⟨by intro p hp; simp at hp, by intro p hp; simp at hp, by decide⟩
      | V5 => rw [hc] at hp; exact hp.wf connect_set
    have hw' : (∀ w, c.last_will = some w → fits (utf8 w.topic).length ∧ fits w.message.length ∧
        PropsFit willProps w.properties ∧ NonEmpty willProps w.properties) ∧
        (willFields c.last_will).length ≤ wb.length + 3 := by
      cases hc : c.last_will with
      | none => exact ⟨by simp, by simp [willFields]⟩
      | some w =>
        rw [hc] at hw
        obtain ⟨_, _, _, h1, h2, ps, rfl, h3⟩ := hw
        obtain ⟨h4, h5, h6⟩ := h3.wf will_set
        refine ⟨?_, ?_⟩
        · intro w' hw'; cases hw'; exact ⟨h1, h2, h4, h5⟩
        · simp only [willFields, List.length_append]; omega
    obtain ⟨u, p, hu, hpw, _, _, rfl, hl⟩ := hl
    refine ⟨⟨hid, hp'.1, fun w h => ⟨(hw'.1 w h).1, (hw'.1 w h).2.1, (hw'.1 w h).2.2.1⟩, ?_⟩,
      ⟨hp'.2.1, fun w h => (hw'.1 w h).2.2.2, ?_⟩, ?_⟩
    · intro l hc
      rw [hc] at hl
      split at hl
      · simp at hl
      · cases hl; exact ⟨hu, hpw⟩
    · intro l hc
      rw [hc] at hl
      split at hl
      · simp at hl
      · rename_i hne
        cases hl
        exact Classical.byContradiction fun h => hne (by simpa [not_or] using h)
    · unfold body
      simp only [List.length_append, mqtt_len, u8_len, u16_len, List.length_cons, List.length_nil]
      have : (loginFields c.login).length ≤
          (if bit f 7 then str u else []).length + (if bit f 6 then str p else []).length := by
        rw [hl]
        split
        · simp [loginFields]
        · simp only [loginFields, List.length_append]
          refine Nat.add_le_add ?_ ?_
          · by_cases h1 : u = ""
            · simp [h1]
            · rw [if_neg h1, if_pos (Classical.byContradiction fun h => h1 (by simp_all))]
              exact Nat.le_refl _
          · by_cases h1 : p = ""
            · simp [h1]
            · rw [if_neg h1, if_pos (Classical.byContradiction fun h => h1 (by simp_all))]
              exact Nat.le_refl _
      omega
  | ConnAck c =>
    obtain ⟨_, f, ps, junk, rfl, _, hs⟩ := h
    obtain ⟨h1, h2, h3⟩ := hs.wf connack_set
    exact ⟨h1, h2, by simp [body, Spec.u8]; omega⟩
  | Publish p =>
    obtain ⟨_, ps, rfl, h1, h2, hs⟩ := h
    obtain ⟨h3, h4, h5⟩ := hs.wf publish_set
    exact ⟨⟨h1, h3⟩, ⟨h4, h2⟩, by simp [body]; omega⟩
  | PubAck p => exact ack _ p h.2
  | PubRec p => exact ack _ p h.2
  | PubRel p => exact ack _ p h.2
  | PubComp p => exact ack _ p h.2
  | Subscribe s =>
    obtain ⟨_, ps, fs, rfl, hs, hf⟩ := h
    obtain ⟨h3, h4, h5⟩ := hs.wf subscribe_set
    refine ⟨⟨h3, (denoted_filters hf).1⟩, h4, ?_⟩
    simp only [body, List.length_append, (denoted_filters hf).2]
    omega
  | SubAck s =>
    obtain ⟨_, ps, rfl, hs, hne⟩ := h
    obtain ⟨h3, h4, h5⟩ := hs.wf reason_set
    exact ⟨h3, ⟨h4, hne⟩, by simp [body]; omega⟩
  | Unsubscribe u =>
    obtain ⟨_, ps, rfl, hs, hf⟩ := h
    obtain ⟨h3, h4, h5⟩ := hs.wf unsubscribe_set
    exact ⟨⟨h3, hf⟩, h4, by simp [body]; omega⟩
  | UnsubAck u =>
    obtain ⟨_, ps, rfl, hs, hne⟩ := h
    obtain ⟨h3, h4, h5⟩ := hs.wf reason_set
    exact ⟨h3, ⟨h4, hne⟩, by simp [body]; omega⟩
  | PingReq => exact ⟨trivial, trivial, by simp [body]⟩
  | PingResp => exact ⟨trivial, trivial, by simp [body]⟩
  | Disconnect d =>
    obtain ⟨_, ps, junk, rfl, hs⟩ := h
    obtain ⟨h3, h4, h5⟩ := hs.wf disconnect_set
    refine ⟨h3, h4, ?_⟩
    unfold body
    cases hp : d.properties with
    | none => simp only [hp]; split <;> simp [Spec.u8]
    | some q => rw [hp] at h5; simp only [hp, optSec, List.length_append] at h5 ⊢; omega
where
  ack {R : Type} (code : R → Nat) {bd : Bytes} (a : Ack R) (h : AckDenotes code bd a) :
      PropsFit reasonProps a.properties ∧ NonEmpty reasonProps a.properties ∧
      (ackBody code a).length ≤ bd.length + 6 := by
    rcases h with ⟨rfl, h0, hn⟩ | ⟨rfl, hn⟩ | ⟨ps, junk, rfl, hs⟩
    · rw [hn]
      exact ⟨by intro p hp; simp at hp, by intro p hp; simp at hp, by simp [ackBody, hn, h0]⟩
    · rw [hn]
      refine ⟨by intro p hp; simp at hp, by intro p hp; simp at hp, ?_⟩
      simp only [ackBody, hn, List.length_append]
      split
      · simp only [List.length_nil]; omega
      · omega
    · obtain ⟨h3, h4, h5⟩ := hs.wf reason_set
      refine ⟨h3, h4, ?_⟩
      unfold ackBody
      cases hp : a.properties with
      | none =>
        simp only [List.length_append]
        split
        · simp only [List.length_nil]; omega
        · omega
      | some q => rw [hp] at h5; simp [optSec] at h5 ⊢; omega

/-- reading the encoding of a well-formed packet that reads back -/
theorem read_encode (p : Packet) (h : WF p) (hb : ReadsBack p) (max : Nat)
    (hm : (body p).length ≤ max) (rest : Bytes) :
    V5.read max (encode p ++ rest) = (.ok p, rest) := by
  rw [read_ok_iff]
  exact ⟨UInt8.ofNat (byte1 p), vbi (body p).length, body p, by simp [encode, frame, Spec.u8],
    vbi_isVbi h.2.2, vbiValue_vbi h.2.2, hm, wf_denotes p h hb⟩

/-- writing a well-formed packet other than CONNECT and CONNACK without properties -/
theorem write_encode (p : Packet) (h : WF p) (hc : ∀ c, p ≠ .Connect c)
    (ha : ∀ c, p = .ConnAck c → c.properties ≠ none) (s : Bytes) :
    p.write s = (.ok (encode p).length, s ++ encode p) := by
  obtain ⟨hf, hm, hl⟩ := h
  cases p with
  | Connect c => exact absurd rfl (hc c)
  | ConnAck c => exact ConnAck.write_run c (ha c rfl) hf hl s
  | Publish p => exact Publish.write_run p hf (fun h1 h2 => h1 (hm.2.2 h2)) hl s
  | PubAck p => exact ack_write .Success pubackCode puback_zero 0x40 PubAckReason.toU8 puback_code p hf hl s
  | PubRec p => exact ack_write .Success pubrecCode pubrec_zero 0x50 PubRecReason.toU8 pubrec_code p hf hl s
  | PubRel p => exact ack_write .Success pubrelCode pubrel_zero 0x62 PubRelReason.toU8 pubrel_code p hf hl s
  | PubComp p => exact ack_write .Success pubcompCode pubcomp_zero 0x70 PubCompReason.toU8 pubcomp_code p hf hl s
  | Subscribe p => exact Subscribe.write_run p hf hl s
  | SubAck p => exact SubAck.write_run p hf hl s
  | Unsubscribe p => exact Unsubscribe.write_run p hf hl s
  | UnsubAck p => exact UnsubAck.write_run p hf hl s
  | PingReq => exact PingReq.write_run s
  | PingResp => exact PingResp.write_run s
  | Disconnect d => exact Disconnect.write_run d hf hm hl s

/-- writing a well-formed packet to an empty buffer -/
theorem write_empty (p : Packet) (h : WF p) (ha : ∀ c, p = .ConnAck c → c.properties ≠ none) :
    ∃ n, p.write [] = (.ok n, encode p) := by
  by_cases hc : ∃ c, p = .Connect c
  · obtain ⟨c, rfl⟩ := hc
    exact ⟨_, Connect.write_empty c h.2.2⟩
  · exact ⟨_, by simpa using write_encode p h (fun c e => hc ⟨c, e⟩) ha []⟩

end Mqtt.V5
