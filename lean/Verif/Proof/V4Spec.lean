import Verif.Proof.V4Total
/-! The v4 wire specification: encodings of well-formed packets denote them, denoted packets are
well formed. -/
set_option linter.unusedSimpArgs false
namespace Mqtt.V4
open Spec
open Spec.V4 (body byte1 encode FieldsFit Meaningful WF Denotes bit typeNum WillDenotes LoginDenotes
  FiltersDenote connectFlags)

/-- the connect flags byte has the bits the fields prescribe -/
theorem flags_bits (cs : Bool) (w : Option (QoS × Bool)) (u p : Bool) :
    let f := UInt8.ofNat ((flag u 128 + flag p 64)
      + (match w with | some (q, r) => flag r 32 + 8 * Spec.V4.qosNum q + 4 | none => 0) + flag cs 2)
    (cs = true ↔ bit f 1) ∧ (u = true ↔ bit f 7) ∧ (p = true ↔ bit f 6) ∧
    (match w with
      | none => ¬ bit f 2 ∧ ¬ bit f 3 ∧ ¬ bit f 4 ∧ ¬ bit f 5
      | some (q, r) => bit f 2 ∧ f.toNat / 8 % 4 = Spec.V4.qosNum q ∧ (r = true ↔ bit f 5)) := by
  rcases w with _ | ⟨q, r⟩
  · cases cs <;> cases u <;> cases p <;> decide
  · cases cs <;> cases u <;> cases p <;> cases q <;> cases r <;> decide

theorem filters_denote (l : List SubscribeFilter) (h : ∀ f ∈ l, fits (utf8 f.path).length) :
    FiltersDenote (l.flatMap fun f => str f.path ++ Spec.u8 (Spec.V4.qosNum f.qos)) l := by
  induction l with
  | nil => exact .nil
  | cons f l ih =>
    have h1 : (UInt8.ofNat (Spec.V4.qosNum f.qos)).toNat % 4 = Spec.V4.qosNum f.qos := by
      cases f.qos <;> rfl
    exact FiltersDenote.cons f.path f.qos _ _ l (h f (by simp)) h1
      (ih fun x hx => h x (by simp [hx]))

/-- the encoding of a well-formed packet denotes it -/
theorem wf_denotes (p : Packet) (h : WF p) : Denotes (UInt8.ofNat (byte1 p)) (body p) p := by
  obtain ⟨hf, hm, hl⟩ := h
  cases p with
  | Connect c =>
    refine ⟨by simp [typeNum, byte1], UInt8.ofNat (connectFlags c), Spec.V4.willFields c.last_will,
      Spec.V4.loginFields c.login, [], by simp [body, Spec.u8], hf.1, ?_⟩
    have hb := flags_bits c.clean_session (c.last_will.map fun w => (w.qos, w.retain))
      (match c.login with | some l => decide (l.username ≠ "") | none => false)
      (match c.login with | some l => decide (l.password ≠ "") | none => false)
    have e : (flag (match c.login with | some l => decide (l.username ≠ "") | none => false) 128
        + flag (match c.login with | some l => decide (l.password ≠ "") | none => false) 64)
        + (match c.last_will.map fun w => (w.qos, w.retain) with
          | some (q, r) => flag r 32 + 8 * Spec.V4.qosNum q + 4 | none => 0)
        + flag c.clean_session 2 = connectFlags c := by
      unfold connectFlags
      cases c.login <;> cases c.last_will <;> simp [flag]
    simp only [e] at hb
    obtain ⟨h1, h7, h6, hw⟩ := hb
    refine ⟨h1, ?_, ?_⟩
    · cases hc : c.last_will with
      | none =>
        rw [hc] at hw
        exact ⟨hw.1, hw.2.1, hw.2.2.1, hw.2.2.2, rfl⟩
      | some w =>
        rw [hc] at hw
        obtain ⟨hf1, hf2⟩ := hf.2.1 w hc
        exact ⟨hw.1, hw.2.1, hw.2.2, hf1, hf2, rfl⟩
    · cases hc : c.login with
      | none =>
        rw [hc] at h7 h6
        simp only [Bool.false_eq_true, false_iff] at h7 h6
        refine ⟨"", "", by decide +kernel, by decide +kernel, fun _ => rfl, fun _ => rfl, ?_, by simp⟩
        simp [h7, h6, Spec.V4.loginFields]
      | some l =>
        rw [hc] at h7 h6
        simp only [decide_eq_true_eq] at h7 h6
        obtain ⟨hf1, hf2⟩ := hf.2.2 l hc
        have hne := hm l hc
        refine ⟨l.username, l.password, hf1, hf2, ?_, ?_, ?_, ?_⟩
        · intro hn; exact Classical.byContradiction fun h => hn (h7.1 h)
        · intro hn; exact Classical.byContradiction fun h => hn (h6.1 h)
        · simp only [Spec.V4.loginFields, ← h7, ← h6, ite_not]
        · rw [if_neg (by rintro ⟨h1, h2⟩; rcases hne with h | h <;> contradiction)]
  | ConnAck c =>
    refine ⟨by simp [typeNum, byte1], UInt8.ofNat (flag c.session_present 1), [], by simp [body, Spec.u8], ?_⟩
    cases c.session_present <;> decide
  | Publish p => exact ⟨rfl, rfl, hf, hm⟩
  | PubAck p => exact ⟨by simp [typeNum, byte1], [], by simp [body]⟩
  | PubRec p => exact ⟨by simp [typeNum, byte1], [], by simp [body]⟩
  | PubRel p => exact ⟨by simp [typeNum, byte1], [], by simp [body]⟩
  | PubComp p => exact ⟨by simp [typeNum, byte1], [], by simp [body]⟩
  | Subscribe s => exact ⟨by simp [typeNum, byte1], _, rfl, filters_denote s.filters hf, hm⟩
  | SubAck s => exact ⟨by simp [typeNum, byte1], rfl, hm⟩
  | Unsubscribe u => exact ⟨by simp [typeNum, byte1], rfl, hf⟩
  | UnsubAck u => exact ⟨by simp [typeNum, byte1], rfl⟩
  | PingReq => simp [Denotes, typeNum, byte1]
  | PingResp => simp [Denotes, typeNum, byte1]
  | Disconnect => simp [Denotes, typeNum, byte1]

theorem denoted_filters {bd : Bytes} {l : List SubscribeFilter} (h : FiltersDenote bd l) :
    (∀ f ∈ l, fits (utf8 f.path).length) ∧
    bd.length = (l.flatMap fun f => str f.path ++ Spec.u8 (Spec.V4.qosNum f.qos)).length := by
  induction h with
  | nil => simp
  | cons path q opt bd fs hp ho h ih =>
    refine ⟨?_, ?_⟩
    · intro f hf
      rcases List.mem_cons.1 hf with rfl | hf
      · exact hp
      · exact ih.1 f hf
    · simp only [List.flatMap_cons, List.length_append, ih.2, u8_len, List.length_cons,
        List.length_nil]

/-- a denoted packet has fields that fit, is meaningful, and its own body is not longer -/
theorem denotes_wf {b1 : UInt8} {bd : Bytes} {p : Packet} (h : Denotes b1 bd p) :
    FieldsFit p ∧ Meaningful p ∧ (body p).length ≤ bd.length := by
  cases p with
  | Connect c =>
    obtain ⟨_, f, wb, lb, junk, rfl, hid, _, hw, hl⟩ := h
    have hw' : (∀ w, c.last_will = some w → fits (utf8 w.topic).length ∧ fits w.message.length) ∧
        wb = Spec.V4.willFields c.last_will := by
      cases hc : c.last_will with
      | none => rw [hc] at hw; exact ⟨by simp, hw.2.2.2.2⟩
      | some w =>
        rw [hc] at hw
        obtain ⟨_, _, _, h1, h2, rfl⟩ := hw
        refine ⟨?_, rfl⟩
        intro w' hw'; cases hw'; exact ⟨h1, h2⟩
    obtain ⟨u, p, hu, hp, _, _, rfl, hl⟩ := hl
    refine ⟨⟨hid, hw'.1, ?_⟩, ?_, ?_⟩
    · intro l hc
      rw [hc] at hl
      split at hl
      · simp at hl
      · cases hl; exact ⟨hu, hp⟩
    · intro l hc
      rw [hc] at hl
      split at hl
      · simp at hl
      · rename_i hne
        cases hl
        exact Classical.byContradiction fun h => hne (by simpa [not_or] using h)
    · unfold body
      rw [hw'.2]
      simp only [List.length_append, mqtt_len, u8_len, u16_len, List.length_cons, List.length_nil]
      have : (Spec.V4.loginFields c.login).length ≤
          (if bit f 7 then str u else []).length + (if bit f 6 then str p else []).length := by
        rw [hl]
        split
        · simp [Spec.V4.loginFields]
        · simp only [Spec.V4.loginFields, List.length_append]
          refine Nat.add_le_add ?_ ?_
          · by_cases h1 : u = ""
            · simp [h1]
            · rw [if_neg h1, if_pos (Classical.byContradiction fun h => h1 (by simp_all))]
              exact Nat.le_refl _
          · by_cases h1 : p = ""
            · simp [h1]
            · rw [if_neg h1, if_pos (Classical.byContradiction fun h => h1 (by simp_all))]
              exact Nat.le_refl _
      omega
  | ConnAck c =>
    obtain ⟨_, f, junk, rfl, _⟩ := h
    exact ⟨trivial, trivial, by simp [body, Spec.u8]⟩
  | Publish p => obtain ⟨_, rfl, h1, h2⟩ := h; exact ⟨h1, h2, Nat.le_refl _⟩
  | PubAck p => obtain ⟨_, j, rfl⟩ := h; exact ⟨trivial, trivial, by simp [body]⟩
  | PubRec p => obtain ⟨_, j, rfl⟩ := h; exact ⟨trivial, trivial, by simp [body]⟩
  | PubRel p => obtain ⟨_, j, rfl⟩ := h; exact ⟨trivial, trivial, by simp [body]⟩
  | PubComp p => obtain ⟨_, j, rfl⟩ := h; exact ⟨trivial, trivial, by simp [body]⟩
  | Subscribe s =>
    obtain ⟨_, fs, rfl, hf, hne⟩ := h
    refine ⟨(denoted_filters hf).1, hne, ?_⟩
    simp only [body, List.length_append, (denoted_filters hf).2]
    exact Nat.le_refl _
  | SubAck s => obtain ⟨_, rfl, h1⟩ := h; exact ⟨trivial, h1, Nat.le_refl _⟩
  | Unsubscribe u => obtain ⟨_, rfl, h1⟩ := h; exact ⟨h1, trivial, Nat.le_refl _⟩
  | UnsubAck u => obtain ⟨_, rfl⟩ := h; exact ⟨trivial, trivial, Nat.le_refl _⟩
  | PingReq => exact ⟨trivial, trivial, by simp [body]⟩
  | PingResp => exact ⟨trivial, trivial, by simp [body]⟩
  | Disconnect => exact ⟨trivial, trivial, by simp [body]⟩

/-- reading the encoding of a well-formed packet -/
theorem read_encode (p : Packet) (h : WF p) (max : Nat) (hm : (body p).length ≤ max) (rest : Bytes) :
    V4.read max (encode p ++ rest) = (.ok p, rest) := by
  rw [read_ok_iff]
  exact ⟨UInt8.ofNat (byte1 p), vbi (body p).length, body p, by simp [encode, frame, Spec.u8],
    vbi_isVbi h.2.2, vbiValue_vbi h.2.2, hm, wf_denotes p h⟩

/-- writing a well-formed packet other than CONNECT -/
theorem write_encode (p : Packet) (h : WF p) (hc : ∀ c, p ≠ .Connect c) (s : Bytes) :
    p.write s = (.ok (encode p).length, s ++ encode p) := by
  obtain ⟨hf, hm, hl⟩ := h
  cases p with
  | Connect c => exact absurd rfl (hc c)
  | ConnAck c => exact ConnAck.write_run c s
  | Publish p => exact Publish.write_run p hf (fun h1 h2 => h1 (hm.2 h2)) hl s
  | PubAck p => exact PubAck.write_run p s
  | PubRec p => exact PubRec.write_run p s
  | PubRel p => exact PubRel.write_run p s
  | PubComp p => exact PubComp.write_run p s
  | Subscribe p => exact Subscribe.write_run p hf hl s
  | SubAck p => exact SubAck.write_run p hl s
  | Unsubscribe p => exact Unsubscribe.write_run p hf hl s
  | UnsubAck p => exact UnsubAck.write_run p s
  | PingReq => exact PingReq.write_run s
  | PingResp => exact PingResp.write_run s
  | Disconnect => exact Disconnect.write_run s

/-- writing a well-formed packet to an empty buffer -/
theorem write_empty (p : Packet) (h : WF p) : ∃ n, p.write [] = (.ok n, encode p) := by
  by_cases hc : ∃ c, p = .Connect c
  · obtain ⟨c, rfl⟩ := hc
    exact ⟨_, Connect.write_empty c h.2.2⟩
  · exact ⟨_, by simpa using write_encode p h (fun c e => hc ⟨c, e⟩) []⟩

end Mqtt.V4
