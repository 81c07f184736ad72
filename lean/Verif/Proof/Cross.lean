import Verif.Proof.V4Spec
import Verif.Proof.V4Errors
import Verif.Proof.V5Connect4
/-! Packets of one protocol version given to the decoder of the other. -/
set_option linter.unusedSimpArgs false
namespace Mqtt
open Spec
open Spec.V4 (typeNum bit level)

/-- an encoded frame is one frame only -/
theorem frame_det {n : Nat} {bd rest b s' : Bytes} {b1 : UInt8} {bs : Bytes} (hl : bd.length ≤ maxRemaining)
    (hv : IsVbi bs) (hb : vbiValue bs = b.length) (e : frame n bd ++ rest = b1 :: (bs ++ (b ++ s'))) :
    b1 = UInt8.ofNat n ∧ b = bd ∧ s' = rest := by
  simp only [frame, Spec.u8, List.cons_append, List.nil_append, List.append_assoc, List.cons.injEq] at e
  obtain ⟨h1, h2⟩ := e
  obtain ⟨h4, h3⟩ := V5.vbi_prefix_det (vbi_isVbi hl) hv h2
  subst h4
  rw [vbiValue_vbi hl] at hb
  obtain ⟨h5, h6⟩ := List.append_inj h3 hb
  exact ⟨h1.symm, h5.symm, h6.symm⟩

theorem v4_frame_denotes {n : Nat} {bd rest s' : Bytes} {max : Nat} {p : V4.Packet} (hl : bd.length ≤ maxRemaining)
    (h : V4.read max (frame n bd ++ rest) = (.ok p, s')) :
    Spec.V4.Denotes (UInt8.ofNat n) bd p ∧ s' = rest := by
  obtain ⟨b1, bs, b, e, hv, hb, _, hd⟩ := (V4.read_ok_iff max _ s' p).1 h
  obtain ⟨rfl, rfl, rfl⟩ := frame_det hl hv hb e
  exact ⟨hd, rfl⟩

theorem v5_frame_denotes {n : Nat} {bd rest s' : Bytes} {max : Nat} {p : V5.Packet} (hl : bd.length ≤ maxRemaining)
    (h : V5.read max (frame n bd ++ rest) = (.ok p, s')) :
    Spec.V5.Denotes (UInt8.ofNat n) bd p ∧ s' = rest := by
  obtain ⟨b1, bs, b, e, hv, hb, _, hd⟩ := (V5.read_ok_iff max _ s' p).1 h
  obtain ⟨rfl, rfl, rfl⟩ := frame_det hl hv hb e
  exact ⟨hd, rfl⟩

theorem v4_frame_read {n : Nat} {bd : Bytes} (rest : Bytes) {max : Nat} {p : V4.Packet} (hl : bd.length ≤ maxRemaining)
    (hm : bd.length ≤ max) (h : Spec.V4.Denotes (UInt8.ofNat n) bd p) :
    V4.read max (frame n bd ++ rest) = (.ok p, rest) :=
  (V4.read_ok_iff max _ rest p).2 ⟨_, vbi bd.length, bd, by simp [frame, Spec.u8], vbi_isVbi hl, vbiValue_vbi hl, hm, h⟩

theorem v5_frame_read {n : Nat} {bd : Bytes} (rest : Bytes) {max : Nat} {p : V5.Packet} (hl : bd.length ≤ maxRemaining)
    (hm : bd.length ≤ max) (h : Spec.V5.Denotes (UInt8.ofNat n) bd p) :
    V5.read max (frame n bd ++ rest) = (.ok p, rest) :=
  (V5.read_ok_iff max _ rest p).2 ⟨_, vbi bd.length, bd, by simp [frame, Spec.u8], vbi_isVbi hl, vbiValue_vbi hl, hm, h⟩

theorem level_inj {p q : Protocol} (h : UInt8.ofNat (level p) = UInt8.ofNat (level q)) : p = q := by
  cases p <;> cases q <;> simp_all [level] <;> exact absurd h (by decide)

theorem v4_clean_bit (c : V4.Connect) : c.clean_session = true ↔ bit (UInt8.ofNat (Spec.V4.connectFlags c)) 1 := by
  obtain ⟨pr, ka, id, cs, w, l⟩ := c
  have key : ∀ cs u p : Bool, ∀ w : Option (QoS × Bool), cs = true ↔ bit (UInt8.ofNat ((flag u 128 + flag p 64)
      + (match w with | some (q, r) => flag r 32 + 8 * Spec.V4.qosNum q + 4 | none => 0) + flag cs 2)) 1 :=
    fun cs u p w => (V4.flags_bits cs w u p).1
  cases l <;> cases w
  · exact key cs false false none
  · rename_i w; exact key cs false false (some (w.qos, w.retain))
  · rename_i l; exact key cs (l.username ≠ "") (l.password ≠ "") none
  · rename_i l w; exact key cs (l.username ≠ "") (l.password ≠ "") (some (w.qos, w.retain))

theorem v5_clean_bit (c : V5.Connect) : c.clean_session = true ↔ bit (UInt8.ofNat (Spec.V5.connectFlags c)) 1 := by
  obtain ⟨pr, ka, id, cs, w, l, ps⟩ := c
  have key : ∀ cs u p : Bool, ∀ w : Option (QoS × Bool), cs = true ↔ bit (UInt8.ofNat ((flag u 128 + flag p 64)
      + (match w with | some (q, r) => flag r 32 + 8 * Spec.V4.qosNum q + 4 | none => 0) + flag cs 2)) 1 :=
    fun cs u p w => (V4.flags_bits cs w u p).1
  cases l <;> cases w
  · exact key cs false false none
  · rename_i w; exact key cs false false (some (w.qos, w.retain))
  · rename_i l; exact key cs (l.username ≠ "") (l.password ≠ "") none
  · rename_i l w; exact key cs (l.username ≠ "") (l.password ≠ "") (some (w.qos, w.retain))

theorem v4_type1 {b1 : UInt8} {bd : Bytes} {p : V4.Packet} (ht : typeNum b1 = 1) (h : Spec.V4.Denotes b1 bd p) :
    ∃ d, p = .Connect d := by
  cases p with
  | Connect d => exact ⟨d, rfl⟩
  | Publish p =>
    obtain ⟨rfl, _⟩ := h
    revert ht
    obtain ⟨d, q, r, _, _, _⟩ := p
    cases d <;> cases q <;> cases r <;> simp [typeNum, Spec.V4.byte1, flag, Spec.V4.qosNum]
  | _ => simp [Spec.V4.Denotes, ht] at h

theorem v5_type1 {b1 : UInt8} {bd : Bytes} {p : V5.Packet} (ht : typeNum b1 = 1) (h : Spec.V5.Denotes b1 bd p) :
    ∃ d, p = .Connect d := by
  cases p with
  | Connect d => exact ⟨d, rfl⟩
  | Publish p =>
    obtain ⟨rfl, _⟩ := h
    revert ht
    obtain ⟨d, q, r, _, _, _⟩ := p
    cases d <;> cases q <;> cases r <;> simp [typeNum, Spec.V5.byte1, flag, Spec.V4.qosNum]
  | Disconnect d =>
    obtain ⟨rfl, _⟩ := h
    simp [typeNum, Spec.V5.byte1] at ht
  | _ => simp [Spec.V5.Denotes, Spec.V5.DenotesBy, ht] at h

theorem connect_prefix {l l' : Nat} {f f' : UInt8} {k k' : UInt16} {t t' : Bytes}
    (e : str "MQTT" ++ u8 l ++ [f] ++ u16 k.toNat ++ t = str "MQTT" ++ u8 l' ++ [f'] ++ u16 k'.toNat ++ t') :
    UInt8.ofNat l = UInt8.ofNat l' ∧ f = f' ∧ k = k' ∧ t = t' := by
  simp only [List.append_assoc] at e
  have e := List.append_cancel_left e
  simp only [Spec.u8, List.cons_append, List.nil_append, List.cons.injEq] at e
  obtain ⟨h1, h2, h3⟩ := e
  obtain ⟨h4, h5⟩ := u16_append_inj k.toNat_lt k'.toNat_lt h3
  exact ⟨h1, h2, UInt16.toNat_inj.1 h4, h5⟩

/-- a v5 CONNECT seen by the v4 decoder -/
theorem v4_sees_v5_connect (c : V5.Connect) {q : V4.Packet}
    (h : Spec.V4.Denotes (UInt8.ofNat 0x10) (Spec.V5.body (.Connect c)) q) :
    ∃ d, q = .Connect d ∧ d.protocol = c.protocol ∧ d.keep_alive = c.keep_alive
      ∧ d.clean_session = c.clean_session := by
  obtain ⟨d, rfl⟩ := v4_type1 (by decide) h
  obtain ⟨_, f, wb, lb, junk, hb, _, hcl, _, _⟩ := h
  simp only [Spec.V5.body, List.append_assoc] at hb
  have hb' : str "MQTT" ++ Spec.u8 (level c.protocol) ++ [UInt8.ofNat (Spec.V5.connectFlags c)] ++ u16 c.keep_alive.toNat
        ++ (Spec.V5.optSec Spec.V5.connectProps c.properties ++ (str c.client_id ++
          (Spec.V5.willFields c.last_will ++ Spec.V5.loginFields c.login)))
      = str "MQTT" ++ Spec.u8 (level d.protocol) ++ [f] ++ u16 d.keep_alive.toNat
        ++ (str d.client_id ++ (wb ++ (lb ++ junk))) := by
    simpa [List.append_assoc, Spec.u8] using hb
  obtain ⟨h1, rfl, h3, _⟩ := connect_prefix hb'
  refine ⟨d, rfl, (level_inj h1).symm, h3.symm, ?_⟩
  have := (v5_clean_bit c).trans hcl.symm
  exact (Bool.eq_iff_iff.2 this).symm

/-- a v4 CONNECT seen by the v5 decoder -/
theorem v5_sees_v4_connect (c : V4.Connect) (h4 : c.protocol = .V4) (hid : fits (utf8 c.client_id).length) {q : V5.Packet}
    (h : Spec.V5.Denotes (UInt8.ofNat 0x10) (Spec.V4.body (.Connect c)) q) :
    ∃ d, q = .Connect d ∧ d.protocol = c.protocol ∧ d.keep_alive = c.keep_alive
      ∧ d.clean_session = c.clean_session ∧ d.client_id = c.client_id ∧ d.properties = none := by
  obtain ⟨d, rfl⟩ := v5_type1 (by decide) h
  obtain ⟨_, f, pb, wb, lb, junk, hb, hp, hid', hcl, _, _⟩ := h
  have hb' : str "MQTT" ++ Spec.u8 (level c.protocol) ++ [UInt8.ofNat (Spec.V4.connectFlags c)] ++ u16 c.keep_alive.toNat
        ++ (str c.client_id ++ (Spec.V4.willFields c.last_will ++ Spec.V4.loginFields c.login))
      = str "MQTT" ++ Spec.u8 (level d.protocol) ++ [f] ++ u16 d.keep_alive.toNat
        ++ (pb ++ (str d.client_id ++ (wb ++ (lb ++ junk)))) := by
    simpa [List.append_assoc, Spec.u8, Spec.V4.body] using hb
  obtain ⟨h1, rfl, h3, ht⟩ := connect_prefix hb'
  have hpr := level_inj h1
  rw [← hpr, h4] at hp
  obtain ⟨rfl, hnp⟩ := hp
  obtain ⟨hs, _⟩ := V4.str_append_inj hid hid' ht
  refine ⟨d, rfl, hpr.symm, h3.symm, ?_, hs.symm, hnp⟩
  have := (v4_clean_bit c).trans hcl.symm
  exact (Bool.eq_iff_iff.2 this).symm

/-- without a will it is read exactly -/
theorem v5_reads_v4_connect (c : V4.Connect) (h4 : c.protocol = .V4) (hw : Spec.V4.WF (.Connect c))
    (hn : c.last_will = none) :
    Spec.V5.Denotes (UInt8.ofNat 0x10) (Spec.V4.body (.Connect c))
      (.Connect ⟨c.protocol, c.keep_alive, c.client_id, c.clean_session, none,
        c.login.map fun l => ⟨l.username, l.password⟩, none⟩) := by
  obtain ⟨_, f, wb, lb, junk, hb, hid, hcl, hwd, u, p, h1, h2, h3, h4', h5, h6⟩ := V4.wf_denotes _ hw
  rw [hn] at hwd
  refine ⟨by decide, f, [], wb, lb, junk, by simpa using hb, ?_, hid, hcl, hwd, u, p, h1, h2, h3, h4', h5, ?_⟩
  · simp only [h4]; simp
  · rw [h6]; split <;> simp

/-- a v5 CONNECT without properties, will and login, client id shorter than 256 bytes: the v4 decoder
takes it for one with an empty client id -/
theorem v4_misreads_v5_connect (c : V5.Connect) (hp : c.properties = none) (hw : c.last_will = none) (hl : c.login = none)
    (hid : (utf8 c.client_id).length < 256) :
    Spec.V4.Denotes (UInt8.ofNat 0x10) (Spec.V5.body (.Connect c))
      (.Connect ⟨c.protocol, c.keep_alive, "", c.clean_session, none, none⟩) := by
  have e1 : Spec.V5.connectFlags c = flag c.clean_session 2 := by simp [Spec.V5.connectFlags, hw, hl]
  have e2 : u16 (utf8 c.client_id).length = [0, UInt8.ofNat (utf8 c.client_id).length] := by
    simp only [Spec.u16]
    rw [Nat.div_eq_of_lt hid, Nat.mod_eq_of_lt hid]; rfl
  refine ⟨by decide, UInt8.ofNat (Spec.V5.connectFlags c), [], [], UInt8.ofNat (utf8 c.client_id).length :: utf8 c.client_id,
    ?_, by show fits (utf8 "").length; decide +kernel, v5_clean_bit c, ?_, ⟨"", "", by decide +kernel, by decide +kernel, fun _ => rfl, fun _ => rfl, ?_, by simp⟩⟩
  · have e3 : str "" = [0, 0] := by decide +kernel
    have e4 : Spec.V5.optSec Spec.V5.connectProps none = [0] := rfl
    simp only [Spec.V5.body, hp, hw, hl, Spec.V5.willFields, Spec.V5.loginFields, e3, e4, str, bin, e2, Spec.u8]
    rw [show u16 (utf8 "").length = [0, 0] by decide +kernel, show utf8 "" = [] by decide +kernel]
    simp
  · show Spec.V4.WillDenotes _ [] none
    rw [e1]; cases c.clean_session <;> exact ⟨by decide, by decide, by decide, by decide, rfl⟩
  · rw [e1]; cases c.clean_session <;> decide
end Mqtt
