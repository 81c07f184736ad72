import Verif.Spec.Strict
import Verif.Proof.Grow
import Verif.Proof.Cross
import Verif.Props.Skim
import Verif.Props.V4Read
/-! C126: when reading and writing again gives the same bytes (3.1.1). -/
set_option linter.unusedSimpArgs false
namespace Props
open Mqtt Mqtt.V4 Spec Spec.V4

theorem vbi_same {bs cs : Bytes} (hb : IsVbi bs) (hc : IsVbi cs) (hv : vbiValue bs = vbiValue cs)
    (hl : bs.length = cs.length) : bs = cs := by
  induction bs generalizing cs with
  | nil => exact absurd rfl (isVbi_ne_nil hb)
  | cons a as ih =>
    cases cs with
    | nil => simp at hl
    | cons b bs =>
      simp only [vbiValue] at hv
      cases as with
      | nil =>
        cases bs with
        | nil =>
          have h1 := (isVbi_singleton a).1 hb
          have h2 := (isVbi_singleton b).1 hc
          simp only [vbiValue] at hv
          have : a = b := UInt8.toNat_inj.1 (by omega)
          rw [this]
        | cons => simp at hl
      | cons x xs =>
        cases bs with
        | nil => simp at hl
        | cons y ys =>
          obtain ⟨_, h1, h2⟩ := (isVbi_cons a x xs).1 hb
          obtain ⟨_, h3, h4⟩ := (isVbi_cons b y ys).1 hc
          have h5 := a.toNat_lt
          have h6 := b.toNat_lt
          have : a = b := UInt8.toNat_inj.1 (by omega)
          rw [this, ih h2 h4 (by omega) (by simpa using hl)]

theorem shortest_iff {bs : Bytes} (hb : IsVbi bs) : Shortest bs ↔ bs = vbi (vbiValue bs) := by
  have hle := vbiValue_le hb
  constructor
  · intro h
    have h1 := h _ (vbi_isVbi hle) (vbiValue_vbi hle)
    have h2 := vbi_minimal hb rfl
    exact vbi_same hb (vbi_isVbi hle) (vbiValue_vbi hle).symm (by omega)
  · intro h cs hc hv
    have := vbi_minimal hc hv
    rw [h]; omega

theorem lowBits_iff {b1 : UInt8} {bd : Bytes} {p : Packet} (h : Denotes b1 bd p) :
    b1 = UInt8.ofNat (byte1 p) ↔ LowBitsOk b1 := by
  have key : ∀ t l : Nat, t < 16 → l < 16 → typeNum b1 = t → (t ≠ 3) →
      (l = if t = 6 ∨ t = 8 ∨ t = 10 then 2 else 0) → (b1 = UInt8.ofNat (t * 16 + l) ↔ LowBitsOk b1) := by
    intro t l ht hl h1 h3 h2
    unfold LowBitsOk
    rw [h1, ← h2, ← UInt8.toNat_inj, UInt8.toNat_ofNat']
    unfold typeNum at h1
    have := b1.toNat_lt
    rw [Nat.mod_eq_of_lt (by omega)]
    constructor
    · intro h; right; omega
    · rintro (h | h)
      · exact absurd h h3
      · omega
  cases p with
  | Publish q =>
    refine ⟨fun _ => .inl ?_, fun _ => h.1⟩
    rw [h.1]
    simp only [byte1, typeNum]
    cases q.dup <;> cases q.qos <;> cases q.retain <;> decide
  | Connect c => exact key 1 0 (by decide) (by decide) h.1 (by decide) rfl
  | ConnAck c => exact key 2 0 (by decide) (by decide) h.1 (by decide) rfl
  | PubAck c => exact key 4 0 (by decide) (by decide) h.1 (by decide) rfl
  | PubRec c => exact key 5 0 (by decide) (by decide) h.1 (by decide) rfl
  | PubRel c => exact key 6 2 (by decide) (by decide) h.1 (by decide) rfl
  | PubComp c => exact key 7 0 (by decide) (by decide) h.1 (by decide) rfl
  | Subscribe c => exact key 8 2 (by decide) (by decide) h.1 (by decide) rfl
  | SubAck c => exact key 9 0 (by decide) (by decide) h.1 (by decide) rfl
  | Unsubscribe c => exact key 10 2 (by decide) (by decide) h.1 (by decide) rfl
  | UnsubAck c => exact key 11 0 (by decide) (by decide) h.1 (by decide) rfl
  | PingReq => exact key 12 0 (by decide) (by decide) h (by decide) rfl
  | PingResp => exact key 13 0 (by decide) (by decide) h (by decide) rfl
  | Disconnect => exact key 14 0 (by decide) (by decide) h (by decide) rfl

theorem options_iff {bd : Bytes} {fs : List SubscribeFilter} (h : FiltersDenote bd fs) :
    bd = (fs.flatMap fun f => str f.path ++ Spec.u8 (qosNum f.qos)) ↔ PlainOptions bd fs := by
  induction h with
  | nil => exact ⟨fun _ => .nil, fun _ => rfl⟩
  | cons path q opt bd fs hp ho h ih =>
    have hq : qosNum q < 3 := by cases q <;> decide
    simp only [List.flatMap_cons]
    constructor
    · intro e
      simp only [List.append_assoc] at e
      have e := List.append_cancel_left e
      simp only [Spec.u8, List.cons_append, List.nil_append, List.cons.injEq] at e
      refine .cons path q opt bd fs ?_ (ih.1 e.2)
      rw [e.1, UInt8.toNat_ofNat']; omega
    · intro hpl
      generalize hx : str path ++ [opt] ++ bd = x at hpl
      cases hpl with
      | cons _ _ opt' bd' _ ho' h' =>
        simp only [List.append_assoc] at hx
        have hx := List.append_cancel_left hx
        simp only [List.cons_append, List.nil_append, List.cons.injEq] at hx
        obtain ⟨rfl, rfl⟩ := hx
        have : opt = UInt8.ofNat (qosNum q) := by
          rw [← UInt8.toNat_inj, UInt8.toNat_ofNat']; omega
        rw [← ih.2 h', this]; simp [Spec.u8]

theorem str_len (s : String) : (str s).length = 2 + (utf8 s).length := by simp [str, bin, Spec.u16]; omega

theorem text_len (s : String) : (if s = "" then [] else str s).length = textLen s := by
  unfold textLen; split <;> simp [str_len]

theorem loginFields_len (l : Option Login) : (loginFields l).length = loginLen l := by
  cases l with
  | none => rfl
  | some l => simp only [loginFields, loginLen, List.length_append, text_len]

theorem login_strict {flags : UInt8} {bd : Bytes} {l : Option Login} (h : LoginDenotes flags bd l)
    (hl : bd.length ≤ (loginFields l).length) : bd = loginFields l ∧
      (bit flags 7 ↔ ∃ x, l = some x ∧ x.username ≠ "") ∧ (bit flags 6 ↔ ∃ x, l = some x ∧ x.password ≠ "") := by
  obtain ⟨u, p, h1, h2, h3, h4, rfl, rfl⟩ := h
  have pos := fun s => str_len s
  by_cases b7 : bit flags 7 <;> by_cases b6 : bit flags 6 <;> by_cases hu : u = "" <;> by_cases hp : p = "" <;>
    simp_all [loginFields] <;> omega

theorem connect_flags {flags : UInt8} {wb : Bytes} {c : Connect} (h0 : ¬ bit flags 0) (hc : c.clean_session = true ↔ bit flags 1)
    (hw : WillDenotes flags wb c.last_will)
    (h7 : bit flags 7 ↔ ∃ x, c.login = some x ∧ x.username ≠ "") (h6 : bit flags 6 ↔ ∃ x, c.login = some x ∧ x.password ≠ "") :
    flags = UInt8.ofNat (connectFlags c) := by
  have hlt := flags.toNat_lt
  have hcl : flag c.clean_session 2 = flags.toNat / 2 % 2 * 2 := by
    unfold bit at hc; cases hcs : c.clean_session <;> simp only [hcs, flag] at hc ⊢ <;> simp at hc ⊢ <;> omega
  have hlg : (match c.login with
    | some l => flag (l.username ≠ "") 128 + flag (l.password ≠ "") 64
    | none => 0) = flags.toNat / 128 % 2 * 128 + flags.toNat / 64 % 2 * 64 := by
    unfold bit at h7 h6
    cases hl : c.login with
    | none => simp [hl] at h7 h6 ⊢; omega
    | some l =>
      simp only [hl, Option.some.injEq, exists_eq_left'] at h7 h6
      by_cases hu : l.username = "" <;> by_cases hp : l.password = "" <;> simp [hu, hp, flag] at h7 h6 ⊢ <;> omega
  have hwl : (match c.last_will with
    | some w => flag w.retain 32 + 8 * qosNum w.qos + 4
    | none => 0) = flags.toNat / 4 % 2 * 4 + flags.toNat / 8 % 4 * 8 + flags.toNat / 32 % 2 * 32 := by
    cases hl : c.last_will with
    | none =>
      rw [hl] at hw
      obtain ⟨a1, a2, a3, a4, _⟩ := hw
      unfold bit at a1 a2 a3 a4
      simp only; omega
    | some w =>
      rw [hl] at hw
      obtain ⟨a1, a2, a3, _⟩ := hw
      unfold bit at a1 a3
      cases hr : w.retain <;> simp only [hr, flag] at a3 ⊢ <;> simp at a3 ⊢ <;> omega
  rw [← UInt8.toNat_inj, UInt8.toNat_ofNat']
  unfold bit at h0
  unfold connectFlags
  rw [hcl]
  cases hl : c.login <;> cases hw' : c.last_will <;> simp only [hl, hw'] at hlg hwl ⊢ <;> omega

/-- the flags of a CONNECT have bit 0 clear -/
theorem connectFlags_even (c : Connect) : ¬ bit (UInt8.ofNat (connectFlags c)) 0 := by
  unfold bit connectFlags
  rw [UInt8.toNat_ofNat']
  have h1 : ∀ (b : Bool) (n : Nat), n % 2 = 0 → flag b n % 2 = 0 := by intro b n h; cases b <;> simp [flag, h]
  have h2 := h1 c.clean_session 2 rfl
  cases c.login with
  | none =>
    cases c.last_will with
    | none => simp only; omega
    | some w => have := h1 w.retain 32 rfl; simp only; omega
  | some l =>
    have a1 := h1 (l.username ≠ "") 128 rfl
    have a2 := h1 (l.password ≠ "") 64 rfl
    cases c.last_will with
    | none => simp only; omega
    | some w => have := h1 w.retain 32 rfl; simp only; omega

theorem body_iff {b1 : UInt8} {bd : Bytes} {p : Packet} (h : Denotes b1 bd p) : bd = body p ↔ NothingElse bd p := by
  cases p with
  | Connect c =>
    obtain ⟨_, flags, will, login, junk, hb, hid, hcl, hw, hl⟩ := h
    have hmq : (str "MQTT").length = 6 := by decide +kernel
    have hwb : will = willFields c.last_will := by
      cases hc : c.last_will with
      | none => rw [hc] at hw; exact hw.2.2.2.2
      | some w => rw [hc] at hw; exact hw.2.2.2.2.2
    have hwlen : will.length = willLen c.last_will := by
      rw [hwb]
      cases c.last_will with
      | none => rfl
      | some w => simp [willFields, willLen, str_len, bin, Spec.u16]; omega
    have hget : bd[7]? = some flags := by
      rw [hb]; simp [List.getElem?_append, hmq, Spec.u8]
    have hlen : bd.length = 12 + (utf8 c.client_id).length + will.length + login.length + junk.length := by
      rw [hb]; simp only [List.length_append, hmq, str_len, Spec.u8, Spec.u16, List.length_cons, List.length_nil]; omega
    have hle := loginFields_le hl
    show _ ↔ _ ∧ _
    constructor
    · intro e
      have hf : flags = UInt8.ofNat (connectFlags c) := by
        have : bd[7]? = some (UInt8.ofNat (connectFlags c)) := by
          rw [e]; simp [body, List.getElem?_append, hmq, Spec.u8]
        rw [hget] at this; exact Option.some.inj this
      refine ⟨⟨flags, hget, hf ▸ connectFlags_even c⟩, ?_⟩
      have h1 := congrArg List.length e
      simp only [body, List.length_append, hmq, str_len, Spec.u8, Spec.u16, List.length_cons, List.length_nil] at h1
      rw [← loginFields_len, ← hwlen, hwb]; omega
    · rintro ⟨⟨f, hf, h0⟩, h1⟩
      rw [hget] at hf
      obtain rfl := Option.some.inj hf
      rw [← loginFields_len, ← hwlen] at h1
      have hj : junk = [] := List.eq_nil_of_length_eq_zero (by omega)
      obtain ⟨h2, h7, h6⟩ := login_strict hl (by omega)
      have := connect_flags h0 hcl hw h7 h6
      rw [hb, body, hj, h2, hwb, this]
      simp [Spec.u8]
  | ConnAck c =>
    obtain ⟨_, flags, junk, rfl, hs⟩ := h
    have hf : flags.toNat ≤ 1 ↔ flags = UInt8.ofNat (flag c.session_present 1) := by
      have := flags.toNat_lt
      rw [← UInt8.toNat_inj, UInt8.toNat_ofNat']
      unfold bit at hs
      cases hc : c.session_present <;> simp only [hc, flag] at hs ⊢ <;> simp at hs ⊢ <;> omega
    simp only [body, NothingElse, Spec.u8, List.cons_append, List.nil_append, List.length_cons, List.getElem?_cons_zero,
      Option.some.injEq, exists_eq_left', List.cons.injEq, hf]
    cases junk <;> simp
  | PubAck a => obtain ⟨_, junk, rfl⟩ := h; simp [body, NothingElse, Spec.u16]
  | PubRec a => obtain ⟨_, junk, rfl⟩ := h; simp [body, NothingElse, Spec.u16]
  | PubRel a => obtain ⟨_, junk, rfl⟩ := h; simp [body, NothingElse, Spec.u16]
  | PubComp a => obtain ⟨_, junk, rfl⟩ := h; simp [body, NothingElse, Spec.u16]
  | Subscribe s =>
    obtain ⟨_, fs, rfl, hf, _⟩ := h
    simp only [body, NothingElse, List.append_cancel_left_eq]
    rw [options_iff hf]
    simp [Spec.u16]
  | Publish q => exact ⟨fun _ => trivial, fun _ => h.2.1⟩
  | SubAck s => exact ⟨fun _ => trivial, fun _ => h.2.1⟩
  | Unsubscribe s => exact ⟨fun _ => trivial, fun _ => h.2.1⟩
  | UnsubAck s => exact ⟨fun _ => trivial, fun _ => h.2⟩
  | PingReq => exact Iff.rfl
  | PingResp => exact Iff.rfl
  | Disconnect => exact Iff.rfl

/-- C126: a frame read by `v4::read` and the packet written again into an empty buffer: the bytes are the same exactly if
the frame says the packet and nothing else, i.e. has no reserved bit set, the shortest remaining length, no bytes after the
packet and no announced empty user name or password. -/
theorem C126_v4_same_bytes (max : Nat) (f : RawFrame) (hf : f.Valid max) (rest : Bytes) (p : Packet)
    (h : V4.read max (f.bytes ++ rest) = (.ok p, rest)) :
    (∃ n, p.write [] = (.ok n, f.bytes)) ↔ Strict f p := by
  obtain ⟨o, h1, hg, -⟩ := v4_outcome max f hf
  rw [h1] at h
  have ho : o = .ok p := by cases o <;> simp at h; rw [h]
  have hd := (hg p).2 ho
  obtain ⟨h2, h3, h4⟩ := denotes_wf hd
  have hle := vbiValue_le hf.1
  have hfl := hf.2.1
  obtain ⟨n, hn⟩ := write_empty p ⟨h2, h3, by omega⟩
  rw [hn]
  unfold Strict
  rw [← lowBits_iff hd, shortest_iff hf.1, ← body_iff hd]
  have hb := shortest_iff hf.1
  constructor
  · rintro ⟨m, hm⟩
    have e : frame (byte1 p) (body p) ++ [] = f.byte1 :: (f.len ++ (f.body ++ [])) := by
      have := (Prod.mk.inj hm).2
      simpa [encode, RawFrame.bytes] using this
    obtain ⟨e1, e2, -⟩ := frame_det (by omega) hf.1 hf.2.1 e
    refine ⟨e1, ?_, e2⟩
    rw [hfl, e2]
    rw [e1, e2] at e
    simp only [frame, Spec.u8, List.cons_append, List.nil_append, List.append_nil, List.cons.injEq, true_and,
      List.append_cancel_right_eq] at e
    exact e.symm
  · rintro ⟨e1, e2, e3⟩
    refine ⟨n, ?_⟩
    have : encode p = f.bytes := by
      unfold encode frame RawFrame.bytes
      rw [← e3, ← hfl, ← e2, e1]; rfl
    rw [this]

/-- C126: for every packet `v4::read` returns there is exactly one such frame that is read as it, it is what the writer
writes, and no frame read as the packet is shorter. -/
theorem C126_v4_normal_form (max : Nat) (f : RawFrame) (hf : f.Valid max) (rest : Bytes) (p : Packet)
    (h : V4.read max (f.bytes ++ rest) = (.ok p, rest)) :
    ∃ g : RawFrame, g.Valid max ∧ Strict g p ∧ (∃ n, p.write [] = (.ok n, g.bytes)) ∧
      g.bytes.length ≤ f.bytes.length ∧ (∀ rest, V4.read max (g.bytes ++ rest) = (.ok p, rest)) ∧
      ∀ g' rest', g'.Valid max → V4.read max (g'.bytes ++ rest') = (.ok p, rest') → Strict g' p → g'.bytes = g.bytes := by
  obtain ⟨o, h1, hg, -⟩ := v4_outcome max f hf
  have h0 := h
  rw [h1] at h0
  have ho : o = .ok p := by cases o <;> simp at h0; rw [h0]
  have hd := (hg p).2 ho
  obtain ⟨h2, h3, h4⟩ := denotes_wf hd
  have hle := vbiValue_le hf.1
  have hfl := hf.2.1
  have hfm := hf.2.2
  have hwf : WF p := ⟨h2, h3, by omega⟩
  obtain ⟨n, hn⟩ := write_empty p hwf
  have hr := fun rest => read_encode p hwf max (by omega) rest
  have he : encode p = (⟨UInt8.ofNat (byte1 p), vbi (body p).length, body p⟩ : RawFrame).bytes := by
    simp [encode, frame, RawFrame.bytes, Spec.u8]
  have hv : (⟨UInt8.ofNat (byte1 p), vbi (body p).length, body p⟩ : RawFrame).Valid max :=
    ⟨vbi_isVbi (by omega), vbiValue_vbi (by omega), by show (body p).length ≤ max; omega⟩
  rw [he] at hr
  have hw : ∃ n, p.write [] = (.ok n, (⟨UInt8.ofNat (byte1 p), vbi (body p).length, body p⟩ : RawFrame).bytes) :=
    ⟨n, by rw [hn, he]⟩
  refine ⟨_, hv, (C126_v4_same_bytes max _ hv [] p (hr [])).1 hw, hw, ?_, hr, fun g' rest' h5 h6 h7 => ?_⟩
  · have h8 := vbi_minimal hf.1 rfl
    have h9 := V5.vbi_length_mono h4
    rw [hfl] at h8
    simp only [RawFrame.bytes, List.length_cons, List.length_append]; omega
  · obtain ⟨m, hm⟩ := (C126_v4_same_bytes max g' h5 rest' p h6).2 h7
    obtain ⟨k, hk⟩ := hw
    rw [hm] at hk
    exact (Prod.mk.inj hk).2

/-- a PUBACK as the standard wants it: read and written again it is the same -/
example : Strict ⟨0x40, [2], [0, 7]⟩ (.PubAck ⟨7⟩) :=
  (C126_v4_same_bytes 9 ⟨0x40, [2], [0, 7]⟩ ⟨(isVbi_singleton 2).2 (by decide), rfl, by decide⟩ [] _ (by decide +kernel)).1
    ⟨4, by decide +kernel⟩
/-- low bits, a long remaining length and a byte too many: read as the same packet, but not strict -/
example : V4.read 9 [0x4f, 0x83, 0, 0, 7, 9] = (.ok (.PubAck ⟨7⟩), []) ∧
    ¬ Strict ⟨0x4f, [0x83, 0], [0, 7, 9]⟩ (.PubAck ⟨7⟩) := by
  have h : V4.read 9 [0x4f, 0x83, 0, 0, 7, 9] = (.ok (.PubAck ⟨7⟩), []) := by decide +kernel
  refine ⟨h, fun hs => ?_⟩
  obtain ⟨n, hn⟩ := (C126_v4_same_bytes 9 ⟨0x4f, [0x83, 0], [0, 7, 9]⟩
    ⟨(isVbi_cons _ _ _).2 ⟨by simp, by decide, (isVbi_singleton 0).2 (by decide)⟩, rfl, by decide⟩ [] _ h).2 hs
  have : ((Packet.PubAck ⟨7⟩).write []).2 = [0x4f, 0x83, 0, 0, 7, 9] := by rw [hn]; rfl
  revert this; decide +kernel
/-- a CONNECT that announces an empty user name is not what is written again -/
example : V4.read 99 [0x10, 15, 0, 4, 77, 81, 84, 84, 4, 0x82, 0, 9, 0, 1, 65, 0, 0] =
      (.ok (.Connect ⟨.V4, 9, "A", true, none, none⟩), []) ∧
    ¬ Strict ⟨0x10, [15], [0, 4, 77, 81, 84, 84, 4, 0x82, 0, 9, 0, 1, 65, 0, 0]⟩ (.Connect ⟨.V4, 9, "A", true, none, none⟩) := by
  refine ⟨by decide +kernel, fun h => ?_⟩
  exact absurd h.2.2.2 (by decide +kernel)

end Props
