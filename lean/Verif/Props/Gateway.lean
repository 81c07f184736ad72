import Verif.Spec.Gateway
import Verif.Proof.V4Spec
import Verif.Proof.V5Spec
import Verif.Props.Cross2
import Verif.Props.Grow
/-! C128: a gateway between MQTT 5.0 and MQTT 3.1.1. -/
set_option linter.unusedSimpArgs false
set_option maxRecDepth 4000
namespace Props
open Mqtt Spec Spec.Gateway

theorem filters_len (l : List V5.SubscribeFilter) :
    ((l.map fun f => (⟨f.path, f.qos⟩ : V4.SubscribeFilter)).flatMap fun f => str f.path ++ Spec.u8 (Spec.V4.qosNum f.qos)).length
      = (l.flatMap fun f => str f.path ++ Spec.u8 (Spec.V5.subOptions f)).length := by
  induction l with
  | nil => rfl
  | cons f l ih => simp only [List.map_cons, List.flatMap_cons, List.length_append, ih, u8_len]

theorem codes_len {α : Type} (f : α → Nat) (l : List α) : (l.flatMap fun c => Spec.u8 (f c)).length = l.length := by
  induction l with
  | nil => rfl
  | cons a l ih => simp only [List.flatMap_cons, List.length_append, ih, u8_len, List.length_cons]; omega

theorem login_same (l : Option V5.Login) :
    Spec.V4.loginFields (l.map fun l => ⟨l.username, l.password⟩) = Spec.V5.loginFields l := by
  cases l <;> rfl

/-- the 3.1.1 packet for a packet in a body of the decoder's grammar fits, and is not longer -/
theorem down_wf {b1 : UInt8} {bd : Bytes} {p : V5.Packet} (h : Spec.V5.Denotes b1 bd p) (q : V4.Packet) (hs : Same p q)
    (hq : ∀ k, q ≠ .Subscribe ⟨k, []⟩) :
    Spec.V4.FieldsFit q ∧ Spec.V4.Meaningful q ∧ (Spec.V4.body q).length ≤ bd.length := by
  obtain ⟨hf, hm, -⟩ := V5.denotes_wf h
  cases p <;> cases q <;> try exact hs.elim
  case Connect.Connect a b =>
    obtain ⟨h1, h2, h3, h4, h5⟩ := hs
    obtain ⟨hf1, -, hf3, hf4⟩ := hf
    obtain ⟨-, -, hm3⟩ := hm
    obtain ⟨_, f, pb, wb, lb, junk, rfl, hp, hid, _, hw, hl⟩ := h
    refine ⟨⟨by rw [← h2]; exact hf1, ?_, ?_⟩, ?_, ?_⟩
    · intro w hw
      rw [h4] at hw
      cases hc : a.last_will with
      | none => rw [hc] at hw; cases hw
      | some v => rw [hc] at hw; cases hw; exact ⟨(hf3 v hc).1, (hf3 v hc).2.1⟩
    · intro w hw
      rw [h5] at hw
      cases hc : a.login with
      | none => rw [hc] at hw; cases hw
      | some v => rw [hc] at hw; cases hw; exact hf4 v hc
    · intro w hw
      rw [h5] at hw
      cases hc : a.login with
      | none => rw [hc] at hw; cases hw
      | some v => rw [hc] at hw; cases hw; exact hm3 v hc
    · have e1 : (Spec.V4.loginFields b.login).length ≤ lb.length := by
        rw [h5, login_same]
        obtain ⟨u, p, _, _, _, _, rfl, hl⟩ := hl
        rw [hl]
        split
        · simp [Spec.V5.loginFields]
        · simp only [Spec.V5.loginFields, List.length_append]
          refine Nat.add_le_add ?_ ?_
          · by_cases h1 : u = ""
            · simp [h1]
            · rw [if_neg h1, if_pos (Classical.byContradiction fun h => h1 (by simp_all))]
          · by_cases h1 : p = ""
            · simp [h1]
            · rw [if_neg h1, if_pos (Classical.byContradiction fun h => h1 (by simp_all))]
      have e2 : (Spec.V4.willFields b.last_will).length ≤ wb.length := by
        rw [h4]
        cases hc : a.last_will with
        | none => simp [Spec.V4.willFields]
        | some w =>
          rw [hc] at hw
          obtain ⟨_, _, _, _, _, ps, rfl, _⟩ := hw
          simp only [Option.map_some, Spec.V4.willFields, List.length_append]; omega
      simp only [Spec.V4.body, List.length_append, u8_len, u16_len, List.length_cons, List.length_nil, ← h2]
      omega
  case ConnAck.ConnAck a b =>
    obtain ⟨_, f, ps, junk, rfl, _, _⟩ := h
    exact ⟨trivial, trivial, by simp only [Spec.V4.body, List.length_append, u8_len, List.length_cons, List.length_nil]; omega⟩
  case Publish.Publish a b =>
    obtain ⟨h1, h2, h3, h4, h5, h6⟩ := hs
    obtain ⟨_, ps, rfl, _, _, _⟩ := h
    refine ⟨by simpa only [Spec.V4.FieldsFit, ← h4] using hf.1, by simpa only [Spec.V4.Meaningful, ← h2, ← h5] using hm.2, ?_⟩
    simp only [Spec.V4.body, ← h2, ← h4, ← h5, ← h6, List.length_append]
    omega
  case PubAck.PubAck a b => exact ⟨trivial, trivial, ack _ a h.2⟩
  case PubRec.PubRec a b => exact ⟨trivial, trivial, ack _ a h.2⟩
  case PubRel.PubRel a b => exact ⟨trivial, trivial, ack _ a h.2⟩
  case PubComp.PubComp a b => exact ⟨trivial, trivial, ack _ a h.2⟩
  case Subscribe.Subscribe a b =>
    obtain ⟨h1, h2⟩ := hs
    obtain ⟨_, ps, fs, rfl, _, hfs⟩ := h
    refine ⟨?_, ?_, ?_⟩
    · intro f hf'
      rw [h2] at hf'
      obtain ⟨g, hg, rfl⟩ := List.mem_map.1 hf'
      exact hf.2 g hg
    · intro h0
      obtain ⟨k, fs⟩ := b
      exact hq k (by simp only at h0; rw [h0])
    · simp only [Spec.V4.body, List.length_append, h2, filters_len, (V5.denoted_filters hfs).2, u16_len]
      omega
  case SubAck.SubAck a b =>
    obtain ⟨h1, h2⟩ := hs
    obtain ⟨_, ps, rfl, _, hne⟩ := h
    refine ⟨trivial, ?_, ?_⟩
    · intro h0; rw [h2] at h0; exact hne (List.map_eq_nil_iff.1 h0)
    · simp only [Spec.V4.body, List.length_append, h2, codes_len, u16_len, List.length_map]
      omega
  case Unsubscribe.Unsubscribe a b =>
    obtain ⟨h1, h2⟩ := hs
    obtain ⟨_, ps, rfl, _, _⟩ := h
    refine ⟨by simpa only [Spec.V4.FieldsFit, ← h2] using hf.2, trivial, ?_⟩
    simp only [Spec.V4.body, List.length_append, ← h2, u16_len]
    omega
  case UnsubAck.UnsubAck a b =>
    obtain ⟨_, ps, rfl, _, _⟩ := h
    exact ⟨trivial, trivial, by simp only [Spec.V4.body, List.length_append, u16_len]; omega⟩
  all_goals exact ⟨trivial, trivial, Nat.zero_le _⟩
where
  ack {R : Type} (code : R → Nat) {bd : Bytes} (a : V5.Ack R) (h : Spec.V5.AckDenotes code bd a) {k : UInt16} :
      (Spec.u16 k.toNat).length ≤ bd.length := by
    rcases h with ⟨rfl, _, _⟩ | ⟨rfl, _⟩ | ⟨ps, junk, rfl, _⟩ <;> simp only [List.length_append, u16_len] <;> omega

/-- C128: what `v5::read` returns has a 3.1.1 counterpart. That counterpart can be written, is never longer than the frame it
came from, and `v4::read` reads it back as it is; except a SUBSCRIBE without filters. -/
theorem C128_down (max : Nat) (s rest : Bytes) (p : V5.Packet) (h : V5.read max s = (.ok p, rest)) :
    (∃ q, Same p q) ∧ ∀ q, Same p q → (∀ k, q ≠ .Subscribe ⟨k, []⟩) →
      ∃ n bytes, q.write [] = (.ok n, bytes) ∧ bytes.length + rest.length ≤ s.length ∧
        ∀ more, V4.read max (bytes ++ more) = (.ok q, more) := by
  obtain ⟨b1, bs, bd, rfl, hv, hl, hmax, hd⟩ := (V5.read_ok_iff max s rest p).1 h
  refine ⟨?_, ?_⟩
  · cases p with
    | Connect c => exact ⟨.Connect ⟨.V4, _, _, _, _, _⟩, rfl, rfl, rfl, rfl, rfl⟩
    | ConnAck c => exact ⟨.ConnAck ⟨_, if c.code = .Success then .Success else .NotAuthorized⟩, rfl, by split <;> simp [*]⟩
    | Publish p => exact ⟨.Publish ⟨_, _, _, _, _, _⟩, rfl, rfl, rfl, rfl, rfl, rfl⟩
    | PubAck a => exact ⟨.PubAck ⟨_⟩, rfl⟩
    | PubRec a => exact ⟨.PubRec ⟨_⟩, rfl⟩
    | PubRel a => exact ⟨.PubRel ⟨_⟩, rfl⟩
    | PubComp a => exact ⟨.PubComp ⟨_⟩, rfl⟩
    | Subscribe a => exact ⟨.Subscribe ⟨_, _⟩, rfl, rfl⟩
    | SubAck a => exact ⟨.SubAck ⟨_, _⟩, rfl, rfl⟩
    | Unsubscribe a => exact ⟨.Unsubscribe ⟨_, _⟩, rfl, rfl⟩
    | UnsubAck a => exact ⟨.UnsubAck ⟨_⟩, rfl⟩
    | PingReq => exact ⟨.PingReq, trivial⟩
    | PingResp => exact ⟨.PingResp, trivial⟩
    | Disconnect d => exact ⟨.Disconnect, trivial⟩
  · intro q hs hq
    obtain ⟨h1, h2, h3⟩ := down_wf hd q hs hq
    have hlt : vbiValue bs ≤ maxRemaining := vbiValue_le hv
    have hwf : Spec.V4.WF q := ⟨h1, h2, by omega⟩
    obtain ⟨n, hn⟩ := V4.write_empty q hwf
    refine ⟨n, _, hn, ?_, fun more => V4.read_encode q hwf max (by omega) more⟩
    have h4 : (vbi (Spec.V4.body q).length).length ≤ bs.length :=
      Nat.le_trans (Mqtt.V5.vbi_length_mono h3) (vbi_minimal hv hl)
    simp only [Spec.V4.encode, frame, List.length_append, List.length_cons, u8_len]
    omega

theorem optSec_none {π : Type} (props : π → List Spec.V5.Property) : Spec.V5.optSec props none = [0] := rfl

theorem fit_none {π : Type} (props : π → List Spec.V5.Property) {o : Option π} (h : o = none) :
    Spec.V5.PropsFit props o ∧ Spec.V5.NonEmpty props o := by
  subst h; exact ⟨(by intro p hp; cases hp), (by intro p hp; cases hp)⟩

theorem fit_one {π : Type} (props : π → List Spec.V5.Property) {o : Option π} {p : π} (h : o = some p)
    (hp : props p = [⟨31, .str ""⟩]) : Spec.V5.PropsFit props o ∧ Spec.V5.NonEmpty props o := by
  subst h
  refine ⟨?_, ?_⟩
  · intro p' h' q hq
    cases h'
    rw [hp] at hq
    rw [List.mem_singleton.1 hq]
    show fits _
    decide
  · intro p' h' h0
    cases h'
    rw [hp] at h0
    cases h0

/-- a plain 5.0 packet for a well-formed 3.1.1 packet is well-formed but for its size, read back, and `extra` bytes longer -/
theorem up_wf {q : V4.Packet} (hf : Spec.V4.FieldsFit q) (hm : Spec.V4.Meaningful q) (p : V5.Packet) (hs : Same p q)
    (hb : Plain p) : Spec.V5.FieldsFit p ∧ Spec.V5.Meaningful p ∧ Spec.V5.ReadsBack p ∧
      (Spec.V5.body p).length = (Spec.V4.body q).length + extra p := by
  cases p <;> cases q <;> try exact hs.elim
  case Connect.Connect a b =>
    obtain ⟨h1, h2, h3, h4, h5⟩ := hs
    obtain ⟨b1, b2, b3⟩ := hb
    obtain ⟨hf1, hf2, hf3⟩ := hf
    refine ⟨⟨by rw [h2]; exact hf1, (fit_none _ b2).1, ?_, ?_⟩, ⟨(fit_none _ b2).2, ?_, ?_⟩, .inl b1, ?_⟩
    · intro w hw
      obtain ⟨g1, g2⟩ := hf2 _ (by rw [h4, hw]; rfl)
      exact ⟨g1, g2, (fit_none _ (b3 w hw)).1⟩
    · intro l hl
      exact hf3 _ (by rw [h5, hl]; rfl)
    · intro w hw; exact (fit_none _ (b3 w hw)).2
    · intro l hl
      exact hm _ (by rw [h5, hl]; rfl)
    · have e1 := login_same a.login
      have e2 : (Spec.V5.willFields a.last_will).length + 1
          = (Spec.V4.willFields b.last_will).length + extra (.Connect a) := by
        rw [h4]
        cases hc : a.last_will with
        | none => simp [Spec.V4.willFields, Spec.V5.willFields, extra, hc]
        | some w =>
          simp only [Option.map_some, Spec.V4.willFields, Spec.V5.willFields, extra, hc, b3 w hc, optSec_none,
            List.length_append, List.length_cons, List.length_nil, Option.isSome_some, if_pos]
          omega
      simp only [Spec.V4.body, Spec.V5.body, List.length_append, u8_len, u16_len, h5, e1, b2, optSec_none, ← h2,
        List.length_cons, List.length_nil]
      omega
  case ConnAck.ConnAck a b =>
    obtain ⟨r, h1, h2⟩ := hb
    refine ⟨(fit_one _ h1 h2).1, (fit_one _ h1 h2).2, by simp [Spec.V5.ReadsBack, h1], ?_⟩
    simp only [Spec.V4.body, Spec.V5.body, h1, Spec.V5.optSec, h2, List.length_append, u8_len]
    rfl
  case Publish.Publish a b =>
    obtain ⟨h1, h2, h3, h4, h5, h6⟩ := hs
    refine ⟨⟨by rw [h4]; exact hf, (fit_none _ hb).1⟩, ⟨(fit_none _ hb).2, by rw [h2, h5]; exact hm⟩, ?_, ?_⟩
    · intro r hr; rw [hb] at hr; cases hr
    · simp only [Plain] at hb
      simp only [Spec.V4.body, Spec.V5.body, ← h2, ← h4, ← h5, ← h6, hb, optSec_none, List.length_append, extra,
        List.length_cons, List.length_nil]
      omega
  case PubAck.PubAck a b => exact ack _ a hb
  case PubRec.PubRec a b => exact ack _ a hb
  case PubRel.PubRel a b => exact ack _ a hb
  case PubComp.PubComp a b => exact ack _ a hb
  case Subscribe.Subscribe a b =>
    obtain ⟨h1, h2⟩ := hs
    refine ⟨⟨(fit_none _ hb).1, ?_⟩, (fit_none _ hb).2, trivial, ?_⟩
    · intro f hf'
      exact hf ⟨f.path, f.qos⟩ (by rw [h2]; exact List.mem_map.2 ⟨f, hf', rfl⟩)
    · simp only [Plain] at hb
      simp only [Spec.V4.body, Spec.V5.body, List.length_append, h2, filters_len, u16_len, hb, optSec_none, extra,
        List.length_cons, List.length_nil]
      omega
  case SubAck.SubAck a b =>
    obtain ⟨h1, h2⟩ := hs
    refine ⟨(fit_none _ hb).1, ⟨(fit_none _ hb).2, ?_⟩, trivial, ?_⟩
    · intro h0; exact hm (by rw [h2, h0]; rfl)
    · simp only [Plain] at hb
      simp only [Spec.V4.body, Spec.V5.body, List.length_append, h2, codes_len, u16_len, hb, optSec_none, extra,
        List.length_cons, List.length_nil, List.length_map]
      omega
  case Unsubscribe.Unsubscribe a b =>
    obtain ⟨h1, h2⟩ := hs
    refine ⟨⟨(fit_none _ hb).1, by rw [h2]; exact hf⟩, (fit_none _ hb).2, trivial, ?_⟩
    simp only [Plain] at hb
    simp only [Spec.V4.body, Spec.V5.body, List.length_append, ← h2, u16_len, hb, optSec_none, extra,
      List.length_cons, List.length_nil]
    omega
  case UnsubAck.UnsubAck a b =>
    obtain ⟨hb, hne⟩ := hb
    refine ⟨(fit_none _ hb).1, ⟨(fit_none _ hb).2, hne⟩, trivial, ?_⟩
    simp only [Spec.V4.body, Spec.V5.body, List.length_append, u16_len, hb, optSec_none, extra, codes_len,
      List.length_cons, List.length_nil]
    omega
  case PingReq.PingReq => exact ⟨trivial, trivial, trivial, rfl⟩
  case PingResp.PingResp => exact ⟨trivial, trivial, trivial, rfl⟩
  case Disconnect.Disconnect a =>
    obtain ⟨r, h1, h2⟩ := hb
    refine ⟨(fit_one _ h1 h2).1, (fit_one _ h1 h2).2, by simp [Spec.V5.ReadsBack, h1], ?_⟩
    simp only [Spec.V4.body, Spec.V5.body, h1, h2, List.length_append, u8_len]
    rfl
where
  ack {R : Type} (code : R → Nat) (a : V5.Ack R) (hb : a.properties = none) {k : UInt16} :
      Spec.V5.PropsFit Spec.V5.reasonProps a.properties ∧ Spec.V5.NonEmpty Spec.V5.reasonProps a.properties ∧ True ∧
        (Spec.V5.ackBody code a).length = (Spec.u16 k.toNat).length + if code a.reason = 0 then 0 else 1 := by
    refine ⟨(fit_none _ hb).1, (fit_none _ hb).2, trivial, ?_⟩
    simp only [Spec.V5.ackBody, hb, List.length_append, u16_len]
    split
    · rfl
    · simp only [u8_len]

/-- C128: what `v4::read` returns has a plain 5.0 counterpart. Every such counterpart, unless it becomes too long for a frame,
can be written, and `v5::read` reads it back as it is. -/
theorem C128_up (max : Nat) (s rest : Bytes) (q : V4.Packet) (h : V4.read max s = (.ok q, rest)) :
    (∃ p, Same p q ∧ Plain p) ∧
      ∀ p, Same p q → Plain p → s.length + extra p ≤ rest.length + (2 + 268435455) →
        ∃ n bytes, p.write [] = (.ok n, bytes) ∧ bytes.length + rest.length ≤ s.length + extra p + 3 ∧
          ∀ max', max + extra p ≤ max' → ∀ more, V5.read max' (bytes ++ more) = (.ok p, more) := by
  obtain ⟨b1, bs, bd, rfl, hv, hl, hmax, hd⟩ := (V4.read_ok_iff max s rest q).1 h
  obtain ⟨hf, hm, h1⟩ := V4.denotes_wf hd
  refine ⟨?_, ?_⟩
  · cases q with
    | Connect c =>
      refine ⟨.Connect ⟨.V5, c.keep_alive, c.client_id, c.clean_session,
        c.last_will.map (fun w => ⟨w.topic, w.message, w.qos, w.retain, none⟩),
        c.login.map (fun l => ⟨l.username, l.password⟩), none⟩, ⟨rfl, rfl, rfl, ?_, ?_⟩, rfl, rfl, ?_⟩
      · cases c.last_will <;> rfl
      · cases c.login <;> rfl
      · intro w hw
        simp only at hw
        cases hc : c.last_will with
        | none => rw [hc] at hw; cases hw
        | some v => rw [hc] at hw; cases hw; rfl
    | ConnAck c =>
      exact ⟨.ConnAck ⟨_, if c.code = .Success then .Success else .NotAuthorized,
        some { (V5.ConnAckProperties.new) with reason_string := some "" }⟩, ⟨rfl, by split <;> simp [*]⟩, _, rfl, by decide +kernel⟩
    | Publish p => exact ⟨.Publish ⟨_, _, _, _, _, none, _⟩, ⟨rfl, rfl, rfl, rfl, rfl, rfl⟩, rfl⟩
    | PubAck a => exact ⟨.PubAck ⟨_, .Success, none⟩, rfl, rfl⟩
    | PubRec a => exact ⟨.PubRec ⟨_, .Success, none⟩, rfl, rfl⟩
    | PubRel a => exact ⟨.PubRel ⟨_, .Success, none⟩, rfl, rfl⟩
    | PubComp a => exact ⟨.PubComp ⟨_, .Success, none⟩, rfl, rfl⟩
    | Subscribe a =>
      refine ⟨.Subscribe ⟨_, a.filters.map fun f => V5.SubscribeFilter.new f.path f.qos, none⟩, ⟨rfl, ?_⟩, rfl⟩
      simp only [List.map_map]
      exact (List.map_id _).symm.trans (List.map_congr_left fun f _ => rfl)
    | SubAck a =>
      refine ⟨.SubAck ⟨_, a.return_codes.map fun c => match c with
        | .Success .AtMostOnce => .QoS0 | .Success .AtLeastOnce => .QoS1 | .Success .ExactlyOnce => .QoS2
        | .Failure => .Unspecified, none⟩, ⟨rfl, ?_⟩, rfl⟩
      simp only [List.map_map]
      refine (List.map_id _).symm.trans (List.map_congr_left fun c _ => ?_)
      cases c with
      | Success q => cases q <;> rfl
      | Failure => rfl
    | Unsubscribe a => exact ⟨.Unsubscribe ⟨_, _, none⟩, ⟨rfl, rfl⟩, rfl⟩
    | UnsubAck a => exact ⟨.UnsubAck ⟨_, [.Success], none⟩, rfl, rfl, by simp⟩
    | PingReq => exact ⟨.PingReq, trivial, trivial⟩
    | PingResp => exact ⟨.PingResp, trivial, trivial⟩
    | Disconnect =>
      exact ⟨.Disconnect ⟨.NormalDisconnection, some ⟨none, some "", [], none⟩⟩, trivial, _, rfl, by decide +kernel⟩
  · intro p hs hb hx
    obtain ⟨g1, g2, g3, g4⟩ := up_wf hf hm p hs hb
    have hbs : 1 ≤ bs.length := by
      have := vbi_minimal hv rfl
      have := Mqtt.V5.vbi_length_mono (Nat.zero_le (vbiValue bs))
      have e : (vbi 0).length = 1 := by decide
      omega
    simp only [List.length_cons, List.length_append] at hx
    have hwf : Spec.V5.WF p := ⟨g1, g2, by unfold maxRemaining; omega⟩
    obtain ⟨n, hn⟩ := V5.write_empty p hwf (by rintro c rfl; exact g3)
    refine ⟨n, _, hn, ?_, fun max' hx' more => V5.read_encode p hwf g3 max' (by omega) more⟩
    have h4 : (vbi (Spec.V5.body p).length).length ≤ 4 := vbi_length_le _
    simp only [Spec.V5.encode, frame, List.length_append, List.length_cons, u8_len]
    omega

/-- C128: nothing of the 3.1.1 packet is left open by the 5.0 packet but the protocol level of CONNECT and the code of refusal,
so that a packet that comes back to 3.1.1 is the one that left -/
theorem C128_there_and_back (p : V5.Packet) (q q' : V4.Packet) (h : Same p q) (h' : Same p q') :
    q = q' ∨ (∃ c l, q = .Connect c ∧ q' = .Connect { c with protocol := l }) ∨
      (∃ c r, q = .ConnAck c ∧ q' = .ConnAck { c with code := r } ∧ (c.code = .Success ↔ r = .Success)) := by
  cases p <;> cases q <;> (try exact h.elim) <;> cases q' <;> try exact h'.elim
  case Connect.Connect.Connect a b c =>
    obtain ⟨h1, h2, h3, h4, h5⟩ := h
    obtain ⟨g1, g2, g3, g4, g5⟩ := h'
    obtain ⟨b1, b2, b3, b4, b5, b6⟩ := b
    obtain ⟨c1, c2, c3, c4, c5, c6⟩ := c
    simp only at *
    subst h1 h2 h3 h4 h5 g4 g5
    exact .inr (.inl ⟨_, c1, rfl, by rw [g1, g2, g3]⟩)
  case ConnAck.ConnAck.ConnAck a b c =>
    obtain ⟨h1, h2⟩ := h
    obtain ⟨g1, g2⟩ := h'
    obtain ⟨b1, b2⟩ := b
    obtain ⟨c1, c2⟩ := c
    simp only at *
    subst h1 g1
    exact .inr (.inr ⟨_, c2, rfl, rfl, h2.symm.trans g2⟩)
  all_goals
    refine .inl ?_
    first
    | rfl
    | (rename_i a b c; cases b; cases c; simp_all [Same])

/-- a PUBLISH with a topic alias, on its way down -/
example : ∃ n bytes, (V4.Packet.Publish ⟨false, .AtLeastOnce, false, "a", 7, [9]⟩).write [] = (.ok n, bytes) ∧
    bytes.length + 0 ≤ 12 ∧
    ∀ more, V4.read 99 (bytes ++ more) = (.ok (.Publish ⟨false, .AtLeastOnce, false, "a", 7, [9]⟩), more) :=
  (C128_down 99 [0x32, 10, 0, 1, 97, 0, 7, 3, 0x23, 0, 1, 9] []
    (.Publish ⟨false, .AtLeastOnce, false, "a", 7, some ⟨none, none, some 1, none, none, [], [], none⟩, [9]⟩)
    (by decide +kernel)).2 _ ⟨rfl, rfl, rfl, rfl, rfl, rfl⟩ (by intro k hk; cases hk)

/-- a 3.1.1 SUBACK on its way up -/
example : ∃ n bytes, (V5.Packet.SubAck ⟨7, [.QoS1, .NotAuthorized], none⟩).write [] = (.ok n, bytes) ∧
    bytes.length + 0 ≤ 6 + 1 + 3 ∧ ∀ max', 99 + 1 ≤ max' → ∀ more, V5.read max' (bytes ++ more) = (.ok (.SubAck ⟨7, [.QoS1, .NotAuthorized], none⟩), more) :=
  (C128_up 99 [0x90, 4, 0, 7, 1, 128] [] (.SubAck ⟨7, [.Success .AtLeastOnce, .Failure]⟩) (by decide +kernel)).2 _
    ⟨rfl, rfl⟩ rfl (by decide)

/-- the exception on the way down is one: this SUBSCRIBE without filters is read as 5.0, written as 3.1.1, and not read -/
example : V5.read 99 [0x82, 3, 0, 7, 0] = (.ok (.Subscribe ⟨7, [], none⟩), []) ∧
    (V4.Packet.Subscribe ⟨7, []⟩).write [] = (.ok 4, [0x82, 2, 0, 7]) ∧
    V4.read 99 [0x82, 2, 0, 7] = (.err .EmptySubscription, []) := by decide +kernel

end Props
