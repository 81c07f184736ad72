import Verif.Props.Skim
import Verif.Props.WriteExact
import Verif.Props.V4Write
import Verif.Proof.V4Spec
import Verif.Proof.V5Spec
import Verif.Props.V5Sections
import Verif.Props.V5Read
import Verif.Props.V4Read
import Verif.Proof.V5Connect4
/-! C92: whatever was written successfully, well-formed or not, is a frame: the reader stays in step. -/
namespace Props
open Mqtt Spec

theorem list_choose {α β : Type} {R : α → β → Prop} (l : List α) (h : ∀ a ∈ l, ∃ b, R a b) :
    ∃ m, List.Forall₂ R l m := by
  induction l with
  | nil => exact ⟨[], .nil⟩
  | cons a l ih =>
    obtain ⟨b, hb⟩ := h a (by simp)
    obtain ⟨m, hm⟩ := ih fun x hx => h x (by simp [hx])
    exact ⟨b :: m, .cons hb hm⟩

theorem forall₂_trans {α β γ : Type} {R : α → β → Prop} {S : β → γ → Prop} {T : α → γ → Prop}
    (h : ∀ a b c, R a b → S b c → T a c) {l : List α} {m : List β} {n : List γ}
    (h1 : List.Forall₂ R l m) (h2 : List.Forall₂ S m n) : List.Forall₂ T l n := by
  induction h1 generalizing n with
  | nil => cases h2; exact .nil
  | cons hab _ ih =>
    cases h2 with
    | cons hbc t => exact .cons (h _ _ _ hab hbc) (ih t)

/-- what a successful `write` leaves in an empty buffer: one frame with a minimal remaining length -/
theorem v4_written_key (p : V4.Packet) (n : Nat) (h : (p.write []).1 = .ok n) :
    p.write [] = Spec.V4.written p ∧ (Spec.V4.body p).length ≤ maxRemaining ∧ (Spec.V4.written p).2 = Spec.V4.encode p := by
  have hw : p.write [] = Spec.V4.written p := by
    by_cases hc : ∃ c, p = .Connect c
    · obtain ⟨c, rfl⟩ := hc; exact C91_v4_connect_exact c
    · rw [C91_v4_write_exact p (fun c h => hc ⟨c, h⟩)]; simp
  rw [hw] at h
  refine ⟨hw, ?_⟩
  unfold Spec.V4.written at h ⊢
  split at h
  · cases h
  · rename_i hl
    rw [if_neg hl]
    cases p with
    | Publish q =>
      by_cases hq : Spec.V4.pkidMissing (.Publish q) = true
      · simp only [hq, if_true] at h; cases h
      · simp only [hq]
        rw [V4.announced_eq _ (by simpa using hq)] at hl
        exact ⟨by omega, rfl⟩
    | _ =>
      rw [V4.announced_eq _ rfl] at hl
      exact ⟨by omega, rfl⟩

theorem v4_written_frame (p : V4.Packet) (n : Nat) (h : (p.write []).1 = .ok n) :
    ∃ f : RawFrame, f.Valid 268435455 ∧ (p.write []).2 = f.bytes ∧
      (Spec.V4.WF p ↔ Spec.V4.Denotes f.byte1 f.body p) := by
  obtain ⟨hw, key⟩ := v4_written_key p n h
  rw [hw]
  refine ⟨⟨UInt8.ofNat (Spec.V4.byte1 p), vbi (Spec.V4.body p).length, Spec.V4.body p⟩,
    ⟨vbi_isVbi key.1, vbiValue_vbi key.1, key.1⟩, ?_, fun hwf => V4.wf_denotes p hwf, fun hd => ⟨(V4.denotes_wf hd).1, (V4.denotes_wf hd).2.1, key.1⟩⟩
  rw [key.2]
  simp [Spec.V4.encode, frame, RawFrame.bytes, Spec.u8]

/-- what a successful `write` leaves in an empty buffer: one frame with a minimal remaining length -/
theorem v5_written_key (p : V5.Packet) (n : Nat) (h : (p.write []).1 = .ok n) :
    p.write [] = Spec.V5.written p ∧ (Spec.V5.wireBody p).length ≤ maxRemaining ∧
      (Spec.V5.written p).2 = frame (Spec.V5.byte1 p) (Spec.V5.wireBody p) := by
  have hw : p.write [] = Spec.V5.written p := by
    by_cases hc : ∃ c, p = .Connect c
    · obtain ⟨c, rfl⟩ := hc; exact C91_v5_connect_exact c
    · rw [C91_v5_write_exact p (fun c h => hc ⟨c, h⟩)]; simp
  rw [hw] at h
  refine ⟨hw, ?_⟩
  unfold Spec.V5.written at h ⊢
  split at h
  · cases h
  · rename_i hl
    rw [if_neg hl]
    cases p with
    | Publish q =>
      by_cases hq : Spec.V5.pkidMissing (.Publish q) = true
      · simp only [hq, if_true] at h; cases h
      · simp only [hq] at h ⊢
        rw [V5.announced_eq _ (by simpa using hq)] at hl
        refine ⟨by omega, ?_⟩
        simp only [Bool.false_eq_true, if_false] at h ⊢
        split at h
        · cases h
        · rename_i ht; rfl
    | Subscribe q =>
      rw [V5.announced_eq _ rfl] at hl
      refine ⟨by omega, ?_⟩
      dsimp only at h ⊢
      split at h
      · cases h
      · rename_i ht; rfl
    | _ =>
      rw [V5.announced_eq _ rfl] at hl
      exact ⟨by omega, rfl⟩

theorem v5_written_frame (p : V5.Packet) (n : Nat) (h : (p.write []).1 = .ok n) :
    ∃ f : RawFrame, f.Valid 268435455 ∧ (p.write []).2 = f.bytes ∧
      (Spec.V5.WF p ∧ Spec.V5.ReadsBack p ↔ Spec.V5.Denotes f.byte1 f.body p) := by
  obtain ⟨hw, key⟩ := v5_written_key p n h
  rw [hw]
  refine ⟨⟨UInt8.ofNat (Spec.V5.byte1 p), vbi (Spec.V5.wireBody p).length, Spec.V5.wireBody p⟩,
    ⟨vbi_isVbi key.1, vbiValue_vbi key.1, key.1⟩, ?_, fun ⟨hwf, hrb⟩ => ?_, fun hd => ?_⟩
  · rw [key.2]
    simp [frame, RawFrame.bytes, Spec.u8]
  · have : Spec.V5.wireBody p = Spec.V5.body p := by
      cases p with
      | ConnAck c =>
        cases hp : c.properties with
        | none => exact absurd hp hrb
        | some ps => simp [Spec.V5.wireBody, Spec.V5.body, hp, Spec.V5.optSec]
      | Disconnect d =>
        cases hp : d.properties with
        | none => exact absurd hp hrb
        | some ps =>
          have hm := hwf.2.1
          simp only [Spec.V5.Meaningful, hp] at hm
          simp [Spec.V5.wireBody, Spec.V5.body, hp, hm ps rfl]
      | _ => rfl
    show Spec.V5.Denotes _ (Spec.V5.wireBody p) p
    rw [this]
    exact V5.wf_denotes p hwf hrb
  · have hd : Spec.V5.Denotes (UInt8.ofNat (Spec.V5.byte1 p)) (Spec.V5.wireBody p) p := hd
    obtain ⟨h1, h2, -⟩ := V5.denotes_wf hd
    have hb : (Spec.V5.body p).length ≤ maxRemaining := by
      cases p with
      | ConnAck c =>
        cases hp : c.properties with
        | none => simp [Spec.V5.body, hp, Spec.V5.optSec, Spec.V5.sec, Spec.V5.encAll, u8_len, vbi, maxRemaining]
        | some ps =>
          have := key.1
          simp only [Spec.V5.wireBody, hp] at this
          simpa [Spec.V5.body, hp, Spec.V5.optSec] using this
      | Disconnect d =>
        cases hp : d.properties with
        | none =>
          have := key.1
          simp only [Spec.V5.wireBody, hp] at this
          simpa [Spec.V5.body, hp] using this
        | some ps =>
          simp only [Spec.V5.Meaningful, hp] at h2
          have := key.1
          simp only [Spec.V5.wireBody, hp, if_neg (h2 ps rfl)] at this
          simpa [Spec.V5.body, hp] using this
      | _ => exact key.1
    refine ⟨⟨h1, h2, hb⟩, ?_⟩
    have hr : V5.read maxRemaining (Spec.V5.written p).2 = (.ok p, []) := by
      rw [C60_v5_read_iff]
      refine ⟨UInt8.ofNat (Spec.V5.byte1 p), vbi (Spec.V5.wireBody p).length, Spec.V5.wireBody p, ?_, vbi_isVbi key.1,
        vbiValue_vbi key.1, key.1, hd⟩
      rw [key.2]
      simp [frame, Spec.u8]
    obtain ⟨n', bytes', hw', hi⟩ := C57_v5_reencode_iff _ _ _ p hr hb
    rw [hw] at hw'
    refine (hi maxRemaining [] hb).1 ?_
    have hbb : (Spec.V5.written p).2 = bytes' := by rw [hw']
    rw [← hbb, List.append_nil]
    exact hr

/-- C92 (v4): packets whose write succeeded - also ones with over-long fields - are read as exactly as many outcomes,
nothing is left over, and exactly the well-formed packets among them are read back: a badly encoded packet damages only
itself. -/
theorem C92_v4_in_step (max : Nat) (hm : 268435455 ≤ max) (ps : List V4.Packet)
    (hw : ∀ p ∈ ps, ∃ n, (p.write []).1 = .ok n) :
    ∃ os, (∀ os' r, Skim (V4.read max) (ps.map fun p => (p.write []).2).flatten os' r ↔ os' = os ∧ r = []) ∧
      List.Forall₂ (fun p o => o = .ok p ↔ Spec.V4.WF p) ps os := by
  obtain ⟨fs, hfs⟩ := list_choose (R := fun p (f : RawFrame) => f.Valid 268435455 ∧ (p.write []).2 = f.bytes ∧
    (Spec.V4.WF p ↔ Spec.V4.Denotes f.byte1 f.body p)) ps fun p hp => by
      obtain ⟨n, hn⟩ := hw p hp
      exact v4_written_frame p n hn
  have hb : (ps.map fun p => (p.write []).2) = fs.map RawFrame.bytes := by
    clear hw
    induction hfs with
    | nil => rfl
    | cons h _ ih => simp [h.2.1, ih]
  have hv : ∀ f ∈ fs, f.Valid max := by
    clear hw hb
    induction hfs with
    | nil => simp
    | cons h _ ih =>
      intro f hf
      rcases List.mem_cons.1 hf with rfl | hf
      · exact ⟨h.1.1, h.1.2.1, Nat.le_trans h.1.2.2 hm⟩
      · exact ih f hf
  obtain ⟨os, hos⟩ := list_choose (R := fun (f : RawFrame) o => ∀ o', Outcome Spec.V4.Denotes Spec.V4.Rejects f o' ↔ o' = o)
    fs fun f _ => by
      rcases C61_v4_accept_xor_reject f.byte1 f.body with ⟨⟨p, h1⟩, h2⟩ | ⟨⟨e, h1⟩, h2⟩
      · refine ⟨.ok p, fun o' => ?_⟩
        cases o' with
        | ok q => simp [Outcome, h1]
        | error e => simp [Outcome, h2]
      · refine ⟨.error e, fun o' => ?_⟩
        cases o' with
        | ok q => simp [Outcome, h2]
        | error e => simp [Outcome, h1]
  refine ⟨os, fun os' r => ?_, forall₂_trans (fun p f o h1 h2 => ?_) hfs hos⟩
  · rw [hb, C78_v4_frames_independent max fs hv, and_comm]
    refine and_congr_left fun _ => ?_
    clear hb hv hfs
    induction hos generalizing os' with
    | nil => simp
    | cons h _ ih =>
      cases os' with
      | nil => simp
      | cons o os' => simp [h, ih]
  · rw [h1.2.2, eq_comm]; exact (h2 (.ok p)).symm

/-- C92 (v5): the same; read back are the well-formed packets that are not among the unreadable ones (`ReadsBack`). -/
theorem C92_v5_in_step (max : Nat) (hm : 268435455 ≤ max) (ps : List V5.Packet)
    (hw : ∀ p ∈ ps, ∃ n, (p.write []).1 = .ok n) :
    ∃ os, (∀ os' r, Skim (V5.read max) (ps.map fun p => (p.write []).2).flatten os' r ↔ os' = os ∧ r = []) ∧
      List.Forall₂ (fun p o => o = .ok p ↔ Spec.V5.WF p ∧ Spec.V5.ReadsBack p) ps os := by
  obtain ⟨fs, hfs⟩ := list_choose (R := fun p (f : RawFrame) => f.Valid 268435455 ∧ (p.write []).2 = f.bytes ∧
    (Spec.V5.WF p ∧ Spec.V5.ReadsBack p ↔ Spec.V5.Denotes f.byte1 f.body p)) ps fun p hp => by
      obtain ⟨n, hn⟩ := hw p hp
      exact v5_written_frame p n hn
  have hb : (ps.map fun p => (p.write []).2) = fs.map RawFrame.bytes := by
    clear hw
    induction hfs with
    | nil => rfl
    | cons h _ ih => simp [h.2.1, ih]
  have hv0 : ∀ f ∈ fs, f.Valid 268435455 := by
    clear hw hb
    induction hfs with
    | nil => simp
    | cons h _ ih =>
      intro f hf
      rcases List.mem_cons.1 hf with rfl | hf
      · exact h.1
      · exact ih f hf
  have hv : ∀ f ∈ fs, f.Valid max := fun f hf => ⟨(hv0 f hf).1, (hv0 f hf).2.1, Nat.le_trans (hv0 f hf).2.2 hm⟩
  obtain ⟨os, hos⟩ := list_choose (R := fun (f : RawFrame) o => ∀ o', Outcome Spec.V5.Denotes Spec.V5.Rejects f o' ↔ o' = o)
    fs fun f hf => by
      rcases C62_v5_accept_xor_reject f.byte1 f.body (hv0 f hf).2.2 with ⟨⟨p, h1⟩, h2⟩ | ⟨⟨e, h1⟩, h2⟩
      · refine ⟨.ok p, fun o' => ?_⟩
        cases o' with
        | ok q => simp [Outcome, h1]
        | error e => simp [Outcome, h2]
      · refine ⟨.error e, fun o' => ?_⟩
        cases o' with
        | ok q => simp [Outcome, h2]
        | error e => simp [Outcome, h1]
  refine ⟨os, fun os' r => ?_, forall₂_trans (fun p f o h1 h2 => ?_) hfs hos⟩
  · rw [hb, C78_v5_frames_independent max fs hv, and_comm]
    refine and_congr_left fun _ => ?_
    clear hb hv hfs hv0
    induction hos generalizing os' with
    | nil => simp
    | cons h _ ih =>
      cases os' with
      | nil => simp
      | cons o os' => simp [h, ih]
  · rw [h1.2.2, eq_comm]; exact (h2 (.ok p)).symm

/-- a PUBLISH with a topic of any length, however long, between two other packets -/
example (max : Nat) (hm : 268435455 ≤ max) (q : V4.Publish) (h0 : q.qos = .AtMostOnce)
    (hl : (Spec.V4.body (.Publish q)).length ≤ 268435455) :
    ∃ o, Skim (V4.read max) (([.PubAck ⟨3⟩, .Publish q, .PingReq] : List V4.Packet).map fun p => (p.write []).2).flatten
      [.ok (.PubAck ⟨3⟩), o, .ok .PingReq] [] := by
  obtain ⟨os, h1, h2⟩ := C92_v4_in_step max hm [.PubAck ⟨3⟩, .Publish q, .PingReq] (by
    intro p hp
    obtain ⟨n, s', h⟩ := C50_v4_never_refused p (by
      simp only [List.mem_cons, List.not_mem_nil, or_false] at hp
      rcases hp with rfl | rfl | rfl
      · decide
      · exact hl
      · decide) (by
      simp only [List.mem_cons, List.not_mem_nil, or_false] at hp
      rcases hp with rfl | rfl | rfl
      · simp
      · rintro q' ⟨rfl⟩ h; exact absurd h0 h
      · simp) []
    exact ⟨n, by rw [h]⟩)
  rcases h2 with _ | ⟨a, _ | ⟨b, _ | ⟨c, _ | _⟩⟩⟩
  have ha := a.2 ⟨trivial, trivial, by decide⟩
  have hc := c.2 ⟨trivial, trivial, by decide⟩
  subst ha hc
  exact ⟨_, (h1 _ _).2 ⟨rfl, rfl⟩⟩

/-- C98 (v4): writing a packet and reading it gives the packet back exactly if it is well-formed: if it is, whatever
follows and with every sufficient limit; if it is not, never. -/
theorem C98_v4_survives_iff (p : V4.Packet) :
    (Spec.V4.WF p → ∃ n bytes, p.write [] = (.ok n, bytes) ∧
      ∀ max rest, (Spec.V4.body p).length ≤ max → V4.read max (bytes ++ rest) = (.ok p, rest)) ∧
    (∀ n bytes max rest s', p.write [] = (.ok n, bytes) → V4.read max (bytes ++ rest) = (.ok p, s') → Spec.V4.WF p) := by
  constructor
  · intro h
    obtain ⟨n, hn⟩ := V4.write_empty p h
    exact ⟨n, _, hn, fun max rest hm => V4.read_encode p h max hm rest⟩
  · intro n bytes max rest s' _ hr
    exact (C29_v4_reencode max _ s' p hr).1

/-- C98 (v5): the same, exactly if it is well-formed and not one of the unreadable packets (`ReadsBack`). -/
theorem C98_v5_survives_iff (p : V5.Packet) :
    (Spec.V5.WF p ∧ Spec.V5.ReadsBack p → ∃ n bytes, p.write [] = (.ok n, bytes) ∧
      ∀ max rest, (Spec.V5.body p).length ≤ max → V5.read max (bytes ++ rest) = (.ok p, rest)) ∧
    (∀ n bytes max rest s', p.write [] = (.ok n, bytes) → V5.read max (bytes ++ rest) = (.ok p, s') →
      Spec.V5.WF p ∧ Spec.V5.ReadsBack p) := by
  constructor
  · rintro ⟨h, hb⟩
    by_cases hc : ∃ c, p = .Connect c
    · obtain ⟨c, rfl⟩ := hc
      obtain ⟨n, bytes, hw, hr⟩ := C33_v5_connect_roundtrip c h.1 h.2.1 h.2.2
      exact ⟨n, bytes, hw, fun max rest hm => (hr max rest hm).2 hb⟩
    · obtain ⟨bytes, hw, hr⟩ := v5_roundtrip p h hb (fun c e => hc ⟨c, e⟩) []
      exact ⟨_, bytes, hw, hr⟩
  · intro n bytes max rest s' hw hr
    obtain ⟨f, hv, hb, hi⟩ := v5_written_frame p n (by rw [hw])
    rw [hw] at hb
    simp only at hb
    subst hb
    refine hi.2 ?_
    obtain ⟨b1, bs, bd, e, h1, h2, h3, h4⟩ := (C60_v5_read_iff _ _ _ _).1 hr
    have e' : f.byte1 :: (f.len ++ (f.body ++ rest)) = b1 :: (bs ++ (bd ++ s')) := by
      rw [← e]; simp [RawFrame.bytes]
    simp only [List.cons.injEq] at e'
    obtain ⟨e1, e2⟩ := e'
    obtain ⟨e3, e4⟩ := V5.vbi_prefix_det hv.1 h1 e2
    have e5 : f.body = bd := (List.append_inj e4 (by rw [← hv.2.1, ← h2, e3])).1
    rw [e1, e5]; exact h4

/-- not well-formed: a QoS 0 publish with a packet id, and an empty login, come back changed -/
example : (V4.Packet.Publish ⟨false, .AtMostOnce, false, "a", 7, []⟩).write [] = (.ok 5, [0x30, 3, 0, 1, 97]) ∧
    V4.read 99 [0x30, 3, 0, 1, 97] = (.ok (.Publish ⟨false, .AtMostOnce, false, "a", 0, []⟩), []) := by decide +kernel

theorem encAll_ids_len (l : List Nat) :
    (Spec.V5.encAll (l.map fun n => (⟨11, .vbi n⟩ : Spec.V5.Property))).length = (l.map fun n => 1 + (vbi n).length).sum := by
  induction l with
  | nil => rfl
  | cons n l ih => simp [V5.encAll_cons, ih, Spec.V5.Property.enc, Spec.V5.Val.enc, Spec.u8]; omega

theorem vbis_ids (l : List Nat) : Spec.V5.vbis (l.map fun n => (⟨11, .vbi n⟩ : Spec.V5.Property)) = l.length := by
  induction l with
  | nil => rfl
  | cons n l ih => rw [List.map_cons, V5.vbis_cons, ih]; simp [Spec.V5.Val.kind]; omega

theorem encAll_content_len (o : Option String) :
    (Spec.V5.encAll (Spec.V5.opt 3 .str o)).length = (o.map fun c => 3 + (utf8 c).length).getD 0 := by
  cases o <;> simp [Spec.V5.opt, Spec.V5.encAll, Spec.V5.Property.enc, Spec.V5.Val.enc, Spec.u8, Spec.str, Spec.bin, u16_len]; omega

/-- **C98** The PUBLISH packets that the counting of subscription identifiers spares: wherever the identifiers are cut, there
are fewer of them before the cut than bytes after it (identifiers and content type, which is written last). -/
theorem C98_v5_publish_counted_iff (p : V5.Publish) :
    Spec.V5.ReadsBack (.Publish p) ↔ ∀ q, p.properties = some q → ∀ a b, q.subscription_identifiers = a ++ b →
      b ≠ [] ∨ q.content_type ≠ none →
      a.length < (b.map fun n => 1 + (vbi n).length).sum + (q.content_type.map fun c => 3 + (utf8 c).length).getD 0 := by
  constructor
  · intro h q hq a b hab hne
    have hr := h q hq
    unfold Spec.V5.publishProps at hr
    rw [hab, List.map_append, ← List.append_assoc] at hr
    have := hr _ ((b.map fun n => ⟨11, .vbi n⟩) ++ Spec.V5.opt 3 .str q.content_type) (List.append_assoc _ _ _) (by
      rcases hne with hne | hne
      · simp [hne]
      · cases hc : q.content_type <;> simp_all [Spec.V5.opt])
    rw [V5.vbis_append, vbis_ids, V5.encAll_append, List.length_append, encAll_ids_len, encAll_content_len] at this
    omega
  · intro h q hq
    intro a b hab hb
    unfold Spec.V5.publishProps at hab
    rw [List.append_assoc] at hab
    have hz : Spec.V5.vbis (Spec.V5.opt 1 .u8 q.payload_format_indicator ++ Spec.V5.opt 2 .u32 q.message_expiry_interval
        ++ Spec.V5.opt 35 .u16 q.topic_alias ++ Spec.V5.opt 8 .str q.response_topic ++ Spec.V5.opt 9 .bin q.correlation_data
        ++ Spec.V5.users q.user_properties) = 0 := by
      refine V5.vbis_eq_zero fun x hx => ?_
      simp only [List.mem_append, V5.mem_opt, V5.mem_users] at hx
      rcases hx with ((((hx | hx) | hx) | hx) | hx) | hx <;>
        (obtain ⟨v, hv, rfl⟩ := hx; simp [Spec.V5.Val.kind])
    generalize Spec.V5.opt 1 .u8 q.payload_format_indicator ++ Spec.V5.opt 2 .u32 q.message_expiry_interval
        ++ Spec.V5.opt 35 .u16 q.topic_alias ++ Spec.V5.opt 8 .str q.response_topic ++ Spec.V5.opt 9 .bin q.correlation_data
        ++ Spec.V5.users q.user_properties = pre at hab hz
    rcases List.append_eq_append_iff.1 hab with ⟨c, rfl, hc⟩ | ⟨c, rfl, hc⟩
    · rcases List.append_eq_append_iff.1 hc with ⟨d, hd, he⟩ | ⟨d, hd, he⟩
      · -- the cut is behind the identifiers
        have hd0 : d = [] ∧ q.content_type ≠ none := by
          cases hct : q.content_type with
          | none =>
            rw [hct] at he
            simp [Spec.V5.opt] at he
            exact absurd he.2 hb
          | some x =>
            rw [hct] at he
            refine ⟨?_, by simp⟩
            cases d with
            | nil => rfl
            | cons y d =>
              simp [Spec.V5.opt] at he
              exact absurd he.2.2 hb
        obtain ⟨rfl, hct⟩ := hd0
        have := h q hq q.subscription_identifiers [] (by simp) (.inr hct)
        rw [List.append_nil] at hd
        rw [V5.vbis_append, hz, hd, vbis_ids, ← show _ = b from he, encAll_content_len]
        simpa using this
      · -- within
        obtain ⟨a', b', hab', rfl, rfl⟩ := List.map_eq_append_iff.1 hd
        by_cases hb0 : b' = [] ∧ q.content_type = none
        · obtain ⟨rfl, hct⟩ := hb0
          rw [hct] at he
          simp [Spec.V5.opt] at he
          exact absurd he hb
        · have := h q hq a' b' hab' (by
            by_cases h1 : b' = []
            · exact .inr fun h2 => hb0 ⟨h1, h2⟩
            · exact .inl h1)
          rw [V5.vbis_append, hz, vbis_ids, he, V5.encAll_append, List.length_append, encAll_ids_len, encAll_content_len]
          omega
    · rw [V5.vbis_append] at hz
      have := V5.encAll_pos hb
      omega

/-- **C98** So up to two subscription identifiers do no harm; three or more one-byte identifiers without a content type do. -/
theorem C98_v5_publish_counted (p : V5.Publish) :
    ((∀ q, p.properties = some q → q.subscription_identifiers.length ≤ 2) → Spec.V5.ReadsBack (.Publish p)) ∧
    (∀ q, p.properties = some q → q.content_type = none → (∀ n ∈ q.subscription_identifiers, n < 128) →
      (Spec.V5.ReadsBack (.Publish p) ↔ q.subscription_identifiers.length ≤ 2)) := by
  have key : (∀ q, p.properties = some q → q.subscription_identifiers.length ≤ 2) → Spec.V5.ReadsBack (.Publish p) := by
    intro h
    rw [C98_v5_publish_counted_iff]
    intro q hq a b hab hne
    have h2 := h q hq
    rw [hab, List.length_append] at h2
    have hv : ∀ n : Nat, 1 ≤ (vbi n).length := by
      intro n; unfold vbi; split <;> [simp [Spec.u8]; (split <;> [simp [Spec.u8]; (split <;> simp [Spec.u8])])]
    cases b with
    | cons n b =>
      have := hv n
      simp only [List.map_cons, List.sum_cons, List.length_cons] at h2 ⊢
      omega
    | nil =>
      cases hct : q.content_type with
      | none => simp [hct] at hne
      | some c => simp at h2 ⊢; omega
  refine ⟨key, fun q hq hct hn => ⟨fun h => ?_, fun h => key fun q' hq' => ?_⟩⟩
  · rw [C98_v5_publish_counted_iff] at h
    have h := h q hq
    rcases List.eq_nil_or_concat q.subscription_identifiers with h0 | ⟨l, n, h0⟩
    · simp [h0]
    · have h1 := h l [n] (by simpa using h0) (.inl (by simp))
      have h2 := hn n (by simp [h0])
      have h3 : (vbi n).length = 1 := by unfold vbi; rw [if_pos h2]; rfl
      rw [h0]
      simp [hct, h3] at h1 ⊢
      omega
  · rw [hq] at hq'; cases hq'; exact h

/-- three one-byte identifiers are miscounted, with a content type or a two-byte last identifier they are not -/
example : ¬ Spec.V5.ReadsBack (.Publish ⟨false, .AtMostOnce, false, "a", 0, some ⟨none, none, none, none, none, [], [1, 2, 3], none⟩, []⟩)
    ∧ V5.read 99 [0x30, 10, 0, 1, 97, 6, 11, 1, 11, 2, 11, 3] = (.ok (.Publish ⟨false, .AtMostOnce, false, "a", 0,
      some ⟨none, none, none, none, none, [], [1, 2], none⟩, [11, 3]⟩), [])
    ∧ Spec.V5.ReadsBack (.Publish ⟨false, .AtMostOnce, false, "a", 0, some ⟨none, none, none, none, none, [], [1, 2], none⟩, []⟩) :=
  ⟨fun h => absurd (((C98_v5_publish_counted _).2 _ rfl rfl (by decide)).1 h) (by decide), by decide +kernel,
    (C98_v5_publish_counted _).1 (by rintro q ⟨⟩; decide)⟩

end Props
