import Verif.Spec.Agree
import Verif.Props.Cross2
import Verif.Props.Schedule
/-! C125: the two readers on the same bytes. -/
namespace Props
open Mqtt Spec
open Spec.V4 (typeNum level bit)

theorem agree_login {flags : UInt8} {lb lb' j j' : Bytes} {l : Option V4.Login} {l' : Option V5.Login}
    (h : Spec.V4.LoginDenotes flags lb l) (h' : Spec.V5.LoginDenotes flags lb' l') (e : lb ++ j = lb' ++ j') :
    l' = l.map fun l => ⟨l.username, l.password⟩ := by
  obtain ⟨u, p, h1, h2, h3, h4, h5, h6⟩ := h
  obtain ⟨u', p', h1', h2', h3', h4', h5', h6'⟩ := h'
  have : u = u' ∧ p = p' := by
    rw [h5, h5'] at e
    by_cases b7 : bit flags 7
    · simp only [if_pos b7, List.append_assoc] at e
      obtain ⟨hu, e⟩ := V4.str_append_inj h1 h1' e
      by_cases b6 : bit flags 6
      · simp only [if_pos b6] at e
        exact ⟨hu, (V4.str_append_inj h2 h2' e).1⟩
      · exact ⟨hu, (h4 b6).trans (h4' b6).symm⟩
    · simp only [if_neg b7, List.nil_append] at e
      by_cases b6 : bit flags 6
      · simp only [if_pos b6] at e
        exact ⟨(h3 b7).trans (h3' b7).symm, (V4.str_append_inj h2 h2' e).1⟩
      · exact ⟨(h3 b7).trans (h3' b7).symm, (h4 b6).trans (h4' b6).symm⟩
  obtain ⟨rfl, rfl⟩ := this
  rw [h6, h6']
  split <;> rfl

theorem qosNum_inj54 {q r : QoS} (h : Spec.V4.qosNum q = Spec.V4.qosNum r) : q = r := by
  cases q <;> cases r <;> simp [Spec.V4.qosNum] at h ⊢

theorem agree_will {flags : UInt8} {wb wb' : Bytes} {w : Option V4.LastWill} {w' : Option V5.LastWill}
    (h : Spec.V4.WillDenotes flags wb w) (h' : Spec.V5.WillDenotes flags wb' w') : SameWill w w' := by
  cases w <;> cases w'
  · trivial
  · exact absurd h'.1 h.1
  · exact absurd h.1 h'.1
  · rename_i v w
    refine ⟨qosNum_inj54 (h.2.1.symm.trans h'.2.1), Bool.eq_iff_iff.2 (h.2.2.1.trans h'.2.2.1.symm)⟩

theorem ack_pkid {R : Type} {code : R → Nat} {k : UInt16} {junk : Bytes} {a : V5.Ack R}
    (h : Spec.V5.AckDenotes code (u16 k.toNat ++ junk) a) : a.pkid = k := by
  have : ∃ t, u16 k.toNat ++ junk = u16 a.pkid.toNat ++ t := by
    rcases h with ⟨h, _⟩ | ⟨h, _⟩ | ⟨pb, j, h, _⟩
    · exact ⟨[], by rw [h]; simp⟩
    · exact ⟨_, h⟩
    · exact ⟨_, by rw [h, List.append_assoc, List.append_assoc]⟩
  obtain ⟨t, h⟩ := this
  exact (UInt16.toNat_inj.1 (u16_append_inj k.toNat_lt a.pkid.toNat_lt h).1).symm

/-- the number of a packet type -/
def num4 : V4.Packet → Nat
  | .Connect _ => 1 | .ConnAck _ => 2 | .Publish _ => 3 | .PubAck _ => 4 | .PubRec _ => 5 | .PubRel _ => 6
  | .PubComp _ => 7 | .Subscribe _ => 8 | .SubAck _ => 9 | .Unsubscribe _ => 10 | .UnsubAck _ => 11
  | .PingReq => 12 | .PingResp => 13 | .Disconnect => 14

/-- the number of a packet type -/
def num5 : V5.Packet → Nat
  | .Connect _ => 1 | .ConnAck _ => 2 | .Publish _ => 3 | .PubAck _ => 4 | .PubRec _ => 5 | .PubRel _ => 6
  | .PubComp _ => 7 | .Subscribe _ => 8 | .SubAck _ => 9 | .Unsubscribe _ => 10 | .UnsubAck _ => 11
  | .PingReq => 12 | .PingResp => 13 | .Disconnect _ => 14

theorem num4_eq {b1 : UInt8} {bd : Bytes} {p : V4.Packet} (h : Spec.V4.Denotes b1 bd p) : typeNum b1 = num4 p := by
  cases p with
  | Publish q => rw [h.1]; exact publish_type q.dup q.retain q.qos
  | PingReq => exact h
  | PingResp => exact h
  | Disconnect => exact h
  | _ => exact h.1

theorem num5_eq {b1 : UInt8} {bd : Bytes} {p : V5.Packet} (h : Spec.V5.Denotes b1 bd p) : typeNum b1 = num5 p := by
  cases p with
  | Publish q => rw [h.1]; exact publish_type q.dup q.retain q.qos
  | Disconnect q => rw [h.1]; exact (by decide : typeNum (UInt8.ofNat 224) = 14)
  | PingReq => exact h
  | PingResp => exact h
  | _ => exact h.1

/-- bytes that denote a packet of each version -/
theorem both_agree {b1 : UInt8} {bd : Bytes} {p : V4.Packet} {q : V5.Packet} (hp : Spec.V4.Denotes b1 bd p)
    (hq : Spec.V5.Denotes b1 bd q) : Agree p q := by
  have hn : num4 p = num5 q := by
    rw [← num4_eq hp, ← num5_eq hq]
  cases p <;> cases q <;> first | (exfalso; revert hn; simp [num4, num5]; done) | skip
  case Connect.Connect c d =>
    obtain ⟨_, f, wb, lb, junk, hb, hid, hcl, hw, hl⟩ := hp
    obtain ⟨_, f', pb, wb', lb', junk', hb', hpr, hid', hcl', hw', hl'⟩ := hq
    have e : str "MQTT" ++ Spec.u8 (level c.protocol) ++ [f] ++ u16 c.keep_alive.toNat
          ++ (str c.client_id ++ (wb ++ (lb ++ junk)))
        = str "MQTT" ++ Spec.u8 (level d.protocol) ++ [f'] ++ u16 d.keep_alive.toNat
          ++ (pb ++ (str d.client_id ++ (wb' ++ (lb' ++ junk')))) := by
      simpa [List.append_assoc] using hb.symm.trans hb'
    obtain ⟨h1, rfl, h3, e⟩ := connect_prefix e
    have hpe := level_inj h1
    refine ⟨hpe.symm, h3.symm, Bool.eq_iff_iff.2 (hcl'.trans hcl.symm), agree_will hw hw', fun h4 => ?_⟩
    rw [← hpe, h4] at hpr
    obtain ⟨rfl, hnp⟩ := hpr
    obtain ⟨hid, e⟩ := V4.str_append_inj hid hid' e
    refine ⟨hid.symm, hnp, fun hn => ?_⟩
    rw [hn] at hw
    have hw5 := agree_will hw hw'
    cases hd : d.last_will with
    | some w => rw [hd] at hw5; exact hw5.elim
    | none =>
      rw [hd] at hw'
      rw [hw.2.2.2.2, hw'.2.2.2.2] at e
      exact agree_login hl hl' e
  case ConnAck.ConnAck c d =>
    obtain ⟨_, f, junk, hb, hs⟩ := hp
    obtain ⟨_, f', pb, junk', hb', hs', _⟩ := hq
    have e := hb.symm.trans hb'
    simp only [Spec.u8, List.cons_append, List.nil_append, List.cons.injEq] at e
    obtain ⟨rfl, e, _⟩ := e
    refine ⟨Bool.eq_iff_iff.2 (hs'.trans hs.symm), ?_⟩
    revert e
    cases c.code <;> cases d.code <;> decide
  case Publish.Publish p q =>
    obtain ⟨h1, hb, hf, hk⟩ := hp
    obtain ⟨h1', pb, hb', hf', hk', hs⟩ := hq
    have hfl : q.dup = p.dup ∧ q.qos = p.qos ∧ q.retain = p.retain := by
      have h1 := h1.symm.trans h1'
      clear hb hs hf hk h1' hb' hf' hk' hn
      simp only [Spec.V4.byte1, Spec.V5.byte1] at h1
      revert h1
      cases q.dup <;> cases q.retain <;> cases q.qos <;> cases p.dup <;> cases p.retain <;> cases p.qos <;> decide
    obtain ⟨hd, hqs, hr⟩ := hfl
    have e := hb.symm.trans hb'
    simp only [Spec.V4.body, List.append_assoc] at e
    obtain ⟨ht, e⟩ := V4.str_append_inj hf hf' e
    have hpos := setDenotes_pos hs
    have hne : pb ≠ [] := by rintro rfl; simp at hpos
    refine ⟨hd, hqs, hr, ht.symm, ?_⟩
    rw [hqs] at e hk'
    by_cases h0 : p.qos = .AtMostOnce
    · simp only [if_pos h0, List.nil_append] at e
      exact ⟨(hk'.1 h0).trans (hk.1 h0).symm, pb, hne, e⟩
    · simp only [if_neg h0] at e
      obtain ⟨h2, e⟩ := u16_append_inj p.pkid.toNat_lt q.pkid.toNat_lt e
      exact ⟨(UInt16.toNat_inj.1 h2).symm, pb, hne, e⟩
  case PubAck.PubAck a b =>
    obtain ⟨_, junk, rfl⟩ := hp
    exact ack_pkid hq.2
  case PubRec.PubRec a b =>
    obtain ⟨_, junk, rfl⟩ := hp
    exact ack_pkid hq.2
  case PubRel.PubRel a b =>
    obtain ⟨_, junk, rfl⟩ := hp
    exact ack_pkid hq.2
  case PubComp.PubComp a b =>
    obtain ⟨_, junk, rfl⟩ := hp
    exact ack_pkid hq.2
  case Subscribe.Subscribe a b =>
    obtain ⟨_, fs, rfl, _⟩ := hp
    obtain ⟨s, h, h'⟩ := (v5_pkid_of_body hq).1 hq.1
    cases h; exact h'
  case SubAck.SubAck a b =>
    obtain ⟨_, rfl, _⟩ := hp
    obtain ⟨s, h, h', h2⟩ := (v5_pkid_of_body hq).2.1 hq.1
    cases h
    exact ⟨h', by simpa [List.length_flatMap, Spec.u8] using h2⟩
  case Unsubscribe.Unsubscribe a b =>
    obtain ⟨_, rfl, _⟩ := hp
    obtain ⟨s, h, h'⟩ := (v5_pkid_of_body hq).2.2 hq.1
    cases h; exact h'
  case UnsubAck.UnsubAck a b =>
    obtain ⟨_, rfl⟩ := hp
    obtain ⟨_, pb, hb, hs, hne⟩ := hq
    have hp := setDenotes_pos hs
    have hlen := congrArg List.length hb
    rw [List.length_append, List.length_append, show (Spec.V4.body (.UnsubAck a)).length = 2 from rfl,
      show (u16 b.pkid.toNat).length = 2 from rfl] at hlen
    omega
  all_goals trivial

/-- C125: `v4::read` and `v5::read`, called on the same buffer with the same limit, take the same bytes off it; if they take
none they give the same error, and if both give a packet the two agree: type, packet id, flags, topic and so on. -/
theorem C125_same_frame (max : Nat) (s : Bytes) :
    (∃ e, V4.read max s = (.err e, s) ∧ V5.read max s = (.err e, s)) ∨
    ∃ (o : Except Error V4.Packet) (o' : Except Error V5.Packet) (t : Bytes), t.length < s.length ∧ t <:+ s ∧
      V4.read max s = (asRes o, t) ∧ V5.read max s = (asRes o', t) ∧ BothAgree o o' := by
  rcases call_cases (fun m => (C09_v4_one_frame m).2) v4_outcome max s with ⟨f, o, t, hv, rfl, hr, hne, ho, _⟩ | ⟨e, hc, hr⟩
  · obtain ⟨o', h1, hg, _⟩ := v5_outcome max f hv
    refine .inr ⟨o, o', t, ?_, ⟨_, rfl⟩, hr, h1 t, ?_⟩
    · simp [RawFrame.bytes]; omega
    · cases o <;> cases o' <;> first | trivial | exact both_agree ho ((hg _).2 rfl)
  · exact .inl ⟨e, hr, (C10_v5_one_frame max).2 s e hc⟩

/-- C125: the same bytes arriving in the same way at a client of either version: they are cut into the same number of
outcomes, the same bytes are left, and outcomes that are packets of both versions agree. -/
theorem C125_any_schedule (es : List Event) (s r r' : Bytes) (os : List (Except Error V4.Packet))
    (os' : List (Except Error V5.Packet)) (h : Scheduled V4.read s es os r) (h' : Scheduled V5.read s es os' r') :
    r = r' ∧ List.Forall₂ BothAgree os os' := by
  -- one step that takes a frame, whatever its outcome
  have step : ∀ {s s' : Bytes} {max : Nat} {o : Except Error V4.Packet} {es r os os'} , V4.read max s = (asRes o, s') → s' ≠ s →
      (∀ os', Scheduled V5.read s' es os' r' → r = r' ∧ List.Forall₂ BothAgree os os') →
      Scheduled V5.read s (.call max :: es) os' r' → r = r' ∧ List.Forall₂ BothAgree (o :: os) os' := by
    intro s s' max o es r os os' h hne ih h'
    rcases C125_same_frame max s with ⟨e, h1, _⟩ | ⟨o₁, o₂, t, hlt, -, h1, h2, ha⟩
    · rw [h1] at h; exact absurd (Prod.mk.inj h).2.symm hne
    rw [h] at h1
    obtain ⟨h3, rfl⟩ := Prod.mk.inj h1
    have : o = o₁ := by cases o <;> cases o₁ <;> simp at h3 <;> rw [h3]
    subst this
    cases h' with
    | packet h' t' =>
      rw [h2] at h'
      obtain ⟨h4, rfl⟩ := Prod.mk.inj h'
      obtain ⟨h5, h6⟩ := ih _ t'
      cases o₂ <;> simp at h4
      subst h4
      exact ⟨h5, .cons ha h6⟩
    | bad h' hn t' =>
      rw [h2] at h'
      obtain ⟨h4, rfl⟩ := Prod.mk.inj h'
      obtain ⟨h5, h6⟩ := ih _ t'
      cases o₂ <;> simp at h4
      subst h4
      exact ⟨h5, .cons ha h6⟩
    | nothing h' t' =>
      rw [h2] at h'
      obtain ⟨_, rfl⟩ := Prod.mk.inj h'
      exact absurd rfl hne
  induction h generalizing os' with
  | done => cases h'; exact ⟨rfl, .nil⟩
  | arrive _ ih => cases h' with | arrive t => exact ih _ t
  | packet h _ ih =>
    rename_i s s' max p es os r _
    refine step (o := .ok p) h ?_ ih h'
    rintro rfl
    rcases C125_same_frame max s' with ⟨e, h1, _⟩ | ⟨o, o', t, hlt, -, h1, -⟩ <;> rw [h] at h1
    · simp at h1
    · rw [(Prod.mk.inj h1).2] at hlt; omega
  | bad h hn _ ih => exact step (o := .error _) h hn ih h'
  | nothing h _ ih =>
    rename_i s max e es os r _
    rcases C125_same_frame max s with ⟨e', h1, h2⟩ | ⟨o, o', t, hlt, -, h1, -⟩
    · cases h' with
      | packet h' t' => rw [h2] at h'; simp at h'
      | bad h' hn t' => rw [h2] at h'; exact absurd (Prod.mk.inj h').2.symm hn
      | nothing h' t' => exact ih _ t'
    · rw [h] at h1
      rw [(Prod.mk.inj h1).2] at hlt; omega

theorem took_scheduled {P : Type} {rd : Nat → M P} {s s' : Bytes} {max : Nat} {o : Except Error P} {es os r}
    (h : rd max s = (asRes o, s')) (hne : s' ≠ s) (t : Scheduled rd s' es os r) :
    Scheduled rd s (.call max :: es) (o :: os) r := by
  cases o with
  | ok p => exact .packet h t
  | error e => exact .bad h hne t

theorem ended_iff {P : Type} {x : Res P} {o : Except Error P} : Ended x o ↔ x = asRes o := by cases o <;> rfl

/-- C125: a server may choose the reader anew for every call. Whatever it chooses, the bytes are cut as if it had used one
version throughout, and each outcome is the one the chosen version gives in its place. -/
theorem C125_switching (es : List MixEvent) (s : Bytes) :
    ∃ os r, Mixed s es os r ∧
    (∀ os' r', Mixed s es os' r' → os' = os ∧ r' = r) ∧
    ∃ os4 os5, Scheduled V4.read s (es.map MixEvent.event) os4 r ∧ Scheduled V5.read s (es.map MixEvent.event) os5 r ∧
      Picks os4 os5 os := by
  induction es generalizing s with
  | nil => exact ⟨[], s, .done, fun os' r' h => by cases h; exact ⟨rfl, rfl⟩, [], [], .done, .done, .nil⟩
  | cons ev es ih =>
    cases ev with
    | arrive c =>
      obtain ⟨os, r, h, hu, o4, o5, h4, h5, hp⟩ := ih (s ++ c)
      exact ⟨os, r, .arrive h, fun os' r' h => by cases h with | arrive t => exact hu _ _ t,
        o4, o5, .arrive h4, .arrive h5, hp⟩
    | call4 m =>
      rcases C125_same_frame m s with ⟨e, h1, h2⟩ | ⟨o, o', t, hlt, -, h1, h2, -⟩
      · obtain ⟨os, r, h, hu, o4, o5, h4, h5, hp⟩ := ih s
        refine ⟨os, r, .nothing4 h1 h, fun os' r' h => ?_, o4, o5, .nothing h1 h4, .nothing h2 h5, hp⟩
        cases h with
        | took4 h hx hne t => rw [h1] at h; exact absurd (Prod.mk.inj h).2.symm hne
        | nothing4 h t => exact hu _ _ t
      · have hne : t ≠ s := by rintro rfl; omega
        obtain ⟨os, r, h, hu, o4, o5, h4, h5, hp⟩ := ih t
        refine ⟨.inl o :: os, r, .took4 h1 (ended_iff.2 rfl) hne h, fun os' r' h => ?_, o :: o4, o' :: o5,
          took_scheduled h1 hne h4, took_scheduled h2 hne h5, .left hp⟩
        cases h with
        | took4 h hx hne t' =>
          rw [h1] at h
          obtain ⟨ha, rfl⟩ := Prod.mk.inj h
          obtain ⟨rfl, rfl⟩ := hu _ _ t'
          rw [ended_iff, ← ha] at hx
          refine ⟨?_, rfl⟩
          rename_i o₂ _ _
          have : o₂ = o := by cases o <;> cases o₂ <;> simp at hx <;> rw [hx]
          rw [this]
        | nothing4 h t' => rw [h1] at h; exact absurd (Prod.mk.inj h).2 hne
    | call5 m =>
      rcases C125_same_frame m s with ⟨e, h1, h2⟩ | ⟨o, o', t, hlt, -, h1, h2, -⟩
      · obtain ⟨os, r, h, hu, o4, o5, h4, h5, hp⟩ := ih s
        refine ⟨os, r, .nothing5 h2 h, fun os' r' h => ?_, o4, o5, .nothing h1 h4, .nothing h2 h5, hp⟩
        cases h with
        | took5 h hx hne t => rw [h2] at h; exact absurd (Prod.mk.inj h).2.symm hne
        | nothing5 h t => exact hu _ _ t
      · have hne : t ≠ s := by rintro rfl; omega
        obtain ⟨os, r, h, hu, o4, o5, h4, h5, hp⟩ := ih t
        refine ⟨.inr o' :: os, r, .took5 h2 (ended_iff.2 rfl) hne h, fun os' r' h => ?_, o :: o4, o' :: o5,
          took_scheduled h1 hne h4, took_scheduled h2 hne h5, .right hp⟩
        cases h with
        | took5 h hx hne t' =>
          rw [h2] at h
          obtain ⟨ha, rfl⟩ := Prod.mk.inj h
          obtain ⟨rfl, rfl⟩ := hu _ _ t'
          rw [ended_iff, ← ha] at hx
          refine ⟨?_, rfl⟩
          rename_i o₂ _ _
          have : o₂ = o' := by cases o' <;> cases o₂ <;> simp at hx <;> rw [hx]
          rw [this]
        | nothing5 h t' => rw [h2] at h; exact absurd (Prod.mk.inj h).2 hne

/-- both accept it: a PUBLISH of QoS 1 whose payload starts with the 5.0 property length 0 -/
example : (V4.read 9 [0x32, 7, 0, 1, 0x61, 0, 5, 0, 9, 7]).1 = .ok (.Publish ⟨false, .AtLeastOnce, false, "a", 5, [0, 9]⟩) ∧
    (V5.read 9 [0x32, 7, 0, 1, 0x61, 0, 5, 0, 9, 7]).1 = .ok (.Publish ⟨false, .AtLeastOnce, false, "a", 5, none, [9]⟩) := by
  constructor <;> decide +kernel
/-- and what the theorem says about it -/
example : BothAgree (.ok (.Publish ⟨false, .AtLeastOnce, false, "a", 5, [0, 9]⟩))
    (.ok (.Publish ⟨false, .AtLeastOnce, false, "a", 5, none, [9]⟩)) :=
  ⟨rfl, rfl, rfl, rfl, rfl, [0], by decide, rfl⟩
/-- a server that reads a CONNECT of level 4 with `v4::read` and then two PINGREQs, the first with `v5::read` -/
example : ∃ os r, Mixed [0x10, 12, 0, 4, 77, 81, 84, 84, 4, 2, 0, 9, 0, 0, 0xC0, 0] [.call4 99, .call5 99, .arrive [0xC0, 0], .call4 99] os r :=
  let ⟨os, r, h, _⟩ := C125_switching _ _
  ⟨os, r, h⟩
example : Mixed [0x40, 2, 0, 7, 0xC0, 0] [.call4 99, .call5 1, .call5 99] [.inl (.ok (.PubAck ⟨7⟩)), .inr (.ok .PingReq)] [] :=
  .took4 (x := .ok (.PubAck ⟨7⟩)) (s' := [0xC0, 0]) (by decide +kernel) rfl (by decide)
    (.took5 (x := .ok .PingReq) (s' := []) (by decide +kernel) rfl (by decide)
      (.nothing5 (e := .InsufficientBytes 2) (by decide +kernel) .done))
/-- a buffer from which neither takes anything -/
example : V4.read 9 [0x32, 7, 0] = (.err (.InsufficientBytes 6), [0x32, 7, 0]) ∧
    V5.read 9 [0x32, 7, 0] = (.err (.InsufficientBytes 6), [0x32, 7, 0]) := by constructor <;> decide +kernel

end Props
