import Verif.Proof.Relay
import Verif.Props.V4Read
import Verif.Props.Grow
/-! C82: a relay (read a packet, write it again) passes conforming packets on. -/
set_option linter.unusedSimpArgs false
namespace Props
open Mqtt Spec

section V5
open Mqtt.V5
open Spec.V5 (Property SameById reasonProps reasonOf sec)
open Spec.Std5

theorem login_user (a b : String) : ((login a b).bind fun l => unlessEmpty l.username).getD "" = a := by
  unfold login
  split
  · rename_i h; simp [h.1]
  · simp only [Option.bind_some, unlessEmpty]; split <;> simp_all

theorem login_pw (a b : String) : ((login a b).bind fun l => (unlessEmpty l.password).map utf8).getD [] = utf8 b := by
  unfold login
  split
  · rename_i h; rw [h.2]; rfl
  · simp only [Option.bind_some, unlessEmpty]
    split
    · rename_i h; rw [h]; rfl
    · simp

theorem login_user_le (u : Option String) (b : String) :
    (maybe str ((login (u.getD "") b).bind fun l => unlessEmpty l.username)).length ≤ (maybe str u).length := by
  unfold login
  split
  · simp [maybe]
  · simp only [Option.bind_some, unlessEmpty]
    cases u with
    | none => simp [maybe]
    | some a => by_cases h : a = "" <;> simp [maybe, h]

theorem login_pw_le (a : String) (pw : Option Bytes) (s : String) (h : text (pw.getD []) = some s) :
    (maybe bin ((login a s).bind fun l => (unlessEmpty l.password).map utf8)).length ≤ (maybe bin pw).length := by
  have hs := str_of_text h
  unfold login
  split
  · simp [maybe]
  · simp only [Option.bind_some, unlessEmpty]
    cases pw with
    | none =>
      have : s = "" := by
        simp only [Option.getD_none] at h
        have h0 : text [] = some "" := by decide +kernel
        rw [h0] at h; exact (Option.some.inj h).symm
      simp [this, maybe]
    | some b =>
      simp only [Option.getD_some] at hs
      by_cases h : s = "" <;> simp [maybe, h, hs]

theorem ack_same {R : Type} {pl : Place} {d : R} {code : R → Nat} (hd : ∀ r, code r = 0 → r = d) (hk : ∀ i, kindAt pl i = Spec.V5.reasonKind i)
    (hp : pl ≠ .publish) (id : UInt16) (c : Option R) (ps : Option (List Property)) (hs : ShortOk pl c ps) (hd0 : code d = 0) :
    let a : Ack R := ⟨id, c.getD d, props reasonOf (ps.getD [])⟩
    c.getD d = (ackCode code a).getD d
    ∧ SameById (ps.getD []) ((a.properties.map reasonProps).getD [])
    ∧ (maybe (fun r => u8 (code r)) (ackCode code a) ++ maybe sec (a.properties.map reasonProps)).length
      ≤ (maybe (fun r => u8 (code r)) c ++ maybe sec ps).length := by
  intro a
  have hok : PropsOk pl (ps.getD []) := by
    cases ps with
    | none => exact ⟨by simp, by simp⟩
    | some l => exact (hs l rfl).2
  have hsame := reason_same hk hp hok
  have hlist : SameById (ps.getD []) ((a.properties.map reasonProps).getD []) := by
    have := same_list (of := reasonOf) (toList := reasonProps) hsame
    have e : list reasonProps (props reasonOf (ps.getD [])) = (a.properties.map reasonProps).getD [] := by
      show list reasonProps a.properties = _
      cases a.properties <;> rfl
    rw [e] at this; exact this
  refine ⟨?_, hlist, ?_⟩
  · unfold ackCode
    split
    · rename_i h; exact hd _ h.2
    · rfl
  · by_cases he : ps.getD [] = []
    · have hn : a.properties = none := by simp [a, props, he]
      simp only [hn, Option.map_none, maybe, ackCode, true_and, List.append_nil, List.length_append]
      cases c with
      | none => simp [a, hd0, maybe]
      | some r => split <;> simp [maybe, u8, a]
    · cases ps with
      | none => simp at he
      | some l =>
        have hc := (hs l rfl).1
        obtain ⟨r, rfl⟩ := Option.isSome_iff_exists.1 hc
        simp only [Option.getD_some] at he hlist hsame
        have hp2 : a.properties = some (reasonOf l) := by simp [a, props, he]
        simp only [hp2, Option.map_some, maybe, ackCode, List.length_append]
        rw [← same_sec hsame]
        simp [maybe, a]

/-- what a relay sends says the same as what it got, and is not longer -/
theorem say_same (k : Ctl) (p : Packet) (hv : Valid k) (hr : result k = .ok p) :
    Same k (say p) ∧ (Spec.Std5.body (say p)).length ≤ (Spec.Std5.body k).length := by
  obtain ⟨_, hv⟩ := hv
  have tab := C79_v5_property_tables
  cases k with
  | connect cs ka ps id w u pw =>
    obtain ⟨h1, h2, h3, h4, h5⟩ := hv
    simp only [result] at hr
    split at hr
    · exact absurd hr (by simp)
    rename_i s hs
    injection hr with hr
    subst hr
    have hps := same_list (connect_same h1)
    have hw : SameWill w ((w.map fun w => (⟨w.topic, w.payload, w.qos, w.retain, props Spec.V5.willOf w.props⟩ : LastWill)).map
        fun w => ⟨w.qos, w.retain, list Spec.V5.willProps w.properties, w.topic, w.message⟩) := by
      cases w with
      | none => trivial
      | some x => exact ⟨rfl, rfl, same_list (will_same (h3 x rfl).1), rfl, rfl⟩
    refine ⟨⟨rfl, rfl, hps, rfl, hw, (login_user _ _).symm, ?_⟩, ?_⟩
    · rw [login_pw]; exact (str_of_text hs).symm
    · simp only [say, Spec.Std5.body, List.length_append]
      have e1 := same_sec hps
      have e2 : (maybe (fun w : Will => sec w.props ++ str w.topic ++ bin w.payload)
          ((w.map fun w => (⟨w.topic, w.payload, w.qos, w.retain, props Spec.V5.willOf w.props⟩ : LastWill)).map
            fun w => ⟨w.qos, w.retain, list Spec.V5.willProps w.properties, w.topic, w.message⟩)).length
          = (maybe (fun w : Will => sec w.props ++ str w.topic ++ bin w.payload) w).length := by
        cases w with
        | none => rfl
        | some x =>
          have := same_sec (same_list (will_same (h3 x rfl).1))
          simp only [Option.map_some, maybe, List.length_append, ← this]
      have e3 := login_user_le u s
      have e4 := login_pw_le (u.getD "") pw s hs
      rw [e2, ← e1]
      have e5 : ∀ n, (u8 n).length = 1 := fun _ => rfl
      simp only [e5]
      omega
  | connack sp c ps =>
    injection hr with hr; subst hr
    have h := same_list (connack_same hv)
    refine ⟨⟨rfl, rfl, h⟩, ?_⟩
    simp only [say, Spec.Std5.body, List.length_append, ← same_sec h]; omega
  | publish d q r t id ps pl =>
    injection hr with hr; subst hr
    have h := same_list (publish_same hv.1)
    refine ⟨⟨rfl, rfl, rfl, rfl, rfl, h, rfl⟩, ?_⟩
    simp only [say, Spec.Std5.body, List.length_append, ← same_sec h]; omega
  | puback id c ps =>
    injection hr with hr; subst hr
    obtain ⟨a, b, c⟩ := ack_same (d := PubAckReason.Success) (code := Spec.V5.pubackCode)
      (by intro r; cases r <;> simp [Spec.V5.pubackCode]) (fun i => (tab i).2.2.2.2.1) (by simp) id c ps hv rfl
    refine ⟨⟨rfl, a, b⟩, ?_⟩
    simp only [say, Spec.Std5.body, List.length_append] at c ⊢; omega
  | pubrec id c ps =>
    injection hr with hr; subst hr
    obtain ⟨a, b, c⟩ := ack_same (d := PubRecReason.Success) (code := Spec.V5.pubrecCode)
      (by intro r; cases r <;> simp [Spec.V5.pubrecCode]) (fun i => (tab i).2.2.2.2.2.1) (by simp) id c ps hv rfl
    refine ⟨⟨rfl, a, b⟩, ?_⟩
    simp only [say, Spec.Std5.body, List.length_append] at c ⊢; omega
  | pubrel id c ps =>
    injection hr with hr; subst hr
    obtain ⟨a, b, c⟩ := ack_same (d := PubRelReason.Success) (code := Spec.V5.pubrelCode)
      (by intro r; cases r <;> simp [Spec.V5.pubrelCode]) (fun i => (tab i).2.2.2.2.2.2.1) (by simp) id c ps hv rfl
    refine ⟨⟨rfl, a, b⟩, ?_⟩
    simp only [say, Spec.Std5.body, List.length_append] at c ⊢; omega
  | pubcomp id c ps =>
    injection hr with hr; subst hr
    obtain ⟨a, b, c⟩ := ack_same (d := PubCompReason.Success) (code := Spec.V5.pubcompCode)
      (by intro r; cases r <;> simp [Spec.V5.pubcompCode]) (fun i => (tab i).2.2.2.2.2.2.2.1) (by simp) id c ps hv rfl
    refine ⟨⟨rfl, a, b⟩, ?_⟩
    simp only [say, Spec.Std5.body, List.length_append] at c ⊢; omega
  | subscribe id ps ss =>
    injection hr with hr; subst hr
    have h := same_list (subscribe_same hv.1)
    have e : (ss.map filter).map (fun f => (⟨f.path, f.qos, f.nolocal, f.preserve_retain, f.retain_forward_rule⟩ : Sub)) = ss := by
      rw [List.map_map]; exact List.map_id' ss
    refine ⟨⟨rfl, h, e.symm⟩, ?_⟩
    simp only [say, Spec.Std5.body, List.length_append, ← same_sec h, e]; omega
  | suback id ps cs =>
    injection hr with hr; subst hr
    have h := same_list (reason_same (fun i => (tab i).2.2.2.2.2.2.2.2.2.1) (by simp) hv.1)
    refine ⟨⟨rfl, h, rfl⟩, ?_⟩
    simp only [say, Spec.Std5.body, List.length_append, ← same_sec h]; omega
  | unsubscribe id ps fs =>
    injection hr with hr; subst hr
    have h := same_list (unsubscribe_same hv.1)
    refine ⟨⟨rfl, h, rfl⟩, ?_⟩
    simp only [say, Spec.Std5.body, List.length_append, ← same_sec h]; omega
  | unsuback id ps cs =>
    injection hr with hr; subst hr
    have h := same_list (reason_same (fun i => (tab i).2.2.2.2.2.2.2.2.2.2.2.1) (by simp) hv.1)
    refine ⟨⟨rfl, h, rfl⟩, ?_⟩
    simp only [say, Spec.Std5.body, List.length_append, ← same_sec h]; omega
  | pingreq => injection hr with hr; subst hr; exact ⟨trivial, Nat.le_refl _⟩
  | pingresp => injection hr with hr; subst hr; exact ⟨trivial, Nat.le_refl _⟩
  | disconnect c ps =>
    cases c with
    | none => exact absurd hr (by simp [result])
    | some c =>
      cases ps with
      | none => exact absurd hr (by simp [result])
      | some ps =>
        injection hr with hr; subst hr
        have h := disconnect_same (hv ps rfl).2
        by_cases he : ps = []
        · subst he
          by_cases hn : c = .NormalDisconnection
          · subst hn; exact ⟨⟨rfl, fun _ => rfl⟩, by decide⟩
          · have e : say (.Disconnect ⟨c, props Spec.V5.disconnectOf []⟩) = .disconnect (some c) none := by
              simp [say, props, hn]
            rw [e]
            exact ⟨⟨rfl, fun _ => rfl⟩, by simp [Spec.Std5.body, maybe]⟩
        · have e : say (.Disconnect ⟨c, props Spec.V5.disconnectOf ps⟩)
              = .disconnect (some c) (some (Spec.V5.disconnectProps (Spec.V5.disconnectOf ps))) := by
            simp [say, props, he]
          rw [e]
          refine ⟨⟨rfl, h⟩, ?_⟩
          simp only [Spec.Std5.body, maybe, List.length_append, ← same_sec h]; omega
  | auth c ps => exact absurd hr (by simp [result])

/-- C82 (v5): whatever conforming packet is read, writing the packet value again emits a conforming packet that says the
same and is not longer.  (Except: CONNACK without properties, next theorem.) -/
theorem C82_v5_relay (k : Ctl) (hv : Valid k) (hc : Counted k) (max : Nat) (hm : (Spec.Std5.body k).length ≤ max)
    (rest : Bytes) (p : Packet) (h : V5.read max (Spec.Std5.encode k ++ rest) = (.ok p, rest))
    (ha : ∀ sp c, k ≠ .connack sp c []) :
    ∃ n k', p.write [] = (.ok n, Spec.Std5.encode k') ∧ Valid k' ∧ Same k k'
      ∧ (Spec.Std5.encode k').length ≤ (Spec.Std5.encode k).length := by
  have hr : result k = .ok p := by
    have := (C79_v5_conforming k hv hc max hm rest).symm.trans h
    exact congrArg Prod.fst this
  have h5 : ∀ c, p = .Connect c → c.protocol = .V5 := by
    rintro c rfl
    cases k <;> simp only [result] at hr <;> try (exact absurd hr (by simp))
    · split at hr
      · exact absurd hr (by simp)
      · injection hr with hr; injection hr with hr; subst hr; rfl
    · rename_i c ps; cases c <;> cases ps <;> simp at hr
  obtain ⟨hs, hl⟩ := say_same k p hv hr
  obtain ⟨f, m, -⟩ := denotes_wf (std_denotes k p hv hc hr)
  have hle := hv.1
  have e := say_body p h5
  have wf : Spec.V5.WF p := ⟨f, m, by rw [← e.1]; omega⟩
  have hca : ∀ c, p = .ConnAck c → c.properties ≠ none := by
    rintro c rfl
    cases k with
    | connect => simp only [result] at hr; split at hr <;> simp at hr
    | connack sp cd ps =>
      injection hr with hr; injection hr with hr; subst hr
      have : ps ≠ [] := fun e => ha sp cd (by rw [e])
      simp [props, this]
    | disconnect c ps => cases c <;> cases ps <;> simp [result] at hr
    | _ => simp [result] at hr
  obtain ⟨n, hw⟩ := write_empty p wf hca
  refine ⟨n, say p, ?_, say_valid p wf h5, hs, ?_⟩
  · rw [hw]; unfold Spec.Std5.encode Spec.V5.encode; rw [e.1, e.2]
  · unfold Spec.Std5.encode
    rw [V4.frame_length, V4.frame_length]
    have := Mqtt.V5.vbi_length_mono hl
    omega

/-- C82, the exception: a CONNACK without properties is read, but what is written for it is not conforming. -/
theorem C82_v5_relay_connack (sp : Bool) (c : ConnectReturnCode) (max : Nat) (hm : 3 ≤ max) (rest : Bytes) :
    ∃ p, V5.read max (Spec.Std5.encode (.connack sp c []) ++ rest) = (.ok p, rest)
      ∧ ∀ k', Valid k' → (p.write []).2 ≠ Spec.Std5.encode k' := by
  have hb : (Spec.Std5.body (.connack sp c [])).length = 3 := by
    simp only [Spec.Std5.body, sec]; rfl
  have hv : Valid (.connack sp c []) := ⟨by rw [hb]; decide, by simp [PropsOk]⟩
  exact ⟨_, C79_v5_conforming _ hv trivial max (by omega) rest, fun k' hk' => C81_v5_not_conforming.1 _ k' rfl hk'⟩

/-- hypotheses met -/
example : ∃ p, V5.read 3 (Spec.Std5.encode (.connack true .Success []) ++ [9]) = (.ok p, [9])
    ∧ ∀ k', Spec.Std5.Valid k' → (p.write []).2 ≠ Spec.Std5.encode k' :=
  C82_v5_relay_connack true .Success 3 (by decide) [9]


/-- a conforming PUBLISH: four subscription identifiers, then a user property -/
def relayCase : Ctl :=
  .publish false .AtMostOnce false "a" 0
    [⟨11, .vbi 1⟩, ⟨11, .vbi 1⟩, ⟨11, .vbi 1⟩, ⟨11, .vbi 1⟩, ⟨38, .pair "abcd" ""⟩] [7]

theorem relayCase_valid : Valid relayCase := by
  refine ⟨by decide +kernel, ⟨?_, ?_⟩, by show (utf8 "a").length ≤ 65535; decide +kernel, by simp⟩
  · intro p hp
    simp only [List.mem_cons, List.not_mem_nil, or_false] at hp
    rcases hp with rfl | rfl | rfl | rfl | rfl
    · exact ⟨by decide +kernel, by show 1 ≤ maxRemaining; decide⟩
    · exact ⟨by decide +kernel, by show 1 ≤ maxRemaining; decide⟩
    · exact ⟨by decide +kernel, by show 1 ≤ maxRemaining; decide⟩
    · exact ⟨by decide +kernel, by show 1 ≤ maxRemaining; decide⟩
    · refine ⟨by decide +kernel, ?_, ?_⟩
      · show (utf8 "abcd").length ≤ 65535; decide +kernel
      · show (utf8 "").length ≤ 65535; decide +kernel
  · intro i hi
    have h1 : i ≠ 38 := fun e => hi (.inl e)
    have h2 : i ≠ 11 := fun e => hi (.inr ⟨rfl, e⟩)
    simp [Ne.symm h1, Ne.symm h2]

/-- C82: a second relay may fail.  A conforming PUBLISH is read correctly and what is written for it is conforming and
says the same, but the writer's property order (subscription identifiers after user properties) makes the reader's
miscounting (C42) matter: read again, one identifier is lost and turns up in the payload. -/
theorem C82_v5_relay_second_hop : ∃ (k : Ctl) (p p' : Packet), Valid k ∧ V5.read 99 (Spec.Std5.encode k) = (.ok p, [])
      ∧ result k = .ok p ∧ V5.read 99 (p.write []).2 = (.ok p', []) ∧ p' ≠ p :=
  ⟨relayCase,
    .Publish ⟨false, .AtMostOnce, false, "a", 0, some ⟨none, none, none, none, none, [("abcd", "")], [1, 1, 1, 1], none⟩, [7]⟩,
    .Publish ⟨false, .AtMostOnce, false, "a", 0, some ⟨none, none, none, none, none, [("abcd", "")], [1, 1, 1], none⟩, [11, 1, 7]⟩,
    relayCase_valid, by decide +kernel, by decide +kernel, by decide +kernel, by decide +kernel⟩

/-- `C82_v5_relay` applies to it: only the order changes -/
example : ∃ n k', Packet.write (.Publish ⟨false, .AtMostOnce, false, "a", 0,
      some ⟨none, none, none, none, none, [("abcd", "")], [1, 1, 1, 1], none⟩, [7]⟩) [] = (.ok n, Spec.Std5.encode k')
    ∧ Valid k' ∧ Same relayCase k' ∧ (Spec.Std5.encode k').length ≤ (Spec.Std5.encode relayCase).length := by
  refine C82_v5_relay relayCase relayCase_valid ?_ 99 (by decide +kernel) [] _ (by decide +kernel) (by simp [relayCase])
  intro a b e hb
  match a, e with
  | [], e =>
    subst e
    refine Nat.lt_of_le_of_lt (List.length_filter_le _ _) ?_
    show 0 < _; decide +kernel
  | [_], e =>
    injection e with _ e; subst e
    refine Nat.lt_of_le_of_lt (List.length_filter_le _ _) ?_
    show 1 < _; decide +kernel
  | [_, _], e =>
    injection e with _ e; injection e with _ e; subst e
    refine Nat.lt_of_le_of_lt (List.length_filter_le _ _) ?_
    show 2 < _; decide +kernel
  | [_, _, _], e =>
    injection e with _ e; injection e with _ e; injection e with _ e; subst e
    refine Nat.lt_of_le_of_lt (List.length_filter_le _ _) ?_
    show 3 < _; decide +kernel
  | [_, _, _, _], e =>
    injection e with _ e; injection e with _ e; injection e with _ e; injection e with _ e; subst e
    refine Nat.lt_of_le_of_lt (List.length_filter_le _ _) ?_
    show 4 < _; decide +kernel
  | [_, _, _, _, _], e => simp at e; exact absurd e.2.2.2.2.2 hb
  | _ :: _ :: _ :: _ :: _ :: _ :: _, e => simp at e

end V5

section V4
open Mqtt.V4
open Spec.Std4

/-- C82 (v4): whatever conforming packet is read, writing it again emits the same bytes, except that a present but empty
user name or password is left out. -/
theorem C82_v4_relay (k : Ctl) (hv : Valid k) (max : Nat) (hm : (Spec.Std4.body k).length ≤ max) (rest : Bytes)
    (p : Packet) (h : V4.read max (Spec.Std4.encode k ++ rest) = (.ok p, rest)) :
    (∃ n, p.write [] = (.ok n, Spec.Std4.encode (dropEmpty k)))
    ∧ (dropEmpty k = k ↔ ∀ cs ka id w u pw, k = .connect cs ka id w u pw → u ≠ some "" ∧ pw ≠ some []) := by
  have hr : result k = .ok p := by
    have := (C80_v4_conforming k hv max hm rest).symm.trans h
    exact congrArg Prod.fst this
  constructor
  · have h4 : ∀ c, p = .Connect c → c.protocol = .V4 := by
      rintro c rfl
      cases k <;> simp only [result] at hr <;> try (exact absurd hr (by simp))
      split at hr
      · exact absurd hr (by simp)
      · injection hr with hr; injection hr with hr; subst hr; rfl
    obtain ⟨wf, n, bytes, hw, -⟩ := C29_v4_reencode max _ _ p h
    obtain ⟨-, h2, -⟩ := C81_v4_sends_conforming p wf h4
    refine ⟨n, ?_⟩
    have hk : say p = dropEmpty k := by
      cases k <;> simp only [result] at hr <;> try (injection hr with hr; subst hr; rfl)
      · split at hr
        · exact absurd hr (by simp)
        rename_i cs ka id w u pw _ s hs
        injection hr with hr; subst hr
        have hs2 := str_of_text hs
        have e1 : ((login (u.getD "") s).bind fun l => Std5.unlessEmpty l.username) = u.filter (· ≠ "") := by
          unfold login
          split
          · rename_i h; cases u <;> simp_all [Option.filter]
          · simp only [Option.bind_some, Std5.unlessEmpty]
            cases u with
            | none => simp
            | some a => by_cases h : a = "" <;> simp [h, Option.filter]
        have hse : s = "" ↔ utf8 s = [] := by
          constructor
          · rintro rfl; rfl
          · intro e
            rw [hs2] at e
            rw [e] at hs
            have h0 : text [] = some "" := by decide +kernel
            rw [h0] at hs; exact (Option.some.inj hs).symm
        have e2 : ((login (u.getD "") s).bind fun l => (Std5.unlessEmpty l.password).map utf8) = pw.filter (· ≠ []) := by
          have key : (Std5.unlessEmpty s).map utf8 = pw.filter (· ≠ []) := by
            unfold Std5.unlessEmpty
            cases pw with
            | none => simp only [Option.getD_none] at hs2; simp [hse, hs2]
            | some b =>
              simp only [Option.getD_some] at hs2
              by_cases h : s = ""
              · have := hse.1 h; rw [hs2] at this; simp [h, this, Option.filter]
              · have : b ≠ [] := fun e => h (hse.2 (hs2.trans e))
                simp [h, this, hs2, Option.filter]
          unfold login
          split
          · rename_i h; rw [← key]; simp [h.2, Std5.unlessEmpty]
          · exact key
        simp only [say, dropEmpty, e1, e2]
        congr 1
        cases w <;> simp
      · injection hr with hr; subst hr
        rename_i id ss
        simp only [say, dropEmpty, List.map_map]
        congr 1
        exact List.map_id' ss
    rw [← hk, ← h2, hw]
  · cases k with
    | connect cs ka id w u pw =>
      simp only [dropEmpty, Ctl.connect.injEq, true_and]
      constructor
      · rintro ⟨h1, h2⟩ cs ka id w u' pw' ⟨-, -, -, -, rfl, rfl⟩
        constructor
        · rintro rfl; simp at h1
        · rintro rfl; simp at h2
      · intro h
        obtain ⟨h1, h2⟩ := h cs ka id w u pw ⟨rfl, rfl, rfl, rfl, rfl, rfl⟩
        constructor
        · cases u with
          | none => rfl
          | some a => have : a ≠ "" := fun e => h1 (by rw [e]); simp [this]
        · cases pw with
          | none => rfl
          | some a => have : a ≠ [] := fun e => h2 (by rw [e]); simp [this]
    | _ => simp [dropEmpty]

/-- a conforming CONNECT with an empty user name: only that is dropped -/
example : V4.read 99 (Spec.Std4.encode (.connect true 5 "c" none (some "") (some [112])))
      = (.ok (.Connect ⟨.V4, 5, "c", true, none, some ⟨"", "p"⟩⟩), [])
    ∧ (Packet.write (.Connect ⟨.V4, 5, "c", true, none, some ⟨"", "p"⟩⟩) []).2
      = Spec.Std4.encode (.connect true 5 "c" none none (some [112])) := by decide +kernel

end V4
end Props
