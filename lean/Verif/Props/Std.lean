import Verif.Spec.Std
import Verif.Props.V5Sections
import Verif.Props.Errors
import Verif.Proof.V5Readable
/-! What the decoders make of everything a conforming peer can send (C79 for MQTT 5, C80 for MQTT 3.1.1). -/
set_option linter.unusedSimpArgs false
namespace Props
open Mqtt Spec

section V5
open Mqtt.V5
open Spec.V5 (Property Kind SecDenotes SetDenotes Readable vbis sec encAll)
open Spec.V4 (bit typeNum)
open Spec.Std5

theorem kindAt_of {pl : Place} {k : Nat → Option Kind} (h1 : ∀ i < 43, kindAt pl i = k i)
    (h2 : ∀ i, 43 ≤ i → k i = none) (i : Nat) : kindAt pl i = k i := by
  by_cases h : i < 43
  · exact h1 i h
  · rw [h2 i (by omega)]
    unfold kindAt
    rw [List.find?_eq_none.2]; rfl
    intro e he
    have : e.1 < 43 := by
      revert e; decide
    simp; omega

/-- C79: the properties the decoder takes in each packet, and their types, are those of table 2-4 of the standard. -/
theorem C79_v5_property_tables (i : Nat) :
    kindAt .connect i = Spec.V5.connectKind i ∧ kindAt .will i = Spec.V5.willKind i
    ∧ kindAt .connack i = Spec.V5.connackKind i ∧ kindAt .publish i = Spec.V5.publishKind i
    ∧ kindAt .puback i = Spec.V5.reasonKind i ∧ kindAt .pubrec i = Spec.V5.reasonKind i
    ∧ kindAt .pubrel i = Spec.V5.reasonKind i ∧ kindAt .pubcomp i = Spec.V5.reasonKind i
    ∧ kindAt .subscribe i = Spec.V5.subscribeKind i ∧ kindAt .suback i = Spec.V5.reasonKind i
    ∧ kindAt .unsubscribe i = Spec.V5.unsubscribeKind i ∧ kindAt .unsuback i = Spec.V5.reasonKind i
    ∧ kindAt .disconnect i = Spec.V5.disconnectKind i := by
  refine ⟨?_, ?_, ?_, ?_, ?_, ?_, ?_, ?_, ?_, ?_, ?_, ?_, ?_⟩ <;>
    exact kindAt_of (by decide +kernel) (by
      intro i hi
      simp only [Spec.V5.connectKind, Spec.V5.willKind, Spec.V5.connackKind, Spec.V5.publishKind, Spec.V5.reasonKind,
        Spec.V5.subscribeKind, Spec.V5.unsubscribeKind, Spec.V5.disconnectKind]
      split <;> first | rfl | omega) i

theorem propsOk_readable {pl : Place} {ps : List Property} (h : PropsOk pl ps) (hp : pl ≠ .publish) : Readable ps := by
  refine C42_readable_of_one ps ?_
  have h1 := h.2 11 (by rintro (h | ⟨h, _⟩) <;> [omega; exact hp h])
  refine Nat.le_trans ?_ h1
  unfold vbis
  refine List.Sublist.length_le ?_
  have e : ps.filter (fun p => p.val.kind = .vbi) = (ps.filter (fun p => p.id = 11)).filter (fun p => p.val.kind = .vbi) := by
    rw [List.filter_filter]
    refine List.filter_congr fun p hp => ?_
    by_cases hv : p.val.kind = .vbi
    · have := (h.1 p hp).1
      rw [hv] at this
      have : p.id = 11 := by
        unfold kindAt at this
        obtain ⟨e, he, hk⟩ := Option.map_eq_some_iff.1 this
        have h2 := List.find?_some he
        have h3 := List.mem_of_find?_eq_some he
        have h4 : ∀ e ∈ table, e.2.1 = .vbi → e.1 = 11 := by decide
        have := h4 e h3 hk
        simp at h2; omega
      simp [hv, this]
    · simp [hv]
  rw [e]
  exact List.filter_sublist

theorem kindAt_lt {pl : Place} {i : Nat} {k : Kind} (h1 : kindAt pl i = some k) : i < 256 := by
  unfold kindAt at h1
  obtain ⟨e, he, _⟩ := Option.map_eq_some_iff.1 h1
  have h2 := List.find?_some he
  have h3 := List.mem_of_find?_eq_some he
  have h4 : ∀ e ∈ table, e.1 < 256 := by decide
  have := h4 e h3
  simp at h2; omega

theorem std_set {pl : Place} {π : Type} {kind : Nat → Option Kind} {dec : List Property → π} {ps : List Property}
    (hk : ∀ i, kindAt pl i = kind i) (h : PropsOk pl ps) (hr : Readable ps) (hl : (sec ps).length ≤ maxRemaining) :
    SetDenotes kind dec (sec ps) (Spec.Std5.props dec ps) := by
  unfold Spec.Std5.props
  split
  · subst ps
    exact ⟨none, ⟨vbi_isVbi (n := 0) (by decide), rfl⟩, rfl⟩
  · rename_i hne
    refine ⟨some ps, sec_denotes kind ps hne (fun q hq => ?_) (fun q hq => (h.1 q hq).2) hr ?_, rfl⟩
    · have h1 := (h.1 q hq).1
      exact ⟨kindAt_lt h1, by rw [← hk]; exact h1⟩
    · simp only [sec, List.length_append] at hl; omega

/-- a short or long acknowledgement -/
theorem std_ack {pl : Place} {R : Type} {code : R → Nat} {d : R} (hd : code d = 0) {id : UInt16} {c : Option R}
    {ps : Option (List Property)} (hk : ∀ i, kindAt pl i = Spec.V5.reasonKind i) (hp : pl ≠ .publish)
    (h : ShortOk pl c ps)
    (hl : (u16 id.toNat ++ maybe (fun r => u8 (code r)) c ++ maybe sec ps).length ≤ maxRemaining) :
    Spec.V5.AckDenotes code (u16 id.toNat ++ maybe (fun r => u8 (code r)) c ++ maybe sec ps)
      ⟨id, c.getD d, Spec.Std5.props Spec.V5.reasonOf (ps.getD [])⟩ := by
  cases ps with
  | none =>
    cases c with
    | none => exact .inl ⟨by simp [maybe], hd, rfl⟩
    | some c => exact .inr (.inl ⟨by simp [maybe], rfl⟩)
  | some ps =>
    obtain ⟨hs, hok⟩ := h ps rfl
    cases c with
    | none => simp at hs
    | some c =>
      refine .inr (.inr ⟨sec ps, [], by simp [maybe], std_set hk hok (propsOk_readable hok hp) ?_⟩)
      simp only [maybe, List.length_append] at hl; omega

theorem str_of_text {b : Bytes} {s : String} (h : text b = some s) : utf8 s = b := (fromUtf8_iff b s).1 h

theorem std_flags (cs : Bool) (w : Option Will) (u : Option String) (pw : Option Bytes) :
    let f := UInt8.ofNat (Spec.Std5.connectFlags cs w u pw)
    (cs = true ↔ bit f 1) ∧ (u.isSome = true ↔ bit f 7) ∧ (pw.isSome = true ↔ bit f 6) ∧
    (match w with
      | none => ¬ bit f 2 ∧ ¬ bit f 3 ∧ ¬ bit f 4 ∧ ¬ bit f 5
      | some w => bit f 2 ∧ f.toNat / 8 % 4 = Spec.V4.qosNum w.qos ∧ (w.retain = true ↔ bit f 5)) := by
  have hb := flags_bits5 cs (w.map fun w => (w.qos, w.retain)) u.isSome pw.isSome
  cases w <;> exact hb

theorem std_will {f : UInt8} {w : Option Will}
    (hf : match w with
      | none => ¬ bit f 2 ∧ ¬ bit f 3 ∧ ¬ bit f 4 ∧ ¬ bit f 5
      | some w => bit f 2 ∧ f.toNat / 8 % 4 = Spec.V4.qosNum w.qos ∧ (w.retain = true ↔ bit f 5))
    (h : ∀ x, w = some x → PropsOk .will x.props ∧ fits (utf8 x.topic).length ∧ fits x.payload.length)
    (hl : (maybe (fun w : Will => sec w.props ++ str w.topic ++ bin w.payload) w).length ≤ maxRemaining) :
    Spec.V5.WillDenotes f (maybe (fun w : Will => sec w.props ++ str w.topic ++ bin w.payload) w)
      (w.map fun w => ⟨w.topic, w.payload, w.qos, w.retain, Spec.Std5.props Spec.V5.willOf w.props⟩) := by
  cases w with
  | none => exact ⟨hf.1, hf.2.1, hf.2.2.1, hf.2.2.2, rfl⟩
  | some w =>
    obtain ⟨h1, h2, h3⟩ := h w rfl
    refine ⟨hf.1, hf.2.1, hf.2.2, h2, h3, sec w.props, rfl, std_set (fun i => (C79_v5_property_tables i).2.1) h1
      (propsOk_readable h1 (by decide)) ?_⟩
    simp only [maybe, List.length_append] at hl; omega

theorem std_login {f : UInt8} {u : Option String} {pw : Option Bytes} {s : String}
    (h7 : u.isSome = true ↔ bit f 7) (h6 : pw.isSome = true ↔ bit f 6)
    (hu : ∀ x, u = some x → fits (utf8 x).length) (hp : ∀ x, pw = some x → fits x.length)
    (ht : text (pw.getD []) = some s) :
    fits (utf8 (u.getD "")).length ∧ fits (utf8 s).length ∧ (¬ bit f 7 → u.getD "" = "") ∧ (¬ bit f 6 → s = "")
      ∧ maybe str u ++ maybe bin pw = (if bit f 7 then str (u.getD "") else []) ++ (if bit f 6 then str s else []) := by
  have hs := str_of_text ht
  refine ⟨?_, ?_, ?_, ?_, ?_⟩
  · cases u with
    | none => decide +kernel
    | some u => exact hu u rfl
  · cases pw with
    | none => rw [hs]; decide
    | some pw => rw [hs]; exact hp pw rfl
  · intro h; cases u with
    | none => rfl
    | some u => exact absurd (h7.1 rfl) h
  · intro h; cases pw with
    | none =>
      have : text [] = some "" := by decide +kernel
      simp only [Option.getD_none] at ht
      rw [this] at ht; exact (Option.some.inj ht).symm
    | some u => exact absurd (h6.1 rfl) h
  · congr 1
    · cases u with
      | none => rw [if_neg (by rw [← h7]; simp)]; rfl
      | some u => rw [if_pos (by rw [← h7]; simp)]; rfl
    · cases pw with
      | none => rw [if_neg (by rw [← h6]; simp)]; rfl
      | some u => rw [if_pos (by rw [← h6]; simp), Spec.str, hs]; rfl

theorem std_login_fails {f : UInt8} {u : Option String} {pw : Option Bytes}
    (h7 : u.isSome = true ↔ bit f 7) (h6 : pw.isSome = true ↔ bit f 6)
    (hu : ∀ x, u = some x → fits (utf8 x).length) (hp : ∀ x, pw = some x → fits x.length)
    (ht : text (pw.getD []) = none) :
    Spec.V4.LoginFails f (maybe str u ++ maybe bin pw) .TopicNotUtf8 := by
  cases pw with
  | none => exact absurd ht (by decide +kernel)
  | some pw =>
    have h6 := h6.1 rfl
    have hs : StrFails (bin pw) .TopicNotUtf8 := by
      refine .inr ⟨pw, [], hp pw rfl, by simp, ?_, rfl⟩
      intro v hv
      have := (fromUtf8_iff pw v).2 hv
      simp only [Option.getD_some] at ht
      exact absurd (this.symm.trans ht) (by simp)
    cases u with
    | none => exact .password (by rw [← h7]; simp) h6 hs
    | some u => exact .password' (h7.1 rfl) (hu u rfl) h6 hs

/-- what a conforming packet that is not refused denotes -/
theorem std_denotes (k : Ctl) (p : Packet) (hv : Valid k) (hc : Counted k) (hr : result k = .ok p) :
    Spec.V5.Denotes (UInt8.ofNat (Spec.Std5.byte1 k)) (Spec.Std5.body k) p := by
  obtain ⟨hl, hv⟩ := hv
  have T := C79_v5_property_tables
  cases k with
  | connect cs ka ps id w u pw =>
    obtain ⟨h1, h2, h3, h4, h5⟩ := hv
    simp only [result] at hr
    cases ht : text (pw.getD []) with
    | none => rw [ht] at hr; simp at hr
    | some s =>
      rw [ht] at hr
      simp only [Res.ok.injEq] at hr
      subst hr
      obtain ⟨f1, f7, f6, fw⟩ := std_flags cs w u pw
      simp only [Spec.Std5.body, List.length_append] at hl
      obtain ⟨l1, l2, l3, l4, l5⟩ := std_login f7 f6 h4 h5 ht
      refine ⟨by simp [typeNum, Spec.Std5.byte1], _, sec ps, _, maybe str u ++ maybe bin pw, [], ?_, ?_, h2, f1, std_will fw h3 (by omega),
        _, _, l1, l2, l3, l4, l5, rfl⟩
      · simp [Spec.Std5.body, Spec.u8, Spec.V4.level]
      · exact std_set (fun i => (T i).1) h1 (propsOk_readable h1 (by decide)) (by omega)
  | connack sp c ps =>
    cases hr
    simp only [Spec.Std5.body, List.length_append] at hl
    refine ⟨by simp [typeNum, Spec.Std5.byte1], UInt8.ofNat (flag sp 1), sec ps, [], by simp [Spec.Std5.body, Spec.u8], ?_, ?_⟩
    · cases sp <;> simp only <;> decide
    · exact std_set (fun i => (T i).2.2.1) hv (propsOk_readable hv (by decide)) (by omega)
  | publish d q r t id ps pl =>
    cases hr
    simp only [Spec.Std5.body, List.length_append] at hl
    exact ⟨rfl, sec ps, rfl, hv.2.1, hv.2.2, std_set (fun i => (T i).2.2.2.1) hv.1 hc (by omega)⟩
  | puback id c ps =>
    cases hr
    exact ⟨by simp [typeNum, Spec.Std5.byte1], std_ack (code := Spec.V5.pubackCode) (d := .Success) rfl (fun i => (T i).2.2.2.2.1) (by decide) hv hl⟩
  | pubrec id c ps =>
    cases hr
    exact ⟨by simp [typeNum, Spec.Std5.byte1], std_ack (code := Spec.V5.pubrecCode) (d := .Success) rfl (fun i => (T i).2.2.2.2.2.1) (by decide) hv hl⟩
  | pubrel id c ps =>
    cases hr
    exact ⟨by simp [typeNum, Spec.Std5.byte1], std_ack (code := Spec.V5.pubrelCode) (d := .Success) rfl (fun i => (T i).2.2.2.2.2.2.1) (by decide) hv hl⟩
  | pubcomp id c ps =>
    cases hr
    exact ⟨by simp [typeNum, Spec.Std5.byte1], std_ack (code := Spec.V5.pubcompCode) (d := .Success) rfl (fun i => (T i).2.2.2.2.2.2.2.1) (by decide) hv hl⟩
  | subscribe id ps ss =>
    cases hr
    simp only [Spec.Std5.body, List.length_append] at hl
    have := Mqtt.V5.filters_denote (ss.map filter) (by
      intro f hf
      obtain ⟨s, hs, rfl⟩ := List.mem_map.1 hf
      exact hv.2 s hs)
    rw [List.flatMap_map] at this
    exact ⟨by simp [typeNum, Spec.Std5.byte1], sec ps, _, rfl, std_set (fun i => (T i).2.2.2.2.2.2.2.2.1) hv.1
      (propsOk_readable hv.1 (by decide)) (by omega), this⟩
  | suback id ps cs =>
    cases hr
    simp only [Spec.Std5.body, List.length_append] at hl
    exact ⟨by simp [typeNum, Spec.Std5.byte1], sec ps, rfl, std_set (fun i => (T i).2.2.2.2.2.2.2.2.2.1) hv.1
      (propsOk_readable hv.1 (by decide)) (by omega), hv.2⟩
  | unsubscribe id ps fs =>
    cases hr
    simp only [Spec.Std5.body, List.length_append] at hl
    exact ⟨by simp [typeNum, Spec.Std5.byte1], sec ps, rfl, std_set (fun i => (T i).2.2.2.2.2.2.2.2.2.2.1) hv.1
      (propsOk_readable hv.1 (by decide)) (by omega), hv.2⟩
  | unsuback id ps cs =>
    cases hr
    simp only [Spec.Std5.body, List.length_append] at hl
    exact ⟨by simp [typeNum, Spec.Std5.byte1], sec ps, rfl, std_set (fun i => (T i).2.2.2.2.2.2.2.2.2.2.2.1) hv.1
      (propsOk_readable hv.1 (by decide)) (by omega), hv.2⟩
  | pingreq => cases hr; show typeNum _ = 12; decide
  | pingresp => cases hr; show typeNum _ = 13; decide
  | disconnect c ps =>
    cases c with
    | none => simp [result] at hr
    | some c =>
      cases ps with
      | none => simp [result] at hr
      | some ps =>
        cases hr
        simp only [Spec.Std5.body, maybe, List.length_append] at hl
        have h1 := (hv ps rfl).2
        exact ⟨rfl, sec ps, [], by simp [Spec.Std5.body, maybe], std_set (fun i => (T i).2.2.2.2.2.2.2.2.2.2.2.2) h1
          (propsOk_readable h1 (by decide)) (by omega)⟩
  | auth c ps => simp [result] at hr

/-- why a conforming packet that is refused is refused -/
theorem std_rejects (k : Ctl) (e : Error) (hv : Valid k) (hr : result k = .err e) :
    Spec.V5.Rejects (UInt8.ofNat (Spec.Std5.byte1 k)) (Spec.Std5.body k) e := by
  obtain ⟨hl, hv⟩ := hv
  have T := C79_v5_property_tables
  cases k with
  | connect cs ka ps id w u pw =>
    obtain ⟨h1, h2, h3, h4, h5⟩ := hv
    simp only [result] at hr
    cases ht : text (pw.getD []) with
    | some s => rw [ht] at hr; simp at hr
    | none =>
      rw [ht] at hr
      simp only [Res.err.injEq] at hr
      subst hr
      obtain ⟨f1, f7, f6, fw⟩ := std_flags cs w u pw
      simp only [Spec.Std5.body, List.length_append] at hl
      have hset : SetDenotes Spec.V5.connectKind Spec.V5.connectOf (sec ps) _ :=
        std_set (fun i => (T i).1) h1 (propsOk_readable h1 (by decide)) (by omega)
      obtain ⟨ps', hs, _⟩ := hset
      have := Spec.V5.ConnectFails.login (lv := 5) (f := UInt8.ofNat (Spec.Std5.connectFlags cs w u pw)) (k := ka.toNat)
        (sec := sec ps) (id := id) (.inr rfl) ka.toNat_lt (by unfold Spec.V5.ConnSec; rw [if_pos rfl]; exact ⟨ps', hs⟩) h2
        (std_will fw h3 (by omega)) (std_login_fails f7 f6 h4 h5 ht)
      unfold Spec.V5.Rejects
      simp only [typeNum, Spec.Std5.byte1, show (UInt8.ofNat 0x10).toNat / 16 = 1 from rfl]
      rw [if_neg (by simp [Spec.Std5.body, Spec.u8])]
      simpa [Spec.Std5.body, Spec.u8] using this
  | disconnect c ps =>
    cases c with
    | none =>
      cases ps with
      | none =>
        cases hr
        unfold Spec.V5.Rejects
        simp only [typeNum, Spec.Std5.byte1, show (UInt8.ofNat 0xE0).toNat / 16 = 14 from rfl]
        simp [Spec.Std5.body, maybe]
      | some ps => exact absurd (hv ps rfl).1 (by simp)
    | some c =>
      cases ps with
      | none =>
        cases hr
        unfold Spec.V5.Rejects
        simp only [typeNum, Spec.Std5.byte1, show (UInt8.ofNat 0xE0).toNat / 16 = 14 from rfl]
        rw [if_neg (by simp [Spec.Std5.body, Spec.Std5.maybe, Spec.u8])]
        exact .props (t := []) rfl (.length (.inl ⟨by simp [typeNum, Spec.Std5.byte1], by simp, rfl⟩))
      | some ps => simp [result] at hr
  | auth c ps =>
    cases hr
    unfold Spec.V5.Rejects
    simp only [typeNum, Spec.Std5.byte1, show (UInt8.ofNat 0xF0).toNat / 16 = 15 from rfl]
    rfl
  | _ => simp [result] at hr

/-- C79: `v5::read` on anything a conforming MQTT 5 peer may send (within the size limit; a PUBLISH whose several
subscription identifiers the decoder does not miscount): the packet or error that `Std5.result` lists, and exactly the
packet's bytes are removed. -/
theorem C79_v5_conforming (k : Ctl) (hv : Valid k) (hc : Counted k) (max : Nat) (hm : (Spec.Std5.body k).length ≤ max)
    (rest : Bytes) : V5.read max (Spec.Std5.encode k ++ rest) = (result k, rest) := by
  have hl := hv.1
  have e : Spec.Std5.encode k ++ rest = UInt8.ofNat (Spec.Std5.byte1 k)
      :: (vbi (Spec.Std5.body k).length ++ (Spec.Std5.body k ++ rest)) := by
    simp [Spec.Std5.encode, frame, Spec.u8]
  cases hr : result k with
  | ok p => exact (read_ok_iff max _ rest p).2 ⟨_, _, _, e, vbi_isVbi hl, vbiValue_vbi hl, hm, std_denotes k p hv hc hr⟩
  | err er =>
    exact (C62_v5_read_err_iff max _ rest er).2
      (.inr ⟨_, _, _, e, vbi_isVbi hl, vbiValue_vbi hl, hm, std_rejects k er hv hr⟩)
  | panic =>
    exfalso
    cases k with
    | connect cs ka ps id w u pw =>
      simp only [result] at hr
      split at hr <;> simp at hr
    | disconnect c ps => cases c <;> cases ps <;> simp [result] at hr
    | _ => simp [result] at hr
  | diverge =>
    exfalso
    cases k with
    | connect cs ka ps id w u pw =>
      simp only [result] at hr
      split at hr <;> simp at hr
    | disconnect c ps => cases c <;> cases ps <;> simp [result] at hr
    | _ => simp [result] at hr

/-- C79: a conforming packet is refused in these cases only: CONNECT with a password that is not UTF-8, DISCONNECT
without reason code or without property length, AUTH. -/
theorem C79_v5_refused_iff (k : Ctl) (hv : Valid k) (hc : Counted k) (max : Nat) (hm : (Spec.Std5.body k).length ≤ max)
    (rest : Bytes) :
    (∀ p, V5.read max (Spec.Std5.encode k ++ rest) ≠ (.ok p, rest)) ↔
      (∃ cs ka ps id w u pw, k = .connect cs ka ps id w u (some pw) ∧ ∀ s, utf8 s ≠ pw)
      ∨ (∃ c, k = .disconnect c none) ∨ (∃ c ps, k = .auth c ps) := by
  rw [C79_v5_conforming k hv hc max hm rest]
  cases k with
  | connect cs ka ps id w u pw =>
    simp only [result]
    cases ht : text (pw.getD []) with
    | none =>
      cases pw with
      | none => exact absurd ht (by decide +kernel)
      | some pw =>
        simp only [Prod.mk.injEq, reduceCtorEq, false_and, ne_eq, not_false_eq_true, implies_true, true_iff]
        refine .inl ⟨_, _, _, _, _, _, _, rfl, fun s hs => ?_⟩
        exact absurd (((fromUtf8_iff pw s).2 hs).symm.trans ht) (by simp)
    | some s =>
      simp only [Prod.mk.injEq, Res.ok.injEq, and_true, ne_eq, reduceCtorEq, exists_false, or_false]
      constructor
      · intro h; exact absurd rfl (h _)
      · rintro ⟨_, _, _, _, _, _, pw', h, hn⟩
        cases h
        exact absurd (str_of_text ht) (hn s)
  | disconnect c ps =>
    cases c with
    | none => cases ps with
      | none => simp [result]
      | some ps => exact absurd (hv.2 ps rfl).1 (by simp)
    | some c => cases ps <;> simp [result]
  | _ => simp [result]

/-- hypotheses met: an AUTH packet -/
example (p : V5.Packet) : V5.read 99 (Spec.Std5.encode (.auth (some 24) (some [⟨21, .str "x"⟩])) ++ [7]) ≠ (.ok p, [7]) :=
  (C79_v5_refused_iff (.auth (some 24) (some [⟨21, .str "x"⟩]))
    ⟨by decide +kernel, fun l hl => by
      cases hl
      refine ⟨rfl, fun p hp => ?_, fun i _ => ?_⟩
      · obtain rfl := List.mem_singleton.1 hp
        exact ⟨by decide, by show (utf8 "x").length ≤ 65535; decide +kernel⟩
      · by_cases h : (21 : Nat) = i <;> simp [h]⟩
    trivial 99 (by decide +kernel) [7]).2
    (.inr (.inr ⟨_, _, rfl⟩)) p


/-- C79, the remaining case: a conforming PUBLISH whose several subscription identifiers are miscounted is accepted, but as
another one: only a first part `a` of its properties is recognised and the bytes of the others are put in front of the
payload. -/
theorem C79_v5_miscounted (d : Bool) (q : QoS) (r : Bool) (t : String) (id : UInt16) (ps : List Property) (pl : Bytes)
    (hv : Valid (.publish d q r t id ps pl)) (hc : ¬ Counted (.publish d q r t id ps pl)) :
    ∃ a b, ps = a ++ b ∧ a ≠ [] ∧ b ≠ [] ∧ ∀ max rest, (Spec.Std5.body (.publish d q r t id ps pl)).length ≤ max →
      V5.read max (Spec.Std5.encode (.publish d q r t id ps pl) ++ rest)
        = (.ok (.Publish ⟨d, q, r, t, id, some (Spec.V5.publishOf a), encAll b ++ pl⟩), rest) := by
  obtain ⟨a, b, e, hb, h3, h4⟩ := not_readable hc
  have ha : a ≠ [] := by
    rintro rfl
    have := encAll_pos hb
    have h0 : vbis ([] : List Property) = 0 := rfl
    omega
  refine ⟨a, b, e, ha, hb, fun max rest hm => ?_⟩
  have hl := hv.1
  refine (read_ok_iff max _ rest _).2 ⟨UInt8.ofNat (Spec.Std5.byte1 (.publish d q r t id ps pl)), _, _, ?_, vbi_isVbi hl,
    vbiValue_vbi hl, hm, rfl, vbi (encAll ps).length ++ encAll a, ?_, hv.2.2.1, hv.2.2.2, some a, ?_, rfl⟩
  · simp [Spec.Std5.encode, frame, Spec.u8]
  · simp [Spec.Std5.body, sec, e, encAll_append]
  · have hle : (encAll ps).length ≤ maxRemaining := by
      simp only [Spec.Std5.body, sec, List.length_append] at hl; omega
    refine ⟨_, _, rfl, vbi_isVbi hle, ?_, ?_⟩
    · rw [vbiValue_vbi hle]
      have := encAll_pos ha
      rw [e, encAll_append, List.length_append]; omega
    · rw [vbiValue_vbi hle]
      refine propSeq_overrun _ e (fun x hx => ?_) (fun x hx => (hv.2.1.1 x hx).2) h3 h4
      have h1 := (hv.2.1.1 x hx).1
      refine ⟨kindAt_lt h1, ?_⟩
      rw [← (C79_v5_property_tables x.id).2.2.2.1]; exact h1

/-- hypotheses met: a broker forwards a message that matches three subscriptions with identifiers 1, 2, 3 -/
example :
    let ps : List Property := [⟨11, .vbi 1⟩, ⟨11, .vbi 2⟩, ⟨11, .vbi 3⟩]
    let k : Ctl := .publish false .AtMostOnce false "a" 0 ps [99]
    Valid k ∧ ¬ Counted k ∧ V5.read 99 (Spec.Std5.encode k)
      = (.ok (.Publish ⟨false, .AtMostOnce, false, "a", 0, some ⟨none, none, none, none, none, [], [1, 2], none⟩,
          [11, 3, 99]⟩), []) := by
  refine ⟨⟨by decide +kernel, ⟨?_, ?_⟩, ?_, by simp⟩, ?_, by decide +kernel⟩
  · intro p hp
    simp at hp
    rcases hp with rfl | rfl | rfl <;> exact ⟨by decide, by show _ ≤ maxRemaining; decide⟩
  · intro i hi
    by_cases h : (11 : Nat) = i
    · exact absurd (.inr ⟨rfl, h.symm⟩) hi
    · simp [h]
  · show (utf8 "a").length ≤ 65535; decide +kernel
  · intro h
    exact absurd (h [⟨11, .vbi 1⟩, ⟨11, .vbi 2⟩] [⟨11, .vbi 3⟩] rfl (by simp)) (by decide)

/-- hypotheses met by a CONNECT with a will, properties out of order and an empty user name; its exact result -/
example :
    let k : Ctl := .connect true 60 [⟨38, .pair "a" "b"⟩, ⟨17, .u32 5⟩] "c" (some ⟨.AtLeastOnce, true, [], "t", [1]⟩)
      (some "") (some [112, 119])
    Valid k ∧ Counted k ∧ result k = .ok (.Connect ⟨.V5, 60, "c", true, some ⟨"t", [1], .AtLeastOnce, true, none⟩,
      some ⟨"", "pw"⟩, some ⟨some 5, none, none, none, none, none, [("a", "b")], none, none⟩⟩) := by
  refine ⟨⟨by decide +kernel, ⟨?_, ?_⟩, ?_, ?_, ?_, ?_⟩, trivial, by decide +kernel⟩
  · intro p hp
    simp at hp
    rcases hp with rfl | rfl
    · exact ⟨by decide, by show (utf8 "a").length ≤ 65535; decide +kernel, by show (utf8 "b").length ≤ 65535; decide +kernel⟩
    · exact ⟨by decide, trivial⟩
  · intro i hi
    by_cases h1 : (38 : Nat) = i
    · exact absurd (.inl h1.symm) hi
    · by_cases h2 : (17 : Nat) = i
      · subst h2; decide
      · simp [h1, h2]
  · show (utf8 "c").length ≤ 65535; decide +kernel
  · rintro x hx; cases hx
    exact ⟨⟨by simp, by simp⟩, by show (utf8 "t").length ≤ 65535; decide +kernel, by show 1 ≤ 65535; decide⟩
  · rintro x hx; cases hx; show (utf8 "").length ≤ 65535; decide +kernel
  · rintro x hx; cases hx; show 2 ≤ 65535; decide

/-- the refusals occur: a binary password, both short DISCONNECTs, AUTH -/
example : V5.read 99 (Spec.Std5.encode (.connect true 60 [] "c" none (some "u") (some [0xFF])) ++ [7])
      = (.err .TopicNotUtf8, [7])
    ∧ V5.read 99 (Spec.Std5.encode (.disconnect none none) ++ [7]) = (.err .PayloadRequired, [7])
    ∧ V5.read 99 (Spec.Std5.encode (.disconnect (some .ServerBusy) none) ++ [7]) = (.err (.InsufficientBytes 1), [7])
    ∧ V5.read 99 (Spec.Std5.encode (.auth (some 24) (some [⟨21, .str "x"⟩])) ++ [7])
      = (.err (.InvalidPacketType 15), [7]) := by decide +kernel

end V5

section V4
open Mqtt.V4
open Spec.Std4

/-- C80: `v4::read` on anything a conforming MQTT 3.1.1 peer may send (within the size limit): the packet or error that
`Std4.result` lists, and exactly the packet's bytes are removed. -/
theorem C80_v4_conforming (k : Ctl) (hv : Valid k) (max : Nat) (hm : (Spec.Std4.body k).length ≤ max)
    (rest : Bytes) : V4.read max (Spec.Std4.encode k ++ rest) = (result k, rest) := by
  obtain ⟨hl, hv⟩ := hv
  have e : Spec.Std4.encode k ++ rest = UInt8.ofNat (Spec.Std4.byte1 k)
      :: (vbi (Spec.Std4.body k).length ++ (Spec.Std4.body k ++ rest)) := by
    simp [Spec.Std4.encode, frame, Spec.u8]
  have ok : ∀ p, result k = .ok p → Spec.V4.Denotes (UInt8.ofNat (Spec.Std4.byte1 k)) (Spec.Std4.body k) p →
      V4.read max (Spec.Std4.encode k ++ rest) = (result k, rest) := by
    intro p hr hd
    rw [hr]
    exact (V4.read_ok_iff max _ rest p).2 ⟨_, _, _, e, vbi_isVbi hl, vbiValue_vbi hl, hm, hd⟩
  cases k with
  | connect cs ka id w u pw =>
    obtain ⟨h2, h3, h4, h5⟩ := hv
    have hb := V4.flags_bits cs (w.map fun w => (w.qos, w.retain)) u.isSome pw.isSome
    obtain ⟨f1, f7, f6, fw⟩ : let f := UInt8.ofNat (Spec.Std4.connectFlags cs w u pw)
        (cs = true ↔ Spec.V4.bit f 1) ∧ (u.isSome = true ↔ Spec.V4.bit f 7) ∧ (pw.isSome = true ↔ Spec.V4.bit f 6) ∧
        (match w with
          | none => ¬ Spec.V4.bit f 2 ∧ ¬ Spec.V4.bit f 3 ∧ ¬ Spec.V4.bit f 4 ∧ ¬ Spec.V4.bit f 5
          | some w => Spec.V4.bit f 2 ∧ f.toNat / 8 % 4 = Spec.V4.qosNum w.qos ∧ (w.retain = true ↔ Spec.V4.bit f 5)) := by
      cases w <;> exact hb
    have hw : Spec.V4.WillDenotes (UInt8.ofNat (Spec.Std4.connectFlags cs w u pw))
        (Std5.maybe (fun w : Will => str w.topic ++ bin w.message) w)
        (w.map fun w => ⟨w.topic, w.message, w.qos, w.retain⟩) := by
      cases w with
      | none => exact ⟨fw.1, fw.2.1, fw.2.2.1, fw.2.2.2, rfl⟩
      | some w => exact ⟨fw.1, fw.2.1, fw.2.2, (h3 w rfl).1, (h3 w rfl).2, rfl⟩
    cases ht : text (pw.getD []) with
    | some s =>
      refine ok (.Connect ⟨.V4, ka, id, cs, w.map fun w => ⟨w.topic, w.message, w.qos, w.retain⟩, Spec.Std4.login (u.getD "") s⟩)
        (by simp only [result, ht]) ?_
      obtain ⟨l1, l2, l3, l4, l5⟩ := std_login f7 f6 h4 h5 ht
      refine ⟨by simp [Spec.V4.typeNum, Spec.Std4.byte1], UInt8.ofNat (Spec.Std4.connectFlags cs w u pw), _,
        Std5.maybe str u ++ Std5.maybe bin pw, [], ?_, h2, f1, hw, _, _, l1, l2, l3, l4, l5, rfl⟩
      simp [Spec.Std4.body, Spec.u8, Spec.V4.level]
    | none =>
      have hr : result (.connect cs ka id w u pw) = .err .TopicNotUtf8 := by simp only [result, ht]
      rw [hr]
      refine (C61_v4_read_err_iff max _ rest _).2 (.inr ⟨_, _, _, e, vbi_isVbi hl, vbiValue_vbi hl, hm, ?_⟩)
      have := Spec.V4.ConnectFails.login (lv := 4) (f := UInt8.ofNat (Spec.Std4.connectFlags cs w u pw)) (k := ka.toNat)
        (id := id) (.inl rfl) ka.toNat_lt h2 hw (std_login_fails f7 f6 h4 h5 ht)
      unfold Spec.V4.Rejects
      simp only [Spec.V4.typeNum, Spec.Std4.byte1, show (UInt8.ofNat 0x10).toNat / 16 = 1 from rfl]
      rw [if_neg (by simp [Spec.Std4.body, Spec.u8])]
      simpa [Spec.Std4.body, Spec.u8] using this
  | connack sp c =>
    refine ok _ rfl ⟨by simp [Spec.V4.typeNum, Spec.Std4.byte1], UInt8.ofNat (flag sp 1), [], by simp [Spec.Std4.body, Spec.u8], ?_⟩
    cases sp <;> simp only <;> decide
  | publish d q r t id pl => exact ok _ rfl ⟨rfl, rfl, hv.1, hv.2⟩
  | puback id => exact ok _ rfl ⟨by simp [Spec.V4.typeNum, Spec.Std4.byte1], [], by simp [Spec.Std4.body]⟩
  | pubrec id => exact ok _ rfl ⟨by simp [Spec.V4.typeNum, Spec.Std4.byte1], [], by simp [Spec.Std4.body]⟩
  | pubrel id => exact ok _ rfl ⟨by simp [Spec.V4.typeNum, Spec.Std4.byte1], [], by simp [Spec.Std4.body]⟩
  | pubcomp id => exact ok _ rfl ⟨by simp [Spec.V4.typeNum, Spec.Std4.byte1], [], by simp [Spec.Std4.body]⟩
  | subscribe id ss =>
    have := V4.filters_denote (ss.map fun s => ⟨s.1, s.2⟩) (by
      intro f hf
      obtain ⟨s, hs, rfl⟩ := List.mem_map.1 hf
      exact hv.2 s hs)
    rw [List.flatMap_map] at this
    exact ok _ rfl ⟨by simp [Spec.V4.typeNum, Spec.Std4.byte1], _, rfl, this, by simpa using hv.1⟩
  | suback id cs => exact ok _ rfl ⟨by simp [Spec.V4.typeNum, Spec.Std4.byte1], rfl, hv⟩
  | unsubscribe id fs => exact ok _ rfl ⟨by simp [Spec.V4.typeNum, Spec.Std4.byte1], rfl, hv⟩
  | unsuback id => exact ok _ rfl ⟨by simp [Spec.V4.typeNum, Spec.Std4.byte1], rfl⟩
  | pingreq => exact ok _ rfl (show Spec.V4.typeNum _ = 12 by decide)
  | pingresp => exact ok _ rfl (show Spec.V4.typeNum _ = 13 by decide)
  | disconnect => exact ok _ rfl (show Spec.V4.typeNum _ = 14 by decide)

/-- C80: of the conforming packets only a CONNECT with a password that is not UTF-8 is refused. -/
theorem C80_v4_refused_iff (k : Ctl) (hv : Valid k) (max : Nat) (hm : (Spec.Std4.body k).length ≤ max) (rest : Bytes) :
    (∀ p, V4.read max (Spec.Std4.encode k ++ rest) ≠ (.ok p, rest)) ↔
      ∃ cs ka id w u pw, k = .connect cs ka id w u (some pw) ∧ ∀ s, utf8 s ≠ pw := by
  rw [C80_v4_conforming k hv max hm rest]
  cases k with
  | connect cs ka id w u pw =>
    simp only [result]
    cases ht : text (pw.getD []) with
    | none =>
      cases pw with
      | none => exact absurd ht (by decide +kernel)
      | some pw =>
        simp only [Prod.mk.injEq, reduceCtorEq, false_and, ne_eq, not_false_eq_true, implies_true, true_iff]
        refine ⟨_, _, _, _, _, _, rfl, fun s hs => ?_⟩
        exact absurd (((fromUtf8_iff pw s).2 hs).symm.trans ht) (by simp)
    | some s =>
      simp only [Prod.mk.injEq, Res.ok.injEq, and_true, ne_eq]
      constructor
      · intro h; exact absurd rfl (h _)
      · rintro ⟨_, _, _, _, _, pw', h, hn⟩
        cases h
        exact absurd (str_of_text ht) (hn s)
  | _ => simp [result]

/-- hypotheses met, and the refusal occurs -/
example :
    Valid (.connect true 60 "c" none (some "u") (some [0xFF]))
    ∧ V4.read 99 (Spec.Std4.encode (.connect true 60 "c" none (some "u") (some [0xFF])) ++ [7]) = (.err .TopicNotUtf8, [7])
    ∧ V4.read 99 (Spec.Std4.encode (.connect true 60 "c" none (some "u") (some [])) ++ [7])
      = (.ok (.Connect ⟨.V4, 60, "c", true, none, some ⟨"u", ""⟩⟩), [7]) := by
  refine ⟨⟨by decide +kernel, ?_, by simp, ?_, ?_⟩, by decide +kernel, by decide +kernel⟩
  · show (utf8 "c").length ≤ 65535; decide +kernel
  · rintro x hx; cases hx; show (utf8 "u").length ≤ 65535; decide +kernel
  · rintro x hx; cases hx; show 1 ≤ 65535; decide

end V4
end Props
