import Verif.Proof.Strict5
import Verif.Proof.Grow
import Verif.Props.Strict
import Verif.Props.Patch
import Verif.Props.WriteExact
import Verif.Props.Cross2
/-! C127: when reading and writing again gives the same bytes (5.0). -/
set_option linter.unusedSimpArgs false
namespace Props
open Mqtt Mqtt.V5 Spec Spec.V5
open Spec.V4 (bit level qosNum typeNum LowBitsOk Shortest textLen)

section
variable {π : Type} {kind : Nat → Option Kind} {props : π → List Property} {dec : List Property → π}

theorem strict_sec (ho : Ordered kind props dec) {bytes : Bytes} {o : Option π} (h : SetDenotesBy StrictSec kind dec bytes o) :
    bytes = optSec props o := by
  obtain ⟨ps, h, rfl⟩ := h
  cases ps with
  | none => exact h
  | some ps =>
    obtain ⟨_, h, hk, is, many, hw, hi⟩ := h
    simp only [Option.map_some, optSec, ho.back is many ps hw (fun p hp => (hk p hp).1) hi]
    exact h

theorem sec_strict (ho : Ordered kind props dec) {step len write} (hs : PropSet kind props dec step len write) {o : Option π}
    (hf : PropsFit props o) (hn : NonEmpty props o) : SetDenotesBy StrictSec kind dec (optSec props o) o := by
  cases o with
  | none => exact ⟨none, rfl, rfl⟩
  | some x =>
    obtain ⟨is, many, hw, hi⟩ := ho.ord
    exact ⟨some (props x), ⟨hn x rfl, rfl, fun p hp => ⟨(hs.kinds x p hp).2, hf x rfl p hp⟩, is, many, hw, hi x⟩,
      by rw [Option.map_some, hs.dec_props]⟩
end

theorem lowBits5_iff {b1 : UInt8} {bd : Bytes} {p : Packet} (h : Denotes b1 bd p) :
    b1 = UInt8.ofNat (byte1 p) ↔ LowBitsOk b1 := by
  have key : ∀ t l : Nat, t < 16 → l < 16 → typeNum b1 = t → (t ≠ 3) →
      (l = if t = 6 ∨ t = 8 ∨ t = 10 then 2 else 0) → (b1 = UInt8.ofNat (t * 16 + l) ↔ LowBitsOk b1) := by
    intro t l ht hl h1 h3 h2
    unfold LowBitsOk
    rw [h1, ← h2, ← UInt8.toNat_inj, UInt8.toNat_ofNat']
    unfold typeNum at h1
    have := b1.toNat_lt
    rw [Nat.mod_eq_of_lt (by omega)]
    constructor
    · intro h; right; omega
    · rintro (h | h)
      · exact absurd h h3
      · omega
  cases p with
  | Publish q =>
    refine ⟨fun _ => .inl ?_, fun _ => h.1⟩
    rw [h.1]
    simp only [byte1, typeNum]
    cases q.dup <;> cases q.qos <;> cases q.retain <;> decide
  | Connect c => exact key 1 0 (by decide) (by decide) h.1 (by decide) rfl
  | ConnAck c => exact key 2 0 (by decide) (by decide) h.1 (by decide) rfl
  | PubAck c => exact key 4 0 (by decide) (by decide) h.1 (by decide) rfl
  | PubRec c => exact key 5 0 (by decide) (by decide) h.1 (by decide) rfl
  | PubRel c => exact key 6 2 (by decide) (by decide) h.1 (by decide) rfl
  | PubComp c => exact key 7 0 (by decide) (by decide) h.1 (by decide) rfl
  | Subscribe c => exact key 8 2 (by decide) (by decide) h.1 (by decide) rfl
  | SubAck c => exact key 9 0 (by decide) (by decide) h.1 (by decide) rfl
  | Unsubscribe c => exact key 10 2 (by decide) (by decide) h.1 (by decide) rfl
  | UnsubAck c => exact key 11 0 (by decide) (by decide) h.1 (by decide) rfl
  | PingReq => exact key 12 0 (by decide) (by decide) h (by decide) rfl
  | PingResp => exact key 13 0 (by decide) (by decide) h (by decide) rfl
  | Disconnect d => exact ⟨fun _ => .inr (by rw [h.1]; have : typeNum (UInt8.ofNat (14 * 16)) = 14 := rfl; simp only [byte1, this]; decide), fun _ => h.1⟩

theorem subOptions_lt (f : SubscribeFilter) : subOptions f < 64 := by
  unfold subOptions
  cases f.retain_forward_rule <;> cases f.preserve_retain <;> cases f.nolocal <;> cases f.qos <;> decide

theorem options5_iff {bd : Bytes} {fs : List SubscribeFilter} (h : FiltersDenote bd fs) :
    bd = (fs.flatMap fun f => str f.path ++ Spec.u8 (subOptions f)) ↔ PlainOptions bd fs := by
  induction h with
  | nil => exact ⟨fun _ => .nil, fun _ => rfl⟩
  | cons f opt bd fs hp ho h ih =>
    have hq := subOptions_lt f
    simp only [List.flatMap_cons]
    constructor
    · intro e
      simp only [List.append_assoc] at e
      have e := List.append_cancel_left e
      simp only [Spec.u8, List.cons_append, List.nil_append, List.cons.injEq] at e
      refine .cons f opt bd fs ?_ (ih.1 e.2)
      rw [e.1, UInt8.toNat_ofNat']; omega
    · intro hpl
      generalize hx : str f.path ++ [opt] ++ bd = x at hpl
      cases hpl with
      | cons _ opt' bd' _ ho' h' =>
        simp only [List.append_assoc] at hx
        have hx := List.append_cancel_left hx
        simp only [List.cons_append, List.nil_append, List.cons.injEq] at hx
        obtain ⟨rfl, rfl⟩ := hx
        have : opt = UInt8.ofNat (subOptions f) := by
          rw [← UInt8.toNat_inj, UInt8.toNat_ofNat']; omega
        rw [← ih.2 h', this]; simp [Spec.u8]

/-- the option bytes of filters in canonical form -/
theorem filters5_canonical : ∀ {fs : List SubscribeFilter}, (∀ f ∈ fs, fits (utf8 f.path).length) →
    FiltersDenote (fs.flatMap fun f => str f.path ++ Spec.u8 (subOptions f)) fs
  | [], _ => .nil
  | f :: fs, h => by
    rw [List.flatMap_cons]
    refine .cons f _ _ _ (h f (by simp)) ?_ (filters5_canonical fun g hg => h g (by simp [hg]))
    have := subOptions_lt f
    rw [UInt8.toNat_ofNat']; omega

theorem login5_len (l : Option Login) : (loginFields l).length = loginLen l := by
  cases l with
  | none => rfl
  | some l => simp only [loginFields, loginLen, List.length_append, text_len]

theorem will5_len (w : Option LastWill) : (willFields w).length = Spec.V5.willLen w := by
  cases w with
  | none => rfl
  | some w => simp [willFields, Spec.V5.willLen, secLen, str_len, bin, Spec.u16]; omega

theorem login5_strict {flags : UInt8} {bd : Bytes} {l : Option Login} (h : LoginDenotes flags bd l)
    (hl : bd.length ≤ (loginFields l).length) : bd = loginFields l ∧
      (bit flags 7 ↔ ∃ x, l = some x ∧ x.username ≠ "") ∧ (bit flags 6 ↔ ∃ x, l = some x ∧ x.password ≠ "") := by
  obtain ⟨u, p, h1, h2, h3, h4, rfl, rfl⟩ := h
  have pos := fun s => str_len s
  by_cases b7 : bit flags 7 <;> by_cases b6 : bit flags 6 <;> by_cases hu : u = "" <;> by_cases hp : p = "" <;>
    simp_all [loginFields] <;> omega

/-- the login and the flags that belong to it -/
theorem login5_canonical {flags : UInt8} {l : Option Login} (hf : ∀ x, l = some x → fits (utf8 x.username).length ∧ fits (utf8 x.password).length)
    (hn : ∀ x, l = some x → x.username ≠ "" ∨ x.password ≠ "")
    (h7 : bit flags 7 ↔ ∃ x, l = some x ∧ x.username ≠ "") (h6 : bit flags 6 ↔ ∃ x, l = some x ∧ x.password ≠ "") :
    LoginDenotes flags (loginFields l) l := by
  cases l with
  | none =>
    simp at h7 h6
    exact ⟨"", "", by decide +kernel, by decide +kernel, fun _ => rfl, fun _ => rfl, by simp [h7, h6, loginFields], by simp⟩
  | some x =>
    obtain ⟨f1, f2⟩ := hf x rfl
    have hn := hn x rfl
    refine ⟨x.username, x.password, f1, f2, ?_, ?_, ?_, ?_⟩
    · intro h; rw [h7] at h; simpa using h
    · intro h; rw [h6] at h; simpa using h
    · simp only [loginFields]
      by_cases hu : x.username = "" <;> by_cases hp : x.password = "" <;> simp [hu, hp] at h7 h6 ⊢ <;> simp [h7, h6]
    · rw [if_neg]; rintro ⟨h1, h2⟩; exact hn.elim (absurd h1) (absurd h2)

theorem connect5_flags {sg : SecGrammar} {flags : UInt8} {wb : Bytes} {c : Connect} (h0 : ¬ bit flags 0) (hc : c.clean_session = true ↔ bit flags 1)
    (hw : WillDenotesBy sg flags wb c.last_will)
    (h7 : bit flags 7 ↔ ∃ x, c.login = some x ∧ x.username ≠ "") (h6 : bit flags 6 ↔ ∃ x, c.login = some x ∧ x.password ≠ "") :
    flags = UInt8.ofNat (connectFlags c) := by
  have hlt := flags.toNat_lt
  have hcl : flag c.clean_session 2 = flags.toNat / 2 % 2 * 2 := by
    unfold bit at hc; cases hcs : c.clean_session <;> simp only [hcs, flag] at hc ⊢ <;> simp at hc ⊢ <;> omega
  have hlg : (match c.login with
    | some l => flag (l.username ≠ "") 128 + flag (l.password ≠ "") 64
    | none => 0) = flags.toNat / 128 % 2 * 128 + flags.toNat / 64 % 2 * 64 := by
    unfold bit at h7 h6
    cases hl : c.login with
    | none => simp [hl] at h7 h6 ⊢; omega
    | some l =>
      simp only [hl, Option.some.injEq, exists_eq_left'] at h7 h6
      by_cases hu : l.username = "" <;> by_cases hp : l.password = "" <;> simp [hu, hp, flag] at h7 h6 ⊢ <;> omega
  have hwl : (match c.last_will with
    | some w => flag w.retain 32 + 8 * qosNum w.qos + 4
    | none => 0) = flags.toNat / 4 % 2 * 4 + flags.toNat / 8 % 4 * 8 + flags.toNat / 32 % 2 * 32 := by
    cases hl : c.last_will with
    | none =>
      rw [hl] at hw
      obtain ⟨a1, a2, a3, a4, _⟩ := hw
      unfold bit at a1 a2 a3 a4
      simp only; omega
    | some w =>
      rw [hl] at hw
      obtain ⟨a1, a2, a3, _⟩ := hw
      unfold bit at a1 a3
      cases hr : w.retain <;> simp only [hr, flag] at a3 ⊢ <;> simp at a3 ⊢ <;> omega
  rw [← UInt8.toNat_inj, UInt8.toNat_ofNat']
  unfold bit at h0
  unfold connectFlags
  rw [hcl]
  cases hl : c.login <;> cases hw' : c.last_will <;> simp only [hl, hw'] at hlg hwl ⊢ <;> omega

theorem connect5_flags_even (c : Connect) : ¬ bit (UInt8.ofNat (connectFlags c)) 0 := by
  unfold bit connectFlags
  rw [UInt8.toNat_ofNat']
  have h1 : ∀ (b : Bool) (n : Nat), n % 2 = 0 → flag b n % 2 = 0 := by intro b n h; cases b <;> simp [flag, h]
  have h2 := h1 c.clean_session 2 rfl
  cases c.login with
  | none =>
    cases c.last_will with
    | none => simp only; omega
    | some w => have := h1 w.retain 32 rfl; simp only; omega
  | some l =>
    have a1 := h1 (l.username ≠ "") 128 rfl
    have a2 := h1 (l.password ≠ "") 64 rfl
    cases c.last_will with
    | none => simp only; omega
    | some w => have := h1 w.retain 32 rfl; simp only; omega

theorem ack_strict {R : Type} {code : R → Nat} {bd : Bytes} {a : Ack R} (h : AckDenotes code bd a)
    (hf : PropsFit reasonProps a.properties) (hn : NonEmpty reasonProps a.properties) :
    bd = ackBody code a ↔ AckDenotesBy StrictSec code bd a ∧ bd.length = ackLen code a := by
  constructor
  · rintro rfl
    unfold AckDenotesBy ackBody ackLen
    have := sec_strict reason_ordered reason_set hf hn
    cases hp : a.properties with
    | none =>
      by_cases hc : code a.reason = 0
      · exact ⟨.inl ⟨by simp [hc], hc, rfl⟩, by simp [hc, Spec.u16]⟩
      · exact ⟨.inr (.inl ⟨by simp [hc], rfl⟩), by simp [hc, Spec.u16, Spec.u8]⟩
    | some p =>
      rw [hp] at this
      exact ⟨.inr (.inr ⟨_, [], by simp [optSec], this⟩), by simp [Spec.u16, Spec.u8]; omega⟩
  · rintro ⟨h, hl⟩
    unfold ackBody
    unfold ackLen at hl
    rcases h with ⟨rfl, hc, hp⟩ | ⟨rfl, hp⟩ | ⟨ps, junk, rfl, hs⟩
    · simp [hc, hp]
    · simp only [hp] at hl ⊢
      by_cases hc : code a.reason = 0
      · simp [hc, Spec.u16, Spec.u8] at hl
      · simp [hc]
    · obtain rfl := strict_sec reason_ordered hs
      cases hp : a.properties with
      | none =>
        simp only [hp, optSec, List.length_append, u16_len, u8_len, sec_nil_len] at hl
        split at hl <;> omega
      | some p =>
        simp only [hp, optSec, List.length_append, u16_len, u8_len] at hl
        obtain rfl : junk = [] := List.eq_nil_of_length_eq_zero (by omega)
        simp [optSec]

theorem connect5_body {b1 : UInt8} {bd : Bytes} {c : Connect} (h : Denotes b1 bd (.Connect c)) :
    bd = wireBody (.Connect c) ↔ DenotesBy StrictSec b1 bd (.Connect c) ∧ NothingElse bd (.Connect c) := by
  obtain ⟨hf, hme, -⟩ := denotes_wf h
  have h16 : Denotes (UInt8.ofNat (byte1 (.Connect c))) bd (.Connect c) := ⟨show typeNum (UInt8.ofNat (1 * 16)) = 1 by decide, h.2⟩
  obtain ⟨ht, flags, props, will, login, junk, hb, hp, hid, hcl, hw, hl⟩ := h
  have hmq : (str "MQTT").length = 6 := by decide +kernel
  have hget : bd[7]? = some flags := by
    rw [hb]; simp [List.getElem?_append, hmq, Spec.u8]
  constructor
  · intro e
    have hfl : flags = UInt8.ofNat (connectFlags c) := by
      have : bd[7]? = some (UInt8.ofNat (connectFlags c)) := by
        rw [e]; simp [wireBody, body, List.getElem?_append, hmq, Spec.u8]
      rw [hget] at this; exact Option.some.inj this
    have h0 : ¬ bit flags 0 := hfl ▸ connect5_flags_even c
    obtain ⟨h7, h6⟩ := connect_bits c
    rw [← hfl] at h7 h6
    have hwc : WillDenotesBy StrictSec flags (willFields c.last_will) c.last_will := by
      cases hc : c.last_will with
      | none => rw [hc] at hw; exact ⟨hw.1, hw.2.1, hw.2.2.1, hw.2.2.2.1, rfl⟩
      | some w =>
        rw [hc] at hw
        exact ⟨hw.1, hw.2.1, hw.2.2.1, hw.2.2.2.1, hw.2.2.2.2.1, _, rfl,
          sec_strict will_ordered will_set (hf.2.2.1 w hc).2.2 (hme.2.1 w hc)⟩
    have hlc := login5_canonical hf.2.2.2 hme.2.2 h7 h6
    cases hpr : c.protocol with
    | V5 =>
      refine ⟨⟨ht, flags, optSec connectProps c.properties, _, _, [], ?_, ?_, hid, hcl, hwc, hlc⟩, flags, hget, h0, fun _ => ?_, fun x => by rw [hpr] at x; cases x⟩
      · rw [e, hfl]; simp [wireBody, body, Spec.u8]
      · rw [hpr]; exact sec_strict connect_ordered connect_set hf.2.1 hme.1
      · rw [e, ← will5_len, ← login5_len]
        simp only [wireBody, body, List.length_append, hmq, str_len, u8_len, u16_len, secLen]; omega
    | V4 =>
      have e' : bd = body (.Connect c) := e
      rcases connect4_denotes c hpr hf hme (e' ▸ h16) with h5 | ⟨p1, p2, p3, p4⟩
      · rw [hpr] at h5; cases h5
      have es : str "" = [0, 0] := by decide +kernel
      have eo : optSec connectProps none = [0] := rfl
      have ew : willFields c.last_will = List.replicate (if c.last_will.isNone then 0 else 5) 0 := by
        cases hc : c.last_will with
        | none => rfl
        | some w =>
          obtain ⟨a1, a2, a3⟩ := p4 w hc
          simp only [willFields, a1, a2, a3, es]; rfl
      have e2 : bd = str "MQTT" ++ Spec.u8 (level c.protocol) ++ [flags] ++ Spec.u16 c.keep_alive.toNat ++ ([0, 0, 0] ++
          List.replicate (if c.last_will.isNone then 0 else 5) 0) := by
        rw [e, hfl]; simp [wireBody, body, Spec.u8, p1, p2, p3, es, eo, ew, loginFields]
      refine ⟨⟨ht, flags, [], willFields c.last_will, loginFields c.login, [0], ?_, ?_, hid, hcl, hwc, hlc⟩,
        flags, hget, h0, fun x => by (rw [hpr] at x; cases x), fun _ => ⟨?_, ?_, ?_⟩⟩
      · rw [e2, p2, p3, es, ew]; cases c.last_will.isNone <;> simp [loginFields]
      · rw [hpr]; exact ⟨rfl, p1⟩
      · rw [h7, p3]; simp
      · rw [h6, p3]; simp
      · rw [e2, List.drop_left' (by simp [hmq, u8_len, u16_len])]
        cases c.last_will.isNone <;> rfl
  · rintro ⟨⟨-, flags', props, will, login, junk, hb, hp, hid, hcl, hw, hl⟩, f, hf7, h0, n5, n4⟩
    have hget' : bd[7]? = some flags' := by
      rw [hb]; simp [List.getElem?_append, hmq, Spec.u8]
    rw [hget'] at hf7
    obtain rfl := Option.some.inj hf7
    have hwb : will = willFields c.last_will := by
      cases hc : c.last_will with
      | none => rw [hc] at hw; exact hw.2.2.2.2
      | some w =>
        rw [hc] at hw
        obtain ⟨_, _, _, _, _, ps, rfl, hs⟩ := hw
        rw [strict_sec will_ordered hs]; rfl
    cases hpr : c.protocol with
    | V5 =>
      rw [hpr] at hp
      obtain rfl := strict_sec connect_ordered hp
      have n5 := n5 hpr
      rw [hb, ← will5_len, ← login5_len, hwb] at n5
      simp only [List.length_append, hmq, str_len, u8_len, u16_len, secLen, List.length_cons, List.length_nil] at n5
      have hle := V5.loginFields_le hl
      have hj : junk = [] := List.eq_nil_of_length_eq_zero (by omega)
      obtain ⟨h2, h7, h6⟩ := login5_strict hl (by omega)
      have := connect5_flags h0 hcl hw h7 h6
      rw [hb, hj, h2, hwb, this]
      simp [wireBody, body, Spec.u8]
    | V4 =>
      obtain ⟨n7, n6, hz⟩ := n4 hpr
      rw [hpr] at hp
      obtain ⟨rfl, hpn⟩ := hp
      obtain ⟨u, p, -, -, u7, u6, rfl, hlog⟩ := hl
      rw [u7 n7, u6 n6] at hlog
      simp only [and_self, if_true] at hlog
      have hfl := connect5_flags h0 hcl hw (by simp [n7, hlog]) (by simp [n6, hlog])
      rw [hb] at hz
      simp only [n7, n6, if_false, List.append_nil] at hz hb
      simp only [List.append_assoc] at hz
      rw [← List.append_assoc, ← List.append_assoc, ← List.append_assoc, List.drop_left' (by simp [hmq, u8_len, u16_len])] at hz
      have hall : ∀ x ∈ str c.client_id ++ (will ++ junk), x = 0 := by
        rw [hz]; intro x hx; exact (List.mem_replicate.1 hx).2
      have zero : ∀ b : Bytes, b.length ≤ 65535 → (∀ x ∈ bin b, x = 0) → b = [] := by
        intro b hb hx
        have h1 := hx (UInt8.ofNat (b.length / 256)) (by simp [bin, Spec.u16])
        have h2 := hx (UInt8.ofNat (b.length % 256)) (by simp [bin, Spec.u16])
        rw [← UInt8.toNat_inj, UInt8.toNat_ofNat'] at h1 h2
        simp at h1 h2
        exact List.eq_nil_of_length_eq_zero (by omega)
      have zstr : ∀ s : String, fits (utf8 s).length → (∀ x ∈ str s, x = 0) → s = "" := by
        intro s h1 h2
        exact utf8_inj.1 ((zero _ h1 h2).trans (by decide +kernel))
      have hid0 := zstr _ hid (fun x hx => hall x (by simp [hx]))
      have es : str "" = [0, 0] := by decide +kernel
      have eo : optSec connectProps none = [0] := rfl
      have ew : willFields c.last_will = List.replicate (if c.last_will.isNone then 0 else 5) 0 := by
        rw [hwb] at hall
        cases hc : c.last_will with
        | none => rfl
        | some w =>
          rw [hc] at hw hall
          obtain ⟨_, _, _, w1, w2, ps, -, o, hs, ho⟩ := hw
          have a2 := zstr _ w1 (fun x hx => hall x (by simp [willFields, hx]))
          have a3 := zero _ w2 (fun x hx => hall x (by simp only [willFields, List.mem_append]; simp [hx]))
          have a1 : w.properties = none := by
            cases hwp : w.properties with
            | none => rfl
            | some wp =>
              exfalso
              have hne := hme.2.1 w hc wp hwp
              have hk := will_set.kinds wp
              cases hps : willProps wp with
              | nil => exact hne hps
              | cons q qs =>
                have hq := hk q (by rw [hps]; simp)
                have := hall (UInt8.ofNat q.id) (by
                  simp only [willFields, hwp, optSec, sec, hps, encAll, List.flatMap_cons, Property.enc, Spec.u8]
                  simp)
                rw [← UInt8.toNat_inj, UInt8.toNat_ofNat'] at this
                have h0 : q.id = 0 := by
                  have h : q.id % 256 = 0 := by simpa using this
                  omega
                rw [h0] at hq
                exact absurd hq.2 (by simp [willKind])
          simp only [willFields, a1, a2, a3, es]; rfl
      rw [hb, hfl, hwb, ew]
      rw [hwb, ew, hid0, es] at hz
      rw [hid0]
      show _ = body (.Connect c)
      have hj : junk = [0] := by
        cases hn : c.last_will.isNone <;> rw [hn] at hz <;> simp [List.replicate] at hz <;> exact hz
      rw [hj]
      simp only [body, ew, hid0, es, hpn, eo, hlog, loginFields, Spec.u8]
      cases c.last_will.isNone <;> simp

set_option maxHeartbeats 800000 in
theorem body5_iff {b1 : UInt8} {bd : Bytes} {p : Packet} (h : Denotes b1 bd p) :
    bd = wireBody p ↔ DenotesBy StrictSec b1 bd p ∧ NothingElse bd p := by
  obtain ⟨hf, hme, -⟩ := denotes_wf h
  cases p with
  | Connect c =>
    exact connect5_body h
  | ConnAck c =>
    obtain ⟨ht, flags, props, junk, hb, hs, hp⟩ := h
    constructor
    · intro e
      cases hc : c.properties with
      | none =>
        obtain ⟨ps, h5, h6⟩ := hp
        rw [hc] at h6
        cases ps with
        | some => cases h6
        | none =>
          have := congrArg List.length e
          rw [hb] at this
          have h7 : props ≠ [] := isVbi_ne_nil h5.1
          simp [wireBody, hc, Spec.u8] at this
          exact absurd this.1 h7
      | some x =>
        have h2 := sec_strict connack_ordered connack_set hf hme
        have e' := e
        simp only [wireBody, hc] at e
        rw [hc] at h2
        refine ⟨⟨ht, UInt8.ofNat (flag c.session_present 1), optSec connackProps (some x), [], ?_, ?_, by rw [hc]; exact h2⟩,
          ⟨UInt8.ofNat (flag c.session_present 1), ?_, ?_⟩, by simp [hc], ?_⟩
        · rw [e]; simp [optSec, Spec.u8]
        · cases c.session_present <;> decide
        · rw [e]; simp [Spec.u8]
        · cases c.session_present <;> decide
        · rw [e]; simp [secLen, hc, optSec, Spec.u8]; omega
    · rintro ⟨⟨-, flags, props, junk, rfl, hs, hp⟩, ⟨f, h0, h1⟩, hne, hl⟩
      obtain rfl := strict_sec connack_ordered hp
      simp only [Spec.u8, List.cons_append, List.nil_append, List.getElem?_cons_zero, Option.some.injEq] at h0
      subst h0
      simp only [List.length_append, u8_len, List.length_cons, List.length_nil, secLen] at hl
      obtain rfl : junk = [] := List.eq_nil_of_length_eq_zero (by omega)
      have hfl : flags = UInt8.ofNat (flag c.session_present 1) := by
        rw [← UInt8.toNat_inj, UInt8.toNat_ofNat']
        unfold bit at hs
        cases hc : c.session_present <;> simp only [hc, flag] at hs ⊢ <;> simp at hs ⊢ <;> omega
      cases hc : c.properties with
      | none => exact absurd hc hne
      | some x => simp [wireBody, hc, optSec, hfl, Spec.u8]
  | Publish q =>
    constructor
    · intro e
      exact ⟨⟨h.1, _, e, hf.1, hme.2, sec_strict publish_ordered publish_set hf.2 hme.1⟩, trivial⟩
    · rintro ⟨⟨_, props, rfl, _, _, hp⟩, _⟩
      obtain rfl := strict_sec publish_ordered hp
      rfl
  | PubAck a => exact (ack_strict h.2 hf hme).trans ⟨fun x => ⟨⟨h.1, x.1⟩, x.2⟩, fun x => ⟨x.1.2, x.2⟩⟩
  | PubRec a => exact (ack_strict h.2 hf hme).trans ⟨fun x => ⟨⟨h.1, x.1⟩, x.2⟩, fun x => ⟨x.1.2, x.2⟩⟩
  | PubRel a => exact (ack_strict h.2 hf hme).trans ⟨fun x => ⟨⟨h.1, x.1⟩, x.2⟩, fun x => ⟨x.1.2, x.2⟩⟩
  | PubComp a => exact (ack_strict h.2 hf hme).trans ⟨fun x => ⟨⟨h.1, x.1⟩, x.2⟩, fun x => ⟨x.1.2, x.2⟩⟩
  | Subscribe s =>
    constructor
    · intro e
      have hfs := filters5_canonical hf.2
      refine ⟨⟨h.1, _, _, e, sec_strict subscribe_ordered subscribe_set hf.1 hme, hfs⟩, ?_⟩
      show PlainOptions _ _
      rw [e]
      simp only [wireBody, body, secLen]
      rw [List.drop_left' (by simp [u16_len])]
      exact (options5_iff hfs).1 rfl
    · rintro ⟨⟨_, props, fs, rfl, hp, hfs⟩, hpl⟩
      obtain rfl := strict_sec subscribe_ordered hp
      simp only [NothingElse, secLen] at hpl
      rw [List.drop_left' (by simp [u16_len])] at hpl
      rw [(options5_iff hfs).2 hpl]
      rfl
  | SubAck s =>
    constructor
    · intro e
      exact ⟨⟨h.1, _, e, sec_strict reason_ordered reason_set hf hme.1, hme.2⟩, trivial⟩
    · rintro ⟨⟨_, props, rfl, hp, _⟩, _⟩
      obtain rfl := strict_sec reason_ordered hp
      rfl
  | Unsubscribe s =>
    constructor
    · intro e
      exact ⟨⟨h.1, _, e, sec_strict unsubscribe_ordered unsubscribe_set hf.1 hme, hf.2⟩, trivial⟩
    · rintro ⟨⟨_, props, rfl, hp, _⟩, _⟩
      obtain rfl := strict_sec unsubscribe_ordered hp
      rfl
  | UnsubAck s =>
    constructor
    · intro e
      exact ⟨⟨h.1, _, e, sec_strict reason_ordered reason_set hf hme.1, hme.2⟩, trivial⟩
    · rintro ⟨⟨_, props, rfl, hp, _⟩, _⟩
      obtain rfl := strict_sec reason_ordered hp
      rfl
  | PingReq => exact ⟨fun e => ⟨h, e⟩, fun e => e.2⟩
  | PingResp => exact ⟨fun e => ⟨h, e⟩, fun e => e.2⟩
  | Disconnect d =>
    obtain ⟨ht, props, junk, hb, hp⟩ := h
    constructor
    · intro e
      cases hc : d.properties with
      | none =>
        obtain ⟨ps, h5, h6⟩ := hp
        rw [hc] at h6
        cases ps with
        | some => cases h6
        | none =>
          have := congrArg List.length e
          rw [hb] at this
          have h7 := List.length_pos_iff.2 (isVbi_ne_nil h5.1)
          simp only [wireBody, hc, List.length_append, u8_len] at this
          split at this <;> simp [u8_len] at this <;> omega
      | some x =>
        have h2 := sec_strict disconnect_ordered disconnect_set hf hme
        have h3 := hme x hc
        simp only [wireBody, hc, if_neg h3] at e
        rw [hc] at h2
        refine ⟨⟨ht, optSec disconnectProps (some x), [], ?_, by rw [hc]; exact h2⟩, by simp [hc], ?_⟩
        · rw [e]; simp [optSec]
        · rw [e]; simp [secLen, hc, optSec, u8_len]
    · rintro ⟨⟨-, props, junk, rfl, hp⟩, hne, hl⟩
      obtain rfl := strict_sec disconnect_ordered hp
      simp only [List.length_append, u8_len, secLen] at hl
      obtain rfl : junk = [] := List.eq_nil_of_length_eq_zero (by omega)
      cases hc : d.properties with
      | none => exact absurd hc hne
      | some x =>
        have h3 := hme x hc
        simp [wireBody, hc, optSec, h3]

/-- a packet that was read is written if it is not too long -/
theorem write_read5 {b1 : UInt8} {bd : Bytes} {p : Packet} (h : Denotes b1 bd p) (hl : (wireBody p).length ≤ maxRemaining) :
    ∃ n, p.write [] = (.ok n, frame (byte1 p) (wireBody p)) := by
  obtain ⟨hf, hme, -⟩ := denotes_wf h
  by_cases hc : ∃ c, p = .Connect c
  · obtain ⟨c, rfl⟩ := hc
    have ha : ¬ maxRemaining < announced (.Connect c) := by
      have : announced (.Connect c) = (wireBody (.Connect c)).length := by simp [announced, pkidMissing]
      omega
    rw [C91_v5_connect_exact, written, if_neg ha]
    exact ⟨_, rfl⟩
  · have hc' : ∀ c, p ≠ .Connect c := fun c h => hc ⟨c, h⟩
    rw [C91_v5_write_exact p hc' [], v5_written_ok p hc' hl]
    · exact ⟨_, rfl⟩
    · cases p <;> first | rfl | skip
      rename_i q
      by_cases hq : q.pkid = 0
      · have := hme.2.2 hq; simp [pkidMissing, this]
      · simp [pkidMissing, hq]
    · rintro q rfl
      cases hp : q.properties with
      | none => rfl
      | some x =>
        have := V5.torn_none fun y hy => VbiFits.of_fits (hf.2 x hp y hy)
        simp [tornSec, this]
    · rintro q rfl
      cases hp : q.properties with
      | none => rfl
      | some x =>
        have := V5.torn_none fun y hy => VbiFits.of_fits (hf.1 x hp y hy)
        simp [tornSec, this]

/-- C127: a frame read by `v5::read` and the packet written again into an empty buffer: the bytes are the same exactly if
the frame says the packet and nothing else: no reserved bit set, lengths in their shortest encodings, exact property lengths,
the properties in the order of the writer and none twice, no bytes after the packet, no announced empty user name or
password, no reason code or property length that could be left out of an acknowledgement. -/
theorem C127_v5_same_bytes (max : Nat) (f : RawFrame) (hf : f.Valid max) (rest : Bytes) (p : Packet)
    (h : V5.read max (f.bytes ++ rest) = (.ok p, rest)) :
    (∃ n, p.write [] = (.ok n, f.bytes)) ↔ Strict f p := by
  obtain ⟨o, h1, hg, -⟩ := v5_outcome max f hf
  rw [h1] at h
  have ho : o = .ok p := by cases o <;> simp at h; rw [h]
  have hd := (hg p).2 ho
  have hle := vbiValue_le hf.1
  have hfl := hf.2.1
  unfold Strict
  rw [← body5_iff hd, ← lowBits5_iff hd, shortest_iff hf.1]
  constructor
  · rintro ⟨m, hm⟩
    obtain ⟨hl, -, hm⟩ := v5_written_bytes p m _ hm
    have e : frame (byte1 p) (wireBody p) ++ [] = f.byte1 :: (f.len ++ (f.body ++ [])) := by
      rw [← hm]; simp [RawFrame.bytes]
    obtain ⟨e1, e2, -⟩ := frame_det hl hf.1 hf.2.1 e
    refine ⟨e1, ?_, e2⟩
    rw [hfl, e2]
    rw [e1, e2] at e
    simp only [frame, Spec.u8, List.cons_append, List.nil_append, List.append_nil, List.cons.injEq, true_and,
      List.append_cancel_right_eq] at e
    exact e.symm
  · rintro ⟨e1, e2, e3⟩
    obtain ⟨n, hn⟩ := write_read5 hd (by rw [← e3]; omega)
    refine ⟨n, ?_⟩
    have : frame (byte1 p) (wireBody p) = f.bytes := by
      unfold frame RawFrame.bytes
      rw [← e3, ← hfl, ← e2, e1]; rfl
    rw [hn, this]

/-- C127: for every packet at most one such frame is read as it. -/
theorem C127_v5_one_strict (max max' : Nat) (f g : RawFrame) (hf : f.Valid max) (hg : g.Valid max') (rest rest' : Bytes)
    (p : Packet) (h : V5.read max (f.bytes ++ rest) = (.ok p, rest)) (h' : V5.read max' (g.bytes ++ rest') = (.ok p, rest'))
    (sf : Strict f p) (sg : Strict g p) : f.bytes = g.bytes := by
  obtain ⟨n, hn⟩ := (C127_v5_same_bytes max f hf rest p h).2 sf
  obtain ⟨m, hm⟩ := (C127_v5_same_bytes max' g hg rest' p h').2 sg
  rw [hn] at hm
  exact (Prod.mk.inj hm).2

/-- a PUBLISH with a payload format indicator and an alias, in the order of the writer -/
example : Strict ⟨0x30, [11], [0, 1, 97, 5, 1, 1, 35, 0, 9, 104, 105]⟩
    (.Publish ⟨false, .AtMostOnce, false, "a", 0, some ⟨some 1, none, some 9, none, none, [], [], none⟩, [104, 105]⟩) :=
  (C127_v5_same_bytes 99 _ ⟨(isVbi_singleton 11).2 (by decide), rfl, by decide⟩ [] _ (by decide +kernel)).1
    ⟨13, by decide +kernel⟩
/-- the same packet with its properties in the other order -/
example : V5.read 99 [0x30, 11, 0, 1, 97, 5, 35, 0, 9, 1, 1, 104, 105] = (.ok (.Publish ⟨false, .AtMostOnce, false, "a", 0,
      some ⟨some 1, none, some 9, none, none, [], [], none⟩, [104, 105]⟩), []) ∧
    ¬ Strict ⟨0x30, [11], [0, 1, 97, 5, 35, 0, 9, 1, 1, 104, 105]⟩
      (.Publish ⟨false, .AtMostOnce, false, "a", 0, some ⟨some 1, none, some 9, none, none, [], [], none⟩, [104, 105]⟩) := by
  have h : V5.read 99 [0x30, 11, 0, 1, 97, 5, 35, 0, 9, 1, 1, 104, 105] = (.ok (.Publish ⟨false, .AtMostOnce, false, "a", 0,
      some ⟨some 1, none, some 9, none, none, [], [], none⟩, [104, 105]⟩), []) := by decide +kernel
  refine ⟨h, fun hs => ?_⟩
  obtain ⟨n, hn⟩ := (C127_v5_same_bytes 99 ⟨0x30, [11], [0, 1, 97, 5, 35, 0, 9, 1, 1, 104, 105]⟩
    ⟨(isVbi_singleton 11).2 (by decide), rfl, by decide⟩ [] _ h).2 hs
  have := congrArg Prod.snd hn
  simp only at this
  clear hn h hs
  revert this; decide +kernel
/-- a PUBACK that says its reason code although it is 0 -/
example : V5.read 99 [0x40, 3, 0, 7, 0] = (.ok (.PubAck ⟨7, .Success, none⟩), []) ∧
    ¬ Strict ⟨0x40, [3], [0, 7, 0]⟩ (.PubAck ⟨7, .Success, none⟩) :=
  ⟨by decide +kernel, fun h => absurd h.2.2.2 (by simp [NothingElse, ackLen, pubackCode])⟩
/-- a CONNECT of level 4 with zeros only after the keep alive -/
example : Strict ⟨0x10, [13], [0, 4, 77, 81, 84, 84, 4, 2, 0, 9, 0, 0, 0]⟩ (.Connect ⟨.V4, 9, "", true, none, none, none⟩) :=
  (C127_v5_same_bytes 99 _ ⟨(isVbi_singleton 13).2 (by decide), rfl, by decide⟩ [] _ (by decide +kernel)).1
    ⟨13, by decide +kernel⟩

end Props
