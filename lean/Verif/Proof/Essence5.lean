import Verif.Proof.Essence
/-! Which MQTT 5 packets share an encoding. -/
set_option linter.unusedSimpArgs false
namespace Mqtt.V5.Ess
open Mqtt Mqtt.V5 Spec Spec.V5 Mqtt.Ess
open Spec.V4 (qosNum level)

theorem props_enc {kind : Nat → Option Kind} : ∀ {ps : List Property},
    (∀ q ∈ ps, q.id < 256 ∧ kind q.id = some q.val.kind) → (∀ q ∈ ps, q.val.Fits) → Props kind (encAll ps) ps
  | [], _, _ => .nil
  | ⟨i, v⟩ :: ps, hk, hf => by
    obtain ⟨hi, hki⟩ := hk _ (List.mem_cons_self ..)
    simp only at hi hki
    have e : encAll (⟨i, v⟩ :: ps) = [UInt8.ofNat i] ++ v.enc ++ encAll ps := rfl
    have ei : (⟨i, v⟩ : Property) = ⟨(UInt8.ofNat i).toNat, v⟩ := by rw [ofNat_toNat hi]
    rw [e, ei]
    exact .cons _ v v.enc _ _ (by rw [ofNat_toNat hi]; exact hki) (denotes_enc (hf _ (List.mem_cons_self ..)))
      (props_enc (fun q hq => hk q (List.mem_cons_of_mem _ hq)) (fun q hq => hf q (List.mem_cons_of_mem _ hq)))

theorem sec_cancel {kind : Nat → Option Kind} {ps qs : List Property} {s t : Bytes}
    (hp : ∀ q ∈ ps, q.id < 256 ∧ kind q.id = some q.val.kind) (fp : ∀ q ∈ ps, q.val.Fits)
    (hq : ∀ q ∈ qs, q.id < 256 ∧ kind q.id = some q.val.kind) (fq : ∀ q ∈ qs, q.val.Fits)
    (lp : (sec ps).length ≤ maxRemaining) (lq : (sec qs).length ≤ maxRemaining) (h : sec ps ++ s = sec qs ++ t) :
    ps = qs ∧ s = t := by
  simp only [sec, List.length_append] at lp lq
  simp only [sec, List.append_assoc] at h
  have lp' : (encAll ps).length ≤ maxRemaining := by omega
  have lq' : (encAll qs).length ≤ maxRemaining := by omega
  obtain ⟨e1, h⟩ := vbi_prefix_det (vbi_isVbi lp') (vbi_isVbi lq') h
  have e2 := congrArg vbiValue e1
  rw [vbiValue_vbi lp', vbiValue_vbi lq'] at e2
  obtain ⟨e3, h⟩ := List.append_inj h e2
  refine ⟨?_, h⟩
  obtain ⟨rs, e4, hr⟩ := props_det (t := []) (props_enc hp fp) (props_enc hq fq) (by simpa using e3)
  have : rs = [] := (props_nil_iff hr).2 rfl
  simp [e4, this]

section
variable {π : Type} {kind : Nat → Option Kind} {props : π → List Property} {dec : List Property → π}
variable (hk : ∀ p, ∀ q ∈ props p, q.id < 256 ∧ kind q.id = some q.val.kind) (hd : ∀ p, dec (props p) = p)
include hk hd

theorem set_cancel {p q : π} {s t : Bytes} (fp : PropsFit props (some p)) (fq : PropsFit props (some q))
    (lp : (sec (props p)).length ≤ maxRemaining) (lq : (sec (props q)).length ≤ maxRemaining)
    (h : sec (props p) ++ s = sec (props q) ++ t) : p = q ∧ s = t := by
  obtain ⟨e, h⟩ := sec_cancel (hk p) (fp p rfl) (hk q) (fq q rfl) lp lq h
  exact ⟨by rw [← hd p, e, hd q], h⟩

theorem optSec_cancel {o o' : Option π} {s t : Bytes} (fp : PropsFit props o) (fq : PropsFit props o')
    (lp : (optSec props o).length ≤ maxRemaining) (lq : (optSec props o').length ≤ maxRemaining)
    (h : optSec props o ++ s = optSec props o' ++ t) : told props o = told props o' ∧ s = t := by
  have nil_kind : ∀ q ∈ ([] : List Property), q.id < 256 ∧ kind q.id = some q.val.kind := by simp
  have nil_fit : ∀ q ∈ ([] : List Property), q.val.Fits := by simp
  cases o with
  | none =>
    cases o' with
    | none => exact ⟨rfl, List.append_cancel_left h⟩
    | some q =>
      obtain ⟨e, h⟩ := sec_cancel nil_kind nil_fit (hk q) (fq q rfl) lp lq h
      exact ⟨by simp [told, ← e], h⟩
  | some p =>
    cases o' with
    | none =>
      obtain ⟨e, h⟩ := sec_cancel (hk p) (fp p rfl) nil_kind nil_fit lp lq h
      exact ⟨by simp [told, e], h⟩
    | some q =>
      obtain ⟨e, h⟩ := sec_cancel (hk p) (fp p rfl) (hk q) (fq q rfl) lp lq h
      have : p = q := by rw [← hd p, e, hd q]
      exact ⟨by rw [this], h⟩
end

theorem optSec_told {π : Type} (props : π → List Property) (o : Option π) : optSec props (told props o) = optSec props o := by
  cases o with
  | none => rfl
  | some p => by_cases h : props p = [] <;> simp [told, optSec, h]

theorem sec_ne (ps : List Property) : sec ps ≠ [] := by
  intro h
  simp only [sec, List.append_eq_nil_iff] at h
  have := h.1
  unfold vbi at this
  split at this
  · simp [Spec.u8] at this
  · split at this
    · simp [Spec.u8] at this
    · split at this <;> simp [Spec.u8] at this

theorem ack_cancel {R : Type} {code : R → Nat} (hc : ∀ r, code r < 256) (hi : ∀ r r', code r = code r' → r = r') {a b : Ack R}
    (fa : PropsFit reasonProps a.properties) (fb : PropsFit reasonProps b.properties)
    (la : (ackBody code a).length ≤ maxRemaining) (lb : (ackBody code b).length ≤ maxRemaining)
    (h : ackBody code a = ackBody code b) : a = b := by
  obtain ⟨i, r, o⟩ := a
  obtain ⟨i', r', o'⟩ := b
  simp only [ackBody, List.length_append] at h la lb fa fb
  have h' := u16_cancel h
  clear h
  obtain ⟨e1, h⟩ := h'
  subst e1
  cases o with
  | none =>
    cases o' with
    | none =>
      simp only at h
      by_cases h1 : code r = 0 <;> by_cases h2 : code r' = 0 <;> simp only [h1, h2, if_true, if_false] at h
      · rw [hi r r' (by omega)]
      · simp [Spec.u8] at h
      · simp [Spec.u8] at h
      · obtain ⟨e, _⟩ := u8_cancel (s := []) (t := []) (hc r) (hc r') (by simpa using h)
        rw [hi r r' e]
    | some q =>
      exfalso
      have := sec_ne (reasonProps q)
      simp only at h
      by_cases h1 : code r = 0 <;> simp [h1, Spec.u8] at h
      exact this h.2
  | some p =>
    cases o' with
    | none =>
      exfalso
      have := sec_ne (reasonProps p)
      simp only at h
      by_cases h1 : code r' = 0 <;> simp [h1, Spec.u8] at h
      exact this h.2
    | some q =>
      simp only [List.length_append] at h la lb
      obtain ⟨e1, h⟩ := u8_cancel (hc r) (hc r') h
      obtain ⟨e2, _⟩ := set_cancel (s := []) (t := []) reason_kinds reason_dec fa fb (by omega) (by omega) (by simpa using h)
      rw [hi r r' e1, e2]

def loginBits : Option Login → Nat
  | some l => flag (l.username ≠ "") 128 + flag (l.password ≠ "") 64
  | none => 0
def willBits : Option LastWill → Nat
  | some w => flag w.retain 32 + 8 * qosNum w.qos + 4
  | none => 0
theorem flags_eq (c : Connect) : connectFlags c = loginBits c.login + willBits c.last_will + flag c.clean_session 2 := by
  unfold connectFlags loginBits willBits
  cases c.login <;> cases c.last_will <;> rfl

theorem loginBits_mod (l : Option Login) : loginBits l % 64 = 0 ∧ loginBits l ≤ 192 := by
  cases l with
  | none => simp [loginBits]
  | some l =>
    simp only [loginBits]
    rcases flag_le (decide (l.username ≠ "")) 128 with h | h <;> rcases flag_le (decide (l.password ≠ "")) 64 with h' | h' <;>
      rw [h, h'] <;> decide

theorem willBits_mod (w : Option LastWill) : willBits w % 4 = 0 ∧ willBits w < 64 := by
  cases w with
  | none => simp [willBits]
  | some w =>
    simp only [willBits]
    have := qosNum_lt w.qos
    rcases flag_le w.retain 32 with h | h <;> rw [h] <;> omega

/-- logins of the two versions correspond -/
def l4 (l : Login) : V4.Login := ⟨l.username, l.password⟩

theorem login_cancel {l m : Option Login} (hl : ∀ x, l = some x → fits (utf8 x.username).length ∧ fits (utf8 x.password).length)
    (hm : ∀ x, m = some x → fits (utf8 x.username).length ∧ fits (utf8 x.password).length)
    (hb : loginBits l = loginBits m) (h : loginFields l = loginFields m) :
    (if l = some ⟨"", ""⟩ then none else l) = (if m = some ⟨"", ""⟩ then none else m) := by
  have h' := V4.Ess.login_cancel (l := l.map l4) (m := m.map l4)
    (by intro x hx; cases l with | none => simp at hx | some l => simp at hx; subst hx; exact hl l rfl)
    (by intro x hx; cases m with | none => simp at hx | some l => simp at hx; subst hx; exact hm l rfl)
    (by cases l <;> cases m <;> simpa [V4.Ess.loginBits, loginBits, l4] using hb)
    (by cases l <;> cases m <;> simpa [Spec.V4.loginFields, loginFields, l4] using h)
  cases l with
  | none => cases m with
    | none => rfl
    | some m => obtain ⟨a, b⟩ := m; simp [l4] at h' ⊢; exact h'
  | some l => cases m with
    | none => obtain ⟨a, b⟩ := l; simp [l4] at h' ⊢; exact h'
    | some m =>
      obtain ⟨a, b⟩ := l
      obtain ⟨c, d⟩ := m
      simp only [Option.map_some, l4, Option.some.injEq, V4.Login.mk.injEq, Login.mk.injEq] at h' ⊢
      by_cases h1 : a = "" ∧ b = "" <;> by_cases h2 : c = "" ∧ d = "" <;> simp [h1, h2] at h' ⊢
      exact h'

theorem will_cancel {w v : Option LastWill} {s t : Bytes}
    (hw : ∀ x, w = some x → fits (utf8 x.topic).length ∧ fits x.message.length ∧ PropsFit willProps x.properties)
    (hv : ∀ x, v = some x → fits (utf8 x.topic).length ∧ fits x.message.length ∧ PropsFit willProps x.properties)
    (lw : (willFields w).length ≤ maxRemaining) (lv : (willFields v).length ≤ maxRemaining)
    (hb : willBits w = willBits v) (h : willFields w ++ s = willFields v ++ t) :
    (w.map fun w => { w with properties := told willProps w.properties })
      = (v.map fun w => { w with properties := told willProps w.properties }) ∧ s = t := by
  cases w with
  | none =>
    cases v with
    | none => exact ⟨rfl, by simpa [willFields] using h⟩
    | some v => simp [willBits] at hb
  | some w =>
    cases v with
    | none => simp [willBits] at hb
    | some v =>
      have hq : w.retain = v.retain ∧ w.qos = v.qos := by
        simp only [willBits] at hb
        revert hb
        cases w.retain <;> cases v.retain <;> cases w.qos <;> cases v.qos <;> decide
      simp only [willFields, List.append_assoc, List.length_append] at h lw lv
      obtain ⟨a, b, c⟩ := hw w rfl
      obtain ⟨a', b', c'⟩ := hv v rfl
      obtain ⟨e0, h⟩ := optSec_cancel will_kinds will_dec c c' (by omega) (by omega) h
      obtain ⟨e1, h⟩ := bin_cancel a a' h
      obtain ⟨e2, h⟩ := bin_cancel b b' h
      have e1 := utf8_inj.1 e1
      refine ⟨?_, h⟩
      cases w; cases v; simp_all

theorem connect_cancel {c d : Connect} (hc : FieldsFit (.Connect c)) (hd : FieldsFit (.Connect d))
    (lc : (body (.Connect c)).length ≤ maxRemaining) (ld : (body (.Connect d)).length ≤ maxRemaining)
    (h : body (.Connect c) = body (.Connect d)) : essence (.Connect c) = essence (.Connect d) := by
  obtain ⟨c1, c0, c2, c3⟩ := hc
  obtain ⟨d1, d0, d2, d3⟩ := hd
  simp only [body, List.append_assoc, List.length_append] at h lc ld
  have h := List.append_cancel_left h
  obtain ⟨e1, h⟩ := u8_cancel (level_lt _) (level_lt _) h
  have e1 := level_inj' e1
  rw [flags_eq, flags_eq] at h
  have l1 := loginBits_mod c.login
  have l2 := loginBits_mod d.login
  have w1 := willBits_mod c.last_will
  have w2 := willBits_mod d.last_will
  have f1 := flag_lt c.clean_session 2
  have f2 := flag_lt d.clean_session 2
  obtain ⟨e2, h⟩ := u8_cancel (by omega) (by omega) h
  obtain ⟨e3, e4, e5⟩ := split_flags l1.1 l2.1 w1 w2 (by omega) (by omega) e2
  have e5 := flag_inj (by decide) e5
  obtain ⟨e6, h⟩ := u16_cancel h
  obtain ⟨e0, h⟩ := optSec_cancel connect_kinds connect_dec c0 d0 (by omega) (by omega) h
  obtain ⟨e7, h⟩ := bin_cancel c1 d1 h
  have e7 := utf8_inj.1 e7
  obtain ⟨e8, h⟩ := will_cancel c2 d2 (by omega) (by omega) e4 h
  have e9 := login_cancel c3 d3 e3 h
  cases c; cases d
  simp only at e0 e1 e5 e6 e7 e8 e9
  simp only [essence]
  rw [e0, e1, e5, e6, e7, e8, e9]

theorem byte1_lt (p : Packet) : byte1 p < 256 := by
  cases p <;> simp only [byte1] <;> try decide
  rename_i p
  have := qosNum_lt p.qos
  have := flag_lt p.dup 8
  have := flag_lt p.retain 1
  omega

theorem essence_byte1 (p : Packet) : byte1 (essence p) = byte1 p := by cases p <;> rfl

theorem essence_body (p : Packet) : wireBody (essence p) = wireBody p := by
  cases p <;> try rfl
  case Connect c =>
    simp only [essence, wireBody, body, optSec_told]
    have h1 : willFields (c.last_will.map fun w => { w with properties := told willProps w.properties })
        = willFields c.last_will := by
      cases c.last_will <;> simp [willFields, optSec_told]
    have h2 : loginFields (if c.login = some ⟨"", ""⟩ then none else c.login) = loginFields c.login := by
      by_cases h : c.login = some ⟨"", ""⟩ <;> simp [h, loginFields]
    have h3 : ∀ c' : Connect, willBits c'.last_will = willBits c.last_will → loginBits c'.login = loginBits c.login →
        c'.clean_session = c.clean_session → connectFlags c' = connectFlags c := by
      intro c' a b d; rw [flags_eq, flags_eq, a, b, d]
    rw [h1, h2, h3]
    · cases c.last_will <;> rfl
    · by_cases h : c.login = some ⟨"", ""⟩ <;> simp [h, loginBits, flag]
    · rfl
  case Publish p =>
    simp only [essence, wireBody, body, optSec_told]
    by_cases h : p.qos = .AtMostOnce <;> simp [h]
  case Subscribe p => simp only [essence, wireBody, body, optSec_told]
  case SubAck p => simp only [essence, wireBody, body, optSec_told]
  case Unsubscribe p => simp only [essence, wireBody, body, optSec_told]
  case UnsubAck p => simp only [essence, wireBody, body, optSec_told]
  case Disconnect d =>
    simp only [essence]
    split
    · rename_i h
      obtain ⟨h1, h2⟩ := h
      cases hd : d.properties with
      | none => exact absurd hd h1
      | some p =>
        rw [hd] at h2
        have : disconnectProps p = [] := by
          by_cases h : disconnectProps p = []
          · exact h
          · simp [told, h] at h2
        simp [wireBody, hd, this]
    · rfl

theorem subOptions_cancel {f g : SubscribeFilter} (h : subOptions f = subOptions g) :
    f.qos = g.qos ∧ f.nolocal = g.nolocal ∧ f.preserve_retain = g.preserve_retain
      ∧ f.retain_forward_rule = g.retain_forward_rule := by
  simp only [subOptions] at h
  have a := qosNum_lt f.qos
  have b := qosNum_lt g.qos
  have hr : ∀ r, ruleNum r < 3 := by intro r; cases r <;> decide
  have ar := hr f.retain_forward_rule
  have br := hr g.retain_forward_rule
  have e : ruleNum f.retain_forward_rule = ruleNum g.retain_forward_rule ∧ flag f.preserve_retain 8 = flag g.preserve_retain 8
      ∧ flag f.nolocal 4 = flag g.nolocal 4 ∧ qosNum f.qos = qosNum g.qos := by
    rcases flag_le f.preserve_retain 8 with h1 | h1 <;> rcases flag_le g.preserve_retain 8 with h2 | h2 <;>
      rcases flag_le f.nolocal 4 with h3 | h3 <;> rcases flag_le g.nolocal 4 with h4 | h4 <;>
      rw [h1, h2, h3, h4] at h ⊢ <;> omega
  refine ⟨qosNum_inj e.2.2.2, flag_inj (by decide) e.2.2.1, flag_inj (by decide) e.2.1, ?_⟩
  have := e.1
  revert this
  cases f.retain_forward_rule <;> cases g.retain_forward_rule <;> decide

theorem subOptions_lt (f : SubscribeFilter) : subOptions f < 256 := by
  simp only [subOptions]
  have := qosNum_lt f.qos
  have hr : ∀ r, ruleNum r < 3 := by intro r; cases r <;> decide
  have := hr f.retain_forward_rule
  have := flag_lt f.preserve_retain 8
  have := flag_lt f.nolocal 4
  omega

theorem disconnect_cancel {c d : Disconnect} (hc : FieldsFit (.Disconnect c)) (hd : FieldsFit (.Disconnect d))
    (lc : (wireBody (.Disconnect c)).length ≤ maxRemaining) (ld : (wireBody (.Disconnect d)).length ≤ maxRemaining)
    (h : wireBody (.Disconnect c) = wireBody (.Disconnect d)) : essence (.Disconnect c) = essence (.Disconnect d) := by
  have hl : ∀ r, disconnectCode r < 256 := by intro r; cases r <;> decide
  have hi : ∀ r r', disconnectCode r = disconnectCode r' → r = r' := by
    intro r r'; cases r <;> cases r' <;> first | (intro _; rfl) | (intro h; simp [disconnectCode] at h)
  -- in normal form: no empty property set
  rw [← essence_body] at h lc
  rw [← essence_body (.Disconnect d)] at h ld
  have fit : ∀ e : Disconnect, FieldsFit (.Disconnect e) → FieldsFit (essence (.Disconnect e)) := by
    intro e he
    simp only [essence]; split
    · intro p hp; simp at hp
    · exact he
  have hc := fit c hc
  have hd := fit d hd
  have nf : ∀ e : Disconnect, ∃ e' : Disconnect, essence (.Disconnect e) = .Disconnect e' ∧
      ∀ p, e'.properties = some p → disconnectProps p ≠ [] := by
    intro e
    refine ⟨_, rfl, ?_⟩
    split
    · simp
    · rename_i h
      intro p hp h0
      exact h ⟨by simp [hp], by simp [hp, told, h0]⟩
  obtain ⟨c', ec, nc⟩ := nf c
  obtain ⟨d', ed, nd⟩ := nf d
  rw [ec] at h hc lc ⊢
  rw [ed] at h hd ld ⊢
  obtain ⟨r, o⟩ := c'
  obtain ⟨r', o'⟩ := d'
  simp only [FieldsFit] at hc hd
  cases o with
  | none =>
    cases o' with
    | none =>
      simp only [wireBody] at h
      by_cases h1 : r = .NormalDisconnection <;> by_cases h2 : r' = .NormalDisconnection <;>
        simp only [h1, h2, if_true, if_false] at h
      · rw [h1, h2]
      · simp [Spec.u8] at h
      · simp [Spec.u8] at h
      · obtain ⟨e, _⟩ := u8_cancel (s := []) (t := []) (hl r) (hl r') (by simpa using h)
        rw [hi r r' e]
    | some q =>
      exfalso
      have n := nd q rfl
      have := sec_ne (disconnectProps q)
      simp only [wireBody, n, if_false] at h
      by_cases h1 : r = .NormalDisconnection <;> simp [h1, Spec.u8] at h
      exact this h.2
  | some p =>
    have n := nc p rfl
    cases o' with
    | none =>
      exfalso
      have := sec_ne (disconnectProps p)
      simp only [wireBody, n, if_false] at h
      by_cases h1 : r' = .NormalDisconnection <;> simp [h1, Spec.u8] at h
      exact this h.2
    | some q =>
      have n' := nd q rfl
      simp only [wireBody, n, n', if_false, List.length_append] at h lc ld
      obtain ⟨e1, h⟩ := u8_cancel (hl r) (hl r') h
      obtain ⟨e2, _⟩ := set_cancel (s := []) (t := []) disconnect_kinds disconnect_dec hc hd (by omega) (by omega) (by simpa using h)
      rw [hi r r' e1, e2]

theorem connack_cancel {c d : ConnAck} (hc : FieldsFit (.ConnAck c)) (hd : FieldsFit (.ConnAck d))
    (lc : (wireBody (.ConnAck c)).length ≤ maxRemaining) (ld : (wireBody (.ConnAck d)).length ≤ maxRemaining)
    (h : wireBody (.ConnAck c) = wireBody (.ConnAck d)) : c = d := by
  have hl : ∀ r, connectCode r < 256 := by intro r; cases r <;> decide
  have hi : ∀ r r', connectCode r = connectCode r' → r = r' := by
    intro r r'; cases r <;> cases r' <;> first | (intro _; rfl) | (intro h; simp [connectCode] at h)
  have hf : ∀ b, flag b 1 < 256 := fun b => Nat.lt_of_le_of_lt (flag_lt b 1) (by decide)
  obtain ⟨s, r, o⟩ := c
  obtain ⟨s', r', o'⟩ := d
  simp only [FieldsFit] at hc hd
  have split : ∀ x y, Spec.u8 (flag s 1) ++ Spec.u8 (connectCode r) ++ x = Spec.u8 (flag s' 1) ++ Spec.u8 (connectCode r') ++ y →
      s = s' ∧ r = r' ∧ x = y := by
    intro x y h
    simp only [List.append_assoc] at h
    obtain ⟨a, h⟩ := u8_cancel (hf s) (hf s') h
    obtain ⟨b, h⟩ := u8_cancel (hl r) (hl r') h
    exact ⟨flag_inj (by decide) a, hi _ _ b, h⟩
  cases o with
  | none =>
    cases o' with
    | none =>
      obtain ⟨a, b, _⟩ := split [] [] (by simpa [wireBody] using h)
      rw [a, b]
    | some q =>
      obtain ⟨_, _, e⟩ := split [] (sec (connackProps q)) (by simpa [wireBody] using h)
      exact absurd e.symm (sec_ne _)
  | some p =>
    cases o' with
    | none =>
      obtain ⟨_, _, e⟩ := split (sec (connackProps p)) [] (by simpa [wireBody] using h)
      exact absurd e (sec_ne _)
    | some q =>
      simp only [wireBody, List.length_append] at lc ld
      obtain ⟨a, b, e⟩ := split (sec (connackProps p)) (sec (connackProps q)) (by simpa [wireBody] using h)
      obtain ⟨e2, _⟩ := set_cancel (s := []) (t := []) connack_kinds connack_dec hc hd (by omega) (by omega) (by simpa using e)
      rw [a, b, e2]

theorem same_body {p q : Packet} (hp : FieldsFit p) (hq : FieldsFit q) (lp : (wireBody p).length ≤ maxRemaining)
    (lq : (wireBody q).length ≤ maxRemaining) (h1 : byte1 p = byte1 q) (h : wireBody p = wireBody q) :
    essence p = essence q := by
  have ht : byte1 p / 16 = byte1 q / 16 := by rw [h1]
  have hb : ∀ r : Publish, byte1 (.Publish r) / 16 = 3 := by
    intro r
    have := qosNum_lt r.qos
    have := flag_lt r.dup 8
    have := flag_lt r.retain 1
    simp only [byte1]; omega
  cases p <;> cases q <;> first | (exfalso; (try simp only [hb] at ht); simp [byte1] at ht; done) | skip
  case Connect c d => exact connect_cancel hp hq lp lq h
  case ConnAck c d => rw [connack_cancel hp hq lp lq h]
  case Disconnect c d => exact disconnect_cancel hp hq lp lq h
  case Publish p q =>
    obtain ⟨b1, b2, b3⟩ := publishByte_inj h1
    simp only [wireBody, body, List.append_assoc, List.length_append] at h lp lq
    obtain ⟨e1, h⟩ := bin_cancel hp.1 hq.1 h
    have e1 := utf8_inj.1 e1
    rw [← b2] at h
    by_cases h0 : p.qos = .AtMostOnce
    · simp only [h0, if_true, List.nil_append] at h
      obtain ⟨e3, h⟩ := optSec_cancel publish_kinds publish_dec hp.2 hq.2 (by omega) (by omega) h
      cases p; cases q; simp_all [essence]
    · simp only [h0, if_false] at h
      obtain ⟨e2, h⟩ := u16_cancel h
      obtain ⟨e3, h⟩ := optSec_cancel publish_kinds publish_dec hp.2 hq.2 (by omega) (by omega) h
      cases p; cases q; simp_all [essence]
  case PubAck p q =>
    rw [ack_cancel (by intro r; cases r <;> decide) (by intro r r'; cases r <;> cases r' <;> decide) hp hq lp lq h]
  case PubRec p q =>
    rw [ack_cancel (by intro r; cases r <;> decide) (by intro r r'; cases r <;> cases r' <;> decide) hp hq lp lq h]
  case PubRel p q =>
    rw [ack_cancel (by intro r; cases r <;> decide) (by intro r r'; cases r <;> cases r' <;> decide) hp hq lp lq h]
  case PubComp p q =>
    rw [ack_cancel (by intro r; cases r <;> decide) (by intro r r'; cases r <;> cases r' <;> decide) hp hq lp lq h]
  case Subscribe p q =>
    simp only [wireBody, body, List.append_assoc, List.length_append] at h lp lq
    obtain ⟨e1, h⟩ := u16_cancel h
    obtain ⟨e3, h⟩ := optSec_cancel subscribe_kinds subscribe_dec hp.1 hq.1 (by omega) (by omega) h
    have e2 := flatMap_cancel (P := fun f : SubscribeFilter => fits (utf8 f.path).length) (by intro x; simp [str_ne])
      (by
        intro x y s t hx hy h
        simp only [List.append_assoc] at h
        obtain ⟨a, h⟩ := bin_cancel hx hy h
        have a := utf8_inj.1 a
        obtain ⟨b, h⟩ := u8_cancel (subOptions_lt _) (subOptions_lt _) h
        obtain ⟨b1, b2, b3, b4⟩ := subOptions_cancel b
        refine ⟨?_, h⟩
        cases x; cases y; simp_all) _ _ hp.2 hq.2 h
    cases p; cases q; simp_all [essence]
  case SubAck p q =>
    simp only [wireBody, body, List.append_assoc, List.length_append] at h lp lq
    obtain ⟨e1, h⟩ := u16_cancel h
    obtain ⟨e3, h⟩ := optSec_cancel reason_kinds reason_dec hp hq (by omega) (by omega) h
    have e2 := flatMap_cancel (P := fun _ : SubscribeReasonCode => True) (by intro x; simp [Spec.u8])
      (by
        intro x y s t _ _ h
        have hl : ∀ c, subCode c < 256 := by intro c; cases c <;> decide
        obtain ⟨b, h⟩ := u8_cancel (hl _) (hl _) h
        refine ⟨?_, h⟩
        revert b; cases x <;> cases y <;> decide) _ _ (fun _ _ => trivial) (fun _ _ => trivial) h
    cases p; cases q; simp_all [essence]
  case UnsubAck p q =>
    simp only [wireBody, body, List.append_assoc, List.length_append] at h lp lq
    obtain ⟨e1, h⟩ := u16_cancel h
    obtain ⟨e3, h⟩ := optSec_cancel reason_kinds reason_dec hp hq (by omega) (by omega) h
    have e2 := flatMap_cancel (P := fun _ : UnsubAckReason => True) (by intro x; simp [Spec.u8])
      (by
        intro x y s t _ _ h
        have hl : ∀ c, unsubCode c < 256 := by intro c; cases c <;> decide
        obtain ⟨b, h⟩ := u8_cancel (hl _) (hl _) h
        refine ⟨?_, h⟩
        revert b; cases x <;> cases y <;> decide) _ _ (fun _ _ => trivial) (fun _ _ => trivial) h
    cases p; cases q; simp_all [essence]
  case Unsubscribe p q =>
    simp only [wireBody, body, List.append_assoc, List.length_append] at h lp lq
    obtain ⟨e1, h⟩ := u16_cancel h
    obtain ⟨e3, h⟩ := optSec_cancel unsubscribe_kinds unsubscribe_dec hp.1 hq.1 (by omega) (by omega) h
    have e2 := flatMap_cancel (P := fun t : String => fits (utf8 t).length) str_ne
      (by
        intro x y s t hx hy h
        obtain ⟨a, h⟩ := bin_cancel hx hy h
        exact ⟨utf8_inj.1 a, h⟩) _ _ hp.2 hq.2 h
    cases p; cases q; simp_all [essence]
  all_goals rfl

theorem encode_cancel (p q : Packet) (hp : FieldsFit p) (hq : FieldsFit q) (lp : (wireBody p).length ≤ maxRemaining)
    (lq : (wireBody q).length ≤ maxRemaining) (a b : Bytes) :
    frame (byte1 p) (wireBody p) ++ a = frame (byte1 q) (wireBody q) ++ b ↔ essence p = essence q ∧ a = b := by
  constructor
  · intro h
    obtain ⟨h1, h2, h3⟩ := frame_cancel (byte1_lt p) (byte1_lt q) lp lq h
    exact ⟨same_body hp hq lp lq h1 h2, h3⟩
  · rintro ⟨h, rfl⟩
    rw [← essence_byte1 p, ← essence_body p, h, essence_byte1 q, essence_body q]

end Mqtt.V5.Ess
