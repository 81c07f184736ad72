import Verif.Spec.Essence
import Verif.Proof.Cross
import Verif.Proof.V5Exact
/-! Which packets share an encoding. -/
set_option linter.unusedSimpArgs false
namespace Mqtt.Ess
open Mqtt Spec
open Spec.V4 (qosNum level)

theorem u8_cancel {n m : Nat} {s t : Bytes} (hn : n < 256) (hm : m < 256) (h : Spec.u8 n ++ s = Spec.u8 m ++ t) :
    n = m ∧ s = t := by
  simp only [Spec.u8, List.cons_append, List.nil_append, List.cons.injEq, ← UInt8.toNat_inj, UInt8.toNat_ofNat'] at h
  exact ⟨by omega, h.2⟩

theorem u16_cancel {x y : UInt16} {s t : Bytes} (h : Spec.u16 x.toNat ++ s = Spec.u16 y.toNat ++ t) : x = y ∧ s = t := by
  obtain ⟨h1, h2⟩ := u16_append_inj x.toNat_lt y.toNat_lt h
  exact ⟨UInt16.toNat_inj.1 h1, h2⟩

theorem bin_cancel {v w s t : Bytes} (hv : fits v.length) (hw : fits w.length) (h : bin v ++ s = bin w ++ t) :
    v = w ∧ s = t := by
  unfold fits at hv hw
  simp only [bin, List.append_assoc] at h
  obtain ⟨h1, h2⟩ := u16_append_inj (by omega) (by omega) h
  exact List.append_inj h2 h1

theorem flatMap_cancel {α : Type} {f : α → Bytes} {P : α → Prop} (hne : ∀ x, f x ≠ [])
    (hc : ∀ x y s t, P x → P y → f x ++ s = f y ++ t → x = y ∧ s = t) :
    ∀ l m : List α, (∀ x ∈ l, P x) → (∀ x ∈ m, P x) → l.flatMap f = m.flatMap f → l = m
  | [], [], _, _, _ => rfl
  | [], y :: m, _, _, h => by
    simp only [List.flatMap_nil, List.flatMap_cons] at h
    exact absurd (List.append_eq_nil_iff.1 h.symm).1 (hne y)
  | x :: l, [], _, _, h => by
    simp only [List.flatMap_nil, List.flatMap_cons] at h
    exact absurd (List.append_eq_nil_iff.1 h).1 (hne x)
  | x :: l, y :: m, hl, hm, h => by
    simp only [List.flatMap_cons] at h
    obtain ⟨rfl, h2⟩ := hc x y _ _ (hl x (by simp)) (hm y (by simp)) h
    rw [flatMap_cancel hne hc l m (fun z hz => hl z (by simp [hz])) (fun z hz => hm z (by simp [hz])) h2]

theorem frame_cancel {m n : Nat} {c d a b : Bytes} (hm : m < 256) (hn : n < 256) (hc : c.length ≤ maxRemaining)
    (hd : d.length ≤ maxRemaining) (h : frame m c ++ a = frame n d ++ b) : m = n ∧ c = d ∧ a = b := by
  have h' : frame m c ++ a = UInt8.ofNat n :: (vbi d.length ++ (d ++ b)) := by
    rw [h]; simp [frame, Spec.u8]
  obtain ⟨h1, h2, h3⟩ := frame_det hc (vbi_isVbi hd) (vbiValue_vbi hd) h'
  rw [← UInt8.toNat_inj, UInt8.toNat_ofNat', UInt8.toNat_ofNat'] at h1
  exact ⟨by omega, h2.symm, h3.symm⟩

theorem split_flags {L L' W W' C C' : Nat} (hL : L % 64 = 0) (hL' : L' % 64 = 0) (hW : W % 4 = 0 ∧ W < 64)
    (hW' : W' % 4 = 0 ∧ W' < 64) (hC : C < 4) (hC' : C' < 4) (h : L + W + C = L' + W' + C') : L = L' ∧ W = W' ∧ C = C' := by
  omega

theorem level_lt (p : Protocol) : level p < 256 := by cases p <;> decide

theorem level_inj' {p q : Protocol} (h : level p = level q) : p = q := by
  cases p <;> cases q <;> simp [level] at h ⊢

theorem flag_inj {x y : Bool} {n : Nat} (hn : n ≠ 0) (h : flag x n = flag y n) : x = y := by
  cases x <;> cases y <;> simp [flag] at h ⊢ <;> omega

theorem str_ne (s : String) : str s ≠ [] := by simp [str, bin, Spec.u16]

theorem fits_of {n : Nat} (h : fits n) : n ≤ 65535 := h

theorem qosNum_lt (q : QoS) : qosNum q < 3 := by cases q <;> decide
theorem qosNum_inj {q r : QoS} (h : qosNum q = qosNum r) : q = r := by
  cases q <;> cases r <;> simp [qosNum] at h ⊢
theorem flag_lt (b : Bool) (n : Nat) : flag b n ≤ n := by cases b <;> simp [flag]
theorem flag_le (b : Bool) (n : Nat) : flag b n = 0 ∨ flag b n = n := by cases b <;> simp [flag]

theorem publishByte_inj {d d' r r' : Bool} {q q' : QoS}
    (h : 3 * 16 + flag d 8 + 2 * qosNum q + flag r 1 = 3 * 16 + flag d' 8 + 2 * qosNum q' + flag r' 1) :
    d = d' ∧ q = q' ∧ r = r' := by
  revert h; cases d <;> cases d' <;> cases r <;> cases r' <;> cases q <;> cases q' <;> decide

end Mqtt.Ess

namespace Mqtt.V4.Ess
open Mqtt Mqtt.V4 Spec Spec.V4 Mqtt.Ess

def loginBits : Option Login → Nat
  | some l => flag (l.username ≠ "") 128 + flag (l.password ≠ "") 64
  | none => 0
def willBits : Option LastWill → Nat
  | some w => flag w.retain 32 + 8 * qosNum w.qos + 4
  | none => 0
theorem flags_eq (c : Connect) : connectFlags c = loginBits c.login + willBits c.last_will + flag c.clean_session 2 := by
  unfold connectFlags loginBits willBits
  cases c.login <;> cases c.last_will <;> rfl

theorem loginBits_mod (l : Option Login) : loginBits l % 64 = 0 ∧ loginBits l ≤ 192 := by
  cases l with
  | none => simp [loginBits]
  | some l =>
    simp only [loginBits]
    rcases flag_le (decide (l.username ≠ "")) 128 with h | h <;> rcases flag_le (decide (l.password ≠ "")) 64 with h' | h' <;>
      rw [h, h'] <;> decide

theorem willBits_mod (w : Option LastWill) : willBits w % 4 = 0 ∧ willBits w < 64 := by
  cases w with
  | none => simp [willBits]
  | some w =>
    simp only [willBits]
    have := qosNum_lt w.qos
    rcases flag_le w.retain 32 with h | h <;> rw [h] <;> omega

theorem login_cancel {l m : Option Login} (hl : ∀ x, l = some x → fits (utf8 x.username).length ∧ fits (utf8 x.password).length)
    (hm : ∀ x, m = some x → fits (utf8 x.username).length ∧ fits (utf8 x.password).length)
    (hb : loginBits l = loginBits m) (h : loginFields l = loginFields m) :
    (if l = some ⟨"", ""⟩ then none else l) = (if m = some ⟨"", ""⟩ then none else m) := by
  have key : ∀ {u p v r : String}, fits (utf8 u).length → fits (utf8 p).length → fits (utf8 v).length → fits (utf8 r).length →
      flag (u ≠ "") 128 + flag (p ≠ "") 64 = flag (v ≠ "") 128 + flag (r ≠ "") 64 →
      ((if u = "" then [] else str u) ++ (if p = "" then [] else str p)
        = (if v = "" then [] else str v) ++ (if r = "" then [] else str r)) → u = v ∧ p = r := by
    intro u p v r hu hp hv hr hb h
    by_cases h1 : u = "" <;> by_cases h2 : p = "" <;> by_cases h3 : v = "" <;> by_cases h4 : r = "" <;>
      simp [h1, h2, h3, h4, flag] at hb h ⊢
    · have := bin_cancel (s := []) (t := []) hp hr (by simpa [str] using h)
      exact utf8_inj.1 this.1
    · have := bin_cancel (s := []) (t := []) hu hv (by simpa [str] using h)
      exact utf8_inj.1 this.1
    · obtain ⟨a, b⟩ := bin_cancel hu hv h
      have := bin_cancel (s := []) (t := []) hp hr (by simpa [str] using b)
      exact ⟨utf8_inj.1 a, utf8_inj.1 this.1⟩
  cases l with
  | none =>
    cases m with
    | none => rfl
    | some m =>
      obtain ⟨a, b⟩ := hm m rfl
      obtain ⟨c, d⟩ := key (u := "") (p := "") (by decide) (by decide) a b (by simpa [loginBits, flag] using hb)
        (by simpa [loginFields] using h)
      cases m; simp at c d; subst c; subst d; simp
  | some l =>
    cases m with
    | none =>
      obtain ⟨a, b⟩ := hl l rfl
      obtain ⟨c, d⟩ := key (v := "") (r := "") a b (by decide) (by decide) (by simpa [loginBits, flag] using hb)
        (by simpa [loginFields] using h)
      cases l; simp at c d; subst c; subst d; simp
    | some m =>
      obtain ⟨a, b⟩ := hl l rfl
      obtain ⟨a', b'⟩ := hm m rfl
      obtain ⟨c, d⟩ := key a b a' b' (by simpa [loginBits] using hb) (by simpa [loginFields] using h)
      cases l; cases m; simp at c d; subst c; subst d; rfl

theorem will_cancel {w v : Option LastWill} {s t : Bytes}
    (hw : ∀ x, w = some x → fits (utf8 x.topic).length ∧ fits x.message.length)
    (hv : ∀ x, v = some x → fits (utf8 x.topic).length ∧ fits x.message.length)
    (hb : willBits w = willBits v) (h : willFields w ++ s = willFields v ++ t) : w = v ∧ s = t := by
  cases w with
  | none =>
    cases v with
    | none => exact ⟨rfl, by simpa [willFields] using h⟩
    | some v => simp [willBits] at hb
  | some w =>
    cases v with
    | none => simp [willBits] at hb
    | some v =>
      have hq : w.retain = v.retain ∧ w.qos = v.qos := by
        simp only [willBits] at hb
        revert hb
        cases w.retain <;> cases v.retain <;> cases w.qos <;> cases v.qos <;> decide
      simp only [willFields, List.append_assoc] at h
      obtain ⟨a, b⟩ := hw w rfl
      obtain ⟨a', b'⟩ := hv v rfl
      obtain ⟨e1, h⟩ := bin_cancel a a' h
      obtain ⟨e2, h⟩ := bin_cancel b b' h
      have e1 := utf8_inj.1 e1
      refine ⟨?_, h⟩
      cases w; cases v; simp_all

theorem connect_cancel {c d : Connect} (hc : FieldsFit (.Connect c)) (hd : FieldsFit (.Connect d))
    (h : body (.Connect c) = body (.Connect d)) : essence (.Connect c) = essence (.Connect d) := by
  obtain ⟨c1, c2, c3⟩ := hc
  obtain ⟨d1, d2, d3⟩ := hd
  simp only [body, List.append_assoc] at h
  have h := List.append_cancel_left h
  obtain ⟨e1, h⟩ := u8_cancel (level_lt _) (level_lt _) h
  have e1 := level_inj' e1
  rw [flags_eq, flags_eq] at h
  have l1 := loginBits_mod c.login
  have l2 := loginBits_mod d.login
  have w1 := willBits_mod c.last_will
  have w2 := willBits_mod d.last_will
  have f1 := flag_lt c.clean_session 2
  have f2 := flag_lt d.clean_session 2
  obtain ⟨e2, h⟩ := u8_cancel (by omega) (by omega) h
  obtain ⟨e3, e4, e5⟩ := split_flags l1.1 l2.1 w1 w2 (by omega) (by omega) e2
  have e5 := flag_inj (by decide) e5
  obtain ⟨e6, h⟩ := u16_cancel h
  obtain ⟨e7, h⟩ := bin_cancel c1 d1 h
  have e7 := utf8_inj.1 e7
  obtain ⟨e8, h⟩ := will_cancel c2 d2 e4 h
  have e9 := login_cancel c3 d3 e3 h
  cases c; cases d
  simp_all [essence]

theorem byte1_lt (p : Packet) : byte1 p < 256 := by
  cases p <;> simp only [byte1] <;> try decide
  rename_i p
  have := qosNum_lt p.qos
  have := flag_lt p.dup 8
  have := flag_lt p.retain 1
  omega

theorem essence_byte1 (p : Packet) : byte1 (essence p) = byte1 p := by cases p <;> rfl

theorem essence_body (p : Packet) : body (essence p) = body p := by
  cases p <;> try rfl
  case Connect c =>
    simp only [essence, body]
    by_cases h : c.login = some ⟨"", ""⟩
    · have : connectFlags { c with login := none } = connectFlags c := by simp [connectFlags, h, flag]
      simp only [h, if_true, this]
      simp [loginFields]
    · simp only [h, if_false]
  case Publish p =>
    simp only [essence, body]
    by_cases h : p.qos = .AtMostOnce <;> simp [h]

theorem same_body {p q : Packet} (hp : FieldsFit p) (hq : FieldsFit q) (h1 : byte1 p = byte1 q) (h : body p = body q) :
    essence p = essence q := by
  have ht : byte1 p / 16 = byte1 q / 16 := by rw [h1]
  have hb : ∀ r : Publish, byte1 (.Publish r) / 16 = 3 := by
    intro r
    have := qosNum_lt r.qos
    have := flag_lt r.dup 8
    have := flag_lt r.retain 1
    simp only [byte1]; omega
  cases p <;> cases q <;> first | (exfalso; (try simp only [hb] at ht); simp [byte1] at ht; done) | skip
  case Connect c d => exact connect_cancel hp hq h
  case ConnAck c d =>
    simp only [body] at h
    obtain ⟨e1, h⟩ := u8_cancel (Nat.lt_of_le_of_lt (flag_lt _ _) (by decide)) (Nat.lt_of_le_of_lt (flag_lt _ _) (by decide)) h
    have e1 := flag_inj (by decide) e1
    have e2 : c.code = d.code := by
      revert h; cases c.code <;> cases d.code <;> decide
    cases c; cases d; simp_all [essence]
  case Publish p q =>
    obtain ⟨b1, b2, b3⟩ := publishByte_inj h1
    simp only [body, List.append_assoc] at h
    obtain ⟨e1, h⟩ := bin_cancel hp hq h
    have e1 := utf8_inj.1 e1
    rw [← b2] at h
    by_cases h0 : p.qos = .AtMostOnce
    · cases p; cases q; simp_all [essence]
    · simp only [h0, if_false] at h
      obtain ⟨e2, h⟩ := u16_cancel h
      cases p; cases q; simp_all [essence]
  case PubAck p q => have := (u16_cancel (s := []) (t := []) (by simpa [body] using h)).1; cases p; cases q; simp_all
  case PubRec p q => have := (u16_cancel (s := []) (t := []) (by simpa [body] using h)).1; cases p; cases q; simp_all
  case PubRel p q => have := (u16_cancel (s := []) (t := []) (by simpa [body] using h)).1; cases p; cases q; simp_all
  case PubComp p q => have := (u16_cancel (s := []) (t := []) (by simpa [body] using h)).1; cases p; cases q; simp_all
  case UnsubAck p q => have := (u16_cancel (s := []) (t := []) (by simpa [body] using h)).1; cases p; cases q; simp_all
  case Subscribe p q =>
    obtain ⟨e1, h⟩ := u16_cancel h
    have e2 := flatMap_cancel (P := fun f : SubscribeFilter => fits (utf8 f.path).length) (by intro x; simp [str_ne])
      (by
        intro x y s t hx hy h
        simp only [List.append_assoc] at h
        obtain ⟨a, h⟩ := bin_cancel hx hy h
        have a := utf8_inj.1 a
        obtain ⟨b, h⟩ := u8_cancel (Nat.lt_trans (qosNum_lt _) (by decide)) (Nat.lt_trans (qosNum_lt _) (by decide)) h
        have b := qosNum_inj b
        refine ⟨?_, h⟩
        cases x; cases y; simp_all) _ _ hp hq h
    cases p; cases q; simp_all
  case SubAck p q =>
    obtain ⟨e1, h⟩ := u16_cancel h
    have e2 := flatMap_cancel (P := fun _ : SubscribeReasonCode => True) (by intro x; simp [Spec.u8])
      (by
        intro x y s t _ _ h
        have hl : ∀ c, subCode c < 256 := by
          intro c; rcases c with q | _
          · exact Nat.lt_trans (qosNum_lt q) (by decide)
          · decide
        obtain ⟨b, h⟩ := u8_cancel (hl _) (hl _) h
        refine ⟨?_, h⟩
        rcases x with x | _ <;> rcases y with y | _
        · rw [qosNum_inj b]
        · have := qosNum_lt x; simp only [subCode] at b; omega
        · have := qosNum_lt y; simp only [subCode] at b; omega
        · rfl) _ _ (fun _ _ => trivial) (fun _ _ => trivial) h
    cases p; cases q; simp_all
  case Unsubscribe p q =>
    obtain ⟨e1, h⟩ := u16_cancel h
    have e2 := flatMap_cancel (P := fun t : String => fits (utf8 t).length) str_ne
      (by
        intro x y s t hx hy h
        obtain ⟨a, h⟩ := bin_cancel hx hy h
        exact ⟨utf8_inj.1 a, h⟩) _ _ hp hq h
    cases p; cases q; simp_all
  all_goals rfl

theorem encode_cancel (p q : Packet) (hp : FieldsFit p) (hq : FieldsFit q) (lp : (body p).length ≤ maxRemaining)
    (lq : (body q).length ≤ maxRemaining) (a b : Bytes) :
    encode p ++ a = encode q ++ b ↔ essence p = essence q ∧ a = b := by
  constructor
  · intro h
    obtain ⟨h1, h2, h3⟩ := frame_cancel (byte1_lt p) (byte1_lt q) lp lq h
    exact ⟨same_body hp hq h1 h2, h3⟩
  · rintro ⟨h, rfl⟩
    unfold encode
    rw [← essence_byte1 p, ← essence_body p, h, essence_byte1 q, essence_body q]

end Mqtt.V4.Ess
