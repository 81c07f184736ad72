import Verif.Proof.V5Spec
/-! CONNECT with protocol level 4 in the v5 codec: which ones are read back. -/
set_option linter.unusedSimpArgs false
namespace Mqtt.V5
open Mqtt Spec Spec.V5
open Spec.V4 (typeNum bit level)

theorem vbi_prefix_det {a b t u : Bytes} (ha : IsVbi a) (hb : IsVbi b) (e : a ++ t = b ++ u) : a = b ∧ t = u := by
  have h1 := (length_ok_iff (a ++ t) _ _).2 ⟨a, t, rfl, ha, rfl, rfl⟩
  have h2 := (length_ok_iff (a ++ t) _ _).2 ⟨b, u, e, hb, rfl, rfl⟩
  rw [h1] at h2
  simp only [Res.ok.injEq, Prod.mk.injEq] at h2
  exact List.append_inj e h2.1

/-- an encoded packet is one frame only -/
theorem encode_det {p : Packet} {b1 : UInt8} {bs bd rest : Bytes} (hl : (body p).length ≤ maxRemaining)
    (hv : IsVbi bs) (e : encode p ++ rest = b1 :: (bs ++ (bd ++ rest))) :
    b1 = UInt8.ofNat (byte1 p) ∧ bd = body p := by
  simp only [encode, frame, Spec.u8, List.cons_append, List.nil_append, List.append_assoc, List.cons.injEq] at e
  obtain ⟨h1, h2⟩ := e
  obtain ⟨_, h3⟩ := vbi_prefix_det (vbi_isVbi hl) hv h2
  exact ⟨h1.symm, (List.append_cancel_right h3).symm⟩

theorem read_encode_iff (p q : Packet) (hl : (body p).length ≤ maxRemaining) (max : Nat)
    (hm : (body p).length ≤ max) (rest : Bytes) :
    V5.read max (encode p ++ rest) = (.ok q, rest) ↔ Denotes (UInt8.ofNat (byte1 p)) (body p) q := by
  rw [read_ok_iff]
  constructor
  · rintro ⟨b1, bs, bd, e, hv, _, _, hd⟩
    obtain ⟨rfl, rfl⟩ := encode_det hl hv e
    exact hd
  · intro h
    exact ⟨UInt8.ofNat (byte1 p), vbi (body p).length, body p, by simp [encode, frame, Spec.u8],
      vbi_isVbi hl, vbiValue_vbi hl, hm, h⟩

theorem bin_shift {m t t' : Bytes} (hm : m.length ≤ 65535) (e : 0 :: (bin m ++ t) = bin m ++ t') :
    m = [] ∧ 0 :: t = t' := by
  simp only [bin, Spec.u16, List.cons_append, List.nil_append, List.cons.injEq] at e
  obtain ⟨h1, h2, h3⟩ := e
  have a1 : m.length / 256 = 0 := by
    have := congrArg UInt8.toNat h1
    rw [ofNat_toNat (by omega)] at this
    simpa using this.symm
  have a2 : m.length % 256 = 0 := by
    rw [a1] at h2
    have := congrArg UInt8.toNat h2
    rw [ofNat_toNat (by omega)] at this
    simpa using this.symm
  have : m = [] := List.eq_nil_of_length_eq_zero (by omega)
  subst this
  exact ⟨rfl, by simpa using h3⟩

theorem str_shift {s : String} {t t' : Bytes} (hm : fits (utf8 s).length) (e : 0 :: (str s ++ t) = str s ++ t') :
    s = "" ∧ 0 :: t = t' := by
  obtain ⟨h1, h2⟩ := bin_shift hm e
  exact ⟨utf8_inj.1 (h1.trans (by decide +kernel)), h2⟩

theorem login_shift {l : Option Login} {flags : UInt8} {lb junk : Bytes}
    (hf : ∀ x, l = some x → fits (utf8 x.username).length ∧ fits (utf8 x.password).length)
    (hm : ∀ x, l = some x → x.username ≠ "" ∨ x.password ≠ "")
    (hu : bit flags 7 ↔ ∃ x, l = some x ∧ x.username ≠ "") (hp : bit flags 6 ↔ ∃ x, l = some x ∧ x.password ≠ "")
    (h : LoginDenotes flags lb l) (e : 0 :: loginFields l = lb ++ junk) : l = none := by
  cases l with
  | none => rfl
  | some x =>
    exfalso
    obtain ⟨u, p, h1, h2, h3, h4, rfl, h6⟩ := h
    split at h6
    · simp at h6
    · simp only [Option.some.injEq] at h6
      subst h6
      simp only [Option.some.injEq, exists_eq_left'] at hu hp
      simp only [loginFields] at e
      by_cases eu : u = ""
      · have ep : p ≠ "" := by simpa [eu] using hm _ rfl
        have n7 : ¬ bit flags 7 := by rw [hu]; simpa using eu
        rw [if_pos eu, if_neg ep, if_neg n7, if_pos (hp.2 ep)] at e
        simp only [List.nil_append] at e
        have := str_shift (t := []) h2 (by simpa using e)
        exact ep this.1
      · rw [if_neg eu, if_pos (hu.2 eu), List.append_assoc] at e
        exact eu (str_shift h1 e).1

/-- a level 4 CONNECT that denotes itself is the degenerate one -/
theorem connect4_denotes (c : Connect) (h4 : c.protocol = .V4) (hf : FieldsFit (.Connect c))
    (hm : Meaningful (.Connect c)) (h : Denotes (UInt8.ofNat (byte1 (.Connect c))) (body (.Connect c)) (.Connect c)) :
    ConnectReadsBack c := by
  obtain ⟨_, f, pb, wb, lb, junk, hb, hp, hid, _, hw, hl⟩ := h
  rw [h4] at hp
  obtain ⟨rfl, hnone⟩ := hp
  obtain ⟨hu, hpw⟩ := connect_bits c
  simp only [body, Spec.u8, List.append_nil, List.append_assoc] at hb
  have hb1 := List.append_cancel_left hb
  simp only [List.cons_append, List.nil_append, List.cons.injEq, true_and] at hb1
  obtain ⟨rfl, hb2⟩ := hb1
  clear hb
  have hb := List.append_cancel_left hb2
  rw [hnone] at hb
  have e0 : optSec connectProps none = [0] := rfl
  rw [e0] at hb
  obtain ⟨hc, hb⟩ := str_shift hid hb
  clear hb2
  refine .inr ⟨hnone, hc, ?_⟩
  revert hb hw
  cases hlw : c.last_will with
  | none =>
    rintro ⟨_, _, _, _, rfl⟩ hb
    simp only [willFields, List.nil_append] at hb
    exact ⟨login_shift hf.2.2.2 hm.2.2 hu hpw hl hb, by simp⟩
  | some w =>
    rintro ⟨_, _, _, hft, hfm, props, rfl, hs⟩ hb
    have hwp : props = [0] ∧ w.properties = none := by
      obtain ⟨ps, h1, h2⟩ := hs
      have hz : ∀ l t, IsVbi l → (0 : UInt8) :: willFields (some w) ++ loginFields c.login = l ++ t → l = [0] := by
        intro l t hv e
        exact (vbi_prefix_det (a := [0]) ((isVbi_singleton 0).2 (by decide)) hv
          (t := willFields (some w) ++ loginFields c.login) (by simpa using e)).1.symm
      cases ps with
      | none => exact ⟨hz _ _ h1.1 (by simpa using hb), h2⟩
      | some ps =>
        obtain ⟨l, bs, rfl, hv, h0, _⟩ := h1
        have := hz l _ hv (by simpa using hb)
        subst this
        exact absurd rfl h0
    obtain ⟨rfl, hnw⟩ := hwp
    have e1 : optSec willProps none = [0] := rfl
    simp only [willFields, hnw, e1, List.append_assoc, List.cons_append, List.nil_append, List.cons.injEq, true_and] at hb
    obtain ⟨ht, hb⟩ := str_shift hft hb
    obtain ⟨hmsg, hb⟩ := bin_shift hfm hb
    exact ⟨login_shift hf.2.2.2 hm.2.2 hu hpw hl hb, by rintro w' hw'; cases hw'; exact ⟨hnw, ht, hmsg⟩⟩

end Mqtt.V5
