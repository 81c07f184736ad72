import Verif.Proof.V5Exact
import Verif.Proof.V4Read
/-! Decoding and encoding again does not grow a packet. -/
set_option linter.unusedSimpArgs false
namespace Mqtt.V4
open Spec Spec.V4

theorem loginFields_le {flags : UInt8} {bd : Bytes} {l : Option Login} (h : LoginDenotes flags bd l) :
    (loginFields l).length ≤ bd.length := by
  obtain ⟨u, p, _, _, h1, h2, rfl, rfl⟩ := h
  by_cases hu : u = "" <;> by_cases hp : p = ""
  · simp [hu, hp, loginFields]
  · have : bit flags 6 := by by_contra h; exact hp (h2 h)
    simp [hu, hp, loginFields, this]
  · have : bit flags 7 := by by_contra h; exact hu (h1 h)
    simp [hu, hp, loginFields, this]
  · have h6 : bit flags 6 := by by_contra h; exact hp (h2 h)
    have h7 : bit flags 7 := by by_contra h; exact hu (h1 h)
    simp [hu, hp, loginFields, h6, h7]

theorem filters_len {bd : Bytes} {fs : List SubscribeFilter} (h : FiltersDenote bd fs) :
    (fs.flatMap fun f => str f.path ++ u8 (qosNum f.qos)).length = bd.length := by
  induction h with
  | nil => rfl
  | cons path q opt bd fs hp ho h ih => simp [u8_len, ih]; omega

theorem body_le {b1 : UInt8} {bd : Bytes} {p : Packet} (h : Denotes b1 bd p) :
    (body p).length ≤ bd.length := by
  cases p with
  | Connect c =>
    obtain ⟨_, flags, will, login, junk, rfl, _, _, hw, hl⟩ := h
    have h1 := loginFields_le hl
    have h2 : (willFields c.last_will).length ≤ will.length := by
      cases hc : c.last_will with
      | none => simp [willFields]
      | some w => rw [hc] at hw; rw [hw.2.2.2.2.2, willFields]
    simp only [body, List.length_append, u8_len, u16_len, List.length_cons, List.length_nil]; omega
  | ConnAck c =>
    obtain ⟨_, flags, junk, rfl, _⟩ := h
    simp [body, u8_len]
  | Publish p => rw [h.2.1]
  | PubAck p => obtain ⟨_, junk, rfl⟩ := h; simp [body]
  | PubRec p => obtain ⟨_, junk, rfl⟩ := h; simp [body]
  | PubRel p => obtain ⟨_, junk, rfl⟩ := h; simp [body]
  | PubComp p => obtain ⟨_, junk, rfl⟩ := h; simp [body]
  | Subscribe p =>
    obtain ⟨_, fs, rfl, hf, _⟩ := h
    simp only [body, List.length_append, filters_len hf]; omega
  | SubAck p => rw [h.2.1]
  | Unsubscribe p => rw [h.2.1]
  | UnsubAck p => rw [h.2]
  | PingReq => simp [body]
  | PingResp => simp [body]
  | Disconnect => simp [body]
end Mqtt.V4

namespace Mqtt.V5
open Spec Spec.V5
open Spec.V4 (bit qosNum)

theorem vbi_length_mono {a b : Nat} (h : a ≤ b) : (vbi a).length ≤ (vbi b).length := by
  rw [vbi_length_eq, vbi_length_eq]
  split_ifs <;> omega

/-- a property set is encoded in at most `x` bytes more than it was read from -/
def Grows (sg : SecGrammar) (x : Nat) : Prop :=
  ∀ {π : Type} {kind : Nat → Option Kind} {props : π → List Property} {dec : List Property → π}
    {step : PropStep π} {len : π → Nat} {write : π → M Unit}, PropSet kind props dec step len write →
    ∀ sec o, SetDenotesBy sg kind dec sec o → (optSec props o).length ≤ sec.length + x ∧ sec ≠ []

theorem sec_nil_len : (sec []).length = 1 := by simp [sec, encAll, vbi, u8_len]

theorem counted_max {v : Val} {vb : Bytes} (h : v.Denotes vb) : counted v vb ≤ 131075 := by
  have hM : maxRemaining = 268435455 := rfl
  cases v with
  | vbi n =>
    have := h.1.1
    simp only [counted, Val.kind, if_true]; omega
  | pair k v =>
    obtain ⟨⟨h1, h2⟩, rfl⟩ := h
    simp only [fits] at h1 h2
    simp only [counted, Val.kind, Val.enc, List.length_append, str_len]; simp; omega
  | str v =>
    obtain ⟨h1, rfl⟩ := h
    simp only [Val.Fits, fits] at h1
    simp only [counted, Val.kind, Val.enc, str_len]; simp; omega
  | bin v =>
    obtain ⟨h1, rfl⟩ := h
    simp only [Val.Fits, fits] at h1
    simp only [counted, Val.kind, Val.enc, bin_len]; simp; omega
  | _ => obtain ⟨h1, rfl⟩ := h; simp [counted, Val.kind, Val.enc, u8_len, u16_len, u32_len]

/-- a section overruns its declared length by less than one property -/
theorem propSeq_len {kind : Nat → Option Kind} {n c : Nat} {bs : Bytes} {ps : List Property}
    (h : PropSeq kind n c bs ps) (hc : c ≤ n + 131074) : bs.length + c ≤ n + 131074 := by
  induction h with
  | done => simpa using hc
  | @more c hcn id v vb bs ps hk hv ht ih =>
    have h1 := counted_max hv
    have h2 := ih (by omega)
    have h3 : vb.length + 1 ≤ counted v vb := by unfold counted; omega
    simp only [List.length_append, List.length_cons, List.length_nil]; omega

theorem grows_dec : Grows SecDenotes 2 := by
  intro π kind props dec step len write S sec o ⟨ps, h, ho⟩
  subst ho
  cases ps with
  | none =>
    have := List.length_pos_iff.2 (isVbi_ne_nil h.1)
    refine ⟨?_, isVbi_ne_nil h.1⟩
    simp only [Option.map_none, optSec, sec_nil_len]; omega
  | some ps =>
    obtain ⟨len, bs, rfl, hv, _, hp⟩ := h
    have h2 := encAll_subperm (S.sub ps)
    have h3 := hp.mem.2
    have h4 := propSeq_len hp (by omega)
    have h5 := vbi_length_mono (show (encAll (props (dec ps))).length ≤ vbiValue len + 131074 by omega)
    have h6 := vbi_minimal hv rfl
    rw [vbi_length_eq (vbiValue len + 131074)] at h5
    rw [vbi_length_eq] at h6
    refine ⟨?_, by simp [isVbi_ne_nil hv]⟩
    simp only [Option.map_some, optSec, Spec.V5.sec, List.length_append]
    split_ifs at h5 h6 <;> omega

theorem grows_exact : Grows ExactSec 0 := by
  intro π kind props dec step len write S sec o ⟨ps, h, ho⟩
  subst ho
  cases ps with
  | none =>
    have := List.length_pos_iff.2 (isVbi_ne_nil h.1)
    refine ⟨?_, isVbi_ne_nil h.1⟩
    simp only [Option.map_none, optSec, sec_nil_len]; omega
  | some ps =>
    obtain ⟨len, bs, rfl, hv, hl, _, hp⟩ := h
    have h2 := encAll_subperm (S.sub ps)
    have h3 := (Props.mem hp).2
    have h4 : (vbi (encAll (props (dec ps))).length).length ≤ len.length :=
      Nat.le_trans (vbi_length_mono (by omega)) (vbi_minimal hv rfl)
    refine ⟨?_, by simp [isVbi_ne_nil hv]⟩
    simp only [Option.map_some, optSec, Spec.V5.sec, List.length_append]; omega

theorem loginFields_le {flags : UInt8} {bd : Bytes} {l : Option Login} (h : LoginDenotes flags bd l) :
    (loginFields l).length ≤ bd.length := by
  obtain ⟨u, p, _, _, h1, h2, rfl, rfl⟩ := h
  by_cases hu : u = "" <;> by_cases hp : p = ""
  · simp [hu, hp, loginFields]
  · have : bit flags 6 := by by_contra h; exact hp (h2 h)
    simp [hu, hp, loginFields, this]
  · have : bit flags 7 := by by_contra h; exact hu (h1 h)
    simp [hu, hp, loginFields, this]
  · have h6 : bit flags 6 := by by_contra h; exact hp (h2 h)
    have h7 : bit flags 7 := by by_contra h; exact hu (h1 h)
    simp [hu, hp, loginFields, h6, h7]

theorem filters_len {bd : Bytes} {fs : List SubscribeFilter} (h : FiltersDenote bd fs) :
    (fs.flatMap fun f => str f.path ++ u8 (subOptions f)).length = bd.length := by
  induction h with
  | nil => rfl
  | cons f opt bd fs hp ho h ih => simp [u8_len, ih]; omega

/-- how much longer than the body it was read from the body of a packet may be, when sections grow by `x` -/
def slack (x : Nat) : Packet → Nat
  | .Connect c => x + (if c.protocol = .V4 then 1 else x)
  | _ => x

theorem ack_le {sg : SecGrammar} {x : Nat} (hg : Grows sg x) {R : Type} {code : R → Nat} {bd : Bytes}
    {a : Ack R} (h : AckDenotesBy sg code bd a) : (ackBody code a).length ≤ bd.length + x := by
  rcases h with ⟨rfl, h0, hn⟩ | ⟨rfl, hn⟩ | ⟨props, junk, rfl, hs⟩
  · simp [ackBody, h0, hn, u16_len]
  · rw [ackBody, hn]
    simp only [List.length_append, u16_len, u8_len]
    split <;> simp [u8_len]
    omega
  · have h1 := hg reason_set _ _ hs
    rw [ackBody]
    cases hp : a.properties with
    | none =>
      simp only [List.length_append, u16_len, u8_len]
      split <;> simp [u8_len]
      all_goals omega
    | some p =>
      rw [hp] at h1
      simp only [optSec] at h1
      simp only [List.length_append, u16_len, u8_len]
      omega

theorem body_le {sg : SecGrammar} {x : Nat} (hg : Grows sg x) {b1 : UInt8} {bd : Bytes} {p : Packet}
    (h : DenotesBy sg b1 bd p) : (body p).length ≤ bd.length + slack x p := by
  cases p with
  | Connect c =>
    obtain ⟨_, flags, props, will, login, junk, rfl, hp, _, _, hw, hl⟩ := h
    have h1 := loginFields_le hl
    have h2 : (willFields c.last_will).length ≤ will.length + x := by
      cases hc : c.last_will with
      | none => simp [willFields]
      | some w =>
        rw [hc] at hw
        obtain ⟨_, _, _, _, _, ps, rfl, hs⟩ := hw
        have := (hg will_set _ _ hs).1
        simp only [willFields, List.length_append]; omega
    have h3 : (optSec connectProps c.properties).length ≤ props.length + (if c.protocol = .V4 then 1 else x) := by
      cases hc : c.protocol with
      | V4 =>
        rw [hc] at hp; rw [hp.1, hp.2, optSec, sec_nil_len]; simp
      | V5 =>
        rw [hc] at hp; have := (hg connect_set _ _ hp).1; simp; omega
    simp only [body, slack, List.length_append, u8_len, u16_len, List.length_cons, List.length_nil]; omega
  | ConnAck c =>
    obtain ⟨_, flags, props, junk, rfl, _, hs⟩ := h
    have := (hg connack_set _ _ hs).1
    simp only [body, slack, List.length_append, u8_len, List.length_cons, List.length_nil]; omega
  | Publish p =>
    obtain ⟨_, props, rfl, _, _, hs⟩ := h
    have := (hg publish_set _ _ hs).1
    simp only [body, slack, List.length_append]; omega
  | PubAck p => exact ack_le hg h.2
  | PubRec p => exact ack_le hg h.2
  | PubRel p => exact ack_le hg h.2
  | PubComp p => exact ack_le hg h.2
  | Subscribe p =>
    obtain ⟨_, props, fs, rfl, hs, hf⟩ := h
    have := (hg subscribe_set _ _ hs).1
    simp only [body, slack, List.length_append, filters_len hf]; omega
  | SubAck p =>
    obtain ⟨_, props, rfl, hs, _⟩ := h
    have := (hg reason_set _ _ hs).1
    simp only [body, slack, List.length_append]; omega
  | Unsubscribe p =>
    obtain ⟨_, props, rfl, hs, _⟩ := h
    have := (hg unsubscribe_set _ _ hs).1
    simp only [body, slack, List.length_append]; omega
  | UnsubAck p =>
    obtain ⟨_, props, rfl, hs, _⟩ := h
    have := (hg reason_set _ _ hs).1
    simp only [body, slack, List.length_append]; omega
  | PingReq => simp [body]
  | PingResp => simp [body]
  | Disconnect d =>
    obtain ⟨_, props, junk, rfl, hs⟩ := h
    have h1 := (hg disconnect_set _ _ hs).1
    simp only [body, slack]
    cases hp : d.properties with
    | none => simp only; split <;> simp [u8_len]; omega
    | some p =>
      rw [hp] at h1
      simp only [optSec] at h1
      simp only [List.length_append, u8_len]; omega

end Mqtt.V5
