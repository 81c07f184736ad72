import Verif.Proof.V5SetsSub
/-! Consequences of the generic property section theory. -/
set_option linter.unusedSimpArgs false
namespace Mqtt.V5
open Mqtt Spec
open Spec.V5

theorem denotes_enc {v : Val} (h : v.Fits) : v.Denotes v.enc := by
  cases v
  case vbi n => exact ⟨vbi_isVbi h, vbiValue_vbi h⟩
  all_goals exact ⟨h, rfl⟩

theorem denotes_fits {v : Val} {bs : Bytes} (h : v.Denotes bs) : v.Fits := by
  cases v
  case vbi n => obtain ⟨h1, rfl⟩ := h; exact vbiValue_le h1
  all_goals exact h.1

theorem denotes_len {v : Val} {bs : Bytes} (h : v.Denotes bs) : v.enc.length ≤ bs.length := by
  cases v
  case vbi n => obtain ⟨h1, rfl⟩ := h; exact vbi_minimal h1 rfl
  all_goals (obtain ⟨_, rfl⟩ := h; exact Nat.le_refl _)

theorem enc_len_pos (v : Val) : 1 ≤ v.enc.length := by
  cases v <;> simp [Val.enc, u8_len, u16_len, u32_len, str_len, bin_len, vbi_length_pos] <;> omega

theorem vbis_nil : vbis [] = 0 := rfl
theorem vbis_append (a b : List Property) : vbis (a ++ b) = vbis a + vbis b := by simp [vbis]
theorem vbis_cons (q : Property) (l : List Property) :
    vbis (q :: l) = (if q.val.kind = .vbi then 1 else 0) + vbis l := by
  unfold vbis; rw [List.filter_cons]; split <;> simp_all; omega

/-- an encoded list of properties as a property sequence -/
theorem propSeq_enc (kind : Nat → Option Kind) (n c : Nat) (ps : List Property)
    (hk : ∀ q ∈ ps, q.id < 256 ∧ kind q.id = some q.val.kind) (hf : ∀ q ∈ ps, q.val.Fits)
    (hr : ∀ a b, ps = a ++ b → b ≠ [] → c + (encAll a).length + vbis a < n)
    (hn : n ≤ c + (encAll ps).length + vbis ps) : PropSeq kind n c (encAll ps) ps := by
  induction ps generalizing c with
  | nil => exact .done (by simpa [encAll, vbis] using hn)
  | cons q ps ih =>
    obtain ⟨i, v⟩ := q
    obtain ⟨hi, hki⟩ := hk _ (List.mem_cons_self ..)
    simp only at hi hki
    have h0 := hr [] (⟨i, v⟩ :: ps) rfl (by simp)
    simp only [encAll_nil, List.length_nil, vbis_nil] at h0
    have e : encAll (⟨i, v⟩ :: ps) = [UInt8.ofNat i] ++ v.enc ++ encAll ps := rfl
    have ei : (⟨i, v⟩ : Property) = ⟨(UInt8.ofNat i).toNat, v⟩ := by rw [ofNat_toNat hi]
    rw [e, ei]
    have hc : counted v v.enc = (Property.enc ⟨i, v⟩).length + (if v.kind = .vbi then 1 else 0) := by
      simp [counted, Property.enc, u8_len]
    refine .more (by omega) _ v v.enc (encAll ps) ps (by rw [ofNat_toNat hi]; exact hki)
      (denotes_enc (hf _ (List.mem_cons_self ..))) ?_
    refine ih _ (fun q hq => hk q (List.mem_cons_of_mem _ hq))
      (fun q hq => hf q (List.mem_cons_of_mem _ hq)) ?_ ?_
    · rintro a b rfl hb
      have := hr (⟨i, v⟩ :: a) b rfl hb
      rw [encAll_cons, vbis_cons, List.length_append] at this
      rw [hc]; simp only at this ⊢; omega
    · rw [encAll_cons, vbis_cons, List.length_append] at hn
      rw [hc]; simp only at hn ⊢; omega

theorem propSeq_readable (kind : Nat → Option Kind) (ps : List Property)
    (hk : ∀ q ∈ ps, q.id < 256 ∧ kind q.id = some q.val.kind) (hf : ∀ q ∈ ps, q.val.Fits)
    (hr : Readable ps) : PropSeq kind (encAll ps).length 0 (encAll ps) ps := by
  refine propSeq_enc kind _ 0 ps hk hf ?_ (by omega)
  rintro a b rfl hb
  have := hr a b rfl hb
  rw [encAll_append, List.length_append]; omega

theorem encAll_pos {ps : List Property} (h : ps ≠ []) : 1 ≤ (encAll ps).length := by
  cases ps with
  | nil => exact absurd rfl h
  | cons q ps => rw [encAll_cons]; simp [Property.enc, u8_len]

theorem sec_denotes (kind : Nat → Option Kind) (ps : List Property) (hne : ps ≠ [])
    (hk : ∀ q ∈ ps, q.id < 256 ∧ kind q.id = some q.val.kind) (hf : ∀ q ∈ ps, q.val.Fits)
    (hr : Readable ps) (hl : (encAll ps).length ≤ maxRemaining) :
    SecDenotes kind (sec ps) (some ps) := by
  refine ⟨vbi (encAll ps).length, encAll ps, rfl, vbi_isVbi hl, ?_, ?_⟩
  · rw [vbiValue_vbi hl]; have := encAll_pos hne; omega
  · rw [vbiValue_vbi hl]; exact propSeq_readable kind ps hk hf hr

theorem readable_of_no_vbi {ps : List Property} (h : vbis ps = 0) : Readable ps := by
  rintro a b rfl hb
  have := encAll_pos hb
  rw [vbis_append] at h; omega

theorem vbis_eq_zero {ps : List Property} (h : ∀ q ∈ ps, q.val.kind ≠ .vbi) : vbis ps = 0 := by
  unfold vbis
  rw [List.filter_eq_nil_iff.2 (by intro q hq; simpa using h q hq)]; rfl

/-- sections of a packet type without subscription identifiers are always readable -/
theorem readable_of_kinds {kind : Nat → Option Kind} (hk : ∀ i, kind i ≠ some .vbi)
    {ps : List Property} (h : ∀ q ∈ ps, q.id < 256 ∧ kind q.id = some q.val.kind) : Readable ps := by
  refine readable_of_no_vbi (vbis_eq_zero fun q hq e => ?_)
  exact hk q.id (by rw [(h q hq).2, e])

/-- properties of a decoded sequence -/
theorem _root_.Spec.V5.PropSeq.mem {kind : Nat → Option Kind} {n c : Nat} {bs : Bytes} {ps : List Property}
    (h : PropSeq kind n c bs ps) :
    (∀ q ∈ ps, q.id < 256 ∧ kind q.id = some q.val.kind ∧ q.val.Fits)
      ∧ (encAll ps).length ≤ bs.length := by
  induction h with
  | done _ => simp [encAll]
  | more h id v vb bs ps hk hv _ ih =>
    refine ⟨?_, ?_⟩
    · intro q hq
      rcases List.mem_cons.1 hq with rfl | hq
      · exact ⟨id.toNat_lt, hk, denotes_fits hv⟩
      · exact ih.1 q hq
    · rw [encAll_cons]
      simp [Property.enc, u8_len]
      have := denotes_len hv
      omega

theorem _root_.Spec.V5.PropSeq.ne_nil {kind : Nat → Option Kind} {n c : Nat} {bs : Bytes} {ps : List Property}
    (h : PropSeq kind n c bs ps) (hc : c < n) : ps ≠ [] := by
  cases h with
  | done h => omega
  | more => simp

/-- the section of a present property set, nothing for an absent one -/
def presentSec {π : Type} (props : π → List Property) (o : Option π) : Bytes :=
  match o with
  | some p => sec (props p)
  | none => []

section
variable {π : Type} {kind : Nat → Option Kind} {props : π → List Property}
  {dec : List Property → π} {step : PropStep π} {len : π → Nat} {write : π → M Unit}
  (S : PropSet kind props dec step len write)
include S

/-- the section of a well-formed set denotes that set -/
theorem optSec_denotes (o : Option π) (hne : NonEmpty props o) (hf : PropsFit props o)
    (hr : ∀ p, o = some p → Readable (props p)) (hl : (optSec props o).length ≤ maxRemaining) :
    SetDenotes kind dec (optSec props o) o := by
  cases o with
  | none => exact ⟨none, ⟨vbi_isVbi (n := 0) (by decide), rfl⟩, rfl⟩
  | some p =>
    refine ⟨some (props p), sec_denotes kind _ (hne p rfl) (S.kinds p) (hf p rfl) (hr p rfl) ?_, ?_⟩
    · simp only [optSec, sec, List.length_append] at hl; omega
    · simp [S.dec_props]

/-- a decoded set is well-formed and not longer when encoded, up to the size of the length field -/
theorem _root_.Spec.V5.SetDenotesBy.wf {sec : Bytes} {o : Option π} (h : SetDenotes kind dec sec o) :
    PropsFit props o ∧ NonEmpty props o ∧ (optSec props o).length ≤ sec.length + 3 := by
  obtain ⟨ps, h, rfl⟩ := h
  cases ps with
  | none =>
    refine ⟨by intro p hp; simp at hp, by intro p hp; simp at hp, ?_⟩
    have := isVbi_ne_nil h.1
    have : (optSec props (Option.map dec none)).length = 1 := rfl
    omega
  | some ps =>
    obtain ⟨l, bs, rfl, hv, h0, hp⟩ := h
    obtain ⟨hm, hlen⟩ := hp.mem
    have hsub := S.sub ps
    refine ⟨?_, ?_, ?_⟩
    · intro p hp' q hq
      simp only [Option.map_some, Option.some.injEq] at hp'
      subst hp'
      exact (hm q (hsub.subset hq)).2.2
    · intro p hp'
      simp only [Option.map_some, Option.some.injEq] at hp'
      subst hp'
      exact S.ne_nil ps (hp.ne_nil (by omega)) fun q hq => (hm q hq).2.1
    · simp only [Option.map_some, optSec, Spec.V5.sec, List.length_append]
      have h1 := encAll_subperm hsub
      have h2 := vbi_length_le (encAll (props (dec ps))).length
      have h3 := isVbi_ne_nil hv
      have : 1 ≤ l.length := by cases l with
        | nil => exact absurd rfl h3
        | cons _ _ => simp
      omega

/-- the section writer with "no properties" as a zero length -/
theorem writeOrZero_run (o : Option π) (hf : PropsFit props o)
    (hl : (optSec props o).length ≤ maxRemaining) (s : Bytes) :
    writePropsOrZero write o s = (.ok (), s ++ optSec props o) := by
  cases o with
  | none =>
    simp only [writePropsOrZero, optSec]
    rw [bind_run, write_remaining_length_run (by decide)]; rfl
  | some p =>
    refine (S.chunk p).run (hf p rfl) ?_ s
    simp only [optSec, sec, List.length_append] at hl; omega

omit S in
theorem presentSec_some (p : π) : presentSec props (some p) = sec (props p) := rfl

/-- the section writer, present properties only -/
theorem ifSome_run (o : Option π) (hf : PropsFit props o)
    (hl : (optSec props o).length ≤ maxRemaining) (s : Bytes) :
    ifSome o write s = (.ok (), s ++ presentSec props o) := by
  cases o with
  | none => simp [ifSome, pure_run, presentSec]
  | some p =>
    refine (S.chunk p).run (hf p rfl) ?_ s
    simp only [optSec, sec, List.length_append] at hl; omega

theorem writeOrZero_all (o : Option π) (hl : (optSec props o).length ≤ maxRemaining) (s : Bytes) :
    writePropsOrZero write o s = match o.bind fun ps => tornSec (props ps) with
      | some t => (.err .PayloadTooLong, s ++ t)
      | none => (.ok (), s ++ optSec props o) := by
  cases o with
  | none =>
    simp only [writePropsOrZero, optSec, Option.bind_none]
    rw [bind_run, write_remaining_length_run (by decide)]; rfl
  | some p =>
    have hb : (encAll (props p)).length ≤ maxRemaining := by
      simp only [optSec, sec, List.length_append] at hl; omega
    show write p s = _
    rw [(S.chunk p).emits hb]
    simp only [Option.bind_some, tornSec, emit]
    cases torn (props p) <;> simp [optSec, sec]

theorem ifSome_all (o : Option π) (hl : (presentSec props o).length ≤ maxRemaining) (s : Bytes) :
    ifSome o write s = match o.bind fun ps => tornSec (props ps) with
      | some t => (.err .PayloadTooLong, s ++ t)
      | none => (.ok (), s ++ presentSec props o) := by
  cases o with
  | none => simp [ifSome, pure_run, presentSec]
  | some p =>
    have hb : (encAll (props p)).length ≤ maxRemaining := by
      simp only [presentSec, sec, List.length_append] at hl; omega
    show write p s = _
    rw [(S.chunk p).emits hb]
    simp only [Option.bind_some, tornSec, emit]
    cases torn (props p) <;> simp [presentSec, sec]

theorem torn_no_vbi (hk : ∀ i, kind i ≠ some .vbi) (o : Option π) : (o.bind fun ps => tornSec (props ps)) = none := by
  cases o with
  | none => rfl
  | some p =>
    simp only [Option.bind_some, tornSec]
    rw [torn_none]
    · rfl
    · intro q hq
      have h := (S.kinds p q hq).2
      cases hv : q.val
      case vbi n => rw [hv] at h; exact absurd h (hk _)
      all_goals trivial

theorem writeOrZero_no_vbi (hk : ∀ i, kind i ≠ some .vbi) (o : Option π) (hl : (optSec props o).length ≤ maxRemaining)
    (s : Bytes) : writePropsOrZero write o s = (.ok (), s ++ optSec props o) := by
  rw [writeOrZero_all S o hl, torn_no_vbi S hk]

theorem ifSome_no_vbi (hk : ∀ i, kind i ≠ some .vbi) (o : Option π) (hl : (presentSec props o).length ≤ maxRemaining)
    (s : Bytes) : ifSome o write s = (.ok (), s ++ presentSec props o) := by
  rw [ifSome_all S o hl, torn_no_vbi S hk]
theorem propSectionLen_eq (p : π) : propSectionLen (len p) = (sec (props p)).length := by
  unfold propSectionLen sec; rw [len_len_eq, S.len_eq, List.length_append]
end

theorem no_vbi_reason : ∀ i, reasonKind i ≠ some .vbi := by intro i; unfold reasonKind; split <;> simp
theorem no_vbi_will : ∀ i, willKind i ≠ some .vbi := by intro i; unfold willKind; split <;> simp
theorem no_vbi_connect : ∀ i, connectKind i ≠ some .vbi := by intro i; unfold connectKind; split <;> simp
theorem no_vbi_connack : ∀ i, connackKind i ≠ some .vbi := by intro i; unfold connackKind; split <;> simp
theorem no_vbi_unsubscribe : ∀ i, unsubscribeKind i ≠ some .vbi := by
  intro i; unfold unsubscribeKind; split <;> simp
theorem no_vbi_disconnect : ∀ i, disconnectKind i ≠ some .vbi := by
  intro i; unfold disconnectKind; split <;> simp

theorem optSec_none_len {π : Type} (props : π → List Property) :
    (optSec props none).length = 1 := rfl

end Mqtt.V5
