import Verif.Proof.V5Reach
import Verif.Proof.V5Readable
import Verif.Proof.V5Spec
/-! Property sections with exact lengths. -/
set_option linter.unusedSimpArgs false
namespace Mqtt.V5
open Mqtt Spec Spec.V5
open Spec.V4 (typeNum bit)

theorem denotes_len_pos {v : Val} {vb : Bytes} (h : v.Denotes vb) : 1 ≤ vb.length :=
  Nat.le_trans (enc_len_pos v) (denotes_len h)

theorem counted_eq (v : Val) (vb : Bytes) (i : Nat) (ps : List Property) :
    counted v vb + vbis ps = 1 + vb.length + vbis (⟨i, v⟩ :: ps) := by
  rw [vbis_cons]; simp only [counted]; omega

theorem Props.mem {kind : Nat → Option Kind} {bs : Bytes} {ps : List Property} (h : Props kind bs ps) :
    (∀ q ∈ ps, q.id < 256 ∧ kind q.id = some q.val.kind ∧ q.val.Fits) ∧ (encAll ps).length ≤ bs.length := by
  induction h with
  | nil => simp [encAll]
  | cons id v vb bs ps hk hv _ ih =>
    refine ⟨?_, ?_⟩
    · intro q hq
      rcases List.mem_cons.1 hq with rfl | hq
      · exact ⟨id.toNat_lt, hk, denotes_fits hv⟩
      · exact ih.1 q hq
    · rw [encAll_cons]
      simp [Property.enc, u8_len]
      have := denotes_len hv
      omega

theorem Props.append {kind : Nat → Option Kind} {bs cs : Bytes} {ps qs : List Property} (h : Props kind bs ps)
    (h' : Props kind cs qs) : Props kind (bs ++ cs) (ps ++ qs) := by
  induction h with
  | nil => exact h'
  | cons id v vb bs ps hk hv _ ih =>
    have : [id] ++ vb ++ bs ++ cs = [id] ++ vb ++ (bs ++ cs) := by simp
    rw [this]
    exact .cons id v vb _ _ hk hv ih

theorem props_nil_iff {kind : Nat → Option Kind} {bs : Bytes} {ps : List Property} (h : Props kind bs ps) :
    ps = [] ↔ bs = [] := by
  cases h <;> simp

/-- a value has one length of encoding at the front of a byte string -/
theorem denotes_det {v w : Val} {vb wb t t' : Bytes} (hk : v.kind = w.kind) (h : v.Denotes vb) (h' : w.Denotes wb)
    (e : vb ++ t = wb ++ t') : v = w ∧ vb = wb ∧ t = t' := by
  have h1 : readVal v.kind (vb ++ t) = (.ok (v, counted v vb - 1), t) :=
    (readVal_iff _ _ _ _ _).2 ⟨rfl, vb, rfl, h, by unfold counted; omega⟩
  have h2 : readVal v.kind (vb ++ t) = (.ok (w, counted w wb - 1), t') :=
    (readVal_iff _ _ _ _ _).2 ⟨hk.symm, wb, e, h', by unfold counted; omega⟩
  rw [h1] at h2
  simp only [Prod.mk.injEq, Res.ok.injEq] at h2
  obtain ⟨⟨rfl, _⟩, rfl⟩ := h2
  exact ⟨rfl, List.append_cancel_right e, rfl⟩

/-- the properties of a prefix are determined -/
theorem props_det {kind : Nat → Option Kind} {bs cs t : Bytes} {ps qs : List Property}
    (h : Props kind bs ps) (h' : Props kind cs qs) (e : bs ++ t = cs) : ∃ rs, qs = ps ++ rs ∧ Props kind t rs := by
  induction h generalizing cs qs with
  | nil => subst e; exact ⟨qs, rfl, h'⟩
  | cons id v vb bs ps hk hv _ ih =>
    cases h' with
    | nil => simp at e
    | cons id' v' vb' bs' ps' hk' hv' ht' =>
      simp only [List.cons_append, List.nil_append, List.cons.injEq, List.append_assoc] at e
      obtain ⟨rfl, e⟩ := e
      rw [hk] at hk'
      obtain ⟨rfl, rfl, e2⟩ := denotes_det (Option.some.inj hk') hv hv' e
      obtain ⟨rs, rfl, hr⟩ := ih ht' e2
      exact ⟨rs, rfl, hr⟩

/-- where the decoder stops -/
theorem propSeq_iff (kind : Nat → Option Kind) (n c : Nat) (bs : Bytes) (ps : List Property) :
    PropSeq kind n c bs ps ↔ Props kind bs ps ∧ n ≤ c + bs.length + vbis ps ∧
      ∀ bs₁ ps₁ bs₂ ps₂, bs = bs₁ ++ bs₂ → ps = ps₁ ++ ps₂ → Props kind bs₁ ps₁ → Props kind bs₂ ps₂ → ps₂ ≠ [] →
        c + bs₁.length + vbis ps₁ < n := by
  constructor
  · intro h
    induction h with
    | done h =>
      refine ⟨.nil, by simp [vbis]; omega, ?_⟩
      intro bs₁ ps₁ bs₂ ps₂ _ e _ _ h2
      simp at e; exact absurd e.2 h2
    | @more c h id v vb bs ps hk hv ht ih =>
      obtain ⟨h1, h2, h3⟩ := ih
      refine ⟨.cons id v vb bs ps hk hv h1, ?_, ?_⟩
      · have := counted_eq v vb id.toNat ps
        simp only [List.length_append, List.length_singleton]
        omega
      · intro bs₁ ps₁ bs₂ ps₂ e1 e2 p1 p2 hne
        cases p1 with
        | nil => simp [vbis]; omega
        | cons id' v' vb' bs' ps' hk' hv' ht' =>
          simp only [List.cons_append, List.nil_append, List.cons.injEq, List.append_assoc] at e1
          simp only [List.cons_append, List.cons.injEq] at e2
          obtain ⟨rfl, e1⟩ := e1
          obtain ⟨ev, e2⟩ := e2
          injection ev with _ ev
          subst ev
          obtain ⟨_, rfl, e3⟩ := denotes_det rfl hv hv' e1
          have h4 := h3 bs' ps' bs₂ ps₂ e3 e2 ht' p2 hne
          have := counted_eq v vb id.toNat ps'
          simp only [List.length_append, List.length_singleton]
          omega
  · rintro ⟨h1, h2, h3⟩
    induction h1 generalizing c with
    | nil => exact .done (by simpa [vbis] using h2)
    | cons id v vb bs ps hk hv ht ih =>
      have h0 := h3 [] [] _ _ rfl rfl .nil (.cons id v vb bs ps hk hv ht) (by simp)
      refine .more (by simp [vbis] at h0; omega) id v vb bs ps hk hv ?_
      refine ih _ ?_ ?_
      · have := counted_eq v vb id.toNat ps
        simp only [List.length_append, List.length_singleton] at h2
        omega
      · intro bs₁ ps₁ bs₂ ps₂ e1 e2 p1 p2 hne
        have := h3 ([id] ++ vb ++ bs₁) (⟨id.toNat, v⟩ :: ps₁) bs₂ ps₂ (by simp [e1]) (by simp [e2])
          (.cons id v vb bs₁ ps₁ hk hv p1) p2 hne
        have h5 := counted_eq v vb id.toNat ps₁
        simp only [List.length_append, List.length_singleton] at this
        omega

theorem exactSec_secDenotes {kind : Nat → Option Kind} {sec : Bytes} {ps : Option (List Property)}
    (h : ExactSec kind sec ps) (hr : ∀ l, ps = some l → Readable l) : SecDenotes kind sec ps := by
  cases ps with
  | none => exact h
  | some l =>
    obtain ⟨len, bs, rfl, hv, hl, hne, hp⟩ := h
    have := List.length_pos_iff.2 hne
    refine ⟨len, bs, rfl, hv, by omega, ?_⟩
    rw [propSeq_iff]
    refine ⟨hp, by omega, ?_⟩
    rintro bs₁ ps₁ bs₂ ps₂ rfl rfl p1 p2 h2
    have h3 := hr _ rfl ps₁ ps₂ rfl h2
    have h4 := (Props.mem p2).2
    rw [hl, List.length_append]; omega

/-! ### Frames -/

theorem setDenotesBy_mono {sg sg' : SecGrammar} (h : ∀ k s ps, sg k s ps → sg' k s ps) {π : Type}
    {kind : Nat → Option Kind} {dec : List Property → π} {s : Bytes} {o : Option π}
    (hs : SetDenotesBy sg kind dec s o) : SetDenotesBy sg' kind dec s o := by
  obtain ⟨ps, h1, h2⟩ := hs; exact ⟨ps, h _ _ _ h1, h2⟩

theorem ackDenotesBy_mono {sg sg' : SecGrammar} (h : ∀ k s ps, sg k s ps → sg' k s ps) {R : Type} {code : R → Nat}
    {bd : Bytes} {a : Ack R} (ha : AckDenotesBy sg code bd a) : AckDenotesBy sg' code bd a := by
  rcases ha with ha | ha | ⟨p, j, h1, h2⟩
  · exact .inl ha
  · exact .inr (.inl ha)
  · exact .inr (.inr ⟨p, j, h1, setDenotesBy_mono h h2⟩)

theorem denotesBy_mono {sg sg' : SecGrammar} (h : ∀ k s ps, sg k s ps → sg' k s ps) {b1 : UInt8} {bd : Bytes}
    {p : Packet} (hd : DenotesBy sg b1 bd p) : DenotesBy sg' b1 bd p := by
  cases p with
  | Connect c =>
    obtain ⟨ht, f, pb, wb, lb, junk, hb, hp, hid, hc, hw, hl⟩ := hd
    refine ⟨ht, f, pb, wb, lb, junk, hb, ?_, hid, hc, ?_, hl⟩
    · revert hp
      cases c.protocol
      · exact id
      · exact setDenotesBy_mono h
    · revert hw
      cases c.last_will with
      | none => exact id
      | some w =>
        rintro ⟨a, b, d, e, f, props, hp, hs⟩
        exact ⟨a, b, d, e, f, props, hp, setDenotesBy_mono h hs⟩
  | ConnAck c =>
    obtain ⟨ht, f, pb, junk, hb, hs, hp⟩ := hd
    exact ⟨ht, f, pb, junk, hb, hs, setDenotesBy_mono h hp⟩
  | Publish p =>
    obtain ⟨ht, pb, hb, hs, hq, hp⟩ := hd
    exact ⟨ht, pb, hb, hs, hq, setDenotesBy_mono h hp⟩
  | PubAck a => exact ⟨hd.1, ackDenotesBy_mono h hd.2⟩
  | PubRec a => exact ⟨hd.1, ackDenotesBy_mono h hd.2⟩
  | PubRel a => exact ⟨hd.1, ackDenotesBy_mono h hd.2⟩
  | PubComp a => exact ⟨hd.1, ackDenotesBy_mono h hd.2⟩
  | Subscribe s =>
    obtain ⟨ht, pb, fs, hb, hp, hf⟩ := hd
    exact ⟨ht, pb, fs, hb, setDenotesBy_mono h hp, hf⟩
  | SubAck s =>
    obtain ⟨ht, pb, hb, hp, hf⟩ := hd
    exact ⟨ht, pb, hb, setDenotesBy_mono h hp, hf⟩
  | Unsubscribe s =>
    obtain ⟨ht, pb, hb, hp, hf⟩ := hd
    exact ⟨ht, pb, hb, setDenotesBy_mono h hp, hf⟩
  | UnsubAck s =>
    obtain ⟨ht, pb, hb, hp, hf⟩ := hd
    exact ⟨ht, pb, hb, setDenotesBy_mono h hp, hf⟩
  | PingReq => exact hd
  | PingResp => exact hd
  | Disconnect d =>
    obtain ⟨ht, pb, junk, hb, hp⟩ := hd
    exact ⟨ht, pb, junk, hb, setDenotesBy_mono h hp⟩

/-! ### The loop over a prefix -/

section
variable {σ : Type} {kind : Nat → Option Kind} {step : PropStep σ} {dec : List Property → σ}
  (hg : GenStep kind step dec)
include hg

/-- the loop reads properties that lie within the declared length -/
theorem propLoop_prefix {bs : Bytes} {ps : List Property} (h : Props kind bs ps) (n c fuel : Nat)
    (ps0 : List Property) (t : Bytes) (hn : c + bs.length + vbis ps ≤ n)
    (hf : (bs ++ t).length < fuel) (hb : c + 2 * (bs ++ t).length < 2 ^ 32) :
    ∃ fuel', t.length < fuel' ∧ propLoop step fuel n c (dec ps0) (bs ++ t)
      = propLoop step fuel' n (c + bs.length + vbis ps) (dec (ps0 ++ ps)) t := by
  induction h generalizing c ps0 fuel with
  | nil => exact ⟨fuel, by simpa using hf, by simp [vbis]⟩
  | cons id v vb bs ps hk hv ht ih =>
    have hc := counted_eq v vb id.toNat ps
    have hp := denotes_len_pos hv
    cases fuel with
    | zero => omega
    | succ fuel =>
      simp only [List.length_append, List.length_singleton] at hn hf hb
      have e : [id] ++ vb ++ bs ++ t = id :: (vb ++ (bs ++ t)) := by simp
      have hr : readVal v.kind (vb ++ (bs ++ t)) = (.ok (v, counted v vb - 1), bs ++ t) :=
        (readVal_iff _ _ _ _ _).2 ⟨rfl, vb, rfl, hv, by unfold counted; omega⟩
      have hcl : counted v vb ≤ 2 + vb.length := by unfold counted; split <;> omega
      have hc1 : 1 ≤ counted v vb := by unfold counted; omega
      rw [e, turn hg _ _ _ _ _ _ (by omega) (by omega), hk]
      simp only [hr, andThen_ok, bind_run]
      rw [uadd_run _ _ _ (by omega), andThen_ok]
      obtain ⟨f', h1, h2⟩ := ih (c + 1 + (counted v vb - 1)) fuel (ps0 ++ [⟨id.toNat, v⟩]) (by omega)
        (by simp only [List.length_append]; omega) (by simp only [List.length_append]; omega)
      refine ⟨f', h1, ?_⟩
      rw [h2]
      have e2 : c + 1 + (counted v vb - 1) + bs.length + vbis ps
          = c + ([id] ++ vb ++ bs).length + vbis (⟨id.toNat, v⟩ :: ps) := by
        simp only [List.length_append, List.length_singleton]; omega
      rw [e2]
      simp

/-- a foreign identifier where the loop is looking -/
theorem extractProps_foreign {len bs : Bytes} {ps : List Property} (hv : IsVbi len) (h : Props kind bs ps)
    (hn : bs.length + vbis ps < vbiValue len) (b : UInt8) (hk : kind b.toNat = none) (t : Bytes)
    (hl : (len ++ (bs ++ b :: t)).length ≤ maxRemaining) :
    extractProps step (dec []) (len ++ (bs ++ b :: t)) = (.err (.InvalidPropertyType b), t) := by
  unfold extractProps
  mrun [peek_length_run _ _ hv, advance_run len _ _ rfl]
  rw [if_neg (by omega)]
  have hvl := vbiValue_le hv
  simp only [maxRemaining] at hvl
  simp only [List.length_append, maxRemaining] at hl
  obtain ⟨f', h1, h2⟩ := propLoop_prefix hg h (vbiValue len) 0 ((bs ++ b :: t).length + 1) [] (b :: t) (by omega)
    (by omega) (by simp only [List.length_append]; omega)
  rw [h2]
  cases f' with
  | zero => omega
  | succ f' =>
    rw [turn hg _ _ _ _ _ _ (by omega) (by omega), hk]
    rfl
end

end Mqtt.V5
