import Mathlib.Data.Nat.Find
import Verif.Proof.V5Stream
/-! Which property sections the decoder reads to their end. -/
namespace Mqtt.V5
open Mqtt Spec Spec.V5

/-- only the split before the last property matters -/
theorem readable_snoc (l : List Property) (z : Property) :
    Readable (l ++ [z]) ↔ vbis l < z.enc.length := by
  constructor
  · intro h
    simpa [encAll] using h l [z] rfl (by simp)
  · intro h a b e hb
    rcases List.eq_nil_or_concat b with rfl | ⟨b', z', rfl⟩
    · exact absurd rfl hb
    · rw [List.concat_eq_append] at *
      rw [← List.append_assoc] at e
      obtain ⟨rfl, h2⟩ := List.append_inj' e rfl
      obtain rfl : z = z' := by simpa using h2
      rw [vbis_append] at h
      have : (encAll (b' ++ [z])).length = (encAll b').length + z.enc.length := by
        rw [encAll_append, List.length_append]; simp [encAll]
      omega

theorem readable_nil : Readable [] := by
  intro a b e hb
  simp at e
  exact absurd e.2 hb

/-- a list that is not readable has a first place where the count overruns -/
theorem not_readable {l : List Property} (h : ¬ Readable l) :
    ∃ a b, l = a ++ b ∧ b ≠ [] ∧ (encAll b).length ≤ vbis a ∧
      ∀ a' b', a = a' ++ b' → b' ≠ [] → vbis a' < (encAll (b' ++ b)).length := by
  have hex : ∃ k a b, a.length = k ∧ l = a ++ b ∧ b ≠ [] ∧ (encAll b).length ≤ vbis a := by
    unfold Readable at h
    push Not at h
    obtain ⟨a, b, h1, h2, h3⟩ := h
    exact ⟨_, a, b, rfl, h1, h2, by omega⟩
  classical
  obtain ⟨a, b, hk, h1, h2, h3⟩ := Nat.find_spec hex
  refine ⟨a, b, h1, h2, h3, ?_⟩
  rintro a' b' rfl hb'
  by_contra hc
  have : a'.length < Nat.find hex := by
    rw [← hk, List.length_append]
    have := List.length_pos_iff.2 hb'
    omega
  exact Nat.find_min hex this ⟨a', b' ++ b, rfl, by rw [h1, List.append_assoc], by simp [hb'], by omega⟩

/-- the first part of such a list is what the decoder takes for the section -/
theorem propSeq_overrun (kind : Nat → Option Kind) {l a b : List Property} (e : l = a ++ b)
    (hk : ∀ q ∈ l, q.id < 256 ∧ kind q.id = some q.val.kind) (hf : ∀ q ∈ l, q.val.Fits)
    (h3 : (encAll b).length ≤ vbis a)
    (h4 : ∀ a' b', a = a' ++ b' → b' ≠ [] → vbis a' < (encAll (b' ++ b)).length) :
    PropSeq kind (encAll l).length 0 (encAll a) a := by
  subst e
  refine propSeq_enc kind _ 0 a (fun q hq => hk q (by simp [hq])) (fun q hq => hf q (by simp [hq])) ?_ ?_
  · intro a' b' ha hb
    have := h4 a' b' ha hb
    rw [ha, List.append_assoc, encAll_append, List.length_append]
    omega
  · rw [encAll_append, List.length_append]; omega

end Mqtt.V5
