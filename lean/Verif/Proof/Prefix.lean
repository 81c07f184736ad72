import Verif.Proof.Stream
/-! What the client has when only a prefix of the stream has arrived. -/
namespace Mqtt
open Spec

section
variable {P : Type} (rf : FixedHeader → Bytes → Res P) (max : Nat)

/-- a proper prefix of a readable packet is not readable yet -/
theorem readG_prefix {enc s t : Bytes} {p : P} (h : readG rf max enc = (.ok p, [])) (ht : t ≠ [])
    (he : s ++ t = enc) : ∃ n, readG rf max s = (.err (.InsufficientBytes n), s) := by
  obtain ⟨-, hd, hc⟩ := readG_shrink rf max h
  rw [readG_ok rf max hc] at h
  have h2 := (Prod.mk.inj h).2
  have h3 := check_frame_length_le max hc
  have h4 : hd.frame_length = enc.length := by
    have := List.drop_eq_nil_iff.1 h2; omega
  have htl : 0 < t.length := List.length_pos_iff.2 ht
  have hel : s.length + t.length = enc.length := by rw [← he]; simp
  rcases check_total s max with ⟨hd', hc'⟩ | ⟨e, hc'⟩
  · have h5 := check_ok_append max hc' t
    rw [he, hc] at h5
    cases h5
    have := check_frame_length_le max hc'
    omega
  · rcases check_err_cases max hc' with ⟨n, rfl⟩ | rfl | ⟨n, rfl⟩
    · exact ⟨n, readG_err rf max hc'⟩
    · have := check_fatal_append max hc' (by intro n; simp) t
      rw [he, hc] at this; cases this
    · have := check_fatal_append max hc' (by intro n; simp) t
      rw [he, hc] at this; cases this

/-- the packets that are complete have been delivered, the rest of the bytes is buffered -/
theorem pump_prefix {retry : Error → Bytes → Bytes → Prop} (hr : ∀ n s, retry (.InsufficientBytes n) s s)
    (enc : P → Bytes) (ps : List P) (h : ∀ p ∈ ps, ∀ rest, readG rf max (enc p ++ rest) = (.ok p, rest))
    (s missing : Bytes) (hs : s ++ missing = ps.flatMap enc) :
    ∃ got due r, ps = got ++ due ∧ Pump (readG rf max) retry s got none r ∧ r ++ missing = due.flatMap enc
      ∧ (due = [] → r = []) ∧ ∀ p more, due = p :: more → r.length < (enc p).length := by
  induction ps generalizing s with
  | nil =>
    simp only [List.flatMap_nil, List.append_eq_nil_iff] at hs
    obtain ⟨rfl, rfl⟩ := hs
    exact ⟨[], [], [], rfl, .wait (readG_nil rf max) (hr _ _), rfl, fun _ => rfl, by simp⟩
  | cons p ps ih =>
    rw [List.flatMap_cons, List.append_eq_append_iff] at hs
    have hp := h p (by simp)
    rcases hs with ⟨t, ht, hm⟩ | ⟨t, rfl, hm⟩
    · by_cases h0 : t = []
      · subst h0
        simp only [List.append_nil] at ht
        obtain ⟨got, due, r, h1, h2, h3⟩ := ih (fun q hq => h q (by simp [hq])) [] (by simpa using hm)
        refine ⟨p :: got, due, r, by rw [h1]; rfl, .step (s' := []) ?_ h2, h3⟩
        have := hp []; rw [ht] at this; simpa using this
      · obtain ⟨n, hn⟩ := readG_prefix rf max (by simpa using hp []) h0 ht.symm
        refine ⟨[], p :: ps, s, rfl, .wait hn (hr _ _), ?_, by simp, ?_⟩
        · rw [hm, List.flatMap_cons, ht]; simp
        · intro q more hq
          cases hq
          rw [ht, List.length_append]
          have := List.length_pos_iff.2 h0
          omega
    · obtain ⟨got, due, r, h1, h2, h3⟩ := ih (fun q hq => h q (by simp [hq])) t hm.symm
      exact ⟨p :: got, due, r, by rw [h1]; rfl, .step (hp t) h2, h3⟩

/-- how much the client has buffered while it waits -/
theorem readG_wait_bound {s : Bytes} {n : Nat} (h : readG rf max s = (.err (.InsufficientBytes n), s)) :
    check s max = .err (.InsufficientBytes n) := by
  rcases check_total s max with ⟨hd, hc⟩ | ⟨e, hc⟩
  · rw [readG_ok rf max hc] at h
    have h2 := congrArg List.length (Prod.mk.inj h).2
    have := check_frame_length_le max hc
    simp only [List.length_drop] at h2
    omega
  · rw [readG_err rf max hc] at h
    cases h
    exact hc

theorem check_wait_bound {s : Bytes} {n : Nat} (h : check s max = .err (.InsufficientBytes n)) :
    s.length + n ≤ max + 5 ∧ 1 ≤ n := by
  rcases (check_insufficient_iff max s n).1 h with ⟨rfl, rfl⟩ | ⟨b1, t, rfl, h1, h2, rfl⟩ | ⟨b1, bs, t, rfl, hv, hm, ht, rfl⟩
  · simp
  · simp; omega
  · have := hv.1
    simp; omega
end
end Mqtt
