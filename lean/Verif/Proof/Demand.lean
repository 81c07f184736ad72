import Verif.Proof.Stream
import Verif.Spec.Demand
/-! Proofs for the blocking client. -/
namespace Mqtt
open Spec

theorem demand_unique {P : Type} {rd : M P} {buf net : Bytes} {k : Nat} {r : Res P} {b n : Bytes}
    (h : Demand rd buf net k r b n) {k' : Nat} {r' : Res P} {b' n' : Bytes}
    (h' : Demand rd buf net k' r' b' n') : k' = k ∧ r' = r ∧ b' = b ∧ n' = n := by
  induction h generalizing k' r' b' n' with
  | done h hr =>
    cases h' with
    | done h2 hr2 => rw [h] at h2; cases h2; exact ⟨rfl, rfl, rfl, rfl⟩
    | fetch h2 hn ht => rw [h] at h2; cases h2; exact absurd ⟨⟨_, rfl⟩, rfl⟩ hr
  | @fetch buf got net _ _ n k r h hn ht ih =>
    generalize hN : got ++ net = N at h'
    cases h' with
    | done h2 hr2 => rw [h] at h2; cases h2; exact absurd ⟨⟨_, rfl⟩, rfl⟩ hr2
    | fetch h2 hn2 ht2 =>
      rw [h] at h2; cases h2
      obtain ⟨rfl, rfl⟩ := List.append_inj hN (hn.trans hn2.symm)
      obtain ⟨rfl, hh⟩ := ih ht2
      exact ⟨rfl, hh⟩

/-- fetching the length bytes one by one: `a` already fetched (all continuation bytes), `bs` to come -/
theorem demand_header {P : Type} (rf : FixedHeader → Bytes → Res P) (max : Nat) (b1 : UInt8) :
    ∀ (ini a : Bytes) (last : UInt8) (net : Bytes) (k : Nat) (r : Res P) (b n : Bytes),
      a.length + ini.length + 1 ≤ 4 → (∀ x ∈ a, 128 ≤ x.toNat) → (∀ x ∈ ini, 128 ≤ x.toNat) →
      a ≠ [] →
      Demand (readG rf max) (b1 :: (a ++ ini ++ [last])) net k r b n →
      Demand (readG rf max) (b1 :: a) (ini ++ last :: net) (k + ini.length + 1) r b n
  | [], a, last, net, k, r, b, n, hl, ha, _, hne, hd => by
    refine .fetch (got := [last]) (n := 1) ?_ rfl (by simpa using hd)
    refine readG_err rf max ((check_insufficient_iff max _ _).2 (.inr (.inl ⟨b1, a, rfl, ?_, ha, rfl⟩)))
    simp at hl; omega
  | x :: ini, a, last, net, k, r, b, n, hl, ha, hi, hne, hd => by
    have := demand_header rf max b1 ini (a ++ [x]) last net k r b n (by simp at hl ⊢; omega)
      (by intro y hy; rcases List.mem_append.1 hy with h | h
          · exact ha y h
          · rw [List.mem_singleton.1 h]; exact hi x (by simp))
      (fun y hy => hi y (by simp [hy])) (by simp) (by simpa using hd)
    refine .fetch (got := [x]) (n := 1) ?_ rfl (by simpa [Nat.add_assoc] using this)
    refine readG_err rf max ((check_insufficient_iff max _ _).2 (.inr (.inl ⟨b1, a, rfl, ?_, ha, rfl⟩)))
    simp at hl; omega

/-- from the empty buffer to the complete fixed header -/
theorem demand_start {P : Type} (rf : FixedHeader → Bytes → Res P) (max : Nat) (b1 : UInt8) (bs net : Bytes)
    (hv : IsVbi bs) (k : Nat) (r : Res P) (b n : Bytes)
    (hd : Demand (readG rf max) (b1 :: bs) net k r b n) :
    Demand (readG rf max) [] (b1 :: (bs ++ net)) (k + bs.length) r b n := by
  obtain ⟨hl, ini, last, rfl, hlast, hi⟩ := hv
  have h0 : readG rf max [] = (.err (.InsufficientBytes 2), []) :=
    readG_err rf max ((check_insufficient_iff max _ _).2 (.inl ⟨rfl, rfl⟩))
  cases ini with
  | nil =>
    exact .fetch (got := [b1, last]) h0 rfl (by simpa using hd)
  | cons x ini =>
    have := demand_header rf max b1 ini [x] last net k r b n (by simp at hl ⊢; omega)
      (by intro y hy; rw [List.mem_singleton.1 hy]; exact hi x (by simp))
      (fun y hy => hi y (by simp [hy])) (by simp) (by simpa using hd)
    have h2 := Demand.fetch (got := [b1, x]) h0 rfl (by simpa using this)
    simpa [Nat.add_assoc, Nat.add_comm, Nat.add_left_comm] using h2

theorem demand_frame {P : Type} (rf : FixedHeader → Bytes → Res P) (max : Nat) (b1 : UInt8) (bs bd rest : Bytes)
    (hv : IsVbi bs) (hl : vbiValue bs = bd.length) (hm : bd.length ≤ max) (r : Res P)
    (hr : readG rf max (b1 :: (bs ++ bd)) = (r, [])) :
    Demand (readG rf max) [] (b1 :: (bs ++ (bd ++ rest)))
      (bs.length + 1 + (if bd = [] then 0 else 1)) r [] rest := by
  have hlast : Demand (readG rf max) (b1 :: (bs ++ bd)) rest 1 r [] rest := .done hr (by simp)
  by_cases hb : bd = []
  · subst hb
    have := demand_start rf max b1 bs rest hv 1 r [] rest (by simpa using hlast)
    simpa [Nat.add_comm] using this
  · have hpos : 0 < bd.length := List.length_pos_iff.2 hb
    have h1 : Demand (readG rf max) (b1 :: bs) (bd ++ rest) 2 r [] rest := by
      refine .fetch (n := bd.length) ?_ rfl (by simpa using hlast)
      refine readG_err rf max ((check_insufficient_iff max _ _).2 (.inr (.inr ⟨b1, bs, [], by simp, hv, ?_, ?_, ?_⟩)))
      · omega
      · simpa [hl] using hpos
      · simp [hl]
    have := demand_start rf max b1 bs (bd ++ rest) hv 2 r [] rest h1
    rw [if_neg hb]
    simpa [Nat.add_comm, Nat.add_left_comm] using this

theorem demand_limit {P : Type} (rf : FixedHeader → Bytes → Res P) (max : Nat) (b1 : UInt8) (bs rest : Bytes)
    (hv : IsVbi bs) (hm : max < vbiValue bs) :
    Demand (readG rf max) [] (b1 :: (bs ++ rest)) (bs.length + 1)
      (.err (.PayloadSizeLimitExceeded (vbiValue bs))) (b1 :: bs) rest := by
  have hr : readG rf max (b1 :: bs) = (.err (.PayloadSizeLimitExceeded (vbiValue bs)), b1 :: bs) :=
    readG_err rf max ((check_limit_iff max _ _).2 ⟨b1, bs, [], by simp, hv, rfl, hm⟩)
  have := demand_start rf max b1 bs rest hv 1 _ _ _ (.done (net := rest) hr (by simp))
  simpa [Nat.add_comm] using this

theorem demand_malformed {P : Type} (rf : FixedHeader → Bytes → Res P) (max : Nat) (b1 : UInt8) (a rest : Bytes)
    (hl : a.length = 4) (ha : ∀ b ∈ a, 128 ≤ b.toNat) :
    Demand (readG rf max) [] (b1 :: (a ++ rest)) 5 (.err .MalformedRemainingLength) (b1 :: a) rest := by
  match a, hl with
  | [x, y, z, w], _ =>
    have hr : readG rf max (b1 :: ([x] ++ [y, z] ++ [w])) = (.err .MalformedRemainingLength, b1 :: [x, y, z, w]) :=
      readG_err rf max ((check_malformed_iff max _).2 ⟨b1, [x, y, z, w], [], by simp, rfl, ha⟩)
    have := demand_header rf max b1 [y, z] [x] w rest 1 _ _ _ (by simp)
      (fun i hi => ha i (by simp at hi; simp [hi])) (fun i hi => ha i (by simp at hi; rcases hi with h | h <;> simp [h]))
      (by simp) (.done (net := rest) hr (by simp))
    exact .fetch (got := [b1, x]) (n := 2)
      (readG_err rf max ((check_insufficient_iff max _ _).2 (.inl ⟨rfl, rfl⟩))) rfl (by simpa using this)

end Mqtt
