import Verif.Model.Fmt
import Verif.Props.Framing
/-! C97: how frame headers compare. -/
namespace Props
open Mqtt Spec

theorem header_cmp (a b : FixedHeader) : a.partial_cmp b =
    some (if a.byte1.toNat < b.byte1.toNat then .lt else if b.byte1.toNat < a.byte1.toNat then .gt
      else if a.fixed_header_len < b.fixed_header_len then .lt else if b.fixed_header_len < a.fixed_header_len then .gt
      else if a.remaining_len < b.remaining_len then .lt else if b.remaining_len < a.remaining_len then .gt else .eq) := by
  have hu : ∀ x y : UInt8, compare x y = if x.toNat < y.toNat then .lt else if y.toNat < x.toNat then .gt else .eq := by
    intro x y
    show compareOfLessAndEq x y = _
    unfold compareOfLessAndEq
    by_cases h1 : x < y
    · have : x.toNat < y.toNat := h1
      simp [h1, this]
    · have h1' : ¬ x.toNat < y.toNat := h1
      by_cases h2 : x = y
      · simp [h2]
      · have : y.toNat < x.toNat := by
          have : x.toNat ≠ y.toNat := fun h => h2 (UInt8.toNat_inj.1 h)
          omega
        simp [h1, h1', h2, this]
  have hn : ∀ x y : Nat, compare x y = if x < y then .lt else if y < x then .gt else .eq := by
    intro x y
    rcases Nat.lt_trichotomy x y with h | h | h
    · rw [if_pos h]; exact Nat.compare_eq_lt.2 h
    · subst h; simp
    · rw [if_neg (by omega), if_pos h]; exact Nat.compare_eq_gt.2 h
  unfold FixedHeader.partial_cmp
  rw [hu, hn, hn]
  congr 1
  repeat' split
  all_goals first | rfl | omega

/-- **C97** Headers are totally ordered: any two compare, they compare as equal iff they are the same, reversing the
arguments reverses the answer, and "less" is transitive. -/
theorem C97_total_order (a b c : FixedHeader) :
    (∃ o, a.partial_cmp b = some o ∧ b.partial_cmp a = some o.swap) ∧
    (a.partial_cmp b = some .eq ↔ a = b) ∧
    (a.partial_cmp b = some .lt → b.partial_cmp c = some .lt → a.partial_cmp c = some .lt) := by
  simp only [header_cmp]
  refine ⟨?_, ?_, ?_⟩
  · refine ⟨_, rfl, ?_⟩
    congr 1
    repeat' split
    all_goals first | rfl | omega
  · constructor
    · intro h
      obtain ⟨b1, l1, r1⟩ := a
      obtain ⟨b2, l2, r2⟩ := b
      simp only [Option.some.injEq] at h
      repeat' split at h
      all_goals first
        | contradiction
        | (have h1 : b1 = b2 := UInt8.toNat_inj.1 (by simp only at *; omega)
           have h2 : l1 = l2 := by simp only at *; omega
           have h3 : r1 = r2 := by simp only at *; omega
           rw [h1, h2, h3])
    · rintro rfl; simp
  · simp only [Option.some.injEq]
    intro h1 h2
    repeat' split at h1
    all_goals first
      | contradiction
      | (repeat' split at h2
         all_goals first
           | contradiction
           | (repeat' split
              all_goals first | rfl | omega))

/-- **C97** For two frames with the same first byte and minimal length bytes, as every writer produces them (C01),
the headers `check` reports compare like the lengths of the frames. -/
theorem C97_like_lengths (b1 : UInt8) (m n max : Nat) (s t : Bytes) (hm : m ≤ 268435455) (hn : n ≤ 268435455)
    (h1 : FixedHeader) (h2 : FixedHeader) (hs : m ≤ s.length) (ht : n ≤ t.length)
    (e1 : check (b1 :: (vbi m ++ s)) max = .ok h1) (e2 : check (b1 :: (vbi n ++ t)) max = .ok h2) :
    h1.partial_cmp h2 = some (compare m n) ∧ h1.partial_cmp h2 = some (compare h1.frame_length h2.frame_length) := by
  have hh : ∀ (k : Nat) (r : Bytes) (h : FixedHeader), k ≤ 268435455 → k ≤ r.length → check (b1 :: (vbi k ++ r)) max = .ok h →
      h = ⟨b1, 1 + (vbi k).length, k⟩ := by
    intro k r h hk hr e
    obtain ⟨c1, bs, rest, e3, e4, e5, e6, e7⟩ := (C03_check_ok_iff _ _ _).1 e
    obtain ⟨-, i1, i2, -, i3⟩ := C01_remaining_length_roundtrip k hk []
    by_cases hmax : k ≤ max
    · obtain ⟨h', f1, f2, f3, f4, -⟩ := i3 b1 r max hmax hr
      have : h = h' := by rw [e] at f1; exact Res.ok.inj f1
      subst this
      obtain ⟨x, y, z⟩ := h
      simp only at f2 f3 f4
      rw [f2, f3, f4]
    · have := (C03_check_limit_iff (b1 :: (vbi k ++ r)) max k).2 ⟨b1, vbi k, r, rfl, i1, i2, by omega⟩
      rw [e] at this; cases this
  have g1 := hh m s h1 hm hs e1
  have g2 := hh n t h2 hn ht e2
  have mono : ∀ a b : Nat, a ≤ b → b ≤ 268435455 → (vbi a).length ≤ (vbi b).length := by
    intro a b hab hb
    rw [← len_len_eq, ← len_len_eq]
    unfold len_len
    repeat' split
    all_goals omega
  subst g1 g2
  have hc : ∀ x y : Nat, compare x y = if x < y then .lt else if y < x then .gt else .eq := by
    intro x y
    rcases Nat.lt_trichotomy x y with h | h | h
    · rw [if_pos h]; exact Nat.compare_eq_lt.2 h
    · subst h; simp
    · rw [if_neg (by omega), if_pos h]; exact Nat.compare_eq_gt.2 h
  have m1 := mono m n
  have m2 := mono n m
  rcases Nat.lt_trichotomy m n with h | h | h
  · have := m1 (by omega) hn
    simp only [header_cmp, hc, FixedHeader.frame_length]
    constructor
    · congr 1
      repeat' split
      all_goals first | rfl | omega
    · congr 1
      repeat' split
      all_goals first | rfl | omega
  · subst h
    simp [header_cmp]
  · have := m2 (by omega) hm
    simp only [header_cmp, hc, FixedHeader.frame_length]
    constructor
    · congr 1
      repeat' split
      all_goals first | rfl | omega
    · congr 1
      repeat' split
      all_goals first | rfl | omega

/-- two PUBLISH headers, 5 and 200 bytes -/
example : check (0x30 :: (vbi 5 ++ List.replicate 5 0)) 999 = .ok ⟨0x30, 2, 5⟩ ∧
    check (0x30 :: (vbi 200 ++ List.replicate 200 0)) 999 = .ok ⟨0x30, 3, 200⟩ ∧
    FixedHeader.partial_cmp ⟨0x30, 2, 5⟩ ⟨0x30, 3, 200⟩ = some .lt := by decide +kernel
/-- the order is not that of the lengths if the length bytes are not minimal -/
example : check (0x30 :: ([0x85, 0] ++ List.replicate 5 0)) 999 = .ok ⟨0x30, 3, 5⟩ ∧
    FixedHeader.partial_cmp ⟨0x30, 3, 5⟩ ⟨0x30, 2, 100⟩ = some .gt := by decide +kernel
end Props
