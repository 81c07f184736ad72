import Verif.Proof.Prim
/-! Variable byte integers: `length`, `write_remaining_length`, `len_len`. -/
namespace Mqtt
open Spec

theorem and_127 (n : Nat) : n &&& 0x7F = n % 128 := Nat.and_two_pow_sub_one_eq_mod n 7

theorem and_128_eq_zero (b : UInt8) : b.toNat &&& 0x80 = 0 ↔ b.toNat < 128 := by
  have h : ∀ k : Fin 256, k.val &&& 0x80 = 0 ↔ k.val < 128 := by decide +kernel
  exact h ⟨b.toNat, b.toNat_lt⟩

theorem lengthLoop_cons (b : UInt8) (s : Bytes) (len ll shift : Nat) :
    lengthLoop (b :: s) len ll shift =
      if b.toNat < 128 then .ok (ll + 1, len + b.toNat % 128 * 2 ^ shift)
      else if shift + 7 > 21 then .err .MalformedRemainingLength
      else lengthLoop s (len + b.toNat % 128 * 2 ^ shift) (ll + 1) (shift + 7) := by
  rw [lengthLoop]
  simp only [and_127, and_128_eq_zero, Nat.shiftLeft_eq]

theorem lengthLoop_nil (len ll shift : Nat) :
    lengthLoop [] len ll shift = .err (.InsufficientBytes 1) := rfl

/-- `length` in closed form -/
theorem length_eq (s : Bytes) : length s =
    match s with
    | [] => .err (.InsufficientBytes 1)
    | a :: s => if a.toNat < 128 then .ok (1, a.toNat % 128) else
      match s with
      | [] => .err (.InsufficientBytes 1)
      | b :: s => if b.toNat < 128 then .ok (2, a.toNat % 128 + b.toNat % 128 * 128) else
        match s with
        | [] => .err (.InsufficientBytes 1)
        | c :: s => if c.toNat < 128 then
            .ok (3, a.toNat % 128 + b.toNat % 128 * 128 + c.toNat % 128 * 16384) else
          match s with
          | [] => .err (.InsufficientBytes 1)
          | d :: _ => if d.toNat < 128 then
              .ok (4, a.toNat % 128 + b.toNat % 128 * 128 + c.toNat % 128 * 16384
                + d.toNat % 128 * 2097152)
            else .err .MalformedRemainingLength := by
  unfold length
  match s with
  | [] => rfl
  | [a] => simp [lengthLoop_cons, lengthLoop_nil]
  | [a, b] => simp [lengthLoop_cons, lengthLoop_nil]
  | [a, b, c] => simp [lengthLoop_cons, lengthLoop_nil]
  | a :: b :: c :: d :: t => simp [lengthLoop_cons]

theorem isVbi_ne_nil {bs : Bytes} (h : IsVbi bs) : bs ≠ [] := by
  obtain ⟨_, ini, last, rfl, _⟩ := h; simp

theorem isVbi_singleton (a : UInt8) : IsVbi [a] ↔ a.toNat < 128 := by
  constructor
  · rintro ⟨_, ini, last, h, h1, _⟩
    cases ini with
    | nil => simp at h; subst h; exact h1
    | cons x xs => simp at h
  · intro h; exact ⟨by simp, [], a, rfl, h, by simp⟩

theorem isVbi_cons (a b : UInt8) (bs : Bytes) :
    IsVbi (a :: b :: bs) ↔ bs.length ≤ 2 ∧ 128 ≤ a.toNat ∧ IsVbi (b :: bs) := by
  constructor
  · rintro ⟨hl, ini, last, h, h1, h2⟩
    cases ini with
    | nil => simp at h
    | cons x xs =>
      simp only [List.cons_append, List.cons.injEq] at h
      obtain ⟨rfl, h⟩ := h
      simp only [List.length_cons] at hl
      refine ⟨by omega, h2 _ (by simp), by simp only [List.length_cons]; omega, xs, last, h, h1, fun y hy => h2 y (by simp [hy])⟩
  · rintro ⟨hl, ha, hl', ini, last, h, h1, h2⟩
    refine ⟨by simp only [List.length_cons]; omega, a :: ini, last, by simp [h], h1, ?_⟩
    intro y hy
    rcases List.mem_cons.1 hy with rfl | hy
    · exact ha
    · exact h2 y hy

/-- `length` succeeds exactly on streams that start with a variable byte integer, and returns its
size and value -/
theorem length_ok_iff (s : Bytes) (k n : Nat) :
    length s = .ok (k, n) ↔
      ∃ bs t, s = bs ++ t ∧ IsVbi bs ∧ bs.length = k ∧ vbiValue bs = n := by
  constructor
  · intro h
    rw [length_eq] at h
    match s with
    | [] => simp at h
    | a :: s =>
      simp only at h
      by_cases ha : a.toNat < 128
      · rw [if_pos ha] at h
        simp only [Res.ok.injEq, Prod.mk.injEq] at h
        exact ⟨[a], s, rfl, (isVbi_singleton a).2 ha, h.1, by simp [vbiValue, h.2]⟩
      rw [if_neg ha] at h
      match s with
      | [] => simp at h
      | b :: s =>
        simp only at h
        by_cases hb : b.toNat < 128
        · rw [if_pos hb] at h
          simp only [Res.ok.injEq, Prod.mk.injEq] at h
          refine ⟨[a, b], s, rfl, ?_, h.1, by simp only [vbiValue]; omega⟩
          simp [isVbi_cons, isVbi_singleton]; omega
        rw [if_neg hb] at h
        match s with
        | [] => simp at h
        | c :: s =>
          simp only at h
          by_cases hc : c.toNat < 128
          · rw [if_pos hc] at h
            simp only [Res.ok.injEq, Prod.mk.injEq] at h
            refine ⟨[a, b, c], s, rfl, ?_, h.1, by simp only [vbiValue]; omega⟩
            simp [isVbi_cons, isVbi_singleton]; omega
          rw [if_neg hc] at h
          match s with
          | [] => simp at h
          | d :: s =>
            simp only at h
            by_cases hd : d.toNat < 128
            · rw [if_pos hd] at h
              simp only [Res.ok.injEq, Prod.mk.injEq] at h
              refine ⟨[a, b, c, d], s, rfl, ?_, h.1, by simp only [vbiValue]; omega⟩
              simp [isVbi_cons, isVbi_singleton]; omega
            rw [if_neg hd] at h
            simp at h
  · rintro ⟨bs, t, rfl, hv, rfl, rfl⟩
    rw [length_eq]
    match bs with
    | [] => exact absurd rfl (isVbi_ne_nil hv)
    | [a] =>
      have := (isVbi_singleton a).1 hv
      simp [this, vbiValue]
    | [a, b] =>
      simp only [isVbi_cons, isVbi_singleton] at hv
      simp only [List.cons_append, List.nil_append]
      rw [if_neg (by omega), if_pos (by omega)]
      simp only [vbiValue, List.length_cons, List.length_nil]
      congr 2; omega
    | [a, b, c] =>
      simp only [isVbi_cons, isVbi_singleton] at hv
      simp only [List.cons_append, List.nil_append]
      rw [if_neg (by omega), if_neg (by omega), if_pos (by omega)]
      simp only [vbiValue, List.length_cons, List.length_nil]
      congr 2; omega
    | [a, b, c, d] =>
      simp only [isVbi_cons, isVbi_singleton] at hv
      simp only [List.cons_append, List.nil_append]
      rw [if_neg (by omega), if_neg (by omega), if_neg (by omega), if_pos (by omega)]
      simp only [vbiValue, List.length_cons, List.length_nil]
      congr 2; omega
    | a :: b :: c :: d :: e :: bs =>
      have := hv.1
      simp at this

theorem length_not_panic (s : Bytes) : length s ≠ .panic ∧ length s ≠ .diverge := by
  rw [length_eq]
  match s with
  | [] => simp
  | a :: s =>
    simp only
    split
    · simp
    match s with
    | [] => simp
    | b :: s =>
      simp only
      split
      · simp
      match s with
      | [] => simp
      | c :: s =>
        simp only
        split
        · simp
        match s with
        | [] => simp
        | d :: s =>
          simp only
          split <;> simp

/-- bytes that all carry the continuation bit, fewer than four: need at least one more byte -/
theorem length_insufficient_iff (s : Bytes) (n : Nat) :
    length s = .err (.InsufficientBytes n) ↔
      n = 1 ∧ s.length < 4 ∧ ∀ b ∈ s, 128 ≤ b.toNat := by
  rw [length_eq]
  match s with
  | [] => simp; omega
  | [a] => simp only; split <;> simp <;> omega
  | [a, b] => simp only; split <;> (try split) <;> simp <;> omega
  | [a, b, c] => simp only; split <;> (try split) <;> (try split) <;> simp <;> omega
  | a :: b :: c :: d :: s =>
    simp only
    repeat' split
    all_goals simp <;> omega

theorem length_malformed_iff (s : Bytes) :
    length s = .err .MalformedRemainingLength ↔
      ∃ h t, s = h ++ t ∧ h.length = 4 ∧ ∀ b ∈ h, 128 ≤ b.toNat := by
  rw [length_eq]
  constructor
  · intro h
    match s with
    | [] => simp at h
    | [a] => simp only at h; split at h <;> simp at h
    | [a, b] => simp only at h; split at h <;> (try split at h) <;> simp at h
    | [a, b, c] => simp only at h; split at h <;> (try split at h) <;> (try split at h) <;> simp at h
    | a :: b :: c :: d :: s =>
      refine ⟨[a, b, c, d], s, rfl, rfl, ?_⟩
      simp only at h
      repeat' split at h
      all_goals simp at h ⊢
      omega
  · rintro ⟨h, t, rfl, hl, hb⟩
    match h with
    | [a, b, c, d] =>
      simp at hb
      simp only [List.cons_append, List.nil_append]
      rw [if_neg (by omega), if_neg (by omega), if_neg (by omega), if_neg (by omega)]

/-- the only errors of `length` -/
theorem length_cases (s : Bytes) :
    (∃ k n, length s = .ok (k, n)) ∨ length s = .err (.InsufficientBytes 1)
      ∨ length s = .err .MalformedRemainingLength := by
  rw [length_eq]
  match s with
  | [] => simp
  | [a] => simp only; split <;> simp
  | [a, b] => simp only; split <;> (try split) <;> simp
  | [a, b, c] => simp only; split <;> (try split) <;> (try split) <;> simp
  | a :: b :: c :: d :: s =>
    simp only
    repeat' split
    all_goals simp

/-! ### the encoder -/

theorem ofNat_toNat {n : Nat} (h : n < 256) : (UInt8.ofNat n).toNat = n := by
  rw [UInt8.toNat_ofNat']; omega

theorem vbi_isVbi {n : Nat} (h : n ≤ maxRemaining) : IsVbi (vbi n) := by
  unfold maxRemaining at h
  unfold vbi
  split
  · rw [Spec.u8, isVbi_singleton, ofNat_toNat] <;> omega
  split
  · simp only [Spec.u8, List.cons_append, List.nil_append, isVbi_cons, isVbi_singleton,
      List.length_nil, List.length_cons]
    rw [ofNat_toNat, ofNat_toNat] <;> omega
  split
  · simp only [Spec.u8, List.cons_append, List.nil_append, isVbi_cons, isVbi_singleton,
      List.length_nil, List.length_cons]
    rw [ofNat_toNat, ofNat_toNat, ofNat_toNat] <;> omega
  · simp only [Spec.u8, List.cons_append, List.nil_append, isVbi_cons, isVbi_singleton,
      List.length_nil, List.length_cons]
    rw [ofNat_toNat, ofNat_toNat, ofNat_toNat, ofNat_toNat] <;> omega

theorem vbiValue_vbi {n : Nat} (h : n ≤ maxRemaining) : vbiValue (vbi n) = n := by
  unfold maxRemaining at h
  unfold vbi
  split
  · simp only [Spec.u8, vbiValue]; rw [ofNat_toNat] <;> omega
  split
  · simp only [Spec.u8, List.cons_append, List.nil_append, vbiValue]
    rw [ofNat_toNat, ofNat_toNat] <;> omega
  split
  · simp only [Spec.u8, List.cons_append, List.nil_append, vbiValue]
    rw [ofNat_toNat, ofNat_toNat, ofNat_toNat] <;> omega
  · simp only [Spec.u8, List.cons_append, List.nil_append, vbiValue]
    rw [ofNat_toNat, ofNat_toNat, ofNat_toNat, ofNat_toNat] <;> omega

theorem length_vbi {n : Nat} (h : n ≤ maxRemaining) (t : Bytes) :
    length (vbi n ++ t) = .ok ((vbi n).length, n) :=
  (length_ok_iff _ _ _).2 ⟨vbi n, t, rfl, vbi_isVbi h, rfl, vbiValue_vbi h⟩

theorem vbi_length_eq (n : Nat) : (vbi n).length =
    if n < 128 then 1 else if n < 128 * 128 then 2 else if n < 128 * 128 * 128 then 3 else 4 := by
  unfold vbi
  repeat' split
  all_goals simp [Spec.u8]

theorem vbi_length_pos (n : Nat) : 1 ≤ (vbi n).length := by
  rw [vbi_length_eq]; repeat' split
  all_goals omega

theorem vbi_length_le (n : Nat) : (vbi n).length ≤ 4 := by
  rw [vbi_length_eq]; repeat' split
  all_goals omega

theorem len_len_eq (n : Nat) : len_len n = (vbi n).length := by
  rw [vbi_length_eq]; unfold len_len
  repeat' split
  all_goals omega

theorem or_128 {n : Nat} (h : n < 128) : UInt8.ofNat n ||| 128 = UInt8.ofNat (128 + n) := by
  have : ∀ k : Fin 128, UInt8.ofNat k.val ||| 128 = UInt8.ofNat (128 + k.val) := by
    decide +kernel
  exact this ⟨n, h⟩

theorem wrl_loop_last {x : Nat} (h : x < 128) (fuel count : Nat) (s : Bytes) :
    write_remaining_length_loop (fuel + 1) x count s = (.ok (count + 1), s ++ Spec.u8 x) := by
  rw [write_remaining_length_loop]
  have h0 : x / 128 = 0 := by omega
  have h1 : x % 128 = x := by omega
  mrun [h0, h1, putU8_run]
  simp [Spec.u8]

theorem wrl_loop_more {x : Nat} (h : 128 ≤ x) (fuel count : Nat) (s : Bytes) :
    write_remaining_length_loop (fuel + 1) x count s =
      write_remaining_length_loop fuel (x / 128) (count + 1) (s ++ Spec.u8 (128 + x % 128)) := by
  rw [write_remaining_length_loop]
  have h0 : x / 128 > 0 := by omega
  have h1 : ¬ (x / 128 = 0) := by omega
  mrun [h0, h1, putU8_run, if_true, if_false]
  rw [or_128 (by omega)]; rfl

theorem write_remaining_length_run {n : Nat} (h : n ≤ maxRemaining) (s : Bytes) :
    write_remaining_length n s = (.ok (vbi n).length, s ++ vbi n) := by
  unfold maxRemaining at h
  unfold write_remaining_length
  rw [if_neg (by omega), vbi_length_eq]
  unfold vbi
  split
  · rw [wrl_loop_last (by omega)]
  split
  · obtain ⟨f, rfl⟩ : ∃ f, n = f + 1 := ⟨n - 1, by omega⟩
    rw [wrl_loop_more (by omega), wrl_loop_last (by omega), List.append_assoc]
  split
  · obtain ⟨f, rfl⟩ : ∃ f, n = f + 2 := ⟨n - 2, by omega⟩
    rw [wrl_loop_more (by omega), wrl_loop_more (by omega), wrl_loop_last (by omega)]
    simp only [List.append_assoc, Nat.div_div_eq_div_mul]
  · obtain ⟨f, rfl⟩ : ∃ f, n = f + 3 := ⟨n - 3, by omega⟩
    rw [wrl_loop_more (by omega), wrl_loop_more (by omega), wrl_loop_more (by omega),
      wrl_loop_last (by omega)]
    simp only [List.append_assoc, Nat.div_div_eq_div_mul]

theorem write_remaining_length_too_long {n : Nat} (h : maxRemaining < n) (s : Bytes) :
    write_remaining_length n s = (.err .PayloadTooLong, s) := by
  unfold maxRemaining at h
  unfold write_remaining_length
  rw [if_pos (by omega)]; rfl

/-- minimality: no variable byte integer for `n` is shorter than `vbi n` -/
theorem vbi_minimal {n : Nat} {bs : Bytes} (h : IsVbi bs) (hn : vbiValue bs = n) :
    (vbi n).length ≤ bs.length := by
  rw [vbi_length_eq]
  match bs with
  | [] => exact absurd rfl (isVbi_ne_nil h)
  | [a] => simp only [vbiValue] at hn; rw [if_pos (by omega)]; simp
  | [a, b] =>
    simp only [vbiValue] at hn
    have : n < 128 * 128 := by omega
    simp only [this, if_true, List.length_cons, List.length_nil]
    split <;> omega
  | [a, b, c] =>
    simp only [vbiValue] at hn
    have : n < 128 * 128 * 128 := by omega
    simp only [this, if_true, List.length_cons, List.length_nil]
    repeat' split
    all_goals omega
  | a :: b :: c :: d :: bs =>
    simp only [List.length_cons]
    repeat' split
    all_goals omega

theorem vbiValue_le {bs : Bytes} (h : IsVbi bs) : vbiValue bs ≤ maxRemaining := by
  unfold maxRemaining
  match bs with
  | [] => simp [vbiValue]
  | [a] => simp only [vbiValue]; omega
  | [a, b] => simp only [vbiValue]; omega
  | [a, b, c] => simp only [vbiValue]; omega
  | [a, b, c, d] => simp only [vbiValue]; omega
  | a :: b :: c :: d :: e :: bs => have := h.1; simp at this

end Mqtt
