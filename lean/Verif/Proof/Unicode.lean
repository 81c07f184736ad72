import Verif.Proof.Prim
import Verif.Spec.Unicode
/-! Lean's UTF-8 is Unicode's. -/
namespace Spec.Unicode
open Mqtt

theorem u8_ofNat_toNat {n : Nat} (h : n < 256) : (UInt8.ofNat n).toNat = n := by
  simp [UInt8.toNat_ofNat']; omega

theorem u8_ext {a : UInt8} {n : Nat} (h : a.toNat = n) : UInt8.ofNat n = a := by subst h; simp

theorem scalar_iff (n : Nat) : Scalar n ↔ n.isValidChar := by
  unfold Scalar Nat.isValidChar; omega

theorem char_scalar (c : Char) : Scalar c.val.toNat := (scalar_iff _).2 (by
  have := c.valid; simpa [UInt32.isValidChar] using this)

/-- the encoding of a character is a row -/
theorem row_of_char (c : Char) : Row (String.utf8EncodeChar c) c.val.toNat := by
  have hs := char_scalar c
  unfold Scalar at hs
  unfold String.utf8EncodeChar
  generalize c.val.toNat = v at hs
  dsimp only
  split
  · have := Row.ascii (a := UInt8.ofNat v) (by unfold within; rw [u8_ofNat_toNat (by omega)]; omega)
    rwa [u8_ofNat_toNat (by omega)] at this
  · split
    · have e : v = val2 (UInt8.ofNat (v / 64 % 0x20 + 0xc0)) (UInt8.ofNat (v % 0x40 + 0x80)) := by
        unfold val2; rw [u8_ofNat_toNat (by omega), u8_ofNat_toNat (by omega)]; omega
      have := Row.two (a := UInt8.ofNat (v / 64 % 0x20 + 0xc0)) (b := UInt8.ofNat (v % 0x40 + 0x80))
        (by unfold within; rw [u8_ofNat_toNat (by omega)]; omega)
        (by unfold cont within; rw [u8_ofNat_toNat (by omega)]; omega)
      rwa [← e] at this
    · split
      · obtain ⟨a, ha⟩ : ∃ a, a = UInt8.ofNat (v / 4096 % 0x10 + 0xe0) := ⟨_, rfl⟩
        obtain ⟨b, hb⟩ : ∃ b, b = UInt8.ofNat (v / 64 % 0x40 + 0x80) := ⟨_, rfl⟩
        obtain ⟨c, hc⟩ : ∃ c, c = UInt8.ofNat (v % 0x40 + 0x80) := ⟨_, rfl⟩
        rw [← ha, ← hb, ← hc]
        have ha : a.toNat = v / 4096 % 0x10 + 0xe0 := by rw [ha, u8_ofNat_toNat (by omega)]
        have hb : b.toNat = v / 64 % 0x40 + 0x80 := by rw [hb, u8_ofNat_toNat (by omega)]
        have hc : c.toNat = v % 0x40 + 0x80 := by rw [hc, u8_ofNat_toNat (by omega)]
        have e : v = val3 a b c := by unfold val3; omega
        rw [e]
        have h1 : a.toNat = 0xE0 ∨ 0xE1 ≤ a.toNat ∧ a.toNat ≤ 0xEC ∨ a.toNat = 0xED ∨ 0xEE ≤ a.toNat := by omega
        rcases h1 with h1 | h1 | h1 | h1
        · exact .e0 (by unfold within; omega) (by unfold within; omega) (by unfold cont within; omega)
        · exact .e1 (by unfold within; omega) (by unfold cont within; omega) (by unfold cont within; omega)
        · exact .ed (by unfold within; omega) (by unfold within; omega) (by unfold cont within; omega)
        · exact .ee (by unfold within; omega) (by unfold cont within; omega) (by unfold cont within; omega)
      · obtain ⟨a, ha⟩ : ∃ a, a = UInt8.ofNat (v / 262144 % 0x08 + 0xf0) := ⟨_, rfl⟩
        obtain ⟨b, hb⟩ : ∃ b, b = UInt8.ofNat (v / 4096 % 0x40 + 0x80) := ⟨_, rfl⟩
        obtain ⟨c, hc⟩ : ∃ c, c = UInt8.ofNat (v / 64 % 0x40 + 0x80) := ⟨_, rfl⟩
        obtain ⟨d, hd⟩ : ∃ d, d = UInt8.ofNat (v % 0x40 + 0x80) := ⟨_, rfl⟩
        rw [← ha, ← hb, ← hc, ← hd]
        have ha : a.toNat = v / 262144 % 0x08 + 0xf0 := by rw [ha, u8_ofNat_toNat (by omega)]
        have hb : b.toNat = v / 4096 % 0x40 + 0x80 := by rw [hb, u8_ofNat_toNat (by omega)]
        have hc : c.toNat = v / 64 % 0x40 + 0x80 := by rw [hc, u8_ofNat_toNat (by omega)]
        have hd : d.toNat = v % 0x40 + 0x80 := by rw [hd, u8_ofNat_toNat (by omega)]
        have e : v = val4 a b c d := by unfold val4; omega
        rw [e]
        have h1 : a.toNat = 0xF0 ∨ 0xF1 ≤ a.toNat ∧ a.toNat ≤ 0xF3 ∨ a.toNat = 0xF4 := by omega
        rcases h1 with h1 | h1 | h1
        · exact .f0 (by unfold within; omega) (by unfold within; omega) (by unfold cont within; omega) (by unfold cont within; omega)
        · exact .f1 (by unfold within; omega) (by unfold cont within; omega) (by unfold cont within; omega) (by unfold cont within; omega)
        · exact .f4 (by unfold within; omega) (by unfold within; omega) (by unfold cont within; omega) (by unfold cont within; omega)

/-- a character from a code point -/
theorem char_of_scalar {n : Nat} (h : Scalar n) : ∃ c : Char, c.val.toNat = n := by
  have hv := (scalar_iff n).1 h
  refine ⟨⟨UInt32.ofNat n, ?_⟩, ?_⟩
  · unfold Scalar at h
    simp only [UInt32.isValidChar]
    rw [UInt32.toNat_ofNat', Nat.mod_eq_of_lt (by omega)]
    exact hv
  · unfold Scalar at h
    show (UInt32.ofNat n).toNat = n
    rw [UInt32.toNat_ofNat', Nat.mod_eq_of_lt (by omega)]

/-- the code point of a row is a scalar value -/
theorem row_scalar {r : Bytes} {n : Nat} (h : Row r n) : Scalar n := by
  unfold Scalar
  cases h with
  | ascii h => unfold within at h; omega
  | two h1 h2 => unfold cont at h2; unfold within at h1 h2; unfold val2; omega
  | e0 h1 h2 h3 => unfold cont at h3; unfold within at h1 h2 h3; unfold val3; omega
  | e1 h1 h2 h3 => unfold cont at h2 h3; unfold within at h1 h2 h3; unfold val3; omega
  | ed h1 h2 h3 => unfold cont at h3; unfold within at h1 h2 h3; unfold val3; omega
  | ee h1 h2 h3 => unfold cont at h2 h3; unfold within at h1 h2 h3; unfold val3; omega
  | f0 h1 h2 h3 h4 => unfold cont at h3 h4; unfold within at h1 h2 h3 h4; unfold val4; omega
  | f1 h1 h2 h3 h4 => unfold cont at h2 h3 h4; unfold within at h1 h2 h3 h4; unfold val4; omega
  | f4 h1 h2 h3 h4 => unfold cont at h3 h4; unfold within at h1 h2 h3 h4; unfold val4; omega

theorem enc3 {a b c : UInt8} {v : Nat} (hv : v = val3 a b c) (h0 : 0x7ff < v) (ha : within 0xE0 0xEF a) (hb : cont b)
    (hc : cont c) :
    (if v ≤ 0x7f then [UInt8.ofNat v] else
      if v ≤ 0x7ff then [UInt8.ofNat (v / 64 % 0x20 + 0xc0), UInt8.ofNat (v % 0x40 + 0x80)] else
      if v ≤ 0xffff then [UInt8.ofNat (v / 4096 % 0x10 + 0xe0), UInt8.ofNat (v / 64 % 0x40 + 0x80), UInt8.ofNat (v % 0x40 + 0x80)]
      else [UInt8.ofNat (v / 262144 % 0x08 + 0xf0), UInt8.ofNat (v / 4096 % 0x40 + 0x80), UInt8.ofNat (v / 64 % 0x40 + 0x80),
        UInt8.ofNat (v % 0x40 + 0x80)]) = [a, b, c] := by
  unfold cont at hb hc
  unfold within at ha hb hc
  unfold val3 at hv
  rw [if_neg (by omega), if_neg (by omega), if_pos (by omega)]
  rw [u8_ext (a := a) (by omega), u8_ext (a := b) (by omega), u8_ext (a := c) (by omega)]

theorem enc4 {a b c d : UInt8} {v : Nat} (hv : v = val4 a b c d) (h0 : 0xffff < v) (ha : within 0xF0 0xF4 a) (hb : cont b)
    (hc : cont c) (hd : cont d) :
    (if v ≤ 0x7f then [UInt8.ofNat v] else
      if v ≤ 0x7ff then [UInt8.ofNat (v / 64 % 0x20 + 0xc0), UInt8.ofNat (v % 0x40 + 0x80)] else
      if v ≤ 0xffff then [UInt8.ofNat (v / 4096 % 0x10 + 0xe0), UInt8.ofNat (v / 64 % 0x40 + 0x80), UInt8.ofNat (v % 0x40 + 0x80)]
      else [UInt8.ofNat (v / 262144 % 0x08 + 0xf0), UInt8.ofNat (v / 4096 % 0x40 + 0x80), UInt8.ofNat (v / 64 % 0x40 + 0x80),
        UInt8.ofNat (v % 0x40 + 0x80)]) = [a, b, c, d] := by
  unfold cont at hb hc hd
  unfold within at ha hb hc hd
  unfold val4 at hv
  rw [if_neg (by omega), if_neg (by omega), if_neg (by omega)]
  rw [u8_ext (a := a) (by omega), u8_ext (a := b) (by omega), u8_ext (a := c) (by omega), u8_ext (a := d) (by omega)]

/-- a row is the encoding of a character -/
theorem char_of_row {r : Bytes} {n : Nat} (h : Row r n) : ∃ c : Char, c.val.toNat = n ∧ String.utf8EncodeChar c = r := by
  obtain ⟨c, hc⟩ := char_of_scalar (row_scalar h)
  refine ⟨c, hc, ?_⟩
  unfold String.utf8EncodeChar
  dsimp only
  generalize c.val.toNat = v at hc
  cases h with
  | @ascii a h =>
    unfold within at h
    rw [if_pos (by omega), hc]; simp
  | @two a b h1 h2 =>
    unfold cont at h2; unfold within at h1 h2; unfold val2 at hc
    rw [if_neg (by omega), if_pos (by omega)]
    rw [u8_ext (a := a) (by omega), u8_ext (a := b) (by omega)]
  | e0 h1 h2 h3 =>
    refine enc3 hc ?_ ?_ ?_ h3 <;> unfold cont at * <;> unfold within at * <;> unfold val3 at hc <;> omega
  | e1 h1 h2 h3 =>
    refine enc3 hc ?_ ?_ ?_ h3 <;> unfold cont at * <;> unfold within at * <;> unfold val3 at hc <;> omega
  | ed h1 h2 h3 =>
    refine enc3 hc ?_ ?_ ?_ h3 <;> unfold cont at * <;> unfold within at * <;> unfold val3 at hc <;> omega
  | ee h1 h2 h3 =>
    refine enc3 hc ?_ ?_ ?_ h3 <;> unfold cont at * <;> unfold within at * <;> unfold val3 at hc <;> omega
  | f0 h1 h2 h3 h4 =>
    refine enc4 hc ?_ ?_ ?_ h3 h4 <;> unfold cont at * <;> unfold within at * <;> unfold val4 at hc <;> omega
  | f1 h1 h2 h3 h4 =>
    refine enc4 hc ?_ ?_ ?_ h3 h4 <;> unfold cont at * <;> unfold within at * <;> unfold val4 at hc <;> omega
  | f4 h1 h2 h3 h4 =>
    refine enc4 hc ?_ ?_ ?_ h3 h4 <;> unfold cont at * <;> unfold within at * <;> unfold val4 at hc <;> omega

theorem decodes_iff_chars {b : Bytes} {l : List Nat} :
    Decodes b l ↔ ∃ m : List Char, (m.map fun c => c.val.toNat) = l ∧ m.flatMap String.utf8EncodeChar = b := by
  constructor
  · intro h
    induction h with
    | nil => exact ⟨[], rfl, rfl⟩
    | cons hr _ ih =>
      obtain ⟨c, h1, h2⟩ := char_of_row hr
      obtain ⟨m, h3, h4⟩ := ih
      exact ⟨c :: m, by rw [List.map_cons, h1, h3], by rw [List.flatMap_cons, h2, h4]⟩
  · rintro ⟨m, rfl, rfl⟩
    induction m with
    | nil => exact .nil
    | cons c m ih => exact .cons (row_of_char c) ih

theorem utf8_ofList (m : List Char) : Spec.utf8 (String.ofList m) = m.flatMap String.utf8EncodeChar := by
  simp [Spec.utf8, String.toUTF8, String.ofList, List.utf8Encode]

theorem utf8_flatMap (s : String) : Spec.utf8 s = s.toList.flatMap String.utf8EncodeChar := by
  rw [← utf8_ofList, String.ofList_toList]

/-- the bytes of a string are the well-formed encoding of its code points, and of no other -/
theorem utf8_iff {b : Bytes} {s : String} : Spec.utf8 s = b ↔ Decodes b (points s) := by
  rw [decodes_iff_chars]
  constructor
  · rintro rfl; exact ⟨s.toList, rfl, (utf8_flatMap s).symm⟩
  · rintro ⟨m, h1, rfl⟩
    have : m = s.toList := by
      unfold points at h1
      refine (List.map_inj_right (f := fun c : Char => c.val.toNat) fun x y h => ?_).1 h1
      exact Char.ext (UInt32.toNat_inj.1 h)
    rw [this, utf8_flatMap]

theorem decodes_string {b : Bytes} {l : List Nat} (h : Decodes b l) : ∃ s, Spec.utf8 s = b ∧ points s = l := by
  obtain ⟨m, rfl, rfl⟩ := decodes_iff_chars.1 h
  exact ⟨String.ofList m, utf8_ofList m, by simp [points]⟩

theorem wellFormed_iff {b : Bytes} : WellFormed b ↔ ∃ s, Spec.utf8 s = b := by
  constructor
  · rintro ⟨l, h⟩
    obtain ⟨s, h, _⟩ := decodes_string h
    exact ⟨s, h⟩
  · rintro ⟨s, h⟩; exact ⟨_, utf8_iff.1 h⟩

end Spec.Unicode
