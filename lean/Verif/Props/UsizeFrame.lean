import Verif.Model.UsizeFrame
import Verif.Props.Release
import Verif.Props.Framing
/-! C109: framing and reading on machine integers. -/
namespace Props
open Mqtt Spec

theorem addU_ok (bld : Build) {W a b : Nat} (h : a + b < 2 ^ W) : addU bld W a b = .ok (a + b) := by
  unfold addU; rw [if_pos h]

theorem pow_le_of (W n : Nat) (h : n ≤ W) : 2 ^ n ≤ 2 ^ W := Nat.pow_le_pow_right (by omega) h

theorem lengthLoopU_eq (bld : Build) (W : Nat) (hW : 29 ≤ W) (s : Bytes) : ∀ len len_len shift,
    shift ≤ 21 → len < 2 ^ shift → len_len ≤ shift →
    lengthLoopU bld W s len len_len shift = lengthLoop s len len_len shift := by
  have h29 := pow_le_of W 29 hW
  induction s with
  | nil => intros; rfl
  | cons b s ih =>
    intro len n sh h1 h2 h3
    have hb : b.toNat &&& 127 ≤ 127 := Nat.and_le_right
    have hsl : (b.toNat &&& 127) <<< sh ≤ 127 * 2 ^ sh := by
      rw [Nat.shiftLeft_eq]; exact Nat.mul_le_mul_right _ hb
    have hp : 2 ^ (sh + 7) ≤ 2 ^ 28 := Nat.pow_le_pow_right (by omega) (by omega)
    have hpe : 2 ^ (sh + 7) = 128 * 2 ^ sh := by rw [Nat.pow_add]; omega
    have hadd : len + (b.toNat &&& 127) <<< sh < 2 ^ (sh + 7) := by omega
    rw [lengthLoopU, addU_ok bld (by omega)]
    show (shlU bld W (b.toNat &&& 127) sh >>= fun shifted => _) = _
    have hshl : shlU bld W (b.toNat &&& 127) sh = .ok ((b.toNat &&& 127) <<< sh) := by
      unfold shlU
      rw [if_pos (by omega), Nat.mod_eq_of_lt (by omega)]
    rw [hshl]
    show (addU bld W len ((b.toNat &&& 127) <<< sh) >>= fun len' => _) = _
    rw [addU_ok bld (by omega), lengthLoop]
    show ite _ _ _ = ite _ _ _
    split
    · rfl
    · by_cases h21 : sh + 7 > 21
      · exact (if_pos h21).trans (if_pos h21).symm
      · exact (if_neg h21).trans ((ih _ _ (sh + 7) (by omega) hadd (by omega)).trans (if_neg h21).symm)

theorem lengthLoop_bound (s : Bytes) : ∀ len n sh k v, sh ≤ 21 → len < 2 ^ sh → n ≤ sh →
    lengthLoop s len n sh = .ok (k, v) → k ≤ 22 ∧ v < 2 ^ 28 := by
  induction s with
  | nil => intro len n sh k v _ _ _ h; cases h
  | cons b s ih =>
    intro len n sh k v h1 h2 h3 h
    have hb : b.toNat &&& 127 ≤ 127 := Nat.and_le_right
    have hsl : (b.toNat &&& 127) <<< sh ≤ 127 * 2 ^ sh := by
      rw [Nat.shiftLeft_eq]; exact Nat.mul_le_mul_right _ hb
    have hp : 2 ^ (sh + 7) ≤ 2 ^ 28 := Nat.pow_le_pow_right (by omega) (by omega)
    have hpe : 2 ^ (sh + 7) = 128 * 2 ^ sh := by rw [Nat.pow_add]; omega
    rw [lengthLoop] at h
    dsimp only at h
    split at h
    · cases h; omega
    · split at h
      · cases h
      · exact ih _ _ _ k v (by omega) (by omega) (by omega) h

theorem parseU_eq (bld : Build) (W : Nat) (hW : 29 ≤ W) (s : Bytes) :
    parse_fixed_headerU bld W s = parse_fixed_header s
    ∧ ∀ h, parse_fixed_header s = .ok h → h.fixed_header_len + h.remaining_len < 2 ^ W := by
  have h29 := pow_le_of W 29 hW
  unfold parse_fixed_headerU parse_fixed_header
  by_cases hl : s.length < 2
  · rw [if_pos hl, if_pos hl]
    refine ⟨?_, fun h e => by cases e⟩
    show ((subU bld W 2 s.length) >>= fun m => Res.err (.InsufficientBytes m)) = _
    unfold subU; rw [if_pos (by omega)]; rfl
  · rw [if_neg hl, if_neg hl]
    cases s with
    | nil => exact ⟨rfl, fun h e => by cases e⟩
    | cons b s =>
      dsimp only
      have e : lengthU bld W s = length s := lengthLoopU_eq bld W hW s 0 0 0 (by omega) (by simp) (by omega)
      rw [e]
      cases hs : length s with
      | ok p =>
        obtain ⟨k, v⟩ := p
        have hb := lengthLoop_bound s 0 0 0 k v (by omega) (by simp) (by omega) hs
        constructor
        · show FixedHeader.newU bld W b k v = .ok (FixedHeader.new b k v)
          unfold FixedHeader.newU
          rw [addU_ok bld (by omega)]; rfl
        · intro h e; cases e
          show k + 1 + v < 2 ^ W
          omega
      | err e => exact ⟨rfl, fun h e => by cases e⟩
      | panic => exact ⟨rfl, fun h e => by cases e⟩
      | diverge => exact ⟨rfl, fun h e => by cases e⟩

theorem checkU_eq (bld : Build) (W : Nat) (hW : 29 ≤ W) (s : Bytes) (max : Nat) :
    checkU bld W s max = check s max
    ∧ ∀ h, check s max = .ok h → h.fixed_header_len + h.remaining_len < 2 ^ W := by
  obtain ⟨e, hb⟩ := parseU_eq bld W hW s
  unfold checkU check
  rw [e]
  cases hp : parse_fixed_header s with
  | ok h =>
    have hb := hb h hp
    show ite _ _ _ = ite _ _ _ ∧ _
    dsimp only
    by_cases h1 : h.remaining_len > max
    · rw [if_pos h1, if_pos h1]; exact ⟨rfl, fun _ e => by cases e⟩
    · rw [if_neg h1, if_neg h1]
      have ef : h.frame_lengthU bld W = .ok h.frame_length := addU_ok bld hb
      rw [ef]
      show ite _ _ _ = ite _ _ _ ∧ _
      by_cases h2 : s.length < h.frame_length
      · rw [if_pos h2, if_pos h2]
        refine ⟨?_, fun _ e => by cases e⟩
        show ((subU bld W h.frame_length s.length) >>= fun m => Res.err (.InsufficientBytes m)) = _
        unfold subU; rw [if_pos (by omega)]; rfl
      · rw [if_neg h2, if_neg h2]
        exact ⟨rfl, fun h' e => by cases e; exact hb⟩
  | err e => exact ⟨rfl, fun _ e => by cases e⟩
  | panic => exact ⟨rfl, fun _ e => by cases e⟩
  | diverge => exact ⟨rfl, fun _ e => by cases e⟩

/-- C109: on every machine whose `usize` has at least 29 bits (so on all 32 and 64 bit ones), with or without overflow
checks, `check` computes exactly what it computes on unbounded numbers (which is C03): no addition, subtraction or shift in
it overflows, whatever the stream and the limit. -/
theorem C109_check (bld : Build) (W : Nat) (hW : 29 ≤ W) (s : Bytes) (max : Nat) :
    checkU bld W s max = check s max := (checkU_eq bld W hW s max).1

/-- C109: decoding a variable byte integer, as done for the remaining length and for every property section, never overflows:
the result is that on unbounded numbers. -/
theorem C109_length (bld : Build) (W : Nat) (hW : 29 ≤ W) (s : Bytes) : lengthU bld W s = length s :=
  lengthLoopU_eq bld W hW s 0 0 0 (by omega) (by simp) (by omega)

/-- hypotheses met, and the bound is not idle -/
example : lengthU .debug 64 [0xff, 0xff, 0xff, 0x7f, 0] = .ok (4, 268435455) := by
  rw [C109_length .debug 64 (by decide)]; decide +kernel


/-- C109: the frame length of every header `check` returns is a `usize`. -/
theorem C109_frame_length (bld : Build) (W : Nat) (hW : 29 ≤ W) (s : Bytes) (max : Nat) (h : FixedHeader)
    (hc : checkU bld W s max = .ok h) : h.frame_lengthU bld W = .ok h.frame_length ∧ h.frame_length ≤ s.length := by
  rw [C109_check bld W hW] at hc
  refine ⟨addU_ok bld ((checkU_eq bld W hW s max).2 h hc), ?_⟩
  obtain ⟨b1, bs, rest, rfl, _, _, hl, rfl⟩ := (C03_check_ok_iff s max h).1 hc
  show bs.length + 1 + vbiValue bs ≤ _
  simp only [List.length_cons, List.length_append]; omega

example := C109_frame_length .debug 32 (by decide) [0x40, 2, 0, 7] 9 ⟨0x40, 2, 2⟩ (by decide +kernel)


/-- C109: `v4::read` as a whole, on `usize` of at least 32 bits, debug and release. -/
theorem C109_v4_read (bld : Build) (W : Nat) (hW : 32 ≤ W) (max : Nat) (s : Bytes) : V4.readU bld W max s = V4.read max s := by
  have h1 := checkU_eq bld W (by omega) s max
  have h2 := C83_v4_release W hW max s
  unfold V4.readR at h2
  unfold V4.readU V4.read at *
  simp only [M.look, M.lift, bind, M.bind] at *
  rw [h1.1]
  cases hc : check s max with
  | ok h =>
    rw [hc] at h2
    have ef : h.frame_lengthU bld W = .ok h.frame_length := addU_ok bld (h1.2 h hc)
    simp only [ef] at *
    cases bld with
    | debug => rfl
    | release => exact h2
  | err e => rfl
  | panic => rfl
  | diverge => rfl

/-- C109: `v5::read` as a whole, on `usize` of at least 32 bits, debug and release. -/
theorem C109_v5_read (bld : Build) (W : Nat) (hW : 32 ≤ W) (max : Nat) (s : Bytes) : V5.readU bld W max s = V5.read max s := by
  have h1 := checkU_eq bld W (by omega) s max
  have h2 := C83_v5_release W hW max s
  unfold V5.readR at h2
  unfold V5.readU V5.read at *
  simp only [M.look, M.lift, bind, M.bind] at *
  rw [h1.1]
  cases hc : check s max with
  | ok h =>
    rw [hc] at h2
    have ef : h.frame_lengthU bld W = .ok h.frame_length := addU_ok bld (h1.2 h hc)
    simp only [ef] at *
    cases bld with
    | debug => rfl
    | release => exact h2
  | err e => rfl
  | panic => rfl
  | diverge => rfl

/-- hypotheses met -/
example : V5.readU .release 32 9 [0x40, 3, 0, 7, 0x87, 1] = (.ok (.PubAck ⟨7, .NotAuthorized, none⟩), [1]) := by
  rw [C109_v5_read .release 32 (by decide)]; decide +kernel


/-- C109: a header built by hand.  In debug builds `FixedHeader::new` panics exactly if `remaining_len_len` is the largest
`usize`, and `frame_length` exactly if the sum of both lengths and one is not a `usize`. -/
theorem C109_header (W : Nat) (b1 : UInt8) (k n : Nat) (hk : k < 2 ^ W) :
    (FixedHeader.newU .debug W b1 k n = .panic ↔ k = 2 ^ W - 1)
    ∧ (k ≠ 2 ^ W - 1 → ∃ h, FixedHeader.newU .debug W b1 k n = .ok h ∧ h.byte1 = b1
        ∧ (k + 1 + n < 2 ^ W → h.frame_lengthU .debug W = .ok (k + 1 + n))
        ∧ (¬ k + 1 + n < 2 ^ W → h.frame_lengthU .debug W = .panic)) := by
  unfold FixedHeader.newU addU
  by_cases h : k + 1 < 2 ^ W
  · rw [if_pos h]
    refine ⟨⟨(fun e => nomatch e), fun e => by omega⟩, fun _ => ⟨⟨b1, k + 1, n⟩, rfl, rfl, fun h => ?_, fun h => ?_⟩⟩
    · exact addU_ok _ h
    · unfold FixedHeader.frame_lengthU addU; rw [if_neg h]
  · rw [if_neg h]
    exact ⟨⟨fun _ => by omega, fun _ => rfl⟩, fun h' => by omega⟩

example : FixedHeader.newU .debug 16 0x30 65535 0 = .panic := ((C109_header 16 0x30 65535 0 (by decide)).1).2 (by decide)


/-- C109: in release builds a header built by hand never panics; its frame length is the sum modulo the size of `usize`. -/
theorem C109_header_release (W : Nat) (b1 : UInt8) (k n : Nat) :
    ∃ h, FixedHeader.newU .release W b1 k n = .ok h ∧ h.byte1 = b1 ∧ h.frame_lengthU .release W = .ok ((k + 1 + n) % 2 ^ W) := by
  have add : ∀ a b, addU .release W a b = .ok ((a + b) % 2 ^ W) := by
    intro a b; unfold addU
    split
    · next h => rw [Nat.mod_eq_of_lt h]
    · rfl
  refine ⟨⟨b1, (k + 1) % 2 ^ W, n⟩, ?_, rfl, ?_⟩
  · unfold FixedHeader.newU; rw [add]; rfl
  · unfold FixedHeader.frame_lengthU; rw [add]
    simp only [Nat.mod_add_mod]

/-- C109: 29 bits are needed.  With a `usize` of 16 bits (which Rust supports on some microcontrollers) a packet that
announces 65536 bytes is taken for one without any, whatever the limit; and a length field of four bytes panics in debug
builds. -/
theorem C109_sixteen_bits (b1 : UInt8) (bld : Build) (rest : Bytes) (max : Nat) :
    checkU bld 16 (b1 :: 0x80 :: 0x80 :: 0x04 :: rest) max = .ok ⟨b1, 4, 0⟩
    ∧ vbiValue [0x80, 0x80, 0x04] = 65536
    ∧ checkU .debug 16 (b1 :: 0x80 :: 0x80 :: 0x80 :: 0x01 :: rest) max = .panic := by
  have e : parse_fixed_headerU bld 16 (b1 :: 0x80 :: 0x80 :: 0x04 :: rest) = .ok ⟨b1, 4, 0⟩ := by
    cases bld <;> rfl
  refine ⟨?_, by decide, ?_⟩
  · unfold checkU
    rw [e]
    show ite _ _ _ = _
    rw [if_neg (by simp)]
    have e2 : (FixedHeader.mk b1 4 0).frame_lengthU bld 16 = .ok 4 := addU_ok bld (show 4 + 0 < 2 ^ 16 by decide)
    rw [e2]
    show ite _ _ _ = _
    rw [if_neg (by simp)]; rfl
  · have e3 : parse_fixed_headerU .debug 16 (b1 :: 0x80 :: 0x80 :: 0x80 :: 0x01 :: rest) = .panic := rfl
    unfold checkU; rw [e3]; rfl

-- the largest length there is, on a 32 bit machine in debug mode
example : checkU .debug 32 [0x30, 0xFF, 0xFF, 0xFF, 0x7F] 300000000 = .err (.InsufficientBytes 268435455) :=
  (C109_check .debug 32 (by decide) _ _).trans (by decide +kernel)

example : V4.readU .release 64 100 [0x40, 2, 0, 7] = (.ok (.PubAck ⟨7⟩), []) :=
  (C109_v4_read .release 64 (by decide) _ _).trans (by decide +kernel)

end Props
