import Verif.Proof.Stream
/-! Properties of framing: C01, C03-C06, C09, C10, C53. -/
namespace Props
open Mqtt Spec

/-! ### C01 -/

/-- C01: for every `n ≤ 268435455` the length bytes written are the minimal variable byte integer of
`n`, and `check` reads `n` back from them. -/
theorem C01_remaining_length_roundtrip (n : Nat) (h : n ≤ 268435455) (buf : Bytes) :
    -- the writer appends `vbi n` and returns how many bytes that is
    write_remaining_length n buf = (.ok (vbi n).length, buf ++ vbi n)
    -- it is a variable byte integer of 1-4 bytes denoting `n`, and no shorter one denotes `n`
    ∧ IsVbi (vbi n) ∧ vbiValue (vbi n) = n
    ∧ (∀ bs, IsVbi bs → vbiValue bs = n → (vbi n).length ≤ bs.length)
    -- `check` reports exactly `n`
    ∧ (∀ b1 rest max, n ≤ max → n ≤ rest.length →
        ∃ h, check (b1 :: (vbi n ++ rest)) max = .ok h ∧ h.byte1 = b1 ∧ h.remaining_len = n
          ∧ h.fixed_header_len = 1 + (vbi n).length ∧ h.frame_length = 1 + (vbi n).length + n) := by
  refine ⟨write_remaining_length_run h buf, vbi_isVbi h, vbiValue_vbi h, ?_, ?_⟩
  · intro bs hb hv
    exact vbi_minimal hb hv
  · intro b1 rest max hm hr
    have e := vbiValue_vbi h
    have := check_frame b1 (vbi n) rest max (vbi_isVbi h) (by omega) (by omega)
    exact ⟨_, this, rfl, e, Nat.add_comm _ _, by simp [FixedHeader.frame_length, e, Nat.add_comm]⟩

example : write_remaining_length 321 [7] = (.ok 2, [7, 193, 2]) := by decide +kernel
example : ∃ h, check (0x30 :: (vbi 321 ++ List.replicate 321 0)) 1000 = .ok h ∧ h.remaining_len = 321 := by
  obtain ⟨h, h1, _, h2, _⟩ := (C01_remaining_length_roundtrip 321 (by decide) []).2.2.2.2 0x30
    (List.replicate 321 0) 1000 (by decide) (by rw [List.length_replicate]; exact Nat.le_refl _)
  exact ⟨h, h1, h2⟩

/-! ### C03 -/

/-- C03: `check` succeeds exactly on streams that start with a complete frame within the limit. -/
theorem C03_check_ok_iff (s : Bytes) (max : Nat) (h : FixedHeader) :
    check s max = .ok h ↔
      ∃ b1 bs rest, s = b1 :: (bs ++ rest) ∧ IsVbi bs ∧ vbiValue bs ≤ max ∧
        vbiValue bs ≤ rest.length ∧ h = ⟨b1, bs.length + 1, vbiValue bs⟩ :=
  check_ok_iff s max h

/-- C03: which error: four continuation bytes after the first byte -/
theorem C03_check_malformed_iff (s : Bytes) (max : Nat) :
    check s max = .err .MalformedRemainingLength ↔
      ∃ b1 a t, s = b1 :: (a ++ t) ∧ a.length = 4 ∧ ∀ b ∈ a, 128 ≤ b.toNat :=
  check_malformed_iff max s

/-- C03: which error: the header is complete and announces more than the limit -/
theorem C03_check_limit_iff (s : Bytes) (max n : Nat) :
    check s max = .err (.PayloadSizeLimitExceeded n) ↔
      ∃ b1 bs t, s = b1 :: (bs ++ t) ∧ IsVbi bs ∧ vbiValue bs = n ∧ max < n :=
  check_limit_iff max s n

/-- C03: which error: too short (no first byte; no complete length; incomplete body) -/
theorem C03_check_insufficient_iff (s : Bytes) (max n : Nat) :
    check s max = .err (.InsufficientBytes n) ↔
      (s = [] ∧ n = 2)
      ∨ (∃ b1 t, s = b1 :: t ∧ t.length < 4 ∧ (∀ b ∈ t, 128 ≤ b.toNat) ∧ n = 1)
      ∨ (∃ b1 bs t, s = b1 :: (bs ++ t) ∧ IsVbi bs ∧ vbiValue bs ≤ max ∧
          t.length < vbiValue bs ∧ n = vbiValue bs - t.length) :=
  check_insufficient_iff max s n

/-- C03: those are all the outcomes -/
theorem C03_check_outcomes (s : Bytes) (max : Nat) :
    (∃ h, check s max = .ok h) ∨ (∃ n, check s max = .err (.InsufficientBytes n))
      ∨ check s max = .err .MalformedRemainingLength
      ∨ ∃ n, check s max = .err (.PayloadSizeLimitExceeded n) := by
  rcases check_total s max with h | ⟨e, h⟩
  · exact .inl h
  · rcases check_err_cases max h with ⟨n, rfl⟩ | rfl | ⟨n, rfl⟩
    · exact .inr (.inl ⟨n, h⟩)
    · exact .inr (.inr (.inl h))
    · exact .inr (.inr (.inr ⟨n, h⟩))

example : check [0x30, 0x02, 9, 8, 7] 10 = .ok ⟨0x30, 2, 2⟩ := by decide
example : check [0x30, 0x82, 0x01, 7] 1000 = .err (.InsufficientBytes 129) := by decide
example : check [0x30, 0x82, 0x01] 100 = .err (.PayloadSizeLimitExceeded 130) := by decide
example : check [0x30, 0xff, 0xff, 0xff, 0xff] 100 = .err .MalformedRemainingLength := by decide

/-! ### C04 -/

/-- C04: `InsufficientBytes(n)`: `n ≥ 1`, and with fewer than `n` further bytes `check` still says
`InsufficientBytes`. -/
theorem C04_insufficient_sound (s : Bytes) (max n : Nat)
    (h : check s max = .err (.InsufficientBytes n)) :
    1 ≤ n ∧ ∀ t : Bytes, t.length < n → ∃ m, check (s ++ t) max = .err (.InsufficientBytes m) := by
  rcases (check_insufficient_iff max s n).1 h with
    ⟨rfl, rfl⟩ | ⟨b1, t, rfl, h1, h2, rfl⟩ | ⟨b1, bs, t, rfl, hv, hm, ht, rfl⟩
  · refine ⟨by omega, fun t ht => ?_⟩
    match t with
    | [] => exact ⟨2, rfl⟩
    | [b] => exact ⟨1, rfl⟩
    | a :: b :: t => simp at ht; omega
  · refine ⟨by omega, fun t' ht => ⟨1, ?_⟩⟩
    have : t' = [] := List.eq_nil_of_length_eq_zero (by omega)
    subst this
    simpa using h
  · refine ⟨by omega, fun t' ht' => ⟨vbiValue bs - (t ++ t').length, ?_⟩⟩
    refine (check_insufficient_iff max _ _).2 (.inr (.inr ⟨b1, bs, t ++ t', by simp, hv, hm, ?_, rfl⟩))
    simp only [List.length_append]; omega

example : check [0x30, 0x05, 1] 10 = .err (.InsufficientBytes 4) := by decide

/-! ### C05 -/

/-- C05: every verdict other than `InsufficientBytes` is the same on all extensions of the stream. -/
theorem C05_verdict_stable (s t : Bytes) (max : Nat) :
    (∀ h, check s max = .ok h → check (s ++ t) max = .ok h) ∧
    (check s max = .err .MalformedRemainingLength →
      check (s ++ t) max = .err .MalformedRemainingLength) ∧
    (∀ n, check s max = .err (.PayloadSizeLimitExceeded n) →
      check (s ++ t) max = .err (.PayloadSizeLimitExceeded n)) :=
  ⟨fun _ h => check_ok_append max h t,
   fun h => check_fatal_append max h (by intro n; simp) t,
   fun _ h => check_fatal_append max h (by intro n; simp) t⟩

example : check [0x30, 0x01, 5] 10 = .ok ⟨0x30, 2, 1⟩ ∧ check [0x30, 0x01, 5, 9] 10 = .ok ⟨0x30, 2, 1⟩ := by
  decide

/-! ### C06 -/

/-- generic part of C06 -/
theorem limit_generic {P : Type} (rf : FixedHeader → Bytes → Res P) (max : Nat) (b1 : UInt8)
    (bs rest : Bytes) (hv : IsVbi bs) (hm : max < vbiValue bs) :
    readG rf max (b1 :: (bs ++ rest))
      = (.err (.PayloadSizeLimitExceeded (vbiValue bs)), b1 :: (bs ++ rest)) :=
  readG_err rf max ((check_limit_iff max _ _).2 ⟨b1, bs, rest, rfl, hv, rfl, hm⟩)

theorem limit_generic_ok {P : Type} (rf : FixedHeader → Bytes → Res P) (max : Nat) (s s' : Bytes)
    (p : P) (h : readG rf max s = (.ok p, s')) :
    ∃ b1 bs bd, s = b1 :: (bs ++ (bd ++ s')) ∧ IsVbi bs ∧ vbiValue bs = bd.length ∧ bd.length ≤ max := by
  obtain ⟨hd, hc⟩ := (readG_shrink rf max h).2
  rw [readG_ok rf max hc] at h
  obtain ⟨b1, bs, rest, rfl, hv, hm, hr, rfl⟩ := (check_ok_iff _ _ _).1 hc
  obtain ⟨_, rfl⟩ := Prod.mk.inj h
  have e : b1 :: (bs ++ rest)
      = ((b1 :: bs) ++ rest.take (vbiValue bs)) ++ rest.drop (vbiValue bs) := by
    simp [List.append_assoc]
  refine ⟨b1, bs, rest.take (vbiValue bs), ?_, hv, by simp; omega, by simp; omega⟩
  rw [e, List.drop_left' (by simp [FixedHeader.frame_length]; omega)]
  simp

/-- C06 (v4): a header announcing more than the limit is reported at once and nothing is consumed. -/
theorem C06_v4_limit_first (max : Nat) (b1 : UInt8) (bs rest : Bytes) (hv : IsVbi bs)
    (hm : max < vbiValue bs) :
    V4.read max (b1 :: (bs ++ rest))
      = (.err (.PayloadSizeLimitExceeded (vbiValue bs)), b1 :: (bs ++ rest)) :=
  v4_read_eq max ▸ limit_generic V4.readFrame max b1 bs rest hv hm

/-- C06 (v4): a packet returned by `read` came from a frame whose remaining length is within the limit. -/
theorem C06_v4_limit_enforced (max : Nat) (s s' : Bytes) (p : V4.Packet)
    (h : V4.read max s = (.ok p, s')) :
    ∃ b1 bs bd, s = b1 :: (bs ++ (bd ++ s')) ∧ IsVbi bs ∧ vbiValue bs = bd.length ∧ bd.length ≤ max :=
  limit_generic_ok V4.readFrame max s s' p (v4_read_eq max ▸ h)

example : ∃ b1 bs bd, ([0x30, 0x83, 0x00, 0, 1, 97, 7] : Bytes) = b1 :: (bs ++ (bd ++ [7])) ∧ IsVbi bs
    ∧ vbiValue bs = bd.length ∧ bd.length ≤ 3 :=
  C06_v4_limit_enforced 3 _ [7] (.Publish ⟨false, .AtMostOnce, false, "a", 0, []⟩) (by decide +kernel)


/-- C06 (v5): as for v4 -/
theorem C06_v5_limit_first (max : Nat) (b1 : UInt8) (bs rest : Bytes) (hv : IsVbi bs)
    (hm : max < vbiValue bs) :
    V5.read max (b1 :: (bs ++ rest))
      = (.err (.PayloadSizeLimitExceeded (vbiValue bs)), b1 :: (bs ++ rest)) :=
  v5_read_eq max ▸ limit_generic V5.readFrame max b1 bs rest hv hm

/-- C06 (v5): as for v4 -/
theorem C06_v5_limit_enforced (max : Nat) (s s' : Bytes) (p : V5.Packet)
    (h : V5.read max s = (.ok p, s')) :
    ∃ b1 bs bd, s = b1 :: (bs ++ (bd ++ s')) ∧ IsVbi bs ∧ vbiValue bs = bd.length ∧ bd.length ≤ max :=
  limit_generic_ok V5.readFrame max s s' p (v5_read_eq max ▸ h)

example : V4.read 10 [0x30, 0x0b] = (.err (.PayloadSizeLimitExceeded 11), [0x30, 0x0b]) := by
  decide +kernel
example : V5.read 10 [0x30, 0x8b, 0x01, 7] = (.err (.PayloadSizeLimitExceeded 139), [0x30, 0x8b, 0x01, 7]) :=
  C06_v5_limit_first 10 0x30 [0x8b, 0x01] [7] ⟨by decide, [0x8b], 1, rfl, by decide, by decide⟩ (by decide)

/-! ### C09, C10 -/

/-- generic part of C09/C10 -/
theorem one_frame_generic {P : Type} (rf : FixedHeader → Bytes → Res P) (max : Nat) :
    (∀ (b1 : UInt8) (bs bd : Bytes), IsVbi bs → vbiValue bs = bd.length → bd.length ≤ max →
      ∃ r : Res P, ∀ rest, readG rf max (b1 :: (bs ++ (bd ++ rest))) = (r, rest)) ∧
    (∀ (s : Bytes) (e : Error), check s max = .err e → readG rf max s = (.err e, s)) := by
  refine ⟨fun b1 bs bd hv hl hm => ?_, fun s e h => readG_err rf max h⟩
  refine ⟨rf ⟨b1, bs.length + 1, bd.length⟩ (b1 :: (bs ++ bd)), fun rest => ?_⟩
  have hc := check_frame b1 bs (bd ++ rest) max hv (by omega) (by simp; omega)
  rw [readG_ok rf max hc]
  have e : b1 :: (bs ++ (bd ++ rest)) = (b1 :: (bs ++ bd)) ++ rest := by simp
  simp only [FixedHeader.frame_length]
  rw [e, List.take_left' (by simp; omega), List.drop_left' (by simp; omega), hl]

/-- C09: when the stream starts with a complete frame within the limit, `v4::read` removes exactly
that frame, whatever the result, and the result does not depend on the bytes that follow; when
framing fails, `v4::read` reports that error and removes nothing.  (`C03` says when framing
succeeds.) -/
theorem C09_v4_one_frame (max : Nat) :
    (∀ (b1 : UInt8) (bs bd : Bytes), IsVbi bs → vbiValue bs = bd.length → bd.length ≤ max →
      ∃ r : Res V4.Packet, ∀ rest, V4.read max (b1 :: (bs ++ (bd ++ rest))) = (r, rest)) ∧
    (∀ (s : Bytes) (e : Error), check s max = .err e → V4.read max s = (.err e, s)) :=
  v4_read_eq max ▸ one_frame_generic V4.readFrame max

/-- C10: the same for `v5::read` -/
theorem C10_v5_one_frame (max : Nat) :
    (∀ (b1 : UInt8) (bs bd : Bytes), IsVbi bs → vbiValue bs = bd.length → bd.length ≤ max →
      ∃ r : Res V5.Packet, ∀ rest, V5.read max (b1 :: (bs ++ (bd ++ rest))) = (r, rest)) ∧
    (∀ (s : Bytes) (e : Error), check s max = .err e → V5.read max s = (.err e, s)) :=
  v5_read_eq max ▸ one_frame_generic V5.readFrame max

-- a bad frame (QoS 3) is removed whole as well
example : V4.read 10 [0x36, 0x03, 0x00, 0x01, 0x61, 1, 2] = (.err (.InvalidQoS 3), [1, 2]) := by
  decide +kernel
example : V5.read 10 [0x36, 0x03, 0x00, 0x01, 0x61, 1, 2] = (.err (.InvalidQoS 3), [1, 2]) := by
  decide +kernel

/-! ### C53 -/

theorem unknown_type_generic {P : Type} (rf : FixedHeader → Bytes → Res P) (max : Nat) (b1 : UInt8)
    (bs bd rest : Bytes) (hv : IsVbi bs) (hl : vbiValue bs = bd.length) (hm : bd.length ≤ max)
    (hrf : ∀ h f n, h.packet_type = .err (.InvalidPacketType n) → rf h f = .err (.InvalidPacketType n))
    (ht : b1.toNat / 16 = 0 ∨ b1.toNat / 16 = 15) :
    readG rf max (b1 :: (bs ++ (bd ++ rest)))
      = (.err (.InvalidPacketType (UInt8.ofNat (b1.toNat / 16))), rest) := by
  have hc := check_frame b1 bs (bd ++ rest) max hv (by omega) (by simp; omega)
  rw [readG_ok rf max hc]
  have e : b1 :: (bs ++ (bd ++ rest)) = (b1 :: (bs ++ bd)) ++ rest := by simp
  simp only [FixedHeader.frame_length]
  rw [e, List.drop_left' (by simp; omega)]
  rcases packet_type_cases ⟨b1, bs.length + 1, vbiValue bs⟩ with ⟨t, h⟩ | ⟨_, h⟩
  · rw [packet_type_ok_iff] at h
    cases t <;> simp [PacketType.toU8] at h <;> omega
  · rw [hrf _ _ _ h]

/-- C53 (v4): a complete frame of reserved type 0 or 15 gives `InvalidPacketType` and is removed whole. -/
theorem C53_v4_unknown_type (max : Nat) (b1 : UInt8) (bs bd rest : Bytes) (hv : IsVbi bs)
    (hl : vbiValue bs = bd.length) (hm : bd.length ≤ max)
    (ht : b1.toNat / 16 = 0 ∨ b1.toNat / 16 = 15) :
    V4.read max (b1 :: (bs ++ (bd ++ rest)))
      = (.err (.InvalidPacketType (UInt8.ofNat (b1.toNat / 16))), rest) := by
  rw [v4_read_eq]
  refine unknown_type_generic _ max b1 bs bd rest hv hl hm ?_ ht
  intro h f n e
  simp [V4.readFrame, e]

/-- hypotheses met -/
example : V4.read 9 [0xF3, 2, 7, 8, 0xC0, 0] = (.err (.InvalidPacketType 15), [0xC0, 0]) :=
  C53_v4_unknown_type 9 0xF3 [2] [7, 8] [0xC0, 0] ⟨by decide, [], 2, rfl, by decide, by simp⟩ rfl (by decide) (.inr rfl)


/-- C53 (v5): as for v4 -/
theorem C53_v5_unknown_type (max : Nat) (b1 : UInt8) (bs bd rest : Bytes) (hv : IsVbi bs)
    (hl : vbiValue bs = bd.length) (hm : bd.length ≤ max)
    (ht : b1.toNat / 16 = 0 ∨ b1.toNat / 16 = 15) :
    V5.read max (b1 :: (bs ++ (bd ++ rest)))
      = (.err (.InvalidPacketType (UInt8.ofNat (b1.toNat / 16))), rest) := by
  rw [v5_read_eq]
  refine unknown_type_generic _ max b1 bs bd rest hv hl hm ?_ ht
  intro h f n e
  simp [V5.readFrame, e]

example : V4.read 10 [0xf3, 0x02, 8, 9, 7] = (.err (.InvalidPacketType 15), [7]) := by decide +kernel
example : V5.read 10 [0x05, 0x00, 7] = (.err (.InvalidPacketType 0), [7]) := by decide +kernel

end Props
