import Verif.Spec.Terms
import Verif.Props.InStep
import Verif.Props.Client
import Verif.Props.Framing
import Verif.Proof.Grow
/-! C111: the size limit of the readers counts the bytes after the fixed header, MQTT 5's Maximum Packet Size counts
the whole packet (3.1.2.11.4).  Which limit to pass so that exactly the packets of at most `M` bytes in total are
admitted. -/
namespace Props
open Mqtt Spec

theorem frame_length_eq (b1 : Nat) (bd : Bytes) :
    (frame b1 bd).length = 1 + (vbi bd.length).length + bd.length := by
  simp [frame, u8]; omega

theorem limitFor_iff (M : Nat) (hM : 2 ≤ M) (b1 : Nat) (bd : Bytes) :
    bd.length ≤ limitFor M ↔ (frame b1 bd).length ≤ M := by
  rw [frame_length_eq, vbi_length_eq]
  unfold limitFor
  split_ifs <;> omega

theorem frame_admitted (b1 : Nat) (bd rest : Bytes) (m : Nat) (hb : bd.length ≤ maxRemaining) (hm : bd.length ≤ m) :
    ∃ h, check (frame b1 bd ++ rest) m = .ok h :=
  ⟨_, (C03_check_ok_iff _ m _).2 ⟨UInt8.ofNat b1, vbi bd.length, bd ++ rest, by simp [frame, u8],
    vbi_isVbi hb, by rw [vbiValue_vbi hb]; exact hm, by rw [vbiValue_vbi hb]; simp, rfl⟩⟩

/-- C111: with limit `m` a header of at most 5 bytes is admitted in addition: no packet `check` admits has more than
`m + 5` bytes in total, and that many are possible. -/
theorem C111_total_size (s : Bytes) (m : Nat) (h : FixedHeader) (hc : check s m = .ok h) :
    h.frame_length ≤ m + 5 := by
  obtain ⟨b1, bs, rest, -, hv, hm, -, rfl⟩ := (C03_check_ok_iff s m h).1 hc
  have := hv.1
  simp only [FixedHeader.frame_length]
  omega

/-- the bound is attained: a PINGREQ with a remaining length of 0 spelled in four bytes -/
example : check [0xC0, 0x80, 0x80, 0x80, 0x00] 0 = .ok ⟨0xC0, 5, 0⟩ ∧ (⟨0xC0, 5, 0⟩ : FixedHeader).frame_length = 0 + 5 := by
  decide +kernel

/-- C111: giving `M` itself as the limit never refuses a packet of at most `M` bytes in total for its size. -/
theorem C111_generous (s : Bytes) (M k : Nat) (hc : check s M = .err (.PayloadSizeLimitExceeded k)) :
    ∀ b1 bs bd rest, s = b1 :: (bs ++ (bd ++ rest)) → IsVbi bs → vbiValue bs = bd.length →
      M < (b1 :: (bs ++ bd)).length := by
  intro b1 bs bd rest hs hv hl
  by_cases h : bd.length ≤ M
  · have := (C03_check_ok_iff s M _).2 ⟨b1, bs, bd ++ rest, hs, hv, by omega, by simp; omega, rfl⟩
    rw [hc] at this; cases this
  · simp; omega

/-- C111 (v4): a reader with limit `limitFor M` treats a packet that was written (with anything after it) exactly
like a reader with any larger limit if the packet has at most `M` bytes in total, and otherwise refuses it with
`PayloadSizeLimitExceeded`, leaving the stream as it is. -/
theorem C111_v4_maximum_packet_size (M : Nat) (hM : 2 ≤ M) (p : V4.Packet) (n : Nat) (out rest : Bytes)
    (hw : p.write [] = (.ok n, out)) :
    (out.length ≤ M → ∀ m', limitFor M ≤ m' → V4.read (limitFor M) (out ++ rest) = V4.read m' (out ++ rest)) ∧
    (M < out.length → ∃ k, V4.read (limitFor M) (out ++ rest)
      = (.err (.PayloadSizeLimitExceeded k), out ++ rest)) := by
  obtain ⟨h0, h1, h2⟩ := v4_written_key p n (by rw [hw])
  rw [← h0, hw] at h2
  simp only [Spec.V4.encode] at h2
  subst h2
  rw [← limitFor_iff M hM]
  constructor
  · intro hl m' hm'
    rcases C66_v4_limit_only_gates _ m' hm' (frame (Spec.V4.byte1 p) (Spec.V4.body p) ++ rest)
      with e | ⟨b1, bs, t, e1, e2, e3, -⟩
    · exact e
    · obtain ⟨h, hc⟩ := frame_admitted (Spec.V4.byte1 p) (Spec.V4.body p) rest _ h1 hl
      have := (C03_check_limit_iff _ (limitFor M) _).2 ⟨b1, bs, t, e1, e2, rfl, e3⟩
      rw [hc] at this; cases this
  · intro hl
    have hl : limitFor M < (Spec.V4.body p).length := by
      have := limitFor_iff M hM (Spec.V4.byte1 p) (Spec.V4.body p); omega
    have := C06_v4_limit_first (limitFor M) (UInt8.ofNat (Spec.V4.byte1 p)) (vbi (Spec.V4.body p).length)
      (Spec.V4.body p ++ rest) (vbi_isVbi h1) (by rw [vbiValue_vbi h1]; exact hl)
    exact ⟨_, by simpa [frame, u8] using this⟩

/-- C111 (v5) -/
theorem C111_v5_maximum_packet_size (M : Nat) (hM : 2 ≤ M) (p : V5.Packet) (n : Nat) (out rest : Bytes)
    (hw : p.write [] = (.ok n, out)) :
    (out.length ≤ M → ∀ m', limitFor M ≤ m' → V5.read (limitFor M) (out ++ rest) = V5.read m' (out ++ rest)) ∧
    (M < out.length → ∃ k, V5.read (limitFor M) (out ++ rest)
      = (.err (.PayloadSizeLimitExceeded k), out ++ rest)) := by
  obtain ⟨h0, h1, h2⟩ := v5_written_key p n (by rw [hw])
  rw [← h0, hw] at h2
  simp only at h2
  subst h2
  rw [← limitFor_iff M hM]
  constructor
  · intro hl m' hm'
    rcases C66_v5_limit_only_gates _ m' hm' (frame (Spec.V5.byte1 p) (Spec.V5.wireBody p) ++ rest)
      with e | ⟨b1, bs, t, e1, e2, e3, -⟩
    · exact e
    · obtain ⟨h, hc⟩ := frame_admitted (Spec.V5.byte1 p) (Spec.V5.wireBody p) rest _ h1 hl
      have := (C03_check_limit_iff _ (limitFor M) _).2 ⟨b1, bs, t, e1, e2, rfl, e3⟩
      rw [hc] at this; cases this
  · intro hl
    have hl : limitFor M < (Spec.V5.wireBody p).length := by
      have := limitFor_iff M hM (Spec.V5.byte1 p) (Spec.V5.wireBody p); omega
    have := C06_v5_limit_first (limitFor M) (UInt8.ofNat (Spec.V5.byte1 p)) (vbi (Spec.V5.wireBody p).length)
      (Spec.V5.wireBody p ++ rest) (vbi_isVbi h1) (by rw [vbiValue_vbi h1]; exact hl)
    exact ⟨_, by simpa [frame, u8] using this⟩

/-- a PUBLISH of 131 bytes in total (remaining length 128): Maximum Packet Size 130 refuses it, 131 admits it -/
def big : V4.Packet := .Publish ⟨false, .AtMostOnce, false, "a", 0, List.replicate 125 0⟩

example : (big.write []).2.length = 131 ∧ limitFor 130 = 127 ∧ limitFor 131 = 128
    ∧ (V4.read (limitFor 130) (big.write []).2).1 = .err (.PayloadSizeLimitExceeded 128)
    ∧ V4.read (limitFor 131) (big.write []).2 = (.ok big, []) := by decide +kernel

example : V4.read (limitFor 131) ((big.write []).2 ++ [0xC0]) = V4.read 1000 ((big.write []).2 ++ [0xC0]) :=
  (C111_v4_maximum_packet_size 131 (by decide) big 131 (big.write []).2 [0xC0] (by decide +kernel)).1
    (by decide +kernel) 1000 (by decide)

example : ∃ k, V5.read (limitFor 3) ([0x40, 2, 0, 7] ++ []) = (.err (.PayloadSizeLimitExceeded k), [0x40, 2, 0, 7] ++ []) :=
  (C111_v5_maximum_packet_size 3 (by decide) (.PubAck ⟨7, .Success, none⟩) 4 [0x40, 2, 0, 7] [] (by decide +kernel)).2
    (by decide)

example : 1 < ([0x40, 2, 0, 7] : Bytes).length :=
  C111_generous [0x40, 2, 0, 7] 1 2 (by decide +kernel) 0x40 [2] [0, 7] [] rfl ⟨by decide, [], 2, rfl, by decide, by simp⟩
    (by decide)

end Props
