import Verif.Props.Framing
import Verif.Props.SameBytes
/-! C84: truncated packets. -/
namespace Props
open Mqtt Spec

theorem check_truncated (max : Nat) (b1 : UInt8) (bs bd t u : Bytes) (hv : IsVbi bs) (hl : vbiValue bs = bd.length)
    (hm : bd.length ≤ max) (hs : b1 :: (bs ++ bd) = t ++ u) (hu : u ≠ []) :
    ∃ n, check t max = .err (.InsufficientBytes n) ∧ 1 ≤ n ∧ n ≤ u.length := by
  have hu' := List.length_pos_iff.2 hu
  have hf : check (t ++ u) max = .ok ⟨b1, bs.length + 1, vbiValue bs⟩ :=
    (check_ok_iff _ _ _).2 ⟨b1, bs, bd, hs.symm, hv, by omega, by omega, rfl⟩
  rcases C03_check_outcomes t max with ⟨h, hc⟩ | ⟨n, hn⟩ | hx | ⟨n, hx⟩
  · have h1 := check_ok_append max hc u
    rw [hf] at h1
    have h2 := (check_frame_length_le max hc).1
    injection h1 with h1
    have h3 := congrArg List.length hs
    subst h1
    simp only [FixedHeader.frame_length, List.length_cons, List.length_append] at h2 h3
    omega
  · obtain ⟨h1, h2⟩ := C04_insufficient_sound t max n hn
    refine ⟨n, hn, h1, ?_⟩
    by_cases hlt : u.length < n
    · obtain ⟨m, hm⟩ := h2 u hlt
      rw [hf] at hm; simp at hm
    · omega
  · have := check_fatal_append max hx (by intro n; simp) u
    rw [hf] at this; simp at this
  · have := check_fatal_append max hx (by intro n; simp) u
    rw [hf] at this; simp at this

/-- C84: cut a complete frame anywhere before its end: both decoders ask for more bytes, at most as many as are missing,
and leave the buffer untouched, whatever the frame contains. -/
theorem C84_truncated (max : Nat) (b1 : UInt8) (bs bd t u : Bytes) (hv : IsVbi bs) (hl : vbiValue bs = bd.length)
    (hm : bd.length ≤ max) (hs : b1 :: (bs ++ bd) = t ++ u) (hu : u ≠ []) :
    ∃ n, 1 ≤ n ∧ n ≤ u.length ∧ V4.read max t = (.err (.InsufficientBytes n), t)
      ∧ V5.read max t = (.err (.InsufficientBytes n), t) := by
  obtain ⟨n, h1, h2, h3⟩ := check_truncated max b1 bs bd t u hv hl hm hs hu
  exact ⟨n, h2, h3, by rw [v4_read_eq, readG_err _ _ h1], by rw [v5_read_eq, readG_err _ _ h1]⟩

/-- C84: in particular no part of anything that was written successfully is taken for a packet, or for an error, by
either decoder; also if fields of the packet do not fit, or have no meaning. -/
theorem C84_v4_truncated_write (p : V4.Packet) (m : Nat) (h : (p.write []).1 = .ok m) (max : Nat)
    (hm : (Spec.V4.body p).length ≤ max) (t u : Bytes) (hs : (p.write []).2 = t ++ u) (hu : u ≠ []) :
    ∃ n, 1 ≤ n ∧ n ≤ u.length ∧ V4.read max t = (.err (.InsufficientBytes n), t)
      ∧ V5.read max t = (.err (.InsufficientBytes n), t) := by
  obtain ⟨e, hx⟩ := v4_bytes_ok h
  rw [e] at hs
  exact C84_truncated max (UInt8.ofNat (Spec.V4.byte1 p)) (vbi (Spec.V4.body p).length)
    (Spec.V4.body p) t u (vbi_isVbi hx) (vbiValue_vbi hx) hm (by rw [← hs]; rfl) hu

example : ∃ n, 1 ≤ n ∧ n ≤ 3 ∧ V4.read 9 [0x30, 7, 0, 3, 97, 47] = (.err (.InsufficientBytes n), [0x30, 7, 0, 3, 97, 47])
    ∧ V5.read 9 [0x30, 7, 0, 3, 97, 47] = (.err (.InsufficientBytes n), [0x30, 7, 0, 3, 97, 47]) :=
  C84_v4_truncated_write (.Publish ⟨false, .AtMostOnce, false, "a/b", 0, [1, 2]⟩) 9 (by decide +kernel) 9 (by decide +kernel)
    [0x30, 7, 0, 3, 97, 47] [98, 1, 2] (by decide +kernel) (by simp)

/-- C84 (v5). -/
theorem C84_v5_truncated_write (p : V5.Packet) (m : Nat) (h : (p.write []).1 = .ok m) (max : Nat)
    (hm : (Spec.V5.wireBody p).length ≤ max) (t u : Bytes) (hs : (p.write []).2 = t ++ u) (hu : u ≠ []) :
    ∃ n, 1 ≤ n ∧ n ≤ u.length ∧ V4.read max t = (.err (.InsufficientBytes n), t)
      ∧ V5.read max t = (.err (.InsufficientBytes n), t) := by
  obtain ⟨e, hx⟩ := v5_bytes_ok h
  rw [e] at hs
  exact C84_truncated max (UInt8.ofNat (Spec.V5.byte1 p)) (vbi (Spec.V5.wireBody p).length)
    (Spec.V5.wireBody p) t u (vbi_isVbi hx) (vbiValue_vbi hx) hm (by rw [← hs]; rfl) hu

/-- a CONNACK without properties, which the library itself cannot read back, cut in the body -/
example : ∃ n, 1 ≤ n ∧ n ≤ 1 ∧ V4.read 9 [0x20, 2, 1] = (.err (.InsufficientBytes n), [0x20, 2, 1])
    ∧ V5.read 9 [0x20, 2, 1] = (.err (.InsufficientBytes n), [0x20, 2, 1]) :=
  C84_v5_truncated_write (.ConnAck ⟨true, .Success, none⟩) 4 (by decide +kernel) 9 (by decide +kernel)
    [0x20, 2, 1] [0] (by decide +kernel) (by simp)

/-- a PUBLISH cut in the topic, and one cut in the length bytes -/
example : V4.read 300 [0x30, 7, 0, 3] = (.err (.InsufficientBytes 5), [0x30, 7, 0, 3])
    ∧ V5.read 300 [0x30, 0x80] = (.err (.InsufficientBytes 1), [0x30, 0x80]) := by decide +kernel

end Props
