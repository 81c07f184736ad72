import Verif.Proof.Grow
import Verif.Props.V4Read
import Verif.Props.V5Read
/-! C65: a decoded packet is not larger than the bytes it came from. -/
namespace Props
open Mqtt Spec

/-- C65 (v4): the encoding of a decoded packet (which contains every string, payload and list element of
it) is not longer than the bytes `read` consumed for it; its remaining length is within the limit too. -/
theorem C65_v4_no_growth (max : Nat) (s s' : Bytes) (p : V4.Packet) (h : V4.read max s = (.ok p, s')) :
    (Spec.V4.encode p).length + s'.length ≤ s.length ∧ (Spec.V4.body p).length ≤ max := by
  obtain ⟨b1, bs, bd, rfl, hv, hl, hm, hd⟩ := (C31_v4_read_iff max s p s').1 h
  have h1 := V4.body_le hd
  have h2 : (vbi (Spec.V4.body p).length).length ≤ bs.length :=
    Nat.le_trans (V5.vbi_length_mono h1) (vbi_minimal hv hl)
  refine ⟨?_, by omega⟩
  rw [Spec.V4.encode, V4.frame_length]
  simp only [List.length_cons, List.length_append]; omega

example : (Spec.V4.encode (.PubAck ⟨7⟩)).length + 1 ≤ 8 ∧ (Spec.V4.body (.PubAck ⟨7⟩)).length ≤ 9 :=
  C65_v4_no_growth 9 [0x40, 0x84, 0x00, 0, 7, 9, 9, 1] [1] (.PubAck ⟨7⟩) (by decide +kernel)


/-- C65 (v5): a decoded packet has a body of at most the bytes of the frame body it came from plus 4.  (The
slack comes from property sections which overrun their declared length, see C42: 2 bytes each, and from
CONNECT packets of level 4, 1 byte: they are read without, but written with, property length.) -/
theorem C65_v5_growth_bounded (max : Nat) (s s' : Bytes) (p : V5.Packet) (h : V5.read max s = (.ok p, s')) :
    ∃ hdr bd, s = hdr ++ bd ++ s' ∧ 2 ≤ hdr.length ∧ hdr.length ≤ 5 ∧ bd.length ≤ max ∧
      (Spec.V5.body p).length ≤ bd.length + 4 := by
  obtain ⟨b1, bs, bd, rfl, hv, hl, hm, hd⟩ := (C60_v5_read_iff max s p s').1 h
  have h1 := V5.body_le V5.grows_dec hd
  have h2 := List.length_pos_iff.2 (isVbi_ne_nil hv)
  have h3 := hv.1
  have h4 : V5.slack 2 p ≤ 4 := by
    cases p with
    | Connect c => simp only [V5.slack]; split <;> omega
    | _ => simp [V5.slack]
  exact ⟨b1 :: bs, bd, by simp, by simp only [List.length_cons]; omega,
    by simp only [List.length_cons]; omega, hm, by omega⟩

example : ∃ hdr bd, ([0x40, 0x83, 0x00, 0, 7, 0, 1] : Bytes) = hdr ++ bd ++ [1] ∧ 2 ≤ hdr.length ∧ hdr.length ≤ 5 ∧ bd.length ≤ 9 ∧
    (Spec.V5.body (.PubAck ⟨7, .Success, none⟩)).length ≤ bd.length + 4 :=
  C65_v5_growth_bounded 9 _ [1] (.PubAck ⟨7, .Success, none⟩) (by decide +kernel)


/-- C65 (v5): a packet decoded from a frame whose property sections have the length they declare (as
MQTT 5.0 demands), other than a CONNECT of level 4, has an encoding not longer than that frame. -/
theorem C65_v5_no_growth (b1 : UInt8) (bs bd : Bytes) (p : V5.Packet) (hv : IsVbi bs) (hl : vbiValue bs = bd.length)
    (h : Spec.V5.DenotesBy Spec.V5.ExactSec b1 bd p) (hc : ∀ c, p = .Connect c → c.protocol = .V5) :
    (Spec.V5.encode p).length ≤ (b1 :: (bs ++ bd)).length := by
  have h1 := V5.body_le V5.grows_exact h
  have h4 : V5.slack 0 p = 0 := by
    cases p with
    | Connect c => simp [V5.slack, hc c rfl]
    | _ => rfl
  have h2 : (vbi (Spec.V5.body p).length).length ≤ bs.length :=
    Nat.le_trans (V5.vbi_length_mono (by omega)) (vbi_minimal hv hl)
  rw [Spec.V5.encode, V4.frame_length]
  simp only [List.length_cons, List.length_append]; omega

/-- hypotheses met: a PUBACK with an explicit empty property section -/
example : (Spec.V5.encode (.PubAck ⟨7, .Success, none⟩)).length ≤ 6 :=
  C65_v5_no_growth 0x40 [4] [0, 7, 0, 0] (.PubAck ⟨7, .Success, none⟩) ⟨by decide, [], 4, rfl, by decide, by simp⟩ rfl
    ⟨by decide, .inr (.inr ⟨[0], [], rfl, none, ⟨⟨by decide, [], 0, rfl, by decide, by simp⟩, rfl⟩, rfl⟩)⟩ (by intro c h; cases h)


/-- C65 (v5): the bound is attained, by a CONNECT with a will in which both property sections declare length 1 and
hold one property of 16387 bytes. -/
theorem C65_v5_growth_attained : ∃ (s hdr bd : Bytes) (p : V5.Packet), s = hdr ++ bd ∧ hdr.length = 4 ∧
    V5.read 40000 s = (.ok p, []) ∧ (Spec.V5.body p).length = bd.length + 4 := by
  generalize hd0 : (List.replicate 16384 0 : Bytes) = d
  have hd : d.length = 16384 := by rw [← hd0]; exact List.length_replicate
  let c : V5.Connect := ⟨.V5, 0, "", false,
    some ⟨"", [], .AtMostOnce, false, some (Spec.V5.willOf [⟨9, .bin d⟩])⟩, none,
    some (Spec.V5.connectOf [⟨22, .bin d⟩])⟩
  have hone : IsVbi [1] := ⟨by simp, [], 1, rfl, by decide, by simp⟩
  have hval : vbiValue [1] = 1 := by decide
  have hsec : ∀ (kind : Nat → Option Spec.V5.Kind) (id : UInt8), kind id.toNat = some .bin →
      Spec.V5.SecDenotes kind ([1] ++ ([id] ++ bin d ++ [])) (some [⟨id.toNat, .bin d⟩]) := by
    intro kind id hk
    refine ⟨[1], _, rfl, hone, by rw [hval]; decide, ?_⟩
    refine .more (by rw [hval]; decide) id (.bin d) (bin d) [] [] hk ⟨?_, rfl⟩ (.done ?_)
    · show d.length ≤ 65535; omega
    · simp only [Spec.V5.counted, bin_len, hval]; omega
  let bd : Bytes := str "MQTT" ++ [5] ++ [4] ++ u16 0 ++ ([1] ++ ([22] ++ bin d ++ [])) ++ str ""
    ++ (([1] ++ ([9] ++ bin d ++ [])) ++ str "" ++ bin []) ++ [] ++ []
  have hl : bd.length = 32792 := by
    simp only [bd, List.length_append, bin_len, str_len, u16_len, hd, List.length_cons, List.length_nil]
    decide +kernel
  refine ⟨0x10 :: (vbi 32792 ++ bd), 0x10 :: vbi 32792, bd, .Connect c, rfl, by decide, ?_, ?_⟩
  · refine (C60_v5_read_iff _ _ _ _).2 ⟨0x10, vbi 32792, bd, by simp, vbi_isVbi (by decide), ?_, by omega, ?_⟩
    · rw [hl]; exact vbiValue_vbi (by decide)
    · refine ⟨by decide, 4, _, _, [], [], rfl, ⟨_, hsec _ 22 rfl, rfl⟩, ?_, ?_, ?_, "", "", ?_⟩
      · show fits (utf8 "").length; decide +kernel
      · show (false = true ↔ _); decide
      · refine ⟨by decide, rfl, ?_, ?_, by show 0 ≤ 65535; decide, _, rfl, _, hsec _ 9 rfl, rfl⟩
        · show (false = true ↔ _); decide
        · show fits (utf8 "").length; decide +kernel
      · refine ⟨by decide +kernel, by decide +kernel, by simp, by simp, by decide, rfl⟩
  · have h1 : ∀ (id : Nat), (Spec.V5.sec [⟨id, .bin d⟩]).length = 16390 := by
      intro id
      have : (Spec.V5.encAll [⟨id, .bin d⟩]).length = 16387 := by
        simp [Spec.V5.encAll, Spec.V5.Property.enc, Spec.V5.Val.enc, bin_len, u8_len, hd]
      rw [Spec.V5.sec, List.length_append, this]; decide
    have h2 : Spec.V5.body (.Connect c) = str "MQTT" ++ u8 5 ++ u8 (Spec.V5.connectFlags c) ++ u16 0
      ++ Spec.V5.sec [⟨22, .bin d⟩] ++ str "" ++ (Spec.V5.sec [⟨9, .bin d⟩] ++ str "" ++ bin []) ++ [] := rfl
    rw [h2, hl]
    simp only [List.length_append, bin_len, str_len, u16_len, u8_len, h1, List.length_nil]
    decide +kernel

/-- a frame in non-minimal encoding with trailing bytes shrinks -/
example : V4.read 9 [0x40, 0x84, 0x00, 0, 7, 9, 9, 1] = (.ok (.PubAck ⟨7⟩), [1]) ∧
    Spec.V4.encode (.PubAck ⟨7⟩) = [0x40, 2, 0, 7] := by decide +kernel
/-- growth by one byte: a section that declares length 1 and holds a property of 129 bytes -/
example : (match (V5.read 999 ([0x40, 0x85, 0x01, 0, 7, 0, 1, 31, 0, 126] ++ List.replicate 126 97)).1 with
    | .ok p => (Spec.V5.body p).length
    | _ => 0) = 0x85 + 1 := by decide +kernel
end Props
