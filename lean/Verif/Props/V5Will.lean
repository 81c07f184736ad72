import Verif.Proof.V5Errors
/-! C55 for v5: inconsistent will flags. -/
namespace Props
open Mqtt Spec

/-- C55 (v5): a CONNECT frame whose connect flags have will QoS or will retain set but not the will flag is
rejected with `IncorrectPacketFormat`, whatever its properties and whatever follows the client id. -/
theorem C55_v5_will_bits_without_will (max : Nat) (b1 flags : UInt8) (bs tail rest sec : Bytes) (ps : Option (List Spec.V5.Property))
    (ka : UInt16) (cid : String) (bd : Bytes) (hb1 : b1.toNat / 16 = 1) (hv : IsVbi bs) (hl : vbiValue bs = bd.length)
    (hm : bd.length ≤ max) (hc : (utf8 cid).length ≤ 65535) (hsec : Spec.V5.SecDenotes Spec.V5.connectKind sec ps)
    (hbd : bd = str "MQTT" ++ [5] ++ [flags] ++ Spec.u16 ka.toNat ++ sec ++ str cid ++ tail)
    (h0 : ¬ Spec.V4.bit flags 2)
    (h1 : Spec.V4.bit flags 3 ∨ Spec.V4.bit flags 4 ∨ Spec.V4.bit flags 5) :
    V5.read max (b1 :: (bs ++ (bd ++ rest))) = (.err .IncorrectPacketFormat, rest) := by
  rw [V5.read_err_iff]
  refine .inr ⟨b1, bs, bd, rfl, hv, hl, hm, ?_⟩
  have hne : bd ≠ [] := by rw [hbd]; simp [str, Spec.u16]
  simp only [Spec.V5.Rejects, Spec.V4.typeNum, hb1, if_neg hne]
  rw [hbd]
  exact .will (.inr rfl) ka.toNat_lt (by rw [Spec.V5.ConnSec, if_pos rfl]; exact ⟨ps, hsec⟩) hc (.stray h0 h1)

/-- C55 (v5): a CONNECT frame with the will flag and will QoS 3 is rejected with `InvalidQoS(3)`. -/
theorem C55_v5_will_qos3 (max : Nat) (b1 flags : UInt8) (bs tail rest sec wsec : Bytes) (ps ws : Option (List Spec.V5.Property))
    (ka : UInt16) (cid wt : String) (wm bd : Bytes) (hb1 : b1.toNat / 16 = 1) (hv : IsVbi bs)
    (hl : vbiValue bs = bd.length) (hm : bd.length ≤ max) (hc : (utf8 cid).length ≤ 65535)
    (hsec : Spec.V5.SecDenotes Spec.V5.connectKind sec ps) (hws : Spec.V5.SecDenotes Spec.V5.willKind wsec ws)
    (hwt : (utf8 wt).length ≤ 65535) (hwm : wm.length ≤ 65535)
    (hbd : bd = str "MQTT" ++ [5] ++ [flags] ++ Spec.u16 ka.toNat ++ sec ++ str cid
      ++ (wsec ++ str wt ++ bin wm ++ tail))
    (h0 : Spec.V4.bit flags 2) (h1 : Spec.V4.bit flags 3) (h2 : Spec.V4.bit flags 4) :
    V5.read max (b1 :: (bs ++ (bd ++ rest))) = (.err (.InvalidQoS 3), rest) := by
  rw [V5.read_err_iff]
  refine .inr ⟨b1, bs, bd, rfl, hv, hl, hm, ?_⟩
  have hne : bd ≠ [] := by rw [hbd]; simp [str, Spec.u16]
  simp only [Spec.V5.Rejects, Spec.V4.typeNum, hb1, if_neg hne]
  rw [hbd]
  refine .will (.inr rfl) ka.toNat_lt (by rw [Spec.V5.ConnSec, if_pos rfl]; exact ⟨ps, hsec⟩) hc (.qos h0 hws hwt hwm ?_)
  exact (forall_u8 (P := fun f => Spec.V4.bit f 3 → Spec.V4.bit f 4 → f.toNat / 8 % 4 = 3) (by decide +kernel)) flags h1 h2

/-- C55 (v5): the same for a CONNECT frame of protocol level 4, which has no properties of its own. -/
theorem C55_v5_level4_will_bits_without_will (max : Nat) (b1 flags : UInt8) (bs tail rest : Bytes)
    (ka : UInt16) (cid : String) (bd : Bytes) (hb1 : b1.toNat / 16 = 1) (hv : IsVbi bs) (hl : vbiValue bs = bd.length)
    (hm : bd.length ≤ max) (hc : (utf8 cid).length ≤ 65535)
    (hbd : bd = str "MQTT" ++ [4] ++ [flags] ++ Spec.u16 ka.toNat ++ str cid ++ tail)
    (h0 : ¬ Spec.V4.bit flags 2)
    (h1 : Spec.V4.bit flags 3 ∨ Spec.V4.bit flags 4 ∨ Spec.V4.bit flags 5) :
    V5.read max (b1 :: (bs ++ (bd ++ rest))) = (.err .IncorrectPacketFormat, rest) := by
  rw [V5.read_err_iff]
  refine .inr ⟨b1, bs, bd, rfl, hv, hl, hm, ?_⟩
  have hne : bd ≠ [] := by rw [hbd]; simp [str, Spec.u16]
  simp only [Spec.V5.Rejects, Spec.V4.typeNum, hb1, if_neg hne]
  have hs : Spec.V5.ConnSec 4 [] := by rw [Spec.V5.ConnSec, if_neg (by decide)]
  have h := Spec.V5.ConnectFails.will (t := tail) (f := flags) (id := cid) (.inl rfl) ka.toNat_lt hs hc (.stray h0 h1)
  rw [List.append_nil] at h
  rw [hbd]
  exact h

/-- C55 (v5): will QoS 3 in a CONNECT frame of protocol level 4, whose will (read as MQTT 5) has a property section. -/
theorem C55_v5_level4_will_qos3 (max : Nat) (b1 flags : UInt8) (bs tail rest wsec : Bytes) (ws : Option (List Spec.V5.Property))
    (ka : UInt16) (cid wt : String) (wm bd : Bytes) (hb1 : b1.toNat / 16 = 1) (hv : IsVbi bs)
    (hl : vbiValue bs = bd.length) (hm : bd.length ≤ max) (hc : (utf8 cid).length ≤ 65535)
    (hws : Spec.V5.SecDenotes Spec.V5.willKind wsec ws)
    (hwt : (utf8 wt).length ≤ 65535) (hwm : wm.length ≤ 65535)
    (hbd : bd = str "MQTT" ++ [4] ++ [flags] ++ Spec.u16 ka.toNat ++ str cid ++ (wsec ++ str wt ++ bin wm ++ tail))
    (h0 : Spec.V4.bit flags 2) (h1 : Spec.V4.bit flags 3) (h2 : Spec.V4.bit flags 4) :
    V5.read max (b1 :: (bs ++ (bd ++ rest))) = (.err (.InvalidQoS 3), rest) := by
  rw [V5.read_err_iff]
  refine .inr ⟨b1, bs, bd, rfl, hv, hl, hm, ?_⟩
  have hne : bd ≠ [] := by rw [hbd]; simp [str, Spec.u16]
  simp only [Spec.V5.Rejects, Spec.V4.typeNum, hb1, if_neg hne]
  have hs : Spec.V5.ConnSec 4 [] := by rw [Spec.V5.ConnSec, if_neg (by decide)]
  have hq := (forall_u8 (P := fun f => Spec.V4.bit f 3 → Spec.V4.bit f 4 → f.toNat / 8 % 4 = 3) (by decide +kernel)) flags h1 h2
  have h := Spec.V5.ConnectFails.will (f := flags) (id := cid) (.inl rfl) ka.toNat_lt hs hc
    (.qos (t := tail) h0 hws hwt hwm hq)
  rw [List.append_nil] at h
  rw [hbd]
  exact h

-- the hypotheses hold for these frames (no properties; receive maximum 2)
example : V5.read 99 [16, 15, 0, 4, 77, 81, 84, 84, 5, 0x22, 0, 10, 0, 0, 2, 105, 100, 9] = (.err .IncorrectPacketFormat, [9]) :=
  C55_v5_will_bits_without_will 99 16 0x22 [15] [] [9] [0] none 10 "id" [0, 4, 77, 81, 84, 84, 5, 0x22, 0, 10, 0, 0, 2, 105, 100] rfl ((isVbi_singleton 15).2 (by decide))
    rfl (by decide) (by decide +kernel) ⟨(isVbi_singleton 0).2 (by decide), rfl⟩ (by decide +kernel) (by decide) (by decide)
example : V5.read 99 [16, 21, 0, 4, 77, 81, 84, 84, 5, 0x1e, 0, 10, 0, 0, 1, 105, 0, 0, 1, 97, 0, 1, 8, 9] = (.err (.InvalidQoS 3), [9]) :=
  C55_v5_will_qos3 99 16 0x1e [21] [] [9] [0] [0] none none 10 "i" "a" [8] [0, 4, 77, 81, 84, 84, 5, 0x1e, 0, 10, 0, 0, 1, 105, 0, 0, 1, 97, 0, 1, 8] rfl ((isVbi_singleton 21).2 (by decide))
    rfl (by decide) (by decide +kernel) ⟨(isVbi_singleton 0).2 (by decide), rfl⟩ ⟨(isVbi_singleton 0).2 (by decide), rfl⟩
    (by decide +kernel) (by decide) (by decide +kernel) (by decide) (by decide) (by decide)
example : V5.read 99 [16, 14, 0, 4, 77, 81, 84, 84, 4, 0x22, 0, 10, 0, 2, 105, 100, 9] = (.err .IncorrectPacketFormat, [9]) :=
  C55_v5_level4_will_bits_without_will 99 16 0x22 [14] [] [9] 10 "id" [0, 4, 77, 81, 84, 84, 4, 0x22, 0, 10, 0, 2, 105, 100] rfl
    ((isVbi_singleton 14).2 (by decide)) rfl (by decide) (by decide +kernel) (by decide +kernel) (by decide) (by decide)
example : V5.read 99 [16, 20, 0, 4, 77, 81, 84, 84, 4, 0x1e, 0, 10, 0, 1, 105, 0, 0, 1, 97, 0, 1, 8, 9] = (.err (.InvalidQoS 3), [9]) :=
  C55_v5_level4_will_qos3 99 16 0x1e [20] [] [9] [0] none 10 "i" "a" [8] [0, 4, 77, 81, 84, 84, 4, 0x1e, 0, 10, 0, 1, 105, 0, 0, 1, 97, 0, 1, 8] rfl
    ((isVbi_singleton 20).2 (by decide)) rfl (by decide) (by decide +kernel) ⟨(isVbi_singleton 0).2 (by decide), rfl⟩
    (by decide +kernel) (by decide) (by decide +kernel) (by decide) (by decide) (by decide)

end Props
