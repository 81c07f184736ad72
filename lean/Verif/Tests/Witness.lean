import Verif.Props.Build2
import Verif.Props.Client
import Verif.Props.Cross
import Verif.Props.EndToEnd
import Verif.Props.Truncate
import Verif.Props.V4Write
import Verif.Props.V5Write
import Verif.Props.V5Sections
import Verif.Props.V5Will
import Verif.Props.V4Read
/-! Instances: theorems whose hypotheses need a concrete packet to be seen to be satisfiable, applied to one. -/
namespace Tests.Witness
open Mqtt Spec Props

/-- the encodable-fields and meaningfulness hypotheses of the v5 theorems, for packets with properties: shown
by decoding their bytes (C57) -/
def subscribe5 : V5.Subscribe := ⟨7, [⟨"a", .AtMostOnce, true, false, .Never⟩, ⟨"b/#", .ExactlyOnce, false, true, .OnNewSubscribe⟩],
  some ⟨some 300, [("k", "v")]⟩⟩
theorem subscribe5_ok : Spec.V5.FieldsFit (.Subscribe subscribe5) ∧ Spec.V5.Meaningful (.Subscribe subscribe5) :=
  have h := C57_v5_decoded_wellformed 99 (subscribe5.write []).2 [] (.Subscribe subscribe5) (by decide +kernel)
  ⟨h.1, h.2.1⟩
example := C36_v5_subscribe_roundtrip subscribe5 subscribe5_ok.1 subscribe5_ok.2 (by decide +kernel) [1]

def suback5 : V5.SubAck := ⟨7, [.QoS1, .NotAuthorized], some ⟨some "x", [("a", "b")]⟩⟩
theorem suback5_ok : Spec.V5.FieldsFit (.SubAck suback5) ∧ Spec.V5.Meaningful (.SubAck suback5) :=
  have h := C57_v5_decoded_wellformed 99 (suback5.write []).2 [] (.SubAck suback5) (by decide +kernel)
  ⟨h.1, h.2.1⟩
example := C37_v5_suback_roundtrip suback5 (by decide) suback5_ok.1 suback5_ok.2.1 (by decide +kernel) [1]

def unsuback5 : V5.UnsubAck := ⟨7, [.Success, .NoSubscriptionExisted], some ⟨some "x", []⟩⟩
theorem unsuback5_ok : Spec.V5.FieldsFit (.UnsubAck unsuback5) ∧ Spec.V5.Meaningful (.UnsubAck unsuback5) :=
  have h := C57_v5_decoded_wellformed 99 (unsuback5.write []).2 [] (.UnsubAck unsuback5) (by decide +kernel)
  ⟨h.1, h.2.1⟩
example := C37_v5_unsuback_roundtrip unsuback5 (by decide) unsuback5_ok.1 unsuback5_ok.2.1 (by decide +kernel) [1]

def connect5 : V5.Connect := ⟨.V5, 10, "x", true,
  some ⟨"w", [7], .AtLeastOnce, true, some ⟨some 5, some 1, some 9, some "c", some "r", some [6], [("a", "b")]⟩⟩,
  some ⟨"u", "p"⟩, some ⟨some 100, some 2, some 3, some 4, some 1, some 0, [("k", "v"), ("k", "w")], some "am", some [1]⟩⟩
theorem connect5_ok : Spec.V5.FieldsFit (.Connect connect5) ∧ Spec.V5.Meaningful (.Connect connect5) :=
  have h := C57_v5_decoded_wellformed 200 (connect5.write []).2 [] (.Connect connect5) (by decide +kernel)
  ⟨h.1, h.2.1⟩
example := C33_v5_connect_roundtrip connect5 connect5_ok.1 connect5_ok.2 (by decide +kernel)
example := C40_v5_connect_wire_format connect5 ⟨connect5_ok.1, connect5_ok.2, by decide +kernel⟩

def connack5 : V5.ConnAck := ⟨true, .Banned, some ⟨some 1, some 2, some 1, some 0, some 9, some "id", some 4, some "why",
  [("k", "v")], some 1, some 0, some 1, some 60, some "ri", some "sr", some "am", some [3]⟩⟩
theorem connack5_ok : Spec.V5.FieldsFit (.ConnAck connack5) ∧ Spec.V5.Meaningful (.ConnAck connack5) :=
  have h := C57_v5_decoded_wellformed 200 (connack5.write []).2 [] (.ConnAck connack5) (by decide +kernel)
  ⟨h.1, h.2.1⟩
example := C34_v5_connack_roundtrip connack5 _ rfl (connack5_ok.2 _ rfl) connack5_ok.1 (by decide +kernel) [1]

def disconnect5 : V5.Disconnect := ⟨.ServerMoved, some ⟨some 9, some "r", [("a", "b")], some "s"⟩⟩
theorem disconnect5_ok : Spec.V5.FieldsFit (.Disconnect disconnect5) ∧ Spec.V5.Meaningful (.Disconnect disconnect5) :=
  have h := C57_v5_decoded_wellformed 200 (disconnect5.write []).2 [] (.Disconnect disconnect5) (by decide +kernel)
  ⟨h.1, h.2.1⟩
example := C39_v5_disconnect_roundtrip disconnect5 _ rfl (disconnect5_ok.2 _ rfl) disconnect5_ok.1 (by decide +kernel) [1]

/-! MQTT 3.1.1 -/

def subscribe4 : V4.Subscribe := ⟨7, [⟨"a", .AtMostOnce⟩, ⟨"b/#", .ExactlyOnce⟩]⟩
theorem subscribe4_wf : Spec.V4.WF (.Subscribe subscribe4) :=
  (C29_v4_reencode 99 (subscribe4.write []).2 [] _ (by decide +kernel)).1
example := C21_v4_subscribe_roundtrip subscribe4 (by decide) subscribe4_wf.1 (by decide +kernel) [1]
example := C24_v4_wire_format (.Subscribe subscribe4) subscribe4_wf (by simp) [1]

def unsubscribe4 : V4.Unsubscribe := ⟨7, ["a", "b/#"]⟩
theorem unsubscribe4_wf : Spec.V4.WF (.Unsubscribe unsubscribe4) :=
  (C29_v4_reencode 99 (unsubscribe4.write []).2 [] _ (by decide +kernel)).1
example := C21_v4_unsubscribe_roundtrip unsubscribe4 unsubscribe4_wf.1 (by decide +kernel) [1]

def connect4 : V4.Connect := ⟨.V4, 60, "c", false, some ⟨"w", [1, 2], .ExactlyOnce, true⟩, some ⟨"", "p"⟩⟩
theorem connect4_wf : Spec.V4.WF (.Connect connect4) :=
  (C29_v4_reencode 99 (connect4.write []).2 [] _ (by decide +kernel)).1
example := C24_v4_connect_wire_format connect4 connect4_wf
example := C26_v4_connect_exact connect4 connect4_wf [1, 2, 3] _ rfl

/-- cut after five bytes -/
example : ∃ n, 1 ≤ n ∧ n ≤ 9 ∧ V4.read 99 [0x82, 12, 0, 7, 0] = (.err (.InsufficientBytes n), [0x82, 12, 0, 7, 0])
    ∧ V5.read 99 [0x82, 12, 0, 7, 0] = (.err (.InsufficientBytes n), [0x82, 12, 0, 7, 0]) :=
  C84_v4_truncated_write (.Subscribe subscribe4) 14 (by decide +kernel) 99 (by decide +kernel) [0x82, 12, 0, 7, 0]
    [1, 97, 0, 0, 3, 98, 47, 35, 2] (by decide +kernel) (by simp)
example := C84_truncated 99 0x40 [2] [0, 7] [0x40, 2] [0, 7] ((isVbi_singleton _).2 (by decide)) rfl (by decide) rfl (by simp)

/-- will QoS without a will -/
example := C55_v4_will_bits_without_will 99 0x10 [12] [] [7] .V4 0x08 10 "" _ (by decide) ((isVbi_singleton _).2 (by decide))
    (by decide +kernel) (by decide +kernel) (by decide +kernel) rfl (by decide) (by decide)
example := C55_v5_will_bits_without_will 99 0x10 0x20 [13] [] [7] [0] none 10 "" _ (by decide) ((isVbi_singleton _).2 (by decide))
    (by decide +kernel) (by decide +kernel) (by decide +kernel) ⟨(isVbi_singleton _).2 (by decide), rfl⟩ rfl (by decide) (by decide)

/-! the other version's reader (C68), limits (C66), builders (C56) -/

example := C68_v4_loses_client_id (V5.Connect.new "client") rfl rfl rfl (by decide +kernel) 99 (by decide +kernel) [1]
example := C68_v5_detects_v4 { connect4 with last_will := none } rfl
  ((C29_v4_reencode 99 ({ connect4 with last_will := none }.write []).2 [] (.Connect { connect4 with last_will := none }) (by decide +kernel)).1.1)
  (by decide +kernel) 99 [] [] _ (show V5.read 99 (({ connect4 with last_will := none }.write []).2 ++ []) = (.ok (.Connect ⟨.V4, 60, "c", false, none, some ⟨"", "p"⟩, none⟩), []) by decide +kernel)
example := C66_v4_limit_monotone 12 4000 (by decide) _ [] _ (show V4.read 12 (subscribe4.write []).2 = (.ok (.Subscribe subscribe4), []) by decide +kernel)

example := C56_v4_publish_new "a/b" .ExactlyOnce [1, 2] 77 (by decide +kernel) (by decide) (by decide +kernel) [9] _ (.inr rfl)
example := C56_v4_subscribe_new_many_roundtrip subscribe4.filters _ rfl 7 subscribe4_wf.1 (by decide +kernel) [9]
example := C56_v4_will_new "c" "w" "" "p" [1, 2] .ExactlyOnce true (by decide +kernel) (by decide +kernel) (by decide) (by decide +kernel)
  (by decide +kernel) (.inr (by decide))
example := C56_v5_will_new "c" "w" "" "p" [1, 2] .ExactlyOnce true (by decide +kernel) (by decide +kernel) (by decide) (by decide +kernel)
  (by decide +kernel) (.inr (by decide))
example := C56_suback_new 7 [.Success .AtLeastOnce, .Failure] [.QoS0, .QuotaExceeded] (by decide) (by decide) (by decide) (by decide) [1]
example := C56_v5_subscribe_new_many subscribe5.filters 9 subscribe5_ok.1.2 (by decide +kernel) [1]

/-! property sections (C42, C52, C72): the same two properties of a PUBACK in both orders -/

theorem ab_fits : (Spec.V5.Val.pair "a" "b").Fits :=
  ⟨by show (utf8 "a").length ≤ 65535; decide +kernel, by show (utf8 "b").length ≤ 65535; decide +kernel⟩
theorem x_fits : (Spec.V5.Val.str "x").Fits := by show (utf8 "x").length ≤ 65535; decide +kernel

theorem x_ab (bs : Bytes) (ps : List Spec.V5.Property) (h : Spec.V5.Props Spec.V5.reasonKind bs ps) :
    Spec.V5.Props Spec.V5.reasonKind ([31] ++ [0, 1, 120] ++ bs) (⟨31, .str "x"⟩ :: ps) :=
  .cons 31 (.str "x") _ _ _ rfl ⟨x_fits, by decide +kernel⟩ h
theorem ab_x (bs : Bytes) (ps : List Spec.V5.Property) (h : Spec.V5.Props Spec.V5.reasonKind bs ps) :
    Spec.V5.Props Spec.V5.reasonKind ([38] ++ [0, 1, 97, 0, 1, 98] ++ bs) (⟨38, .pair "a" "b"⟩ :: ps) :=
  .cons 38 (.pair "a" "b") _ _ _ rfl ⟨ab_fits, by decide +kernel⟩ h
theorem same_ab : Spec.V5.SameById [⟨31, .str "x"⟩, ⟨38, .pair "a" "b"⟩] [⟨38, .pair "a" "b"⟩, ⟨31, .str "x"⟩] := by
  intro i
  by_cases h1 : i = 31
  · subst h1; decide +kernel
  · by_cases h2 : i = 38
    · subst h2; decide +kernel
    · simp [Ne.symm h1, Ne.symm h2]
example : V5.read 99 ([0x40, 15] ++ ([0, 7, 0] ++ ([11] ++ [31, 0, 1, 120, 38, 0, 1, 97, 0, 1, 98]) ++ [] ++ [5]))
    = V5.read 99 ([0x40, 15] ++ ([0, 7, 0] ++ ([11] ++ [38, 0, 1, 97, 0, 1, 98, 31, 0, 1, 120]) ++ [] ++ [5])) :=
  C52_v5_property_order 0x40 [0, 7, 0] _ (.puback 0x40 7 .Success (by decide)) [11] [11] _ _ [] [5] [15] [15] _ _ 99
    ⟨[11], _, rfl, (isVbi_singleton _).2 (by decide), rfl, by simp, x_ab _ _ (ab_x _ _ .nil)⟩
    ⟨[11], _, rfl, (isVbi_singleton _).2 (by decide), rfl, by simp, ab_x _ _ (x_ab _ _ .nil)⟩
    same_ab (C42_readable_of_one _ (by decide)) (C42_readable_of_one _ (by decide))
    ((isVbi_singleton _).2 (by decide)) rfl ((isVbi_singleton _).2 (by decide)) rfl (by decide) (by decide)

end Tests.Witness
