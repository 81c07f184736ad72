import Verif.Proof.Unicode
import Verif.Props.Errors
import Verif.Props.V4Read
import Verif.Props.V5Read
/-! C94: which bytes are taken for text, and which text they are taken for. -/
namespace Props
open Mqtt Spec Spec.Unicode

/-- C94: the conversion the readers use succeeds exactly for the byte strings of Unicode's table of well-formed UTF-8
and gives the string of just those code points. -/
theorem C94_from_utf8 (b : Bytes) (v : String) : fromUtf8 b = some v ↔ Decodes b (points v) := by
  rw [fromUtf8_iff, utf8_iff]

/-- C94: … and fails for all others. -/
theorem C94_from_utf8_none (b : Bytes) : fromUtf8 b = none ↔ ¬ WellFormed b := by
  rw [wellFormed_iff, Option.eq_none_iff_forall_ne_some]
  simp only [ne_eq, fromUtf8_iff, not_exists]

/-- C94: the byte strings used for strings throughout the specification of packets are these. -/
theorem C94_spec_strings (b : Bytes) (v : String) : utf8 v = b ↔ Decodes b (points v) := utf8_iff

/-- C94: the table is unambiguous, covers all scalar values, and no others (no surrogates, nothing above 10FFFF). -/
theorem C94_table (l : List Nat) :
    ((∃ b, Decodes b l) ↔ ∀ n ∈ l, Scalar n) ∧
    (∀ b b', Decodes b l → Decodes b' l → b = b') ∧
    (∀ b l', Decodes b l → Decodes b l' → l = l') := by
  refine ⟨⟨?_, fun h => ?_⟩, fun b b' h h' => ?_, fun b l' h h' => ?_⟩
  · rintro ⟨b, h⟩
    induction h with
    | nil => simp
    | cons hr _ ih =>
      intro n hn
      rcases List.mem_cons.1 hn with rfl | hn
      · exact row_scalar hr
      · exact ih n hn
  · induction l with
    | nil => exact ⟨[], .nil⟩
    | cons n l ih =>
      obtain ⟨b, hb⟩ := ih fun m hm => h m (by simp [hm])
      obtain ⟨c, rfl⟩ := char_of_scalar (h n (by simp))
      exact ⟨_, .cons (row_of_char c) hb⟩
  · obtain ⟨s, rfl, e⟩ := decodes_string h
    rw [← e, ← utf8_iff] at h'
    exact h'
  · obtain ⟨s, rfl, rfl⟩ := decodes_string h
    obtain ⟨s', e, rfl⟩ := decodes_string h'
    rw [utf8_inj.1 e]

/-! ### what that means for a reader -/

theorem publish_vbi {b x : Bytes} (h : 2 + b.length + x.length ≤ maxRemaining) :
    IsVbi (vbi (2 + b.length + x.length)) ∧
      vbiValue (vbi (2 + b.length + x.length)) = (bin b ++ x).length := by
  refine ⟨vbi_isVbi h, ?_⟩
  rw [vbiValue_vbi h]; simp [bin, u16]; omega

/-- C94 (v4): a QoS 0 PUBLISH whose topic is given by *any* bytes is accepted, with the topic of these code points, if
they are well-formed UTF-8 … -/
theorem C94_v4_topic_accepted (max : Nat) (b x rest : Bytes) (l : List Nat) (hb : b.length ≤ 65535)
    (hl : 2 + b.length + x.length ≤ 268435455) (hm : 2 + b.length + x.length ≤ max) (h : Decodes b l) :
    ∃ p, V4.read max ([0x30] ++ vbi (2 + b.length + x.length) ++ (u16 b.length ++ b ++ x) ++ rest)
        = (.ok (.Publish p), rest) ∧ points p.topic = l ∧ p.payload = x := by
  obtain ⟨v, rfl, rfl⟩ := decodes_string h
  refine ⟨⟨false, .AtMostOnce, false, v, 0, x⟩, ?_, rfl, rfl⟩
  have hv := publish_vbi (b := utf8 v) (x := x) hl
  refine (C31_v4_read_iff _ _ _ _).2 ⟨0x30, _, str v ++ x, ?_, hv.1, hv.2, ?_, ?_⟩
  · simp [str, bin]
  · rw [show (str v ++ x).length = _ from hv.2.symm, vbiValue_vbi hl]; exact hm
  · exact ⟨by simp [Spec.V4.byte1, flag, Spec.V4.qosNum], by simp [Spec.V4.body], hb, by simp⟩

/-- C94 (v4): … and refused as `TopicNotUtf8`, the frame being consumed, if they are not. -/
theorem C94_v4_topic_refused (max : Nat) (b x rest : Bytes) (hb : b.length ≤ 65535)
    (hl : 2 + b.length + x.length ≤ 268435455) (hm : 2 + b.length + x.length ≤ max) (h : ¬ WellFormed b) :
    V4.read max ([0x30] ++ vbi (2 + b.length + x.length) ++ (u16 b.length ++ b ++ x) ++ rest)
      = (.err .TopicNotUtf8, rest) := by
  have hv := publish_vbi (b := b) (x := x) hl
  refine (C61_v4_read_err_iff _ _ _ _).2 (.inr ⟨0x30, _, bin b ++ x, ?_, hv.1, hv.2, ?_, ?_⟩)
  · simp [bin]
  · rw [← hv.2, vbiValue_vbi hl]; exact hm
  · simp only [Spec.V4.Rejects, show Spec.V4.typeNum 0x30 = 3 by decide]
    rw [if_neg (by simp [bin, u16])]
    rw [wellFormed_iff] at h
    exact .topic (by decide) (.inr ⟨b, x, hb, rfl, fun v hv => h ⟨v, hv⟩, rfl⟩)

/-- C94 (v5): the same with an empty property section. -/
theorem C94_v5_topic_accepted (max : Nat) (b x rest : Bytes) (l : List Nat) (hb : b.length ≤ 65535)
    (hl : 3 + b.length + x.length ≤ 268435455) (hm : 3 + b.length + x.length ≤ max) (h : Decodes b l) :
    ∃ p, V5.read max ([0x30] ++ vbi (3 + b.length + x.length) ++ (u16 b.length ++ b ++ [0] ++ x) ++ rest)
        = (.ok (.Publish p), rest) ∧ points p.topic = l ∧ p.payload = x := by
  obtain ⟨v, rfl, rfl⟩ := decodes_string h
  refine ⟨⟨false, .AtMostOnce, false, v, 0, none, x⟩, ?_, rfl, rfl⟩
  have e : 3 + (utf8 v).length + x.length = 2 + (utf8 v).length + ([0] ++ x : Bytes).length := by simp; omega
  rw [e] at hl hm ⊢
  have hv := publish_vbi (b := utf8 v) (x := [0] ++ x) hl
  refine (C60_v5_read_iff _ _ _ _).2 ⟨0x30, _, str v ++ ([0] ++ x), ?_, hv.1, hv.2, ?_, ?_⟩
  · simp [str, bin]
  · have h2 := hv.2
    rw [vbiValue_vbi hl] at h2
    exact h2 ▸ hm
  · have hsec : Spec.V5.sec [] = [0] := by decide +kernel
    have hwf : Spec.V5.WF (.Publish ⟨false, .AtMostOnce, false, v, 0, none, x⟩) := by
      refine ⟨⟨hb, ?_⟩, ⟨?_, by simp⟩, ?_⟩
      · exact fun _ h => nomatch h
      · exact fun _ h => nomatch h
      · have h2 := hv.2
        rw [vbiValue_vbi hl] at h2
        rw [h2] at hl
        simpa [Spec.V5.body, Spec.V5.optSec, str, hsec, maxRemaining] using hl
    have := V5.wf_denotes _ hwf (by simp [Spec.V5.ReadsBack])
    simpa [Spec.V5.body, Spec.V5.optSec, hsec, Spec.V5.byte1, flag, Spec.V4.qosNum] using this

/-- C94 (v5): … and refused as `TopicNotUtf8`, whatever follows the topic. -/
theorem C94_v5_topic_refused (max : Nat) (b x rest : Bytes) (hb : b.length ≤ 65535)
    (hl : 2 + b.length + x.length ≤ 268435455) (hm : 2 + b.length + x.length ≤ max) (h : ¬ WellFormed b) :
    V5.read max ([0x30] ++ vbi (2 + b.length + x.length) ++ (u16 b.length ++ b ++ x) ++ rest)
      = (.err .TopicNotUtf8, rest) := by
  have hv := publish_vbi (b := b) (x := x) hl
  refine (C62_v5_read_err_iff _ _ _ _).2 (.inr ⟨0x30, _, bin b ++ x, ?_, hv.1, hv.2, ?_, ?_⟩)
  · simp [bin]
  · rw [← hv.2, vbiValue_vbi hl]; exact hm
  · simp only [Spec.V5.Rejects, show Spec.V4.typeNum 0x30 = 3 by decide]
    rw [if_neg (by simp [bin, u16])]
    rw [wellFormed_iff] at h
    exact .topic (by decide) (.inr ⟨b, x, hb, rfl, fun v hv => h ⟨v, hv⟩, rfl⟩)

/-! ### the error is never reported for anything else -/

theorem bad_append {t : Bytes} (pre : Bytes) (h : HoldsBadString t) : HoldsBadString (pre ++ t) := by
  obtain ⟨p, b, t, hb, rfl, hw⟩ := h
  exact ⟨pre ++ p, b, t, hb, by simp, hw⟩

theorem bad_str {s : Bytes} (h : StrFails s .TopicNotUtf8) : HoldsBadString s := by
  rcases h with (⟨_, h⟩ | ⟨_, _, _, _, _, h⟩) | ⟨b, t, hb, rfl, h, _⟩
  · cases h
  · cases h
  · exact ⟨[], b, t, hb, by simp [bin], by rw [wellFormed_iff]; rintro ⟨v, hv⟩; exact h v hv⟩

theorem not_u8 {s : Bytes} (h : U8Fails s .TopicNotUtf8) : False := nomatch h.2
theorem not_u16 {s : Bytes} (h : U16Fails s .TopicNotUtf8) : False := nomatch h.2
theorem not_u32 {s : Bytes} (h : U32Fails s .TopicNotUtf8) : False := nomatch h.2
theorem not_bin {s : Bytes} (h : BinFails s .TopicNotUtf8) : False := by
  rcases h with ⟨_, h⟩ | ⟨_, _, _, _, _, h⟩ <;> cases h
theorem not_vbi {s : Bytes} (h : VbiFails s .TopicNotUtf8) : False := by
  rcases h with ⟨_, _, h⟩ | ⟨_, _, _, _, _, h⟩ <;> cases h

theorem not_framing {max : Nat} {s : Bytes} (h : FramingFails max s .TopicNotUtf8) : False := by
  cases h with
  | length h => exact not_vbi h

theorem bad_login {f : UInt8} {s : Bytes} (h : Spec.V4.LoginFails f s .TopicNotUtf8) : HoldsBadString s := by
  cases h with
  | username _ h => exact bad_str h
  | password _ _ h => exact bad_str h
  | password' _ _ _ h => exact bad_append _ (bad_str h)

theorem v4_bad {b1 : UInt8} {bd : Bytes} (h : Spec.V4.Rejects b1 bd .TopicNotUtf8) : HoldsBadString bd := by
  unfold Spec.V4.Rejects at h
  split at h <;> (try split at h) <;> (try cases h.2) <;> (try cases h)
  all_goals first
    | exact bad_str ‹_›
    | exact bad_append _ (bad_str ‹_›)
    | exact (not_u8 ‹_›).elim
    | exact (not_u16 ‹_›).elim
    | exact bad_append _ (bad_login ‹_›)
    | skip
  rename_i h
  cases h with
  | topic _ h => exact bad_append _ (bad_str h)
  | message _ _ h => exact (not_bin h).elim

theorem bad_val {k : Spec.V5.Kind} {s : Bytes} (h : Spec.V5.ValFails k s .TopicNotUtf8) : HoldsBadString s := by
  cases h with
  | u8 h => exact (not_u8 h).elim
  | u16 h => exact (not_u16 h).elim
  | u32 h => exact (not_u32 h).elim
  | vbi h => exact (not_vbi h).elim
  | bin h => exact (not_bin h).elim
  | str h => exact bad_str h
  | name h => exact bad_str h
  | value _ h => exact bad_append _ (bad_str h)

theorem bad_sec {kind : Nat → Option Spec.V5.Kind} {s : Bytes} (h : Spec.V5.SecFails kind s .TopicNotUtf8) :
    HoldsBadString s := by
  cases h with
  | length h => exact (not_vbi h).elim
  | prop _ _ _ h =>
    cases h with
    | value _ h => exact bad_append _ (bad_append [_] (bad_val h))

theorem v5_bad {b1 : UInt8} {bd : Bytes} (h : Spec.V5.Rejects b1 bd .TopicNotUtf8) : HoldsBadString bd := by
  unfold Spec.V5.Rejects at h
  split at h <;> (try split at h) <;> (try cases h)
  all_goals first
    | exact bad_str ‹_›
    | exact bad_append _ (bad_str ‹_›)
    | exact (not_u8 ‹_›).elim
    | exact (not_u16 ‹_›).elim
    | exact bad_append _ (bad_login ‹_›)
    | exact bad_sec ‹_›
    | exact bad_append _ (bad_sec ‹_›)
    | skip
  rename_i h
  cases h with
  | props _ h => exact bad_append _ (bad_sec h)
  | topic _ _ h => exact bad_append _ (bad_append _ (bad_str h))
  | message _ _ _ h => exact (not_bin h).elim

/-- C94 (v4): `TopicNotUtf8` is reported only for a frame that holds a length and so many bytes that are not UTF-8. -/
theorem C94_v4_only_bad_strings (max : Nat) (s s' : Bytes) (h : V4.read max s = (.err .TopicNotUtf8, s')) :
    ∃ b1 bs bd, s = b1 :: (bs ++ (bd ++ s')) ∧ IsVbi bs ∧ vbiValue bs = bd.length ∧ HoldsBadString bd := by
  rcases (C61_v4_read_err_iff _ _ _ _).1 h with ⟨h, _⟩ | ⟨b1, bs, bd, h1, h2, h3, _, h⟩
  · exact (not_framing h).elim
  · exact ⟨b1, bs, bd, h1, h2, h3, v4_bad h⟩

example : ∃ b1 bs bd, ([0x30, 3, 0, 1, 0xff, 7] : Bytes) = b1 :: (bs ++ (bd ++ [7])) ∧ IsVbi bs ∧ vbiValue bs = bd.length ∧ HoldsBadString bd :=
  C94_v4_only_bad_strings 9 _ [7] (by decide +kernel)


/-- C94 (v5): the same. -/
theorem C94_v5_only_bad_strings (max : Nat) (s s' : Bytes) (h : V5.read max s = (.err .TopicNotUtf8, s')) :
    ∃ b1 bs bd, s = b1 :: (bs ++ (bd ++ s')) ∧ IsVbi bs ∧ vbiValue bs = bd.length ∧ HoldsBadString bd := by
  rcases (C62_v5_read_err_iff _ _ _ _).1 h with ⟨h, _⟩ | ⟨b1, bs, bd, h1, h2, h3, _, h⟩
  · exact (not_framing h).elim
  · exact ⟨b1, bs, bd, h1, h2, h3, v5_bad h⟩

/-- hypotheses met: a user property of a PUBACK -/
example : ∃ b1 bs bd, ([0x40, 11, 0, 7, 0, 7, 38, 0, 1, 0xff, 0, 1, 98, 9] : Bytes) = b1 :: (bs ++ (bd ++ [9])) ∧ IsVbi bs
    ∧ vbiValue bs = bd.length ∧ HoldsBadString bd :=
  C94_v5_only_bad_strings 99 _ [9] (by decide +kernel)


/-! ### instances -/

/-- a topic of four characters of one, two, three and four bytes: U+0000 (which the standard forbids,
[MQTT-1.5.3-2]), U+00E9, U+20AC, U+10FFFF -/
theorem C94_w_points : Decodes [0, 0xC3, 0xA9, 0xE2, 0x82, 0xAC, 0xF4, 0x8F, 0xBF, 0xBF] [0, 0xE9, 0x20AC, 0x10FFFF] :=
  .cons (r := [0]) (.ascii (by decide)) <| .cons (r := [0xC3, 0xA9]) (.two (by decide) (by decide)) <|
  .cons (r := [0xE2, 0x82, 0xAC]) (.e1 (by decide) (by decide) (by decide)) <|
  .cons (r := [0xF4, 0x8F, 0xBF, 0xBF]) (.f4 (by decide) (by decide) (by decide) (by decide)) .nil

/-- such a topic is accepted -/
example : ∃ p, V4.read 99 [0x30, 13, 0, 10, 0, 0xC3, 0xA9, 0xE2, 0x82, 0xAC, 0xF4, 0x8F, 0xBF, 0xBF, 7, 1]
    = (.ok (.Publish p), [1]) ∧ points p.topic = [0, 0xE9, 0x20AC, 0x10FFFF] ∧ p.payload = [7] :=
  C94_v4_topic_accepted 99 _ [7] [1] _ (by decide) (by decide) (by decide) C94_w_points
example : ∃ p, V5.read 99 [0x30, 14, 0, 10, 0, 0xC3, 0xA9, 0xE2, 0x82, 0xAC, 0xF4, 0x8F, 0xBF, 0xBF, 0, 7, 1]
    = (.ok (.Publish p), [1]) ∧ points p.topic = [0, 0xE9, 0x20AC, 0x10FFFF] ∧ p.payload = [7] :=
  C94_v5_topic_accepted 99 _ [7] [1] _ (by decide) (by decide) (by decide) C94_w_points

/-- an overlong encoding of '/', a surrogate and a code point above 10FFFF are not well-formed -/
example : ¬ WellFormed [0xC0, 0xAF] := by rw [← C94_from_utf8_none]; decide +kernel
example : ¬ WellFormed [0xED, 0xA0, 0x80] := by rw [← C94_from_utf8_none]; decide +kernel
example : ¬ WellFormed [0xF4, 0x90, 0x80, 0x80] := by rw [← C94_from_utf8_none]; decide +kernel
example : V4.read 99 [0x30, 5, 0, 2, 0xC0, 0xAF, 7, 1] = (.err .TopicNotUtf8, [1]) :=
  C94_v4_topic_refused 99 [0xC0, 0xAF] [7] [1] (by decide) (by decide) (by decide)
    (by rw [← C94_from_utf8_none]; decide +kernel)
example : V5.read 99 [0x30, 5, 0, 2, 0xC0, 0xAF, 7, 1] = (.err .TopicNotUtf8, [1]) :=
  C94_v5_topic_refused 99 [0xC0, 0xAF] [7] [1] (by decide) (by decide) (by decide)
    (by rw [← C94_from_utf8_none]; decide +kernel)
end Props
