import Verif.Proof.V5Exact
import Verif.Props.V5RoundTrip
/-! v5 property sections (C41, C42, C52) and re-encoding of decoded packets (C57). -/
namespace Props
open Mqtt Mqtt.V5 Spec
open Spec.V5 (SectionAt Property Kind SecDenotes ExactSec SecGrammar DenotesBy Readable vbis SameById SameIfLastWins Repeatable ReadsBack
  FieldsFit Meaningful body encode Val)

/-! ### C41 -/

/-- C41: in a frame whose property section consists of whole allowed properties `bs` up to a point before
the declared length (as the decoder counts it: one more per subscription identifier) and then has an
identifier that is unknown or not allowed there, reading fails with `InvalidPropertyType` of that
identifier, whatever follows.  The frame is removed. -/
theorem C41_v5_foreign_property (b1 id : UInt8) (pre len bs tail rest rl : Bytes) (kind : Nat → Option Kind)
    (ps : List Property) (max : Nat) (h : SectionAt b1 pre kind)
    (hlen : IsVbi len) (hp : Spec.V5.Props kind bs ps) (hn : bs.length + vbis ps < vbiValue len)
    (hid : kind id.toNat = none) (hrl : IsVbi rl)
    (hv : vbiValue rl = (pre ++ len ++ bs ++ [id] ++ tail).length)
    (hm : (pre ++ len ++ bs ++ [id] ++ tail).length ≤ max) :
    V5.read max (b1 :: (rl ++ (pre ++ len ++ bs ++ [id] ++ tail ++ rest)))
      = (.err (.InvalidPropertyType id), rest) := by
  rw [v5_read_frame max b1 rl _ rest hrl hv hm]
  obtain ⟨σ, step, dec, hg, _, α, w, k, hr⟩ := sectionAt_reaches h
  have hx := vbiValue_le hrl
  have hb : (pre ++ len ++ bs ++ [id] ++ tail) = pre ++ (len ++ (bs ++ id :: tail)) := by simp
  have h1 := hr (b1 :: rl) (len ++ (bs ++ id :: tail)) (by simp) (by rw [← hb, ← hv]; exact hx)
  rw [← hb] at h1
  refine congrArg (·, rest) ?_
  rw [show rl.length + 1 = (b1 :: rl).length from rfl, h1]
  have h2 := extractProps_foreign hg hlen hp hn id hid tail (by rw [hb] at hv; simp only [List.length_append] at hv ⊢; omega)
  simp only [onFrame, bind_run, h2, andThen_err]

/-- hypotheses met: PUBACK with a reason string and then a content type (3), which only publishes have -/
example : V5.read 99 [0x40, 13, 0, 7, 0, 9, 31, 0, 1, 120, 3, 0, 2, 65, 66, 5]
    = (.err (.InvalidPropertyType 3), [5]) :=
  C41_v5_foreign_property 0x40 3 ([0, 7] ++ [0]) [9] [31, 0, 1, 120] [0, 2, 65, 66] [5] [13] Spec.V5.reasonKind
    [⟨31, .str "x"⟩] 99 (.puback 0x40 7 .Success (by decide)) ⟨by decide, [], 9, rfl, by decide, by simp⟩
    (.cons 31 (.str "x") [0, 1, 120] [] [] rfl
      ⟨by show (utf8 "x").length ≤ 65535; decide +kernel, by decide +kernel⟩ .nil) (by decide) rfl
    ⟨by decide, [], 13, rfl, by decide, by simp⟩ rfl (by decide)

/-! ### C42 -/

/-- C42: a frame whose property sections have exactly the declared length, and whose lists of properties
are not miscounted (`Readable`; always so for at most one subscription identifier), is decoded as the
packet it denotes by the standard: no property swallows bytes of the following fields and no property
byte is left to be parsed as such. -/
theorem C42_v5_exact_sections (max : Nat) (b1 : UInt8) (rl bd rest : Bytes) (p : Packet) (hrl : IsVbi rl)
    (hv : vbiValue rl = bd.length) (hm : bd.length ≤ max)
    (hd : DenotesBy (fun kind sec ps => ExactSec kind sec ps ∧ ∀ l, ps = some l → Readable l) b1 bd p) :
    V5.read max (b1 :: (rl ++ (bd ++ rest))) = (.ok p, rest) := by
  rw [read_ok_iff]
  exact ⟨b1, rl, bd, rfl, hrl, hv, hm, denotesBy_mono (fun _ _ _ h => exactSec_secDenotes h.1 h.2) hd⟩

/-- at most one subscription identifier is never miscounted -/
theorem C42_readable_of_one (ps : List Property) (h : vbis ps ≤ 1) : Readable ps := by
  rintro a b rfl hb
  rw [vbis_append] at h
  have : 2 ≤ (Spec.V5.encAll b).length := by
    cases b with
    | nil => exact absurd rfl hb
    | cons q l =>
      rw [encAll_cons]
      have := enc_len_pos q.val
      simp [Property.enc, u8_len]; omega
  omega

/-- C42, where the decoder really stops: a section is accepted as `ps` exactly if after its length come
the whole properties `ps`, their count (bytes, and one more per subscription identifier) has reached the
declared length, and had not before any of the properties: so the last property may reach beyond the
declared length, and with subscription identifiers property bytes may be left over. -/
theorem C42_v5_section_end (kind : Nat → Option Kind) (sec : Bytes) (ps : List Property) :
    SecDenotes kind sec (some ps) ↔ ∃ len bs, sec = len ++ bs ∧ IsVbi len ∧ vbiValue len ≠ 0
      ∧ Spec.V5.Props kind bs ps ∧ vbiValue len ≤ bs.length + vbis ps
      ∧ ∀ bs₁ ps₁ bs₂ ps₂, bs = bs₁ ++ bs₂ → ps = ps₁ ++ ps₂ → Spec.V5.Props kind bs₁ ps₁ →
          Spec.V5.Props kind bs₂ ps₂ → ps₂ ≠ [] → bs₁.length + vbis ps₁ < vbiValue len := by
  constructor
  · rintro ⟨len, bs, h1, h2, h3, h4⟩
    rw [propSeq_iff] at h4
    refine ⟨len, bs, h1, h2, h3, h4.1, by simpa using h4.2.1, ?_⟩
    simpa using h4.2.2
  · rintro ⟨len, bs, h1, h2, h3, h4, h5, h6⟩
    refine ⟨len, bs, h1, h2, h3, ?_⟩
    rw [propSeq_iff]
    exact ⟨h4, by omega, by simpa using h6⟩

/-- C42 for the sections without subscription identifiers (all but PUBLISH and SUBSCRIBE): never fewer
bytes than declared, and the declared number exactly if the declared length ends at a property. -/
theorem C42_v5_section_bytes (kind : Nat → Option Kind) (hk : ∀ i, kind i ≠ some .vbi) (sec : Bytes)
    (ps : List Property) (h : SecDenotes kind sec (some ps)) :
    ∃ len bs, sec = len ++ bs ∧ IsVbi len ∧ Spec.V5.Props kind bs ps ∧ vbiValue len ≤ bs.length
      ∧ (vbiValue len = bs.length ↔ ExactSec kind sec (some ps)) := by
  obtain ⟨len, bs, rfl, h2, h3, h4⟩ := h
  rw [propSeq_iff] at h4
  obtain ⟨hp, hle, _⟩ := h4
  have hz : vbis ps = 0 := vbis_eq_zero fun q hq e => hk q.id (by rw [((Props.mem hp).1 q hq).2.1, e])
  refine ⟨len, bs, rfl, h2, hp, by omega, fun h => ⟨len, bs, rfl, h2, h, ?_, hp⟩, ?_⟩
  · rintro rfl; simp at h; exact h3 h
  · rintro ⟨l, b, e, hl, h5, _⟩
    obtain ⟨rfl, rfl⟩ := vbi_prefix_det h2 hl e
    exact h5

/-- hypotheses met: a section of a PUBACK with a reason string -/
example : ∃ len bs, ([4, 31, 0, 1, 120] : Bytes) = len ++ bs ∧ IsVbi len ∧ Spec.V5.Props Spec.V5.reasonKind bs [⟨31, .str "x"⟩] ∧
    vbiValue len ≤ bs.length ∧ (vbiValue len = bs.length ↔ ExactSec Spec.V5.reasonKind [4, 31, 0, 1, 120] (some [⟨31, .str "x"⟩])) :=
  C42_v5_section_bytes Spec.V5.reasonKind (by intro i; unfold Spec.V5.reasonKind; split <;> simp) [4, 31, 0, 1, 120] [⟨31, .str "x"⟩]
    ⟨[4], [31, 0, 1, 120], rfl, ⟨by decide, [], 4, rfl, by decide, by simp⟩, by decide,
      .more (by decide) 31 (.str "x") [0, 1, 120] [] [] rfl
        ⟨by show (utf8 "x").length ≤ 65535; decide +kernel, by decide +kernel⟩ (.done (by decide))⟩


/-- C42, the deviations occur.  First: declared length 2, but the reason string of 4 bytes is taken
whole and swallows what MQTT 5 takes for reason codes.  Second: declared length 3 ends inside a publish's
content type, which swallows payload.  Third: three subscription identifiers; the third is left in the
payload. -/
theorem C42_v5_deviations :
    V5.read 99 [0x90, 8, 0, 7, 2, 31, 0, 1, 1, 0]
      = (.ok (.SubAck ⟨7, [.QoS0], some ⟨some "\x01", []⟩⟩), [])
    ∧ (V5.read 99 [0x30, 10, 0, 1, 97, 3, 3, 0, 2, 65, 66, 67]).1
      = .ok (.Publish ⟨false, .AtMostOnce, false, "a", 0,
          some ⟨none, none, none, none, none, [], [], some "AB"⟩, [67]⟩)
    ∧ (V5.read 99 [0x30, 11, 0, 1, 97, 6, 11, 1, 11, 2, 11, 3, 99]).1
      = .ok (.Publish ⟨false, .AtMostOnce, false, "a", 0,
          some ⟨none, none, none, none, none, [], [1, 2], none⟩, [11, 3, 99]⟩) := by decide +kernel

/-- hypotheses of `C42_v5_exact_sections` met by a publish with a non-minimal section length -/
example : V5.read 99 [0x30, 10, 0, 1, 97, 0x84, 0, 1, 7, 11, 5, 99, 8]
    = (.ok (.Publish ⟨false, .AtMostOnce, false, "a", 0,
          some ⟨some 7, none, none, none, none, [], [5], none⟩, [99]⟩), [8]) := by
  refine C42_v5_exact_sections 99 0x30 [10] [0, 1, 97, 0x84, 0, 1, 7, 11, 5, 99] [8] _
    ⟨by decide, [], 10, rfl, by decide, by simp⟩ rfl (by decide) ?_
  refine ⟨by decide, [0x84, 0, 1, 7, 11, 5], by decide +kernel, by decide +kernel, by decide, some [⟨1, .u8 7⟩, ⟨11, .vbi 5⟩],
    ⟨⟨[0x84, 0], [1, 7, 11, 5], rfl, ⟨by decide, [0x84], 0, rfl, by decide, by decide⟩, rfl, by simp, ?_⟩, ?_⟩, by decide +kernel⟩
  · exact .cons 1 (.u8 7) [7] [11, 5] _ rfl ⟨trivial, rfl⟩
      (.cons 11 (.vbi 5) [5] [] [] rfl ⟨⟨by decide, [], 5, rfl, by decide, by simp⟩, rfl⟩ .nil)
  · rintro l h
    cases h
    exact C42_readable_of_one _ (by decide)

/-! ### C52 -/

/-- C72: two frames whose properties in a section say the same if the last occurrence of each property counts
(`SameIfLastWins`: all occurrences of the repeatable ones, the last one of every other) give the same result: the
same packet or the same error.  (Exact section lengths, lists not miscounted.) -/
theorem C72_v5_last_wins (b1 : UInt8) (pre : Bytes) (kind : Nat → Option Kind) (h : SectionAt b1 pre kind)
    (len₁ len₂ bs₁ bs₂ tail rest rl₁ rl₂ : Bytes) (ps₁ ps₂ : List Property) (max : Nat)
    (hs₁ : ExactSec kind (len₁ ++ bs₁) (some ps₁)) (hs₂ : ExactSec kind (len₂ ++ bs₂) (some ps₂))
    (hsame : SameIfLastWins b1 ps₁ ps₂) (hr₁ : Readable ps₁) (hr₂ : Readable ps₂)
    (hrl₁ : IsVbi rl₁) (hv₁ : vbiValue rl₁ = (pre ++ (len₁ ++ bs₁) ++ tail).length)
    (hrl₂ : IsVbi rl₂) (hv₂ : vbiValue rl₂ = (pre ++ (len₂ ++ bs₂) ++ tail).length)
    (hm₁ : vbiValue rl₁ ≤ max) (hm₂ : vbiValue rl₂ ≤ max) :
    V5.read max (b1 :: (rl₁ ++ (pre ++ (len₁ ++ bs₁) ++ tail ++ rest)))
      = V5.read max (b1 :: (rl₂ ++ (pre ++ (len₂ ++ bs₂) ++ tail ++ rest))) := by
  obtain ⟨σ, step, dec, hg, hdec, α, w, k, hr⟩ := sectionAt_reaches h
  have hkind : ∀ (sec : Bytes) (ps : List Property), ExactSec kind sec (some ps) → ∀ q ∈ ps, kind q.id = some q.val.kind := by
    rintro sec ps ⟨len, bs, _, _, _, _, hp⟩ q hq
    exact ((Mqtt.V5.Props.mem hp).1 q hq).2.1
  have key : ∀ (rl sec : Bytes) (ps : List Property), IsVbi rl → vbiValue rl = (pre ++ sec ++ tail).length →
      vbiValue rl ≤ max → ExactSec kind sec (some ps) → Readable ps →
      V5.read max (b1 :: (rl ++ (pre ++ sec ++ tail ++ rest)))
        = (onFrame (pure (some (dec ps)) >>= k) tail w, rest) := by
    intro rl sec ps hrl hv hm hs hrd
    rw [v5_read_frame max b1 rl _ rest hrl hv (by omega)]
    have hx := vbiValue_le hrl
    have hne : sec ≠ [] := by
      obtain ⟨l, b, rfl, hl, _⟩ := hs
      simp [isVbi_ne_nil hl]
    have h1 := hr (b1 :: rl) (sec ++ tail) (by simp [hne]) (by rw [← List.append_assoc, ← hv]; exact hx)
    rw [← List.append_assoc] at h1
    refine congrArg (·, rest) ?_
    rw [show rl.length + 1 = (b1 :: rl).length from rfl, h1]
    have h2 : extractProps step (dec []) (sec ++ tail) = (.ok (some (dec ps)), tail) := by
      refine (extractProps_iff hg _ _ _ ?_).2 ⟨sec, rfl, some ps, ?_, rfl⟩
      · simp only [List.length_append] at hv ⊢; omega
      · exact exactSec_secDenotes hs (by rintro l hl; cases hl; exact hrd)
    refine onFrame_congr ?_
    rw [bind_run, bind_run, h2]; rfl
  rw [key rl₁ _ ps₁ hrl₁ hv₁ hm₁ hs₁ hr₁, key rl₂ _ ps₂ hrl₂ hv₂ hm₂ hs₂ hr₂, hdec _ _ ⟨hsame, hkind _ _ hs₁, hkind _ _ hs₂⟩]

/-- C52: two frames that differ only in the order of the properties in a section (the order of repeated
properties kept), with exact section lengths and lists that are not miscounted, give the same result: the
same packet or the same error. -/
theorem C52_v5_property_order (b1 : UInt8) (pre : Bytes) (kind : Nat → Option Kind) (h : SectionAt b1 pre kind)
    (len₁ len₂ bs₁ bs₂ tail rest rl₁ rl₂ : Bytes) (ps₁ ps₂ : List Property) (max : Nat)
    (hs₁ : ExactSec kind (len₁ ++ bs₁) (some ps₁)) (hs₂ : ExactSec kind (len₂ ++ bs₂) (some ps₂))
    (hsame : SameById ps₁ ps₂) (hr₁ : Readable ps₁) (hr₂ : Readable ps₂)
    (hrl₁ : IsVbi rl₁) (hv₁ : vbiValue rl₁ = (pre ++ (len₁ ++ bs₁) ++ tail).length)
    (hrl₂ : IsVbi rl₂) (hv₂ : vbiValue rl₂ = (pre ++ (len₂ ++ bs₂) ++ tail).length)
    (hm₁ : vbiValue rl₁ ≤ max) (hm₂ : vbiValue rl₂ ≤ max) :
    V5.read max (b1 :: (rl₁ ++ (pre ++ (len₁ ++ bs₁) ++ tail ++ rest)))
      = V5.read max (b1 :: (rl₂ ++ (pre ++ (len₂ ++ bs₂) ++ tail ++ rest))) :=
  C72_v5_last_wins b1 pre kind h len₁ len₂ bs₁ bs₂ tail rest rl₁ rl₂ ps₁ ps₂ max hs₁ hs₂
    ⟨fun i _ => hsame i, fun i => by rw [hsame i]⟩ hr₁ hr₂ hrl₁ hv₁ hrl₂ hv₂ hm₁ hm₂

/-- hypotheses met: user property and reason string of a PUBACK in both orders -/
example : V5.read 99 [0x40, 15, 0, 7, 0, 11, 31, 0, 1, 120, 38, 0, 1, 97, 0, 1, 98, 9]
    = V5.read 99 [0x40, 15, 0, 7, 0, 11, 38, 0, 1, 97, 0, 1, 98, 31, 0, 1, 120, 9] := by
  have hx : (Val.str "x").Denotes [0, 1, 120] := ⟨by show (utf8 "x").length ≤ 65535; decide +kernel, by decide +kernel⟩
  have hp : (Val.pair "a" "b").Denotes [0, 1, 97, 0, 1, 98] :=
    ⟨⟨by show (utf8 "a").length ≤ 65535; decide +kernel, by show (utf8 "b").length ≤ 65535; decide +kernel⟩, by decide +kernel⟩
  have hv : IsVbi [11] := ⟨by decide, [], 11, rfl, by decide, by simp⟩
  have hw : IsVbi [15] := ⟨by decide, [], 15, rfl, by decide, by simp⟩
  refine C52_v5_property_order 0x40 ([0, 7] ++ [0]) Spec.V5.reasonKind (.puback 0x40 7 .Success (by decide)) [11] [11]
    [31, 0, 1, 120, 38, 0, 1, 97, 0, 1, 98] [38, 0, 1, 97, 0, 1, 98, 31, 0, 1, 120] [] [9] [15] [15]
    [⟨31, .str "x"⟩, ⟨38, .pair "a" "b"⟩] [⟨38, .pair "a" "b"⟩, ⟨31, .str "x"⟩] 99
    ⟨[11], _, rfl, hv, rfl, by simp, .cons 31 (.str "x") [0, 1, 120] _ _ rfl hx (.cons 38 (.pair "a" "b") [0, 1, 97, 0, 1, 98] [] [] rfl hp .nil)⟩
    ⟨[11], _, rfl, hv, rfl, by simp, .cons 38 (.pair "a" "b") [0, 1, 97, 0, 1, 98] _ _ rfl hp (.cons 31 (.str "x") [0, 1, 120] [] [] rfl hx .nil)⟩
    ?_ (V5.readable_of_no_vbi (by decide)) (V5.readable_of_no_vbi (by decide)) hw rfl hw rfl (by decide) (by decide)
  intro i
  by_cases h1 : i = 31
  · subst h1; decide +kernel
  · by_cases h2 : i = 38
    · subst h2; decide +kernel
    · simp [Ne.symm h1, Ne.symm h2]


/-- C72: in particular dropping an occurrence of a property that may appear only once and is followed by another
occurrence changes nothing: MQTT 5 calls the repetition a protocol error, the decoder accepts it silently. -/
theorem C72_drop_duplicate (b1 : UInt8) (a b : List Property) (q q' : Property) (h : q' ∈ b) (hi : q'.id = q.id)
    (hr : ¬ Repeatable b1 q.id) : SameIfLastWins b1 (a ++ q :: b) (a ++ b) := by
  have hf : ∀ i, i ≠ q.id → (a ++ q :: b).filter (·.id = i) = (a ++ b).filter (·.id = i) := by
    intro i hi
    have : ¬ q.id = i := fun h => hi h.symm
    simp [List.filter_append, this]
  refine ⟨fun i hrep => hf i (fun h => hr (h ▸ hrep)), fun i => ?_⟩
  by_cases h0 : i = q.id
  · subst h0
    have hne : b.filter (·.id = q.id) ≠ [] := by
      intro he
      have : q' ∈ b.filter (·.id = q.id) := by simp [h, hi]
      rw [he] at this; simp at this
    have hz := List.getLast?_eq_some_getLast hne
    simp only [List.filter_append, List.filter_cons, decide_true, if_true, List.getLast?_append, List.getLast?_cons, hz]
    rfl
  · rw [hf i h0]

/-- hypotheses met: of two reason strings in a PUBACK the first is dropped -/
example : Spec.V5.SameIfLastWins 0x40 [⟨31, .str "x"⟩, ⟨38, .pair "a" "b"⟩, ⟨31, .str "y"⟩] [⟨38, .pair "a" "b"⟩, ⟨31, .str "y"⟩] :=
  C72_drop_duplicate 0x40 [] [⟨38, .pair "a" "b"⟩, ⟨31, .str "y"⟩] ⟨31, .str "x"⟩ ⟨31, .str "y"⟩ (by simp) rfl (by simp [Spec.V5.Repeatable])
example : V5.read 99 [0x40, 12, 0, 7, 0, 8, 31, 0, 1, 120, 31, 0, 1, 121] = V5.read 99 [0x40, 8, 0, 7, 0, 4, 31, 0, 1, 121] := by decide +kernel

/-- C72, accepted in fact: a PUBACK with two reason strings, a PUBLISH with two topic aliases, a SUBSCRIBE with two
subscription identifiers -/
theorem C72_v5_duplicates_accepted :
    V5.read 99 [0x40, 12, 0, 7, 0, 8, 31, 0, 1, 65, 31, 0, 1, 66] = (.ok (.PubAck ⟨7, .Success, some ⟨some "B", []⟩⟩), [])
    ∧ V5.read 99 [0x30, 10, 0, 1, 97, 6, 35, 0, 1, 35, 0, 2] = (.ok (.Publish ⟨false, .AtMostOnce, false, "a", 0,
        some ⟨none, none, some 2, none, none, [], [], none⟩, []⟩), [])
    ∧ V5.read 99 [0x82, 11, 0, 7, 4, 11, 1, 11, 2, 0, 1, 97, 0] = (.ok (.Subscribe ⟨7, [⟨"a", .AtMostOnce, false, false, .OnEverySubscribe⟩],
        some ⟨some 2, []⟩⟩), []) := by decide +kernel

/-- C52, the exception: with three subscription identifiers the order decides whether they all count -/
theorem C52_v5_order_matters :
    (V5.read 99 [0x30, 14, 0, 1, 97, 10, 11, 1, 11, 2, 11, 3, 3, 0, 1, 65]).1
      = .ok (.Publish ⟨false, .AtMostOnce, false, "a", 0,
          some ⟨none, none, none, none, none, [], [1, 2, 3], some "A"⟩, []⟩)
    ∧ (V5.read 99 [0x30, 14, 0, 1, 97, 10, 3, 0, 1, 65, 11, 1, 11, 2, 11, 3]).1
      = .ok (.Publish ⟨false, .AtMostOnce, false, "a", 0,
          some ⟨none, none, none, none, none, [], [1, 2], some "A"⟩, [11, 3]⟩) := by decide +kernel

/-- properties of the same identifier do not commute: the last value wins -/
example : ¬ SameById [⟨31, .str "x"⟩, ⟨31, .str "y"⟩] [⟨31, .str "y"⟩, ⟨31, .str "x"⟩] := by
  intro h; exact absurd (h 31) (by decide +kernel)

/-- hypotheses met: user property and reason string of a PUBACK in both orders -/
example : SameById [⟨31, .str "x"⟩, ⟨38, .pair "a" "b"⟩] [⟨38, .pair "a" "b"⟩, ⟨31, .str "x"⟩] := by
  intro i
  by_cases h1 : i = 31
  · subst h1; decide +kernel
  · by_cases h2 : i = 38
    · subst h2; decide +kernel
    · simp [Ne.symm h1, Ne.symm h2]

/-! ### C57 -/

/-- C57: a decoded v5 packet has only encodable fields and is meaningful, and its body is at most 4
bytes longer than the bytes consumed (the sharp bound is C65). -/
theorem C57_v5_decoded_wellformed (max : Nat) (s s' : Bytes) (p : Packet) (h : V5.read max s = (.ok p, s')) :
    FieldsFit p ∧ Meaningful p ∧ (body p).length + s'.length ≤ s.length + 4 := by
  obtain ⟨b1, bs, bd, rfl, hv, hl, hm, hd⟩ := (read_ok_iff max s s' _).1 h
  obtain ⟨h1, h2, h3⟩ := denotes_wf hd
  refine ⟨h1, h2, ?_⟩
  have := List.length_pos_iff.2 (isVbi_ne_nil hv)
  simp only [List.length_cons, List.length_append]
  omega

/-- C57: a decoded packet (whose encoding is not too long) is written and read back as itself exactly if
`ReadsBack` holds of it. -/
theorem C57_v5_reencode_iff (max : Nat) (s s' : Bytes) (p : Packet) (h : V5.read max s = (.ok p, s'))
    (hl : (body p).length ≤ 268435455) :
    ∃ n bytes, p.write [] = (.ok n, bytes) ∧
      ∀ max' rest, (body p).length ≤ max' → (V5.read max' (bytes ++ rest) = (.ok p, rest) ↔ ReadsBack p) := by
  obtain ⟨hf, hm, _⟩ := C57_v5_decoded_wellformed max s s' p h
  by_cases hca : ∃ c, p = .ConnAck c ∧ c.properties = none
  · obtain ⟨c, rfl, hn⟩ := hca
    obtain ⟨bytes, hw, hr⟩ := C34_v5_connack_none_unreadable c hn []
    refine ⟨_, bytes, hw, fun max' rest hx => ?_⟩
    have : (body (.ConnAck c)).length = 3 := by
      simp only [body, hn, Spec.V5.optSec, Spec.V5.sec]; rfl
    rw [hr max' rest (by omega)]
    simp [ReadsBack, hn]
  · by_cases hc : ∃ c, p = .Connect c
    · obtain ⟨c, rfl⟩ := hc
      exact C33_v5_connect_roundtrip c hf hm hl
    · have hw := write_encode p ⟨hf, hm, hl⟩ (fun c e => hc ⟨c, e⟩) (fun c e e' => hca ⟨c, e, e'⟩) []
      refine ⟨_, _, hw, fun max' rest hx => ⟨fun hread => ?_, fun hb => read_encode p ⟨hf, hm, hl⟩ hb max' hx rest⟩⟩
      simp only [List.nil_append] at hread
      cases p with
      | Connect c => exact absurd ⟨c, rfl⟩ hc
      | ConnAck c => exact fun e => hca ⟨c, rfl, e⟩
      | Publish p =>
        obtain ⟨bytes, hw2, hr⟩ := C32_v5_publish_roundtrip p hf hm hl []
        rw [show (Packet.Publish p).write [] = p.write [] from rfl, hw2] at hw
        simp only [Prod.mk.injEq, List.nil_append] at hw
        rw [← hw.2] at hread
        exact (hr max' rest hx).1 hread
      | Disconnect d =>
        intro e
        rw [read_encode_iff _ _ hl _ hx] at hread
        obtain ⟨_, props, junk, hb, hs⟩ := hread
        obtain ⟨ps, hs, _⟩ := hs
        have hlen := congrArg List.length hb
        have hp1 : 1 ≤ props.length := by
          rw [Nat.one_le_iff_ne_zero]
          intro h0
          obtain rfl := List.eq_nil_of_length_eq_zero h0
          cases ps with
          | none => exact absurd rfl (isVbi_ne_nil hs.1)
          | some ps =>
            obtain ⟨l, b, e, hv, _⟩ := hs
            simp at e
            exact isVbi_ne_nil hv e.1
        simp only [body, e, List.length_append, u8_len] at hlen
        split at hlen
        · simp at hlen; omega
        · simp [u8_len] at hlen; omega
      | _ => trivial

/-- C57 fails where `ReadsBack` does: decoded packets that do not survive re-encoding -/
theorem C57_v5_lossy :
    V5.read 9 [0x20, 3, 1, 0, 0] = (.ok (.ConnAck ⟨true, .Success, none⟩), [])
      ∧ V5.read 9 (Packet.write (.ConnAck ⟨true, .Success, none⟩) []).2 = (.err (.InsufficientBytes 1), [])
    ∧ V5.read 9 [0xE0, 2, 0, 0] = (.ok (.Disconnect ⟨.NormalDisconnection, none⟩), [])
      ∧ V5.read 9 (Packet.write (.Disconnect ⟨.NormalDisconnection, none⟩) []).2 = (.err .PayloadRequired, []) := by
  decide +kernel

/-- a decoded publish to which it applies -/
example :
    let p : Packet := .Publish ⟨false, .AtMostOnce, false, "a", 0,
          some ⟨some 7, none, none, none, none, [], [5], none⟩, [99]⟩
    V5.read 99 [0x30, 10, 0, 1, 97, 0x84, 0, 1, 7, 11, 5, 99, 8] = (.ok p, [8])
      ∧ V5.read 99 ((p.write []).2 ++ [8]) = (.ok p, [8]) := by decide +kernel

end Props
