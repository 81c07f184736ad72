import Verif.Proof.V5Readable
import Verif.Proof.V5Wr
import Verif.Proof.V5Connect4
/-! v5 round trips: C16, C23, C30, C32-C39. -/
namespace Props
open Mqtt Mqtt.V5 Spec
open Spec.V5 (WF FieldsFit Meaningful NonEmpty ReadsBack Readable publishProps publishOf encAll vbis body
  encode connackProps disconnectProps)

/-- a packet other than CONNECT: what is appended to any buffer is read back -/
theorem v5_roundtrip (p : Packet) (h : WF p) (hb : ReadsBack p) (hc : ∀ c, p ≠ .Connect c) (s : Bytes) :
    ∃ bytes, p.write s = (.ok bytes.length, s ++ bytes) ∧
      ∀ max rest, (body p).length ≤ max → V5.read max (bytes ++ rest) = (.ok p, rest) :=
  ⟨_, write_encode p h hc (by rintro c rfl; exact hb) s, fun max rest hm => read_encode p h hb max hm rest⟩

/-! ### C32 -/

/-- C32: the condition: with a content type, the number of subscription identifiers is less than 3
plus the length of the content type; without, the number of identifiers is at most 1 plus the size of
the last one.  (So no or one or two identifiers are always fine.) -/
theorem C32_v5_readable_iff (q : PublishProperties) :
    Readable (publishProps q) ↔
      (∀ ct, q.content_type = some ct → q.subscription_identifiers.length < 3 + (utf8 ct).length) ∧
      (q.content_type = none → ∀ init last, q.subscription_identifiers = init ++ [last] →
        init.length < 1 + (vbi last).length) := by
  have hv : ∀ l : List Nat, vbis (l.map fun n => (⟨11, .vbi n⟩ : Spec.V5.Property)) = l.length := by
    intro l
    unfold vbis
    rw [List.filter_eq_self.2]
    · simp
    · intro a ha
      simp only [List.mem_map] at ha
      obtain ⟨n, _, rfl⟩ := ha
      rfl
  have ho : ∀ {α : Type} (i : Nat) (f : α → Spec.V5.Val) (o : Option α), (∀ a, (f a).kind ≠ .vbi) →
      vbis (Spec.V5.opt i f o) = 0 := by
    intro α i f o h
    refine vbis_eq_zero fun q hq => ?_
    cases o with
    | none => simp [Spec.V5.opt] at hq
    | some a => simp [Spec.V5.opt] at hq; subst hq; exact h a
  have hu : vbis (Spec.V5.users q.user_properties) = 0 := by
    refine vbis_eq_zero fun x hx => ?_
    simp only [Spec.V5.users, List.mem_map] at hx
    obtain ⟨kv, _, rfl⟩ := hx
    simp [Spec.V5.Val.kind]
  have hA : vbis (Spec.V5.opt 1 .u8 q.payload_format_indicator ++ Spec.V5.opt 2 .u32 q.message_expiry_interval
      ++ Spec.V5.opt 35 .u16 q.topic_alias ++ Spec.V5.opt 8 .str q.response_topic ++ Spec.V5.opt 9 .bin q.correlation_data
      ++ Spec.V5.users q.user_properties) = 0 := by
    simp only [vbis_append, hu]
    rw [ho, ho, ho, ho, ho] <;> intro a <;> simp [Spec.V5.Val.kind]
  unfold publishProps
  revert hA
  generalize (Spec.V5.opt 1 .u8 q.payload_format_indicator ++ Spec.V5.opt 2 .u32 q.message_expiry_interval
      ++ Spec.V5.opt 35 .u16 q.topic_alias ++ Spec.V5.opt 8 .str q.response_topic ++ Spec.V5.opt 9 .bin q.correlation_data
      ++ Spec.V5.users q.user_properties) = A
  intro hA
  cases hct : q.content_type with
  | some ct =>
    have e : Spec.V5.opt 3 Spec.V5.Val.str (some ct) = [⟨3, .str ct⟩] := rfl
    rw [e, readable_snoc, vbis_append, hA, hv]
    have : (Spec.V5.Property.enc ⟨3, .str ct⟩).length = 3 + (utf8 ct).length := by
      simp [Spec.V5.Property.enc, Spec.V5.Val.enc, u8_len, str_len]; omega
    rw [this]
    simp
  | none =>
    have e : Spec.V5.opt 3 Spec.V5.Val.str none = [] := rfl
    rw [e, List.append_nil]
    rcases List.eq_nil_or_concat q.subscription_identifiers with h | ⟨init, last, h⟩
    · rw [h]
      simp only [List.map_nil, List.append_nil]
      exact ⟨fun _ => by simp, fun _ => readable_of_no_vbi hA⟩
    · rw [List.concat_eq_append] at h
      rw [h, List.map_append, ← List.append_assoc]
      have : ([last].map fun n => (⟨11, .vbi n⟩ : Spec.V5.Property)) = [⟨11, .vbi last⟩] := rfl
      rw [this, readable_snoc, vbis_append, hA, hv]
      have : (Spec.V5.Property.enc ⟨11, .vbi last⟩).length = 1 + (vbi last).length := by
        simp [Spec.V5.Property.enc, Spec.V5.Val.enc, u8_len]
      rw [this]
      constructor
      · intro h1
        refine ⟨by simp, fun _ i l e => ?_⟩
        obtain ⟨rfl, h2⟩ := List.append_inj' e rfl
        obtain rfl : last = l := by simpa using h2
        omega
      · rintro ⟨_, h1⟩
        have := h1 rfl init last rfl
        omega

/-- C32, the exception: otherwise the packet is read without error as a different one: some of the
last properties are missing and their bytes are in front of the payload. -/
theorem C32_v5_publish_overrun (p : Publish) (q : PublishProperties) (hq : p.properties = some q)
    (hf : FieldsFit (.Publish p)) (hm : Meaningful (.Publish p))
    (hl : (body (.Publish p)).length ≤ 268435455) (hr : ¬ Readable (publishProps q)) (s : Bytes) :
    ∃ bytes a b, p.write s = (.ok bytes.length, s ++ bytes) ∧ publishProps q = a ++ b ∧ b ≠ [] ∧
      ∀ max rest, (body (.Publish p)).length ≤ max →
        V5.read max (bytes ++ rest)
          = (.ok (.Publish { p with properties := some (publishOf a), payload := encAll b ++ p.payload }), rest) := by
  obtain ⟨a, b, hab, hb, h3, h4⟩ := not_readable hr
  refine ⟨_, a, b, write_encode (.Publish p) ⟨hf, hm, hl⟩ (by simp) (by simp) s, hab, hb, ?_⟩
  intro max rest hx
  rw [read_ok_iff]
  have hsec : (Spec.V5.sec (publishProps q)).length ≤ (body (.Publish p)).length := by
    simp only [body, hq, Spec.V5.optSec, List.length_append]; omega
  have hel : (encAll (publishProps q)).length ≤ maxRemaining := by
    simp only [Spec.V5.sec, List.length_append] at hsec
    have : maxRemaining = 268435455 := rfl
    omega
  refine ⟨UInt8.ofNat (Spec.V5.byte1 (.Publish p)), vbi (body (.Publish p)).length, body (.Publish p),
    by simp [encode, frame, Spec.u8], vbi_isVbi hl, vbiValue_vbi hl, hx, ?_⟩
  refine ⟨rfl, vbi (encAll (publishProps q)).length ++ encAll a, ?_, hf.1, hm.2, some a, ?_, rfl⟩
  · simp only [body, hq, Spec.V5.optSec, Spec.V5.sec]
    rw [show encAll (publishProps q) = encAll a ++ encAll b by rw [hab, encAll_append]]
    simp only [List.append_assoc]
  · refine ⟨_, encAll a, rfl, vbi_isVbi hel, ?_, ?_⟩
    · rw [vbiValue_vbi hel]
      have : 1 ≤ (encAll (publishProps q)).length :=
        encAll_pos (by rw [hab]; simp [hb])
      omega
    · rw [vbiValue_vbi hel]
      exact propSeq_overrun _ hab (publish_kinds q) (hf.2 q hq) h3 h4

/-- C32: v5 PUBLISH, written to any buffer, is read back unchanged whatever follows, exactly when the
decoder's miscounting of subscription identifiers does not make it stop early (`Readable`, made explicit
in `C32_v5_readable_iff`). -/
theorem C32_v5_publish_roundtrip (p : Publish) (hf : FieldsFit (.Publish p)) (hm : Meaningful (.Publish p))
    (hl : (body (.Publish p)).length ≤ 268435455) (s : Bytes) :
    ∃ bytes, p.write s = (.ok bytes.length, s ++ bytes) ∧
      ∀ max rest, (body (.Publish p)).length ≤ max →
        (V5.read max (bytes ++ rest) = (.ok (.Publish p), rest) ↔
          ∀ q, p.properties = some q → Readable (publishProps q)) := by
  refine ⟨_, write_encode (.Publish p) ⟨hf, hm, hl⟩ (by simp) (by simp) s, ?_⟩
  intro max rest hx
  refine ⟨?_, fun hr => read_encode (.Publish p) ⟨hf, hm, hl⟩ hr max hx rest⟩
  intro h q hq
  by_contra hr
  obtain ⟨bytes, a, b, hw, _, hb, hread⟩ := C32_v5_publish_overrun p q hq hf hm hl hr []
  have hw' := write_encode (.Publish p) ⟨hf, hm, hl⟩ (by simp) (by simp) []
  rw [show (Packet.Publish p).write [] = p.write [] from rfl, hw] at hw'
  simp only [Prod.mk.injEq, List.nil_append] at hw'
  rw [← hw'.2, hread max rest hx] at h
  simp only [Prod.mk.injEq, Res.ok.injEq, Packet.Publish.injEq, and_true] at h
  have := congrArg (fun p : Publish => p.payload.length) h
  simp only [List.length_append] at this
  have := encAll_pos hb
  omega

/-- a PUBLISH with all properties and two identifiers meets the hypotheses; with three identifiers and
no content type the third ends up in the payload -/
example :
    let q : PublishProperties := ⟨some 1, some 2, some 3, some "r", some [4], [("k", "v")], [7, 300], some "ct"⟩
    let p : Publish := ⟨false, .AtLeastOnce, true, "t", 9, some q, [1, 2]⟩
    Readable (publishProps q) ∧ (V5.read 100 (p.write []).2) = (.ok (.Publish p), []) := by
  refine ⟨?_, by decide +kernel⟩
  rw [C32_v5_readable_iff]
  refine ⟨?_, by simp⟩
  rintro ct ⟨⟩
  decide +kernel
example :
    let q : PublishProperties := ⟨none, none, none, none, none, [], [1, 2, 3], none⟩
    let p : Publish := ⟨false, .AtMostOnce, false, "t", 0, some q, [65]⟩
    ¬ Readable (publishProps q) ∧ p.write [] = (.ok 13, [0x30, 11, 0, 1, 116, 6, 11, 1, 11, 2, 11, 3, 65]) ∧
      V5.read 100 (p.write []).2
        = (.ok (.Publish { p with properties := some { q with subscription_identifiers := [1, 2] },
                                  payload := [11, 3, 65] }), []) := by
  refine ⟨?_, by decide +kernel, by decide +kernel⟩
  rw [C32_v5_readable_iff]
  intro h
  exact absurd (h.2 rfl [1, 2] 3 rfl) (by decide)

/-! ### C33 -/

/-- C33: v5 CONNECT written to an empty buffer round-trips exactly when it has protocol level 5, or
everything after the keep alive is empty (`Spec.V5.ConnectReadsBack`). -/
theorem C33_v5_connect_roundtrip (c : Connect) (hf : FieldsFit (.Connect c))
    (hm : Meaningful (.Connect c)) (hl : (body (.Connect c)).length ≤ 268435455) :
    ∃ n bytes, c.write [] = (.ok n, bytes) ∧
      ∀ max rest, (body (.Connect c)).length ≤ max →
        (V5.read max (bytes ++ rest) = (.ok (.Connect c), rest) ↔ Spec.V5.ConnectReadsBack c) := by
  refine ⟨_, _, Connect.write_empty c hl, fun max rest hx => ?_⟩
  rw [read_encode_iff _ _ hl _ hx]
  refine ⟨fun h => ?_, fun h => wf_denotes _ ⟨hf, hm, hl⟩ h⟩
  by_cases h5 : c.protocol = .V5
  · exact .inl h5
  · exact connect4_denotes c (by cases h : c.protocol <;> simp_all) hf hm h

/-- C33, an instance of the exception: a `v5::Connect` with protocol level 4 is written with properties but read
without. -/
theorem C33_v5_connect_level4 :
    let c : Connect := { Connect.new "id" with protocol := .V4 }
    V5.read 100 (c.write []).2 = (.ok (.Connect { c with client_id := "" }), []) := by decide +kernel

example :
    let c : Connect := ⟨.V5, 10, "x", true, some ⟨"w", [7], .AtLeastOnce, true, some ⟨some 5, some 1, some 9, some "c", some "r", some [6], [("a", "b")]⟩⟩,
      some ⟨"u", "p"⟩, some ⟨some 100, some 2, some 3, some 4, some 1, some 0, [("k", "v"), ("k", "w")], some "am", some [1]⟩⟩
    V5.read 200 (c.write []).2 = (.ok (.Connect c), []) := by decide +kernel

/-! ### C34 -/

/-- C34: v5 CONNACK with a (non-empty) property set round-trips. -/
theorem C34_v5_connack_roundtrip (c : ConnAck) (q : ConnAckProperties) (hq : c.properties = some q)
    (hne : connackProps q ≠ []) (hf : FieldsFit (.ConnAck c))
    (hl : (body (.ConnAck c)).length ≤ 268435455) (s : Bytes) :
    ∃ bytes, c.write s = (.ok bytes.length, s ++ bytes) ∧
      ∀ max rest, (body (.ConnAck c)).length ≤ max →
        V5.read max (bytes ++ rest) = (.ok (.ConnAck c), rest) :=
  v5_roundtrip (.ConnAck c) ⟨hf, by intro p hp; rw [hq] at hp; cases hp; exact hne, hl⟩
    (by show c.properties ≠ none; rw [hq]; simp) (by simp) s

/-- C34, the exception: a CONNACK without properties is written without property length and cannot be
read: the complete frame is removed and `InsufficientBytes` returned. -/
theorem C34_v5_connack_none_unreadable (c : ConnAck) (hc : c.properties = none) (s : Bytes) :
    ∃ bytes, c.write s = (.ok bytes.length, s ++ bytes) ∧
      ∀ max rest, 2 ≤ max → V5.read max (bytes ++ rest) = (.err (.InsufficientBytes 1), rest) := by
  refine ⟨frame 32 (Spec.u8 (flag c.session_present 1) ++ Spec.u8 (Spec.V5.connectCode c.code)),
    ConnAck.write_none c hc s, fun max rest hm => ?_⟩
  have h := v5_read_frame max 32 [2] (Spec.u8 (flag c.session_present 1) ++ Spec.u8 (Spec.V5.connectCode c.code)) rest
    ⟨by decide, [], 2, rfl, by decide, by simp⟩ rfl hm
  refine Eq.trans ?_ (h.trans ?_)
  · rfl
  · refine congrArg (·, rest) ?_
    obtain ⟨sp, code, pr⟩ := c
    clear h hc
    simp only
    cases sp <;> cases code <;> decide +kernel

/-- C34: an empty property set is indistinguishable from an absent one. -/
theorem C34_v5_connack_empty_set (sp : Bool) (code : ConnectReturnCode) (q : ConnAckProperties)
    (he : connackProps q = []) (s : Bytes) :
    ∃ bytes, ConnAck.write ⟨sp, code, some q⟩ s = (.ok bytes.length, s ++ bytes) ∧
      ∀ max rest, 3 ≤ max → V5.read max (bytes ++ rest) = (.ok (.ConnAck ⟨sp, code, none⟩), rest) := by
  have hb : body (.ConnAck ⟨sp, code, some q⟩)
      = Spec.u8 (flag sp 1) ++ Spec.u8 (Spec.V5.connectCode code) ++ Spec.u8 0 := by
    simp only [body, Spec.V5.optSec, Spec.V5.sec, he]; rfl
  have hlen : (body (.ConnAck ⟨sp, code, some q⟩)).length = 3 := by rw [hb]; rfl
  refine ⟨_, ConnAck.write_run ⟨sp, code, some q⟩ (by simp)
    (by intro p hp x hx; cases hp; rw [he] at hx; simp at hx) (by rw [hlen]; decide) s, fun max rest hm => ?_⟩
  rw [read_ok_iff]
  refine ⟨_, vbi 3, body (.ConnAck ⟨sp, code, some q⟩), by
    rw [encode, frame, hlen]; simp [Spec.u8]; rfl, vbi_isVbi (by decide), ?_, by omega, ?_⟩
  · rw [hlen]; decide
  · rw [hb]
    refine ⟨by simp [Spec.V4.typeNum, Spec.V5.byte1], UInt8.ofNat (flag sp 1), Spec.u8 0, [], by simp [Spec.u8], ?_, none, ?_, rfl⟩
    · show sp = true ↔ Spec.V4.bit (UInt8.ofNat (flag sp 1)) 0
      cases sp <;> decide +kernel
    · exact ⟨⟨by decide, [], 0, rfl, by decide, by simp⟩, rfl⟩

example : ConnAck.write ⟨true, .Banned, some ⟨some 1, none, none, none, none, none, none, none, [], none, none, none, none, none, none, none, none⟩⟩ []
    = (.ok 10, [0x20, 8, 1, 138, 5, 17, 0, 0, 0, 1])
  ∧ ConnAck.write ⟨true, .Banned, none⟩ [] = (.ok 4, [0x20, 2, 1, 138]) := by decide +kernel

/-! ### C35 -/

/-- C35: the four v5 acknowledgements round-trip, each as its own kind. -/
theorem C35_v5_acks_roundtrip (p : Packet)
    (hp : (∃ a, p = .PubAck a) ∨ (∃ a, p = .PubRec a) ∨ (∃ a, p = .PubRel a) ∨ (∃ a, p = .PubComp a))
    (hf : FieldsFit p) (hm : Meaningful p) (hl : (body p).length ≤ 268435455) (s : Bytes) :
    ∃ bytes, p.write s = (.ok bytes.length, s ++ bytes) ∧
      ∀ max rest, (body p).length ≤ max → V5.read max (bytes ++ rest) = (.ok p, rest) := by
  rcases hp with ⟨a, rfl⟩ | ⟨a, rfl⟩ | ⟨a, rfl⟩ | ⟨a, rfl⟩ <;>
    exact v5_roundtrip _ ⟨hf, hm, hl⟩ trivial (by simp) s

example : Packet.write (.PubAck ⟨7, .NotAuthorized, some ⟨some "x", [("a", "b")]⟩⟩) []
    = (.ok 17, [0x40, 15, 0, 7, 135, 11, 31, 0, 1, 120, 38, 0, 1, 97, 0, 1, 98])
  ∧ Packet.write (.PubRel ⟨7, .PacketIdentifierNotFound, none⟩) [] = (.ok 5, [0x62, 3, 0, 7, 146])
  ∧ Packet.write (.PubComp ⟨7, .Success, none⟩) [] = (.ok 4, [0x70, 2, 0, 7]) := by decide +kernel

/-! ### C36, C37, C38 -/

/-- C36: v5 SUBSCRIBE round-trips (all filter options, subscription identifier, user properties). -/
theorem C36_v5_subscribe_roundtrip (p : Subscribe) (hf : FieldsFit (.Subscribe p))
    (hm : Meaningful (.Subscribe p)) (hl : (body (.Subscribe p)).length ≤ 268435455) (s : Bytes) :
    ∃ bytes, p.write s = (.ok bytes.length, s ++ bytes) ∧
      ∀ max rest, (body (.Subscribe p)).length ≤ max →
        V5.read max (bytes ++ rest) = (.ok (.Subscribe p), rest) :=
  v5_roundtrip (.Subscribe p) ⟨hf, hm, hl⟩ trivial (by simp) s

/-- C37: v5 SUBACK with at least one reason code round-trips. -/
theorem C37_v5_suback_roundtrip (p : SubAck) (h0 : p.return_codes ≠ []) (hf : FieldsFit (.SubAck p))
    (hne : NonEmpty Spec.V5.reasonProps p.properties) (hl : (body (.SubAck p)).length ≤ 268435455) (s : Bytes) :
    ∃ bytes, p.write s = (.ok bytes.length, s ++ bytes) ∧
      ∀ max rest, (body (.SubAck p)).length ≤ max →
        V5.read max (bytes ++ rest) = (.ok (.SubAck p), rest) :=
  v5_roundtrip (.SubAck p) ⟨hf, ⟨hne, h0⟩, hl⟩ trivial (by simp) s

/-- C37: v5 UNSUBACK with at least one reason code round-trips. -/
theorem C37_v5_unsuback_roundtrip (p : UnsubAck) (h0 : p.reasons ≠ []) (hf : FieldsFit (.UnsubAck p))
    (hne : NonEmpty Spec.V5.reasonProps p.properties) (hl : (body (.UnsubAck p)).length ≤ 268435455) (s : Bytes) :
    ∃ bytes, p.write s = (.ok bytes.length, s ++ bytes) ∧
      ∀ max rest, (body (.UnsubAck p)).length ≤ max →
        V5.read max (bytes ++ rest) = (.ok (.UnsubAck p), rest) :=
  v5_roundtrip (.UnsubAck p) ⟨hf, ⟨hne, h0⟩, hl⟩ trivial (by simp) s

/-- C37: at least one code is needed: what `UnsubAck::new` and an empty SUBACK write cannot be read. -/
theorem C37_v5_empty_unreadable (pkid : UInt16) (s : Bytes) :
    UnsubAck.write (UnsubAck.new pkid) s = (.ok 5, s ++ ([0xB0, 3] ++ Spec.u16 pkid.toNat ++ [0])) ∧
    SubAck.write ⟨pkid, [], none⟩ s = (.ok 5, s ++ ([0x90, 3] ++ Spec.u16 pkid.toNat ++ [0])) ∧
    ∀ max rest, 3 ≤ max →
      V5.read max ([0xB0, 3] ++ Spec.u16 pkid.toNat ++ [0] ++ rest) = (.err .MalformedPacket, rest) ∧
      V5.read max ([0x90, 3] ++ Spec.u16 pkid.toNat ++ [0] ++ rest) = (.err .MalformedPacket, rest) := by
  have hnone : ∀ (π : Type) (f : π → List Spec.V5.Property), Spec.V5.PropsFit f none := by
    intro π f p hp; simp at hp
  have h3 : ∀ (b : Bytes), b.length = 2 → (b ++ Spec.V5.optSec Spec.V5.reasonProps none ++ []).length = 3 := by
    intro b hb
    simp [hb]; rfl
  have h3u : (body (.UnsubAck (UnsubAck.new pkid))).length = 3 := h3 (Spec.u16 pkid.toNat) rfl
  have h3s : (body (.SubAck ⟨pkid, [], none⟩)).length = 3 := h3 (Spec.u16 pkid.toNat) rfl
  refine ⟨?_, ?_, fun max rest hm => ⟨?_, ?_⟩⟩
  · exact UnsubAck.write_run (UnsubAck.new pkid) (hnone _ _) (by rw [h3u]; decide) s
  · exact SubAck.write_run ⟨pkid, [], none⟩ (hnone _ _) (by rw [h3s]; decide) s
  · refine Eq.trans (by simp) ((v5_read_frame max 0xB0 [3] (Spec.u16 pkid.toNat ++ [0]) rest
      ⟨by decide, [], 3, rfl, by decide, by simp⟩ (by simp [u16_len]; rfl) (by simpa [u16_len] using hm)).trans ?_)
    refine congrArg (·, rest) ?_
    have ht : FixedHeader.packet_type ⟨0xB0, [(3 : UInt8)].length + 1, (Spec.u16 pkid.toNat ++ [0]).length⟩
        = .ok .UnsubAck := (packet_type_ok_iff _ _).2 (by simp [PacketType.toU8])
    simp only [V5.readFrame, ht, if_neg (show ¬ ((Spec.u16 pkid.toNat ++ [0]).length = 0) by simp [u16_len])]
    rw [onFrame_err_iff]
    unfold UnsubAck.readM
    rw [bind_run, advance_run [0xB0, 3] _ ([(3 : UInt8)].length + 1) rfl, andThen_ok, bind_run, read_u16_run, andThen_ok]
    rfl
  · refine Eq.trans (by simp) ((v5_read_frame max 0x90 [3] (Spec.u16 pkid.toNat ++ [0]) rest
      ⟨by decide, [], 3, rfl, by decide, by simp⟩ (by simp [u16_len]; rfl) (by simpa [u16_len] using hm)).trans ?_)
    refine congrArg (·, rest) ?_
    have ht : FixedHeader.packet_type ⟨0x90, [(3 : UInt8)].length + 1, (Spec.u16 pkid.toNat ++ [0]).length⟩
        = .ok .SubAck := (packet_type_ok_iff _ _).2 (by simp [PacketType.toU8])
    simp only [V5.readFrame, ht, if_neg (show ¬ ((Spec.u16 pkid.toNat ++ [0]).length = 0) by simp [u16_len])]
    rw [onFrame_err_iff]
    unfold SubAck.readM
    rw [bind_run, advance_run [0x90, 3] _ ([(3 : UInt8)].length + 1) rfl, andThen_ok, bind_run, read_u16_run, andThen_ok]
    rfl

/-- C38: v5 UNSUBSCRIBE round-trips. -/
theorem C38_v5_unsubscribe_roundtrip (p : Unsubscribe) (hf : FieldsFit (.Unsubscribe p))
    (hm : Meaningful (.Unsubscribe p)) (hl : (body (.Unsubscribe p)).length ≤ 268435455) (s : Bytes) :
    ∃ bytes, p.write s = (.ok bytes.length, s ++ bytes) ∧
      ∀ max rest, (body (.Unsubscribe p)).length ≤ max →
        V5.read max (bytes ++ rest) = (.ok (.Unsubscribe p), rest) :=
  v5_roundtrip (.Unsubscribe p) ⟨hf, hm, hl⟩ trivial (by simp) s

example :
    let p : Subscribe := ⟨7, [⟨"a", .AtMostOnce, true, false, .Never⟩, ⟨"b/#", .ExactlyOnce, false, true, .OnNewSubscribe⟩],
      some ⟨some 300, [("k", "v")]⟩⟩
    V5.read 100 (p.write []).2 = (.ok (.Subscribe p), []) := by decide +kernel
example :
    let p : UnsubAck := ⟨7, [.Success, .NoSubscriptionExisted], some ⟨some "x", []⟩⟩
    V5.read 100 (p.write []).2 = (.ok (.UnsubAck p), []) := by decide +kernel
example :
    let p : Unsubscribe := ⟨7, ["a", "b/#"], some ⟨[("k", "v")]⟩⟩
    V5.read 100 (p.write []).2 = (.ok (.Unsubscribe p), []) := by decide +kernel

/-! ### C39 -/

/-- C39: v5 DISCONNECT with a (non-empty) property set round-trips. -/
theorem C39_v5_disconnect_roundtrip (d : Disconnect) (q : DisconnectProperties) (hq : d.properties = some q)
    (hne : disconnectProps q ≠ []) (hf : FieldsFit (.Disconnect d))
    (hl : (body (.Disconnect d)).length ≤ 268435455) (s : Bytes) :
    ∃ bytes, d.write s = (.ok bytes.length, s ++ bytes) ∧
      ∀ max rest, (body (.Disconnect d)).length ≤ max →
        V5.read max (bytes ++ rest) = (.ok (.Disconnect d), rest) :=
  v5_roundtrip (.Disconnect d) ⟨hf, by intro p hp; rw [hq] at hp; cases hp; exact hne, hl⟩
    (by show d.properties ≠ none; rw [hq]; simp) (by simp) s

/-- C39, the exceptions: a normal DISCONNECT without properties, and any with an empty property set,
is written as `E0 00`, which `v5::read` refuses. -/
theorem C39_v5_disconnect_normal_unreadable (d : Disconnect)
    (hd : (d.reason_code = .NormalDisconnection ∧ d.properties = none)
      ∨ ∃ q, d.properties = some q ∧ disconnectProps q = []) (s : Bytes) :
    d.write s = (.ok 2, s ++ [0xE0, 0x00]) ∧
      ∀ max rest, V5.read max ([0xE0, 0x00] ++ rest) = (.err .PayloadRequired, rest) := by
  constructor
  · rcases hd with ⟨h1, h2⟩ | ⟨q, h1, h2⟩
    · have := Disconnect.write_run d (by intro p hp; rw [h2] at hp; simp at hp)
        (by intro p hp; rw [h2] at hp; simp at hp)
        (by simp [body, h1, h2]) s
      rw [this]
      simp only [encode, Spec.V5.byte1, body, h1, h2]
      rfl
    · exact Disconnect.write_empty_props d q h1 h2 s
  · intro max rest
    exact v5_read_frame max 0xE0 [0] [] rest ⟨by decide, [], 0, rfl, by decide, by simp⟩ rfl (by simp)

/-- C39, the other exception: with another reason and no properties the property length is missing
(which MQTT 5 allows) and `v5::read` removes the frame and returns `InsufficientBytes`. -/
theorem C39_v5_disconnect_reason_unreadable (d : Disconnect) (h0 : d.reason_code ≠ .NormalDisconnection)
    (hp : d.properties = none) (s : Bytes) :
    ∃ bytes, d.write s = (.ok bytes.length, s ++ bytes) ∧ bytes = Spec.V5.encode (.Disconnect d) ∧
      ∀ max rest, 1 ≤ max → V5.read max (bytes ++ rest) = (.err (.InsufficientBytes 1), rest) := by
  have hb : body (.Disconnect d) = Spec.u8 (Spec.V5.disconnectCode d.reason_code) := by simp [body, h0, hp]
  have hw := Disconnect.write_run d (by intro p hp'; rw [hp] at hp'; simp at hp')
        (by intro p hp'; rw [hp] at hp'; simp at hp')
        (by rw [hb, u8_len]; decide) s
  refine ⟨_, hw, rfl, fun max rest hm => ?_⟩
  have h := v5_read_frame max 0xE0 [1] (Spec.u8 (Spec.V5.disconnectCode d.reason_code)) rest
    ⟨by decide, [], 1, rfl, by decide, by simp⟩ rfl hm
  refine Eq.trans ?_ (h.trans ?_)
  · rw [encode, hb]; rfl
  · refine congrArg (·, rest) ?_
    obtain ⟨code, pr⟩ := d
    clear h hw hb hp
    simp only at h0 ⊢
    cases code <;> first | exact absurd rfl h0 | decide +kernel

example :
    let d : Disconnect := ⟨.ServerMoved, some ⟨some 9, some "r", [("a", "b")], some "s"⟩⟩
    V5.read 100 (d.write []).2 = (.ok (.Disconnect d), []) := by decide +kernel

/-! ### C23, v5 -/

/-- C23 (v5): PINGREQ and PINGRESP round-trip whatever follows and whatever the limit. -/
theorem C23_v5_ping_roundtrip (p : Packet) (hp : p = .PingReq ∨ p = .PingResp) (s : Bytes) :
    ∃ bytes, p.write s = (.ok bytes.length, s ++ bytes) ∧
      ∀ max rest, V5.read max (bytes ++ rest) = (.ok p, rest) := by
  have hwf : WF p ∧ ReadsBack p ∧ (∀ c, p ≠ .Connect c) ∧ (body p).length = 0 := by
    rcases hp with rfl | rfl <;> exact ⟨⟨trivial, trivial, by decide⟩, trivial, by simp, rfl⟩
  exact (v5_roundtrip p hwf.1 hwf.2.1 hwf.2.2.1 s).imp
    fun b h => ⟨h.1, fun max rest => h.2 max rest (by omega)⟩

example : Packet.write .PingReq [5] = (.ok 2, [5, 0xC0, 0]) := by decide +kernel

/-! ### C16 -/

theorem v5_pump_encodes (max : Nat) (ps : List Packet)
    (h : ∀ p ∈ ps, WF p ∧ ReadsBack p ∧ (body p).length ≤ max) :
    Pump (V5.read max) retryUnconsumed (ps.flatMap encode) ps none [] := by
  induction ps with
  | nil => exact v5_pump_nil max
  | cons p ps ih =>
    have hp := h p (by simp)
    exact .step (read_encode p hp.1 hp.2.1 max hp.2.2 _) (ih fun q hq => h q (by simp [hq]))

/-- C16: any sequence of well-formed packets that read back (`Spec.V5.ReadsBack`: protocol level 5,
CONNACK and DISCONNECT with properties, PUBLISH whose subscription identifiers do not overrun), each
serialised to its own buffer and sent one after the other, is read back as that sequence. -/
theorem C16_v5_sequence (max : Nat) (ps : List Packet)
    (h : ∀ p ∈ ps, WF p ∧ ReadsBack p ∧ (body p).length ≤ max) :
    Pump (V5.read max) retryUnconsumed (ps.map fun p => (p.write []).2).flatten ps none [] := by
  have e : (ps.map fun p => (p.write []).2).flatten = ps.flatMap encode := by
    rw [List.flatMap_def]
    congr 1
    refine List.map_congr_left fun p hp => ?_
    obtain ⟨n, hn⟩ := write_empty p (h p hp).1 (by rintro c rfl; exact (h _ hp).2.1)
    rw [hn]
  rw [e]
  exact v5_pump_encodes max ps h

/-- C16: the same for one shared buffer, when a CONNECT occurs only as the first packet. -/
theorem C16_v5_sequence_one_buffer (max : Nat) (ps : List Packet)
    (h : ∀ p ∈ ps, WF p ∧ ReadsBack p ∧ (body p).length ≤ max)
    (hc : ∀ p ∈ ps.tail, ∀ c, p ≠ .Connect c) :
    Pump (V5.read max) retryUnconsumed (ps.foldl (fun buf p => (p.write buf).2) []) ps none [] := by
  have gen : ∀ (qs : List Packet), (∀ p ∈ qs, WF p ∧ ReadsBack p) → (∀ p ∈ qs, ∀ c, p ≠ .Connect c) →
      ∀ buf, qs.foldl (fun buf p => (p.write buf).2) buf = buf ++ qs.flatMap encode := by
    intro qs
    induction qs with
    | nil => intro _ _ buf; simp
    | cons q qs ih =>
      intro h1 h2 buf
      rw [List.foldl_cons, write_encode q (h1 q (by simp)).1 (h2 q (by simp))
          (by rintro c rfl; exact (h1 (.ConnAck c) (by simp)).2),
        ih (fun p hp => h1 p (by simp [hp])) (fun p hp => h2 p (by simp [hp]))]
      simp
  have e : ps.foldl (fun buf p => (p.write buf).2) [] = ps.flatMap encode := by
    cases ps with
    | nil => rfl
    | cons p ps =>
      obtain ⟨n, hn⟩ := write_empty p (h p (by simp)).1 (by rintro c rfl; exact (h (.ConnAck c) (by simp)).2.1)
      rw [List.foldl_cons, hn, gen ps (fun q hq => ⟨(h q (by simp [hq])).1, (h q (by simp [hq])).2.1⟩) hc]
      rfl
  rw [e]
  exact v5_pump_encodes max ps h

example : Pump (V5.read 100) retryUnconsumed
    ([Packet.PingReq, .Connect (Connect.new "id"), .PubAck ⟨3, .Success, none⟩].map fun p => (p.write []).2).flatten
    [.PingReq, .Connect (Connect.new "id"), .PubAck ⟨3, .Success, none⟩] none [] := by
  apply C16_v5_sequence
  intro p hp
  simp only [List.mem_cons, List.not_mem_nil, or_false] at hp
  rcases hp with rfl | rfl | rfl
  · exact ⟨⟨trivial, trivial, by decide⟩, trivial, by decide⟩
  · exact ⟨⟨⟨by show (utf8 "id").length ≤ 65535; decide +kernel, by simp [Connect.new, Spec.V5.PropsFit], by simp [Connect.new], by simp [Connect.new]⟩,
      by simp [Meaningful, Connect.new, NonEmpty], by decide +kernel⟩, .inl rfl, by decide +kernel⟩
  · exact ⟨⟨by simp [FieldsFit, Spec.V5.PropsFit], by simp [Meaningful, NonEmpty], by decide⟩, trivial, by decide⟩

/-! ### C30, v5 -/

/-- C30 (v5): on the packets that read back, writing is injective and prefix-free. -/
theorem C30_v5_injective (p q : Packet) (hp : WF p ∧ ReadsBack p) (hq : WF q ∧ ReadsBack q) (a b : Bytes)
    (h : (p.write []).2 ++ a = (q.write []).2 ++ b) : p = q ∧ a = b := by
  obtain ⟨n, hn⟩ := write_empty p hp.1 (by rintro c rfl; exact hp.2)
  obtain ⟨m, hm⟩ := write_empty q hq.1 (by rintro c rfl; exact hq.2)
  rw [hn, hm] at h
  simp only at h
  have h1 := read_encode p hp.1 hp.2 (max (body p).length (body q).length) (by omega) a
  have h2 := read_encode q hq.1 hq.2 (max (body p).length (body q).length) (by omega) b
  rw [h] at h1
  rw [h2] at h1
  simp at h1
  exact ⟨h1.1.symm, h1.2.symm⟩

example : Spec.V5.WF (.PubRec ⟨7, .NotAuthorized, some ⟨some "x", [("a", "b")]⟩⟩) ∧ Spec.V5.ReadsBack (.PubRec ⟨7, .NotAuthorized, some ⟨some "x", [("a", "b")]⟩⟩) := by
  refine ⟨⟨?_, ?_, by decide +kernel⟩, trivial⟩
  · intro p hp q hq
    obtain rfl := Option.some.inj hp
    rcases List.mem_cons.1 hq with rfl | hq
    · show (utf8 "x").length ≤ 65535; decide +kernel
    · obtain rfl := List.mem_singleton.1 hq
      exact ⟨by show (utf8 "a").length ≤ 65535; decide +kernel, by show (utf8 "b").length ≤ 65535; decide +kernel⟩
  · intro p hp; obtain rfl := Option.some.inj hp; simp [Spec.V5.reasonProps, Spec.V5.opt]

end Props
