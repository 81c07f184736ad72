import Verif.Proof.V5Stream
import Verif.Spec.Repeat
/-! Frames that reach a property section. -/
set_option linter.unusedSimpArgs false
namespace Mqtt.V5
open Mqtt Spec Spec.V5
open Spec.V4 (typeNum bit)

theorem onFrame_congr {α β : Type} {m m' : M α} {f f' : Bytes} {w : α → β} (h : (m f).1 = (m' f').1) :
    onFrame m f w = onFrame m' f' w := by
  unfold onFrame; rw [h]

theorem valuesOf_filter {α : Type} (i : Nat) (sel : Val → Option α) (l : List Property) :
    valuesOf i sel l = (l.filter (·.id = i)).filterMap (fun p => sel p.val) := by
  unfold valuesOf
  rw [List.filterMap_filter]
  refine congrFun (congrArg _ ?_) _
  funext p
  by_cases h : p.id = i <;> simp [h]

/-- `sel` selects the values of one data type -/
def KindSel {α : Type} (sel : Val → Option α) : Prop := ∃ K, ∀ v, (sel v).isSome = true ↔ v.kind = K

theorem ks_u8 : KindSel Val.u8? := ⟨.u8, fun v => by cases v <;> simp [Val.u8?, Val.kind]⟩
theorem ks_u16 : KindSel Val.u16? := ⟨.u16, fun v => by cases v <;> simp [Val.u16?, Val.kind]⟩
theorem ks_u32 : KindSel Val.u32? := ⟨.u32, fun v => by cases v <;> simp [Val.u32?, Val.kind]⟩
theorem ks_vbi : KindSel Val.vbi? := ⟨.vbi, fun v => by cases v <;> simp [Val.vbi?, Val.kind]⟩
theorem ks_str : KindSel Val.str? := ⟨.str, fun v => by cases v <;> simp [Val.str?, Val.kind]⟩
theorem ks_bin : KindSel Val.bin? := ⟨.bin, fun v => by cases v <;> simp [Val.bin?, Val.kind]⟩

theorem getLast?_filterMap_all {α β : Type} (f : α → Option β) (l : List α) (h : ∀ a ∈ l, (f a).isSome = true) :
    (l.filterMap f).getLast? = l.getLast?.bind f := by
  induction l with
  | nil => rfl
  | cons a l ih =>
    have ha := h a (by simp)
    obtain ⟨b, hb⟩ := Option.isSome_iff_exists.1 ha
    rw [List.filterMap_cons_some hb]
    cases l with
    | nil => simp [hb]
    | cons c l =>
      rw [List.getLast?_cons_cons, ← ih (fun x hx => h x (by simp [hx]))]
      obtain ⟨d, hd⟩ := Option.isSome_iff_exists.1 (h c (by simp))
      rw [List.filterMap_cons_some hd, List.getLast?_cons_cons]

/-- lists of properties of the table `kind` that say the same -/
structure SameEffect (b1 : UInt8) (kind : Nat → Option Kind) (ps qs : List Property) : Prop where
  same : SameIfLastWins b1 ps qs
  kinds₁ : ∀ p ∈ ps, kind p.id = some p.val.kind
  kinds₂ : ∀ p ∈ qs, kind p.id = some p.val.kind

theorem valuesOf_congr {α : Type} {ps qs : List Property} {i : Nat} (h : ps.filter (·.id = i) = qs.filter (·.id = i))
    (sel : Val → Option α) : valuesOf i sel ps = valuesOf i sel qs := by
  rw [valuesOf_filter, valuesOf_filter, h]

theorem lastOf_eq {α : Type} {sel : Val → Option α} (hs : KindSel sel) {kind : Nat → Option Kind} {ps : List Property}
    (hk : ∀ p ∈ ps, kind p.id = some p.val.kind) (i : Nat) :
    lastOf i sel ps = (ps.filter (·.id = i)).getLast?.bind (fun p => sel p.val) := by
  obtain ⟨K, hK⟩ := hs
  unfold lastOf
  rw [valuesOf_filter]
  by_cases h : kind i = some K
  · apply getLast?_filterMap_all
    intro p hp
    simp only [List.mem_filter, decide_eq_true_eq] at hp
    have := hk p hp.1
    rw [hp.2, h] at this
    exact (hK _).2 (Option.some.inj this).symm
  · have h0 : ∀ p ∈ ps.filter (·.id = i), sel p.val = none := by
      intro p hp
      simp only [List.mem_filter, decide_eq_true_eq] at hp
      have := hk p hp.1
      rw [hp.2] at this
      cases hsel : sel p.val with
      | none => rfl
      | some x => exact absurd (this.trans (congrArg some ((hK p.val).1 (by simp [hsel])))) h
    rw [List.filterMap_eq_nil_iff.2 h0]
    cases hl : (ps.filter (·.id = i)).getLast? with
    | none => rfl
    | some p => exact (h0 p (List.mem_of_getLast? hl)).symm

theorem lastOf_congr {α : Type} {b1 : UInt8} {kind : Nat → Option Kind} {ps qs : List Property}
    (h : SameEffect b1 kind ps qs) (i : Nat) (sel : Val → Option α) (hs : KindSel sel) :
    lastOf i sel ps = lastOf i sel qs := by
  rw [lastOf_eq hs h.kinds₁, lastOf_eq hs h.kinds₂, h.same.last]

/-- the frame `b1`, `pre` reaches the decoder of a property section of table `kind` -/
def Reaches (b1 : UInt8) (pre : Bytes) (kind : Nat → Option Kind) : Prop :=
  ∃ (σ : Type) (step : PropStep σ) (dec : List Property → σ), GenStep kind step dec ∧
    (∀ ps qs, SameEffect b1 kind ps qs → dec ps = dec qs) ∧
    ∃ (α : Type) (w : α → Packet) (k : Option σ → M α), ∀ (hd tail : Bytes), tail ≠ [] →
      (pre ++ tail).length ≤ maxRemaining →
      readFrame ⟨b1, hd.length, (pre ++ tail).length⟩ (hd ++ (pre ++ tail))
        = onFrame (extractProps step (dec []) >>= k) tail w

macro "dec_congr" d:ident : tactic =>
  `(tactic| (intro ps qs hse; simp only [$d:ident, valuesOf_congr (hse.same.all 38 (.inl rfl)), lastOf_congr hse,
      ks_u8, ks_u16, ks_u32, ks_vbi, ks_str, ks_bin]))

theorem pkt_type {b1 : UInt8} {n : Nat} (h : typeNum b1 = n) (t : PacketType) (ht : t.toU8.toNat = n) (a b : Nat) :
    FixedHeader.packet_type ⟨b1, a, b⟩ = .ok t :=
  (packet_type_ok_iff _ _).2 (by simp only [typeNum] at h; rw [h, ht])

theorem ne_zero_len {pre tail : Bytes} (h : tail ≠ []) : ¬ ((pre ++ tail).length = 0) := by
  simp [h]

theorem subscribe_reaches (b1 : UInt8) (pkid : UInt16) (h : typeNum b1 = 8) :
    Reaches b1 (Spec.u16 pkid.toNat) subscribeKind := by
  refine ⟨_, _, _, subscribe_gen, (by dec_congr subscribeOf), Subscribe, .Subscribe, fun properties => do
    let bytes ← M.look
    let filters ← Subscribe.readLoop (bytes.length + 1) []
    pure { pkid := pkid, filters := filters, properties := properties }, fun hd tail ht hl => ?_⟩
  simp only [readFrame, pkt_type h .Subscribe rfl, if_neg (ne_zero_len ht)]
  refine onFrame_congr ?_
  unfold Subscribe.readM
  mrun [advance_run hd _ _ rfl, read_u16_run]
  rfl

theorem suback_reaches (b1 : UInt8) (pkid : UInt16) (h : typeNum b1 = 9) :
    Reaches b1 (Spec.u16 pkid.toNat) reasonKind := by
  refine ⟨_, _, _, reason_gen, (by dec_congr reasonOf), SubAck, .SubAck, fun properties => do
    let bytes ← M.look
    if bytes.isEmpty then M.fail .MalformedPacket else
    let return_codes ← readCodesLoop SubscribeReasonCode.try_from (bytes.length + 1) []
    pure { pkid := pkid, return_codes := return_codes, properties := properties }, fun hd tail ht hl => ?_⟩
  simp only [readFrame, pkt_type h .SubAck rfl, if_neg (ne_zero_len ht)]
  refine onFrame_congr ?_
  unfold SubAck.readM
  mrun [advance_run hd _ _ rfl, read_u16_run]
  rfl

theorem unsubscribe_reaches (b1 : UInt8) (pkid : UInt16) (h : typeNum b1 = 10) :
    Reaches b1 (Spec.u16 pkid.toNat) unsubscribeKind := by
  refine ⟨_, _, _, unsubscribe_gen, (by dec_congr unsubscribeOf), Unsubscribe, .Unsubscribe, fun properties => do
    let bytes ← M.look
    let filters ← Unsubscribe.readLoop (bytes.length + 1) []
    pure { pkid := pkid, filters := filters, properties := properties }, fun hd tail ht hl => ?_⟩
  simp only [readFrame, pkt_type h .Unsubscribe rfl, if_neg (ne_zero_len ht)]
  refine onFrame_congr ?_
  unfold Unsubscribe.readM
  mrun [advance_run hd _ _ rfl, read_u16_run]
  rfl

theorem unsuback_reaches (b1 : UInt8) (pkid : UInt16) (h : typeNum b1 = 11) :
    Reaches b1 (Spec.u16 pkid.toNat) reasonKind := by
  refine ⟨_, _, _, reason_gen, (by dec_congr reasonOf), UnsubAck, .UnsubAck, fun properties => do
    let bytes ← M.look
    if bytes.isEmpty then M.fail .MalformedPacket else
    let reasons ← readCodesLoop UnsubAckReason.reason (bytes.length + 1) []
    pure { pkid := pkid, reasons := reasons, properties := properties }, fun hd tail ht hl => ?_⟩
  simp only [readFrame, pkt_type h .UnsubAck rfl, if_neg (ne_zero_len ht)]
  refine onFrame_congr ?_
  unfold UnsubAck.readM
  mrun [advance_run hd _ _ rfl, read_u16_run]
  rfl

theorem disconnect_reaches (code : DisconnectReasonCode) :
    Reaches 0xE0 (Spec.u8 (disconnectCode code)) disconnectKind := by
  refine ⟨_, _, _, disconnect_gen, (by dec_congr disconnectOf), Disconnect, .Disconnect,
    fun properties => pure { reason_code := code, properties := properties }, fun hd tail ht hl => ?_⟩
  simp only [readFrame, pkt_type (show typeNum 0xE0 = 14 by decide) .Disconnect rfl, if_neg (ne_zero_len ht)]
  refine onFrame_congr ?_
  unfold Disconnect.readM
  have hc : DisconnectReasonCode.try_from (UInt8.ofNat (disconnectCode code)) = .ok code := by cases code <;> rfl
  simp only [if_neg (ne_zero_len ht)]
  mrun [advance_run hd _ _ rfl]
  simp only [show (0xE0 : UInt8) >>> 4 = PacketType.Disconnect.toU8 by decide,
    show (0xE0 : UInt8) &&& 0b00001111 = 0 by decide]
  mrun [Spec.u8, List.singleton_append, read_u8_cons, hc]
  rfl

theorem connack_reaches (b1 flags : UInt8) (code : ConnectReturnCode) (h : typeNum b1 = 2) :
    Reaches b1 ([flags] ++ Spec.u8 (connectCode code)) connackKind := by
  refine ⟨_, _, _, connack_gen, (by dec_congr connackOf), ConnAck, .ConnAck,
    fun properties => pure { session_present := decide (flags &&& 0x01 = 1), code := code, properties := properties },
    fun hd tail ht hl => ?_⟩
  simp only [readFrame, pkt_type h .ConnAck rfl, if_neg (ne_zero_len ht)]
  refine onFrame_congr ?_
  unfold ConnAck.readM
  have hc : connect_return (UInt8.ofNat (connectCode code)) = .ok code := by cases code <;> rfl
  mrun [advance_run hd _ _ rfl, Spec.u8, List.singleton_append, List.cons_append, List.nil_append, read_u8_cons, hc]
  rfl

theorem ack_reaches {R : Type} (ok : R) (conv : UInt8 → Res R) (w : Ack R → Packet) (code : R → Nat)
    (t : PacketType) (n : Nat) (hn : t.toU8.toNat = n)
    (hrf : ∀ (h : FixedHeader) (s : Bytes), h.packet_type = .ok t → h.remaining_len ≠ 0 →
      readFrame h s = onFrame (Ack.readM ok conv h) s w)
    (b1 : UInt8) (pkid : UInt16) (r : R) (hc : conv (UInt8.ofNat (code r)) = .ok r) (h : typeNum b1 = n) :
    Reaches b1 (Spec.u16 pkid.toNat ++ Spec.u8 (code r)) reasonKind := by
  refine ⟨_, _, _, reason_gen, (by dec_congr reasonOf), Ack R, w,
    fun properties => pure { pkid := pkid, reason := r, properties := properties },
    fun hd tail ht hl => ?_⟩
  rw [hrf _ _ (pkt_type h t hn _ _) (ne_zero_len ht)]
  refine onFrame_congr ?_
  unfold Ack.readM
  have h4 : 4 ≤ (Spec.u16 pkid.toNat ++ Spec.u8 (code r) ++ tail).length := by
    have := List.length_pos_iff.2 ht
    simp only [List.length_append, u16_len, u8_len]; omega
  simp only [if_neg (show ¬ ((Spec.u16 pkid.toNat ++ Spec.u8 (code r) ++ tail).length = 2) by omega),
    if_neg (show ¬ ((Spec.u16 pkid.toNat ++ Spec.u8 (code r) ++ tail).length < 4) by omega)]
  mrun [advance_run hd _ _ rfl, List.append_assoc, read_u16_run, Spec.u8, List.singleton_append, List.cons_append,
    List.nil_append, read_u8_cons, hc]
  rfl

theorem publish_qos (b1 : UInt8) (q : QoS) (h : b1.toNat / 2 % 4 = Spec.V4.qosNum q) :
    Mqtt.qos ((b1 &&& 0b0110) >>> 1) = .ok q := by
  revert b1; cases q <;> exact forall_u8 (by decide +kernel)

theorem publish0_reaches (b1 : UInt8) (topic : String) (h : typeNum b1 = 3) (hq : b1.toNat / 2 % 4 = 0)
    (ht : fits (utf8 topic).length) : Reaches b1 (str topic) publishKind := by
  refine ⟨_, _, _, publish_gen, (by
      intro ps qs hse
      simp only [publishOf, valuesOf_congr (hse.same.all 38 (.inl rfl)), valuesOf_congr (hse.same.all 11 (.inr ⟨rfl, h⟩)),
        lastOf_congr hse, ks_u8, ks_u16, ks_u32, ks_vbi, ks_str, ks_bin]), Publish, .Publish, fun properties => do
    let payload ← M.look
    pure { dup := decide (b1 &&& 0b1000 ≠ 0), retain := decide (b1 &&& 0b0001 ≠ 0), qos := .AtMostOnce, pkid := 0,
           topic := topic, properties := properties, payload := payload }, fun hd tail ht' hl => ?_⟩
  simp only [readFrame, pkt_type h .Publish rfl, if_neg (ne_zero_len ht')]
  refine onFrame_congr ?_
  unfold Publish.readM
  simp only [publish_qos b1 .AtMostOnce (by rw [hq]; rfl)]
  mrun [advance_run hd _ _ rfl, read_mqtt_string_run _ _ ht]
  rfl

theorem publish_reaches (b1 : UInt8) (topic : String) (pkid : UInt16) (h : typeNum b1 = 3)
      (hq : b1.toNat / 2 % 4 = 1 ∨ b1.toNat / 2 % 4 = 2) (ht : fits (utf8 topic).length)
      (hp : pkid ≠ 0) : Reaches b1 (str topic ++ Spec.u16 pkid.toNat) publishKind := by
  obtain ⟨q, hq0, hqq⟩ : ∃ q : QoS, q ≠ .AtMostOnce ∧ b1.toNat / 2 % 4 = Spec.V4.qosNum q := by
    rcases hq with hq | hq
    · exact ⟨.AtLeastOnce, by simp, by rw [hq]; rfl⟩
    · exact ⟨.ExactlyOnce, by simp, by rw [hq]; rfl⟩
  refine ⟨_, _, _, publish_gen, (by
      intro ps qs hse
      simp only [publishOf, valuesOf_congr (hse.same.all 38 (.inl rfl)), valuesOf_congr (hse.same.all 11 (.inr ⟨rfl, h⟩)),
        lastOf_congr hse, ks_u8, ks_u16, ks_u32, ks_vbi, ks_str, ks_bin]), Publish, .Publish, fun properties => do
    let payload ← M.look
    pure { dup := decide (b1 &&& 0b1000 ≠ 0), retain := decide (b1 &&& 0b0001 ≠ 0), qos := q, pkid := pkid,
           topic := topic, properties := properties, payload := payload }, fun hd tail ht' hl => ?_⟩
  simp only [readFrame, pkt_type h .Publish rfl, if_neg (ne_zero_len ht')]
  refine onFrame_congr ?_
  unfold Publish.readM
  simp only [publish_qos b1 q hqq]
  cases q
  · exact absurd rfl hq0
  all_goals
    mrun [advance_run hd _ _ rfl, List.append_assoc, read_mqtt_string_run _ _ ht, read_u16_run]
    simp only [hp, and_false, if_false]
    rfl

theorem connect_reaches (b1 flags : UInt8) (ka : UInt16) (h : typeNum b1 = 1) :
    Reaches b1 (str "MQTT" ++ Spec.u8 5 ++ [flags] ++ Spec.u16 ka.toNat) connectKind := by
  refine ⟨_, _, _, connect_gen, (by dec_congr connectOf), Connect, .Connect, fun properties => do
    let client_id ← read_mqtt_string
    let last_will ← LastWill.read flags
    let login ← Login.read flags
    pure (Connect.mk .V5 ka client_id (decide (flags &&& 0b10 ≠ 0)) last_will login properties), fun hd tail ht' hl => ?_⟩
  simp only [readFrame, pkt_type h .Connect rfl, if_neg (ne_zero_len ht')]
  refine onFrame_congr ?_
  unfold Connect.readM
  have hM : (utf8 "MQTT").length ≤ 65535 := by decide +kernel
  mrun [advance_run hd _ _ rfl, List.append_assoc, read_mqtt_string_run _ _ hM, Spec.u8, List.singleton_append,
    List.cons_append, List.nil_append, read_u8_cons, read_u16_run]
  rw [if_neg (by simp)]
  change (M.andThen ((pure Protocol.V5 : M Protocol) _) _).1 = _
  mrun [read_u8_cons, read_u16_run]
  rfl

theorem will_reaches (b1 flags : UInt8) (ka : UInt16) (sec : Bytes) (ps : Option (List Property))
      (cid : String) (h : typeNum b1 = 1) (hs : SecDenotes connectKind sec ps)
      (hc : fits (utf8 cid).length) (hw : bit flags 2) :
      Reaches b1 (str "MQTT" ++ Spec.u8 5 ++ [flags] ++ Spec.u16 ka.toNat ++ sec ++ str cid) willKind := by
  refine ⟨_, _, _, will_gen, (by dec_congr willOf), Connect, .Connect, fun properties => do
    let will_topic ← read_mqtt_string
    let will_message ← read_mqtt_bytes
    let will_qos ← M.lift (Mqtt.qos ((flags &&& 0b11000) >>> 3))
    let login ← Login.read flags
    pure (Connect.mk .V5 ka cid (decide (flags &&& 0b10 ≠ 0))
      (some { topic := will_topic, message := will_message, qos := will_qos,
              retain := decide (flags &&& 0b00100000 ≠ 0), properties := properties }) login (ps.map connectOf)), fun hd tail ht' hl => ?_⟩
  simp only [readFrame, pkt_type h .Connect rfl, if_neg (ne_zero_len ht')]
  refine onFrame_congr ?_
  unfold Connect.readM
  have hM : (utf8 "MQTT").length ≤ 65535 := by decide +kernel
  have hsec : ConnectProperties.read (sec ++ (str cid ++ tail)) = (.ok (ps.map connectOf), str cid ++ tail) := by
    refine (extractProps_iff connect_gen _ _ _ ?_).2 ⟨sec, rfl, ps, hs, rfl⟩
    refine Nat.le_trans ?_ hl
    simp only [List.length_append]; omega
  have hf : ¬ (flags &&& 0b100 = 0) := by
    clear hsec hl
    revert flags
    exact forall_u8 (by decide +kernel)
  mrun [advance_run hd _ _ rfl, List.append_assoc, read_mqtt_string_run _ _ hM, Spec.u8, List.singleton_append,
    List.cons_append, List.nil_append, read_u8_cons, read_u16_run]
  rw [if_neg (by simp)]
  change (M.andThen ((pure Protocol.V5 : M Protocol) _) _).1 = _
  mrun [read_u8_cons, read_u16_run, hsec, read_mqtt_string_run _ _ hc]
  unfold LastWill.read WillProperties.read
  rw [if_neg hf, ← bind_run]
  simp only [M.bind_assoc, M.pure_bind]
  rfl

theorem sectionAt_reaches {b1 : UInt8} {pre : Bytes} {kind : Nat → Option Kind} (h : SectionAt b1 pre kind) :
    Reaches b1 pre kind := by
  cases h with
  | connect _ flags ka h => exact connect_reaches _ _ _ h
  | will _ flags ka sec ps cid h hs hc hw => exact will_reaches _ _ _ _ _ _ h hs hc hw
  | connack _ flags code h => exact connack_reaches _ _ _ h
  | publish0 _ topic h hq ht => exact publish0_reaches _ _ h hq ht
  | publish _ topic pkid h hq ht hp => exact publish_reaches _ _ _ h hq ht hp
  | puback _ pkid r h =>
    exact ack_reaches _ _ _ _ .PubAck 4 rfl (fun h s h1 h2 => by simp only [readFrame, h1, if_neg h2]; rfl) _ _ _
      (by cases r <;> rfl) h
  | pubrec _ pkid r h =>
    exact ack_reaches _ _ _ _ .PubRec 5 rfl (fun h s h1 h2 => by simp only [readFrame, h1, if_neg h2]; rfl) _ _ _
      (by cases r <;> rfl) h
  | pubrel _ pkid r h =>
    exact ack_reaches _ _ _ _ .PubRel 6 rfl (fun h s h1 h2 => by simp only [readFrame, h1, if_neg h2]; rfl) _ _ _
      (by cases r <;> rfl) h
  | pubcomp _ pkid r h =>
    exact ack_reaches _ _ _ _ .PubComp 7 rfl (fun h s h1 h2 => by simp only [readFrame, h1, if_neg h2]; rfl) _ _ _
      (by cases r <;> rfl) h
  | subscribe _ pkid h => exact subscribe_reaches _ _ h
  | suback _ pkid h => exact suback_reaches _ _ h
  | unsubscribe _ pkid h => exact unsubscribe_reaches _ _ h
  | unsuback _ pkid h => exact unsuback_reaches _ _ h
  | disconnect code => exact disconnect_reaches _

end Mqtt.V5
