import Verif.Props.Std
import Verif.Props.V4Write
import Verif.Props.V5Write
/-! What the writers emit is what a conforming peer may send (C81). -/
set_option linter.unusedSimpArgs false
namespace Props
open Mqtt Spec

section V5
open Mqtt.V5
open Spec.V5 (Property Kind Readable vbis sec encAll opt users WF FieldsFit Meaningful ReadsBack)
open Spec.Std5

/-- how many properties have identifier `i` -/
def cnt (i : Nat) (ps : List Property) : Nat := (ps.filter (·.id = i)).length
/-- 1 if equal, else 0 -/
def one (a i : Nat) : Nat := if a = i then 1 else 0

theorem cnt_append (i : Nat) (a b : List Property) : cnt i (a ++ b) = cnt i a + cnt i b := by
  simp [cnt, List.filter_append]

theorem cnt_opt {α : Type} (i id : Nat) (f : α → Spec.V5.Val) (o : Option α) : cnt i (opt id f o) ≤ one id i := by
  cases o with
  | none => simp [cnt, opt]
  | some v =>
    by_cases h : id = i
    · simp [cnt, opt, one, h]
    · simp [cnt, opt, one, h]

theorem cnt_users (i : Nat) (h : i ≠ 38) (l : List (String × String)) : cnt i (users l) = 0 := by
  simp only [cnt, users, List.length_eq_zero_iff, List.filter_eq_nil_iff]
  intro q hq
  obtain ⟨kv, _, rfl⟩ := List.mem_map.1 hq
  simp [Ne.symm h]

theorem cnt_ids (i : Nat) (h : i ≠ 11) (l : List Nat) : cnt i (l.map fun n => (⟨11, .vbi n⟩ : Property)) = 0 := by
  simp only [cnt, List.length_eq_zero_iff, List.filter_eq_nil_iff]
  intro q hq
  obtain ⟨kv, _, rfl⟩ := List.mem_map.1 hq
  simp [Ne.symm h]

theorem one_sum (i : Nat) (l : List Nat) (h : l.Nodup) : (l.map (one · i)).sum ≤ 1 := by
  induction l with
  | nil => simp
  | cons a l ih =>
    have h2 := List.nodup_cons.1 h
    simp only [List.map_cons, List.sum_cons]
    by_cases ha : a = i
    · subst ha
      have : (l.map (one · a)).sum = 0 := by
        have hz : ∀ b ∈ l, one b a = 0 := fun b hb => by
          have : b ≠ a := fun e => h2.1 (e ▸ hb)
          simp [one, this]
        clear ih h h2
        induction l with
        | nil => rfl
        | cons b l ih =>
          simp only [List.map_cons, List.sum_cons, hz b (by simp)]
          rw [ih fun b hb => hz b (by simp [hb])]
      rw [this]; simp [one]
    · have := ih h2.2
      have h0 : one a i = 0 := by simp [one, ha]
      omega

theorem reason_ok (pl : Place) (hk : ∀ i, kindAt pl i = Spec.V5.reasonKind i) (p : ReasonProps)
    (hf : ∀ q ∈ Spec.V5.reasonProps p, q.val.Fits) : PropsOk pl (Spec.V5.reasonProps p) := by
  refine ⟨fun q hq => ⟨by rw [hk]; exact (reason_kinds p q hq).2, hf q hq⟩, fun i hi => ?_⟩
  have h38 : i ≠ 38 := fun h => hi (.inl h)
  show cnt i _ ≤ 1
  simp only [Spec.V5.reasonProps, cnt_append, cnt_users i h38]
  have := one_sum i [31] (by decide)
  have h1 := cnt_opt i 31 .str p.reason_string
  simp at this; omega

theorem will_ok (p : WillProperties) (hf : ∀ q ∈ Spec.V5.willProps p, q.val.Fits) : PropsOk .will (Spec.V5.willProps p) := by
  refine ⟨fun q hq => ⟨by rw [(C79_v5_property_tables _).2.1]; exact (will_kinds p q hq).2, hf q hq⟩, fun i hi => ?_⟩
  have h38 : i ≠ 38 := fun h => hi (.inl h)
  show cnt i _ ≤ 1
  simp only [Spec.V5.willProps, cnt_append, cnt_users i h38]
  have := one_sum i [24, 1, 2, 3, 8, 9] (by decide)
  have h1 := cnt_opt i 24 .u32 p.delay_interval
  have h2 := cnt_opt i 1 .u8 p.payload_format_indicator
  have h3 := cnt_opt i 2 .u32 p.message_expiry_interval
  have h4 := cnt_opt i 3 .str p.content_type
  have h5 := cnt_opt i 8 .str p.response_topic
  have h6 := cnt_opt i 9 .bin p.correlation_data
  simp at this; omega

theorem connect_ok (p : ConnectProperties) (hf : ∀ q ∈ Spec.V5.connectProps p, q.val.Fits) :
    PropsOk .connect (Spec.V5.connectProps p) := by
  refine ⟨fun q hq => ⟨by rw [(C79_v5_property_tables _).1]; exact (connect_kinds p q hq).2, hf q hq⟩, fun i hi => ?_⟩
  have h38 : i ≠ 38 := fun h => hi (.inl h)
  show cnt i _ ≤ 1
  simp only [Spec.V5.connectProps, cnt_append, cnt_users i h38]
  have := one_sum i [17, 33, 39, 34, 25, 23, 21, 22] (by decide)
  have h1 := cnt_opt i 17 .u32 p.session_expiry_interval
  have h2 := cnt_opt i 33 .u16 p.receive_maximum
  have h3 := cnt_opt i 39 .u32 p.max_packet_size
  have h4 := cnt_opt i 34 .u16 p.topic_alias_max
  have h5 := cnt_opt i 25 .u8 p.request_response_info
  have h6 := cnt_opt i 23 .u8 p.request_problem_info
  have h7 := cnt_opt i 21 .str p.authentication_method
  have h8 := cnt_opt i 22 .bin p.authentication_data
  simp at this; omega

theorem connack_ok (p : ConnAckProperties) (hf : ∀ q ∈ Spec.V5.connackProps p, q.val.Fits) :
    PropsOk .connack (Spec.V5.connackProps p) := by
  refine ⟨fun q hq => ⟨by rw [(C79_v5_property_tables _).2.2.1]; exact (connack_kinds p q hq).2, hf q hq⟩, fun i hi => ?_⟩
  have h38 : i ≠ 38 := fun h => hi (.inl h)
  show cnt i _ ≤ 1
  simp only [Spec.V5.connackProps, cnt_append, cnt_users i h38]
  have := one_sum i [17, 33, 36, 37, 39, 18, 34, 31, 40, 41, 42, 19, 26, 28, 21, 22] (by decide)
  have h1 := cnt_opt i 17 .u32 p.session_expiry_interval
  have h2 := cnt_opt i 33 .u16 p.receive_max
  have h3 := cnt_opt i 36 .u8 p.max_qos
  have h4 := cnt_opt i 37 .u8 p.retain_available
  have h5 := cnt_opt i 39 .u32 p.max_packet_size
  have h6 := cnt_opt i 18 .str p.assigned_client_identifier
  have h7 := cnt_opt i 34 .u16 p.topic_alias_max
  have h8 := cnt_opt i 31 .str p.reason_string
  have h9 := cnt_opt i 40 .u8 p.wildcard_subscription_available
  have h10 := cnt_opt i 41 .u8 p.subscription_identifiers_available
  have h11 := cnt_opt i 42 .u8 p.shared_subscription_available
  have h12 := cnt_opt i 19 .u16 p.server_keep_alive
  have h13 := cnt_opt i 26 .str p.response_information
  have h14 := cnt_opt i 28 .str p.server_reference
  have h15 := cnt_opt i 21 .str p.authentication_method
  have h16 := cnt_opt i 22 .bin p.authentication_data
  simp at this; omega

theorem publish_ok (p : PublishProperties) (hf : ∀ q ∈ Spec.V5.publishProps p, q.val.Fits) :
    PropsOk .publish (Spec.V5.publishProps p) := by
  refine ⟨fun q hq => ⟨by rw [(C79_v5_property_tables _).2.2.2.1]; exact (publish_kinds p q hq).2, hf q hq⟩, fun i hi => ?_⟩
  have h38 : i ≠ 38 := fun h => hi (.inl h)
  have h11 : i ≠ 11 := fun h => hi (.inr ⟨rfl, h⟩)
  show cnt i _ ≤ 1
  simp only [Spec.V5.publishProps, cnt_append, cnt_users i h38, cnt_ids i h11]
  have := one_sum i [1, 2, 35, 8, 9, 3] (by decide)
  have h1 := cnt_opt i 1 .u8 p.payload_format_indicator
  have h2 := cnt_opt i 2 .u32 p.message_expiry_interval
  have h3 := cnt_opt i 35 .u16 p.topic_alias
  have h4 := cnt_opt i 8 .str p.response_topic
  have h5 := cnt_opt i 9 .bin p.correlation_data
  have h6 := cnt_opt i 3 .str p.content_type
  simp at this; omega

theorem subscribe_ok (p : SubscribeProperties) (hf : ∀ q ∈ Spec.V5.subscribeProps p, q.val.Fits) :
    PropsOk .subscribe (Spec.V5.subscribeProps p) := by
  refine ⟨fun q hq => ⟨by rw [(C79_v5_property_tables _).2.2.2.2.2.2.2.2.1]; exact (subscribe_kinds p q hq).2, hf q hq⟩,
    fun i hi => ?_⟩
  have h38 : i ≠ 38 := fun h => hi (.inl h)
  show cnt i _ ≤ 1
  simp only [Spec.V5.subscribeProps, cnt_append, cnt_users i h38]
  have := one_sum i [11] (by decide)
  have h1 := cnt_opt i 11 .vbi p.id
  simp at this; omega

theorem unsubscribe_ok (p : UnsubscribeProperties) (hf : ∀ q ∈ Spec.V5.unsubscribeProps p, q.val.Fits) :
    PropsOk .unsubscribe (Spec.V5.unsubscribeProps p) := by
  refine ⟨fun q hq => ⟨by rw [(C79_v5_property_tables _).2.2.2.2.2.2.2.2.2.2.1]; exact (unsubscribe_kinds p q hq).2, hf q hq⟩,
    fun i hi => ?_⟩
  have h38 : i ≠ 38 := fun h => hi (.inl h)
  show cnt i _ ≤ 1
  simp only [Spec.V5.unsubscribeProps, cnt_users i h38]
  omega

theorem disconnect_ok (p : DisconnectProperties) (hf : ∀ q ∈ Spec.V5.disconnectProps p, q.val.Fits) :
    PropsOk .disconnect (Spec.V5.disconnectProps p) := by
  refine ⟨fun q hq => ⟨by rw [(C79_v5_property_tables _).2.2.2.2.2.2.2.2.2.2.2.2]; exact (disconnect_kinds p q hq).2, hf q hq⟩,
    fun i hi => ?_⟩
  have h38 : i ≠ 38 := fun h => hi (.inl h)
  show cnt i _ ≤ 1
  simp only [Spec.V5.disconnectProps, cnt_append, cnt_users i h38]
  have := one_sum i [17, 31, 28] (by decide)
  have h1 := cnt_opt i 17 .u32 p.session_expiry_interval
  have h2 := cnt_opt i 31 .str p.reason_string
  have h3 := cnt_opt i 28 .str p.server_reference
  simp at this; omega

theorem list_ok {π : Type} {pl : Place} {toList : π → List Property} {o : Option π}
    (h : ∀ p, (∀ q ∈ toList p, q.val.Fits) → PropsOk pl (toList p)) (hf : Spec.V5.PropsFit toList o) :
    PropsOk pl (list toList o) := by
  cases o with
  | none => exact ⟨by simp [list], by simp [list]⟩
  | some p => exact h p (hf p rfl)

theorem sec_list {π : Type} (toList : π → List Property) (o : Option π) :
    sec (list toList o) = Spec.V5.optSec toList o := by cases o <;> rfl

theorem ack_ok {R : Type} {code : R → Nat} {a : Ack R} {pl : Place} (hk : ∀ i, kindAt pl i = Spec.V5.reasonKind i)
    (hf : Spec.V5.PropsFit Spec.V5.reasonProps a.properties) :
    ShortOk pl (ackCode code a) (a.properties.map Spec.V5.reasonProps) := by
  rintro l hl
  obtain ⟨p, hp, rfl⟩ := Option.map_eq_some_iff.1 hl
  exact ⟨by simp [ackCode, hp], reason_ok pl hk p (hf p hp)⟩

theorem ack_body {R : Type} (code : R → Nat) (a : Ack R) :
    u16 a.pkid.toNat ++ maybe (fun r => u8 (code r)) (ackCode code a) ++ maybe sec (a.properties.map Spec.V5.reasonProps)
      = Spec.V5.ackBody code a := by
  unfold Spec.V5.ackBody ackCode
  cases h : a.properties with
  | none => by_cases h2 : code a.reason = 0 <;> simp [h2, maybe]
  | some p => simp [maybe]

/-- the two descriptions of the wire format agree -/
theorem say_body (p : Packet) (h5 : ∀ c, p = .Connect c → c.protocol = .V5) :
    Spec.Std5.body (say p) = Spec.V5.body p ∧ Spec.Std5.byte1 (say p) = Spec.V5.byte1 p := by
  cases p with
  | Connect c =>
    refine ⟨?_, rfl⟩
    have h5 := h5 c rfl
    have hfl : Spec.Std5.connectFlags c.clean_session
        (c.last_will.map fun w => ⟨w.qos, w.retain, list Spec.V5.willProps w.properties, w.topic, w.message⟩)
        (c.login.bind fun l => unlessEmpty l.username) (c.login.bind fun l => (unlessEmpty l.password).map utf8)
        = Spec.V5.connectFlags c := by
      unfold Spec.Std5.connectFlags Spec.V5.connectFlags
      have e1 : ∀ s : String, (unlessEmpty s).isSome = decide (s ≠ "") := by
        intro s; unfold unlessEmpty; by_cases h : s = "" <;> simp [h]
      cases c.login <;> cases c.last_will <;> simp [flag, e1, Option.isSome_map]
    simp only [say, Spec.Std5.body, Spec.V5.body, hfl, h5, sec_list]
    have hw : maybe (fun w : Will => sec w.props ++ str w.topic ++ bin w.payload)
        (c.last_will.map fun w => ⟨w.qos, w.retain, list Spec.V5.willProps w.properties, w.topic, w.message⟩)
        = Spec.V5.willFields c.last_will := by
      cases c.last_will <;> simp [maybe, Spec.V5.willFields, sec_list]
    have hlg : maybe str (c.login.bind fun l => unlessEmpty l.username)
        ++ maybe bin (c.login.bind fun l => (unlessEmpty l.password).map utf8) = Spec.V5.loginFields c.login := by
      cases c.login with
      | none => rfl
      | some l =>
        simp only [Option.bind_some, unlessEmpty, Spec.V5.loginFields]
        by_cases h1 : l.username = "" <;> by_cases h2 : l.password = "" <;> simp [h1, h2, maybe, Spec.str]
    rw [hw, ← hlg]
    simp [Spec.V4.level]
  | ConnAck c => exact ⟨by simp only [say, Spec.Std5.body, Spec.V5.body, sec_list], rfl⟩
  | Publish p => exact ⟨by simp only [say, Spec.Std5.body, Spec.V5.body, sec_list], rfl⟩
  | PubAck a => exact ⟨ack_body _ a, rfl⟩
  | PubRec a => exact ⟨ack_body _ a, rfl⟩
  | PubRel a => exact ⟨ack_body _ a, rfl⟩
  | PubComp a => exact ⟨ack_body _ a, rfl⟩
  | Subscribe s =>
    refine ⟨?_, rfl⟩
    simp only [say, Spec.Std5.body, Spec.V5.body, sec_list, List.flatMap_map, Spec.V5.subOptions]
  | SubAck s => exact ⟨by simp only [say, Spec.Std5.body, Spec.V5.body, sec_list], rfl⟩
  | Unsubscribe s => exact ⟨by simp only [say, Spec.Std5.body, Spec.V5.body, sec_list], rfl⟩
  | UnsubAck s => exact ⟨by simp only [say, Spec.Std5.body, Spec.V5.body, sec_list], rfl⟩
  | PingReq => exact ⟨rfl, rfl⟩
  | PingResp => exact ⟨rfl, rfl⟩
  | Disconnect d =>
    refine ⟨?_, rfl⟩
    simp only [say, Spec.Std5.body, Spec.V5.body]
    cases h : d.properties with
    | none => by_cases h2 : d.reason_code = .NormalDisconnection <;> simp [h2, maybe]
    | some p => simp [maybe]

/-- what a well-formed packet value stands for is conforming -/
theorem say_valid (p : Packet) (h : WF p) (h5 : ∀ c, p = .Connect c → c.protocol = .V5) : Valid (say p) := by
  obtain ⟨hf, hm, hl⟩ := h
  have T := C79_v5_property_tables
  refine ⟨by rw [(say_body p h5).1]; exact hl, ?_⟩
  cases p with
  | Connect c =>
    obtain ⟨h1, h2, h3, h4⟩ := hf
    refine ⟨list_ok connect_ok h2, h1, ?_, ?_, ?_⟩
    · rintro x hx
      obtain ⟨w, hw, rfl⟩ := Option.map_eq_some_iff.1 hx
      obtain ⟨a, b, c⟩ := h3 w hw
      exact ⟨list_ok will_ok c, a, b⟩
    · rintro x hx
      obtain ⟨l, hlg, hx⟩ := Option.bind_eq_some_iff.1 hx
      unfold unlessEmpty at hx
      split at hx
      · simp at hx
      · cases hx; exact (h4 l hlg).1
    · rintro x hx
      obtain ⟨l, hlg, hx⟩ := Option.bind_eq_some_iff.1 hx
      obtain ⟨s, h7, rfl⟩ := Option.map_eq_some_iff.1 hx
      unfold unlessEmpty at h7
      split at h7
      · simp at h7
      · simp only [Option.some.injEq] at h7; subst h7; exact (h4 l hlg).2
  | ConnAck c => exact list_ok connack_ok hf
  | Publish p => exact ⟨list_ok publish_ok hf.2, hf.1, hm.2⟩
  | PubAck a => exact ack_ok (fun i => (T i).2.2.2.2.1) hf
  | PubRec a => exact ack_ok (fun i => (T i).2.2.2.2.2.1) hf
  | PubRel a => exact ack_ok (fun i => (T i).2.2.2.2.2.2.1) hf
  | PubComp a => exact ack_ok (fun i => (T i).2.2.2.2.2.2.2.1) hf
  | Subscribe s =>
    refine ⟨list_ok subscribe_ok hf.1, fun x hx => ?_⟩
    obtain ⟨f, hff, rfl⟩ := List.mem_map.1 hx
    exact hf.2 f hff
  | SubAck s => exact ⟨list_ok (reason_ok _ fun i => (T i).2.2.2.2.2.2.2.2.2.1) hf, hm.2⟩
  | Unsubscribe u => exact ⟨list_ok unsubscribe_ok hf.1, hf.2⟩
  | UnsubAck u => exact ⟨list_ok (reason_ok _ fun i => (T i).2.2.2.2.2.2.2.2.2.2.2.1) hf, hm.2⟩
  | PingReq => trivial
  | PingResp => trivial
  | Disconnect d =>
    rintro l hl
    obtain ⟨p, hp, rfl⟩ := Option.map_eq_some_iff.1 hl
    exact ⟨by simp [hp], disconnect_ok p (hf p hp)⟩

theorem props_list {π : Type} {toList : π → List Property} {of : List Property → π} (h : ∀ p, of (toList p) = p)
    {o : Option π} (hne : Spec.V5.NonEmpty toList o) : Spec.Std5.props of (list toList o) = o := by
  cases o with
  | none => rfl
  | some p => simp [Spec.Std5.props, list, hne p rfl, h]

theorem ack_result {R : Type} {code : R → Nat} {d : R} (hd : ∀ r, code r = 0 → r = d) (a : Ack R)
    (hne : Spec.V5.NonEmpty Spec.V5.reasonProps a.properties) :
    (⟨a.pkid, (ackCode code a).getD d, Spec.Std5.props Spec.V5.reasonOf ((a.properties.map Spec.V5.reasonProps).getD [])⟩ : Ack R)
      = a := by
  obtain ⟨id, r, o⟩ := a
  cases o with
  | none =>
    by_cases h : code r = 0
    · obtain rfl := hd r h
      simp [ackCode, h, Spec.Std5.props]
    · simp [ackCode, h, Spec.Std5.props]
  | some p =>
    have := hne p rfl
    simp [ackCode, Spec.Std5.props, this, reason_set.dec_props]

/-- and means that value again, except DISCONNECT without properties -/
theorem say_result (p : Packet) (hm : Meaningful p) (h5 : ∀ c, p = .Connect c → c.protocol = .V5)
    (hd : ∀ d, p = .Disconnect d → d.properties ≠ none) : result (say p) = .ok p := by
  cases p with
  | Connect c =>
    obtain ⟨h1, h2, h3⟩ := hm
    have hlog : text ((c.login.bind fun l => (unlessEmpty l.password).map utf8).getD [])
        = some ((c.login.map (·.password)).getD "") := by
      have e : text [] = some "" := by decide +kernel
      have e2 : ∀ s, text (utf8 s) = some s := fromUtf8_utf8
      cases c.login with
      | none => exact e
      | some l =>
        by_cases h : l.password = ""
        · simp [unlessEmpty, h, e]
        · simp [unlessEmpty, h, e2]
    simp only [say, result, hlog]
    obtain ⟨pr, ka, id, cs, w, lg, ps⟩ := c
    have h5 := h5 _ rfl
    simp only at h5
    subst h5
    congr 2
    refine Connect.mk.injEq .. ▸ ⟨rfl, rfl, rfl, rfl, ?_, ?_, ?_⟩
    · cases w with
      | none => rfl
      | some w =>
        obtain ⟨t, m, q, r, o⟩ := w
        simp only [Option.map_some, Option.some.injEq]
        rw [props_list will_set.dec_props (h2 _ rfl)]
    · cases lg with
      | none => simp [Spec.Std5.login]
      | some l =>
        obtain ⟨u, pw⟩ := l
        have := h3 _ rfl
        have hu : (unlessEmpty u).getD "" = u := by unfold unlessEmpty; by_cases h : u = "" <;> simp [h]
        simp only [Option.bind_some, hu, Option.map_some, Option.getD_some, Spec.Std5.login]
        rw [if_neg (by rintro ⟨a, b⟩; rcases this with h | h <;> contradiction)]
    · exact props_list connect_set.dec_props h1
  | ConnAck c => simp only [say, result, props_list connack_set.dec_props hm]
  | Publish p => simp only [say, result, props_list publish_set.dec_props hm.1]
  | PubAck a =>
    have := ack_result (d := .Success) (code := Spec.V5.pubackCode) (by intro r; cases r <;> simp [Spec.V5.pubackCode]) a hm
    simp only [say, result]; rw [this]
  | PubRec a =>
    have := ack_result (d := .Success) (code := Spec.V5.pubrecCode) (by intro r; cases r <;> simp [Spec.V5.pubrecCode]) a hm
    simp only [say, result]; rw [this]
  | PubRel a =>
    have := ack_result (d := .Success) (code := Spec.V5.pubrelCode) (by intro r; cases r <;> simp [Spec.V5.pubrelCode]) a hm
    simp only [say, result]; rw [this]
  | PubComp a =>
    have := ack_result (d := .Success) (code := Spec.V5.pubcompCode) (by intro r; cases r <;> simp [Spec.V5.pubcompCode]) a hm
    simp only [say, result]; rw [this]
  | Subscribe s =>
    simp only [say, result, props_list subscribe_set.dec_props hm, List.map_map]
    have : (filter ∘ fun f : SubscribeFilter => (⟨f.path, f.qos, f.nolocal, f.preserve_retain, f.retain_forward_rule⟩ : Sub))
        = _root_.id := by funext f; rfl
    rw [this, List.map_id]
  | SubAck s => simp only [say, result, props_list reason_set.dec_props hm.1]
  | Unsubscribe u => simp only [say, result, props_list unsubscribe_set.dec_props hm]
  | UnsubAck u => simp only [say, result, props_list reason_set.dec_props hm.1]
  | PingReq => rfl
  | PingResp => rfl
  | Disconnect d =>
    obtain ⟨r, o⟩ := d
    cases o with
    | none => exact absurd rfl (hd _ rfl)
    | some p =>
      have := hm p rfl
      simp [say, result, Spec.Std5.props, this, disconnect_set.dec_props]

/-- C81: what a writer of `v5` emits for a well-formed packet is what the value stands for (`Std5.say`), encoded as a
conforming peer would, and a conforming control packet.  CONNECT: with protocol level 5, into an empty buffer. -/
theorem C81_v5_sends_conforming (p : Packet) (h : WF p) (h5 : ∀ c, p = .Connect c → c.protocol = .V5)
    (ha : ∀ c, p = .ConnAck c → c.properties ≠ none) :
    Valid (say p) ∧ (p.write []).2 = Spec.Std5.encode (say p)
    ∧ ((∀ d, p = .Disconnect d → d.properties ≠ none) → result (say p) = .ok p) := by
  refine ⟨say_valid p h h5, ?_, say_result p h.2.1 h5⟩
  have e : Spec.Std5.encode (say p) = Spec.V5.encode p := by
    obtain ⟨h1, h2⟩ := say_body p h5
    unfold Spec.Std5.encode Spec.V5.encode
    rw [h1, h2]
  rw [e]
  by_cases hc : ∃ c, p = .Connect c
  · obtain ⟨c, rfl⟩ := hc
    exact C40_v5_connect_wire_format c h
  · rw [C40_v5_wire_format p h (fun c e => hc ⟨c, e⟩) ha []]
    simp

/-- C81, the exceptions: CONNACK without properties and CONNECT with protocol level 4 emit bytes that are not the
encoding of any conforming control packet. -/
theorem C81_v5_not_conforming :
    (∀ (c : ConnAck) (k : Ctl), c.properties = none → Valid k → (c.write []).2 ≠ Spec.Std5.encode k) ∧
    (∀ (c : Connect) (k : Ctl), WF (.Connect c) → c.protocol = .V4 → Valid k → (c.write []).2 ≠ Spec.Std5.encode k) := by
  have hb : ∀ (k : Ctl) (n : Nat) (l : Bytes), n < 256 → UInt8.ofNat n :: l = Spec.Std5.encode k →
      n = Spec.Std5.byte1 k ∧ l = vbi (Spec.Std5.body k).length ++ Spec.Std5.body k := by
    intro k n l hn e
    have hk : Spec.Std5.byte1 k < 256 := by
      cases k <;> simp only [Spec.Std5.byte1] <;> try omega
      rename_i d q r _ _ _ _
      cases d <;> cases q <;> cases r <;> decide
    simp only [Spec.Std5.encode, frame, Spec.u8, List.cons_append, List.nil_append, List.cons.injEq] at e
    refine ⟨?_, e.2⟩
    have := congrArg UInt8.toNat e.1
    simpa [Nat.mod_eq_of_lt hn, Nat.mod_eq_of_lt hk] using this
  have hpub : ∀ (d : Bool) (q : QoS) (r : Bool), 0x30 ≤ 0x30 + flag d 8 + 2 * Spec.V4.qosNum q + flag r 1 := by
    intros; omega
  constructor
  · intro c k hn hk e
    obtain ⟨f, code, hw, -⟩ := C40_v5_connack_none c hn []
    rw [hw] at e
    obtain ⟨h1, h2⟩ := hb k 0x20 _ (by decide) e
    cases k <;> simp only [Spec.Std5.byte1] at h1 <;> try omega
    rename_i sp cd ps
    simp only [Spec.Std5.body] at h2
    have hlen := congrArg List.length h2
    simp only [List.length_append, u8_len, List.length_cons, List.length_nil] at hlen
    have := List.length_pos_iff.2 (isVbi_ne_nil (vbi_isVbi (n := 0) (by decide)))
    have hv : 1 ≤ (vbi (1 + 1 + (sec ps).length)).length := by unfold vbi; split <;> [simp [Spec.u8]; (split <;> [simp [Spec.u8]; (split <;> simp [Spec.u8])])]
    have hs : 1 ≤ (sec ps).length := by
      unfold sec
      have : 1 ≤ (vbi (encAll ps).length).length := by unfold vbi; split <;> [simp [Spec.u8]; (split <;> [simp [Spec.u8]; (split <;> simp [Spec.u8])])]
      simp only [List.length_append]; omega
    omega
  · intro c k h h4 hk e
    rw [C40_v5_connect_wire_format c h] at e
    have e' := e
    simp only [Spec.V5.encode, frame, Spec.u8, List.cons_append, List.nil_append] at e
    obtain ⟨h1, h2⟩ := hb k 0x10 _ (by decide) e
    cases k <;> simp only [Spec.Std5.byte1] at h1 <;> try omega
    rename_i cs ka ps id w u pw
    obtain ⟨-, hbd⟩ := vbi_prefix_det (vbi_isVbi h.2.2) (vbi_isVbi hk.1) h2
    have hm : str "MQTT" = [0, 4, 77, 81, 84, 84] := by decide +kernel
    have := congrArg (·[6]?) hbd
    simp [Spec.V5.body, Spec.Std5.body, h4, hm, Spec.u8, Spec.V4.level] at this

/-- hypotheses met by a PUBACK with a reason string and a user property -/
example :
    let p : Packet := .PubAck ⟨7, .QuotaExceeded, some ⟨some "x", [("a", "b")]⟩⟩
    WF p ∧ say p = .puback 7 (some .QuotaExceeded) (some [⟨31, .str "x"⟩, ⟨38, .pair "a" "b"⟩])
      ∧ (p.write []).2 = Spec.Std5.encode (say p) := by
  have h : WF (.PubAck ⟨7, .QuotaExceeded, some ⟨some "x", [("a", "b")]⟩⟩) := by
    refine ⟨?_, ?_, by decide +kernel⟩
    · rintro p hp q hq
      cases hp
      simp [Spec.V5.reasonProps, opt, users] at hq
      rcases hq with rfl | rfl
      · show (utf8 "x").length ≤ 65535; decide +kernel
      · exact ⟨by show (utf8 "a").length ≤ 65535; decide +kernel, by show (utf8 "b").length ≤ 65535; decide +kernel⟩
    · rintro p hp; cases hp; simp [Spec.V5.reasonProps, opt]
  exact ⟨h, rfl, (C81_v5_sends_conforming _ h (by simp) (by simp)).2.1⟩

end V5

section V4
open Mqtt.V4
open Spec.V4 (WF)
open Spec.Std4

/-- C81 for `v4`: what a writer emits for a well-formed packet is what the value stands for (`Std4.say`), encoded as a
conforming peer would, and a conforming control packet which means that value.  CONNECT: with protocol level 4, into an
empty buffer. -/
theorem C81_v4_sends_conforming (p : Packet) (h : WF p) (h4 : ∀ c, p = .Connect c → c.protocol = .V4) :
    Valid (say p) ∧ (p.write []).2 = Spec.Std4.encode (say p) ∧ result (say p) = .ok p := by
  obtain ⟨hf, hm, hl⟩ := h
  have hue : ∀ s : String, (Std5.unlessEmpty s).isSome = decide (s ≠ "") := by
    intro s; unfold Std5.unlessEmpty; by_cases h : s = "" <;> simp [h]
  have hb : Spec.Std4.body (say p) = Spec.V4.body p ∧ Spec.Std4.byte1 (say p) = Spec.V4.byte1 p := by
    cases p with
    | Connect c =>
      refine ⟨?_, rfl⟩
      have h4 := h4 c rfl
      have hfl : Spec.Std4.connectFlags c.clean_session (c.last_will.map fun w => ⟨w.qos, w.retain, w.topic, w.message⟩)
          (c.login.bind fun l => Std5.unlessEmpty l.username)
          (c.login.bind fun l => (Std5.unlessEmpty l.password).map utf8) = Spec.V4.connectFlags c := by
        unfold Spec.Std4.connectFlags Spec.V4.connectFlags
        cases c.login <;> cases c.last_will <;> simp [flag, hue, Option.isSome_map]
      simp only [say, Spec.Std4.body, Spec.V4.body, hfl, h4]
      have hw : Std5.maybe (fun w : Will => str w.topic ++ bin w.message)
          (c.last_will.map fun w => ⟨w.qos, w.retain, w.topic, w.message⟩) = Spec.V4.willFields c.last_will := by
        cases c.last_will <;> simp [Std5.maybe, Spec.V4.willFields]
      have hlg : Std5.maybe str (c.login.bind fun l => Std5.unlessEmpty l.username)
          ++ Std5.maybe bin (c.login.bind fun l => (Std5.unlessEmpty l.password).map utf8) = Spec.V4.loginFields c.login := by
        cases c.login with
        | none => rfl
        | some l =>
          simp only [Option.bind_some, Std5.unlessEmpty, Spec.V4.loginFields]
          by_cases h1 : l.username = "" <;> by_cases h2 : l.password = "" <;> simp [h1, h2, Std5.maybe, Spec.str]
      rw [hw, ← hlg]
      simp [Spec.V4.level]
    | Subscribe s =>
      refine ⟨?_, rfl⟩
      simp only [say, Spec.Std4.body, Spec.V4.body, List.flatMap_map]
    | _ => exact ⟨rfl, rfl⟩
  refine ⟨⟨by rw [hb.1]; exact hl, ?_⟩, ?_, ?_⟩
  · cases p with
    | Connect c =>
      obtain ⟨h1, h3, h4⟩ := hf
      refine ⟨h1, ?_, ?_, ?_⟩
      · rintro x hx
        obtain ⟨w, hw, rfl⟩ := Option.map_eq_some_iff.1 hx
        exact h3 w hw
      · rintro x hx
        obtain ⟨l, hlg, h7⟩ := Option.bind_eq_some_iff.1 hx
        unfold Std5.unlessEmpty at h7
        split at h7
        · simp at h7
        · cases h7; exact (h4 l hlg).1
      · rintro x hx
        obtain ⟨l, hlg, h6⟩ := Option.bind_eq_some_iff.1 hx
        obtain ⟨s, h7, rfl⟩ := Option.map_eq_some_iff.1 h6
        unfold Std5.unlessEmpty at h7
        split at h7
        · simp at h7
        · simp only [Option.some.injEq] at h7; subst h7; exact (h4 l hlg).2
    | Publish p => exact ⟨hf, hm⟩
    | Subscribe s =>
      refine ⟨by simpa [Spec.V4.Meaningful] using hm, fun x hx => ?_⟩
      obtain ⟨f, hff, rfl⟩ := List.mem_map.1 hx
      exact hf f hff
    | SubAck s => exact hm
    | Unsubscribe u => exact hf
    | _ => trivial
  · have e : Spec.Std4.encode (say p) = Spec.V4.encode p := by
      unfold Spec.Std4.encode Spec.V4.encode
      rw [hb.1, hb.2]
    rw [e]
    by_cases hc : ∃ c, p = .Connect c
    · obtain ⟨c, rfl⟩ := hc
      exact C24_v4_connect_wire_format c ⟨hf, hm, hl⟩
    · rw [C24_v4_wire_format p ⟨hf, hm, hl⟩ (fun c e => hc ⟨c, e⟩) []]
      simp
  · cases p with
    | Connect c =>
      have hlog : text ((c.login.bind fun l => (Std5.unlessEmpty l.password).map utf8).getD [])
          = some ((c.login.map (·.password)).getD "") := by
        have e : text [] = some "" := by decide +kernel
        have e2 : ∀ s, text (utf8 s) = some s := fromUtf8_utf8
        cases c.login with
        | none => exact e
        | some l =>
          by_cases h : l.password = ""
          · simp [Std5.unlessEmpty, h, e]
          · simp [Std5.unlessEmpty, h, e2]
      simp only [say, result, hlog]
      obtain ⟨pr, ka, id, cs, w, lg⟩ := c
      have h4 := h4 _ rfl
      simp only at h4
      subst h4
      congr 2
      refine Connect.mk.injEq .. ▸ ⟨rfl, rfl, rfl, rfl, ?_, ?_⟩
      · cases w <;> rfl
      · cases lg with
        | none => simp [Spec.Std4.login]
        | some l =>
          obtain ⟨u, pw⟩ := l
          have := hm _ rfl
          have hu : (Std5.unlessEmpty u).getD "" = u := by unfold Std5.unlessEmpty; by_cases h : u = "" <;> simp [h]
          simp only [Option.bind_some, hu, Option.map_some, Option.getD_some, Spec.Std4.login]
          rw [if_neg (by rintro ⟨a, b⟩; rcases this with h | h <;> contradiction)]
    | Subscribe s =>
      obtain ⟨id, fs⟩ := s
      simp only [say, result, List.map_map]
      have : ((fun s : String × QoS => (⟨s.1, s.2⟩ : SubscribeFilter)) ∘ fun f : SubscribeFilter => (f.path, f.qos))
          = _root_.id := by funext f; rfl
      rw [this, List.map_id]
    | _ => rfl

/-- **C81** A v4 CONNECT with protocol level 5 is not written as a conforming 3.1.1 packet. -/
theorem C81_v4_not_conforming (c : Connect) (k : Ctl) (h : WF (.Connect c)) (h5 : c.protocol = .V5) (hk : Valid k) :
    (c.write []).2 ≠ Spec.Std4.encode k := by
  intro e
  have hb : ∀ (n : Nat) (l : Bytes), n < 256 → UInt8.ofNat n :: l = Spec.Std4.encode k →
      n = Spec.Std4.byte1 k ∧ l = vbi (Spec.Std4.body k).length ++ Spec.Std4.body k := by
    intro n l hn e
    have hk : Spec.Std4.byte1 k < 256 := by
      cases k <;> simp only [Spec.Std4.byte1] <;> try omega
      cases ‹Bool› <;> cases ‹Bool› <;> cases ‹QoS› <;> decide
    simp only [Spec.Std4.encode, frame, Spec.u8, List.cons_append, List.nil_append, List.cons.injEq] at e
    refine ⟨?_, e.2⟩
    have := congrArg UInt8.toNat e.1
    simpa [Nat.mod_eq_of_lt hn, Nat.mod_eq_of_lt hk] using this
  have hpub : ∀ (d : Bool) (q : QoS) (r : Bool), 0x30 ≤ 0x30 + flag d 8 + 2 * Spec.V4.qosNum q + flag r 1 := by
    intros; omega
  rw [C24_v4_connect_wire_format c h] at e
  simp only [Spec.V4.encode, frame, Spec.u8, List.cons_append, List.nil_append] at e
  obtain ⟨h1, h2⟩ := hb 0x10 _ (by decide) e
  cases k <;> simp only [Spec.Std4.byte1] at h1 <;> try omega
  rename_i cs ka id w u pw
  obtain ⟨-, hbd⟩ := V5.vbi_prefix_det (vbi_isVbi h.2.2) (vbi_isVbi hk.1) h2
  have hm : str "MQTT" = [0, 4, 77, 81, 84, 84] := by decide +kernel
  have := congrArg (·[6]?) hbd
  simp [Spec.V4.body, Spec.Std4.body, h5, hm, Spec.u8, Spec.V4.level] at this

/-- hypotheses met by a SUBSCRIBE -/
example :
    let p : Packet := .Subscribe ⟨7, [⟨"a", .AtLeastOnce⟩]⟩
    WF p ∧ say p = .subscribe 7 [("a", .AtLeastOnce)] ∧ (p.write []).2 = Spec.Std4.encode (say p) := by
  have h : WF (.Subscribe ⟨7, [⟨"a", .AtLeastOnce⟩]⟩) := by
    refine ⟨?_, by simp [Spec.V4.Meaningful], by decide +kernel⟩
    intro f hf
    simp at hf; subst hf
    show (utf8 "a").length ≤ 65535; decide +kernel
  exact ⟨h, rfl, (C81_v4_sends_conforming _ h (by simp)).2.1⟩

/-- hypotheses met by a CONNECT with level 5 and a client id -/
example : WF (.Connect ⟨.V5, 10, "a", true, none, none⟩) ∧ (Connect.write ⟨.V5, 10, "a", true, none, none⟩ []).2
    = [0x10, 13, 0, 4, 77, 81, 84, 84, 5, 2, 0, 10, 0, 1, 97] := by
  refine ⟨⟨?_, ?_, by decide +kernel⟩, by decide +kernel⟩
  · simp only [Spec.V4.FieldsFit]; refine ⟨?_, by simp, by simp⟩; decide +kernel
  · simp [Spec.V4.Meaningful]

end V4
end Props
