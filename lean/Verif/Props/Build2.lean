import Verif.Props.Build
/-! C56, the remaining constructors: wills, SUBACK, empty property sets, v5 subscriptions. -/
namespace Props
open Mqtt Spec

/-- C56 (v4): a CONNECT with a will made by `LastWill::new` and a login made by `Login::new`: the server
decodes exactly the arguments. -/
theorem C56_v4_will_new (id topic u p : String) (payload : Bytes) (qos : QoS) (retain : Bool)
    (hid : (utf8 id).length ≤ 65535) (ht : (utf8 topic).length ≤ 65535) (hm : payload.length ≤ 65535)
    (hu : (utf8 u).length ≤ 65535) (hp : (utf8 p).length ≤ 65535) (hne : u ≠ "" ∨ p ≠ "") :
    ∃ n bytes, V4.Connect.write { V4.Connect.new id with
          last_will := some (V4.LastWill.new topic payload qos retain), login := some (V4.Login.new u p) } []
        = (.ok n, bytes) ∧
      ∀ max rest, 400000 ≤ max → V4.read max (bytes ++ rest)
        = (.ok (.Connect ⟨.V4, 10, id, true, some ⟨topic, payload, qos, retain⟩, some ⟨u, p⟩⟩), rest) := by
  obtain ⟨n, b, h1, h2⟩ := C18_v4_connect_roundtrip ⟨.V4, 10, id, true, some ⟨topic, payload, qos, retain⟩, some ⟨u, p⟩⟩
    hid (by rintro w hw; cases hw; exact ⟨ht, hm⟩) (by rintro l hl; cases hl; exact ⟨hu, hp, hne⟩)
  refine ⟨n, b, h1, fun max rest hx => h2 max rest ?_⟩
  simp only [Spec.V4.body, List.length_append, utf8_mqtt_len, u8_len, u16_len, str_len, Spec.V4.willFields,
    Spec.V4.loginFields, bin]
  split <;> split <;> simp [str_len] <;> omega

example := C56_v4_will_new "id" "dead/id" "user" "pw" [0, 255] .ExactlyOnce true (by decide +kernel) (by decide +kernel)
  (by decide +kernel) (by decide +kernel) (by decide +kernel) (.inl (by decide))


/-- C56 (v5): the same, with no properties. -/
theorem C56_v5_will_new (id topic u p : String) (payload : Bytes) (qos : QoS) (retain : Bool)
    (hid : (utf8 id).length ≤ 65535) (ht : (utf8 topic).length ≤ 65535) (hm : payload.length ≤ 65535)
    (hu : (utf8 u).length ≤ 65535) (hp : (utf8 p).length ≤ 65535) (hne : u ≠ "" ∨ p ≠ "") :
    ∃ n bytes, V5.Connect.write { V5.Connect.new id with
          last_will := some (V5.LastWill.new topic payload qos retain), login := some (V5.Login.new u p) } []
        = (.ok n, bytes) ∧
      ∀ max rest, 400000 ≤ max → V5.read max (bytes ++ rest)
        = (.ok (.Connect ⟨.V5, 10, id, true, some ⟨topic, payload, qos, retain, none⟩, some ⟨u, p⟩, none⟩), rest) := by
  have hb : (Spec.V5.body (.Connect ⟨.V5, 10, id, true, some ⟨topic, payload, qos, retain, none⟩, some ⟨u, p⟩, none⟩)).length
      ≤ 400000 := by
    simp only [Spec.V5.body, List.length_append, utf8_mqtt_len, u8_len, u16_len, str_len, Spec.V5.willFields,
      Spec.V5.loginFields, bin, Mqtt.V5.optSec_none_len]
    split <;> split <;> simp [str_len] <;> omega
  obtain ⟨n, b, h1, h2⟩ := C33_v5_connect_roundtrip
    ⟨.V5, 10, id, true, some ⟨topic, payload, qos, retain, none⟩, some ⟨u, p⟩, none⟩
    ⟨hid, by simp [Spec.V5.PropsFit], by rintro w hw; cases hw; exact ⟨ht, hm, by simp [Spec.V5.PropsFit]⟩,
      by rintro l hl; cases hl; exact ⟨hu, hp⟩⟩
    ⟨by simp [Spec.V5.NonEmpty], by rintro w hw; cases hw; simp [Spec.V5.NonEmpty], by rintro l hl; cases hl; exact hne⟩ (by omega)
  exact ⟨n, b, h1, fun max rest hx => (h2 max rest (by omega)).2 (.inl rfl)⟩

example := C56_v5_will_new "id" "dead/id" "user" "pw" [0, 255] .ExactlyOnce true (by decide +kernel) (by decide +kernel)
  (by decide +kernel) (by decide +kernel) (by decide +kernel) (.inl (by decide))


/-- C56: `SubAck::new` (v4, v5) with at least one code: the client decodes exactly the arguments. -/
theorem C56_suback_new (pkid : UInt16) (c4 : List V4.SubscribeReasonCode) (c5 : List V5.SubscribeReasonCode)
    (h4 : c4 ≠ []) (h5 : c5 ≠ []) (hl4 : c4.length ≤ 268435452) (hl5 : c5.length ≤ 268435452) (s : Bytes) :
    (∃ bytes, (V4.SubAck.new pkid c4).write s = (.ok bytes.length, s ++ bytes) ∧
      ∀ max rest, 2 + c4.length ≤ max → V4.read max (bytes ++ rest) = (.ok (.SubAck ⟨pkid, c4⟩), rest))
    ∧ ∃ bytes, (V5.SubAck.new pkid c5).write s = (.ok bytes.length, s ++ bytes) ∧
      ∀ max rest, 3 + c5.length ≤ max → V5.read max (bytes ++ rest) = (.ok (.SubAck ⟨pkid, c5, none⟩), rest) := by
  constructor
  · exact C22_v4_suback_roundtrip ⟨pkid, c4⟩ h4 (by simp only; omega) s
  · have hb : (Spec.V5.body (.SubAck ⟨pkid, c5, none⟩)).length = 3 + c5.length := by
      simp [Spec.V5.body, u16_len, Mqtt.V5.optSec_none_len, V4.flatMap_length, u8_len]; omega
    obtain ⟨b, h1, h2⟩ := C37_v5_suback_roundtrip ⟨pkid, c5, none⟩ h5 (by simp [Spec.V5.FieldsFit, Spec.V5.PropsFit])
      (by simp [Spec.V5.NonEmpty]) (by omega) s
    exact ⟨b, h1, fun max rest hm => h2 max rest (by omega)⟩

example := C56_suback_new 7 [.Failure, .Success .ExactlyOnce] [.NotAuthorized, .QoS1] (by simp) (by simp) (by decide) (by decide) [9]


/-- C56 (v5): the property sets made by `ConnAckProperties::new` and `DisconnectProperties::new` are empty: a
CONNACK with the former is decoded as one without properties (unlike one written without properties, which
cannot be read); a DISCONNECT with the latter loses its reason code and cannot be read. -/
theorem C56_v5_empty_properties (sp : Bool) (code : V5.ConnectReturnCode) (r : V5.DisconnectReasonCode) (s : Bytes) :
    (∃ bytes, V5.ConnAck.write ⟨sp, code, some V5.ConnAckProperties.new⟩ s = (.ok bytes.length, s ++ bytes) ∧
      ∀ max rest, 3 ≤ max → V5.read max (bytes ++ rest) = (.ok (.ConnAck ⟨sp, code, none⟩), rest))
    ∧ V5.Disconnect.write ⟨r, some V5.DisconnectProperties.new⟩ s = (.ok 2, s ++ [0xE0, 0x00])
    ∧ ∀ max rest, V5.read max ([0xE0, 0x00] ++ rest) = (.err .PayloadRequired, rest) :=
  ⟨C34_v5_connack_empty_set sp code _ rfl s, C39_v5_disconnect_normal_unreadable ⟨r, _⟩ (.inr ⟨_, rfl, rfl⟩) s⟩

/-- C56 (v5): `Subscribe::new_many` with any filters, even none (unlike v4): the server decodes them in order. -/
theorem C56_v5_subscribe_new_many (fs : List V5.SubscribeFilter) (pkid : UInt16)
    (hf : ∀ f ∈ fs, (utf8 f.path).length ≤ 65535)
    (hl : (Spec.V5.body (.Subscribe ⟨pkid, fs, none⟩)).length ≤ 268435455) (s : Bytes) :
    ∃ bytes, V5.Subscribe.write { V5.Subscribe.new_many fs with pkid := pkid } s = (.ok bytes.length, s ++ bytes) ∧
      ∀ max rest, (Spec.V5.body (.Subscribe ⟨pkid, fs, none⟩)).length ≤ max →
        V5.read max (bytes ++ rest) = (.ok (.Subscribe ⟨pkid, fs, none⟩), rest) :=
  C36_v5_subscribe_roundtrip ⟨pkid, fs, none⟩ ⟨by simp [Spec.V5.PropsFit], hf⟩
    (by simp [Spec.V5.Meaningful, Spec.V5.NonEmpty]) hl s

example : ∃ bytes, V5.Subscribe.write { V5.Subscribe.new_many [⟨"a/+", .AtLeastOnce, true, false, .Never⟩] with pkid := 7 } [9]
    = (.ok bytes.length, [9] ++ bytes) :=
  let ⟨b, h, _⟩ := C56_v5_subscribe_new_many [⟨"a/+", .AtLeastOnce, true, false, .Never⟩] 7 (by decide +kernel) (by decide +kernel) [9]
  ⟨b, h⟩


/-- C56 (v5): a `Publish::new` or `Publish::from_bytes` with QoS 1 or 2 and no packet identifier cannot be written. -/
theorem C56_v5_publish_new_pkid (topic : String) (qos : QoS) (payload s : Bytes) (hq : qos ≠ .AtMostOnce)
    (hl : (utf8 topic).length + payload.length + 5 ≤ 268435455) (p : V5.Publish)
    (hp : p = V5.Publish.new topic qos payload ∨ p = V5.Publish.from_bytes topic qos payload) :
    (p.write s).1 = .err .PacketIdZero := by
  obtain rfl : p = V5.Publish.new topic qos payload := by rcases hp with rfl | rfl <;> rfl
  change ((V5.Packet.Publish (V5.Publish.new topic qos payload)).write s).1 = _
  have hb : (Spec.V5.body (.Publish (V5.Publish.new topic qos payload))).length
      ≤ (utf8 topic).length + payload.length + 5 := by
    simp [V5.Publish.new, Spec.V5.body, str_len, hq, u16_len, Mqtt.V5.optSec_none_len]
    omega
  rcases V5.write_cases (.Publish (V5.Publish.new topic qos payload)) (by simp) s with ⟨_, _, h1, _⟩ | ⟨t, e, h1⟩ | ⟨t, e, _⟩
  · exact absurd rfl (h1 hq)
  · rcases h1 with h1 | h1
    · have : (Spec.V5.wireBody (.Publish (V5.Publish.new topic qos payload))) = Spec.V5.body (.Publish (V5.Publish.new topic qos payload)) := rfl
      rw [this] at h1
      have hm : maxRemaining = 268435455 := rfl
      omega
    · exact absurd (by simp [Spec.V5.IdsOk, V5.Publish.new]) h1
  · rw [e]

/-- hypotheses met -/
example : ((V5.Publish.from_bytes "a/b" .ExactlyOnce [1, 2]).write [9]).1 = .err .PacketIdZero :=
  C56_v5_publish_new_pkid "a/b" .ExactlyOnce [1, 2] [9] (by decide) (by decide +kernel) _ (.inr rfl)

-- examples
example : (V5.Subscribe.write { V5.Subscribe.new_many [] with pkid := 7 } []) = (.ok 5, [0x82, 3, 0, 7, 0])
    ∧ V5.read 9 [0x82, 3, 0, 7, 0] = (.ok (.Subscribe ⟨7, [], none⟩), [])
    ∧ V4.read 9 [0x82, 2, 0, 7] = (.err .EmptySubscription, []) := by decide +kernel

end Props
