import Verif.Props.V4RoundTrip
import Verif.Props.V5RoundTrip
import Verif.Proof.WriteAll
/-! Builders (C56). -/
namespace Props
open Mqtt Spec

theorem utf8_mqtt_len : (utf8 "MQTT").length = 4 := by decide +kernel

/-! ### C56 -/

section V4
open Mqtt.V4

/-- C56 (v4): a publish made by `Publish::new` or `from_bytes` and given a packet identifier as its QoS
demands is what the peer decodes: not duplicate, not retained, the given topic, QoS and payload. -/
theorem C56_v4_publish_new (topic : String) (qos : QoS) (payload : Bytes) (pkid : UInt16)
    (ht : (utf8 topic).length ≤ 65535) (hq : qos = .AtMostOnce ↔ pkid = 0)
    (hl : (utf8 topic).length + payload.length + 4 ≤ 268435455) (s : Bytes) (p : Publish)
    (hp : p = Publish.new topic qos payload ∨ p = Publish.from_bytes topic qos payload) :
    ∃ bytes, Publish.write { p with pkid := pkid } s = (.ok bytes.length, s ++ bytes) ∧
      ∀ max rest, (utf8 topic).length + payload.length + 4 ≤ max →
        V4.read max (bytes ++ rest) = (.ok (.Publish ⟨false, qos, false, topic, pkid, payload⟩), rest) := by
  have hb : (Spec.V4.body (.Publish ⟨false, qos, false, topic, pkid, payload⟩)).length
      ≤ (utf8 topic).length + payload.length + 4 := by
    simp only [Spec.V4.body, List.length_append, str_len]
    split <;> simp [u16_len] <;> omega
  obtain ⟨bytes, h1, h2⟩ := C17_v4_publish_roundtrip ⟨false, qos, false, topic, pkid, payload⟩ ht hq
    (by omega) s
  refine ⟨bytes, ?_, fun max rest hm => h2 max rest (by omega)⟩
  rcases hp with rfl | rfl <;> exact h1

example : ∃ bytes, Publish.write { Publish.new "a/b" .AtLeastOnce [1, 2] with pkid := 7 } [9] = (.ok bytes.length, [9] ++ bytes) ∧
    ∀ max rest, 2 + 3 + 2 + 2 ≤ max → V4.read max (bytes ++ rest)
      = (.ok (.Publish ⟨false, .AtLeastOnce, false, "a/b", 7, [1, 2]⟩), rest) := by
  have h := C56_v4_publish_new "a/b" .AtLeastOnce [1, 2] 7 (by decide +kernel) (by decide) (by decide +kernel) [9] _ (.inl rfl)
  obtain ⟨b, h1, h2⟩ := h
  exact ⟨b, h1, fun max rest hm => h2 max rest (Nat.le_trans (by decide +kernel) hm)⟩


/-- C56 (v4): with QoS 1 or 2 and no packet identifier set it cannot be written. -/
theorem C56_v4_publish_new_pkid (topic : String) (qos : QoS) (payload s : Bytes) (hq : qos ≠ .AtMostOnce)
    (hl : (utf8 topic).length + payload.length + 4 ≤ 268435455) (p : Publish)
    (hp : p = Publish.new topic qos payload ∨ p = Publish.from_bytes topic qos payload) :
    (p.write s).1 = .err .PacketIdZero := by
  obtain rfl : p = Publish.new topic qos payload := by rcases hp with rfl | rfl <;> rfl
  change ((Packet.Publish (Publish.new topic qos payload)).write s).1 = _
  have hb : (Spec.V4.body (.Publish (Publish.new topic qos payload))).length
      ≤ (utf8 topic).length + payload.length + 4 := by
    simp [Publish.new, Spec.V4.body, str_len, hq, u16_len]
    omega
  rcases V4.write_cases (.Publish (Publish.new topic qos payload)) (by simp) s with ⟨_, h1, _⟩ | ⟨_, h1, _⟩ | h
  · exact absurd rfl (h1 _ rfl hq)
  · exact absurd rfl (h1 _ rfl hq)
  · obtain ⟨q, e, h1, h2, er, t, h3, e', h4⟩ := h
    rw [e']
    have hm : maxRemaining = 268435455 := rfl
    rcases h4 with h4 | ⟨h4, h5⟩
    · rw [h4]
    · omega

example : ((Publish.from_bytes "a/b" .ExactlyOnce [1, 2]).write [9]).1 = .err .PacketIdZero :=
  C56_v4_publish_new_pkid "a/b" .ExactlyOnce [1, 2] [9] (by decide) (by decide +kernel) _ (.inr rfl)


/-- C56 (v4): `Subscribe::new` followed by any sequence of `add` holds exactly these filters, in order. -/
theorem C56_v4_subscribe_builder (path : String) (qos : QoS) (more : List (String × QoS)) :
    (more.foldl (fun s f => s.add f.1 f.2) (Subscribe.new path qos))
      = ⟨0, ((path, qos) :: more).map fun f => ⟨f.1, f.2⟩⟩ := by
  have : ∀ (s : Subscribe), more.foldl (fun s f => s.add f.1 f.2) s
      = ⟨s.pkid, s.filters ++ more.map fun f => ⟨f.1, f.2⟩⟩ := by
    induction more with
    | nil => intro s; simp
    | cons f l ih => intro s; rw [List.foldl_cons, ih]; simp [Subscribe.add]
  rw [this]; simp [Subscribe.new]

/-- C56 (v4): `new_many` refuses exactly the empty list, and otherwise keeps the filters in order. -/
theorem C56_v4_subscribe_new_many (fs : List SubscribeFilter) :
    (fs = [] → Subscribe.new_many fs = .err .EmptySubscription)
      ∧ (fs ≠ [] → Subscribe.new_many fs = .ok ⟨0, fs⟩) := by
  cases fs <;> simp [Subscribe.new_many]

/-- C56 (v4): whatever `new_many` accepts is, once written, decoded with the same filters. -/
theorem C56_v4_subscribe_new_many_roundtrip (fs : List SubscribeFilter) (p : Subscribe)
    (h : Subscribe.new_many fs = .ok p) (pkid : UInt16) (hf : ∀ f ∈ fs, (utf8 f.path).length ≤ 65535)
    (hl : (Spec.V4.body (.Subscribe ⟨pkid, fs⟩)).length ≤ 268435455) (s : Bytes) :
    ∃ bytes, Subscribe.write { p with pkid := pkid } s = (.ok bytes.length, s ++ bytes) ∧
      ∀ max rest, (Spec.V4.body (.Subscribe ⟨pkid, fs⟩)).length ≤ max →
        V4.read max (bytes ++ rest) = (.ok (.Subscribe ⟨pkid, fs⟩), rest) := by
  by_cases h0 : fs = []
  · rw [(C56_v4_subscribe_new_many fs).1 h0] at h; cases h
  · rw [(C56_v4_subscribe_new_many fs).2 h0] at h
    cases h
    exact C21_v4_subscribe_roundtrip ⟨pkid, fs⟩ h0 hf hl s

example : Subscribe.new_many [⟨"a", .AtMostOnce⟩, ⟨"b/#", .ExactlyOnce⟩] = .ok ⟨0, [⟨"a", .AtMostOnce⟩, ⟨"b/#", .ExactlyOnce⟩]⟩
    ∧ ∀ f ∈ [SubscribeFilter.mk "a" .AtMostOnce, ⟨"b/#", .ExactlyOnce⟩], (utf8 f.path).length ≤ 65535 := by decide +kernel


/-- C56 (v4): filters made by `SubscribeFilter::new` and given to `Subscribe::new_many` are decoded with exactly these
paths and levels. -/
theorem C56_v4_filter_new (l : List (String × QoS)) (h0 : l ≠ []) (pkid : UInt16)
    (hf : ∀ f ∈ l, (utf8 f.1).length ≤ 65535)
    (hl : (Spec.V4.body (.Subscribe ⟨pkid, l.map fun f => ⟨f.1, f.2⟩⟩)).length ≤ 268435455) (s : Bytes) :
    ∃ p bytes, Subscribe.new_many (l.map fun f => SubscribeFilter.new f.1 f.2) = .ok p
      ∧ Subscribe.write { p with pkid := pkid } s = (.ok bytes.length, s ++ bytes)
      ∧ ∀ max rest, (Spec.V4.body (.Subscribe ⟨pkid, l.map fun f => ⟨f.1, f.2⟩⟩)).length ≤ max →
        V4.read max (bytes ++ rest) = (.ok (.Subscribe ⟨pkid, l.map fun f => ⟨f.1, f.2⟩⟩), rest) := by
  have hn := (C56_v4_subscribe_new_many (l.map fun f => SubscribeFilter.new f.1 f.2)).2 (by simpa using h0)
  obtain ⟨b, h1, h2⟩ := C56_v4_subscribe_new_many_roundtrip _ _ hn pkid (by
    intro f hm
    obtain ⟨x, hx, rfl⟩ := List.mem_map.1 hm
    exact hf x hx) hl s
  exact ⟨_, b, hn, h1, h2⟩

/-- hypotheses met -/
example := C56_v4_filter_new [("a", .AtMostOnce), ("b/#", .ExactlyOnce)] (by decide) 7 (by decide +kernel) (by decide +kernel) [1]

/-- C56 (v4): `Connect::new` with `set_login`: what the server decodes. -/
theorem C56_v4_connect_new (id u p : String) (hid : (utf8 id).length ≤ 65535) (hu : (utf8 u).length ≤ 65535)
    (hp : (utf8 p).length ≤ 65535) (hne : u ≠ "" ∨ p ≠ "") :
    (∃ n bytes, (Connect.new id).write [] = (.ok n, bytes) ∧ ∀ max rest, 12 + (utf8 id).length ≤ max →
      V4.read max (bytes ++ rest) = (.ok (.Connect ⟨.V4, 10, id, true, none, none⟩), rest)) ∧
    (∃ n bytes, ((Connect.new id).set_login u p).write [] = (.ok n, bytes) ∧
      ∀ max rest, 16 + (utf8 id).length + (utf8 u).length + (utf8 p).length ≤ max →
        V4.read max (bytes ++ rest) = (.ok (.Connect ⟨.V4, 10, id, true, none, some ⟨u, p⟩⟩), rest)) := by
  constructor
  · obtain ⟨n, b, h1, h2⟩ := C18_v4_connect_roundtrip ⟨.V4, 10, id, true, none, none⟩ hid (by simp) (by simp)
    refine ⟨n, b, h1, fun max rest hm => h2 max rest ?_⟩
    simp only [Spec.V4.body, List.length_append, utf8_mqtt_len, u8_len, u16_len, str_len, Spec.V4.willFields,
      Spec.V4.loginFields, List.length_nil]
    omega
  · obtain ⟨n, b, h1, h2⟩ := C18_v4_connect_roundtrip ⟨.V4, 10, id, true, none, some ⟨u, p⟩⟩ hid (by simp)
      (by rintro l hl; cases hl; exact ⟨hu, hp, hne⟩)
    refine ⟨n, b, h1, fun max rest hm => h2 max rest ?_⟩
    simp only [Spec.V4.body, List.length_append, utf8_mqtt_len, u8_len, u16_len, str_len, Spec.V4.willFields,
      Spec.V4.loginFields, List.length_nil]
    split <;> split <;> simp [str_len] <;> omega

example : ∃ n bytes, (Connect.new "id").write [] = (.ok n, bytes) ∧ ∀ max rest, 12 + 2 ≤ max →
      V4.read max (bytes ++ rest) = (.ok (.Connect ⟨.V4, 10, "id", true, none, none⟩), rest) :=
  (C56_v4_connect_new "id" "user" "" (by decide +kernel) (by decide +kernel) (by decide +kernel) (.inl (by decide))).1


/-- C56 (v4): the remaining constructors carry exactly their arguments to the peer. -/
theorem C56_v4_other_new (pkid : UInt16) (code : ConnectReturnCode) (sp : Bool) (topic : String)
    (ht : (utf8 topic).length ≤ 65535) (p q : Packet)
    (hp : (p, q) ∈ [
      (.PubAck (PubAck.new pkid), .PubAck ⟨pkid⟩),
      (.PubRec (PubRec.new pkid), .PubRec ⟨pkid⟩),
      (.PubRel (PubRel.new pkid), .PubRel ⟨pkid⟩),
      (.PubComp (PubComp.new pkid), .PubComp ⟨pkid⟩),
      (.UnsubAck (UnsubAck.new pkid), .UnsubAck ⟨pkid⟩),
      (.ConnAck (ConnAck.new code sp), .ConnAck ⟨sp, code⟩),
      (.Unsubscribe (Unsubscribe.new topic), .Unsubscribe ⟨0, [topic]⟩),
      (.Unsubscribe { Unsubscribe.new topic with pkid := pkid }, .Unsubscribe ⟨pkid, [topic]⟩)]) (s : Bytes) :
    ∃ bytes, p.write s = (.ok bytes.length, s ++ bytes) ∧ ∀ max rest, 65539 ≤ max →
      V4.read max (bytes ++ rest) = (.ok q, rest) := by
  have key : ∀ k p, p = Packet.Unsubscribe { Unsubscribe.new topic with pkid := k } →
      p = .Unsubscribe ⟨k, [topic]⟩ ∧ Spec.V4.WF p ∧ (Spec.V4.body p).length ≤ 65539 ∧ ∀ c, p ≠ .Connect c := by
    rintro k p rfl
    have : (Spec.V4.body (.Unsubscribe { Unsubscribe.new topic with pkid := k })).length
        = 4 + (utf8 topic).length := by
      simp [Spec.V4.body, Unsubscribe.new, u16_len, str_len]; omega
    refine ⟨rfl, ⟨?_, trivial, by rw [this]; have : maxRemaining = 268435455 := rfl; omega⟩, by rw [this]; omega,
      by simp⟩
    intro t h
    obtain rfl : t = topic := by simpa [Unsubscribe.new] using h
    exact ht
  have hwf : p = q ∧ Spec.V4.WF p ∧ (Spec.V4.body p).length ≤ 65539 ∧ ∀ c, p ≠ .Connect c := by
    simp only [List.mem_cons, List.not_mem_nil, or_false, Prod.mk.injEq] at hp
    rcases hp with ⟨rfl, rfl⟩ | ⟨rfl, rfl⟩ | ⟨rfl, rfl⟩ | ⟨rfl, rfl⟩ | ⟨rfl, rfl⟩ | ⟨rfl, rfl⟩ | ⟨rfl, rfl⟩ | ⟨rfl, rfl⟩
    all_goals try exact ⟨rfl, ⟨trivial, trivial, show 2 ≤ 268435455 by omega⟩, show 2 ≤ 65539 by omega, by simp⟩
    · exact key 0 _ rfl
    · exact key pkid _ rfl
  obtain ⟨rfl, hwf⟩ := hwf
  obtain ⟨bytes, h1, h2⟩ := v4_roundtrip p hwf.1 hwf.2.2 s
  exact ⟨bytes, h1, fun max rest hm => h2 max rest (by omega)⟩

example : (([("b", QoS.ExactlyOnce), ("a", .AtMostOnce)].foldl (fun s f => Subscribe.add s f.1 f.2)
    (Subscribe.new "x/#" .AtLeastOnce)).write []).2
    = [0x82, 16, 0, 0, 0, 3, 120, 47, 35, 1, 0, 1, 98, 2, 0, 1, 97, 0] := by decide +kernel
end V4

section V5
open Mqtt.V5
open Spec.V5 (FieldsFit Meaningful body PropsFit NonEmpty)

/-- C56 (v5): `Publish::new` / `from_bytes` -/
theorem C56_v5_publish_new (topic : String) (qos : QoS) (payload : Bytes) (pkid : UInt16)
    (ht : (utf8 topic).length ≤ 65535) (hq : qos = .AtMostOnce ↔ pkid = 0)
    (hl : (utf8 topic).length + payload.length + 5 ≤ 268435455) (s : Bytes) (p : Publish)
    (hp : p = Publish.new topic qos payload ∨ p = Publish.from_bytes topic qos payload) :
    ∃ bytes, Publish.write { p with pkid := pkid } s = (.ok bytes.length, s ++ bytes) ∧
      ∀ max rest, (utf8 topic).length + payload.length + 5 ≤ max →
        V5.read max (bytes ++ rest) = (.ok (.Publish ⟨false, qos, false, topic, pkid, none, payload⟩), rest) := by
  have hb : (body (.Publish ⟨false, qos, false, topic, pkid, none, payload⟩)).length
      ≤ (utf8 topic).length + payload.length + 5 := by
    simp only [body, List.length_append, str_len, optSec_none_len]
    split <;> simp [u16_len] <;> omega
  obtain ⟨bytes, h1, h2⟩ := C32_v5_publish_roundtrip ⟨false, qos, false, topic, pkid, none, payload⟩
    ⟨ht, by simp [PropsFit]⟩ ⟨by simp [NonEmpty], hq⟩ (by omega) s
  refine ⟨bytes, ?_, fun max rest hm => (h2 max rest (by omega)).2 (by simp)⟩
  rcases hp with rfl | rfl <;> exact h1

/-- an instance: the application sets topic, QoS, payload and packet id -/
example : ∃ bytes, Publish.write { Publish.new "a/b" .ExactlyOnce [1, 2] with pkid := 77 } [9] = (.ok bytes.length, [9] ++ bytes) ∧
    ∀ max rest, (utf8 "a/b").length + 2 + 5 ≤ max →
      V5.read max (bytes ++ rest) = (.ok (.Publish ⟨false, .ExactlyOnce, false, "a/b", 77, none, [1, 2]⟩), rest) :=
  C56_v5_publish_new "a/b" .ExactlyOnce [1, 2] 77 (by decide +kernel) (by decide) (by decide +kernel) [9] _ (.inl rfl)

/-- C56 (v5): `Subscribe::new`, `new_many` and any sequence of `add` hold exactly the given filters, in
order, with the default options. -/
theorem C56_v5_subscribe_builder (path : String) (qos : QoS) (fs : List SubscribeFilter) (more : List (String × QoS)) :
    (more.foldl (fun s f => s.add f.1 f.2) (Subscribe.new path qos))
      = ⟨0, ((path, qos) :: more).map fun f => ⟨f.1, f.2, false, false, .OnEverySubscribe⟩, none⟩
    ∧ (more.foldl (fun s f => s.add f.1 f.2) Subscribe.empty_subscribe)
      = ⟨0, more.map fun f => ⟨f.1, f.2, false, false, .OnEverySubscribe⟩, none⟩
    ∧ (more.foldl (fun s f => s.add f.1 f.2) (Subscribe.new_many fs))
      = ⟨0, fs ++ more.map fun f => ⟨f.1, f.2, false, false, .OnEverySubscribe⟩, none⟩ := by
  have : ∀ (s : Subscribe), more.foldl (fun s f => s.add f.1 f.2) s
      = ⟨s.pkid, s.filters ++ more.map fun f => ⟨f.1, f.2, false, false, .OnEverySubscribe⟩, s.properties⟩ := by
    induction more with
    | nil => intro s; simp
    | cons f l ih => intro s; rw [List.foldl_cons, ih]; simp [Subscribe.add]
  rw [this, this, this]; simp [Subscribe.new, Subscribe.empty_subscribe, Subscribe.new_many]

/-- C56 (v5): the setters of a subscription filter are independent: each changes its own option only, in
the decoded subscription. -/
theorem C56_v5_filter_setters (path : String) (qos : QoS) (a b : Bool) (r : RetainForwardRule) (pkid : UInt16)
    (hp : (utf8 path).length ≤ 65535) (s : Bytes) :
    ∃ bytes, Subscribe.write { Subscribe.new_many [((SubscribeFilter.new path qos).set_nolocal a
          |>.set_preserve_retain b |>.set_retain_forward_rule r)] with pkid := pkid } s
        = (.ok bytes.length, s ++ bytes) ∧
      ∀ max rest, 65541 ≤ max →
        V5.read max (bytes ++ rest) = (.ok (.Subscribe ⟨pkid, [⟨path, qos, a, b, r⟩], none⟩), rest) := by
  have hb : (body (.Subscribe ⟨pkid, [⟨path, qos, a, b, r⟩], none⟩)).length = (utf8 path).length + 6 := by
    simp [body, u16_len, str_len, u8_len, optSec_none_len]; omega
  obtain ⟨bytes, h1, h2⟩ := C36_v5_subscribe_roundtrip ⟨pkid, [⟨path, qos, a, b, r⟩], none⟩
    ⟨by simp [PropsFit], by intro f hf; obtain rfl := List.mem_singleton.1 hf; exact hp⟩ (by simp [Meaningful, NonEmpty]) (by omega) s
  exact ⟨bytes, h1, fun max rest hm => h2 max rest (by omega)⟩

example : ∃ bytes, Subscribe.write { Subscribe.new_many [((SubscribeFilter.new "x/+" .AtLeastOnce).set_nolocal true
          |>.set_preserve_retain true |>.set_retain_forward_rule .Never)] with pkid := 5 } []
        = (.ok bytes.length, [] ++ bytes) ∧ ∀ max rest, 65541 ≤ max →
        V5.read max (bytes ++ rest) = (.ok (.Subscribe ⟨5, [⟨"x/+", .AtLeastOnce, true, true, .Never⟩], none⟩), rest) :=
  C56_v5_filter_setters "x/+" .AtLeastOnce true true .Never 5 (by decide +kernel) []

/-- C56 (v5): `Connect::new` with `set_login`: what the server decodes. -/
theorem C56_v5_connect_new (id u p : String) (hid : (utf8 id).length ≤ 65535) (hu : (utf8 u).length ≤ 65535)
    (hp : (utf8 p).length ≤ 65535) (hne : u ≠ "" ∨ p ≠ "") :
    (∃ n bytes, (Connect.new id).write [] = (.ok n, bytes) ∧ ∀ max rest, 13 + (utf8 id).length ≤ max →
      V5.read max (bytes ++ rest) = (.ok (.Connect ⟨.V5, 10, id, true, none, none, none⟩), rest)) ∧
    (∃ n bytes, ((Connect.new id).set_login u p).write [] = (.ok n, bytes) ∧
      ∀ max rest, 17 + (utf8 id).length + (utf8 u).length + (utf8 p).length ≤ max →
        V5.read max (bytes ++ rest) = (.ok (.Connect ⟨.V5, 10, id, true, none, some ⟨u, p⟩, none⟩), rest)) := by
  constructor
  · have hb : (body (.Connect ⟨.V5, 10, id, true, none, none, none⟩)).length = 13 + (utf8 id).length := by
      simp only [body, List.length_append, utf8_mqtt_len, u8_len, u16_len, str_len, Spec.V5.willFields,
        Spec.V5.loginFields, List.length_nil, optSec_none_len]
      omega
    obtain ⟨n, b, h1, h2⟩ := C33_v5_connect_roundtrip ⟨.V5, 10, id, true, none, none, none⟩
      ⟨hid, by simp [PropsFit], by simp, by simp⟩ (by simp [Meaningful, NonEmpty]) (by omega)
    exact ⟨n, b, h1, fun max rest hm => (h2 max rest (by omega)).2 (.inl rfl)⟩
  · have hb : (body (.Connect ⟨.V5, 10, id, true, none, some ⟨u, p⟩, none⟩)).length
        ≤ 17 + (utf8 id).length + (utf8 u).length + (utf8 p).length := by
      simp only [body, List.length_append, utf8_mqtt_len, u8_len, u16_len, str_len, Spec.V5.willFields,
        Spec.V5.loginFields, List.length_nil, optSec_none_len]
      split <;> split <;> simp [str_len] <;> omega
    obtain ⟨n, b, h1, h2⟩ := C33_v5_connect_roundtrip ⟨.V5, 10, id, true, none, some ⟨u, p⟩, none⟩
      ⟨hid, by simp [PropsFit], by simp, by rintro l hl; cases hl; exact ⟨hu, hp⟩⟩
      ⟨by simp [NonEmpty], by simp, by rintro l hl; cases hl; exact hne⟩ (by omega)
    exact ⟨n, b, h1, fun max rest hm => (h2 max rest (by omega)).2 (.inl rfl)⟩

example := (C56_v5_connect_new "id" "u" "" (by decide +kernel) (by decide +kernel) (by decide +kernel) (.inl (by decide))).2

/-- C56 (v5): the acknowledgement constructors mean success without properties to the peer, and
`Unsubscribe::new` exactly its topic. -/
theorem C56_v5_other_new (pkid : UInt16) (topic : String) (ht : (utf8 topic).length ≤ 65535) (p q : Packet)
    (hp : (p, q) ∈ [
      (.PubAck (PubAck.new pkid), .PubAck ⟨pkid, .Success, none⟩),
      (.PubRec (PubRec.new pkid), .PubRec ⟨pkid, .Success, none⟩),
      (.PubRel (PubRel.new pkid), .PubRel ⟨pkid, .Success, none⟩),
      (.PubComp (PubComp.new pkid), .PubComp ⟨pkid, .Success, none⟩),
      (.Unsubscribe (Unsubscribe.new topic), .Unsubscribe ⟨0, [topic], none⟩),
      (.Unsubscribe { Unsubscribe.new topic with pkid := pkid }, .Unsubscribe ⟨pkid, [topic], none⟩)]) (s : Bytes) :
    ∃ bytes, p.write s = (.ok bytes.length, s ++ bytes) ∧ ∀ max rest, 65540 ≤ max →
      V5.read max (bytes ++ rest) = (.ok q, rest) := by
  have key : ∀ k p, p = Packet.Unsubscribe { Unsubscribe.new topic with pkid := k } →
      p = .Unsubscribe ⟨k, [topic], none⟩ ∧ Spec.V5.WF p ∧ Spec.V5.ReadsBack p ∧ (body p).length ≤ 65540 ∧ ∀ c, p ≠ .Connect c := by
    rintro k p rfl
    have : (body (.Unsubscribe { Unsubscribe.new topic with pkid := k })).length
        = 5 + (utf8 topic).length := by
      simp [body, Unsubscribe.new, u16_len, str_len, optSec_none_len]; omega
    refine ⟨rfl, ⟨⟨by simp [PropsFit, Unsubscribe.new], ?_⟩, by simp [Meaningful, NonEmpty, Unsubscribe.new], by
      rw [this]; have : maxRemaining = 268435455 := rfl; omega⟩, trivial, by rw [this]; omega, by simp⟩
    intro t h
    obtain rfl : t = topic := by simpa [Unsubscribe.new] using h
    exact ht
  have hwf : p = q ∧ Spec.V5.WF p ∧ Spec.V5.ReadsBack p ∧ (body p).length ≤ 65540 ∧ ∀ c, p ≠ .Connect c := by
    simp only [List.mem_cons, List.not_mem_nil, or_false, Prod.mk.injEq] at hp
    rcases hp with ⟨rfl, rfl⟩ | ⟨rfl, rfl⟩ | ⟨rfl, rfl⟩ | ⟨rfl, rfl⟩ | ⟨rfl, rfl⟩ | ⟨rfl, rfl⟩
    all_goals try exact ⟨rfl, ⟨by simp [FieldsFit, PropsFit, PubAck.new, PubRec.new, PubRel.new, PubComp.new],
        by simp [Meaningful, NonEmpty, PubAck.new, PubRec.new, PubRel.new, PubComp.new],
        show 2 ≤ 268435455 by omega⟩, trivial, show 2 ≤ 65540 by omega, by simp⟩
    · exact key 0 _ rfl
    · exact key pkid _ rfl
  obtain ⟨rfl, hwf⟩ := hwf
  obtain ⟨bytes, h1, h2⟩ := v5_roundtrip p hwf.1 hwf.2.1 hwf.2.2.2 s
  exact ⟨bytes, h1, fun max rest hm => h2 max rest (by omega)⟩

example := C56_v5_other_new 9 "a/#" (by decide +kernel) _ _ (by right; left) [1, 2]

/-- C56 (v5), the exceptions: `ConnAck::new`, `UnsubAck::new` and `Disconnect::new` write packets that
`v5::read` does not accept. -/
theorem C56_v5_unreadable_new (code : ConnectReturnCode) (sp : Bool) (pkid : UInt16) (max : Nat) (hm : 3 ≤ max)
    (rest : Bytes) :
    (∃ n bytes, (ConnAck.new code sp).write [] = (.ok n, bytes)
        ∧ V5.read max (bytes ++ rest) = (.err (.InsufficientBytes 1), rest))
    ∧ (∃ n bytes, (UnsubAck.new pkid).write [] = (.ok n, bytes)
        ∧ V5.read max (bytes ++ rest) = (.err .MalformedPacket, rest))
    ∧ (∃ n bytes, Disconnect.new.write [] = (.ok n, bytes)
        ∧ V5.read max (bytes ++ rest) = (.err .PayloadRequired, rest)) := by
  refine ⟨?_, ?_, ?_⟩
  · obtain ⟨b, h1, h2⟩ := C34_v5_connack_none_unreadable (ConnAck.new code sp) rfl []
    exact ⟨_, b, h1, h2 max rest (by omega)⟩
  · obtain ⟨h1, _, h2⟩ := C37_v5_empty_unreadable pkid []
    exact ⟨_, _, h1, (h2 max rest (by omega)).1⟩
  · obtain ⟨h1, h2⟩ := C39_v5_disconnect_normal_unreadable Disconnect.new (.inl ⟨rfl, rfl⟩) []
    exact ⟨_, _, h1, h2 max rest⟩

example := C56_v5_unreadable_new .Banned true 7 3 (by decide) [1]

/-- C56 (v5): what those three constructors carry.  `ConnAck::new` writes its two arguments and nothing else; and once
the missing part is supplied (properties, reasons) the peer decodes the arguments and the defaults. -/
theorem C56_v5_completed_new (code : ConnectReturnCode) (sp : Bool) (pkid : UInt16) (s : Bytes) :
    (ConnAck.new code sp).write s = (.ok 4, s ++ [0x20, 2, if sp then 1 else 0, UInt8.ofNat (Spec.V5.connectCode code)]) ∧
    (∀ q, Spec.V5.connackProps q ≠ [] → FieldsFit (.ConnAck ⟨sp, code, some q⟩) →
      (body (.ConnAck ⟨sp, code, some q⟩)).length ≤ 268435455 →
      ∃ bytes, ConnAck.write { ConnAck.new code sp with properties := some q } s = (.ok bytes.length, s ++ bytes) ∧
        ∀ max rest, (body (.ConnAck ⟨sp, code, some q⟩)).length ≤ max →
          V5.read max (bytes ++ rest) = (.ok (.ConnAck ⟨sp, code, some q⟩), rest)) ∧
    (∀ rs : List UnsubAckReason, rs ≠ [] → rs.length ≤ 268435452 →
      ∃ bytes, UnsubAck.write { UnsubAck.new pkid with reasons := rs } s = (.ok bytes.length, s ++ bytes) ∧
        ∀ max rest, 3 + rs.length ≤ max → V5.read max (bytes ++ rest) = (.ok (.UnsubAck ⟨pkid, rs, none⟩), rest)) ∧
    (∀ q, Spec.V5.disconnectProps q ≠ [] → FieldsFit (.Disconnect ⟨.NormalDisconnection, some q⟩) →
      (body (.Disconnect ⟨.NormalDisconnection, some q⟩)).length ≤ 268435455 →
      ∃ bytes, Disconnect.write { Disconnect.new with properties := some q } s = (.ok bytes.length, s ++ bytes) ∧
        ∀ max rest, (body (.Disconnect ⟨.NormalDisconnection, some q⟩)).length ≤ max →
          V5.read max (bytes ++ rest) = (.ok (.Disconnect ⟨.NormalDisconnection, some q⟩), rest)) := by
  refine ⟨?_, ?_, ?_, ?_⟩
  · have h := V5.write_all (.ConnAck (ConnAck.new code sp)) (by simp) s
    refine Eq.trans h ?_
    cases sp <;> cases code <;> rfl
  · intro q h0 hf hl
    exact C34_v5_connack_roundtrip ⟨sp, code, some q⟩ q rfl h0 hf hl s
  · intro rs h0 hl
    have hb : (body (.UnsubAck ⟨pkid, rs, none⟩)).length = 3 + rs.length := by
      have : (List.flatMap (fun r => Spec.u8 (Spec.V5.unsubCode r)) rs).length = rs.length := by
        induction rs with
        | nil => rfl
        | cons r rs ih => simp [List.flatMap_cons, Spec.u8]
      simp only [body, List.length_append, this, u16_len]
      rfl
    obtain ⟨bytes, hw, hr⟩ := C37_v5_unsuback_roundtrip ⟨pkid, rs, none⟩ h0 (by intro p hp; cases hp) (by intro p hp; cases hp)
      (by rw [hb]; omega) s
    exact ⟨bytes, hw, fun max rest hm => hr max rest (by rw [hb]; omega)⟩
  · intro q h0 hf hl
    exact C39_v5_disconnect_roundtrip ⟨.NormalDisconnection, some q⟩ q rfl h0 hf hl s

example : (ConnAck.new .Banned true).write [9] = (.ok 4, [9, 0x20, 2, 1, 0x8A]) :=
  (C56_v5_completed_new .Banned true 7 [9]).1

end V5

end Props
