import Verif.Proof.V4Spec
import Verif.Proof.Stream
/-! v4 round trips: C15, C17-C23, C30. -/
namespace Props
open Mqtt Mqtt.V4 Spec

/-- a WF packet other than CONNECT: what is appended to any buffer is read back -/
theorem v4_roundtrip (p : Packet) (h : Spec.V4.WF p) (hc : ∀ c, p ≠ .Connect c) (s : Bytes) :
    ∃ bytes, p.write s = (.ok bytes.length, s ++ bytes) ∧
      ∀ max rest, (Spec.V4.body p).length ≤ max → V4.read max (bytes ++ rest) = (.ok p, rest) :=
  ⟨_, write_encode p h hc s, fun max rest hm => read_encode p h max hm rest⟩

/-! ### C17 -/

/-- C17: v4 PUBLISH round-trips, into any buffer, whatever follows. -/
theorem C17_v4_publish_roundtrip (p : Publish) (ht : (utf8 p.topic).length ≤ 65535)
    (hq : p.qos = .AtMostOnce ↔ p.pkid = 0)
    (hl : (Spec.V4.body (.Publish p)).length ≤ 268435455) (s : Bytes) :
    ∃ bytes, p.write s = (.ok bytes.length, s ++ bytes) ∧
      ∀ max rest, (Spec.V4.body (.Publish p)).length ≤ max →
        V4.read max (bytes ++ rest) = (.ok (.Publish p), rest) :=
  v4_roundtrip (.Publish p) ⟨ht, hq, hl⟩ (by simp) s

example :
    let p : Publish := ⟨true, .ExactlyOnce, true, "a/b", 513, [1, 2, 3]⟩
    (utf8 p.topic).length ≤ 65535 ∧ (p.qos = .AtMostOnce ↔ p.pkid = 0)
      ∧ (Spec.V4.body (.Publish p)).length ≤ 268435455
      ∧ p.write [9] = (.ok 12, [9, 0x3d, 10, 0, 3, 0x61, 0x2f, 0x62, 2, 1, 1, 2, 3]) := by
  decide +kernel

/-! ### C18 -/

/-- C18: v4 CONNECT written to an empty buffer round-trips. -/
theorem C18_v4_connect_roundtrip (c : Connect)
    (hid : (utf8 c.client_id).length ≤ 65535)
    (hw : ∀ w, c.last_will = some w → (utf8 w.topic).length ≤ 65535 ∧ w.message.length ≤ 65535)
    (hlog : ∀ l, c.login = some l → (utf8 l.username).length ≤ 65535
      ∧ (utf8 l.password).length ≤ 65535 ∧ (l.username ≠ "" ∨ l.password ≠ "")) :
    ∃ n bytes, c.write [] = (.ok n, bytes) ∧
      ∀ max rest, (Spec.V4.body (.Connect c)).length ≤ max →
        V4.read max (bytes ++ rest) = (.ok (.Connect c), rest) := by
  have hf : Spec.V4.FieldsFit (.Connect c) :=
    ⟨hid, hw, fun l h => ⟨(hlog l h).1, (hlog l h).2.1⟩⟩
  -- such a body is always small enough
  have hl : (Spec.V4.body (.Connect c)).length ≤ maxRemaining := by
    have h1 : (Spec.V4.willFields c.last_will).length ≤ 131074 := by
      cases h : c.last_will with
      | none => simp [Spec.V4.willFields]
      | some w =>
        have := hw w h
        simp only [Spec.V4.willFields, List.length_append, str_len, bin_len]; omega
    have h2 : (Spec.V4.loginFields c.login).length ≤ 131074 := by
      cases h : c.login with
      | none => simp [Spec.V4.loginFields]
      | some l =>
        have := hlog l h
        simp only [Spec.V4.loginFields, List.length_append]
        split <;> split <;> simp only [str_len, List.length_nil] <;> omega
    simp only [Spec.V4.body, List.length_append, mqtt_len, u8_len, u16_len, str_len c.client_id,
      maxRemaining]
    omega
  have hwf : Spec.V4.WF (.Connect c) := ⟨hf, fun l h => (hlog l h).2.2, hl⟩
  exact ⟨_, _, Connect.write_empty c hl, fun max rest hm => read_encode _ hwf max hm rest⟩

/-- a CONNECT with will and login meets the hypotheses, and this is what is written -/
example :
    let c : Connect := ⟨.V4, 10, "x", true, some ⟨"w", [7], .AtLeastOnce, true⟩, some ⟨"u", "p"⟩⟩
    (c.write []).2 = [16, 25, 0, 4, 77, 81, 84, 84, 4, 238, 0, 10, 0, 1, 120, 0, 1, 119, 0, 1, 7,
        0, 1, 117, 0, 1, 112]
      ∧ (V4.read 100 (c.write []).2).1 = .ok (.Connect c) := by
  decide +kernel

/-! ### C19, C20 -/

/-- C19: v4 CONNACK round-trips. -/
theorem C19_v4_connack_roundtrip (c : ConnAck) (s : Bytes) :
    ∃ bytes, c.write s = (.ok bytes.length, s ++ bytes) ∧
      ∀ max rest, 2 ≤ max → V4.read max (bytes ++ rest) = (.ok (.ConnAck c), rest) :=
  v4_roundtrip (.ConnAck c) ⟨trivial, trivial, by show 2 ≤ maxRemaining; decide⟩ (by simp) s

example : (ConnAck.new .NotAuthorized true).write [] = (.ok 4, [0x20, 2, 1, 5]) := by decide +kernel

/-- C20: the five v4 acknowledgements round-trip, each as its own kind. -/
theorem C20_v4_acks_roundtrip (pkid : UInt16) (p : Packet)
    (hp : p = .PubAck ⟨pkid⟩ ∨ p = .PubRec ⟨pkid⟩ ∨ p = .PubRel ⟨pkid⟩ ∨ p = .PubComp ⟨pkid⟩
      ∨ p = .UnsubAck ⟨pkid⟩) (s : Bytes) :
    ∃ bytes, p.write s = (.ok bytes.length, s ++ bytes) ∧
      ∀ max rest, 2 ≤ max → V4.read max (bytes ++ rest) = (.ok p, rest) := by
  have hl : 2 ≤ maxRemaining := by decide
  rcases hp with rfl | rfl | rfl | rfl | rfl
  · exact v4_roundtrip (.PubAck ⟨pkid⟩) ⟨trivial, trivial, hl⟩ (by simp) s
  · exact v4_roundtrip (.PubRec ⟨pkid⟩) ⟨trivial, trivial, hl⟩ (by simp) s
  · exact v4_roundtrip (.PubRel ⟨pkid⟩) ⟨trivial, trivial, hl⟩ (by simp) s
  · exact v4_roundtrip (.PubComp ⟨pkid⟩) ⟨trivial, trivial, hl⟩ (by simp) s
  · exact v4_roundtrip (.UnsubAck ⟨pkid⟩) ⟨trivial, trivial, hl⟩ (by simp) s

example : PubRel.write ⟨258⟩ [] = (.ok 4, [0x62, 2, 1, 2]) := by decide +kernel

/-! ### C21, C22 -/

/-- C21: v4 SUBSCRIBE with at least one filter round-trips (filters in order). -/
theorem C21_v4_subscribe_roundtrip (p : Subscribe) (h0 : p.filters ≠ [])
    (hf : ∀ f ∈ p.filters, (utf8 f.path).length ≤ 65535)
    (hl : (Spec.V4.body (.Subscribe p)).length ≤ 268435455) (s : Bytes) :
    ∃ bytes, p.write s = (.ok bytes.length, s ++ bytes) ∧
      ∀ max rest, (Spec.V4.body (.Subscribe p)).length ≤ max →
        V4.read max (bytes ++ rest) = (.ok (.Subscribe p), rest) :=
  v4_roundtrip (.Subscribe p) ⟨hf, h0, hl⟩ (by simp) s

/-- C21: v4 UNSUBSCRIBE with any number of topics round-trips. -/
theorem C21_v4_unsubscribe_roundtrip (p : Unsubscribe)
    (hf : ∀ t ∈ p.topics, (utf8 t).length ≤ 65535)
    (hl : (Spec.V4.body (.Unsubscribe p)).length ≤ 268435455) (s : Bytes) :
    ∃ bytes, p.write s = (.ok bytes.length, s ++ bytes) ∧
      ∀ max rest, (Spec.V4.body (.Unsubscribe p)).length ≤ max →
        V4.read max (bytes ++ rest) = (.ok (.Unsubscribe p), rest) :=
  v4_roundtrip (.Unsubscribe p) ⟨hf, trivial, hl⟩ (by simp) s

example : ∃ bytes, Unsubscribe.write ⟨7, ["a/#", "b"]⟩ [9] = (.ok bytes.length, [9] ++ bytes) ∧
    ∀ max rest, 10 ≤ max → V4.read max (bytes ++ rest) = (.ok (.Unsubscribe ⟨7, ["a/#", "b"]⟩), rest) :=
  C21_v4_unsubscribe_roundtrip ⟨7, ["a/#", "b"]⟩ (by decide +kernel) (by decide +kernel) [9]


/-- C21: the non-emptiness hypothesis is needed: a SUBSCRIBE without filters is written but cannot
be read. -/
theorem C21_v4_empty_subscribe_unreadable (pkid : UInt16) (s : Bytes) :
    ∃ bytes, Subscribe.write ⟨pkid, []⟩ s = (.ok bytes.length, s ++ bytes) ∧
      ∀ max rest, 2 ≤ max → V4.read max (bytes ++ rest) = (.err .EmptySubscription, rest) := by
  have hl : (Spec.V4.body (.Subscribe ⟨pkid, []⟩)).length = 2 := rfl
  refine ⟨_, Subscribe.write_run ⟨pkid, []⟩ (by intro f hf; simp at hf) (by rw [hl]; decide) s, ?_⟩
  intro max rest hm
  rw [v4_read_eq, Spec.V4.encode, readG_spec_frame _ _ _ _ _ (by rw [hl]; decide) (by rw [hl]; exact hm), hl]
  congr 1
  have : frame (Spec.V4.byte1 (.Subscribe ⟨pkid, []⟩)) (Spec.V4.body (.Subscribe ⟨pkid, []⟩))
      = [130, 2] ++ (Spec.u16 pkid.toNat ++ []) := rfl
  rw [this]
  have ht : FixedHeader.packet_type ⟨UInt8.ofNat (Spec.V4.byte1 (.Subscribe ⟨pkid, []⟩)), (vbi 2).length + 1, 2⟩
      = .ok .Subscribe := (packet_type_ok_iff _ _).2 (by simp [Spec.V4.byte1, PacketType.toU8])
  simp only [V4.readFrame, ht, if_neg (show ¬ (2 = 0) by decide)]
  rw [onFrame_err_iff]
  unfold Subscribe.readM
  rw [bind_run, advance_run [130, 2] _ ((vbi 2).length + 1) (by decide), andThen_ok, bind_run, read_u16_run, andThen_ok]
  rfl

example :
    let p : Subscribe := ⟨7, [⟨"a", .AtMostOnce⟩, ⟨"b/#", .ExactlyOnce⟩]⟩
    p.filters ≠ [] ∧ (∀ f ∈ p.filters, (utf8 f.path).length ≤ 65535)
      ∧ (Spec.V4.body (.Subscribe p)).length ≤ 268435455
      ∧ p.write [] = (.ok 14, [0x82, 12, 0, 7, 0, 1, 97, 0, 0, 3, 98, 47, 35, 2]) := by
  decide +kernel
example : Unsubscribe.write ⟨7, ["a", "b"]⟩ [] = (.ok 10, [0xA2, 8, 0, 7, 0, 1, 97, 0, 1, 98])
    ∧ V4.read 9 [0xA2, 8, 0, 7, 0, 1, 97, 0, 1, 98] = (.ok (.Unsubscribe ⟨7, ["a", "b"]⟩), []) := by
  decide +kernel

/-- C22: v4 SUBACK with at least one code round-trips. -/
theorem C22_v4_suback_roundtrip (p : SubAck) (h0 : p.return_codes ≠ [])
    (hl : 2 + p.return_codes.length ≤ 268435455) (s : Bytes) :
    ∃ bytes, p.write s = (.ok bytes.length, s ++ bytes) ∧
      ∀ max rest, 2 + p.return_codes.length ≤ max →
        V4.read max (bytes ++ rest) = (.ok (.SubAck p), rest) := by
  have e : (Spec.V4.body (.SubAck p)).length = 2 + p.return_codes.length := by
    rw [← SubAck.len_eq]; rfl
  obtain ⟨b, h1, h2⟩ := v4_roundtrip (.SubAck p) ⟨trivial, h0, e ▸ hl⟩ (by simp) s
  exact ⟨b, h1, fun max rest hm => h2 max rest (e ▸ hm)⟩

example : SubAck.write ⟨7, [.Success .AtLeastOnce, .Failure]⟩ [] = (.ok 6, [0x90, 4, 0, 7, 1, 0x80]) := by
  decide +kernel

/-! ### C23 -/

/-- C23 (v4): PINGREQ, PINGRESP and DISCONNECT round-trip whatever follows and whatever the limit. -/
theorem C23_v4_empty_packets_roundtrip (p : Packet)
    (hp : p = .PingReq ∨ p = .PingResp ∨ p = .Disconnect) (s : Bytes) :
    ∃ bytes, p.write s = (.ok bytes.length, s ++ bytes) ∧
      ∀ max rest, V4.read max (bytes ++ rest) = (.ok p, rest) := by
  have hwf : Spec.V4.WF p ∧ (∀ c, p ≠ .Connect c) ∧ (Spec.V4.body p).length = 0 := by
    rcases hp with rfl | rfl | rfl <;>
      exact ⟨⟨trivial, trivial, by decide⟩, by simp, rfl⟩
  exact (v4_roundtrip p hwf.1 hwf.2.1 s).imp
    fun b h => ⟨h.1, fun max rest => h.2 max rest (by omega)⟩

example : Packet.write .PingResp [5] = (.ok 2, [5, 0xD0, 0]) := by decide +kernel

/-! ### C15 -/

theorem v4_pump_encodes (max : Nat) (ps : List Packet)
    (h : ∀ p ∈ ps, Spec.V4.WF p ∧ (Spec.V4.body p).length ≤ max) :
    Pump (V4.read max) retryInsufficient (ps.flatMap Spec.V4.encode) ps none [] := by
  induction ps with
  | nil => exact v4_pump_nil max
  | cons p ps ih =>
    have hp := h p (by simp)
    exact .step (read_encode p hp.1 max hp.2 _) (ih fun q hq => h q (by simp [hq]))

/-- C15: any sequence of well-formed packets, each serialised to its own buffer and the buffers sent
one after the other, is read back as that sequence with nothing left over. -/
theorem C15_v4_sequence (max : Nat) (ps : List Packet)
    (h : ∀ p ∈ ps, Spec.V4.WF p ∧ (Spec.V4.body p).length ≤ max) :
    Pump (V4.read max) retryInsufficient (ps.map fun p => (p.write []).2).flatten ps none [] := by
  have e : (ps.map fun p => (p.write []).2).flatten = ps.flatMap Spec.V4.encode := by
    rw [List.flatMap_def]
    congr 1
    refine List.map_congr_left fun p hp => ?_
    obtain ⟨n, hn⟩ := write_empty p (h p hp).1
    rw [hn]
  rw [e]
  exact v4_pump_encodes max ps h

/-- C15: the same for one shared buffer into which the packets are written one after the other, when a
CONNECT occurs only as the first packet (as MQTT-3.1.0-1 demands); every write succeeds. -/
theorem C15_v4_sequence_one_buffer (max : Nat) (ps : List Packet)
    (h : ∀ p ∈ ps, Spec.V4.WF p ∧ (Spec.V4.body p).length ≤ max)
    (hc : ∀ p ∈ ps.tail, ∀ c, p ≠ .Connect c) :
    Pump (V4.read max) retryInsufficient (ps.foldl (fun buf p => (p.write buf).2) []) ps none [] := by
  have gen : ∀ (qs : List Packet), (∀ p ∈ qs, Spec.V4.WF p) → (∀ p ∈ qs, ∀ c, p ≠ .Connect c) →
      ∀ buf, qs.foldl (fun buf p => (p.write buf).2) buf = buf ++ qs.flatMap Spec.V4.encode := by
    intro qs
    induction qs with
    | nil => intro _ _ buf; simp
    | cons q qs ih =>
      intro h1 h2 buf
      rw [List.foldl_cons, write_encode q (h1 q (by simp)) (h2 q (by simp)),
        ih (fun p hp => h1 p (by simp [hp])) (fun p hp => h2 p (by simp [hp]))]
      simp
  have e : ps.foldl (fun buf p => (p.write buf).2) [] = ps.flatMap Spec.V4.encode := by
    cases ps with
    | nil => rfl
    | cons p ps =>
      obtain ⟨n, hn⟩ := write_empty p (h p (by simp)).1
      rw [List.foldl_cons, hn, gen ps (fun q hq => (h q (by simp [hq])).1) hc]
      rfl
  rw [e]
  exact v4_pump_encodes max ps h

example : Pump (V4.read 100) retryInsufficient
    (((Packet.PubAck ⟨1⟩).write ((Packet.Connect (Connect.new "id")).write []).2).2)
    [.Connect (Connect.new "id"), .PubAck ⟨1⟩] none [] :=
  C15_v4_sequence_one_buffer 100 [.Connect (Connect.new "id"), .PubAck ⟨1⟩] (by
    intro p hp
    simp only [List.mem_cons, List.not_mem_nil, or_false] at hp
    rcases hp with rfl | rfl
    · exact ⟨⟨⟨by decide +kernel, by simp [Connect.new], by simp [Connect.new]⟩,
        by simp [Spec.V4.Meaningful, Connect.new], by decide +kernel⟩, by decide +kernel⟩
    · exact ⟨⟨trivial, trivial, by decide⟩, by decide⟩) (by simp)


/-- C15: the restriction on CONNECT is needed: a PUBLISH followed by a CONNECT in one buffer is not
read back (the PUBLISH is damaged). -/
theorem C15_v4_connect_not_first :
    let p : Packet := .Publish ⟨false, .AtMostOnce, false, "topic/", 0, [1, 2, 3]⟩
    let c : Packet := .Connect (Connect.new "id")
    Spec.V4.WF p ∧ Spec.V4.WF c ∧
      ∃ q, V4.read 100 ([p, c].foldl (fun buf p => (p.write buf).2) [])
        = (.ok q, (c.write []).2) ∧ q ≠ p := by
  refine ⟨⟨by show (utf8 "topic/").length ≤ 65535; decide +kernel, by simp [Spec.V4.Meaningful],
      by decide +kernel⟩,
    ⟨⟨by decide +kernel, by simp [Connect.new], by simp [Connect.new]⟩,
      by simp [Spec.V4.Meaningful, Connect.new], by decide +kernel⟩,
    .Publish ⟨false, .AtMostOnce, false, "topic\x02", 0, [1, 2, 3]⟩, by decide +kernel, by decide⟩

example : Pump (V4.read 100) retryInsufficient
    ([Packet.PingReq, .Connect (Connect.new "id"), .PubAck ⟨3⟩].map fun p => (p.write []).2).flatten
    [.PingReq, .Connect (Connect.new "id"), .PubAck ⟨3⟩] none [] := by
  apply C15_v4_sequence
  intro p hp
  simp only [List.mem_cons, List.not_mem_nil, or_false] at hp
  rcases hp with rfl | rfl | rfl
  · exact ⟨⟨trivial, trivial, by decide⟩, by decide⟩
  · exact ⟨⟨⟨by decide +kernel, by simp [Connect.new], by simp [Connect.new]⟩,
      by simp [Spec.V4.Meaningful, Connect.new], by decide +kernel⟩, by decide +kernel⟩
  · exact ⟨⟨trivial, trivial, by decide⟩, by decide⟩

/-! ### C30 -/

/-- C30: v4 encoding is injective and prefix-free on well-formed packets. -/
theorem C30_v4_injective (p q : Packet) (hp : Spec.V4.WF p) (hq : Spec.V4.WF q) (a b : Bytes)
    (h : (p.write []).2 ++ a = (q.write []).2 ++ b) : p = q ∧ a = b := by
  obtain ⟨n, hn⟩ := write_empty p hp
  obtain ⟨m, hm⟩ := write_empty q hq
  rw [hn, hm] at h
  simp only at h
  have h1 := read_encode p hp (max (Spec.V4.body p).length (Spec.V4.body q).length) (by omega) a
  have h2 := read_encode q hq (max (Spec.V4.body p).length (Spec.V4.body q).length) (by omega) b
  rw [h] at h1
  rw [h2] at h1
  simp at h1
  exact ⟨h1.1.symm, h1.2.symm⟩

example : Spec.V4.WF (.PubAck ⟨1⟩) ∧ Spec.V4.WF (.PubRec ⟨1⟩)
    ∧ (Packet.write (.PubAck ⟨1⟩) []).2 ≠ (Packet.write (.PubRec ⟨1⟩) []).2 :=
  ⟨⟨trivial, trivial, by decide⟩, ⟨trivial, trivial, by decide⟩, by decide +kernel⟩

end Props
