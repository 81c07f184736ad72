import Verif.Props.V4Write
import Verif.Proof.V5Wr
import Verif.Proof.V5Stream
/-! v5 writers: C02, C25-C28, C40, C50, C58. -/
namespace Props
open Mqtt Mqtt.V5 Spec
open Spec.V5 (WF FieldsFit Meaningful PropsFit body wireBody byte1 encode IdsOk PkidOk disconnectProps)
open Mqtt.V4 (frame_length publish_byte1)

/-! ### C02 -/

/-- C02 (v5): `PayloadTooLong` is reported only for packets whose remaining length or one of whose
subscription identifiers exceeds 268435455, and every such packet is refused (with `PayloadTooLong`, or
with `PacketIdZero` when it is also a QoS>0 publish without packet id). -/
theorem C02_v5_too_long (p : Packet) (s : Bytes) :
    ((p.write s).1 = .err .PayloadTooLong → 268435455 < (wireBody p).length ∨ ¬ IdsOk p) ∧
    (268435455 < (wireBody p).length ∨ ¬ IdsOk p →
      (p.write s).1 = .err .PayloadTooLong ∨
      ((p.write s).1 = .err .PacketIdZero ∧
        ∃ q, p = .Publish q ∧ q.qos ≠ .AtMostOnce ∧ q.pkid = 0)) := by
  have hM : maxRemaining = 268435455 := rfl
  by_cases hc : ∃ c, p = .Connect c
  · obtain ⟨c, rfl⟩ := hc
    have hb : (wireBody (.Connect c)).length = (body (.Connect c)).length := rfl
    rcases Connect.write_cases c s with ⟨h, e⟩ | ⟨h, t, f, _, e⟩
    · have e' : ((Packet.Connect c).write s).1 = .err .PayloadTooLong := congrArg Prod.fst e
      exact ⟨fun _ => .inl (by omega), fun _ => .inl e'⟩
    · have e' : ((Packet.Connect c).write s).1 = .ok _ := congrArg Prod.fst e
      rw [e']
      refine ⟨by simp, fun h' => ?_⟩
      rcases h' with h' | h'
      · omega
      · exact absurd trivial h'
  · rcases write_cases p (fun c h => hc ⟨c, h⟩) s with ⟨h, h1, h2, t, _, e⟩ | ⟨t, e, h⟩ | ⟨t, e, h⟩
    · rw [e]
      refine ⟨by simp, fun h' => ?_⟩
      rcases h' with h' | h'
      · omega
      · exact absurd h1 h'
    · rw [e]
      exact ⟨fun _ => by rw [← hM]; exact h, fun _ => .inl rfl⟩
    · rw [e]
      refine ⟨by simp, fun _ => .inr ⟨rfl, ?_⟩⟩
      cases p with
      | Publish q => simp only [PkidOk] at h; push Not at h; exact ⟨q, rfl, h⟩
      | _ => exact absurd trivial h

/-- an identifier that is too large, mid-packet -/
example : Publish.write ⟨false, .AtMostOnce, false, "t", 0, some { PublishProperties.empty with
      subscription_identifiers := [268435456] }, []⟩ []
    = (.err .PayloadTooLong, [0x30, 9, 0, 1, 116, 5, 11]) := by decide +kernel

/-! ### C40 -/

/-- C40: for every well-formed v5 packet other than CONNECT, and CONNACK without properties, the bytes
appended are exactly those of the MQTT 5.0 encoding (`Spec.V5.encode`). -/
theorem C40_v5_wire_format (p : Packet) (h : WF p) (hc : ∀ c, p ≠ .Connect c)
    (ha : ∀ c, p = .ConnAck c → c.properties ≠ none) (s : Bytes) :
    p.write s = (.ok (encode p).length, s ++ encode p) :=
  write_encode p h hc ha s

/-- C40: CONNECT, written to an empty buffer, is exactly the MQTT 5.0 encoding. -/
theorem C40_v5_connect_wire_format (c : Connect) (h : WF (.Connect c)) :
    (c.write []).2 = encode (.Connect c) := by
  rw [Connect.write_empty c h.2.2]

/-- C40, the exception: a CONNACK without properties lacks the property length 0 which MQTT 5.0 demands
(3.2.2.3.1): the last byte of the encoding is missing and the remaining length is one less. -/
theorem C40_v5_connack_none (c : ConnAck) (hc : c.properties = none) (s : Bytes) :
    ∃ f code, c.write s = (.ok 4, s ++ [0x20, 2, f, code])
      ∧ encode (.ConnAck c) = [0x20, 3, f, code, 0] := by
  refine ⟨UInt8.ofNat (flag c.session_present 1), UInt8.ofNat (Spec.V5.connectCode c.code),
    ConnAck.write_none c hc s, ?_⟩
  simp [encode, body, hc, Spec.V5.optSec, Spec.V5.sec, Spec.V5.encAll, frame, Spec.u8, vbi, byte1]

/-- C40: packets that are not well-formed only in that a property set is empty, a QoS 0 publish has a
packet id, or there are no reason codes, are also written as `Spec.V5.encode` says; the one exception is
a DISCONNECT with an empty property set, which is written without its reason code. -/
theorem C40_v5_wire_format_degenerate (p : Packet) (hf : FieldsFit p) (hl : (body p).length ≤ 268435455)
    (hc : ∀ c, p ≠ .Connect c) (ha : ∀ c, p = .ConnAck c → c.properties ≠ none) (hq : PkidOk p) (s : Bytes) :
    (∃ d q, p = .Disconnect d ∧ d.properties = some q ∧ disconnectProps q = []
      ∧ p.write s = (.ok 2, s ++ [0xE0, 0])) ∨
    p.write s = (.ok (encode p).length, s ++ encode p) := by
  cases p with
  | Connect c => exact absurd rfl (hc c)
  | ConnAck c => exact .inr (ConnAck.write_run c (ha c rfl) hf hl s)
  | Publish p => exact .inr (Publish.write_run p hf hq hl s)
  | PubAck p => right; exact (ack_write .Success Spec.V5.pubackCode puback_zero 0x40 PubAckReason.toU8 puback_code p hf hl s)
  | PubRec p => right; exact (ack_write .Success Spec.V5.pubrecCode pubrec_zero 0x50 PubRecReason.toU8 pubrec_code p hf hl s)
  | PubRel p => right; exact (ack_write .Success Spec.V5.pubrelCode pubrel_zero 0x62 PubRelReason.toU8 pubrel_code p hf hl s)
  | PubComp p => right; exact (ack_write .Success Spec.V5.pubcompCode pubcomp_zero 0x70 PubCompReason.toU8 pubcomp_code p hf hl s)
  | Subscribe p => exact .inr (Subscribe.write_run p hf hl s)
  | SubAck p => exact .inr (SubAck.write_run p hf hl s)
  | Unsubscribe p => exact .inr (Unsubscribe.write_run p hf hl s)
  | UnsubAck p => exact .inr (UnsubAck.write_run p hf hl s)
  | PingReq => exact .inr (PingReq.write_run s)
  | PingResp => exact .inr (PingResp.write_run s)
  | Disconnect d =>
    by_cases h : ∃ q, d.properties = some q ∧ disconnectProps q = []
    · obtain ⟨q, h1, h2⟩ := h
      exact .inl ⟨d, q, rfl, h1, h2, Disconnect.write_empty_props d q h1 h2 s⟩
    · exact .inr (Disconnect.write_run d hf (fun q hq he => h ⟨q, hq, he⟩) hl s)

example : encode (.Publish ⟨true, .AtLeastOnce, false, "t", 258, some { PublishProperties.empty with
      topic_alias := some 5, user_properties := [("k", "v")] }, [65]⟩)
    = [0x3a, 17, 0, 1, 116, 1, 2, 10, 35, 0, 5, 38, 0, 1, 107, 0, 1, 118, 65] := by decide +kernel
example : encode (.Connect { Connect.new "c" with properties := some ⟨some 7, none, none, none, none, none, [], none, none⟩ })
    = [16, 19, 0, 4, 77, 81, 84, 84, 5, 2, 0, 10, 5, 17, 0, 0, 0, 7, 0, 1, 99] := by decide +kernel
example : Disconnect.write ⟨.ServerMoved, some ⟨none, none, [], none⟩⟩ [] = (.ok 2, [0xE0, 0]) := by decide +kernel

/-! ### C25 -/

/-- C25 (v5): every successful write of a v5 packet other than CONNECT returns exactly the number of
bytes it appended (also for packets with over-long fields). -/
theorem C25_v5_write_count (p : Packet) (hc : ∀ c, p ≠ .Connect c) (s s' : Bytes) (n : Nat)
    (h : p.write s = (.ok n, s')) : ∃ t, s' = s ++ t ∧ t.length = n := by
  rcases write_cases p hc s with ⟨_, _, _, t, _, e⟩ | ⟨t, e, _⟩ | ⟨t, e, _⟩ <;>
    rw [e] at h <;> simp at h
  exact ⟨t, h.2.symm, h.1⟩

example : ∃ t, ([9, 0x62, 2, 1, 0] : Bytes) = [9] ++ t ∧ t.length = 4 :=
  C25_v5_write_count (.PubRel ⟨256, .Success, none⟩) (by simp) [9] _ 4 (by decide +kernel)


/-- C25 (v5), the exception: a successful CONNECT write returns only the remaining length, 2 to 5 less
than the number of bytes added. -/
theorem C25_v5_connect_count (c : Connect) (s s' : Bytes) (n : Nat) (h : c.write s = (.ok n, s')) :
    n = (body (.Connect c)).length ∧ s'.length = s.length + 1 + (vbi n).length + n := by
  rcases Connect.write_cases c s with ⟨_, e⟩ | ⟨_, t, f, ht, e⟩ <;> rw [e] at h
  · simp at h
  · simp only [Prod.mk.injEq, Res.ok.injEq] at h
    obtain ⟨rfl, rfl⟩ := h
    refine ⟨rfl, ?_⟩
    rw [List.length_set, List.length_append, ht, encode, frame_length]
    omega

example : Subscribe.write ⟨1, [⟨"a", .AtLeastOnce, true, false, .Never⟩], none⟩ [] = (.ok 9, [0x82, 7, 0, 1, 0, 0, 1, 97, 0x25]) := by
  decide +kernel

/-! ### C26 -/

/-- C26 (v5): a write other than CONNECT, successful or not, only appends. -/
theorem C26_v5_append_only (p : Packet) (hc : ∀ c, p ≠ .Connect c) (s : Bytes) :
    ∃ t, (p.write s).2 = s ++ t := by
  rcases write_cases p hc s with ⟨_, _, _, t, _, e⟩ | ⟨t, e, _⟩ | ⟨t, e, _⟩ <;>
    rw [e] <;> exact ⟨_, rfl⟩

example : (Packet.write (.Publish ⟨false, .AtLeastOnce, false, "a", 0, none, []⟩) [1, 2]) = (.err .PacketIdZero, [1, 2, 0x32, 4, 0, 1, 97]) := by
  decide +kernel

/-- C26 (v5), the exception: CONNECT appends and then overwrites one byte, at an index counted from
the start of the buffer (9, 10, 11 or 12). -/
theorem C26_v5_connect_write (c : Connect) (s : Bytes) :
    (∃ t, (c.write s).2 = s ++ t ∧ (c.write s).1 = .err .PayloadTooLong) ∨
    ∃ t f i, 9 ≤ i ∧ i ≤ 12 ∧ (c.write s).2 = (s ++ t).set i f
      ∧ (s.length ≤ i → ∃ t', (c.write s).2 = s ++ t') := by
  rcases Connect.write_cases c s with ⟨_, e⟩ | ⟨_, t, f, ht, e⟩ <;> rw [e]
  · exact .inl ⟨_, rfl, rfl⟩
  · have h1 := vbi_length_pos (body (.Connect c)).length
    have h2 := vbi_length_le (body (.Connect c)).length
    refine .inr ⟨t, f, _, by omega, by omega, rfl, fun h => ⟨_, List.set_append_right _ _ h⟩⟩

/-- C26 (v5), the exception exactly: a well-formed CONNECT is appended to any buffer as its encoding,
except that the flags byte `f` of the encoding, at index `i = 8 + number of length bytes` of the packet,
is put at index `i` of the whole buffer; its own place holds only the clean-session bit (unless the
buffer was empty, when the two places are the same). -/
theorem C26_v5_connect_exact (c : Connect) (h : WF (.Connect c)) (s : Bytes) (i : Nat)
    (hi : i = 8 + (vbi (body (.Connect c)).length).length) :
    ∃ f, (encode (.Connect c))[i]? = some f ∧
      (c.write s).2 = (s ++ (encode (.Connect c)).set i (if c.clean_session then 2 else 0)).set i f := by
  obtain ⟨f, h1, h2⟩ := Connect.write_exact c h.2.2 s i hi
  exact ⟨f, h1, by rw [h2]⟩

/-- the flags of a second CONNECT in the same buffer overwrite those of the first -/
example : (Connect.write { Connect.new "b" with clean_session := false } (Connect.write (Connect.new "a") []).2).2
    = [16, 14, 0, 4, 77, 81, 84, 84, 5, 0, 0, 10, 0, 0, 1, 97, 16, 14, 0, 4, 77, 81, 84, 84, 5, 0, 0, 10, 0, 0, 1, 98] := by
  decide +kernel

/-- C26 (v5): CONNECT damages a byte that was in the buffer before. -/
theorem C26_v5_connect_overwrites :
    ((Connect.new "id").write (List.replicate 10 0xFF)).2
      = [0xFF, 0xFF, 0xFF, 0xFF, 0xFF, 0xFF, 0xFF, 0xFF, 0xFF, 2]
        ++ ((Connect.new "id").write []).2 := by decide +kernel

/-! ### C27 -/

/-- C27 (v5), as it really is: a failed write always leaves some bytes of the packet behind (after the
old content, which is intact). -/
theorem C27_v5_failed_write_leaves_bytes (p : Packet) (s s' : Bytes) (e : Error)
    (h : p.write s = (.err e, s')) : ∃ t, s' = s ++ t ∧ t ≠ [] := by
  by_cases hc : ∃ c, p = .Connect c
  · obtain ⟨c, rfl⟩ := hc
    change c.write s = _ at h
    rcases Connect.write_cases c s with ⟨_, e⟩ | ⟨_, t, f, _, e⟩ <;> rw [e] at h <;> simp at h
    exact ⟨_, h.2.symm, by simp⟩
  · rcases write_cases p (fun c h => hc ⟨c, h⟩) s with ⟨_, _, _, t, _, e⟩ | ⟨t, e, _⟩ | ⟨t, e, _⟩ <;>
      rw [e] at h <;> simp at h
    · exact ⟨_, h.2.symm, by simp⟩
    · exact ⟨_, h.2.symm, by simp⟩

example : Packet.write (.Publish ⟨false, .AtLeastOnce, false, "a", 0, none, []⟩) [7] = (.err .PacketIdZero, [7] ++ [0x32, 4, 0, 1, 97]) := by
  decide +kernel

/-- C27 (v5): a torn packet -/
theorem C27_v5_torn_publish :
    Publish.write ⟨false, .AtLeastOnce, false, "a", 0, none, [1]⟩ [7]
      = (.err .PacketIdZero, [7, 0x32, 5, 0, 1, 97]) := by decide +kernel

/-! ### C28, write side -/

/-- C28 (v5, writing): no QoS>0 publish with packet id 0 is ever written successfully. -/
theorem C28_v5_write_pkid (p : Publish) (s s' : Bytes) (n : Nat) (h : p.write s = (.ok n, s')) :
    p.qos ≠ .AtMostOnce → p.pkid ≠ 0 := by
  change (Packet.Publish p).write s = _ at h
  rcases write_cases (.Publish p) (by simp) s with ⟨_, _, h1, _⟩ | ⟨t, e, _⟩ | ⟨t, e, _⟩
  · exact h1
  · rw [e] at h; simp at h
  · rw [e] at h; simp at h

example : Publish.write ⟨false, .AtLeastOnce, false, "a", 9, none, []⟩ [] = (.ok 8, [0x32, 6, 0, 1, 97, 0, 9, 0]) := by
  decide +kernel

/-! ### C50 -/

/-- C50 (v5): over-long fields are never refused: as long as the whole packet and the subscription
identifiers fit (and a QoS>0 publish has a packet id) the write succeeds. -/
theorem C50_v5_never_refused (p : Packet) (hl : (wireBody p).length ≤ 268435455) (hi : IdsOk p) (hq : PkidOk p)
    (s : Bytes) : ∃ n s', p.write s = (.ok n, s') := by
  have hM : maxRemaining = 268435455 := rfl
  by_cases hc : ∃ c, p = .Connect c
  · obtain ⟨c, rfl⟩ := hc
    have hb : (wireBody (.Connect c)).length = (body (.Connect c)).length := rfl
    rcases Connect.write_cases c s with ⟨_, _⟩ | ⟨_, t, f, _, e⟩
    · omega
    · exact ⟨_, _, e⟩
  · rcases write_cases p (fun c h => hc ⟨c, h⟩) s with ⟨_, _, _, t, _, e⟩ | ⟨t, e, h⟩ | ⟨t, e, h⟩
    · exact ⟨_, _, e⟩
    · rcases h with h | h
      · omega
      · exact absurd hi h
    · exact absurd hq h

/-- hypotheses met: a SUBSCRIBE with a subscription identifier -/
example : ∃ n s', Packet.write (.Subscribe ⟨7, [⟨"a", .AtLeastOnce, false, true, .Never⟩], some ⟨some 300, []⟩⟩) [1] = (.ok n, s') :=
  C50_v5_never_refused _ (by decide +kernel) (by intro q hq n hn; cases hq; cases hn; decide) (by simp [PkidOk]) [1]


/-- C50 (v5): the corruption is silent: a QoS 0 publish with a topic of 65536 bytes and no properties
is written successfully; its bytes start with an empty topic. -/
theorem C50_v5_silent_corruption (p : Publish) (hq : p.qos = .AtMostOnce) (hp : p.properties = none)
    (ht : (utf8 p.topic).length = 65536) (hl : (body (.Publish p)).length ≤ 268435455) (s : Bytes) :
    p.write s = (.ok (1 + (vbi (body (.Publish p)).length).length + (body (.Publish p)).length),
      s ++ Spec.u8 (byte1 (.Publish p)) ++ vbi (body (.Publish p)).length ++ [0, 0] ++ utf8 p.topic ++ [0]
        ++ p.payload) := by
  have hlen : p.len = (body (.Publish p)).length := Publish.len_eq p (by simp [hq])
  have hb1 := publish_byte1 p.dup p.retain p.qos
  unfold Publish.write
  rw [bind_run, putU8_run, andThen_ok, bind_run, write_remaining_length_run (by rw [hlen]; exact hl), andThen_ok,
    bind_run, write_mqtt_string, C50_length_prefix_wraps, andThen_ok, bind_run, ite_run]
  rw [if_neg (by simp [hq]), pure_run, andThen_ok, bind_run, hp]
  unfold writePropsOrZero
  simp only [write_remaining_length_run (n := 0) (by decide), bind_run, andThen_ok, putSlice_run, pure_run]
  rw [hlen, ← utf8_eq, ht]
  refine Prod.ext rfl ?_
  rw [hq] at hb1
  simp only [byte1, Spec.u8, hq, hb1, List.append_assoc]
  rfl

/-- such a packet exists -/
example : ∃ p : Publish, p.qos = .AtMostOnce ∧ p.properties = none ∧ (utf8 p.topic).length = 65536
    ∧ (Spec.V5.body (.Publish p)).length ≤ 268435455 := by
  obtain ⟨t, ht⟩ := exists_utf8_length 65536
  refine ⟨Publish.new t .AtMostOnce [1], rfl, rfl, ht, ?_⟩
  simp [Spec.V5.body, Publish.new, str_len, ht, Spec.V5.optSec, Spec.V5.sec, Spec.V5.encAll, vbi, u8_len]

/-! ### C58 -/

/-- C58 (v5): writing any packet into any buffer terminates without panic. -/
theorem C58_v5_write_total (p : Packet) (s : Bytes) :
    (∃ n s', p.write s = (.ok n, s')) ∨ ∃ e s', p.write s = (.err e, s') := by
  by_cases hc : ∃ c, p = .Connect c
  · obtain ⟨c, rfl⟩ := hc
    rcases Connect.write_cases c s with ⟨_, e⟩ | ⟨_, t, f, _, e⟩
    · exact .inr ⟨_, _, e⟩
    · exact .inl ⟨_, _, e⟩
  · rcases write_cases p (fun c h => hc ⟨c, h⟩) s with ⟨_, _, _, t, _, e⟩ | ⟨t, e, _⟩ | ⟨t, e, _⟩
    · exact .inl ⟨_, _, e⟩
    · exact .inr ⟨_, _, e⟩
    · exact .inr ⟨_, _, e⟩

end Props
