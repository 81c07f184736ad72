import Verif.Proof.V4Wr
import Verif.Proof.V4Spec
/-! v4 writers: C02, C24-C28, C50, C58. -/
namespace Props
open Mqtt Mqtt.V4 Spec

/-! ### C02 -/

/-- C02 (v4): a packet whose remaining length exceeds 268435455 is refused with `PayloadTooLong` (or
with `PacketIdZero`, when it is also a QoS>0 publish without packet id), and `PayloadTooLong` is
reported for no other packet. -/
theorem C02_v4_too_long (p : Packet) (s : Bytes) :
    ((p.write s).1 = .err .PayloadTooLong → 268435455 < (Spec.V4.body p).length) ∧
    (268435455 < (Spec.V4.body p).length →
      (p.write s).1 = .err .PayloadTooLong ∨
      ((p.write s).1 = .err .PacketIdZero ∧
        ∃ q, p = .Publish q ∧ q.qos ≠ .AtMostOnce ∧ q.pkid = 0)) := by
  have hM : maxRemaining = 268435455 := rfl
  by_cases hc : ∃ c, p = .Connect c
  · obtain ⟨c, rfl⟩ := hc
    rcases Connect.write_cases c s with ⟨h, e⟩ | ⟨h, t, f, _, e⟩
    · have e' : ((Packet.Connect c).write s).1 = .err .PayloadTooLong := congrArg Prod.fst e
      exact ⟨fun _ => hM ▸ h, fun _ => .inl e'⟩
    · have e' : ((Packet.Connect c).write s).1 = .ok _ := congrArg Prod.fst e
      rw [e']
      exact ⟨by simp, fun h' => absurd h' (by omega)⟩
  · rcases write_cases p (fun c h => hc ⟨c, h⟩) s with ⟨h, _, e⟩ | ⟨h, _, t, _, e⟩ | ⟨q, rfl, h1, h2, er, t, _, e, h3⟩
    · rw [e]; exact ⟨fun _ => hM ▸ h, fun _ => .inl rfl⟩
    · rw [e]; exact ⟨by simp, fun h' => absurd h' (by omega)⟩
    · rw [e]
      rcases h3 with rfl | ⟨rfl, h3⟩
      · exact ⟨by simp, fun _ => .inr ⟨rfl, q, rfl, h1, h2⟩⟩
      · exact ⟨fun _ => hM ▸ h3, fun _ => .inl rfl⟩

example : 268435455 < (Spec.V4.body (.Publish (Publish.new "" .AtMostOnce (List.replicate 268435454 0)))).length := by
  have : (utf8 "").length = 0 := by decide +kernel
  simp only [Spec.V4.body, Publish.new, List.length_append, str_len, this, List.length_replicate, if_true,
    List.length_nil]
  omega

/-! ### C24 -/

/-- C24: for every well-formed v4 packet other than CONNECT the bytes appended are exactly those of
the MQTT 3.1.1 encoding (`Spec.V4.encode`). -/
theorem C24_v4_wire_format (p : Packet) (h : Spec.V4.WF p) (hc : ∀ c, p ≠ .Connect c) (s : Bytes) :
    p.write s = (.ok (Spec.V4.encode p).length, s ++ Spec.V4.encode p) :=
  write_encode p h hc s

/-- C24: CONNECT, written to an empty buffer, is exactly the MQTT 3.1.1 encoding. -/
theorem C24_v4_connect_wire_format (c : Connect) (h : Spec.V4.WF (.Connect c)) :
    (c.write []).2 = Spec.V4.encode (.Connect c) := by
  rw [Connect.write_empty c h.2.2]

example : Spec.V4.WF (.Publish ⟨true, .AtLeastOnce, false, "t", 258, [65]⟩)
    ∧ Spec.V4.encode (.Publish ⟨true, .AtLeastOnce, false, "t", 258, [65]⟩)
      = [0x3a, 6, 0, 1, 116, 1, 2, 65] :=
  ⟨⟨by show (utf8 "t").length ≤ 65535; decide +kernel, by simp [Spec.V4.Meaningful],
    by decide +kernel⟩, by decide +kernel⟩
example : Spec.V4.encode (.Connect ⟨.V4, 5, "c", true, none, some ⟨"u", ""⟩⟩)
    = [16, 16, 0, 4, 77, 81, 84, 84, 4, 0x82, 0, 5, 0, 1, 99, 0, 1, 117] := by decide +kernel

/-! ### C25 -/

/-- C25: every successful write of a v4 packet other than CONNECT returns exactly the number of bytes
it appended (also for packets with over-long fields). -/
theorem C25_v4_write_count (p : Packet) (hc : ∀ c, p ≠ .Connect c) (s s' : Bytes) (n : Nat)
    (h : p.write s = (.ok n, s')) : ∃ t, s' = s ++ t ∧ t.length = n := by
  rcases write_cases p hc s with ⟨_, _, e⟩ | ⟨_, _, t, _, e⟩ | ⟨q, rfl, h1, h2, er, t, _, e, h3⟩ <;>
    rw [e] at h <;> simp at h
  exact ⟨t, h.2.symm, h.1⟩

example : ∃ t, ([9, 0x62, 2, 1, 0] : Bytes) = [9] ++ t ∧ t.length = 4 :=
  C25_v4_write_count (.PubRel ⟨256⟩) (by simp) [9] _ 4 (by decide +kernel)


/-- C25, the exception: a successful CONNECT write returns only the remaining length, i.e. 2 to 5 less
than the number of bytes added. -/
theorem C25_v4_connect_count (c : Connect) (s s' : Bytes) (n : Nat) (h : c.write s = (.ok n, s')) :
    n = (Spec.V4.body (.Connect c)).length ∧ s'.length = s.length + 1 + (vbi n).length + n := by
  rcases Connect.write_cases c s with ⟨_, e⟩ | ⟨_, t, f, ht, e⟩ <;> rw [e] at h
  · simp at h
  · simp only [Prod.mk.injEq, Res.ok.injEq] at h
    obtain ⟨rfl, rfl⟩ := h
    refine ⟨rfl, ?_⟩
    rw [List.length_set, List.length_append, ht, Spec.V4.encode, frame_length]
    omega

example : Subscribe.write ⟨1, [⟨"a", .AtMostOnce⟩]⟩ [] = (.ok 8, [0x82, 6, 0, 1, 0, 1, 97, 0]) := by
  decide +kernel
example : (Connect.new "id").write [] = (.ok 14, [16, 14, 0, 4, 77, 81, 84, 84, 4, 2, 0, 10, 0, 2, 105, 100]) := by
  decide +kernel

/-! ### C26 -/

/-- C26: a v4 write other than CONNECT, successful or not, only appends. -/
theorem C26_v4_append_only (p : Packet) (hc : ∀ c, p ≠ .Connect c) (s : Bytes) :
    ∃ t, (p.write s).2 = s ++ t := by
  rcases write_cases p hc s with ⟨_, _, e⟩ | ⟨_, _, t, _, e⟩ | ⟨q, rfl, h1, h2, er, t, _, e, h3⟩ <;>
    rw [e] <;> exact ⟨_, rfl⟩

/-- a refused packet, too: the bytes before stay -/
example : (Packet.write (.Publish ⟨false, .AtLeastOnce, false, "a", 0, []⟩) [1, 2]) = (.err .PacketIdZero, [1, 2, 0x32, 3, 0, 1, 97]) := by
  decide +kernel

/-- C26, the exception: CONNECT appends and then overwrites one byte, at an index counted from the
start of the buffer (9, 10, 11 or 12), so it only appends when the buffer holds at most 9 bytes. -/
theorem C26_v4_connect_write (c : Connect) (s : Bytes) :
    (∃ t, (c.write s).2 = s ++ t ∧ (c.write s).1 = .err .PayloadTooLong) ∨
    ∃ t f i, 9 ≤ i ∧ i ≤ 12 ∧ (c.write s).2 = (s ++ t).set i f
      ∧ (s.length ≤ i → ∃ t', (c.write s).2 = s ++ t') := by
  rcases Connect.write_cases c s with ⟨_, e⟩ | ⟨_, t, f, ht, e⟩ <;> rw [e]
  · exact .inl ⟨_, rfl, rfl⟩
  · have h1 := vbi_length_pos (Spec.V4.body (.Connect c)).length
    have h2 := vbi_length_le (Spec.V4.body (.Connect c)).length
    refine .inr ⟨t, f, _, by omega, by omega, rfl, fun h => ⟨_, List.set_append_right _ _ h⟩⟩

/-- C26 (v4), the exception exactly: a well-formed CONNECT is appended to any buffer as its encoding,
except that the flags byte `f` of the encoding, at index `i = 8 + number of length bytes` of the packet,
is put at index `i` of the whole buffer; its own place holds only the clean-session bit (unless the
buffer was empty, when the two places are the same). -/
theorem C26_v4_connect_exact (c : Connect) (h : Spec.V4.WF (.Connect c)) (s : Bytes) (i : Nat)
    (hi : i = 8 + (vbi (Spec.V4.body (.Connect c)).length).length) :
    ∃ f, (Spec.V4.encode (.Connect c))[i]? = some f ∧
      (c.write s).2 = (s ++ (Spec.V4.encode (.Connect c)).set i (if c.clean_session then 2 else 0)).set i f := by
  obtain ⟨f, h1, h2⟩ := Connect.write_exact c h.2.2 s i hi
  exact ⟨f, h1, by rw [h2]⟩

/-- the flags of a second CONNECT in the same buffer overwrite those of the first -/
example : (Connect.write { Connect.new "b" with clean_session := false } (Connect.write (Connect.new "a") []).2).2
    = [16, 13, 0, 4, 77, 81, 84, 84, 4, 0, 0, 10, 0, 1, 97, 16, 13, 0, 4, 77, 81, 84, 84, 4, 0, 0, 10, 0, 1, 98] := by
  decide +kernel

/-- C26: CONNECT damages a byte that was in the buffer before. -/
theorem C26_v4_connect_overwrites :
    ((Connect.new "id").write (List.replicate 10 0xFF)).2
      = [0xFF, 0xFF, 0xFF, 0xFF, 0xFF, 0xFF, 0xFF, 0xFF, 0xFF, 2]
        ++ ((Connect.new "id").write []).2 := by decide +kernel

/-! ### C27 -/

/-- C27, as it really is: a failed v4 write always leaves some bytes of the packet behind (after the
old content, which is intact), so the caller must truncate the buffer. -/
theorem C27_v4_failed_write_leaves_bytes (p : Packet) (s s' : Bytes) (e : Error)
    (h : p.write s = (.err e, s')) : ∃ t, s' = s ++ t ∧ t ≠ [] := by
  by_cases hc : ∃ c, p = .Connect c
  · obtain ⟨c, rfl⟩ := hc
    change c.write s = _ at h
    rcases Connect.write_cases c s with ⟨_, e⟩ | ⟨_, t, f, _, e⟩ <;> rw [e] at h <;> simp at h
    exact ⟨_, h.2.symm, by simp⟩
  · rcases write_cases p (fun c h => hc ⟨c, h⟩) s with ⟨_, _, e⟩ | ⟨_, _, t, _, e⟩ | ⟨q, rfl, h1, h2, er, t, ht, e, h3⟩ <;>
      rw [e] at h <;> simp at h
    · exact ⟨_, h.2.symm, by simp⟩
    · exact ⟨_, h.2.symm, ht⟩

example : Packet.write (.Publish ⟨false, .AtLeastOnce, false, "a", 0, []⟩) [7] = (.err .PacketIdZero, [7] ++ [0x32, 3, 0, 1, 97]) := by
  decide +kernel

/-- C27: a torn packet: the header announces four bytes, only three follow. -/
theorem C27_v4_torn_publish :
    Publish.write ⟨false, .AtLeastOnce, false, "a", 0, [1]⟩ [7]
      = (.err .PacketIdZero, [7, 0x32, 4, 0, 1, 97]) := by decide +kernel

/-! ### C28, write side -/

/-- C28 (v4, writing): no QoS>0 publish with packet id 0 is ever written successfully. -/
theorem C28_v4_write_pkid (p : Publish) (s s' : Bytes) (n : Nat) (h : p.write s = (.ok n, s')) :
    p.qos ≠ .AtMostOnce → p.pkid ≠ 0 := by
  change (Packet.Publish p).write s = _ at h
  rcases write_cases (.Publish p) (by simp) s with ⟨_, h1, _⟩ | ⟨_, h1, _⟩ | ⟨q, e, h1, h2, er, t, _, e', h3⟩
  · exact h1 p rfl
  · exact h1 p rfl
  · rw [e'] at h; simp at h

example : Publish.write ⟨false, .AtLeastOnce, false, "a", 9, []⟩ [] = (.ok 7, [0x32, 5, 0, 1, 97, 0, 9]) := by
  decide +kernel

/-! ### C50 -/

/-- C50, as it really is: the two length bytes of a string or binary field hold its length modulo
65536, and nothing is refused. -/
theorem C50_length_prefix_wraps (b s : Bytes) :
    write_mqtt_bytes b s = (.ok (), s ++ Spec.u16 (b.length % 65536) ++ b) := by
  unfold write_mqtt_bytes
  rw [bind_run, putU16_run, andThen_ok, putSlice_run]
  simp

/-- C50 (v4): over-long fields are never refused: as long as the whole packet fits in the remaining
length (and a QoS>0 publish has a packet id) the write succeeds. -/
theorem C50_v4_never_refused (p : Packet) (hl : (Spec.V4.body p).length ≤ 268435455)
    (hq : ∀ q, p = .Publish q → q.qos ≠ .AtMostOnce → q.pkid ≠ 0) (s : Bytes) :
    ∃ n s', p.write s = (.ok n, s') := by
  have hM : maxRemaining = 268435455 := rfl
  by_cases hc : ∃ c, p = .Connect c
  · obtain ⟨c, rfl⟩ := hc
    rcases Connect.write_cases c s with ⟨_, _⟩ | ⟨_, t, f, _, e⟩
    · omega
    · exact ⟨_, _, e⟩
  · rcases write_cases p (fun c h => hc ⟨c, h⟩) s with ⟨_, _, _⟩ | ⟨_, _, t, _, e⟩ | ⟨q, rfl, h1, h2, _⟩
    · omega
    · exact ⟨_, _, e⟩
    · exact absurd h2 (hq q rfl h1)

/-- C50 (v4): what happens instead: for every publish whose topic is longer than 65535 bytes and not
refused for another reason, the bytes written do not contain the encoding of the topic. -/
theorem C50_v4_publish_corrupted (p : Publish) (ht : 65535 < (utf8 p.topic).length) (s s' : Bytes) (n : Nat)
    (h : p.write s = (.ok n, s')) :
    ∃ t tail, s' = s ++ Spec.u8 (Spec.V4.byte1 (.Publish p)) ++ t
        ++ Spec.u16 ((utf8 p.topic).length % 65536) ++ utf8 p.topic ++ tail
      ∧ (utf8 p.topic).length % 65536 < (utf8 p.topic).length ∧ IsVbi t := by
  have hq := C28_v4_write_pkid p s s' n h
  have hlen := Publish.len_eq p hq
  unfold Publish.write at h
  rw [bind_run, putU8_run, andThen_ok] at h
  by_cases hn : p.len ≤ maxRemaining
  · rw [bind_run, write_remaining_length_run hn, andThen_ok, bind_run, write_mqtt_string, C50_length_prefix_wraps,
      andThen_ok, bind_run, ite_run] at h
    refine ⟨vbi p.len, (if p.qos ≠ .AtMostOnce then Spec.u16 p.pkid.toNat else []) ++ p.payload, ?_, by omega, vbi_isVbi hn⟩
    by_cases h0 : p.qos ≠ .AtMostOnce
    · rw [if_pos h0, if_neg (hq h0), putU16_run, andThen_ok, bind_run, putSlice_run, andThen_ok, pure_run] at h
      simp only [Prod.mk.injEq] at h
      rw [← h.2, if_pos h0, publish_byte1]
      simp only [utf8_eq, Spec.V4.byte1, Spec.u8, List.append_assoc]
    · rw [if_neg h0, pure_run, andThen_ok, bind_run, putSlice_run, andThen_ok, pure_run] at h
      simp only [Prod.mk.injEq] at h
      rw [← h.2, if_neg h0, publish_byte1]
      simp only [utf8_eq, Spec.V4.byte1, Spec.u8, List.append_assoc, List.nil_append]
  · rw [bind_run, write_remaining_length_too_long (by omega)] at h
    simp [andThen_err] at h

/-- there are strings of every byte length -/
theorem exists_utf8_length (n : Nat) : ∃ s : String, (utf8 s).length = n := by
  induction n with
  | zero => exact ⟨"", by decide +kernel⟩
  | succ n ih =>
    obtain ⟨s, hs⟩ := ih
    refine ⟨s.push 'a', ?_⟩
    have e : ∀ s : String, (utf8 s).length = s.utf8ByteSize := fun s => rfl
    rw [e, String.utf8ByteSize_push, ← e, hs]; rfl

/-- C50 (v4): the corruption is silent: a QoS 0 publish with a topic of 65536 bytes is written
successfully and is read as a publish to the empty topic whose payload starts with the topic. -/
theorem C50_v4_silent_corruption (p : Publish) (hq : p.qos = .AtMostOnce)
    (ht : (utf8 p.topic).length = 65536) (hl : (Spec.V4.body (.Publish p)).length ≤ 268435455) (s : Bytes) :
    ∃ bytes, p.write s = (.ok bytes.length, s ++ bytes) ∧
      ∀ max rest, (Spec.V4.body (.Publish p)).length ≤ max →
        V4.read max (bytes ++ rest)
          = (.ok (.Publish { p with topic := "", pkid := 0, payload := utf8 p.topic ++ p.payload }), rest) := by
  have h0 : (utf8 "").length = 0 := by decide +kernel
  have hbd : Spec.V4.body (.Publish { p with topic := "", pkid := 0, payload := utf8 p.topic ++ p.payload })
      = Spec.u16 0 ++ utf8 p.topic ++ p.payload := by
    have : utf8 "" = [] := List.eq_nil_of_length_eq_zero h0
    simp [Spec.V4.body, hq, str, bin, this]
  have hbl : (Spec.V4.body (.Publish p)).length
      = (Spec.V4.body (.Publish { p with topic := "", pkid := 0, payload := utf8 p.topic ++ p.payload })).length := by
    rw [hbd]
    simp [Spec.V4.body, hq, str_len, u16_len]; omega
  have hwf : Spec.V4.WF (.Publish { p with topic := "", pkid := 0, payload := utf8 p.topic ++ p.payload }) :=
    ⟨by show (utf8 "").length ≤ 65535; omega, by simp [Spec.V4.Meaningful, hq], by rw [← hbl]; exact hl⟩
  refine ⟨Spec.V4.encode (.Publish { p with topic := "", pkid := 0, payload := utf8 p.topic ++ p.payload }), ?_,
    fun max rest hm => read_encode _ hwf max (by rw [← hbl]; exact hm) rest⟩
  have hlen := Publish.len_eq p (by simp [hq])
  unfold Publish.write
  rw [bind_run, putU8_run, andThen_ok, bind_run, write_remaining_length_run (by rw [hlen]; exact hl), andThen_ok,
    bind_run, write_mqtt_string, C50_length_prefix_wraps, andThen_ok, bind_run, ite_run]
  rw [if_neg (by simp [hq]), pure_run, andThen_ok, bind_run, putSlice_run, andThen_ok, pure_run, publish_byte1]
  rw [Spec.V4.encode, frame_length, ← hbl, hlen, frame, ← hbl, hbd]
  simp only [← utf8_eq, ht, Spec.V4.byte1, Spec.u8, List.append_assoc]

example : ∃ p : Publish, p.qos = .AtMostOnce ∧ (utf8 p.topic).length = 65536
    ∧ (Spec.V4.body (.Publish p)).length ≤ 268435455 := by
  obtain ⟨t, ht⟩ := exists_utf8_length 65536
  exact ⟨Publish.new t .AtMostOnce [1], rfl, ht, by simp [Spec.V4.body, Publish.new, str_len, ht]⟩

/-! ### C58 -/

/-- C58 (v4): writing any packet into any buffer terminates without panic. -/
theorem C58_v4_write_total (p : Packet) (s : Bytes) :
    (∃ n s', p.write s = (.ok n, s')) ∨ ∃ e s', p.write s = (.err e, s') := by
  by_cases hc : ∃ c, p = .Connect c
  · obtain ⟨c, rfl⟩ := hc
    rcases Connect.write_cases c s with ⟨_, e⟩ | ⟨_, t, f, _, e⟩
    · exact .inr ⟨_, _, e⟩
    · exact .inl ⟨_, _, e⟩
  · rcases write_cases p (fun c h => hc ⟨c, h⟩) s with ⟨_, _, e⟩ | ⟨_, _, t, _, e⟩ | ⟨q, rfl, h1, h2, er, t, ht, e, h3⟩
    · exact .inr ⟨_, _, e⟩
    · exact .inl ⟨_, _, e⟩
    · exact .inr ⟨_, _, e⟩

end Props
