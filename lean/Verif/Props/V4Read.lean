import Verif.Proof.V4Spec
import Verif.Proof.Stream
/-! v4 decoding: C07, C11, C13, C28, C29, C31, C51, C55. -/
namespace Props
open Mqtt Mqtt.V4 Spec

/-! ### C07 -/

/-- C07: `v4::read` returns `Ok` or `Err` on every stream with every limit (no panic, no endless
loop). -/
theorem C07_v4_read_total (max : Nat) (s : Bytes) :
    (∃ p s', V4.read max s = (.ok p, s')) ∨ ∃ e s', V4.read max s = (.err e, s') :=
  (v4_streaming max).total s

example : V4.read 9 [0x82, 3, 0, 1, 9] = (.err .MalformedPacket, []) := by decide +kernel
example : V4.read 9 [0xA2, 3, 0, 1, 9] = (.err .MalformedPacket, []) := by decide +kernel

/-! ### C11 -/

/-- C11: `InsufficientBytes` from `v4::read` means the stream is unchanged and holds no complete frame
within the limit. -/
theorem C11_v4_insufficient (max n : Nat) (s s' : Bytes)
    (h : V4.read max s = (.err (.InsufficientBytes n), s')) :
    s' = s ∧ 1 ≤ n ∧ ¬ ∃ b1 bs rest, s = b1 :: (bs ++ rest) ∧ IsVbi bs ∧ vbiValue bs ≤ max
      ∧ vbiValue bs ≤ rest.length := by
  have h1 : s' = s := (v4_streaming max).wait_same s _ s' h ⟨n, rfl⟩
  refine ⟨h1, ?_⟩
  rcases check_total s max with ⟨hd, hc⟩ | ⟨e, hc⟩
  · -- a complete frame would have been removed
    have hl := check_frame_length_le max hc
    rw [v4_read_eq, readG_ok _ _ hc] at h
    obtain ⟨_, h2⟩ := Prod.mk.inj h
    have := congrArg List.length (h2.trans h1)
    simp at this
    omega
  · rw [v4_read_eq, readG_err _ _ hc] at h
    simp at h
    obtain ⟨rfl, _⟩ := h
    refine ⟨?_, ?_⟩
    · rcases (check_insufficient_iff max s n).1 hc with ⟨_, rfl⟩ | ⟨_, _, _, _, _, rfl⟩ | ⟨_, _, _, _, _, _, _, rfl⟩ <;> omega
    · rintro ⟨b1, bs, rest, rfl, hv, hm, hr⟩
      rw [check_frame b1 bs rest max hv hm hr] at hc
      simp at hc

example : V4.read 9 [0x82, 3, 0, 1] = (.err (.InsufficientBytes 1), [0x82, 3, 0, 1]) := by decide +kernel

/-! ### C13 -/

/-- C13: however the network splits the stream into chunks, the client that appends each chunk and
reads until `InsufficientBytes` gets the same packets, the same final error and the same leftover as
when all bytes arrive at once. -/
theorem C13_v4_chunking (max : Nat) (chunks : List Bytes) (ps : List Packet) (e : Option Error) (r : Bytes) :
    Feed (V4.read max) retryInsufficient [] chunks ps e r
      ↔ Feed (V4.read max) retryInsufficient [] [chunks.flatten] ps e r := by
  rw [feed_chunks (v4_streaming max) (v4_pump_nil max), feed_chunks (v4_streaming max) (v4_pump_nil max)]
  simp

/-- C13: and there is exactly one such outcome for every sequence of chunks. -/
theorem C13_v4_outcome_exists_unique (max : Nat) (chunks : List Bytes) :
    ∃ ps e r, Feed (V4.read max) retryInsufficient [] chunks ps e r ∧
      ∀ ps' e' r', Feed (V4.read max) retryInsufficient [] chunks ps' e' r' → ps' = ps ∧ e' = e ∧ r' = r := by
  obtain ⟨ps, e, r, h⟩ := feed_exists (v4_streaming max) [] chunks
  refine ⟨ps, e, r, h, fun ps' e' r' h' => ?_⟩
  rw [feed_chunks (v4_streaming max) (v4_pump_nil max)] at h h'
  exact pump_unique h' h

/-- one packet byte by byte -/
example : Feed (V4.read 9) retryInsufficient [] [[0x40], [2], [1], [5, 0x40]]
    ([] ++ ([] ++ ([] ++ ([.PubAck ⟨261⟩] ++ [])))) none [0x40] :=
  .more (.wait (e := .InsufficientBytes 1) (s' := [0x40]) (by decide +kernel) ⟨_, rfl⟩)
  (.more (.wait (e := .InsufficientBytes 2) (s' := [0x40, 2]) (by decide +kernel) ⟨_, rfl⟩)
  (.more (.wait (e := .InsufficientBytes 1) (s' := [0x40, 2, 1]) (by decide +kernel) ⟨_, rfl⟩)
  (.more (.step (s' := [0x40]) (by decide +kernel)
    (.wait (e := .InsufficientBytes 1) (by decide +kernel) ⟨_, rfl⟩)) .nil)))

/-! ### C28, read side -/

/-- C28 (v4, reading): a publish read has packet id 0 exactly when its QoS is 0. -/
theorem C28_v4_read_pkid (max : Nat) (s s' : Bytes) (p : Publish)
    (h : V4.read max s = (.ok (.Publish p), s')) : p.qos = .AtMostOnce ↔ p.pkid = 0 := by
  obtain ⟨b1, bs, bd, _, _, _, _, hd⟩ := (read_ok_iff max s s' _).1 h
  exact hd.2.2.2

example : V4.read 9 [0x32, 5, 0, 1, 97, 0, 9] = (.ok (.Publish ⟨false, .AtLeastOnce, false, "a", 9, []⟩), [])
    ∧ V4.read 9 [0x32, 5, 0, 1, 97, 0, 0] = (.err .PacketIdZero, []) := by decide +kernel

/-! ### C31 -/

/-- C31: `v4::read` returns `p` exactly when the stream starts with a first byte, a variable byte
integer with the body length, and a body which together denote `p` (`Spec.V4.Denotes`, the MQTT 3.1.1
grammar with the tolerances listed there), within the limit; what follows the frame is left. -/
theorem C31_v4_read_iff (max : Nat) (s : Bytes) (p : Packet) (s' : Bytes) :
    V4.read max s = (.ok p, s') ↔
      ∃ b1 bs bd, s = b1 :: (bs ++ (bd ++ s')) ∧ IsVbi bs ∧ vbiValue bs = bd.length
        ∧ bd.length ≤ max ∧ Spec.V4.Denotes b1 bd p :=
  read_ok_iff max s s' p

example : V4.read 9 [0x90, 0x84, 0x00, 0, 7, 1, 0x80, 5]
    = (.ok (.SubAck ⟨7, [.Success .AtLeastOnce, .Failure]⟩), [5]) := by decide +kernel

/-! ### C29 -/

/-- C29: whatever `v4::read` returns is well-formed, can be written, and the written bytes are read
back as the same packet (also with the same limit). -/
theorem C29_v4_reencode (max : Nat) (s s' : Bytes) (p : Packet) (h : V4.read max s = (.ok p, s')) :
    Spec.V4.WF p ∧ ∃ n bytes, p.write [] = (.ok n, bytes) ∧
      ∀ rest, V4.read max (bytes ++ rest) = (.ok p, rest) := by
  obtain ⟨b1, bs, bd, _, hv, hl, hm, hd⟩ := (read_ok_iff max s s' _).1 h
  obtain ⟨h1, h2, h3⟩ := denotes_wf hd
  have h4 := vbiValue_le hv
  have hwf : Spec.V4.WF p := ⟨h1, h2, by omega⟩
  obtain ⟨n, hn⟩ := write_empty p hwf
  exact ⟨hwf, n, _, hn, fun rest => read_encode p hwf max (by omega) rest⟩

/-- a frame with reserved bits set and a non-minimal length is normalised -/
example : V4.read 9 [0x4f, 0x82, 0x00, 0, 7] = (.ok (.PubAck ⟨7⟩), [])
    ∧ Packet.write (.PubAck ⟨7⟩) [] = (.ok 4, [0x40, 2, 0, 7]) := by decide +kernel

/-! ### C51 -/

/-- C51: outcome of reading a length-prefixed string field, for all field contents: with `n` the
two-byte length and `t` what follows, `BoundaryCrossed n` if `t` is shorter than `n`, `TopicNotUtf8` if
the `n` bytes are not UTF-8, and otherwise the string with exactly those bytes. -/
theorem C51_read_string (n : UInt16) (t : Bytes) :
    (t.length < n.toNat → (read_mqtt_string (Spec.u16 n.toNat ++ t)).1 = .err (.BoundaryCrossed n.toNat)) ∧
    (n.toNat ≤ t.length → (¬ ∃ v, utf8 v = t.take n.toNat) →
      (read_mqtt_string (Spec.u16 n.toNat ++ t)).1 = .err .TopicNotUtf8) ∧
    (n.toNat ≤ t.length → ∀ v, utf8 v = t.take n.toNat →
      read_mqtt_string (Spec.u16 n.toNat ++ t) = (.ok v, t.drop n.toNat)) := by
  unfold read_mqtt_string
  rw [bind_run, read_mqtt_bytes_u16]
  refine ⟨fun h => ?_, fun h hv => ?_, fun h v hv => ?_⟩
  · rw [if_neg (by omega)]; rfl
  · rw [if_pos h, andThen_ok]
    have : fromUtf8 (t.take n.toNat) = none := by
      cases e : fromUtf8 (t.take n.toNat) with
      | none => rfl
      | some v => exact absurd ⟨v, (fromUtf8_iff _ _).1 e⟩ hv
    simp [this, fail_run]
  · rw [if_pos h, andThen_ok, (fromUtf8_iff _ _).2 hv]; rfl

/-- C51: fewer than two bytes left for the length: `MalformedPacket` -/
theorem C51_read_string_short (t : Bytes) (h : t.length < 2) :
    (read_mqtt_string t).1 = .err .MalformedPacket := by
  unfold read_mqtt_string
  rw [bind_run, read_mqtt_bytes_short t h]; rfl

example : (read_mqtt_string [0]).1 = .err .MalformedPacket := C51_read_string_short [0] (by decide)


/-- C51 (v4): all strings (and the will message) of a decoded packet have at most 65535 bytes.  (They
are the bytes of their fields by `C31_v4_read_iff`, and valid UTF-8 by type.) -/
theorem C51_v4_strings_bounded (max : Nat) (s s' : Bytes) (p : Packet) (h : V4.read max s = (.ok p, s')) :
    Spec.V4.FieldsFit p := (C29_v4_reencode max s s' p h).1.1

example : Spec.V4.FieldsFit (.Unsubscribe ⟨1, ["ab"]⟩) :=
  C51_v4_strings_bounded 9 [0xA2, 6, 0, 1, 0, 2, 97, 98, 5] [5] _ (by decide +kernel)


/-- a frame reaches the packet reader -/
theorem v4_read_frame (max : Nat) (b1 : UInt8) (bs bd rest : Bytes) (hv : IsVbi bs)
    (hl : vbiValue bs = bd.length) (hm : bd.length ≤ max) :
    V4.read max (b1 :: (bs ++ (bd ++ rest)))
      = (V4.readFrame ⟨b1, bs.length + 1, bd.length⟩ ((b1 :: bs) ++ bd), rest) := by
  have hc := check_frame b1 bs (bd ++ rest) max hv (by omega) (by simp; omega)
  rw [v4_read_eq, readG_ok _ max hc]
  have e : b1 :: (bs ++ (bd ++ rest)) = ((b1 :: bs) ++ bd) ++ rest := by simp
  simp only [FixedHeader.frame_length]
  rw [e, List.take_left' (by simp; omega), List.drop_left' (by simp; omega), hl]

/-- C51 (v4): a PUBLISH frame whose topic is not UTF-8 fails with `TopicNotUtf8`, and one whose topic
length exceeds the frame with `BoundaryCrossed`; the frame is removed. -/
theorem C51_v4_publish_bad_topic (max : Nat) (b1 : UInt8) (bs : Bytes) (n : UInt16) (t rest : Bytes)
    (hb1 : b1.toNat / 16 = 3) (hq : b1.toNat / 2 % 4 ≠ 3) (hv : IsVbi bs)
    (hl : vbiValue bs = 2 + t.length) (hm : 2 + t.length ≤ max) :
    (t.length < n.toNat →
      V4.read max (b1 :: (bs ++ (Spec.u16 n.toNat ++ t ++ rest))) = (.err (.BoundaryCrossed n.toNat), rest)) ∧
    (n.toNat ≤ t.length → (¬ ∃ v, utf8 v = t.take n.toNat) →
      V4.read max (b1 :: (bs ++ (Spec.u16 n.toNat ++ t ++ rest))) = (.err .TopicNotUtf8, rest)) := by
  have hlen : (Spec.u16 n.toNat ++ t).length = 2 + t.length := by simp [u16_len]
  have h1 := v4_read_frame max b1 bs (Spec.u16 n.toNat ++ t) rest hv (by omega) (by omega)
  rw [h1, hlen]
  have ht : FixedHeader.packet_type ⟨b1, bs.length + 1, 2 + t.length⟩ = .ok .Publish :=
    (packet_type_ok_iff _ _).2 (by simp [PacketType.toU8, hb1])
  obtain ⟨q, hqq⟩ : ∃ q, Mqtt.qos ((b1 &&& 0b0110) >>> 1) = .ok q := by
    clear hl hm h1 ht hb1
    revert b1
    refine forall_u8 ?_
    intro b hq
    have : ∀ b : Fin 256, (UInt8.ofNat b.val).toNat / 2 % 4 ≠ 3 →
      ((UInt8.ofNat b.val) &&& 0b0110) >>> 1 = 0 ∨ ((UInt8.ofNat b.val) &&& 0b0110) >>> 1 = 1
        ∨ ((UInt8.ofNat b.val) &&& 0b0110) >>> 1 = 2 := by decide +kernel
    rcases this b hq with h | h | h <;> rw [h]
    · exact ⟨_, rfl⟩
    · exact ⟨_, rfl⟩
    · exact ⟨_, rfl⟩
  have hrun : ∀ e, (read_mqtt_string (Spec.u16 n.toNat ++ t)).1 = .err e →
      V4.readFrame ⟨b1, bs.length + 1, 2 + t.length⟩ ((b1 :: bs) ++ (Spec.u16 n.toNat ++ t)) = .err e := by
    intro e he
    simp only [V4.readFrame, ht, if_neg (show ¬ (2 + t.length = 0) by omega)]
    rw [onFrame_err_iff]
    unfold Publish.readM
    simp only [bind_run, lift_run, hqq, andThen_ok]
    rw [advance_run (b1 :: bs) _ (bs.length + 1) rfl, andThen_ok, bind_run]
    revert he
    generalize read_mqtt_string (Spec.u16 n.toNat ++ t) = r
    rcases r with ⟨r | r | _ | _, r'⟩ <;> simp [M.andThen]
  exact ⟨fun h => by rw [hrun _ ((C51_read_string n t).1 h)],
    fun h hv => by rw [hrun _ ((C51_read_string n t).2.1 h hv)]⟩

example : V4.read 9 [0x30, 3, 0, 1, 0xff, 7] = (.err .TopicNotUtf8, [7])
    ∧ V4.read 9 [0x30, 3, 0, 2, 97, 7] = (.err (.BoundaryCrossed 2), [7]) := by decide +kernel

/-! ### C55 -/

/-- C55: a CONNECT frame with will flag 0 but will QoS or will retain set is rejected with
`IncorrectPacketFormat`, whatever the rest of the frame. -/
theorem C55_v4_will_bits_without_will (max : Nat) (b1 : UInt8) (bs tail rest : Bytes) (lv : Protocol) (flags : UInt8)
    (ka : UInt16) (cid : String) (bd : Bytes) (hb1 : b1.toNat / 16 = 1) (hv : IsVbi bs) (hl : vbiValue bs = bd.length)
    (hm : bd.length ≤ max) (hc : (utf8 cid).length ≤ 65535)
    (hbd : bd = str "MQTT" ++ Spec.u8 (Spec.V4.level lv) ++ [flags] ++ Spec.u16 ka.toNat ++ str cid ++ tail)
    (h0 : ¬ Spec.V4.bit flags 2)
    (h1 : Spec.V4.bit flags 3 ∨ Spec.V4.bit flags 4 ∨ Spec.V4.bit flags 5) :
    V4.read max (b1 :: (bs ++ (bd ++ rest))) = (.err .IncorrectPacketFormat, rest) := by
  rw [v4_read_frame max b1 bs bd rest hv hl hm]
  have ht : FixedHeader.packet_type ⟨b1, bs.length + 1, bd.length⟩ = .ok .Connect :=
    (packet_type_ok_iff _ _).2 (by simp [PacketType.toU8, hb1])
  have hbl : bd.length ≠ 0 := by
    rw [hbd]; simp only [List.length_append, mqtt_len]; omega
  simp only [V4.readFrame, ht, if_neg hbl]
  congr 1
  rw [onFrame_err_iff]
  unfold Connect.readM
  have hM : (utf8 "MQTT").length ≤ 65535 := by decide +kernel
  rw [bind_run, advance_run (b1 :: bs) _ (bs.length + 1) rfl, andThen_ok, hbd]
  simp only [List.append_assoc]
  rw [bind_run, read_mqtt_string_run _ _ hM, andThen_ok, bind_run]
  have hf : LastWill.read flags = M.fail .IncorrectPacketFormat := by
    unfold LastWill.read
    have : ∀ f : Fin 256, ¬ Spec.V4.bit (UInt8.ofNat f.val) 2 →
        (Spec.V4.bit (UInt8.ofNat f.val) 3 ∨ Spec.V4.bit (UInt8.ofNat f.val) 4 ∨ Spec.V4.bit (UInt8.ofNat f.val) 5) →
        (UInt8.ofNat f.val) &&& 0b100 = 0 ∧ (UInt8.ofNat f.val) &&& 0b00111000 ≠ 0 := by decide +kernel
    have := forall_u8 (P := fun f => ¬ Spec.V4.bit f 2 → (Spec.V4.bit f 3 ∨ Spec.V4.bit f 4 ∨ Spec.V4.bit f 5) →
      f &&& 0b100 = 0 ∧ f &&& 0b00111000 ≠ 0) this flags h0 h1
    rw [if_pos this.1, if_pos this.2]
  have hcont : ∀ p : Protocol, (do
      let connect_flags ← read_u8
      let clean_session := decide (connect_flags &&& 0b10 ≠ 0)
      let keep_alive ← read_u16
      let client_id ← read_mqtt_string
      let last_will ← LastWill.read connect_flags
      let login ← Login.read connect_flags
      pure (Connect.mk p keep_alive client_id clean_session last_will login) : M Connect)
        ([flags] ++ (Spec.u16 ka.toNat ++ (str cid ++ tail))) = (.err .IncorrectPacketFormat, tail) := by
    intro p
    rw [bind_run, List.singleton_append, read_u8_cons, andThen_ok, bind_run, read_u16_run, andThen_ok, bind_run,
      read_mqtt_string_run _ _ hc, andThen_ok, bind_run, hf]
    rfl
  cases lv
  · rw [show Spec.u8 (Spec.V4.level .V4) = [4] from rfl, List.singleton_append, read_u8_cons, andThen_ok, ite_run, if_neg (by simp)]
    exact congrArg Prod.fst (hcont .V4)
  · rw [show Spec.u8 (Spec.V4.level .V5) = [5] from rfl, List.singleton_append, read_u8_cons, andThen_ok, ite_run, if_neg (by simp)]
    exact congrArg Prod.fst (hcont .V5)

/-- hypotheses met: will QoS 1 without a will -/
example : V4.read 99 [0x10, 13, 0, 4, 77, 81, 84, 84, 4, 0x0A, 0, 10, 0, 1, 97, 0xC0, 0] = (.err .IncorrectPacketFormat, [0xC0, 0]) :=
  C55_v4_will_bits_without_will 99 0x10 [13] [] [0xC0, 0] .V4 0x0A 10 "a" [0, 4, 77, 81, 84, 84, 4, 0x0A, 0, 10, 0, 1, 97] rfl
    ⟨by decide, [], 13, rfl, by decide, by simp⟩ rfl (by decide) (by decide +kernel) (by decide +kernel) (by decide) (.inl (by decide))


/-- C55: will flag 1 with will QoS 3 (both QoS bits) is rejected with `InvalidQoS(3)`. -/
theorem C55_v4_will_qos3 (max : Nat) (b1 : UInt8) (bs tail rest : Bytes) (lv : Protocol) (flags : UInt8)
    (ka : UInt16) (cid wt : String) (wm : Bytes) (bd : Bytes) (hb1 : b1.toNat / 16 = 1) (hv : IsVbi bs)
    (hl : vbiValue bs = bd.length) (hm : bd.length ≤ max) (hc : (utf8 cid).length ≤ 65535)
    (hwt : (utf8 wt).length ≤ 65535) (hwm : wm.length ≤ 65535)
    (hbd : bd = str "MQTT" ++ Spec.u8 (Spec.V4.level lv) ++ [flags] ++ Spec.u16 ka.toNat ++ str cid
      ++ str wt ++ bin wm ++ tail)
    (h0 : Spec.V4.bit flags 2) (h1 : Spec.V4.bit flags 3) (h2 : Spec.V4.bit flags 4) :
    V4.read max (b1 :: (bs ++ (bd ++ rest))) = (.err (.InvalidQoS 3), rest) := by
  rw [v4_read_frame max b1 bs bd rest hv hl hm]
  have ht : FixedHeader.packet_type ⟨b1, bs.length + 1, bd.length⟩ = .ok .Connect :=
    (packet_type_ok_iff _ _).2 (by simp [PacketType.toU8, hb1])
  have hbl : bd.length ≠ 0 := by
    rw [hbd]; simp only [List.length_append, mqtt_len]; omega
  simp only [V4.readFrame, ht, if_neg hbl]
  congr 1
  rw [onFrame_err_iff]
  unfold Connect.readM
  have hM : (utf8 "MQTT").length ≤ 65535 := by decide +kernel
  rw [bind_run, advance_run (b1 :: bs) _ (bs.length + 1) rfl, andThen_ok, hbd]
  simp only [List.append_assoc]
  rw [bind_run, read_mqtt_string_run _ _ hM, andThen_ok, bind_run]
  have hf : LastWill.read flags (str wt ++ (bin wm ++ tail)) = (.err (.InvalidQoS 3), tail) := by
    unfold LastWill.read
    have : ∀ f : Fin 256, Spec.V4.bit (UInt8.ofNat f.val) 2 → Spec.V4.bit (UInt8.ofNat f.val) 3 →
        Spec.V4.bit (UInt8.ofNat f.val) 4 →
        (UInt8.ofNat f.val) &&& 0b100 ≠ 0 ∧ ((UInt8.ofNat f.val) &&& 0b11000) >>> 3 = 3 := by decide +kernel
    have := forall_u8 (P := fun f => Spec.V4.bit f 2 → Spec.V4.bit f 3 → Spec.V4.bit f 4 →
      f &&& 0b100 ≠ 0 ∧ (f &&& 0b11000) >>> 3 = 3) this flags h0 h1 h2
    rw [if_neg this.1, bind_run, read_mqtt_string_run _ _ hwt, andThen_ok, bind_run, read_mqtt_bytes_run _ _ hwm,
      andThen_ok, bind_run, lift_run, this.2]
    rfl
  have hcont : ∀ p : Protocol, (do
      let connect_flags ← read_u8
      let clean_session := decide (connect_flags &&& 0b10 ≠ 0)
      let keep_alive ← read_u16
      let client_id ← read_mqtt_string
      let last_will ← LastWill.read connect_flags
      let login ← Login.read connect_flags
      pure (Connect.mk p keep_alive client_id clean_session last_will login) : M Connect)
        ([flags] ++ (Spec.u16 ka.toNat ++ (str cid ++ (str wt ++ (bin wm ++ tail))))) = (.err (.InvalidQoS 3), tail) := by
    intro p
    rw [bind_run, List.singleton_append, read_u8_cons, andThen_ok, bind_run, read_u16_run, andThen_ok, bind_run,
      read_mqtt_string_run _ _ hc, andThen_ok, bind_run, hf]
    rfl
  cases lv
  · rw [show Spec.u8 (Spec.V4.level .V4) = [4] from rfl, List.singleton_append, read_u8_cons, andThen_ok, ite_run, if_neg (by simp)]
    exact congrArg Prod.fst (hcont .V4)
  · rw [show Spec.u8 (Spec.V4.level .V5) = [5] from rfl, List.singleton_append, read_u8_cons, andThen_ok, ite_run, if_neg (by simp)]
    exact congrArg Prod.fst (hcont .V5)

example : V4.read 99 [16, 14, 0, 4, 77, 81, 84, 84, 4, 0x22, 0, 10, 0, 2, 105, 100, 9] = (.err .IncorrectPacketFormat, [9])
    ∧ V4.read 99 [16, 19, 0, 4, 77, 81, 84, 84, 4, 0x1e, 0, 10, 0, 1, 105, 0, 1, 97, 0, 1, 8, 9] = (.err (.InvalidQoS 3), [9]) := by
  decide +kernel

end Props
