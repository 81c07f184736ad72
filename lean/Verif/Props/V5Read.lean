import Verif.Proof.V5Stream
import Verif.Proof.V5Wr
import Verif.Props.V4Read
/-! v5 decoding: C08, C12, C14, C28, C51, C60. -/
namespace Props
open Mqtt Mqtt.V5 Spec

/-! ### C08 -/

/-- C08: `v5::read` returns `Ok` or `Err` on every stream with every limit (no panic, no arithmetic
overflow, no endless loop). -/
theorem C08_v5_read_total (max : Nat) (s : Bytes) :
    (∃ p s', V5.read max s = (.ok p, s')) ∨ ∃ e s', V5.read max s = (.err e, s') :=
  (v5_streaming max).total s

/-- lying property lengths -/
example : V5.read 99 [0x30, 8, 0, 1, 97, 0xff, 0xff, 0xff, 0x7f, 1] = (.err .MalformedPacket, [])
    ∧ V5.read 99 [0x82, 4, 0, 1, 9, 11, 7] = (.err (.InsufficientBytes 1), [7])
      := by decide +kernel

/-! ### C12 -/

/-- C12, as it really is: `InsufficientBytes n` from `v5::read` means either that the stream is
unchanged and holds no complete frame within the limit, or that `n = 1` and the stream held a complete
frame, which has been removed. -/
theorem C12_v5_insufficient (max n : Nat) (s s' : Bytes)
    (h : V5.read max s = (.err (.InsufficientBytes n), s')) :
    (s' = s ∧ 1 ≤ n ∧ ¬ ∃ b1 bs rest, s = b1 :: (bs ++ rest) ∧ IsVbi bs ∧ vbiValue bs ≤ max
      ∧ vbiValue bs ≤ rest.length) ∨
    (n = 1 ∧ ∃ b1 bs bd, s = b1 :: (bs ++ (bd ++ s')) ∧ IsVbi bs ∧ vbiValue bs = bd.length
      ∧ bd.length ≤ max) := by
  rcases check_total s max with ⟨hd, hc⟩ | ⟨e, hc⟩
  · right
    obtain ⟨b1, bs, r, rfl, hv, hm, hr, rfl⟩ := (check_ok_iff _ _ _).1 hc
    have hs : b1 :: (bs ++ r) = b1 :: (bs ++ (r.take (vbiValue bs) ++ r.drop (vbiValue bs))) := by simp
    have hl : (r.take (vbiValue bs)).length = vbiValue bs := by simp; omega
    have hx := v5_read_frame max b1 bs (r.take (vbiValue bs)) (r.drop (vbiValue bs)) hv hl.symm (by omega)
    rw [← hs] at hx
    rw [hx] at h
    simp only [Prod.mk.injEq] at h
    refine ⟨?_, b1, bs, r.take (vbiValue bs), by rw [← h.2]; exact hs, hv, hl.symm, by omega⟩
    rcases readFrame_good ⟨b1, bs.length + 1, (r.take (vbiValue bs)).length⟩ ((b1 :: bs) ++ r.take (vbiValue bs))
      (by simp) with ⟨p, hp⟩ | ⟨e, he, h1⟩
    · rw [hp] at h; simp at h
    · rw [he] at h; simp at h; exact h1 n h.1
  · left
    rw [v5_read_eq, readG_err _ _ hc] at h
    simp at h
    obtain ⟨rfl, rfl⟩ := h
    refine ⟨rfl, ?_, ?_⟩
    · rcases (check_insufficient_iff max s n).1 hc with ⟨_, rfl⟩ | ⟨_, _, _, _, _, rfl⟩ | ⟨_, _, _, _, _, _, _, rfl⟩ <;> omega
    · rintro ⟨b1, bs, rest, rfl, hv, hm, hr⟩
      rw [check_frame b1 bs rest max hv hm hr] at hc
      simp at hc

/-- C12: a caller can tell the two cases apart: waiting is right exactly when the buffer is unchanged. -/
theorem C12_v5_unchanged_iff (max n : Nat) (s s' : Bytes)
    (h : V5.read max s = (.err (.InsufficientBytes n), s')) :
    s' = s ↔ ¬ ∃ b1 bs rest, s = b1 :: (bs ++ rest) ∧ IsVbi bs ∧ vbiValue bs ≤ max
      ∧ vbiValue bs ≤ rest.length := by
  rcases C12_v5_insufficient max n s s' h with ⟨rfl, _, h1⟩ | ⟨_, b1, bs, bd, rfl, hv, hl, hm⟩
  · exact ⟨fun _ => h1, fun _ => rfl⟩
  · constructor
    · intro hs
      have := congrArg List.length hs
      simp at this
      omega
    · intro hn
      exact absurd ⟨b1, bs, bd ++ s', rfl, hv, by omega, by simp; omega⟩ hn

/-- both cases occur: an incomplete frame stays, a frame whose body ends early is consumed -/
example : V5.read 99 [0x40, 4, 0, 7] = (.err (.InsufficientBytes 2), [0x40, 4, 0, 7])
    ∧ V5.read 99 [0x82, 4, 0, 1, 9, 11, 7] = (.err (.InsufficientBytes 1), [7]) := by decide +kernel

/-- C12: the second case is real: a complete CONNACK frame without property length is removed and
"more bytes" are asked for; and the first case too. -/
theorem C12_v5_consumed_but_insufficient :
    V5.read 99 [0x20, 2, 0, 0, 0x40, 2, 0, 7] = (.err (.InsufficientBytes 1), [0x40, 2, 0, 7])
    ∧ V5.read 99 [0x20, 2, 0] = (.err (.InsufficientBytes 1), [0x20, 2, 0]) := by decide +kernel

/-! ### C14 -/

/-- C14, as it really is: chunking is irrelevant for the client that waits only when
`InsufficientBytes` left the buffer unchanged (and treats it as an error otherwise). -/
theorem C14_v5_chunking (max : Nat) (chunks : List Bytes) (ps : List Packet) (e : Option Error) (r : Bytes) :
    Feed (V5.read max) retryUnconsumed [] chunks ps e r
      ↔ Feed (V5.read max) retryUnconsumed [] [chunks.flatten] ps e r := by
  rw [feed_chunks (v5_streaming max) (v5_pump_nil max), feed_chunks (v5_streaming max) (v5_pump_nil max)]
  simp

/-- C14: and there is exactly one such outcome for every sequence of chunks. -/
theorem C14_v5_outcome_exists_unique (max : Nat) (chunks : List Bytes) :
    ∃ ps e r, Feed (V5.read max) retryUnconsumed [] chunks ps e r ∧
      ∀ ps' e' r', Feed (V5.read max) retryUnconsumed [] chunks ps' e' r' → ps' = ps ∧ e' = e ∧ r' = r := by
  obtain ⟨ps, e, r, h⟩ := feed_exists (v5_streaming max) [] chunks
  refine ⟨ps, e, r, h, fun ps' e' r' h' => ?_⟩
  rw [feed_chunks (v5_streaming max) (v5_pump_nil max)] at h h'
  exact pump_unique h' h

/-- C14, the exception: for the client that waits on every `InsufficientBytes` (right for v4, see C13)
chunking matters: the same bytes give one packet or none. -/
theorem C14_v5_naive_client_depends_on_chunks :
    Feed (V5.read 99) retryInsufficient [] [[0x20, 2, 0, 0], [0x40, 2, 0, 7]]
      [.PubAck ⟨7, .Success, none⟩] none [] ∧
    Feed (V5.read 99) retryInsufficient [] [[0x20, 2, 0, 0, 0x40, 2, 0, 7]] [] none [0x40, 2, 0, 7] := by
  constructor
  · exact .more (ps := []) (.wait (e := .InsufficientBytes 1) (s' := []) (by decide +kernel) ⟨_, rfl⟩)
      (.more (qs := []) (r := []) (ps := [Packet.PubAck ⟨7, .Success, none⟩]) (.step (s' := []) (by decide +kernel)
        (.wait (e := .InsufficientBytes 2) (s' := []) (by decide +kernel) ⟨_, rfl⟩)) .nil)
  · exact .more (ps := []) (qs := []) (.wait (e := .InsufficientBytes 1) (s' := [0x40, 2, 0, 7]) (by decide +kernel) ⟨_, rfl⟩)
      .nil

/-! ### C28, read side -/

/-- C28 (v5, reading): a publish read has packet id 0 exactly when its QoS is 0. -/
theorem C28_v5_read_pkid (max : Nat) (s s' : Bytes) (p : Publish)
    (h : V5.read max s = (.ok (.Publish p), s')) : p.qos = .AtMostOnce ↔ p.pkid = 0 := by
  obtain ⟨b1, bs, bd, _, _, _, _, hd⟩ := (read_ok_iff max s s' _).1 h
  obtain ⟨_, _, _, _, h, _⟩ := hd
  exact h

example : V5.read 9 [0x32, 6, 0, 1, 97, 0, 9, 0] = (.ok (.Publish ⟨false, .AtLeastOnce, false, "a", 9, none, []⟩), [])
    ∧ V5.read 9 [0x32, 6, 0, 1, 97, 0, 0, 0] = (.err .PacketIdZero, []) := by decide +kernel

/-! ### C60 -/

/-- C60: `v5::read` returns `p` exactly when the stream starts with a first byte, a variable byte
integer with the body length, and a body which together denote `p` (`Spec.V5.Denotes`, the MQTT 5.0
grammar with the tolerances and deviations listed there), within the limit; what follows is left. -/
theorem C60_v5_read_iff (max : Nat) (s : Bytes) (p : Packet) (s' : Bytes) :
    V5.read max s = (.ok p, s') ↔
      ∃ b1 bs bd, s = b1 :: (bs ++ (bd ++ s')) ∧ IsVbi bs ∧ vbiValue bs = bd.length
        ∧ bd.length ≤ max ∧ Spec.V5.Denotes b1 bd p :=
  read_ok_iff max s s' p

/-- SUBACK with a reason string and two codes -/
example : V5.read 99 [0x90, 9, 0, 7, 4, 31, 0, 1, 120, 1, 0x87, 5]
    = (.ok (.SubAck ⟨7, [.QoS1, .NotAuthorized], some ⟨some "x", []⟩⟩), [5]) := by decide +kernel

/-! ### C51, v5 -/

/-- C51 (v5): every string and binary field of a decoded packet has at most 65535 bytes and every
subscription identifier is at most 268435455. -/
theorem C51_v5_strings_bounded (max : Nat) (s s' : Bytes) (p : Packet) (h : V5.read max s = (.ok p, s')) :
    Spec.V5.FieldsFit p := by
  obtain ⟨b1, bs, bd, _, _, _, _, hd⟩ := (read_ok_iff max s s' _).1 h
  exact (denotes_wf hd).1

example : Spec.V5.FieldsFit (.PubAck ⟨7, .NotAuthorized, some ⟨some "no", []⟩⟩) :=
  C51_v5_strings_bounded 99 [0x40, 9, 0, 7, 0x87, 5, 31, 0, 2, 110, 111] [] _ (by decide +kernel)


/-- C51 (v5): a PUBLISH frame whose topic is not UTF-8 fails with `TopicNotUtf8`, and one whose topic
length exceeds the frame with `BoundaryCrossed`; the frame is removed. -/
theorem C51_v5_publish_bad_topic (max : Nat) (b1 : UInt8) (bs : Bytes) (n : UInt16) (t rest : Bytes)
    (hb1 : b1.toNat / 16 = 3) (hq : b1.toNat / 2 % 4 ≠ 3) (hv : IsVbi bs)
    (hl : vbiValue bs = 2 + t.length) (hm : 2 + t.length ≤ max) :
    (t.length < n.toNat →
      V5.read max (b1 :: (bs ++ (Spec.u16 n.toNat ++ t ++ rest))) = (.err (.BoundaryCrossed n.toNat), rest)) ∧
    (n.toNat ≤ t.length → (¬ ∃ v, utf8 v = t.take n.toNat) →
      V5.read max (b1 :: (bs ++ (Spec.u16 n.toNat ++ t ++ rest))) = (.err .TopicNotUtf8, rest)) := by
  have hlen : (Spec.u16 n.toNat ++ t).length = 2 + t.length := by simp [u16_len]
  have h1 := v5_read_frame max b1 bs (Spec.u16 n.toNat ++ t) rest hv (by omega) (by omega)
  rw [h1, hlen]
  have ht : FixedHeader.packet_type ⟨b1, bs.length + 1, 2 + t.length⟩ = .ok .Publish :=
    (packet_type_ok_iff _ _).2 (by simp [PacketType.toU8, hb1])
  obtain ⟨q, hqq⟩ : ∃ q, Mqtt.qos ((b1 &&& 0b0110) >>> 1) = .ok q := by
    clear hl hm h1 ht hb1
    revert b1
    refine forall_u8 ?_
    intro b hq
    have : ∀ b : Fin 256, (UInt8.ofNat b.val).toNat / 2 % 4 ≠ 3 →
      ((UInt8.ofNat b.val) &&& 0b0110) >>> 1 = 0 ∨ ((UInt8.ofNat b.val) &&& 0b0110) >>> 1 = 1
        ∨ ((UInt8.ofNat b.val) &&& 0b0110) >>> 1 = 2 := by decide +kernel
    rcases this b hq with h | h | h <;> rw [h]
    · exact ⟨_, rfl⟩
    · exact ⟨_, rfl⟩
    · exact ⟨_, rfl⟩
  have hrun : ∀ e, (read_mqtt_string (Spec.u16 n.toNat ++ t)).1 = .err e →
      V5.readFrame ⟨b1, bs.length + 1, 2 + t.length⟩ ((b1 :: bs) ++ (Spec.u16 n.toNat ++ t)) = .err e := by
    intro e he
    simp only [V5.readFrame, ht, if_neg (show ¬ (2 + t.length = 0) by omega)]
    rw [onFrame_err_iff]
    unfold Publish.readM
    simp only [bind_run, lift_run, hqq, andThen_ok]
    rw [advance_run (b1 :: bs) _ (bs.length + 1) rfl, andThen_ok, bind_run]
    revert he
    generalize read_mqtt_string (Spec.u16 n.toNat ++ t) = r
    rcases r with ⟨r | r | _ | _, r'⟩ <;> simp [M.andThen]
  exact ⟨fun h => by rw [hrun _ ((C51_read_string n t).1 h)],
    fun h hv => by rw [hrun _ ((C51_read_string n t).2.1 h hv)]⟩

example : V5.read 9 [0x30, 3, 0, 1, 0xff, 7] = (.err .TopicNotUtf8, [7])
    ∧ V5.read 9 [0x30, 3, 0, 2, 97, 7] = (.err (.BoundaryCrossed 2), [7]) := by decide +kernel

end Props
