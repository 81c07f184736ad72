import Verif.Spec.Flags
import Verif.Props.V4Read
import Verif.Props.V5Read
import Verif.Props.Errors
import Verif.Proof.Uniform
/-! C87: the flag bits of the first byte; C88: what is written does not depend on the buffer. -/
namespace Props
open Mqtt Spec

theorem publish_byte1 (b1 b2 : UInt8) (qos : QoS) (dup retain : Bool) (hk : SameKind b1 b2)
    (h : b1 = UInt8.ofNat (3 * 16 + flag dup 8 + 2 * V4.qosNum qos + flag retain 1)) :
    b2 = UInt8.ofNat (3 * 16 + flag (decide (b2.toNat / 8 % 2 = 1)) 8 + 2 * V4.qosNum qos
      + flag (decide (b2.toNat % 2 = 1)) 1) := by
  have h0 := b2.toNat_lt
  have h1 : b1.toNat = 3 * 16 + flag dup 8 + 2 * V4.qosNum qos + flag retain 1 := by
    rw [h, UInt8.toNat_ofNat_of_lt']
    cases dup <;> cases retain <;> cases qos <;> decide
  obtain ⟨h2, h3⟩ := hk
  apply UInt8.toNat_inj.1
  have h5 : flag dup 8 = 0 ∨ flag dup 8 = 8 := by cases dup <;> simp [flag]
  have h6 : flag retain 1 = 0 ∨ flag retain 1 = 1 := by cases retain <;> simp [flag]
  have h7 : V4.qosNum qos ≤ 2 := by cases qos <;> simp [V4.qosNum]
  have h8 : flag (decide (b2.toNat / 8 % 2 = 1)) 8 = 8 * (b2.toNat / 8 % 2) := by
    by_cases hh : b2.toNat / 8 % 2 = 1 <;> simp [flag, hh]; omega
  have h9 : flag (decide (b2.toNat % 2 = 1)) 1 = b2.toNat % 2 := by
    by_cases hh : b2.toNat % 2 = 1 <;> simp [flag, hh]; omega
  rw [h8, h9, UInt8.toNat_ofNat_of_lt' (show _ < 256 by omega)]
  omega

theorem framing_flags {max : Nat} {b1 b2 : UInt8} {s : Bytes} {e : Error} (h : FramingFails max (b1 :: s) e) :
    FramingFails max (b2 :: s) e := by
  generalize hx : b1 :: s = x at h
  cases h with
  | empty => simp at hx
  | length h => injection hx with _ h2; subst h2; exact .length h
  | limit h h' => injection hx with _ h2; subst h2; exact .limit h h'
  | body h h' h'' => injection hx with _ h2; subst h2; exact .body h h' h''

theorem v4_denotes_flags {b1 b2 : UInt8} (hk : SameKind b1 b2) {bd : Bytes} {p : V4.Packet}
    (h : Spec.V4.Denotes b1 bd p) : Spec.V4.Denotes b2 bd (Spec.V4.withFlags b2 p) := by
  have ht : V4.typeNum b2 = V4.typeNum b1 := hk.1.symm
  cases p with
  | Publish p => exact ⟨publish_byte1 b1 b2 _ _ _ hk h.1, h.2⟩
  | _ => first | exact ht ▸ h | (refine ⟨ht.trans h.1, ?_⟩; exact h.2) | (exact ht.trans h)

theorem v4_publishFails_flags {b1 b2 : UInt8} (hq : b1.toNat / 2 % 4 = b2.toNat / 2 % 4) {bd : Bytes} {e : Error}
    (h : Spec.V4.PublishFails b1 bd e) : Spec.V4.PublishFails b2 bd e := by
  cases h with
  | qos h => exact .qos (hq ▸ h)
  | topic h a => exact .topic (hq ▸ h) a
  | pkid h a b => exact .pkid (hq ▸ h) a b
  | pkidZero h a => exact .pkidZero (hq ▸ h) a

theorem v4_rejects_flags {b1 b2 : UInt8} (hk : SameKind b1 b2) {bd : Bytes} {e : Error}
    (h : Spec.V4.Rejects b1 bd e) : Spec.V4.Rejects b2 bd e := by
  have ht : V4.typeNum b2 = V4.typeNum b1 := hk.1.symm
  unfold Spec.V4.Rejects at *
  rw [ht]
  have hq : V4.typeNum b1 = 3 → b1.toNat / 2 % 4 = b2.toNat / 2 % 4 := hk.2
  
  generalize V4.typeNum b1 = n at h hq ⊢
  split at h
  · exact h
  · exact h
  · by_cases hb : bd = []
    · simpa [hb] using h
    · simp only [hb, if_false] at h ⊢; exact v4_publishFails_flags (hq rfl) h
  all_goals first
    | exact h

/-- C87 (v4, reading): of the low four bits of the first byte only the QoS of a exact ⟨publish_byte1 b1 b2 _ _ _ hk h.1, h.2⟩LISH influences whether and how
a stream is read: with another first byte of the same type (and QoS) the
same packet results, with DUP and RETAIN of the new first byte if it is a exact ⟨publish_byte1 b1 b2 _ _ _ hk h.1, h.2⟩LISH, or the same error; and the same
bytes are left (after an error that leaves everything, with the new first byte). -/
theorem C87_v4_read_flags (max : Nat) (b1 b2 : UInt8) (hk : SameKind b1 b2) (s : Bytes) :
    (∀ p s', V4.read max (b1 :: s) = (.ok p, s') → V4.read max (b2 :: s) = (.ok (Spec.V4.withFlags b2 p), s')) ∧
    (∀ e s', V4.read max (b1 :: s) = (.err e, s') →
      V4.read max (b2 :: s) = (.err e, if s' = b1 :: s then b2 :: s else s')) := by
  constructor
  · intro p s' h
    obtain ⟨b, bs, bd, hs, hv, hl, hm, hd'⟩ := (C31_v4_read_iff max _ p s').1 h
    injection hs with h1 h2; subst h1
    exact (C31_v4_read_iff max _ _ s').2 ⟨b2, bs, bd, by rw [h2], hv, hl, hm, v4_denotes_flags hk hd'⟩
  · intro e s' h
    rcases (C61_v4_read_err_iff max _ s' e).1 h with ⟨hf, rfl⟩ | ⟨b, bs, bd, hs, hv, hl, hm, hr⟩
    · rw [if_pos rfl]
      exact (C61_v4_read_err_iff max _ _ e).2 (.inl ⟨framing_flags hf, rfl⟩)
    · injection hs with h1 h2; subst h1
      have : s' ≠ b1 :: s := by
        intro e'
        have := congrArg List.length e'
        rw [h2] at this
        simp only [List.length_append, List.length_cons] at this
        omega
      rw [if_neg this]
      exact (C61_v4_read_err_iff max _ _ e).2 (.inr ⟨b2, bs, bd, by rw [h2], hv, hl, hm, v4_rejects_flags hk hr⟩)

theorem v5_denotes_flags {b1 b2 : UInt8} (hk : SameKind b1 b2) (hd : b1.toNat / 16 = 14 → b1 = b2) {bd : Bytes} {p : V5.Packet}
    (h : Spec.V5.Denotes b1 bd p) : Spec.V5.Denotes b2 bd (Spec.V5.withFlags b2 p) := by
  have ht : V4.typeNum b2 = V4.typeNum b1 := hk.1.symm
  cases p with
  | Publish p => exact ⟨publish_byte1 b1 b2 _ _ _ hk h.1, h.2⟩
  | Disconnect d =>
    have hb : b1.toNat / 16 = 14 := by rw [h.1]; simp [Spec.V5.byte1]
    have := hd hb; subst this; exact h
  | _ => first | exact ht ▸ h | (refine ⟨ht.trans h.1, ?_⟩; exact h.2) | (exact ht.trans h)

theorem v5_publishFails_flags {b1 b2 : UInt8} (hq : b1.toNat / 2 % 4 = b2.toNat / 2 % 4) {bd : Bytes} {e : Error}
    (h : Spec.V5.PublishFails b1 bd e) : Spec.V5.PublishFails b2 bd e := by
  cases h with
  | qos h => exact .qos (hq ▸ h)
  | topic h a => exact .topic (hq ▸ h) a
  | pkid h a b => exact .pkid (hq ▸ h) a b
  | pkidZero h a => exact .pkidZero (hq ▸ h) a
  | props0 h a b => exact .props0 (hq ▸ h) a b
  | props h a b c d => exact .props (hq ▸ h) a b c d

theorem v5_rejects_flags {b1 b2 : UInt8} (hk : SameKind b1 b2) (hd : b1.toNat / 16 = 14 → b1 = b2) {bd : Bytes} {e : Error}
    (h : Spec.V5.Rejects b1 bd e) : Spec.V5.Rejects b2 bd e := by
  have ht : V4.typeNum b2 = V4.typeNum b1 := hk.1.symm
  unfold Spec.V5.Rejects at *
  rw [ht]
  have hq : V4.typeNum b1 = 3 → b1.toNat / 2 % 4 = b2.toNat / 2 % 4 := hk.2
  have hd' : V4.typeNum b1 = 14 → b1 = b2 := hd
  generalize V4.typeNum b1 = n at h hq hd' ⊢
  split at h
  · exact h
  · exact h
  · by_cases hb : bd = []
    · simpa [hb] using h
    · simp only [hb, if_false] at h ⊢; exact v5_publishFails_flags (hq rfl) h
  all_goals first
    | exact h
    | (have := hd' rfl; subst this; exact h)

/-- C87 (v5, reading): of the low four bits of the first byte only the QoS of a exact hLISH influences whether and how
a stream is read (DISCONNECT excepted: there MQTT 5's reserved bits are checked): with another first byte of the same type (and QoS) the
same packet results, with DUP and RETAIN of the new first byte if it is a exact hLISH, or the same error; and the same
bytes are left (after an error that leaves everything, with the new first byte). -/
theorem C87_v5_read_flags (max : Nat) (b1 b2 : UInt8) (hk : SameKind b1 b2) (hd : b1.toNat / 16 = 14 → b1 = b2) (s : Bytes) :
    (∀ p s', V5.read max (b1 :: s) = (.ok p, s') → V5.read max (b2 :: s) = (.ok (Spec.V5.withFlags b2 p), s')) ∧
    (∀ e s', V5.read max (b1 :: s) = (.err e, s') →
      V5.read max (b2 :: s) = (.err e, if s' = b1 :: s then b2 :: s else s')) := by
  constructor
  · intro p s' h
    obtain ⟨b, bs, bd, hs, hv, hl, hm, hd'⟩ := (C60_v5_read_iff max _ p s').1 h
    injection hs with h1 h2; subst h1
    exact (C60_v5_read_iff max _ _ s').2 ⟨b2, bs, bd, by rw [h2], hv, hl, hm, v5_denotes_flags hk hd hd'⟩
  · intro e s' h
    rcases (C62_v5_read_err_iff max _ s' e).1 h with ⟨hf, rfl⟩ | ⟨b, bs, bd, hs, hv, hl, hm, hr⟩
    · rw [if_pos rfl]
      exact (C62_v5_read_err_iff max _ _ e).2 (.inl ⟨framing_flags hf, rfl⟩)
    · injection hs with h1 h2; subst h1
      have : s' ≠ b1 :: s := by
        intro e'
        have := congrArg List.length e'
        rw [h2] at this
        simp only [List.length_append, List.length_cons] at this
        omega
      rw [if_neg this]
      exact (C62_v5_read_err_iff max _ _ e).2 (.inr ⟨b2, bs, bd, by rw [h2], hv, hl, hm, v5_rejects_flags hk hd hr⟩)

/-- hypotheses met: reserved bits of a PUBACK, and RETAIN and DUP of a PUBLISH -/
example : V5.read 9 [0x4F, 3, 0, 7, 0x87, 1] = (.ok (.PubAck ⟨7, .NotAuthorized, none⟩), [1]) :=
  (C87_v5_read_flags 9 0x40 0x4F (by unfold SameKind; decide) (by decide) [3, 0, 7, 0x87, 1]).1
    (.PubAck ⟨7, .NotAuthorized, none⟩) _ (by decide +kernel)
example : V5.read 9 [0x39, 4, 0, 1, 97, 0, 1] = (.ok (.Publish ⟨true, .AtMostOnce, true, "a", 0, none, []⟩), [1]) :=
  (C87_v5_read_flags 9 0x30 0x39 (by unfold SameKind; decide) (by decide) [4, 0, 1, 97, 0, 1]).1
    (.Publish ⟨false, .AtMostOnce, false, "a", 0, none, []⟩) _ (by decide +kernel)


/-- C87 (v4, writing): setting DUP or RETAIN of a PUBLISH (as for a retransmission) changes the first byte and nothing
else: neither the other bytes nor what `write` returns, also when it fails. -/
theorem C87_v4_write_flags (p : V4.Publish) (dup retain : Bool) : ∃ r t, ∀ s : Bytes,
    p.write s = (r, s ++ [UInt8.ofNat (48 + flag p.dup 8 + 2 * V4.qosNum p.qos + flag p.retain 1)] ++ t) ∧
    { p with dup := dup, retain := retain }.write s
      = (r, s ++ [UInt8.ofNat (48 + flag dup 8 + 2 * V4.qosNum p.qos + flag retain 1)] ++ t) := by
  let rest : M Nat := do
    let count ← write_remaining_length p.len
    write_mqtt_string p.topic
    (if p.qos ≠ .AtMostOnce then
      (if p.pkid = 0 then M.fail .PacketIdZero else putU16 p.pkid)
      else pure () : M Unit)
    putSlice p.payload
    pure (1 + count + p.len)
  have hu : Uni rest := by
    simp only [rest]; uni
  obtain ⟨r, t, hr⟩ := hu
  have hb : ∀ (q : QoS) (d e : Bool), (0x30 : UInt8) ||| boolU8 e ||| (q.toU8 <<< 1) ||| (boolU8 d <<< 3)
      = UInt8.ofNat (48 + flag d 8 + 2 * V4.qosNum q + flag e 1) := by
    intro q d e; cases q <;> cases d <;> cases e <;> decide
  refine ⟨r, t, fun s => ⟨?_, ?_⟩⟩
  · show rest (s ++ [_]) = _
    rw [hr, hb]
  · show rest (s ++ [_]) = _
    rw [hr, hb]

/-- C87 (v5, writing): setting DUP or RETAIN of a PUBLISH (as for a retransmission) changes the first byte and nothing
else: neither the other bytes nor what `write` returns, also when it fails. -/
theorem C87_v5_write_flags (p : V5.Publish) (dup retain : Bool) : ∃ r t, ∀ s : Bytes,
    p.write s = (r, s ++ [UInt8.ofNat (48 + flag p.dup 8 + 2 * V4.qosNum p.qos + flag p.retain 1)] ++ t) ∧
    { p with dup := dup, retain := retain }.write s
      = (r, s ++ [UInt8.ofNat (48 + flag dup 8 + 2 * V4.qosNum p.qos + flag retain 1)] ++ t) := by
  let rest : M Nat := do
    let count ← write_remaining_length p.len
    write_mqtt_string p.topic
    (if p.qos ≠ .AtMostOnce then
      (if p.pkid = 0 then M.fail .PacketIdZero else putU16 p.pkid)
      else pure () : M Unit)
    V5.writePropsOrZero V5.PublishProperties.write p.properties
    putSlice p.payload
    pure (1 + count + p.len)
  have hu : Uni rest := by
    simp only [rest]; uni; exact V5.publish_uni _
  obtain ⟨r, t, hr⟩ := hu
  have hb : ∀ (q : QoS) (d e : Bool), (0x30 : UInt8) ||| boolU8 e ||| (q.toU8 <<< 1) ||| (boolU8 d <<< 3)
      = UInt8.ofNat (48 + flag d 8 + 2 * V4.qosNum q + flag e 1) := by
    intro q d e; cases q <;> cases d <;> cases e <;> decide
  refine ⟨r, t, fun s => ⟨?_, ?_⟩⟩
  · show rest (s ++ [_]) = _
    rw [hr, hb]
  · show rest (s ++ [_]) = _
    rw [hr, hb]

/-- C88 (v4): what writing a packet other than CONNECT appends, and what it returns, depends on the packet only, not on
what the buffer holds; also when it fails, and for packets that cannot be encoded properly. -/
theorem C88_v4_write_uniform (p : V4.Packet) (hc : ∀ c, p ≠ .Connect c) :
    ∃ r t, ∀ s : Bytes, p.write s = (r, s ++ t) := V4.write_uni p hc

/-- hypotheses met -/
example : ∃ r t, ∀ s : Bytes, V4.Packet.write (.Publish ⟨false, .AtLeastOnce, false, "a", 9, [7]⟩) s = (r, s ++ t) :=
  C88_v4_write_uniform _ (by simp)


/-- C88 (v5): what writing a packet other than CONNECT appends, and what it returns, depends on the packet only, not on
what the buffer holds; also when it fails, and for packets that cannot be encoded properly. -/
theorem C88_v5_write_uniform (p : V5.Packet) (hc : ∀ c, p ≠ .Connect c) :
    ∃ r t, ∀ s : Bytes, p.write s = (r, s ++ t) := V5.write_uni p hc

/-- a retransmission; a refused one -/
example : V4.Publish.write ⟨false, .AtLeastOnce, false, "a", 9, [7]⟩ [1] = (.ok 8, [1, 0x32, 6, 0, 1, 97, 0, 9, 7])
    ∧ V4.Publish.write ⟨true, .AtLeastOnce, false, "a", 9, [7]⟩ [1] = (.ok 8, [1, 0x3A, 6, 0, 1, 97, 0, 9, 7])
    ∧ V5.Publish.write ⟨false, .AtLeastOnce, true, "a", 0, none, [7]⟩ [] = (.err .PacketIdZero, [0x33, 5, 0, 1, 97]) := by
  decide +kernel
/-- reserved bits set in a PUBACK; DUP and RETAIN in a PUBLISH; a reserved bit of a v5 DISCONNECT is not ignored -/
example : V4.read 9 [0x4F, 2, 0, 7] = V4.read 9 [0x40, 2, 0, 7]
    ∧ V4.read 9 [0x39, 3, 0, 1, 97] = (.ok (Spec.V4.withFlags 0x39 (.Publish ⟨false, .AtMostOnce, false, "a", 0, []⟩)), [])
    ∧ SameKind 0x39 0x30 ∧ ¬ SameKind 0x30 0x32
    ∧ V5.read 9 [0xE1, 2, 0, 0] = (.err .MalformedPacket, []) := by
  refine ⟨by decide +kernel, by decide +kernel, by unfold SameKind; decide, by unfold SameKind; decide, by decide +kernel⟩
/-- CONNECT is different: a buffer of ten bytes has its last one overwritten (C26) -/
example : ¬ ∃ r t, ∀ s : Bytes, V4.Packet.write (.Connect (V4.Connect.new "")) s = (r, s ++ t) := by
  rintro ⟨r, t, h⟩
  have h1 := congrArg (fun x => x.2.take 10) (h (List.replicate 10 0))
  rw [List.take_left' (by simp)] at h1
  exact absurd h1 (by decide +kernel)

end Props
