import Verif.Spec.Torn
import Verif.Props.WriteExact
import Verif.Props.Framing
import Verif.Proof.V4Spec
import Verif.Proof.V5Spec
/-! C113: a sender that goes on after a failed write. -/
namespace Props
open Mqtt Spec

theorem swallows_of {P : Type} {read : Nat → M P}
    (hone : ∀ max, (∀ (b1 : UInt8) (bs bd : Bytes), IsVbi bs → vbiValue bs = bd.length → bd.length ≤ max →
      ∃ r : Res P, ∀ rest, read max (b1 :: (bs ++ (bd ++ rest))) = (r, rest)) ∧
      (∀ (s : Bytes) (e : Error), check s max = .err e → read max s = (.err e, s)))
    {b1 : UInt8} {bs part : Bytes} {missing : Nat} (hv : IsVbi bs) (hl : vbiValue bs = part.length + missing) :
    Swallows read (b1 :: (bs ++ part)) missing := by
  refine ⟨b1, bs, part, rfl, hv, hl, fun max next hm => ⟨fun hn => ?_, fun hn => ?_⟩⟩
  · refine (hone max).2 _ _ ((C03_check_insufficient_iff _ _ _).2 (.inr (.inr ⟨b1, bs, part ++ next, by simp, hv, hm, ?_, ?_⟩)))
    · simp; omega
    · simp; omega
  · have hlen : (part ++ next.take missing).length = vbiValue bs := by
      simp [List.length_take]; omega
    obtain ⟨r, hr⟩ := (hone max).1 b1 bs (part ++ next.take missing) hv hlen.symm (by omega)
    refine ⟨r, ?_⟩
    have := hr (next.drop missing)
    rw [← this]
    congr 1
    simp

theorem takes_of {P : Type} {read : Nat → M P}
    (hone : ∀ max, (∀ (b1 : UInt8) (bs bd : Bytes), IsVbi bs → vbiValue bs = bd.length → bd.length ≤ max →
      ∃ r : Res P, ∀ rest, read max (b1 :: (bs ++ (bd ++ rest))) = (r, rest)) ∧
      (∀ (s : Bytes) (e : Error), check s max = .err e → read max s = (.err e, s)))
    (b1 : UInt8) : TakesTypeForLength read b1 := by
  intro max c next hc hm hn
  have hv : IsVbi [c] := ⟨by simp, [], c, rfl, hc, by simp⟩
  have hval : vbiValue [c] = c.toNat := by simp [vbiValue]; omega
  obtain ⟨r, hr⟩ := (hone max).1 b1 [c] (next.take c.toNat) hv (by rw [hval]; simp; omega) (by simp; omega)
  refine ⟨r, ?_⟩
  have := hr (next.drop c.toNat)
  simpa using this

/-- C113, v4: a write fails in one of two ways. Either only the first byte of the packet is left, and the receiver takes
the next byte for a length; or a PUBLISH without packet identifier leaves header and topic, and the receiver completes it
with as many of the following bytes as its payload had. -/
theorem C113_v4_torn (p : V4.Packet) (s s' : Bytes) (e : Error) (h : p.write s = (.err e, s')) :
    (e = .PayloadTooLong ∧ ∃ b1, s' = s ++ [b1] ∧ TakesTypeForLength V4.read b1) ∨
    (e = .PacketIdZero ∧ ∃ q t, p = .Publish q ∧ s' = s ++ t ∧ Swallows V4.read t q.payload.length) := by
  by_cases hc : ∃ c, p = .Connect c
  · obtain ⟨c, rfl⟩ := hc
    obtain ⟨h1, h2⟩ := C91_v4_connect_into c s
    by_cases hl : 268435455 < (Spec.V4.body (.Connect c)).length
    · rw [h1 hl] at h
      cases h
      exact .inl ⟨rfl, _, rfl, takes_of C09_v4_one_frame _⟩
    · obtain ⟨f, -, h3⟩ := h2 (by omega) _ rfl
      rw [h3] at h
      cases h
  · rw [C91_v4_write_exact p (fun c e => hc ⟨c, e⟩) s] at h
    simp only [Prod.mk.injEq] at h
    obtain ⟨h1, rfl⟩ := h
    unfold Spec.V4.written at h1 ⊢
    split at h1
    · cases h1
      rename_i hl
      rw [if_pos hl]
      exact .inl ⟨rfl, _, rfl, takes_of C09_v4_one_frame _⟩
    · rename_i hl
      rw [if_neg hl]
      split at h1
      · cases h1
      · rename_i q
        split at h1
        · rename_i hp
          cases h1
          refine .inr ⟨rfl, q, _, rfl, rfl, ?_⟩
          simp only [hp, if_true]
          have hq : q.qos ≠ .AtMostOnce ∧ q.pkid = 0 := by simpa [Spec.V4.pkidMissing] using hp
          have ha : Spec.V4.announced (.Publish q) = (str q.topic).length + q.payload.length := by
            simp [Spec.V4.announced, hp, Spec.V4.body, hq.1, u16_len]
            omega
          have := swallows_of (b1 := UInt8.ofNat (Spec.V4.byte1 (.Publish q))) C09_v4_one_frame
            (vbi_isVbi (n := Spec.V4.announced (.Publish q)) (by omega)) (part := str q.topic) (missing := q.payload.length)
            (by rw [vbiValue_vbi (by omega)]; exact ha)
          simpa [Spec.u8] using this
        · cases h1
      · cases h1

/-- hypotheses met: a QoS 1 PUBLISH without packet identifier -/
example : ∃ q t, (V4.Packet.Publish ⟨false, .AtLeastOnce, false, "a", 0, [1, 2]⟩) = .Publish q
    ∧ ([8, 0x32, 5, 0, 1, 97] : Bytes) = [8] ++ t ∧ Swallows V4.read t q.payload.length := by
  have h : (V4.Packet.Publish ⟨false, .AtLeastOnce, false, "a", 0, [1, 2]⟩).write [8]
    = (.err .PacketIdZero, [8, 0x32, 5, 0, 1, 97]) := by decide +kernel
  rcases C113_v4_torn _ _ _ _ h with ⟨h, _⟩ | ⟨_, h⟩
  · simp at h
  · exact h


theorem torn_le : ∀ (ps : List Spec.V5.Property) (t : Bytes), Spec.V5.torn ps = some t →
    t.length ≤ (Spec.V5.encAll ps).length := by
  intro ps
  induction ps with
  | nil => intro t h; cases h
  | cons q l ih =>
    intro t h
    rw [Spec.V5.torn] at h
    rw [V5.encAll_cons]
    split at h
    · cases h
      simp [Spec.V5.Property.enc]
    · cases ht : Spec.V5.torn l with
      | none => rw [ht] at h; cases h
      | some u =>
        rw [ht] at h
        cases h
        have := ih u ht
        simp
        omega

theorem tornSec_le {ps : List Spec.V5.Property} {t : Bytes} (h : Spec.V5.tornSec ps = some t) :
    t.length ≤ (Spec.V5.sec ps).length := by
  unfold Spec.V5.tornSec at h
  cases ht : Spec.V5.torn ps with
  | none => rw [ht] at h; cases h
  | some u =>
    rw [ht] at h
    cases h
    have := torn_le ps u ht
    simp [Spec.V5.sec]
    omega

theorem tornOpt_le {π : Type} {props : π → List Spec.V5.Property} {o : Option π} {t : Bytes}
    (h : (o.bind fun ps => Spec.V5.tornSec (props ps)) = some t) : t.length ≤ (Spec.V5.optSec props o).length := by
  cases o with
  | none => cases h
  | some x => exact tornSec_le h

/-- C113, v5: a write fails in one of two ways.  Either only the first byte of the packet is left, and the receiver takes
the next byte for a length; or a PUBLISH or SUBSCRIBE is left incomplete, and the receiver completes it with the bytes
that follow; for a PUBLISH without packet identifier, as many as its property section and payload would have had. -/
theorem C113_v5_torn (p : V5.Packet) (s s' : Bytes) (e : Error) (h : p.write s = (.err e, s')) :
    (e = .PayloadTooLong ∧ ∃ b1, s' = s ++ [b1] ∧ TakesTypeForLength V5.read b1) ∨
    (e = .PacketIdZero ∧ ∃ q t, p = .Publish q ∧ s' = s ++ t ∧
      Swallows V5.read t ((Spec.V5.optSec Spec.V5.publishProps q.properties).length + q.payload.length)) ∨
    (e = .PayloadTooLong ∧ ((∃ q, p = .Publish q) ∨ ∃ q, p = .Subscribe q) ∧
      ∃ t missing, s' = s ++ t ∧ Swallows V5.read t missing) := by
  by_cases hc : ∃ c, p = .Connect c
  · obtain ⟨c, rfl⟩ := hc
    obtain ⟨h1, h2⟩ := C91_v5_connect_into c s
    by_cases hl : 268435455 < (Spec.V5.body (.Connect c)).length
    · rw [h1 hl] at h
      cases h
      exact .inl ⟨rfl, _, rfl, takes_of C10_v5_one_frame _⟩
    · obtain ⟨f, -, h3⟩ := h2 (by omega) _ rfl
      rw [h3] at h
      cases h
  · rw [C91_v5_write_exact p (fun c e => hc ⟨c, e⟩) s] at h
    simp only [Prod.mk.injEq] at h
    obtain ⟨h1, rfl⟩ := h
    unfold Spec.V5.written at h1 ⊢
    split at h1
    · cases h1
      rename_i hl
      rw [if_pos hl]
      exact .inl ⟨rfl, _, rfl, takes_of C10_v5_one_frame _⟩
    · rename_i hl
      rw [if_neg hl]
      split at h1
      · cases h1
      · rename_i q
        split at h1
        · rename_i hp
          cases h1
          refine .inr (.inl ⟨rfl, q, _, rfl, rfl, ?_⟩)
          simp only [hp, if_true]
          have hq : q.qos ≠ .AtMostOnce ∧ q.pkid = 0 := by simpa [Spec.V5.pkidMissing] using hp
          have ha : Spec.V5.announced (.Publish q) = (str q.topic).length +
              ((Spec.V5.optSec Spec.V5.publishProps q.properties).length + q.payload.length) := by
            simp [Spec.V5.announced, hp, Spec.V5.wireBody, Spec.V5.body, hq.1, u16_len]
            omega
          have := swallows_of (b1 := UInt8.ofNat (Spec.V5.byte1 (.Publish q))) C10_v5_one_frame
            (vbi_isVbi (n := Spec.V5.announced (.Publish q)) (by omega)) (part := str q.topic)
            (missing := (Spec.V5.optSec Spec.V5.publishProps q.properties).length + q.payload.length)
            (by rw [vbiValue_vbi (by omega)]; exact ha)
          simpa [Spec.u8] using this
        · rename_i hp
          split at h1
          · rename_i t ht
            cases h1
            refine .inr (.inr ⟨rfl, .inl ⟨q, rfl⟩, _, Spec.V5.announced (.Publish q)
              - (str q.topic ++ (if q.qos = .AtMostOnce then [] else u16 q.pkid.toNat) ++ t).length, rfl, ?_⟩)
            simp only [hp, ht]
            have hle := tornOpt_le ht
            have := swallows_of (b1 := UInt8.ofNat (Spec.V5.byte1 (.Publish q))) C10_v5_one_frame
              (vbi_isVbi (n := Spec.V5.announced (.Publish q)) (by omega))
              (part := str q.topic ++ (if q.qos = .AtMostOnce then [] else u16 q.pkid.toNat) ++ t)
              (missing := Spec.V5.announced (.Publish q)
                - (str q.topic ++ (if q.qos = .AtMostOnce then [] else u16 q.pkid.toNat) ++ t).length)
              (by
                rw [vbiValue_vbi (by omega)]
                have ha : Spec.V5.announced (.Publish q) = (str q.topic ++ (if q.qos = .AtMostOnce then [] else u16 q.pkid.toNat)).length +
                    ((Spec.V5.optSec Spec.V5.publishProps q.properties).length + q.payload.length) := by
                  simp [Spec.V5.announced, hp, Spec.V5.wireBody, Spec.V5.body]
                  omega
                rw [ha]
                simp only [List.length_append] at hle ⊢
                omega)
            simpa [Spec.u8] using this
          · cases h1
      · rename_i q
        split at h1
        · rename_i t ht
          cases h1
          refine .inr (.inr ⟨rfl, .inr ⟨q, rfl⟩, _, Spec.V5.announced (.Subscribe q)
            - (u16 q.pkid.toNat ++ t).length, rfl, ?_⟩)
          simp only [ht]
          have hle := tornOpt_le ht
          have := swallows_of (b1 := UInt8.ofNat (Spec.V5.byte1 (.Subscribe q))) C10_v5_one_frame
            (vbi_isVbi (n := Spec.V5.announced (.Subscribe q)) (by omega))
            (part := u16 q.pkid.toNat ++ t)
            (missing := Spec.V5.announced (.Subscribe q) - (u16 q.pkid.toNat ++ t).length)
            (by
              rw [vbiValue_vbi (by omega)]
              have ha : (u16 q.pkid.toNat).length + (Spec.V5.optSec Spec.V5.subscribeProps q.properties).length
                  ≤ Spec.V5.announced (.Subscribe q) := by
                simp [Spec.V5.announced, Spec.V5.pkidMissing, Spec.V5.wireBody, Spec.V5.body]
              simp only [List.length_append] at hle ⊢
              omega)
          simpa [Spec.u8] using this
        · cases h1
      · cases h1

/-- hypotheses met: a SUBSCRIBE whose subscription identifier does not fit -/
example : ∃ t missing, ([0x82, 14, 0, 7, 5, 11] : Bytes) = [] ++ t ∧ Swallows V5.read t missing := by
  have h : (V5.Packet.Subscribe ⟨7, [⟨"a/b", .AtLeastOnce, false, false, .Never⟩], some ⟨some 268435456, []⟩⟩).write []
    = (.err .PayloadTooLong, [0x82, 14, 0, 7, 5, 11]) := by decide +kernel
  rcases C113_v5_torn _ _ _ _ h with ⟨_, b, h, _⟩ | ⟨h, _⟩ | ⟨_, _, h⟩
  · simp at h
  · simp at h
  · exact h


/-- C113, v4: the forged message.  A PUBLISH with QoS 1 or 2 is refused for want of a packet identifier; if the sender goes
on all the same, the receiver gets, without any error, a message with this topic whose packet identifier and payload are
bytes of the packets sent afterwards. -/
theorem C113_v4_forged (q : V4.Publish) (hq : q.qos ≠ .AtMostOnce) (hk : q.pkid = 0)
    (ht : (utf8 q.topic).length ≤ 65535) (hl : 2 + (utf8 q.topic).length + q.payload.length ≤ 268435455) (s : Bytes) :
    ∃ t, q.write s = (.err .PacketIdZero, s ++ t) ∧
      ∀ (k : UInt16) (x : Bytes) (max : Nat) (rest : Bytes), k ≠ 0 → 2 + x.length = q.payload.length →
        2 + (utf8 q.topic).length + q.payload.length ≤ max →
        V4.read max (t ++ (u16 k.toNat ++ x ++ rest)) = (.ok (.Publish { q with pkid := k, payload := x }), rest) := by
  have hp : Spec.V4.pkidMissing (.Publish q) = true := by simp [Spec.V4.pkidMissing, hq, hk]
  have ha : Spec.V4.announced (.Publish q) = 2 + (utf8 q.topic).length + q.payload.length := by
    simp [Spec.V4.announced, hp, Spec.V4.body, hq, u16_len, str, bin]
    omega
  refine ⟨(Spec.V4.written (.Publish q)).2, ?_, ?_⟩
  · have := C91_v4_write_exact (.Publish q) (by simp) s
    rw [show q.write s = V4.Packet.write (.Publish q) s from rfl, this]
    congr 1
    unfold Spec.V4.written
    rw [if_neg (by rw [ha]; unfold maxRemaining; omega)]
    simp [hp]
  · intro k x max rest hk' hx hm
    have hb : (Spec.V4.body (.Publish { q with pkid := k, payload := x })).length = Spec.V4.announced (.Publish q) := by
      rw [ha]
      simp [Spec.V4.body, hq, u16_len, str, bin]
      omega
    have h := V4.read_encode (.Publish { q with pkid := k, payload := x })
      ⟨ht, by simp [Spec.V4.Meaningful, hq, hk'], by rw [hb, ha]; exact hl⟩ max (by rw [hb, ha]; exact hm) rest
    rw [← h]
    congr 1
    unfold Spec.V4.written
    rw [if_neg (by rw [ha]; unfold maxRemaining; omega)]
    simp only [hp, if_true]
    unfold Spec.V4.encode frame
    rw [hb]
    simp [Spec.V4.body, hq, Spec.V4.byte1]

/-- hypotheses met: packet identifier and payload of the torn PUBLISH are supplied by whoever writes the next bytes -/
example : V4.read 99 ([0x32, 7, 0, 1, 97] ++ ([0, 9] ++ [0xC0, 0] ++ [5]))
    = (.ok (.Publish ⟨false, .AtLeastOnce, false, "a", 9, [0xC0, 0]⟩), [5]) := by
  obtain ⟨t, hw, h⟩ := C113_v4_forged ⟨false, .AtLeastOnce, false, "a", 0, [1, 2, 3, 4]⟩ (by decide) rfl (by decide +kernel)
    (by decide +kernel) []
  have hw' : V4.Publish.write ⟨false, .AtLeastOnce, false, "a", 0, [1, 2, 3, 4]⟩ []
    = (.err .PacketIdZero, [0x32, 7, 0, 1, 97]) := by decide +kernel
  rw [hw] at hw'
  obtain rfl : t = [0x32, 7, 0, 1, 97] := by simpa using hw'
  exact h 9 [0xC0, 0] 99 [5] (by decide) rfl (by decide +kernel)


/-- C113, v5: the forged message, with whatever properties the following bytes happen to spell. -/
theorem C113_v5_forged (q : V5.Publish) (hq : q.qos ≠ .AtMostOnce) (hk : q.pkid = 0)
    (hl : Spec.V5.announced (.Publish q) ≤ 268435455) (s : Bytes) :
    ∃ t, q.write s = (.err .PacketIdZero, s ++ t) ∧
      ∀ (k : UInt16) (o : Option V5.PublishProperties) (x : Bytes) (max : Nat) (rest : Bytes),
        Spec.V5.WF (.Publish { q with pkid := k, properties := o, payload := x }) →
        Spec.V5.ReadsBack (.Publish { q with pkid := k, properties := o, payload := x }) →
        2 + (Spec.V5.optSec Spec.V5.publishProps o).length + x.length
          = (Spec.V5.optSec Spec.V5.publishProps q.properties).length + q.payload.length →
        Spec.V5.announced (.Publish q) ≤ max →
        V5.read max (t ++ (u16 k.toNat ++ Spec.V5.optSec Spec.V5.publishProps o ++ x ++ rest))
          = (.ok (.Publish { q with pkid := k, properties := o, payload := x }), rest) := by
  have hp : Spec.V5.pkidMissing (.Publish q) = true := by simp [Spec.V5.pkidMissing, hq, hk]
  refine ⟨(Spec.V5.written (.Publish q)).2, ?_, ?_⟩
  · have := C91_v5_write_exact (.Publish q) (by simp) s
    rw [show q.write s = V5.Packet.write (.Publish q) s from rfl, this]
    congr 1
    unfold Spec.V5.written
    rw [if_neg (by unfold maxRemaining; omega)]
    simp [hp]
  · intro k o x max rest hwf hrb hx hm
    have hb : (Spec.V5.body (.Publish { q with pkid := k, properties := o, payload := x })).length
        = Spec.V5.announced (.Publish q) := by
      simp [Spec.V5.announced, hp, Spec.V5.wireBody, Spec.V5.body, hq, u16_len]
      omega
    have h := V5.read_encode _ hwf hrb max (by rw [hb]; exact hm) rest
    rw [← h]
    congr 1
    unfold Spec.V5.written
    rw [if_neg (by unfold maxRemaining; omega)]
    simp only [hp, if_true]
    unfold Spec.V5.encode frame
    rw [hb]
    simp [Spec.V5.body, hq, Spec.V5.byte1]

/-- hypotheses met, and what happens: the PUBACK sent after a refused PUBLISH becomes its packet identifier and payload -/
example : (V4.Packet.write (.Publish ⟨false, .AtLeastOnce, false, "a", 0, [1, 2, 3, 4]⟩) []).1 = .err .PacketIdZero ∧
    V4.read 99 (V4.Packet.write (.PubAck ⟨7⟩)
        (V4.Packet.write (.Publish ⟨false, .AtLeastOnce, false, "a", 0, [1, 2, 3, 4]⟩) []).2).2
      = (.ok (.Publish ⟨false, .AtLeastOnce, false, "a", 0x4002, [0, 7]⟩), []) := by
  constructor <;> decide +kernel

/-- the same with version 5: a PINGREQ and two more bytes -/
example : (V5.Packet.write (.Publish ⟨false, .AtLeastOnce, false, "a", 0, none, [1, 2, 3]⟩) []).1 = .err .PacketIdZero ∧
    V5.read 99 ((V5.Packet.write (.Publish ⟨false, .AtLeastOnce, false, "a", 0, none, [1, 2, 3]⟩) []).2 ++ [0xC0, 0, 0, 9])
      = (.ok (.Publish ⟨false, .AtLeastOnce, false, "a", 0xC000, none, [9]⟩), []) := by
  constructor <;> decide +kernel

/-- the third way in version 5: a subscription identifier without encoding.  What is sent next is taken for the rest of
the SUBSCRIBE. -/
example : V5.Packet.write (.Subscribe ⟨7, [⟨"a", .AtMostOnce, false, false, .OnEverySubscribe⟩], some ⟨some 268435456, []⟩⟩) []
      = (.err .PayloadTooLong, [0x82, 12, 0, 7, 5, 11]) ∧
    V5.read 99 ([0x82, 12, 0, 7, 5, 11] ++ [0xC0, 0, 0xC0, 0])
      = (.err (.InsufficientBytes 4), [0x82, 12, 0, 7, 5, 11] ++ [0xC0, 0, 0xC0, 0]) := by
  constructor <;> decide +kernel

end Props
