import Verif.Proof.V5SetsSub
import Verif.Proof.V5Section
/-! `v5::read` returns a packet exactly when the frame denotes it. -/
set_option linter.unusedSimpArgs false
namespace Mqtt.V5
open Mqtt Spec
open Spec.V5
open Spec.V4 (qosNum level bit typeNum)

theorem connect_return_ok_iff (n : UInt8) (c : ConnectReturnCode) :
    connect_return n = .ok c ↔ n = UInt8.ofNat (connectCode c) := by
  revert n; cases c <;> exact forall_u8 (by decide +kernel)
theorem puback_reason_iff (n : UInt8) (c : PubAckReason) :
    PubAckReason.reason n = .ok c ↔ n = UInt8.ofNat (pubackCode c) := by
  revert n; cases c <;> exact forall_u8 (by decide +kernel)
theorem pubrec_reason_iff (n : UInt8) (c : PubRecReason) :
    PubRecReason.reason n = .ok c ↔ n = UInt8.ofNat (pubrecCode c) := by
  revert n; cases c <;> exact forall_u8 (by decide +kernel)
theorem pubrel_reason_iff (n : UInt8) (c : PubRelReason) :
    PubRelReason.reason n = .ok c ↔ n = UInt8.ofNat (pubrelCode c) := by
  revert n; cases c <;> exact forall_u8 (by decide +kernel)
theorem pubcomp_reason_iff (n : UInt8) (c : PubCompReason) :
    PubCompReason.reason n = .ok c ↔ n = UInt8.ofNat (pubcompCode c) := by
  revert n; cases c <;> exact forall_u8 (by decide +kernel)
theorem sub_reason_iff (n : UInt8) (c : SubscribeReasonCode) :
    SubscribeReasonCode.try_from n = .ok c ↔ n = UInt8.ofNat (subCode c) := by
  revert n; cases c <;> exact forall_u8 (by decide +kernel)
theorem unsub_reason_iff (n : UInt8) (c : UnsubAckReason) :
    UnsubAckReason.reason n = .ok c ↔ n = UInt8.ofNat (unsubCode c) := by
  revert n; cases c <;> exact forall_u8 (by decide +kernel)
theorem disconnect_reason_iff (n : UInt8) (c : DisconnectReasonCode) :
    DisconnectReasonCode.try_from n = .ok c ↔ n = UInt8.ofNat (disconnectCode c) := by
  revert n; cases c <;> exact forall_u8 (by decide +kernel)
theorem rule_ok_iff (n : UInt8) (r : RetainForwardRule) :
    retainForwardRule n = .ok r ↔ n = UInt8.ofNat (ruleNum r) := by
  revert n; cases r <;> exact forall_u8 (by decide +kernel)

/-! ### the property sections -/
section
variable (s s' : Bytes) (hb : s.length ≤ maxRemaining)
include hb
theorem reason_extract_iff (o) : ReasonProps.extract s = (.ok o, s') ↔
    ∃ sec, s = sec ++ s' ∧ SetDenotes reasonKind reasonOf sec o :=
  extractProps_iff reason_gen s s' o hb
theorem will_extract_iff (o) : WillProperties.read s = (.ok o, s') ↔
    ∃ sec, s = sec ++ s' ∧ SetDenotes willKind willOf sec o :=
  extractProps_iff will_gen s s' o hb
theorem connect_extract_iff (o) : ConnectProperties.read s = (.ok o, s') ↔
    ∃ sec, s = sec ++ s' ∧ SetDenotes connectKind connectOf sec o :=
  extractProps_iff connect_gen s s' o hb
theorem connack_extract_iff (o) : ConnAckProperties.extract s = (.ok o, s') ↔
    ∃ sec, s = sec ++ s' ∧ SetDenotes connackKind connackOf sec o :=
  extractProps_iff connack_gen s s' o hb
theorem publish_extract_iff (o) : PublishProperties.extract s = (.ok o, s') ↔
    ∃ sec, s = sec ++ s' ∧ SetDenotes publishKind publishOf sec o :=
  extractProps_iff publish_gen s s' o hb
theorem subscribe_extract_iff (o) : SubscribeProperties.extract s = (.ok o, s') ↔
    ∃ sec, s = sec ++ s' ∧ SetDenotes subscribeKind subscribeOf sec o :=
  extractProps_iff subscribe_gen s s' o hb
theorem unsubscribe_extract_iff (o) : UnsubscribeProperties.extract s = (.ok o, s') ↔
    ∃ sec, s = sec ++ s' ∧ SetDenotes unsubscribeKind unsubscribeOf sec o :=
  extractProps_iff unsubscribe_gen s s' o hb
theorem disconnect_extract_iff (o) : DisconnectProperties.extract s = (.ok o, s') ↔
    ∃ sec, s = sec ++ s' ∧ SetDenotes disconnectKind disconnectOf sec o :=
  extractProps_iff disconnect_gen s s' o hb
end

theorem SetDenotes_pos {π : Type} {kind : Nat → Option Kind} {dec : List Property → π} {sec : Bytes}
    {o : Option π} (h : SetDenotes kind dec sec o) : 1 ≤ sec.length := by
  obtain ⟨ps, h, rfl⟩ := h
  have : ∃ l r, sec = l ++ r ∧ IsVbi l := by
    cases ps with
    | none => exact ⟨sec, [], by simp, h.1⟩
    | some ps => obtain ⟨l, r, h, hl, _⟩ := h; exact ⟨l, r, h, hl⟩
  obtain ⟨l, r, rfl, hl⟩ := this
  have := isVbi_ne_nil hl
  cases l with
  | nil => exact absurd rfl this
  | cons _ _ => simp

variable (h : FixedHeader) (hd bd : Bytes) (hh : hd.length = h.fixed_header_len)
  (hb : bd.length ≤ maxRemaining)

/-! ### acknowledgements -/
include hh hb in
theorem Ack.read_iff {R : Type} {success : R} {reason : UInt8 → Res R} {code : R → Nat}
    (hc : ∀ n r, reason n = .ok r ↔ n = UInt8.ofNat (code r)) (h0 : ∀ r, code r = 0 ↔ r = success)
    (hr : h.remaining_len = bd.length) (a : Ack R) :
    (∃ r, Ack.readM success reason h (hd ++ bd) = (.ok a, r)) ↔ AckDenotes code bd a := by
  obtain ⟨k, rs, ps⟩ := a
  unfold Ack.readM AckDenotes AckDenotesBy
  mrun [advance_run hd bd _ hh]
  minv [hr]
  constructor
  · rintro ⟨r, k', s1, rfl, h1⟩
    split at h1
    · rename_i h2
      simp only [List.length_append, u16_len] at h2
      have : s1 = [] := List.eq_nil_of_length_eq_zero (by omega)
      subst this
      minv [Ack.mk.injEq] at h1
      obtain ⟨⟨rfl, rfl, rfl⟩, _⟩ := h1
      exact .inl ⟨by simp, (h0 _).2 rfl, rfl⟩
    · rename_i h2
      minv at h1
      obtain ⟨b, s2, rfl, h1⟩ := h1
      simp only [List.length_append, u16_len, List.length_cons] at h1 h2
      split at h1
      · rename_i h3
        have : s2 = [] := List.eq_nil_of_length_eq_zero (by omega)
        subst this
        minv [hc, Ack.mk.injEq] at h1
        obtain ⟨r', _, ⟨rfl, rfl⟩, ⟨rfl, rfl, rfl⟩, _⟩ := h1
        exact .inr (.inl ⟨rfl, rfl⟩)
      · minv [hc, Ack.mk.injEq] at h1
        obtain ⟨r', _, ⟨rfl, rfl⟩, ps', s3, h1, ⟨rfl, rfl, rfl⟩, rfl⟩ := h1
        rw [reason_extract_iff _ _ (by simp at hb ⊢; omega)] at h1
        obtain ⟨sec, rfl, hs⟩ := h1
        exact .inr (.inr ⟨sec, s3, by simp [Spec.u8], hs⟩)
  · rintro (⟨rfl, hz, rfl⟩ | ⟨rfl, rfl⟩ | ⟨sec, junk, rfl, hs⟩)
    · have := (h0 _).1 hz
      subst this
      exact ⟨[], k, [], by simp, by rw [if_pos (by simp [u16_len])]⟩
    · refine ⟨[], k, _, rfl, ?_⟩
      rw [if_neg (by simp [u16_len, u8_len])]
      minv
      refine ⟨_, _, rfl, ?_⟩
      rw [if_pos (by simp [u16_len, u8_len])]
      minv [hc]
      exact ⟨_, _, ⟨rfl, rfl⟩, rfl, rfl⟩
    · have := SetDenotes_pos hs
      refine ⟨junk, k, Spec.u8 (code rs) ++ (sec ++ junk), by simp, ?_⟩
      rw [if_neg (by simp [u16_len, u8_len])]
      minv
      refine ⟨_, sec ++ junk, rfl, ?_⟩
      rw [if_neg (by simp [u16_len, u8_len]; omega)]
      minv [hc]
      refine ⟨rs, _, ⟨rfl, rfl⟩, ps, junk, ?_, rfl, rfl⟩
      rw [reason_extract_iff _ _ (by simp at hb ⊢; omega)]
      exact ⟨sec, rfl, hs⟩

include hh hb in
theorem ConnAck.read_iff (p : ConnAck) :
    (∃ r, ConnAck.readM h (hd ++ bd) = (.ok p, r)) ↔ ∃ flags props junk,
      bd = [flags] ++ u8 (connectCode p.code) ++ props ++ junk
      ∧ (p.session_present = true ↔ bit flags 0)
      ∧ SetDenotes connackKind connackOf props p.properties := by
  have hbit : ∀ b : UInt8, (b &&& 1 = 1) ↔ bit b 0 := forall_u8 (by decide +kernel)
  obtain ⟨sp, c, ps⟩ := p
  unfold ConnAck.readM
  mrun [advance_run hd bd _ hh]
  minv [ConnAck.mk.injEq, connect_return_ok_iff, hbit]
  constructor
  · rintro ⟨r, f, s, rfl, c, s', rfl, _, _, ⟨rfl, rfl⟩, ps', s3, h1, ⟨rfl, rfl, rfl⟩, rfl⟩
    rw [connack_extract_iff _ _ (by simp at hb ⊢; omega)] at h1
    obtain ⟨sec, rfl, hs⟩ := h1
    exact ⟨f, sec, s3, by simp [Spec.u8], by simp, hs⟩
  · rintro ⟨f, sec, j, rfl, hsp, hs⟩
    refine ⟨j, f, Spec.u8 (connectCode c) ++ (sec ++ j), by simp, _, sec ++ j, rfl, c, _,
      ⟨rfl, rfl⟩, ps, j, ?_, ⟨?_, rfl, rfl⟩, rfl⟩
    · rw [connack_extract_iff _ _ (by simp at hb ⊢; omega)]; exact ⟨sec, rfl, hs⟩
    · cases sp <;> simp_all

theorem publish_byte1_iff (b : UInt8) (d : Bool) (q : QoS) (r : Bool) : b.toNat / 16 = 3 →
    (((b &&& 6) >>> 1 = q.toU8 ∧ decide (b &&& 8 ≠ 0) = d ∧ decide (b &&& 1 ≠ 0) = r) ↔
      b = UInt8.ofNat (3 * 16 + flag d 8 + 2 * qosNum q + flag r 1)) := by
  revert b
  cases d <;> cases q <;> cases r <;> exact forall_u8 (by decide +kernel)

include hh hb in
theorem Publish.read_iff (h3 : h.byte1.toNat / 16 = 3) (p : Publish) :
    (∃ r, Publish.readM h (hd ++ bd) = (.ok p, r)) ↔
      h.byte1 = UInt8.ofNat (byte1 (.Publish p)) ∧ ∃ props,
      bd = str p.topic ++ (if p.qos = .AtMostOnce then [] else u16 p.pkid.toNat) ++ props
        ++ p.payload
      ∧ fits (utf8 p.topic).length ∧ (p.qos = .AtMostOnce ↔ p.pkid = 0)
      ∧ SetDenotes publishKind publishOf props p.properties := by
  obtain ⟨d, q, rt, t, k, ps, pl⟩ := p
  unfold Publish.readM
  simp only [byte1, ← publish_byte1_iff _ _ _ _ h3]
  minv [qos_ok_iff, advance_run hd bd _ hh]
  constructor
  · rintro ⟨r, q', _, ⟨hq, rfl⟩, _, _, h0, t', s', ⟨ht, hs⟩, k', s'', hk, h1⟩
    rw [advance_run hd bd _ hh] at h0
    obtain ⟨-, rfl⟩ := ok_inj.1 h0
    subst hs
    split at h1
    · simp at h1
    rename_i hk0
    minv [Publish.mk.injEq] at h1
    obtain ⟨ps', s3, h1, _, _, ⟨rfl, rfl⟩, ⟨rfl, rfl, rfl, rfl, rfl, rfl, rfl⟩, rfl⟩ := h1
    cases q' with
    | AtMostOnce =>
      minv at hk
      obtain ⟨rfl, rfl⟩ := hk
      rw [publish_extract_iff _ _ (by simp at hb ⊢; omega)] at h1
      obtain ⟨sec, rfl, hs⟩ := h1
      exact ⟨⟨hq, rfl, rfl⟩, sec, by simp, ht, by simp, hs⟩
    | AtLeastOnce =>
      minv at hk
      subst hk
      simp at hk0
      rw [publish_extract_iff _ _ (by simp at hb ⊢; omega)] at h1
      obtain ⟨sec, rfl, hs⟩ := h1
      exact ⟨⟨hq, rfl, rfl⟩, sec, by simp, ht, by simp [hk0], hs⟩
    | ExactlyOnce =>
      minv at hk
      subst hk
      simp at hk0
      rw [publish_extract_iff _ _ (by simp at hb ⊢; omega)] at h1
      obtain ⟨sec, rfl, hs⟩ := h1
      exact ⟨⟨hq, rfl, rfl⟩, sec, by simp, ht, by simp [hk0], hs⟩
  · rintro ⟨⟨hq, rfl, rfl⟩, sec, rfl, ht, hk, hs⟩
    have ex : PublishProperties.extract (sec ++ pl) = (.ok ps, pl) := by
      rw [publish_extract_iff _ _ (by simp at hb ⊢; omega)]; exact ⟨sec, rfl, hs⟩
    refine ⟨pl, q, _, ⟨hq, rfl⟩, (), _, advance_run hd _ _ hh, t, ?_⟩
    cases q with
    | AtMostOnce =>
      refine ⟨sec ++ pl, ⟨ht, by simp⟩, 0, sec ++ pl, rfl, ?_⟩
      have : k = 0 := hk.1 rfl
      simp [this, andThen_ok, pure_run, ex, bind_run, look_run]
    | AtLeastOnce =>
      refine ⟨Spec.u16 k.toNat ++ (sec ++ pl), ⟨ht, by simp⟩, k, sec ++ pl, read_u16_run _ _, ?_⟩
      have : ¬ k = 0 := fun h => by simpa using hk.2 h
      simp [this, andThen_ok, pure_run, ex, bind_run, look_run]
    | ExactlyOnce =>
      refine ⟨Spec.u16 k.toNat ++ (sec ++ pl), ⟨ht, by simp⟩, k, sec ++ pl, read_u16_run _ _, ?_⟩
      have : ¬ k = 0 := fun h => by simpa using hk.2 h
      simp [this, andThen_ok, pure_run, ex, bind_run, look_run]

/-- the bits of a subscription options byte -/
theorem subOptions_iff (o : UInt8) (f : SubscribeFilter) :
    (o &&& 3 = f.qos.toU8 ∧ decide ((o >>> 2) &&& 1 ≠ 0) = f.nolocal
      ∧ decide ((o >>> 3) &&& 1 ≠ 0) = f.preserve_retain
      ∧ (o >>> 4) &&& 3 = UInt8.ofNat (ruleNum f.retain_forward_rule)) ↔
    o.toNat % 64 = subOptions f := by
  obtain ⟨_, q, nl, pr, rule⟩ := f
  simp only [subOptions]
  revert o
  cases q <;> cases nl <;> cases pr <;> cases rule <;> exact forall_u8 (by decide +kernel)

theorem Subscribe.readLoop_iff (fuel : Nat) (acc fs : List SubscribeFilter) (s r : Bytes)
    (hf : s.length < fuel) :
    Subscribe.readLoop fuel acc s = (.ok fs, r) ↔
      r = [] ∧ ∃ l, fs = acc ++ l ∧ FiltersDenote s l := by
  induction fuel generalizing s acc with
  | zero => omega
  | succ n ih =>
    rw [Subscribe.readLoop]
    mrun
    by_cases he : s = []
    · subst he
      simp only [List.isEmpty_nil, if_true, ok_inj]
      constructor
      · rintro ⟨rfl, rfl⟩; exact ⟨rfl, [], by simp, .nil⟩
      · rintro ⟨rfl, l, rfl, h⟩
        cases l with
        | nil => simp
        | cons f l =>
          generalize hb : ([] : Bytes) = b at h
          cases h; simp at hb
    · have : s.isEmpty = false := by simpa using he
      simp only [this, Bool.false_eq_true, if_false]
      minv [qos_ok_iff, rule_ok_iff]
      constructor
      · rintro ⟨p, s1, ⟨hp, rfl⟩, o, s2, rfl, ru, _, ⟨hru, rfl⟩, q, _, ⟨ho, rfl⟩, h1⟩
        have hlt : s2.length < n := by
          simp only [List.length_append, List.length_cons, str_len] at hf; omega
        obtain ⟨rfl, l, rfl, hl⟩ := (ih _ _ hlt).1 h1
        have := FiltersDenote.cons ⟨p, q, decide ((o >>> 2) &&& 1 ≠ 0),
          decide ((o >>> 3) &&& 1 ≠ 0), ru⟩ o s2 l hp
          ((subOptions_iff _ _).1 ⟨ho, rfl, rfl, hru⟩) hl
        exact ⟨rfl, _ :: l, by simp; rfl, by simpa using this⟩
      · rintro ⟨rfl, l, rfl, hl⟩
        cases hl with
        | nil => exact absurd rfl he
        | cons f o s2 l hp ho hl =>
          obtain ⟨h1, h2, h3, h4⟩ := (subOptions_iff o f).2 ho
          have hlt : s2.length < n := by
            simp only [List.length_append, List.length_cons, str_len] at hf; omega
          refine ⟨f.path, o :: s2, ⟨hp, by simp⟩, o, s2, rfl, f.retain_forward_rule, s2, ⟨h4, rfl⟩,
            f.qos, s2, ⟨h1, rfl⟩, ?_⟩
          rw [h2, h3]
          exact (ih _ _ hlt).2 ⟨rfl, l, by simp, hl⟩

include hh hb in
theorem Subscribe.read_iff (p : Subscribe) :
    (∃ r, Subscribe.readM h (hd ++ bd) = (.ok p, r)) ↔
      ∃ props fs, bd = u16 p.pkid.toNat ++ props ++ fs
      ∧ SetDenotes subscribeKind subscribeOf props p.properties ∧ FiltersDenote fs p.filters := by
  obtain ⟨k, fs, ps⟩ := p
  unfold Subscribe.readM
  mrun [advance_run hd bd _ hh]
  minv [Subscribe.mk.injEq]
  constructor
  · rintro ⟨r, k', s1, rfl, ps', s2, h0, _, _, ⟨rfl, rfl⟩, fs', s3, h1, ⟨rfl, rfl, rfl⟩, rfl⟩
    rw [subscribe_extract_iff _ _ (by simp at hb ⊢; omega)] at h0
    obtain ⟨sec, rfl, hs⟩ := h0
    rw [Subscribe.readLoop_iff _ _ _ _ _ (Nat.lt_succ_self _)] at h1
    obtain ⟨rfl, l, rfl, hl⟩ := h1
    exact ⟨sec, s2, by simp, hs, hl⟩
  · rintro ⟨sec, s1, rfl, hs, hl⟩
    refine ⟨[], k, sec ++ s1, by simp, ps, s1, ?_, s1, s1, ⟨rfl, rfl⟩, fs, [], ?_, ⟨rfl, rfl, rfl⟩, rfl⟩
    · rw [subscribe_extract_iff _ _ (by simp at hb ⊢; omega)]; exact ⟨sec, rfl, hs⟩
    · exact (Subscribe.readLoop_iff _ _ _ _ _ (Nat.lt_succ_self _)).2 ⟨rfl, fs, by simp, hl⟩

theorem readCodesLoop_iff {C : Type} {conv : UInt8 → Res C} {code : C → Nat}
    (hc : ∀ n c, conv n = .ok c ↔ n = UInt8.ofNat (code c))
    (fuel : Nat) (acc cs : List C) (s r : Bytes)
    (hf : s.length < fuel) :
    readCodesLoop conv fuel acc s = (.ok cs, r) ↔
      r = [] ∧ ∃ l, cs = acc ++ l ∧ s = l.flatMap fun c => Spec.u8 (code c) := by
  induction fuel generalizing s acc with
  | zero => omega
  | succ n ih =>
    rw [readCodesLoop]
    mrun
    cases s with
    | nil =>
      simp only [List.isEmpty_nil, if_true, ok_inj]
      constructor
      · rintro ⟨rfl, rfl⟩; exact ⟨rfl, [], by simp, rfl⟩
      · rintro ⟨rfl, l, rfl, h⟩
        cases l with
        | nil => simp
        | cons f l => simp [Spec.u8] at h
    | cons b s =>
      simp only [List.isEmpty_cons, Bool.false_eq_true, if_false]
      minv [hc]
      have hlt : s.length < n := by simp only [List.length_cons] at hf; omega
      constructor
      · rintro ⟨_, _, h0, c, _, ⟨hc, rfl⟩, h1⟩
        obtain ⟨rfl, rfl⟩ := List.cons.inj h0
        obtain ⟨rfl, l, rfl, hl⟩ := (ih _ _ hlt).1 h1
        exact ⟨rfl, c :: l, by simp, by rw [List.flatMap_cons, ← hl, hc]; rfl⟩
      · rintro ⟨rfl, l, rfl, hl⟩
        cases l with
        | nil => simp at hl
        | cons c l =>
          simp only [List.flatMap_cons, Spec.u8, List.cons_append, List.nil_append,
            List.cons.injEq] at hl
          refine ⟨b, s, rfl, c, s, ⟨hl.1, rfl⟩, (ih _ _ hlt).2 ⟨rfl, l, by simp, hl.2⟩⟩

include hh hb in
theorem SubAck.read_iff (p : SubAck) :
    (∃ r, SubAck.readM h (hd ++ bd) = (.ok p, r)) ↔ ∃ props,
      bd = u16 p.pkid.toNat ++ props ++ (p.return_codes.flatMap fun c => u8 (subCode c))
      ∧ SetDenotes reasonKind reasonOf props p.properties ∧ p.return_codes ≠ [] := by
  obtain ⟨k, cs, ps⟩ := p
  unfold SubAck.readM
  rw [SubAckProperties.extract_eq]
  mrun [advance_run hd bd _ hh]
  minv
  constructor
  · rintro ⟨r, k', s1, rfl, ps', s2, h0, _, _, ⟨rfl, rfl⟩, h1⟩
    rw [reason_extract_iff _ _ (by simp at hb ⊢; omega)] at h0
    obtain ⟨sec, rfl, hs⟩ := h0
    split at h1
    · simp at h1
    rename_i hne
    minv [SubAck.mk.injEq] at h1
    obtain ⟨cs', s3, h1, ⟨rfl, rfl, rfl⟩, rfl⟩ := h1
    rw [readCodesLoop_iff sub_reason_iff _ _ _ _ _ (Nat.lt_succ_self _)] at h1
    obtain ⟨rfl, l, rfl, hl⟩ := h1
    refine ⟨sec, by rw [hl]; simp, hs, ?_⟩
    intro e
    subst e
    rw [hl] at hne; simp at hne
  · rintro ⟨sec, rfl, hs, hne⟩
    refine ⟨[], k, sec ++ (cs.flatMap fun c => u8 (subCode c)), by simp, ps,
      cs.flatMap fun c => u8 (subCode c), ?_, _, _, ⟨rfl, rfl⟩, ?_⟩
    · rw [reason_extract_iff _ _ (by simp only [List.length_append] at hb ⊢; omega)]; exact ⟨sec, rfl, hs⟩
    rw [if_neg]
    · minv [SubAck.mk.injEq]
      exact ⟨cs, [], (readCodesLoop_iff sub_reason_iff _ _ _ _ _ (Nat.lt_succ_self _)).2 ⟨rfl, cs, by simp, rfl⟩,
        by simp, by simp⟩
    · cases cs with
      | nil => exact absurd rfl hne
      | cons c cs => simp [Spec.u8]

include hh hb in
theorem UnsubAck.read_iff (p : UnsubAck) :
    (∃ r, UnsubAck.readM h (hd ++ bd) = (.ok p, r)) ↔ ∃ props,
      bd = u16 p.pkid.toNat ++ props ++ (p.reasons.flatMap fun c => u8 (unsubCode c))
      ∧ SetDenotes reasonKind reasonOf props p.properties ∧ p.reasons ≠ [] := by
  obtain ⟨k, cs, ps⟩ := p
  unfold UnsubAck.readM
  rw [UnsubAckProperties.extract_eq]
  mrun [advance_run hd bd _ hh]
  minv
  constructor
  · rintro ⟨r, k', s1, rfl, ps', s2, h0, _, _, ⟨rfl, rfl⟩, h1⟩
    rw [reason_extract_iff _ _ (by simp at hb ⊢; omega)] at h0
    obtain ⟨sec, rfl, hs⟩ := h0
    split at h1
    · simp at h1
    rename_i hne
    minv [UnsubAck.mk.injEq] at h1
    obtain ⟨cs', s3, h1, ⟨rfl, rfl, rfl⟩, rfl⟩ := h1
    rw [readCodesLoop_iff unsub_reason_iff _ _ _ _ _ (Nat.lt_succ_self _)] at h1
    obtain ⟨rfl, l, rfl, hl⟩ := h1
    refine ⟨sec, by rw [hl]; simp, hs, ?_⟩
    intro e
    subst e
    rw [hl] at hne; simp at hne
  · rintro ⟨sec, rfl, hs, hne⟩
    refine ⟨[], k, sec ++ (cs.flatMap fun c => u8 (unsubCode c)), by simp, ps,
      cs.flatMap fun c => u8 (unsubCode c), ?_, _, _, ⟨rfl, rfl⟩, ?_⟩
    · rw [reason_extract_iff _ _ (by simp only [List.length_append] at hb ⊢; omega)]; exact ⟨sec, rfl, hs⟩
    rw [if_neg]
    · minv [UnsubAck.mk.injEq]
      exact ⟨cs, [], (readCodesLoop_iff unsub_reason_iff _ _ _ _ _ (Nat.lt_succ_self _)).2 ⟨rfl, cs, by simp, rfl⟩,
        by simp, by simp⟩
    · cases cs with
      | nil => exact absurd rfl hne
      | cons c cs => simp [Spec.u8]

theorem Unsubscribe.readLoop_iff (fuel : Nat) (acc ts : List String) (s r : Bytes)
    (hf : s.length < fuel) :
    Unsubscribe.readLoop fuel acc s = (.ok ts, r) ↔
      r = [] ∧ ∃ l, ts = acc ++ l ∧ (∀ t ∈ l, fits (utf8 t).length) ∧ s = l.flatMap str := by
  induction fuel generalizing s acc with
  | zero => omega
  | succ n ih =>
    rw [Unsubscribe.readLoop]
    mrun
    by_cases he : s = []
    · subst he
      simp only [List.isEmpty_nil, if_true, ok_inj]
      constructor
      · rintro ⟨rfl, rfl⟩; exact ⟨rfl, [], by simp, by simp, rfl⟩
      · rintro ⟨rfl, l, rfl, _, h⟩
        cases l with
        | nil => simp
        | cons f l =>
          have := congrArg List.length h
          simp [str_len] at this
          omega
    · have : s.isEmpty = false := by simpa using he
      simp only [this, Bool.false_eq_true, if_false]
      minv
      constructor
      · rintro ⟨t, s1, ⟨ht, rfl⟩, h1⟩
        have hlt : s1.length < n := by simp only [List.length_append, str_len] at hf; omega
        obtain ⟨rfl, l, rfl, hl, hl2⟩ := (ih _ _ hlt).1 h1
        refine ⟨rfl, t :: l, by simp, ?_, by simp [← hl2]⟩
        intro x hx
        rcases List.mem_cons.1 hx with rfl | hx
        · exact ht
        · exact hl x hx
      · rintro ⟨rfl, l, rfl, hl, hl2⟩
        cases l with
        | nil => exact absurd hl2 he
        | cons t l =>
          rw [List.flatMap_cons] at hl2
          subst hl2
          have hlt : (l.flatMap str).length < n := by
            simp only [List.length_append, str_len] at hf; omega
          exact ⟨t, l.flatMap str, ⟨hl t (by simp), rfl⟩, (ih _ _ hlt).2 ⟨rfl, l, by simp,
              fun x hx => hl x (by simp [hx]), rfl⟩⟩

include hh hb in
theorem Unsubscribe.read_iff (p : Unsubscribe) :
    (∃ r, Unsubscribe.readM h (hd ++ bd) = (.ok p, r)) ↔ ∃ props,
      bd = u16 p.pkid.toNat ++ props ++ p.filters.flatMap str
      ∧ SetDenotes unsubscribeKind unsubscribeOf props p.properties
      ∧ ∀ t ∈ p.filters, fits (utf8 t).length := by
  obtain ⟨k, ts, ps⟩ := p
  unfold Unsubscribe.readM
  mrun [advance_run hd bd _ hh]
  minv [Unsubscribe.mk.injEq]
  constructor
  · rintro ⟨r, k', s1, rfl, ps', s2, h0, _, _, ⟨rfl, rfl⟩, ts', s3, h1, ⟨rfl, rfl, rfl⟩, rfl⟩
    rw [unsubscribe_extract_iff _ _ (by simp at hb ⊢; omega)] at h0
    obtain ⟨sec, rfl, hs⟩ := h0
    rw [Unsubscribe.readLoop_iff _ _ _ _ _ (Nat.lt_succ_self _)] at h1
    obtain ⟨rfl, l, rfl, hl, rfl⟩ := h1
    exact ⟨sec, by simp, hs, by simpa using hl⟩
  · rintro ⟨sec, rfl, hs, hl⟩
    refine ⟨[], k, sec ++ ts.flatMap str, by simp, ps, ts.flatMap str, ?_, _, _, ⟨rfl, rfl⟩, ts, [], ?_, ⟨rfl, rfl, rfl⟩, rfl⟩
    · rw [unsubscribe_extract_iff _ _ (by simp only [List.length_append] at hb ⊢; omega)]; exact ⟨sec, rfl, hs⟩
    · exact (Unsubscribe.readLoop_iff _ _ _ _ _ (Nat.lt_succ_self _)).2 ⟨rfl, ts, by simp, hl, rfl⟩

include hh hb in
theorem Disconnect.read_iff (h14 : h.byte1.toNat / 16 = 14) (h0 : h.remaining_len ≠ 0) (d : Disconnect) :
    (∃ r, Disconnect.readM h (hd ++ bd) = (.ok d, r)) ↔ h.byte1 = UInt8.ofNat (byte1 (.Disconnect d))
      ∧ ∃ props junk, bd = u8 (disconnectCode d.reason_code) ++ props ++ junk
      ∧ SetDenotes disconnectKind disconnectOf props d.properties := by
  have e1 : ∀ b : UInt8, b.toNat / 16 = 14 → b >>> 4 = PacketType.Disconnect.toU8 :=
    forall_u8 (by decide +kernel)
  have e2 : ∀ b : UInt8, b.toNat / 16 = 14 → (b &&& 15 = 0 ↔ b = UInt8.ofNat (14 * 16)) :=
    forall_u8 (by decide +kernel)
  obtain ⟨c, ps⟩ := d
  unfold Disconnect.readM
  mrun [advance_run hd bd _ hh, e1 _ h14, ne_eq, not_true_eq_false, if_false, h0, byte1, ← e2 _ h14]
  constructor
  · rintro ⟨r, h1⟩
    split at h1
    · simp at h1
    rename_i hfl
    minv [disconnect_reason_iff, Disconnect.mk.injEq] at h1
    obtain ⟨b, s1, rfl, c', _, ⟨rfl, rfl⟩, ps', s2, h1, ⟨rfl, rfl⟩, rfl⟩ := h1
    rw [disconnect_extract_iff _ _ (by simp at hb ⊢; omega)] at h1
    obtain ⟨sec, rfl, hs⟩ := h1
    exact ⟨by simpa using hfl, sec, s2, by simp [Spec.u8], hs⟩
  · rintro ⟨hfl, sec, j, rfl, hs⟩
    refine ⟨j, ?_⟩
    rw [if_neg (by simpa using hfl)]
    minv [disconnect_reason_iff, Disconnect.mk.injEq]
    refine ⟨_, sec ++ j, by simp only [Spec.u8, List.append_assoc]; rfl, c, _, ⟨rfl, rfl⟩, ps, j, ?_, ⟨rfl, rfl⟩, rfl⟩
    rw [disconnect_extract_iff _ _ (by simp at hb ⊢; omega)]; exact ⟨sec, rfl, hs⟩

theorem LastWill.read_iff (flags : UInt8) (o : Option LastWill) (s r : Bytes)
    (hs : s.length ≤ maxRemaining) :
    LastWill.read flags s = (.ok o, r) ↔ ∃ will, s = will ++ r ∧ WillDenotes flags will o := by
  have e4 : ∀ f : UInt8, (f &&& 4 = 0) ↔ ¬ bit f 2 := forall_u8 (by decide +kernel)
  have e38 : ∀ f : UInt8, (f &&& 56 ≠ 0) ↔ ¬ (¬ bit f 3 ∧ ¬ bit f 4 ∧ ¬ bit f 5) :=
    forall_u8 (by decide +kernel)
  have e20 : ∀ f : UInt8, (f &&& 32 ≠ 0) ↔ bit f 5 := forall_u8 (by decide +kernel)
  have eq : ∀ (f : UInt8) (q : QoS), ((f &&& 24) >>> 3 = q.toU8) ↔
      f.toNat / 8 % 4 = qosNum q := by
    intro f q; revert f; cases q <;> exact forall_u8 (by decide +kernel)
  unfold LastWill.read
  by_cases h4 : flags &&& 4 = 0
  · rw [if_pos h4]
    rw [e4] at h4
    by_cases h38 : flags &&& 56 ≠ 0
    · rw [if_pos h38]
      rw [e38] at h38
      simp only [fail_run, Prod.mk.injEq, reduceCtorEq, false_and, false_iff]
      rintro ⟨will, rfl, hw⟩
      cases o with
      | none => exact h38 ⟨hw.2.1, hw.2.2.1, hw.2.2.2.1⟩
      | some w => exact h4 hw.1
    · rw [if_neg h38]
      rw [e38, Classical.not_not] at h38
      rw [pure_run, ok_inj]
      constructor
      · rintro ⟨rfl, rfl⟩
        exact ⟨[], rfl, h4, h38.1, h38.2.1, h38.2.2, rfl⟩
      · rintro ⟨will, rfl, hw⟩
        cases o with
        | none => obtain ⟨_, _, _, _, rfl⟩ := hw; exact ⟨rfl, rfl⟩
        | some w => exact absurd hw.1 h4
  · rw [if_neg h4]
    rw [e4, Classical.not_not] at h4
    minv [qos_ok_iff, eq, e20]
    constructor
    · rintro ⟨ps, s0, h1, t, s1, ⟨ht, rfl⟩, m, s2, ⟨hm, rfl⟩, q, _, ⟨hq, rfl⟩, rfl, rfl⟩
      rw [will_extract_iff _ _ hs] at h1
      obtain ⟨sec, rfl, hsec⟩ := h1
      exact ⟨sec ++ str t ++ bin m, by simp, h4, hq, by simp, ht, hm, sec, rfl, hsec⟩
    · rintro ⟨will, rfl, hw⟩
      cases o with
      | none => exact absurd h4 hw.1
      | some w =>
        obtain ⟨t, m, q, rt, ps⟩ := w
        obtain ⟨_, hq, hrt, ht, hm, sec, rfl, hsec⟩ := hw
        refine ⟨ps, str t ++ (bin m ++ r), ?_, t, bin m ++ r, ⟨ht, rfl⟩, m, r, ⟨hm, rfl⟩, q, r,
          ⟨hq, rfl⟩, ?_, rfl⟩
        · rw [will_extract_iff _ _ hs]; exact ⟨sec, by simp, hsec⟩
        simp only [Option.some.injEq, LastWill.mk.injEq, true_and]
        cases rt <;> simp_all

theorem Login.read_iff (flags : UInt8) (o : Option Login) (s r : Bytes) :
    Login.read flags s = (.ok o, r) ↔ ∃ lg, s = lg ++ r ∧ LoginDenotes flags lg o := by
  have e7 : ∀ f : UInt8, (f &&& 128 = 0) ↔ ¬ bit f 7 := forall_u8 (by decide +kernel)
  have e6 : ∀ f : UInt8, (f &&& 64 = 0) ↔ ¬ bit f 6 := forall_u8 (by decide +kernel)
  unfold Login.read LoginDenotes
  have one : ∀ (b : UInt8) (i : Nat) (hb : (flags &&& b = 0) ↔ ¬ bit flags i) (u : String)
      (s s' : Bytes),
      (if flags &&& b = 0 then pure "" else read_mqtt_string : M String) s = (.ok u, s') ↔
        fits (utf8 u).length ∧ (¬ bit flags i → u = "") ∧
          s = (if bit flags i then str u else []) ++ s' := by
    intro b i hb u s s'
    by_cases hi : bit flags i
    · have : ¬ flags &&& b = 0 := fun h => (hb.1 h) hi
      rw [if_neg this, if_pos hi, read_mqtt_string_iff]
      simp [hi, fits]
    · rw [if_pos (hb.2 hi), if_neg hi, pure_run, ok_inj]
      constructor
      · rintro ⟨rfl, rfl⟩; exact ⟨by decide +kernel, by simp, rfl⟩
      · rintro ⟨_, h1, h2⟩; exact ⟨(h1 hi).symm, h2⟩
  simp only [bind_run, andThen_eq_ok, one 128 7 (e7 flags), one 64 6 (e6 flags)]
  have fin : ∀ (u p : String) (s : Bytes),
      (if (u.isEmpty && p.isEmpty) = true then pure none else pure (some ⟨u, p⟩) : M (Option Login)) s
        = (.ok (if u = "" ∧ p = "" then none else some ⟨u, p⟩), s) := by
    intro u p s
    rw [ite_run, pure_run, pure_run, Mqtt.V4.isEmpty_iff, Mqtt.V4.isEmpty_iff]
    by_cases hu : u = "" <;> by_cases hp : p = "" <;> simp [hu, hp]
  simp only [fin, ok_inj]
  constructor
  · rintro ⟨u, s1, ⟨hu, hu0, rfl⟩, p, s2, ⟨hp, hp0, rfl⟩, rfl, rfl⟩
    exact ⟨_, by simp, u, p, hu, hp, hu0, hp0, rfl, rfl⟩
  · rintro ⟨_, rfl, u, p, hu, hp, hu0, hp0, rfl, rfl⟩
    exact ⟨u, _, ⟨hu, hu0, by rw [List.append_assoc]⟩, p, r, ⟨hp, hp0, rfl⟩, rfl, rfl⟩

/-- connect properties are read with protocol level 5 only -/
def connPropsDenote (pr : Protocol) (sec : Bytes) (o : Option ConnectProperties) : Prop :=
  match pr with
  | .V5 => SetDenotes connectKind connectOf sec o
  | .V4 => sec = [] ∧ o = none

include hh hb in
theorem Connect.read_iff (c : Connect) :
    (∃ r, Connect.readM h (hd ++ bd) = (.ok c, r)) ↔
      ∃ flags props will login junk,
      bd = str "MQTT" ++ u8 (level c.protocol) ++ [flags] ++ u16 c.keep_alive.toNat ++ props
        ++ str c.client_id ++ will ++ login ++ junk
      ∧ connPropsDenote c.protocol props c.properties
      ∧ fits (utf8 c.client_id).length ∧ (c.clean_session = true ↔ bit flags 1)
      ∧ WillDenotes flags will c.last_will ∧ LoginDenotes flags login c.login := by
  have e2 : ∀ f : UInt8, (f &&& 2 ≠ 0) ↔ bit f 1 := forall_u8 (by decide +kernel)
  have hlev : ∀ (n : UInt8) (pr : Protocol) (s s' : Bytes),
      (match n with
        | 4 => pure Protocol.V4
        | 5 => pure Protocol.V5
        | num => M.fail (.InvalidProtocolLevel num) : M Protocol) s = (.ok pr, s') ↔
      n = UInt8.ofNat (level pr) ∧ s' = s := by
    intro n pr s s'
    split
    · cases pr <;> simp [pure_run, level, eq_comm]
    · cases pr <;> simp [pure_run, level, eq_comm]
    · rename_i h4 h5
      cases pr <;> simp only [fail_run, Prod.mk.injEq, reduceCtorEq, false_and, false_iff] <;>
        rintro ⟨rfl, _⟩
      · exact h4 rfl
      · exact h5 rfl
  have hpr : ∀ (pr : Protocol) (s s' : Bytes) (o), s.length ≤ maxRemaining →
      ((match pr with
        | .V5 => ConnectProperties.read
        | .V4 => pure none : M (Option ConnectProperties)) s = (.ok o, s') ↔
      ∃ sec, s = sec ++ s' ∧ connPropsDenote pr sec o) := by
    intro pr s s' o hs
    cases pr with
    | V5 => exact connect_extract_iff s s' hs o
    | V4 =>
      simp only [pure_run, ok_inj, connPropsDenote]
      constructor
      · rintro ⟨rfl, rfl⟩; exact ⟨[], rfl, rfl, rfl⟩
      · rintro ⟨_, rfl, rfl, rfl⟩; exact ⟨rfl, rfl⟩
  have hM : fits (utf8 "MQTT").length := by decide +kernel
  obtain ⟨pr, ka, id, cs, w, l, ps⟩ := c
  unfold Connect.readM
  mrun [advance_run hd bd _ hh]
  minv [e2]
  constructor
  · rintro ⟨r, nm, s1, ⟨hnm, rfl⟩, lv, s2, rfl, h1⟩
    split at h1
    · simp at h1
    rename_i hn
    have hn : nm = "MQTT" := by simpa using hn
    subst hn
    minv [Login.read_iff, e2, Connect.mk.injEq] at h1
    obtain ⟨pr', _, hpr', f, s3, h3, ka', s4, rfl, ps', s4', hps, id', s5, ⟨hid, rfl⟩, w', s6,
      hw, l', s7, ⟨lb, rfl, hl⟩, ⟨rfl, rfl, rfl, rfl, rfl, rfl, rfl⟩, rfl⟩ := h1
    obtain ⟨rfl, rfl⟩ := (hlev _ _ _ _).1 hpr'
    subst h3
    simp only [List.length_append, List.length_cons] at hb
    obtain ⟨sec, rfl, hsec⟩ := (hpr _ _ _ _ (by omega)).1 hps
    simp only [List.length_append, List.length_cons] at hb
    obtain ⟨wb, rfl, hwd⟩ := (LastWill.read_iff _ _ _ _ (by omega)).1 hw
    refine ⟨f, sec, wb, lb, s7, by simp [Spec.u8], hsec, hid, by simp, hwd, hl⟩
  · rintro ⟨f, sec, wb, lb, junk, rfl, hsec, hid, hcs, hw, hl⟩
    refine ⟨junk, "MQTT", _, ⟨hM, by simp only [List.append_assoc]; rfl⟩, _, _, rfl, ?_⟩
    rw [if_neg (by simp)]
    minv [Login.read_iff, e2, Connect.mk.injEq]
    simp only [List.length_append, List.length_cons] at hb
    refine ⟨pr, _, (hlev _ _ _ _).2 ⟨rfl, rfl⟩, f, _, rfl, ka, _, rfl, ps,
      str id ++ (wb ++ (lb ++ junk)), ?_, id, _, ⟨hid, rfl⟩, w, lb ++ junk, ?_, l, _,
      ⟨lb, rfl, hl⟩, ⟨rfl, rfl, rfl, ?_, rfl, rfl, rfl⟩, rfl⟩
    · exact (hpr _ _ _ _ (by simp only [List.length_append]; omega)).2 ⟨sec, by simp, hsec⟩
    · exact (LastWill.read_iff _ _ _ _ (by simp only [List.length_append]; omega)).2 ⟨wb, rfl, hw⟩
    · cases cs <;> simp_all

theorem puback_zero (r : PubAckReason) : pubackCode r = 0 ↔ r = .Success := by cases r <;> decide
theorem pubrec_zero (r : PubRecReason) : pubrecCode r = 0 ↔ r = .Success := by cases r <;> decide
theorem pubrel_zero (r : PubRelReason) : pubrelCode r = 0 ↔ r = .Success := by cases r <;> decide
theorem pubcomp_zero (r : PubCompReason) : pubcompCode r = 0 ↔ r = .Success := by cases r <;> decide

theorem publish_type (p : Publish) : byte1 (.Publish p) / 16 = 3 := by
  obtain ⟨d, q, r, _, _, _, _⟩ := p
  cases d <;> cases q <;> cases r <;> simp [byte1, flag, qosNum]

/-- the type announced by a frame that denotes a packet -/
theorem denotes_type {b1 : UInt8} {bd : Bytes} {p : Packet} (hp : Denotes b1 bd p) :
    typeNum b1 = byte1 p / 16 := by
  cases p
  case Publish p =>
    obtain ⟨rfl, -⟩ := hp
    obtain ⟨d, q, r, _, _, _, _⟩ := p
    simp only [byte1]
    cases d <;> cases q <;> cases r <;> rfl
  case PingReq => exact hp
  case PingResp => exact hp
  case Disconnect => obtain ⟨rfl, -⟩ := hp; rfl
  all_goals (have := hp.1; simp only [byte1]; omega)

theorem denotes_connect (b1 : UInt8) (c : Connect) : Denotes b1 bd (.Connect c) ↔
    typeNum b1 = 1 ∧ ∃ flags props will login junk,
      bd = str "MQTT" ++ u8 (level c.protocol) ++ [flags] ++ u16 c.keep_alive.toNat ++ props
        ++ str c.client_id ++ will ++ login ++ junk
      ∧ connPropsDenote c.protocol props c.properties
      ∧ fits (utf8 c.client_id).length ∧ (c.clean_session = true ↔ bit flags 1)
      ∧ WillDenotes flags will c.last_will ∧ LoginDenotes flags login c.login := by
  obtain ⟨pr, _, _, _, _, _, _⟩ := c
  cases pr <;> exact Iff.rfl

include hh hb in
/-- the decoder of one type returns a packet exactly when the frame denotes it -/
theorem readFrame_iff (hr : h.remaining_len = bd.length) (p : Packet) :
    readFrame h (hd ++ bd) = .ok p ↔ Denotes h.byte1 bd p := by
  rcases packet_type_cases h with ⟨t, ht⟩ | ⟨hb', ht⟩
  · unfold readFrame
    rw [ht]
    have ht' := (packet_type_ok_iff _ _).1 ht
    simp only
    by_cases h0 : h.remaining_len = 0
    · rw [if_pos h0]
      have hbd : bd = [] := List.eq_nil_of_length_eq_zero (by omega)
      subst hbd
      constructor
      · intro h1
        cases t <;> simp only [Res.ok.injEq, reduceCtorEq] at h1 <;> subst h1 <;> exact ht'
      · intro hp
        have h1 := denotes_type hp
        unfold typeNum at h1
        rw [ht'] at h1
        cases p
        case PingReq => cases t <;> first | rfl | (exfalso; simp [byte1, PacketType.toU8] at h1)
        case PingResp => cases t <;> first | rfl | (exfalso; simp [byte1, PacketType.toU8] at h1)
        all_goals
          exfalso
          simp only [Denotes, DenotesBy, AckDenotesBy] at hp
        case Connect => obtain ⟨_, _, _, _, _, _, h2, _⟩ := hp; simp [Spec.u8] at h2
        case ConnAck => obtain ⟨_, _, _, _, h2, _⟩ := hp; simp at h2
        case Publish => obtain ⟨_, _, h2, _⟩ := hp; simp [Spec.str, Spec.bin, Spec.u16] at h2
        case PubAck => obtain ⟨_, ⟨h2, _⟩ | ⟨h2, _⟩ | ⟨_, _, h2, _⟩⟩ := hp <;> simp [Spec.u16] at h2
        case PubRec => obtain ⟨_, ⟨h2, _⟩ | ⟨h2, _⟩ | ⟨_, _, h2, _⟩⟩ := hp <;> simp [Spec.u16] at h2
        case PubRel => obtain ⟨_, ⟨h2, _⟩ | ⟨h2, _⟩ | ⟨_, _, h2, _⟩⟩ := hp <;> simp [Spec.u16] at h2
        case PubComp => obtain ⟨_, ⟨h2, _⟩ | ⟨h2, _⟩ | ⟨_, _, h2, _⟩⟩ := hp <;> simp [Spec.u16] at h2
        case Subscribe => obtain ⟨_, _, _, h2, _⟩ := hp; simp [Spec.u16] at h2
        case SubAck => obtain ⟨_, _, h2, _⟩ := hp; simp [Spec.u16] at h2
        case Unsubscribe => obtain ⟨_, _, h2, _⟩ := hp; simp [Spec.u16] at h2
        case UnsubAck => obtain ⟨_, _, h2, _⟩ := hp; simp [Spec.u16] at h2
        case Disconnect => obtain ⟨_, _, _, h2, _⟩ := hp; simp [Spec.u8] at h2
    · rw [if_neg h0]
      constructor
      · intro h1
        cases t <;> simp only [onFrame_ok_iff, Res.ok.injEq] at h1
        case Connect =>
          obtain ⟨c, r, h1, rfl⟩ := h1
          exact (denotes_connect _ _ _).2 ⟨ht', (Connect.read_iff h hd bd hh hb c).1 ⟨r, h1⟩⟩
        case ConnAck =>
          obtain ⟨c, r, h1, rfl⟩ := h1
          exact ⟨ht', (ConnAck.read_iff h hd bd hh hb c).1 ⟨r, h1⟩⟩
        case Publish =>
          obtain ⟨c, r, h1, rfl⟩ := h1
          exact (Publish.read_iff h hd bd hh hb ht' c).1 ⟨r, h1⟩
        case PubAck =>
          obtain ⟨c, r, h1, rfl⟩ := h1
          exact ⟨ht', (Ack.read_iff h hd bd hh hb puback_reason_iff puback_zero hr c).1 ⟨r, h1⟩⟩
        case PubRec =>
          obtain ⟨c, r, h1, rfl⟩ := h1
          exact ⟨ht', (Ack.read_iff h hd bd hh hb pubrec_reason_iff pubrec_zero hr c).1 ⟨r, h1⟩⟩
        case PubRel =>
          obtain ⟨c, r, h1, rfl⟩ := h1
          exact ⟨ht', (Ack.read_iff h hd bd hh hb pubrel_reason_iff pubrel_zero hr c).1 ⟨r, h1⟩⟩
        case PubComp =>
          obtain ⟨c, r, h1, rfl⟩ := h1
          exact ⟨ht', (Ack.read_iff h hd bd hh hb pubcomp_reason_iff pubcomp_zero hr c).1 ⟨r, h1⟩⟩
        case Subscribe =>
          obtain ⟨c, r, h1, rfl⟩ := h1
          exact ⟨ht', (Subscribe.read_iff h hd bd hh hb c).1 ⟨r, h1⟩⟩
        case SubAck =>
          obtain ⟨c, r, h1, rfl⟩ := h1
          exact ⟨ht', (SubAck.read_iff h hd bd hh hb c).1 ⟨r, h1⟩⟩
        case Unsubscribe =>
          obtain ⟨c, r, h1, rfl⟩ := h1
          exact ⟨ht', (Unsubscribe.read_iff h hd bd hh hb c).1 ⟨r, h1⟩⟩
        case UnsubAck =>
          obtain ⟨c, r, h1, rfl⟩ := h1
          exact ⟨ht', (UnsubAck.read_iff h hd bd hh hb c).1 ⟨r, h1⟩⟩
        case Disconnect =>
          obtain ⟨c, r, h1, rfl⟩ := h1
          exact (Disconnect.read_iff h hd bd hh hb ht' h0 c).1 ⟨r, h1⟩
        all_goals subst h1; exact ht'
      · intro hp
        have h1 := denotes_type hp
        unfold typeNum at h1
        cases p
        case Publish p =>
          have h1 : h.byte1.toNat / 16 = 3 := by
            rw [h1, publish_type]
          rw [ht'] at h1
          cases t <;> first | (exfalso; simp [byte1, PacketType.toU8] at h1; done) | skip
          simp only [onFrame_ok_iff]
          obtain ⟨r, h2⟩ := (Publish.read_iff h hd bd hh hb ht' p).2 hp
          exact ⟨p, r, h2, rfl⟩
        all_goals
          rw [ht'] at h1
          cases t <;> first | (exfalso; simp [byte1, PacketType.toU8] at h1; done) | skip
          try simp only [onFrame_ok_iff]
        case Connect.Connect c =>
          obtain ⟨r, h2⟩ := (Connect.read_iff h hd bd hh hb c).2 ((denotes_connect _ _ _).1 hp).2
          exact ⟨c, r, h2, rfl⟩
        case ConnAck.ConnAck c =>
          obtain ⟨r, h2⟩ := (ConnAck.read_iff h hd bd hh hb c).2 hp.2
          exact ⟨c, r, h2, rfl⟩
        case PubAck.PubAck c =>
          obtain ⟨r, h2⟩ := (Ack.read_iff h hd bd hh hb puback_reason_iff puback_zero hr c).2 hp.2
          exact ⟨c, r, h2, rfl⟩
        case PubRec.PubRec c =>
          obtain ⟨r, h2⟩ := (Ack.read_iff h hd bd hh hb pubrec_reason_iff pubrec_zero hr c).2 hp.2
          exact ⟨c, r, h2, rfl⟩
        case PubRel.PubRel c =>
          obtain ⟨r, h2⟩ := (Ack.read_iff h hd bd hh hb pubrel_reason_iff pubrel_zero hr c).2 hp.2
          exact ⟨c, r, h2, rfl⟩
        case PubComp.PubComp c =>
          obtain ⟨r, h2⟩ := (Ack.read_iff h hd bd hh hb pubcomp_reason_iff pubcomp_zero hr c).2 hp.2
          exact ⟨c, r, h2, rfl⟩
        case Subscribe.Subscribe c =>
          obtain ⟨r, h2⟩ := (Subscribe.read_iff h hd bd hh hb c).2 hp.2
          exact ⟨c, r, h2, rfl⟩
        case SubAck.SubAck c =>
          obtain ⟨r, h2⟩ := (SubAck.read_iff h hd bd hh hb c).2 hp.2
          exact ⟨c, r, h2, rfl⟩
        case Unsubscribe.Unsubscribe c =>
          obtain ⟨r, h2⟩ := (Unsubscribe.read_iff h hd bd hh hb c).2 hp.2
          exact ⟨c, r, h2, rfl⟩
        case UnsubAck.UnsubAck c =>
          obtain ⟨r, h2⟩ := (UnsubAck.read_iff h hd bd hh hb c).2 hp.2
          exact ⟨c, r, h2, rfl⟩
        case Disconnect.Disconnect c =>
          obtain ⟨r, h2⟩ := (Disconnect.read_iff h hd bd hh hb ht' h0 c).2 hp
          exact ⟨c, r, h2, rfl⟩
  · unfold readFrame
    rw [ht]
    simp only [reduceCtorEq, false_iff]
    intro hp
    have h1 := denotes_type hp
    unfold typeNum at h1
    have : byte1 p / 16 ≠ 0 ∧ byte1 p / 16 ≠ 15 := by
      cases p
      case Publish p =>
        rw [publish_type]; decide
      all_goals simp [byte1]
    omega

/-- **exact acceptance** of `v5::read` -/
theorem read_ok_iff (max : Nat) (s s' : Bytes) (p : Packet) :
    V5.read max s = (.ok p, s') ↔
      ∃ b1 bs bd, s = b1 :: (bs ++ (bd ++ s')) ∧ IsVbi bs ∧ vbiValue bs = bd.length ∧
        bd.length ≤ max ∧ Denotes b1 bd p := by
  rw [v5_read_eq]
  constructor
  · intro h1
    rcases check_total s max with ⟨h, hc⟩ | ⟨e, hc⟩
    · have hc' := hc
      obtain ⟨b1, bs, rest, rfl, hv, hm, hr, rfl⟩ := (check_ok_iff _ _ _).1 hc
      have hvl := vbiValue_le hv
      rw [readG_ok _ _ hc] at h1
      have e : b1 :: (bs ++ rest) = (b1 :: bs) ++ rest.take (vbiValue bs) ++ rest.drop (vbiValue bs) := by
        simp
      have hl : ((b1 :: bs) ++ rest.take (vbiValue bs)).length = bs.length + 1 + vbiValue bs := by
        simp; omega
      simp only [FixedHeader.frame_length, Prod.mk.injEq] at h1
      rw [e, List.take_left' hl, List.drop_left' hl] at h1
      obtain ⟨h1, rfl⟩ := h1
      rw [readFrame_iff _ _ _ (by simp) (by simp; omega) (by simp; omega)] at h1
      refine ⟨b1, bs, rest.take (vbiValue bs), by simp, hv, by simp; omega, by simp; omega, h1⟩
    · rw [readG_err _ _ hc] at h1; simp at h1
  · rintro ⟨b1, bs, bd, rfl, hv, hb, hm, hp⟩
    have hvl := vbiValue_le hv
    have hc := check_frame b1 bs (bd ++ s') max hv (by omega) (by simp; omega)
    rw [readG_ok _ _ hc]
    have e : b1 :: (bs ++ (bd ++ s')) = ((b1 :: bs) ++ bd) ++ s' := by simp
    have hl : ((b1 :: bs) ++ bd).length = bs.length + 1 + vbiValue bs := by simp; omega
    simp only [FixedHeader.frame_length, Prod.mk.injEq]
    rw [e, List.take_left' hl, List.drop_left' hl]
    exact ⟨(readFrame_iff _ _ _ (by simp) (by omega) (by simp; omega) p).2 hp, rfl⟩

end Mqtt.V5
