import Verif.Proof.Dispatch
import Verif.Proof.V4Write
/-! `v4::read` returns a packet exactly when the frame denotes it. -/
set_option linter.unusedSimpArgs false
namespace Mqtt.V4
open Spec
open Spec.V4 (body byte1 encode FieldsFit Meaningful WF Denotes bit typeNum WillDenotes LoginDenotes
  FiltersDenote)

theorem connect_return_ok_iff (n : UInt8) (c : ConnectReturnCode) :
    connect_return n = .ok c ↔ n = UInt8.ofNat (Spec.V4.returnCode c) := by
  revert n; cases c <;> exact forall_u8 (by decide +kernel)

theorem publish_byte1_iff (b : UInt8) (d : Bool) (q : QoS) (r : Bool) : b.toNat / 16 = 3 →
    (((b &&& 6) >>> 1 = q.toU8 ∧ decide (b &&& 8 ≠ 0) = d ∧ decide (b &&& 1 ≠ 0) = r) ↔
      b = UInt8.ofNat (3 * 16 + flag d 8 + 2 * Spec.V4.qosNum q + flag r 1)) := by
  revert b
  cases d <;> cases q <;> cases r <;> exact forall_u8 (by decide +kernel)

variable (h : FixedHeader) (hd bd : Bytes) (hh : hd.length = h.fixed_header_len)
include hh

theorem PubAck.read_iff (p : PubAck) :
    (∃ r, PubAck.readM h (hd ++ bd) = (.ok p, r)) ↔ ∃ junk, bd = Spec.u16 p.pkid.toNat ++ junk := by
  obtain ⟨k⟩ := p
  unfold PubAck.readM
  mrun [advance_run hd bd _ hh]
  minv [ite_self, PubAck.mk.injEq]
  constructor
  · rintro ⟨r, _, s, h1, rfl, rfl⟩; exact ⟨s, h1⟩
  · rintro ⟨j, h1⟩; exact ⟨j, k, j, h1, rfl, rfl⟩

theorem PubRec.read_iff (p : PubRec) :
    (∃ r, PubRec.readM h (hd ++ bd) = (.ok p, r)) ↔ ∃ junk, bd = Spec.u16 p.pkid.toNat ++ junk := by
  obtain ⟨k⟩ := p
  unfold PubRec.readM
  mrun [advance_run hd bd _ hh]
  minv [ite_self, PubRec.mk.injEq]
  constructor
  · rintro ⟨r, _, s, h1, rfl, rfl⟩; exact ⟨s, h1⟩
  · rintro ⟨j, h1⟩; exact ⟨j, k, j, h1, rfl, rfl⟩

theorem PubRel.read_iff (p : PubRel) :
    (∃ r, PubRel.readM h (hd ++ bd) = (.ok p, r)) ↔ ∃ junk, bd = Spec.u16 p.pkid.toNat ++ junk := by
  obtain ⟨k⟩ := p
  unfold PubRel.readM
  mrun [advance_run hd bd _ hh]
  minv [ite_self, PubRel.mk.injEq]
  constructor
  · rintro ⟨r, _, s, h1, rfl, rfl⟩; exact ⟨s, h1⟩
  · rintro ⟨j, h1⟩; exact ⟨j, k, j, h1, rfl, rfl⟩

theorem PubComp.read_iff (p : PubComp) :
    (∃ r, PubComp.readM h (hd ++ bd) = (.ok p, r)) ↔ ∃ junk, bd = Spec.u16 p.pkid.toNat ++ junk := by
  obtain ⟨k⟩ := p
  unfold PubComp.readM
  mrun [advance_run hd bd _ hh]
  minv [ite_self, PubComp.mk.injEq]
  constructor
  · rintro ⟨r, _, s, h1, rfl, rfl⟩; exact ⟨s, h1⟩
  · rintro ⟨j, h1⟩; exact ⟨j, k, j, h1, rfl, rfl⟩

theorem UnsubAck.read_iff (hr : h.remaining_len = bd.length) (p : UnsubAck) :
    (∃ r, UnsubAck.readM h (hd ++ bd) = (.ok p, r)) ↔ bd = Spec.u16 p.pkid.toNat := by
  obtain ⟨k⟩ := p
  unfold UnsubAck.readM
  mrun [advance_run hd bd _ hh]
  rw [hr]
  constructor
  · rintro ⟨r, h1⟩
    split at h1
    · simp at h1
    · rename_i h2
      minv [UnsubAck.mk.injEq] at h1
      obtain ⟨_, s, h1, rfl, rfl⟩ := h1
      rw [h1] at h2
      simp only [List.length_append, u16_len] at h2
      have : s = [] := List.eq_nil_of_length_eq_zero (by omega)
      rw [h1, this, List.append_nil]
  · rintro rfl
    refine ⟨[], ?_⟩
    rw [if_neg (by simp [u16_len])]
    have := read_u16_run k []
    rw [List.append_nil] at this
    rw [this]; rfl

theorem ConnAck.read_iff (p : ConnAck) :
    (∃ r, ConnAck.readM h (hd ++ bd) = (.ok p, r)) ↔
      ∃ flags junk, bd = [flags] ++ Spec.u8 (Spec.V4.returnCode p.code) ++ junk
      ∧ (p.session_present = true ↔ bit flags 0) := by
  have hbit : ∀ b : UInt8, (b &&& 1 = 1) ↔ bit b 0 := forall_u8 (by decide +kernel)
  obtain ⟨sp, c⟩ := p
  unfold ConnAck.readM
  mrun [advance_run hd bd _ hh]
  minv [ConnAck.mk.injEq, connect_return_ok_iff, hbit]
  constructor
  · rintro ⟨r, f, s, rfl, c, s', rfl, _, _, ⟨rfl, rfl⟩, ⟨rfl, rfl⟩, rfl⟩
    exact ⟨f, s', rfl, by simp⟩
  · rintro ⟨f, j, rfl, hsp⟩
    refine ⟨j, f, _, rfl, _, j, rfl, c, j, ⟨rfl, rfl⟩, ⟨?_, rfl⟩, rfl⟩
    cases sp <;> simp_all

theorem Publish.read_iff (h3 : h.byte1.toNat / 16 = 3) (p : Publish) :
    (∃ r, Publish.readM h (hd ++ bd) = (.ok p, r)) ↔
      h.byte1 = UInt8.ofNat (byte1 (.Publish p)) ∧ bd = body (.Publish p)
      ∧ fits (utf8 p.topic).length ∧ (p.qos = .AtMostOnce ↔ p.pkid = 0) := by
  obtain ⟨d, q, rt, t, k, pl⟩ := p
  unfold Publish.readM
  simp only [byte1, ← publish_byte1_iff _ _ _ _ h3, body]
  minv [qos_ok_iff, advance_run hd bd _ hh]
  constructor
  · rintro ⟨r, q', _, ⟨hq, rfl⟩, _, _, h0, t', s', ⟨ht, hs⟩, k', s'', hk, h1⟩
    rw [advance_run hd bd _ hh] at h0
    obtain ⟨-, rfl⟩ := ok_inj.1 h0
    subst hs
    split at h1
    · simp at h1
    rename_i hk0
    minv [Publish.mk.injEq] at h1
    obtain ⟨_, _, ⟨rfl, rfl⟩, ⟨rfl, rfl, rfl, rfl, rfl, rfl⟩, rfl⟩ := h1
    cases q' with
    | AtMostOnce =>
      minv at hk
      obtain ⟨rfl, rfl⟩ := hk
      simp [hq]; exact ht
    | AtLeastOnce =>
      minv at hk
      simp at hk0
      simp [hq, hk0, hk]; exact ht
    | ExactlyOnce =>
      minv at hk
      simp at hk0
      simp [hq, hk0, hk]; exact ht
  · rintro ⟨⟨hq, rfl, rfl⟩, rfl, ht, hk⟩
    refine ⟨pl, q, _, ⟨hq, rfl⟩, (), _, advance_run hd _ _ hh, t, ?_⟩
    cases q with
    | AtMostOnce =>
      refine ⟨pl, ⟨ht, by simp⟩, 0, pl, rfl, ?_⟩
      have : k = 0 := hk.1 rfl
      simp [this, andThen_ok, pure_run]
    | AtLeastOnce =>
      refine ⟨Spec.u16 k.toNat ++ pl, ⟨ht, by simp⟩, k, pl, read_u16_run _ _, ?_⟩
      have : ¬ k = 0 := fun h => by simpa using hk.2 h
      simp [this, andThen_ok, pure_run]
    | ExactlyOnce =>
      refine ⟨Spec.u16 k.toNat ++ pl, ⟨ht, by simp⟩, k, pl, read_u16_run _ _, ?_⟩
      have : ¬ k = 0 := fun h => by simpa using hk.2 h
      simp [this, andThen_ok, pure_run]

omit hh in
theorem Subscribe.readLoop_iff (fuel : Nat) (acc fs : List SubscribeFilter) (s r : Bytes)
    (hf : s.length < fuel) :
    Subscribe.readLoop fuel acc s = (.ok fs, r) ↔
      r = [] ∧ ∃ l, fs = acc ++ l ∧ FiltersDenote s l := by
  have hq : ∀ (o : UInt8) (q : QoS), (o &&& 3 = q.toU8) ↔ o.toNat % 4 = Spec.V4.qosNum q := by
    intro o q; revert o; cases q <;> exact forall_u8 (by decide +kernel)
  induction fuel generalizing s acc with
  | zero => omega
  | succ n ih =>
    rw [Subscribe.readLoop]
    mrun
    by_cases he : s = []
    · subst he
      simp only [List.isEmpty_nil, if_true, ok_inj]
      constructor
      · rintro ⟨rfl, rfl⟩; exact ⟨rfl, [], by simp, .nil⟩
      · rintro ⟨rfl, l, rfl, h⟩
        cases l with
        | nil => simp
        | cons f l =>
          generalize hb : ([] : Bytes) = b at h
          cases h; simp at hb
    · have : s.isEmpty = false := by simpa using he
      simp only [this, Bool.false_eq_true, if_false]
      minv [qos_ok_iff, hq]
      constructor
      · rintro ⟨p, s1, ⟨hp, rfl⟩, o, s2, rfl, q, _, ⟨ho, rfl⟩, h1⟩
        have hlt : s2.length < n := by
          simp only [List.length_append, List.length_cons, str_len] at hf; omega
        obtain ⟨rfl, l, rfl, hl⟩ := (ih _ _ hlt).1 h1
        refine ⟨rfl, ⟨p, q⟩ :: l, by simp, ?_⟩
        have := FiltersDenote.cons p q o s2 l hp ho hl
        simpa using this
      · rintro ⟨rfl, l, rfl, hl⟩
        cases hl with
        | nil => exact absurd rfl he
        | cons p q o s2 l hp ho hl =>
          have hlt : s2.length < n := by
            simp only [List.length_append, List.length_cons, str_len] at hf; omega
          refine ⟨p, o :: s2, ⟨hp, by simp⟩, o, s2, rfl, q, s2, ⟨ho, rfl⟩, ?_⟩
          exact (ih _ _ hlt).2 ⟨rfl, l, by simp, hl⟩

theorem Subscribe.read_iff (p : Subscribe) :
    (∃ r, Subscribe.readM h (hd ++ bd) = (.ok p, r)) ↔
      ∃ fs, bd = Spec.u16 p.pkid.toNat ++ fs ∧ FiltersDenote fs p.filters ∧ p.filters ≠ [] := by
  obtain ⟨k, fs⟩ := p
  unfold Subscribe.readM
  mrun [advance_run hd bd _ hh]
  minv
  constructor
  · rintro ⟨r, k', s1, rfl, _, _, ⟨rfl, rfl⟩, fs', s3, h1, h2⟩
    rw [Subscribe.readLoop_iff _ _ _ _ _ (Nat.lt_succ_self _)] at h1
    obtain ⟨rfl, l, rfl, hl⟩ := h1
    cases fs' with
    | nil => simp [fail_run] at h2
    | cons f l =>
      simp only [List.length_cons, ok_inj, pure_run, Subscribe.mk.injEq] at h2
      obtain ⟨⟨rfl, rfl⟩, rfl⟩ := h2
      exact ⟨_, rfl, hl, by simp⟩
  · rintro ⟨s1, rfl, hl, hne⟩
    refine ⟨[], k, s1, rfl, s1, s1, ⟨rfl, rfl⟩, fs, [], ?_, ?_⟩
    · exact (Subscribe.readLoop_iff _ _ _ _ _ (Nat.lt_succ_self _)).2 ⟨rfl, fs, by simp, hl⟩
    · cases fs with
      | nil => exact absurd rfl hne
      | cons f l => rfl

omit hh in
theorem subCode_ok_iff (n : UInt8) (c : SubscribeReasonCode) :
    SubscribeReasonCode.try_from n = .ok c ↔ n = UInt8.ofNat (Spec.V4.subCode c) := by
  revert n
  rcases c with ⟨q⟩ | _
  · cases q <;> exact forall_u8 (by decide +kernel)
  · exact forall_u8 (by decide +kernel)

omit hh in
theorem SubAck.readLoop_iff (fuel : Nat) (acc cs : List SubscribeReasonCode) (s r : Bytes)
    (hf : s.length < fuel) :
    SubAck.readLoop fuel acc s = (.ok cs, r) ↔
      r = [] ∧ ∃ l, cs = acc ++ l ∧ s = l.flatMap fun c => Spec.u8 (Spec.V4.subCode c) := by
  induction fuel generalizing s acc with
  | zero => omega
  | succ n ih =>
    rw [SubAck.readLoop]
    mrun
    cases s with
    | nil =>
      simp only [List.isEmpty_nil, if_true, ok_inj]
      constructor
      · rintro ⟨rfl, rfl⟩; exact ⟨rfl, [], by simp, rfl⟩
      · rintro ⟨rfl, l, rfl, h⟩
        cases l with
        | nil => simp
        | cons f l => simp [Spec.u8] at h
    | cons b s =>
      simp only [List.isEmpty_cons, Bool.false_eq_true, if_false]
      minv [subCode_ok_iff]
      have hlt : s.length < n := by simp only [List.length_cons] at hf; omega
      constructor
      · rintro ⟨_, _, h0, c, _, ⟨hc, rfl⟩, h1⟩
        obtain ⟨rfl, rfl⟩ := List.cons.inj h0
        obtain ⟨rfl, l, rfl, hl⟩ := (ih _ _ hlt).1 h1
        exact ⟨rfl, c :: l, by simp, by rw [List.flatMap_cons, ← hl, hc]; rfl⟩
      · rintro ⟨rfl, l, rfl, hl⟩
        cases l with
        | nil => simp at hl
        | cons c l =>
          simp only [List.flatMap_cons, Spec.u8, List.cons_append, List.nil_append,
            List.cons.injEq] at hl
          refine ⟨b, s, rfl, c, s, ⟨hl.1, rfl⟩, (ih _ _ hlt).2 ⟨rfl, l, by simp, hl.2⟩⟩

theorem SubAck.read_iff (p : SubAck) :
    (∃ r, SubAck.readM h (hd ++ bd) = (.ok p, r)) ↔
      bd = body (.SubAck p) ∧ p.return_codes ≠ [] := by
  obtain ⟨k, cs⟩ := p
  unfold SubAck.readM body
  mrun [advance_run hd bd _ hh]
  minv
  constructor
  · rintro ⟨r, k', s1, rfl, _, _, ⟨rfl, rfl⟩, h1⟩
    split at h1
    · simp at h1
    rename_i hne
    minv [SubAck.mk.injEq] at h1
    obtain ⟨cs', s3, h1, ⟨rfl, rfl⟩, rfl⟩ := h1
    rw [SubAck.readLoop_iff _ _ _ _ _ (Nat.lt_succ_self _)] at h1
    obtain ⟨rfl, l, rfl, hl⟩ := h1
    refine ⟨by rw [hl], ?_⟩
    rintro rfl
    rw [hl] at hne; simp at hne
  · rintro ⟨rfl, hne⟩
    refine ⟨[], k, _, rfl, _, _, ⟨rfl, rfl⟩, ?_⟩
    rw [if_neg]
    · minv [SubAck.mk.injEq]
      exact ⟨cs, [], (SubAck.readLoop_iff _ _ _ _ _ (Nat.lt_succ_self _)).2 ⟨rfl, cs, by simp, rfl⟩,
        by simp, by simp⟩
    · cases cs with
      | nil => exact absurd rfl hne
      | cons c cs => simp [Spec.u8]

omit hh in
theorem Unsubscribe.readLoop_iff (fuel : Nat) (acc ts : List String) (s r : Bytes)
    (hf : s.length < fuel) :
    Unsubscribe.readLoop fuel s.length acc s = (.ok ts, r) ↔
      r = [] ∧ ∃ l, ts = acc ++ l ∧ (∀ t ∈ l, fits (utf8 t).length) ∧ s = l.flatMap str := by
  induction fuel generalizing s acc with
  | zero => omega
  | succ n ih =>
    rw [Unsubscribe.readLoop]
    by_cases he : s = []
    · subst he
      simp only [List.length_nil, Nat.lt_irrefl, if_false, ok_inj, pure_run, gt_iff_lt]
      constructor
      · rintro ⟨rfl, rfl⟩; exact ⟨rfl, [], by simp, by simp, rfl⟩
      · rintro ⟨rfl, l, rfl, _, h⟩
        cases l with
        | nil => simp
        | cons f l =>
          have := congrArg List.length h
          simp [str_len] at this
          omega
    · have hpos : s.length > 0 := List.length_pos_iff.2 he
      rw [if_pos hpos]
      minv
      constructor
      · rintro ⟨t, s1, ⟨ht, rfl⟩, n', s2, h0, h1⟩
        unfold usub at h0
        rw [if_pos (by simp only [List.length_append, str_len, strLen_eq]; omega)] at h0
        minv at h0
        obtain ⟨rfl, rfl⟩ := h0
        have hlt : s1.length < n := by simp only [List.length_append, str_len] at hf; omega
        have : (str t ++ s1).length - (strLen t + 2) = s1.length := by
          simp only [List.length_append, str_len, strLen_eq]; omega
        rw [this] at h1
        obtain ⟨rfl, l, rfl, hl, hl2⟩ := (ih _ _ hlt).1 h1
        refine ⟨rfl, t :: l, by simp, ?_, by simp [← hl2]⟩
        intro x hx
        rcases List.mem_cons.1 hx with rfl | hx
        · exact ht
        · exact hl x hx
      · rintro ⟨rfl, l, rfl, hl, hl2⟩
        cases l with
        | nil => exact absurd hl2 he
        | cons t l =>
          rw [List.flatMap_cons] at hl2
          subst hl2
          have hlt : (l.flatMap str).length < n := by
            simp only [List.length_append, str_len] at hf; omega
          refine ⟨t, l.flatMap str, ⟨hl t (by simp), rfl⟩, (l.flatMap str).length,
            l.flatMap str, ?_, (ih _ _ hlt).2 ⟨rfl, l, by simp,
              fun x hx => hl x (by simp [hx]), rfl⟩⟩
          unfold usub
          rw [if_pos (by simp only [List.length_append, str_len, strLen_eq]; omega)]
          rw [pure_run, ok_inj]
          refine ⟨?_, rfl⟩
          simp only [List.length_append, str_len, strLen_eq]; omega

theorem Unsubscribe.read_iff (hr : h.remaining_len = bd.length) (p : Unsubscribe) :
    (∃ r, Unsubscribe.readM h (hd ++ bd) = (.ok p, r)) ↔
      bd = body (.Unsubscribe p) ∧ ∀ t ∈ p.topics, fits (utf8 t).length := by
  obtain ⟨k, ts⟩ := p
  unfold Unsubscribe.readM body
  mrun [advance_run hd bd _ hh]
  minv
  have hu : ∀ s1 s : Bytes, h.remaining_len = (Spec.u16 k.toNat ++ s1).length →
      usub h.remaining_len 2 s = (.ok s1.length, s) := by
    intro s1 s h0
    unfold usub
    rw [h0, if_pos (by simp [u16_len]), pure_run]
    simp [u16_len]
  constructor
  · rintro ⟨r, k', s1, rfl, n', s2, h0, _, _, ⟨rfl, rfl⟩, ts', s4, h1, h2⟩
    obtain ⟨h2, rfl⟩ := h2
    obtain ⟨rfl, rfl⟩ := Unsubscribe.mk.inj h2
    rw [hu s1 _ hr] at h0
    obtain ⟨rfl, rfl⟩ := ok_inj.1 h0
    rw [Unsubscribe.readLoop_iff _ _ _ _ _ (Nat.lt_succ_self _)] at h1
    obtain ⟨rfl, l, rfl, hl, rfl⟩ := h1
    exact ⟨rfl, by simpa using hl⟩
  · rintro ⟨rfl, hl⟩
    refine ⟨[], k, _, rfl, _, _, hu _ _ hr, _, _, ⟨rfl, rfl⟩, ts, [], ?_, rfl, rfl⟩
    exact (Unsubscribe.readLoop_iff _ _ _ _ _ (Nat.lt_succ_self _)).2
      ⟨rfl, ts, by simp, hl, rfl⟩

omit hh in
theorem LastWill.read_iff (flags : UInt8) (o : Option LastWill) (s r : Bytes) :
    LastWill.read flags s = (.ok o, r) ↔ ∃ will, s = will ++ r ∧ WillDenotes flags will o := by
  have e4 : ∀ f : UInt8, (f &&& 4 = 0) ↔ ¬ bit f 2 := forall_u8 (by decide +kernel)
  have e38 : ∀ f : UInt8, (f &&& 56 ≠ 0) ↔ ¬ (¬ bit f 3 ∧ ¬ bit f 4 ∧ ¬ bit f 5) :=
    forall_u8 (by decide +kernel)
  have e20 : ∀ f : UInt8, (f &&& 32 ≠ 0) ↔ bit f 5 := forall_u8 (by decide +kernel)
  have eq : ∀ (f : UInt8) (q : QoS), ((f &&& 24) >>> 3 = q.toU8) ↔
      f.toNat / 8 % 4 = Spec.V4.qosNum q := by
    intro f q; revert f; cases q <;> exact forall_u8 (by decide +kernel)
  unfold LastWill.read
  by_cases h4 : flags &&& 4 = 0
  · rw [if_pos h4]
    rw [e4] at h4
    by_cases h38 : flags &&& 56 ≠ 0
    · rw [if_pos h38]
      rw [e38] at h38
      simp only [fail_run, Prod.mk.injEq, reduceCtorEq, false_and, false_iff]
      rintro ⟨will, rfl, hw⟩
      cases o with
      | none => exact h38 ⟨hw.2.1, hw.2.2.1, hw.2.2.2.1⟩
      | some w => exact h4 hw.1
    · rw [if_neg h38]
      rw [e38, Classical.not_not] at h38
      rw [pure_run, ok_inj]
      constructor
      · rintro ⟨rfl, rfl⟩
        exact ⟨[], rfl, h4, h38.1, h38.2.1, h38.2.2, rfl⟩
      · rintro ⟨will, rfl, hw⟩
        cases o with
        | none => obtain ⟨_, _, _, _, rfl⟩ := hw; exact ⟨rfl, rfl⟩
        | some w => exact absurd hw.1 h4
  · rw [if_neg h4]
    rw [e4, Classical.not_not] at h4
    minv [qos_ok_iff, eq, e20]
    constructor
    · rintro ⟨t, s1, ⟨ht, rfl⟩, m, s2, ⟨hm, rfl⟩, q, _, ⟨hq, rfl⟩, rfl, rfl⟩
      exact ⟨str t ++ bin m, by simp, h4, hq, by simp, ht, hm, rfl⟩
    · rintro ⟨will, rfl, hw⟩
      cases o with
      | none => exact absurd h4 hw.1
      | some w =>
        obtain ⟨t, m, q, rt⟩ := w
        obtain ⟨_, hq, hrt, ht, hm, rfl⟩ := hw
        refine ⟨t, bin m ++ r, ⟨ht, by simp⟩, m, r, ⟨hm, rfl⟩, q, r, ⟨hq, rfl⟩, ?_, rfl⟩
        simp only [Option.some.injEq, LastWill.mk.injEq, true_and]
        cases rt <;> simp_all

omit hh in
theorem Login.read_iff (flags : UInt8) (o : Option Login) (s r : Bytes) :
    Login.read flags s = (.ok o, r) ↔ ∃ lg, s = lg ++ r ∧ LoginDenotes flags lg o := by
  have e7 : ∀ f : UInt8, (f &&& 128 = 0) ↔ ¬ bit f 7 := forall_u8 (by decide +kernel)
  have e6 : ∀ f : UInt8, (f &&& 64 = 0) ↔ ¬ bit f 6 := forall_u8 (by decide +kernel)
  unfold Login.read LoginDenotes
  have one : ∀ (b : UInt8) (i : Nat) (hb : (flags &&& b = 0) ↔ ¬ bit flags i) (u : String)
      (s s' : Bytes),
      (if flags &&& b = 0 then pure "" else read_mqtt_string : M String) s = (.ok u, s') ↔
        fits (utf8 u).length ∧ (¬ bit flags i → u = "") ∧
          s = (if bit flags i then str u else []) ++ s' := by
    intro b i hb u s s'
    by_cases hi : bit flags i
    · have : ¬ flags &&& b = 0 := fun h => (hb.1 h) hi
      rw [if_neg this, if_pos hi, read_mqtt_string_iff]
      simp [hi, fits]
    · rw [if_pos (hb.2 hi), if_neg hi, pure_run, ok_inj]
      constructor
      · rintro ⟨rfl, rfl⟩; exact ⟨by decide +kernel, by simp, rfl⟩
      · rintro ⟨_, h1, h2⟩; exact ⟨(h1 hi).symm, h2⟩
  simp only [bind_run, andThen_eq_ok, one 128 7 (e7 flags), one 64 6 (e6 flags)]
  have fin : ∀ (u p : String) (s : Bytes),
      (if (u.isEmpty && p.isEmpty) = true then pure none else pure (some ⟨u, p⟩) : M (Option Login)) s
        = (.ok (if u = "" ∧ p = "" then none else some ⟨u, p⟩), s) := by
    intro u p s
    rw [ite_run, pure_run, pure_run, isEmpty_iff, isEmpty_iff]
    by_cases hu : u = "" <;> by_cases hp : p = "" <;> simp [hu, hp]
  simp only [fin, ok_inj]
  constructor
  · rintro ⟨u, s1, ⟨hu, hu0, rfl⟩, p, s2, ⟨hp, hp0, rfl⟩, rfl, rfl⟩
    exact ⟨_, by simp, u, p, hu, hp, hu0, hp0, rfl, rfl⟩
  · rintro ⟨_, rfl, u, p, hu, hp, hu0, hp0, rfl, rfl⟩
    exact ⟨u, _, ⟨hu, hu0, by rw [List.append_assoc]⟩, p, r, ⟨hp, hp0, rfl⟩, rfl, rfl⟩

theorem Connect.read_iff (c : Connect) :
    (∃ r, Connect.readM h (hd ++ bd) = (.ok c, r)) ↔
      ∃ flags will login junk,
      bd = str "MQTT" ++ Spec.u8 (Spec.V4.level c.protocol) ++ [flags] ++ Spec.u16 c.keep_alive.toNat
        ++ str c.client_id ++ will ++ login ++ junk
      ∧ fits (utf8 c.client_id).length ∧ (c.clean_session = true ↔ bit flags 1)
      ∧ WillDenotes flags will c.last_will ∧ LoginDenotes flags login c.login := by
  have e2 : ∀ f : UInt8, (f &&& 2 ≠ 0) ↔ bit f 1 := forall_u8 (by decide +kernel)
  have hlev : ∀ (n : UInt8) (pr : Protocol) (s s' : Bytes),
      (match n with
        | 4 => pure Protocol.V4
        | 5 => pure Protocol.V5
        | num => M.fail (.InvalidProtocolLevel num) : M Protocol) s = (.ok pr, s') ↔
      n = UInt8.ofNat (Spec.V4.level pr) ∧ s' = s := by
    intro n pr s s'
    split
    · cases pr <;> simp [pure_run, Spec.V4.level, eq_comm]
    · cases pr <;> simp [pure_run, Spec.V4.level, eq_comm]
    · rename_i h4 h5
      cases pr <;> simp only [fail_run, Prod.mk.injEq, reduceCtorEq, false_and, false_iff] <;>
        rintro ⟨rfl, _⟩
      · exact h4 rfl
      · exact h5 rfl
  have hM : fits (utf8 "MQTT").length := by decide +kernel
  obtain ⟨pr, ka, id, cs, w, l⟩ := c
  unfold Connect.readM
  mrun [advance_run hd bd _ hh]
  minv [hlev, LastWill.read_iff, Login.read_iff, e2]
  constructor
  · rintro ⟨r, nm, s1, ⟨hnm, rfl⟩, lv, s2, rfl, h1⟩
    split at h1
    · simp at h1
    rename_i hn
    have hn : nm = "MQTT" := by simpa using hn
    subst hn
    minv [hlev, LastWill.read_iff, Login.read_iff, e2, Connect.mk.injEq] at h1
    obtain ⟨pr', _, hpr, f, s3, h3, ka', s4, rfl, id', s5, ⟨hid, rfl⟩, w', s6,
      ⟨wb, rfl, hw⟩, l', s7, ⟨lb, rfl, hl⟩, ⟨rfl, rfl, rfl, rfl, rfl, rfl⟩, rfl⟩ := h1
    obtain ⟨rfl, rfl⟩ := (hlev _ _ _ _).1 hpr
    subst h3
    refine ⟨f, wb, lb, s7, by simp [Spec.u8], hid, by simp, hw, hl⟩
  · rintro ⟨f, wb, lb, junk, rfl, hid, hcs, hw, hl⟩
    refine ⟨junk, "MQTT", _, ⟨hM, by simp only [List.append_assoc]; rfl⟩, _, _, rfl, ?_⟩
    rw [if_neg (by simp)]
    minv [hlev, LastWill.read_iff, Login.read_iff, e2, Connect.mk.injEq]
    refine ⟨pr, _, (hlev _ _ _ _).2 ⟨rfl, rfl⟩, f, _, rfl, ka, _, rfl, id, _, ⟨hid, rfl⟩, w, _, ⟨wb, rfl, hw⟩, l, _,
      ⟨lb, rfl, hl⟩, ⟨rfl, rfl, rfl, ?_, rfl, rfl⟩, rfl⟩
    cases cs <;> simp_all

omit hh in
theorem publish_type (p : Publish) : byte1 (.Publish p) / 16 = 3 := by
  obtain ⟨d, q, r, _, _, _⟩ := p
  cases d <;> cases q <;> cases r <;> simp [byte1, flag, Spec.V4.qosNum]

omit hh in
/-- the type announced by a frame that denotes a packet -/
theorem denotes_type {b1 : UInt8} {bd : Bytes} {p : Packet} (hp : Denotes b1 bd p) :
    typeNum b1 = byte1 p / 16 := by
  cases p
  case Publish p =>
    obtain ⟨rfl, -⟩ := hp
    obtain ⟨d, q, r, _, _, _⟩ := p
    simp only [byte1]
    cases d <;> cases q <;> cases r <;> rfl
  case PingReq => exact hp
  case PingResp => exact hp
  case Disconnect => exact hp
  all_goals (have := hp.1; simp only [byte1]; omega)

/-- `readFrame` returns a packet exactly when the frame denotes it -/
theorem readFrame_iff (hr : h.remaining_len = bd.length) (p : Packet) :
    readFrame h (hd ++ bd) = .ok p ↔ Denotes h.byte1 bd p := by
  rcases packet_type_cases h with ⟨t, ht⟩ | ⟨hb, ht⟩
  · unfold readFrame
    rw [ht]
    have ht' := (packet_type_ok_iff _ _).1 ht
    simp only
    by_cases h0 : h.remaining_len = 0
    · rw [if_pos h0]
      have hbd : bd = [] := List.eq_nil_of_length_eq_zero (by omega)
      subst hbd
      constructor
      · intro h1
        cases t <;> simp only [Res.ok.injEq, reduceCtorEq] at h1 <;> subst h1 <;> exact ht'
      · intro hp
        have h1 := denotes_type hp
        unfold typeNum at h1
        rw [ht'] at h1
        cases p
        case PingReq => cases t <;> first | rfl | (exfalso; simp [byte1, PacketType.toU8] at h1)
        case PingResp => cases t <;> first | rfl | (exfalso; simp [byte1, PacketType.toU8] at h1)
        case Disconnect => cases t <;> first | rfl | (exfalso; simp [byte1, PacketType.toU8] at h1)
        all_goals
          exfalso
          simp only [Denotes, body] at hp
        case Connect => obtain ⟨_, _, _, _, _, h2, _⟩ := hp; simp [Spec.u8] at h2
        case ConnAck => obtain ⟨_, _, _, h2, _⟩ := hp; simp at h2
        case Publish => obtain ⟨_, h2, _⟩ := hp; simp [Spec.str, Spec.bin, Spec.u16] at h2
        case PubAck => obtain ⟨_, _, h2⟩ := hp; simp [Spec.u16] at h2
        case PubRec => obtain ⟨_, _, h2⟩ := hp; simp [Spec.u16] at h2
        case PubRel => obtain ⟨_, _, h2⟩ := hp; simp [Spec.u16] at h2
        case PubComp => obtain ⟨_, _, h2⟩ := hp; simp [Spec.u16] at h2
        case Subscribe => obtain ⟨_, _, h2, _⟩ := hp; simp [Spec.u16] at h2
        case SubAck => obtain ⟨_, h2, _⟩ := hp; simp [Spec.u16] at h2
        case Unsubscribe => obtain ⟨_, h2, _⟩ := hp; simp [Spec.u16] at h2
        case UnsubAck => obtain ⟨_, h2⟩ := hp; simp [Spec.u16] at h2
    · rw [if_neg h0]
      constructor
      · intro h1
        cases t <;> simp only [onFrame_ok_iff, Res.ok.injEq] at h1
        case Connect =>
          obtain ⟨c, r, h1, rfl⟩ := h1
          exact ⟨ht', (Connect.read_iff h hd bd hh c).1 ⟨r, h1⟩⟩
        case ConnAck =>
          obtain ⟨c, r, h1, rfl⟩ := h1
          exact ⟨ht', (ConnAck.read_iff h hd bd hh c).1 ⟨r, h1⟩⟩
        case Publish =>
          obtain ⟨c, r, h1, rfl⟩ := h1
          exact (Publish.read_iff h hd bd hh ht' c).1 ⟨r, h1⟩
        case PubAck =>
          obtain ⟨c, r, h1, rfl⟩ := h1
          exact ⟨ht', (PubAck.read_iff h hd bd hh c).1 ⟨r, h1⟩⟩
        case PubRec =>
          obtain ⟨c, r, h1, rfl⟩ := h1
          exact ⟨ht', (PubRec.read_iff h hd bd hh c).1 ⟨r, h1⟩⟩
        case PubRel =>
          obtain ⟨c, r, h1, rfl⟩ := h1
          exact ⟨ht', (PubRel.read_iff h hd bd hh c).1 ⟨r, h1⟩⟩
        case PubComp =>
          obtain ⟨c, r, h1, rfl⟩ := h1
          exact ⟨ht', (PubComp.read_iff h hd bd hh c).1 ⟨r, h1⟩⟩
        case Subscribe =>
          obtain ⟨c, r, h1, rfl⟩ := h1
          exact ⟨ht', (Subscribe.read_iff h hd bd hh c).1 ⟨r, h1⟩⟩
        case SubAck =>
          obtain ⟨c, r, h1, rfl⟩ := h1
          exact ⟨ht', (SubAck.read_iff h hd bd hh c).1 ⟨r, h1⟩⟩
        case Unsubscribe =>
          obtain ⟨c, r, h1, rfl⟩ := h1
          exact ⟨ht', (Unsubscribe.read_iff h hd bd hh hr c).1 ⟨r, h1⟩⟩
        case UnsubAck =>
          obtain ⟨c, r, h1, rfl⟩ := h1
          exact ⟨ht', (UnsubAck.read_iff h hd bd hh hr c).1 ⟨r, h1⟩⟩
        all_goals subst h1; exact ht'
      · intro hp
        have h1 := denotes_type hp
        unfold typeNum at h1
        cases p
        case Publish p =>
          have h1 : h.byte1.toNat / 16 = 3 := by
            rw [h1, publish_type]
          rw [ht'] at h1
          cases t <;> first | (exfalso; simp [byte1, PacketType.toU8] at h1; done) | skip
          simp only [onFrame_ok_iff]
          obtain ⟨r, h2⟩ := (Publish.read_iff h hd bd hh ht' p).2 hp
          exact ⟨p, r, h2, rfl⟩
        all_goals
          rw [ht'] at h1
          cases t <;> first | (exfalso; simp [byte1, PacketType.toU8] at h1; done) | skip
          try simp only [onFrame_ok_iff]
        case Connect.Connect c =>
          obtain ⟨r, h2⟩ := (Connect.read_iff h hd bd hh c).2 hp.2
          exact ⟨c, r, h2, rfl⟩
        case ConnAck.ConnAck c =>
          obtain ⟨r, h2⟩ := (ConnAck.read_iff h hd bd hh c).2 hp.2
          exact ⟨c, r, h2, rfl⟩
        case PubAck.PubAck c =>
          obtain ⟨r, h2⟩ := (PubAck.read_iff h hd bd hh c).2 hp.2
          exact ⟨c, r, h2, rfl⟩
        case PubRec.PubRec c =>
          obtain ⟨r, h2⟩ := (PubRec.read_iff h hd bd hh c).2 hp.2
          exact ⟨c, r, h2, rfl⟩
        case PubRel.PubRel c =>
          obtain ⟨r, h2⟩ := (PubRel.read_iff h hd bd hh c).2 hp.2
          exact ⟨c, r, h2, rfl⟩
        case PubComp.PubComp c =>
          obtain ⟨r, h2⟩ := (PubComp.read_iff h hd bd hh c).2 hp.2
          exact ⟨c, r, h2, rfl⟩
        case Subscribe.Subscribe c =>
          obtain ⟨r, h2⟩ := (Subscribe.read_iff h hd bd hh c).2 hp.2
          exact ⟨c, r, h2, rfl⟩
        case SubAck.SubAck c =>
          obtain ⟨r, h2⟩ := (SubAck.read_iff h hd bd hh c).2 hp.2
          exact ⟨c, r, h2, rfl⟩
        case Unsubscribe.Unsubscribe c =>
          obtain ⟨r, h2⟩ := (Unsubscribe.read_iff h hd bd hh hr c).2 hp.2
          exact ⟨c, r, h2, rfl⟩
        case UnsubAck.UnsubAck c =>
          obtain ⟨r, h2⟩ := (UnsubAck.read_iff h hd bd hh hr c).2 hp.2
          exact ⟨c, r, h2, rfl⟩
  · unfold readFrame
    rw [ht]
    simp only [reduceCtorEq, false_iff]
    intro hp
    have h1 := denotes_type hp
    unfold typeNum at h1
    have : byte1 p / 16 ≠ 0 ∧ byte1 p / 16 ≠ 15 := by
      cases p
      case Publish p =>
        rw [publish_type]; decide
      all_goals simp [byte1]
    omega

omit hh in
/-- **exact acceptance** of `v4::read` -/
theorem read_ok_iff (max : Nat) (s s' : Bytes) (p : Packet) :
    V4.read max s = (.ok p, s') ↔
      ∃ b1 bs bd, s = b1 :: (bs ++ (bd ++ s')) ∧ IsVbi bs ∧ vbiValue bs = bd.length ∧
        bd.length ≤ max ∧ Denotes b1 bd p := by
  rw [v4_read_eq]
  constructor
  · intro h1
    rcases check_total s max with ⟨h, hc⟩ | ⟨e, hc⟩
    · have hc' := hc
      obtain ⟨b1, bs, rest, rfl, hv, hm, hr, rfl⟩ := (check_ok_iff _ _ _).1 hc
      rw [readG_ok _ _ hc] at h1
      have e : b1 :: (bs ++ rest) = (b1 :: bs) ++ rest.take (vbiValue bs) ++ rest.drop (vbiValue bs) := by
        simp
      have hl : ((b1 :: bs) ++ rest.take (vbiValue bs)).length = bs.length + 1 + vbiValue bs := by
        simp; omega
      simp only [FixedHeader.frame_length, Prod.mk.injEq] at h1
      rw [e, List.take_left' hl, List.drop_left' hl] at h1
      obtain ⟨h1, rfl⟩ := h1
      rw [readFrame_iff _ _ _ (by simp) (by simp; omega)] at h1
      refine ⟨b1, bs, rest.take (vbiValue bs), by simp, hv, by simp; omega, by simp; omega, h1⟩
    · rw [readG_err _ _ hc] at h1; simp at h1
  · rintro ⟨b1, bs, bd, rfl, hv, hb, hm, hp⟩
    have hc := check_frame b1 bs (bd ++ s') max hv (by omega) (by simp; omega)
    rw [readG_ok _ _ hc]
    have e : b1 :: (bs ++ (bd ++ s')) = ((b1 :: bs) ++ bd) ++ s' := by simp
    have hl : ((b1 :: bs) ++ bd).length = bs.length + 1 + vbiValue bs := by simp; omega
    simp only [FixedHeader.frame_length, Prod.mk.injEq]
    rw [e, List.take_left' hl, List.drop_left' hl]
    exact ⟨(readFrame_iff _ _ _ (by simp) (by simp; omega) p).2 hp, rfl⟩

end Mqtt.V4
