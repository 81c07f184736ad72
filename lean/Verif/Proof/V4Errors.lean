import Verif.Proof.Errors
import Verif.Proof.V4Read
/-! `v4::read` returns an error exactly when the frame is rejected for that reason. -/
set_option linter.unusedSimpArgs false
namespace Mqtt.V4
open Spec
open Spec.V4 (body byte1 encode FieldsFit Meaningful WF Denotes bit typeNum WillDenotes LoginDenotes
  FiltersDenote WillFails LoginFails ConnectFails ConnAckFails PublishFails SubscribeFails
  SubAckFails UnsubscribeFails Rejects)

theorem qos_field_err (num : UInt8) (k : Nat) (e : Error) (hk : k < 4) (hn : num.toNat = k) :
    Mqtt.qos num = .err e ↔ k = 3 ∧ e = .InvalidQoS 3 := by
  rw [qos_err]
  have : (∀ q : QoS, num ≠ q.toU8) ↔ k = 3 := by
    constructor
    · intro h
      have h0 := h .AtMostOnce; have h1 := h .AtLeastOnce; have h2 := h .ExactlyOnce
      simp only [QoS.toU8, ne_eq, ← UInt8.toNat_inj] at h0 h1 h2
      simp at h0 h1 h2
      omega
    · intro h q hq
      have := congrArg UInt8.toNat hq
      rw [hn] at this
      cases q <;> simp [QoS.toU8] at this <;> omega
  rw [this]
  constructor
  · rintro ⟨rfl, rfl⟩
    have : num = 3 := by rw [← UInt8.toNat_inj, hn]; rfl
    exact ⟨rfl, by rw [this]⟩
  · rintro ⟨rfl, rfl⟩
    have : num = 3 := by rw [← UInt8.toNat_inj, hn]; rfl
    exact ⟨rfl, by rw [this]⟩

theorem connect_return_err (n : UInt8) (e : Error) :
    connect_return n = .err e ↔
      (∀ c, n.toNat ≠ Spec.V4.returnCode c) ∧ e = .InvalidConnectReturnCode n := by
  have key : (∃ c, connect_return n = .ok c) ∨ connect_return n = .err (.InvalidConnectReturnCode n) := by
    unfold connect_return; split <;> simp
  have hlt : ∀ c, Spec.V4.returnCode c < 256 := by intro c; cases c <;> decide
  have hc : ∀ c, n.toNat = Spec.V4.returnCode c ↔ connect_return n = .ok c := by
    intro c; rw [connect_return_ok_iff, ← UInt8.toNat_inj, UInt8.toNat_ofNat',
      Nat.mod_eq_of_lt (hlt c)]
  simp only [ne_eq, hc]
  rcases key with ⟨c, h⟩ | h
  · simp only [h, reduceCtorEq, false_iff, not_and]
    intro h'; exact absurd rfl (h' c)
  · simp [h, eq_comm]

theorem subCode_err (n : UInt8) (e : Error) :
    SubscribeReasonCode.try_from n = .err e ↔
      (∀ c, n.toNat ≠ Spec.V4.subCode c) ∧ e = .InvalidSubscribeReasonCode n := by
  have key : (∃ c, SubscribeReasonCode.try_from n = .ok c) ∨
      SubscribeReasonCode.try_from n = .err (.InvalidSubscribeReasonCode n) := by
    unfold SubscribeReasonCode.try_from; split <;> simp
  have hlt : ∀ c, Spec.V4.subCode c < 256 := by
    intro c; rcases c with ⟨q⟩ | _
    · cases q <;> decide
    · decide
  have hc : ∀ c, n.toNat = Spec.V4.subCode c ↔ SubscribeReasonCode.try_from n = .ok c := by
    intro c; rw [subCode_ok_iff, ← UInt8.toNat_inj, UInt8.toNat_ofNat',
      Nat.mod_eq_of_lt (hlt c)]
  simp only [ne_eq, hc]
  rcases key with ⟨c, h⟩ | h
  · simp only [h, reduceCtorEq, false_iff, not_and]
    intro h'; exact absurd rfl (h' c)
  · simp [h, eq_comm]

theorem advance_err (n : Nat) (s : Bytes) (e : Error) : (advance n s).1 = .err e ↔ False := by
  unfold advance; split <;> simp

variable (h : FixedHeader) (hd bd : Bytes) (hh : hd.length = h.fixed_header_len) (e : Error)
include hh

theorem PubAck.read_err : (PubAck.readM h (hd ++ bd)).1 = .err e ↔ U16Fails bd e := by
  unfold PubAck.readM
  mrun [advance_run hd bd _ hh]
  rw [andThen_eq_err, read_u16_err]
  simp [pure_run]

theorem PubRec.read_err : (PubRec.readM h (hd ++ bd)).1 = .err e ↔ U16Fails bd e := by
  unfold PubRec.readM
  mrun [advance_run hd bd _ hh]
  rw [andThen_eq_err, read_u16_err]
  simp [pure_run]

theorem PubRel.read_err : (PubRel.readM h (hd ++ bd)).1 = .err e ↔ U16Fails bd e := by
  unfold PubRel.readM
  mrun [advance_run hd bd _ hh]
  rw [andThen_eq_err, read_u16_err]
  simp [pure_run]

theorem PubComp.read_err : (PubComp.readM h (hd ++ bd)).1 = .err e ↔ U16Fails bd e := by
  unfold PubComp.readM
  mrun [advance_run hd bd _ hh]
  rw [andThen_eq_err, read_u16_err]
  simp [pure_run]

theorem UnsubAck.read_err (hr : h.remaining_len = bd.length) :
    (UnsubAck.readM h (hd ++ bd)).1 = .err e ↔ bd.length ≠ 2 ∧ e = .PayloadSizeIncorrect := by
  unfold UnsubAck.readM
  mrun [advance_run hd bd _ hh]
  rw [hr]
  by_cases h2 : bd.length = 2
  · simp only [h2, ne_eq, not_true, if_false, false_and, iff_false]
    rw [andThen_eq_err, read_u16_err]
    unfold U16Fails
    simp [pure_run, h2]
  · simp [h2, eq_comm]

theorem ConnAck.read_err : (ConnAck.readM h (hd ++ bd)).1 = .err e ↔ ConnAckFails bd e := by
  unfold ConnAck.readM
  rw [bind_err, advance_err, advance_run hd bd _ hh]
  merr [connect_return_err]
  constructor
  · rintro ⟨_, _, ⟨-, rfl⟩, h | ⟨f, t, rfl, h | ⟨c, t, rfl, h, rfl⟩⟩⟩
    · exact .flags h
    · exact .code h
    · exact .badCode h
  · intro hx
    refine ⟨(), _, ⟨trivial, rfl⟩, ?_⟩
    cases hx with
    | flags h => exact .inl h
    | code h => exact .inr ⟨_, _, rfl, .inl h⟩
    | badCode h => exact .inr ⟨_, _, rfl, .inr ⟨_, _, rfl, h, rfl⟩⟩

theorem Publish.read_err :
    (Publish.readM h (hd ++ bd)).1 = .err e ↔ PublishFails h.byte1 bd e := by
  have hq : ∀ b : UInt8, ((b &&& 6) >>> 1).toNat = b.toNat / 2 % 4 := forall_u8 (by decide +kernel)
  unfold Publish.readM
  rw [bind_err, lift_err, qos_field_err _ _ e (Nat.mod_lt _ (by decide)) (hq h.byte1)]
  simp only [bind_err, advance_err, lift_run, Prod.mk.injEq, qos_ok_iff, false_or, read_mqtt_string_err,
    read_mqtt_string_iff]
  constructor
  · rintro (⟨h3, rfl⟩ | ⟨q, _, ⟨h1, rfl⟩, _, _, h2, h3 | ⟨v, t, ⟨hv, rfl⟩, h4 | ⟨k, t', hk, h4⟩⟩⟩)
    · exact .qos h3
    · rw [advance_run hd bd _ hh, ok_inj] at h2
      obtain ⟨-, rfl⟩ := h2
      refine .topic ?_ h3
      rw [← hq, h1]; cases q <;> decide
    · rw [advance_run hd bd _ hh, ok_inj] at h2
      obtain ⟨-, rfl⟩ := h2
      rw [← UInt8.toNat_inj, hq] at h1
      cases q with
      | AtMostOnce => simp [pure_run] at h4
      | AtLeastOnce => exact .pkid (.inl h1) hv ((read_u16_err _ _).1 h4)
      | ExactlyOnce => exact .pkid (.inr h1) hv ((read_u16_err _ _).1 h4)
    · rw [advance_run hd bd _ hh, ok_inj] at h2
      obtain ⟨-, rfl⟩ := h2
      rw [← UInt8.toNat_inj, hq] at h1
      split at h4
      · rename_i h5
        obtain ⟨hq0, rfl⟩ := h5
        rw [fail_err] at h4
        subst h4
        cases q with
        | AtMostOnce => simp at hq0
        | AtLeastOnce =>
          rw [read_u16_iff] at hk; subst hk
          rw [← List.append_assoc]
          exact .pkidZero (.inl h1) hv
        | ExactlyOnce =>
          rw [read_u16_iff] at hk; subst hk
          rw [← List.append_assoc]
          exact .pkidZero (.inr h1) hv
      · simp [bind_run, look_run, andThen_ok, pure_run] at h4
  · intro hx
    cases hx with
    | qos h => exact .inl ⟨h, rfl⟩
    | topic h3 hx =>
      right
      have : ∃ q : QoS, (h.byte1 &&& 6) >>> 1 = q.toU8 := by
        have h1 := hq h.byte1
        have h5 : h.byte1.toNat / 2 % 4 = 0 ∨ h.byte1.toNat / 2 % 4 = 1 ∨
          h.byte1.toNat / 2 % 4 = 2 := by omega
        rcases h5 with h5 | h5 | h5 <;> rw [h5] at h1
        · exact ⟨.AtMostOnce, UInt8.toNat.inj h1⟩
        · exact ⟨.AtLeastOnce, UInt8.toNat.inj h1⟩
        · exact ⟨.ExactlyOnce, UInt8.toNat.inj h1⟩
      obtain ⟨q, hq'⟩ := this
      exact ⟨q, _, ⟨hq', rfl⟩, _, _, advance_run hd bd _ hh, .inl hx⟩
    | pkid hq' hv hx =>
      right
      rcases hq' with hq' | hq' <;> rw [← hq] at hq'
      · exact ⟨.AtLeastOnce, _, ⟨UInt8.toNat.inj hq', rfl⟩, _, _, advance_run hd _ _ hh,
          .inr ⟨_, _, ⟨hv, rfl⟩, .inl ((read_u16_err _ _).2 hx)⟩⟩
      · exact ⟨.ExactlyOnce, _, ⟨UInt8.toNat.inj hq', rfl⟩, _, _, advance_run hd _ _ hh,
          .inr ⟨_, _, ⟨hv, rfl⟩, .inl ((read_u16_err _ _).2 hx)⟩⟩
    | pkidZero hq' hv =>
      right
      rename_i v t
      rcases hq' with hq' | hq' <;> rw [← hq] at hq'
      · refine ⟨.AtLeastOnce, _, ⟨UInt8.toNat.inj hq', rfl⟩, _, _, advance_run hd _ _ hh,
          .inr ⟨_, _, ⟨hv, List.append_assoc _ _ _⟩, .inr ⟨0, t, ?_, ?_⟩⟩⟩
        · exact (read_u16_iff _ _ _).2 rfl
        · simp [fail_run]
      · refine ⟨.ExactlyOnce, _, ⟨UInt8.toNat.inj hq', rfl⟩, _, _, advance_run hd _ _ hh,
          .inr ⟨_, _, ⟨hv, List.append_assoc _ _ _⟩, .inr ⟨0, t, ?_, ?_⟩⟩⟩
        · exact (read_u16_iff _ _ _).2 rfl
        · simp [fail_run]

omit hh in
theorem option_qos_err (o : UInt8) :
    Mqtt.qos (o &&& 3) = .err e ↔ o.toNat % 4 = 3 ∧ e = .InvalidQoS 3 := by
  have hq : ∀ b : UInt8, (b &&& 3).toNat = b.toNat % 4 := forall_u8 (by decide +kernel)
  exact qos_field_err _ _ e (Nat.mod_lt _ (by decide)) (hq o)

/-- how a list of subscription filters can fail -/
inductive FilterFails : Bytes → Error → Prop where
  | path {good fs t e} : FiltersDenote good fs → t ≠ [] → StrFails t e → FilterFails (good ++ t) e
  | options {good fs v t e} : FiltersDenote good fs → fits (utf8 v).length → U8Fails t e →
      FilterFails (good ++ (str v ++ t)) e
  | qos {good fs v o t} : FiltersDenote good fs → fits (utf8 v).length → o.toNat % 4 = 3 →
      FilterFails (good ++ (str v ++ (o :: t))) (.InvalidQoS 3)

omit hh in
theorem filterFails_cons {p : String} {q : QoS} {o : UInt8} {s : Bytes}
    (hp : fits (utf8 p).length) (ho : o.toNat % 4 = Spec.V4.qosNum q) (hx : FilterFails s e) :
    FilterFails (str p ++ (o :: s)) e := by
  have key : ∀ {good fs}, FiltersDenote good fs →
      FiltersDenote (str p ++ [o] ++ good) (⟨p, q⟩ :: fs) := fun hg => .cons p q o _ _ hp ho hg
  cases hx with
  | path hg hne ht => simpa using FilterFails.path (key hg) hne ht
  | options hg hv ht => simpa using FilterFails.options (key hg) hv ht
  | qos hg hv ht => simpa using FilterFails.qos (key hg) hv ht

omit hh in
theorem str_ne_nil (v : String) (t : Bytes) : str v ++ t ≠ [] := by
  intro h0; have := congrArg List.length h0; simp [str_len] at this

omit hh in
theorem StrFails.not_str {v : String} {t : Bytes} {e : Error} (hv : fits (utf8 v).length) :
    ¬ StrFails (str v ++ t) e := by
  intro h0
  rw [← read_mqtt_string_err, read_mqtt_string_run v t hv] at h0
  simp at h0

omit hh in
theorem str_append_inj {v w : String} {s t : Bytes} (hv : fits (utf8 v).length)
    (hw : fits (utf8 w).length) (h0 : str v ++ s = str w ++ t) : v = w ∧ s = t := by
  have h1 := read_mqtt_string_run v s hv
  rw [h0, read_mqtt_string_run w t hw] at h1
  simp only [Prod.mk.injEq, Res.ok.injEq] at h1
  exact ⟨h1.1.symm, h1.2.symm⟩

omit hh in
theorem Subscribe.readLoop_err (fuel : Nat) (acc : List SubscribeFilter) (s : Bytes)
    (hf : s.length < fuel) :
    (Subscribe.readLoop fuel acc s).1 = .err e ↔ FilterFails s e := by
  have hq : ∀ (o : UInt8) (q : QoS), (o &&& 3 = q.toU8) ↔ o.toNat % 4 = Spec.V4.qosNum q := by
    intro o q; revert o; cases q <;> exact forall_u8 (by decide +kernel)
  induction fuel generalizing s acc with
  | zero => omega
  | succ n ih =>
    rw [Subscribe.readLoop]
    by_cases he : s = []
    · subst he
      mrun
      simp only [List.isEmpty_nil, if_true, reduceCtorEq, false_iff]
      intro hx
      generalize hb : ([] : Bytes) = b at hx
      cases hx with
      | path hg hne ht => simp at hb; exact hne hb.2
      | options hg hv ht => exact str_ne_nil _ _ (List.append_eq_nil_iff.1 hb.symm).2
      | qos hg hv ht => exact str_ne_nil _ _ (List.append_eq_nil_iff.1 hb.symm).2
    · have hnemp : s.isEmpty = false := by simpa using he
      rw [bind_run, look_run, andThen_ok]
      simp only [hnemp, Bool.false_eq_true, if_false]
      merr [option_qos_err, qos_ok_iff, hq]
      constructor
      · rintro (hx | ⟨p, s1, ⟨hp, rfl⟩, hx | ⟨o, s2, rfl, ⟨ho, rfl⟩ | ⟨q, _, ⟨ho, rfl⟩, h1⟩⟩⟩)
        · exact FilterFails.path .nil he hx
        · exact FilterFails.options .nil hp hx
        · exact FilterFails.qos .nil hp ho
        · have hlt : s2.length < n := by
            simp only [List.length_append, List.length_cons, str_len] at hf; omega
          exact filterFails_cons e hp ho ((ih _ _ hlt).1 h1)
      · intro hx
        have step : ∀ {good fs}, FiltersDenote good fs → ∀ r, s = good ++ r → r ≠ [] →
            (∃ f fs', fs = f :: fs' ∧ ∃ o good', fits (utf8 f.path).length ∧
              o.toNat % 4 = Spec.V4.qosNum f.qos ∧ good = str f.path ++ [o] ++ good' ∧
              FiltersDenote good' fs') ∨ (fs = [] ∧ good = []) := by
          intro good fs hg r _ _
          cases hg with
          | nil => exact .inr ⟨rfl, rfl⟩
          | cons p q o s2 l hp ho hl => exact .inl ⟨_, _, rfl, o, s2, hp, ho, rfl, hl⟩
        cases hx with
        | path hg htn ht =>
          rcases step hg _ rfl htn with ⟨f, fs', rfl, o, g', hp, ho, rfl, hl⟩ | ⟨rfl, rfl⟩
          · refine .inr ⟨f.path, _, ⟨hp, by simp only [List.append_assoc]; rfl⟩, .inr ⟨o, _, rfl, .inr
              ⟨f.qos, _, ⟨ho, rfl⟩, (ih _ _ ?_).2 (.path hl htn ht)⟩⟩⟩
            simp only [List.length_append, List.length_cons, str_len] at hf ⊢; omega
          · exact .inl ht
        | options hg hv ht =>
          rcases step hg _ rfl (str_ne_nil _ _) with ⟨f, fs', rfl, o, g', hp, ho, rfl, hl⟩ | ⟨rfl, rfl⟩
          · refine .inr ⟨f.path, _, ⟨hp, by simp only [List.append_assoc]; rfl⟩, .inr ⟨o, _, rfl, .inr
              ⟨f.qos, _, ⟨ho, rfl⟩, (ih _ _ ?_).2 (.options hl hv ht)⟩⟩⟩
            simp only [List.length_append, List.length_cons, str_len] at hf ⊢; omega
          · exact .inr ⟨_, _, ⟨hv, rfl⟩, .inl ht⟩
        | qos hg hv ht =>
          rcases step hg _ rfl (str_ne_nil _ _) with ⟨f, fs', rfl, o, g', hp, ho, rfl, hl⟩ | ⟨rfl, rfl⟩
          · refine .inr ⟨f.path, _, ⟨hp, by simp only [List.append_assoc]; rfl⟩, .inr ⟨o, _, rfl, .inr
              ⟨f.qos, _, ⟨ho, rfl⟩, (ih _ _ ?_).2 (.qos hl hv ht)⟩⟩⟩
            simp only [List.length_append, List.length_cons, str_len] at hf ⊢; omega
          · exact .inr ⟨_, _, ⟨hv, rfl⟩, .inr ⟨_, _, rfl, .inl ⟨ht, rfl⟩⟩⟩

omit hh in
theorem u16_of_lt {k : Nat} (hk : k < 65536) : Spec.u16 k = Spec.u16 (UInt16.ofNat k).toNat := by
  rw [u16_toUInt16 hk]

theorem Subscribe.read_err : (Subscribe.readM h (hd ++ bd)).1 = .err e ↔ SubscribeFails bd e := by
  unfold Subscribe.readM
  rw [bind_err, advance_err, advance_run hd bd _ hh]
  merr
  have hl : ∀ s : Bytes, (Subscribe.readLoop (s.length + 1) [] s).1 = .err e ↔ FilterFails s e :=
    fun s => Subscribe.readLoop_err e _ _ s (Nat.lt_succ_self _)
  constructor
  · rintro ⟨_, _, ⟨-, rfl⟩, hx | ⟨k, t, rfl, _, _, ⟨rfl, rfl⟩, hx | ⟨fs, r, hr, hx⟩⟩⟩
    · exact .pkid hx
    · have hk := k.toNat_lt
      rw [hl] at hx
      cases hx with
      | path hg hne ht => rw [← List.append_assoc]; exact .path hk hg hne ht
      | options hg hv ht =>
        rw [← List.append_assoc, ← List.append_assoc]; exact .options hk hg hv ht
      | qos hg hv ht =>
        rename_i good fs v o t
        have := SubscribeFails.qos (t := t) hk hg hv ht
        simpa using this
    · rw [Subscribe.readLoop_iff _ _ _ _ _ (Nat.lt_succ_self _)] at hr
      obtain ⟨rfl, l, rfl, hd⟩ := hr
      cases fs with
      | nil =>
        cases hd
        have hx : e = .EmptySubscription := by simpa [fail_run, eq_comm] using hx
        subst hx
        rw [List.append_nil]
        exact .none k.toNat_lt
      | cons f fs => simp [pure_run] at hx
  · intro hx
    refine ⟨(), bd, ⟨trivial, rfl⟩, ?_⟩
    cases hx with
    | pkid hx => exact .inl hx
    | none hk =>
      right
      refine ⟨_, [], by rw [u16_of_lt hk, List.append_nil], _, _, ⟨rfl, rfl⟩, .inr ⟨[], [], rfl, rfl⟩⟩
    | path hk hg hne ht =>
      right
      refine ⟨_, _, by rw [u16_of_lt hk, List.append_assoc], _, _, ⟨rfl, rfl⟩, .inl ((hl _).2 ?_)⟩
      exact .path hg hne ht
    | options hk hg hv ht =>
      right
      refine ⟨_, _, by rw [u16_of_lt hk, List.append_assoc, List.append_assoc], _, _, ⟨rfl, rfl⟩,
        .inl ((hl _).2 ?_)⟩
      exact .options hg hv ht
    | qos hk hg hv ht =>
      right
      refine ⟨_, _, by rw [u16_of_lt hk, List.append_assoc, List.append_assoc, List.append_assoc],
        _, _, ⟨rfl, rfl⟩, .inl ((hl _).2 ?_)⟩
      exact .qos hg hv ht

omit hh in
theorem SubAck.readLoop_err (fuel : Nat) (acc : List SubscribeReasonCode) (s : Bytes)
    (hf : s.length < fuel) :
    (SubAck.readLoop fuel acc s).1 = .err e ↔
      ∃ cs c t, s = List.flatMap (fun r => Spec.u8 (Spec.V4.subCode r)) cs ++ (c :: t) ∧
        (∀ r, c.toNat ≠ Spec.V4.subCode r) ∧ e = .InvalidSubscribeReasonCode c := by
  induction fuel generalizing s acc with
  | zero => omega
  | succ n ih =>
    rw [SubAck.readLoop]
    cases s with
    | nil =>
      mrun
      simp only [List.isEmpty_nil, if_true, reduceCtorEq, false_iff]
      rintro ⟨cs, c, t, hx, _⟩
      simp at hx
    | cons b s =>
      rw [bind_run, look_run, andThen_ok]
      simp only [List.isEmpty_cons, Bool.false_eq_true, if_false]
      merr [subCode_err, subCode_ok_iff]
      have hlt : s.length < n := by simp only [List.length_cons] at hf; omega
      have hu : ¬ U8Fails (b :: s) e := fun h0 => by simp [U8Fails] at h0
      constructor
      · rintro (hx | ⟨_, _, h0, ⟨hx, rfl⟩ | ⟨c, _, ⟨hc, rfl⟩, h1⟩⟩)
        · exact absurd hx hu
        · obtain ⟨rfl, rfl⟩ := List.cons.inj h0
          exact ⟨[], b, s, rfl, hx, rfl⟩
        · obtain ⟨rfl, rfl⟩ := List.cons.inj h0
          obtain ⟨cs, c', t, rfl, h2, rfl⟩ := (ih _ _ hlt).1 h1
          exact ⟨c :: cs, c', t, by simp [hc, Spec.u8], h2, rfl⟩
      · rintro ⟨cs, c, t, h0, h1, rfl⟩
        right
        refine ⟨b, s, rfl, ?_⟩
        cases cs with
        | nil =>
          obtain ⟨rfl, rfl⟩ := List.cons.inj h0
          exact .inl ⟨h1, rfl⟩
        | cons c' cs =>
          simp only [List.flatMap_cons, Spec.u8, List.cons_append, List.nil_append,
            List.cons.injEq] at h0
          exact .inr ⟨c', s, ⟨h0.1, rfl⟩, (ih _ _ hlt).2 ⟨cs, c, t, h0.2, h1, rfl⟩⟩

theorem SubAck.read_err : (SubAck.readM h (hd ++ bd)).1 = .err e ↔ SubAckFails bd e := by
  unfold SubAck.readM
  rw [bind_err, advance_err, advance_run hd bd _ hh]
  simp only [bind_err, look_err, false_or, look_run, ok_inj, read_u16_err, read_u16_iff, reduceCtorEq]
  constructor
  · rintro ⟨_, _, ⟨-, rfl⟩, hx | ⟨k, t, rfl, _, _, ⟨rfl, rfl⟩, hx⟩⟩
    · exact .pkid hx
    · split at hx
      · rename_i h0
        have : t = [] := by simpa using h0
        subst this
        rw [fail_err] at hx; subst hx
        rw [List.append_nil]
        exact .none k.toNat_lt
      · merr at hx
        obtain ⟨cs, c, t, rfl, h1, rfl⟩ := (SubAck.readLoop_err e _ _ _ (Nat.lt_succ_self _)).1 hx
        have := SubAckFails.badCode (cs := cs) (t := t) k.toNat_lt h1
        simpa using this
  · intro hx
    refine ⟨(), bd, ⟨trivial, rfl⟩, ?_⟩
    cases hx with
    | pkid hx => exact .inl hx
    | none hk =>
      right
      exact ⟨_, [], by rw [u16_of_lt hk, List.append_nil], _, _, ⟨rfl, rfl⟩, by simp [fail_run]⟩
    | badCode hk hc =>
      right
      rename_i k cs c t
      refine ⟨_, _, by rw [u16_of_lt hk, List.append_assoc, List.append_assoc], _, _, ⟨rfl, rfl⟩, ?_⟩
      rw [if_neg (by simp)]
      merr
      exact (SubAck.readLoop_err _ _ _ _ (Nat.lt_succ_self _)).2 ⟨cs, c, t, rfl, hc, rfl⟩

omit hh in
theorem Unsubscribe.readLoop_err (fuel : Nat) (acc : List String) (s : Bytes)
    (hf : s.length < fuel) :
    (Unsubscribe.readLoop fuel s.length acc s).1 = .err e ↔
      ∃ ts t, s = List.flatMap str ts ++ t ∧ (∀ v ∈ ts, fits (utf8 v).length) ∧ t ≠ [] ∧
        StrFails t e := by
  induction fuel generalizing s acc with
  | zero => omega
  | succ n ih =>
    rw [Unsubscribe.readLoop]
    by_cases he : s = []
    · subst he
      simp only [List.length_nil, Nat.lt_irrefl, if_false, pure_run, gt_iff_lt, reduceCtorEq,
        false_iff]
      rintro ⟨ts, t, h0, _, hne, _⟩
      exact hne (List.append_eq_nil_iff.1 h0.symm).2
    · have hpos : s.length > 0 := List.length_pos_iff.2 he
      rw [if_pos hpos]
      merr
      have hu : ∀ t s1, s = str t ++ s1 → usub s.length (strLen t + 2) s1 = (.ok s1.length, s1) := by
        rintro t s1 rfl
        unfold usub
        rw [if_pos (by simp only [List.length_append, str_len, strLen_eq]; omega), pure_run, ok_inj]
        refine ⟨?_, rfl⟩
        simp only [List.length_append, str_len, strLen_eq]; omega
      constructor
      · rintro (hx | ⟨t, s1, ⟨ht, hs⟩, hx | ⟨n', s2, h0, h1⟩⟩)
        · exact ⟨[], s, rfl, by simp, he, hx⟩
        · rw [hu _ _ hs] at hx; simp at hx
        · rw [hu _ _ hs, ok_inj] at h0
          obtain ⟨rfl, rfl⟩ := h0
          have hlt : s1.length < n := by
            subst hs; simp only [List.length_append, str_len] at hf; omega
          obtain ⟨ts, t', rfl, h2, h3, h4⟩ := (ih _ _ hlt).1 h1
          refine ⟨t :: ts, t', by simp [hs], ?_, h3, h4⟩
          intro v hv
          rcases List.mem_cons.1 hv with rfl | hv
          · exact ht
          · exact h2 v hv
      · rintro ⟨ts, t, hs, h2, h3, h4⟩
        cases ts with
        | nil => left; simpa [hs] using h4
        | cons v ts =>
          have hs' : s = str v ++ (List.flatMap str ts ++ t) := by simp [hs]
          have hlt : (List.flatMap str ts ++ t).length < n := by
            rw [hs'] at hf; rw [List.length_append, str_len] at hf; omega
          refine .inr ⟨v, _, ⟨h2 v (by simp), hs'⟩, .inr ⟨_, _, hu _ _ hs', ?_⟩⟩
          exact (ih _ _ hlt).2 ⟨ts, t, rfl, fun x hx => h2 x (by simp [hx]), h3, h4⟩

theorem Unsubscribe.read_err (hr : h.remaining_len = bd.length) :
    (Unsubscribe.readM h (hd ++ bd)).1 = .err e ↔ UnsubscribeFails bd e := by
  unfold Unsubscribe.readM
  rw [bind_err, advance_err, advance_run hd bd _ hh]
  merr
  have hu : ∀ (k : UInt16) (s1 s : Bytes), bd = Spec.u16 k.toNat ++ s1 →
      usub h.remaining_len 2 s = (.ok s1.length, s) := by
    intro k s1 s h0
    unfold usub
    rw [hr, h0, if_pos (by simp [u16_len]), pure_run]
    simp [u16_len]
  constructor
  · rintro ⟨_, _, ⟨-, rfl⟩, hx | ⟨k, t, hb, hx | ⟨n, s2, h0, _, _, ⟨rfl, rfl⟩, hx⟩⟩⟩
    · exact .pkid hx
    · rw [hu k t _ hb] at hx; simp at hx
    · rw [hu k t _ hb, ok_inj] at h0
      obtain ⟨rfl, rfl⟩ := h0
      obtain ⟨ts, t', rfl, h2, h3, h4⟩ :=
        (Unsubscribe.readLoop_err e _ _ _ (Nat.lt_succ_self _)).1 hx
      subst hb
      rw [← List.append_assoc]
      exact .topic k.toNat_lt h2 h3 h4
  · intro hx
    refine ⟨(), bd, ⟨trivial, rfl⟩, ?_⟩
    cases hx with
    | pkid hx => exact .inl hx
    | topic hk h2 h3 h4 =>
      right
      refine ⟨_, _, by rw [u16_of_lt hk, List.append_assoc], .inr ⟨_, _,
        hu _ _ _ (by rw [u16_of_lt hk, List.append_assoc]), _, _, ⟨rfl, rfl⟩, ?_⟩⟩
      exact (Unsubscribe.readLoop_err e _ _ _ (Nat.lt_succ_self _)).2 ⟨_, _, rfl, h2, h3, h4⟩

omit hh in
theorem LastWill.read_err (flags : UInt8) (s : Bytes) :
    (LastWill.read flags s).1 = .err e ↔ WillFails flags s e := by
  have e4 : ∀ f : UInt8, (f &&& 4 = 0) ↔ ¬ bit f 2 := forall_u8 (by decide +kernel)
  have e38 : ∀ f : UInt8, (f &&& 56 ≠ 0) ↔ (bit f 3 ∨ bit f 4 ∨ bit f 5) :=
    forall_u8 (by decide +kernel)
  have hq : ∀ b : UInt8, ((b &&& 24) >>> 3).toNat = b.toNat / 8 % 4 := forall_u8 (by decide +kernel)
  unfold LastWill.read
  by_cases h4 : flags &&& 4 = 0
  · rw [if_pos h4]
    rw [e4] at h4
    by_cases h38 : flags &&& 56 ≠ 0
    · rw [if_pos h38, fail_err]
      rw [e38] at h38
      constructor
      · rintro rfl; exact .stray h4 h38
      · intro hx
        cases hx with
        | stray => rfl
        | topic h => exact absurd h h4
        | message h => exact absurd h h4
        | qos h => exact absurd h h4
    · rw [if_neg h38, pure_err, false_iff]
      rw [e38] at h38
      intro hx
      cases hx with
      | stray _ h => exact h38 h
      | topic h => exact absurd h h4
      | message h => exact absurd h h4
      | qos h => exact absurd h h4
  · rw [if_neg h4]
    rw [e4, Classical.not_not] at h4
    merr [qos_field_err _ _ e (Nat.mod_lt _ (by decide)) (hq flags)]
    constructor
    · rintro (hx | ⟨v, t, ⟨hv, rfl⟩, hx | ⟨m, t, ⟨hm, rfl⟩, hx, rfl⟩⟩)
      · exact .topic h4 hx
      · exact .message h4 hv hx
      · rw [← List.append_assoc]; exact .qos h4 hv hm hx
    · intro hx
      cases hx with
      | stray h => exact absurd h4 h
      | topic _ hx => exact .inl hx
      | message _ hv hx => exact .inr ⟨_, _, ⟨hv, rfl⟩, .inl hx⟩
      | qos _ hv hm hx =>
        exact .inr ⟨_, _, ⟨hv, List.append_assoc _ _ _⟩, .inr ⟨_, _, ⟨hm, rfl⟩, hx, rfl⟩⟩

omit hh in
theorem Login.read_err (flags : UInt8) (s : Bytes) :
    (Login.read flags s).1 = .err e ↔ LoginFails flags s e := by
  have e7 : ∀ f : UInt8, (f &&& 128 = 0) ↔ ¬ bit f 7 := forall_u8 (by decide +kernel)
  have e6 : ∀ f : UInt8, (f &&& 64 = 0) ↔ ¬ bit f 6 := forall_u8 (by decide +kernel)
  have last : ∀ (u : String) (s : Bytes), ((do
      let password ← (if flags &&& 64 = 0 then pure "" else read_mqtt_string : M String)
      if u.isEmpty && password.isEmpty then pure none
      else pure (some { username := u, password := password }) : M (Option Login)) s).1 = .err e ↔
      bit flags 6 ∧ StrFails s e := by
    intro u s
    rw [bind_err]
    have : ∀ p : String, ∀ s' : Bytes, ¬ ((if u.isEmpty && p.isEmpty then pure none
      else pure (some { username := u, password := p }) : M (Option Login)) s').1 = .err e := by
      intro p s'; split <;> simp [pure_run]
    simp only [this, and_false, exists_false, or_false]
    by_cases h6 : bit flags 6
    · rw [if_neg (by rw [e6]; exact not_not_intro h6), read_mqtt_string_err]; simp [h6]
    · rw [if_pos ((e6 _).2 h6), pure_err]; simp [h6]
  unfold Login.read
  rw [bind_err]
  simp only [last]
  by_cases h7 : bit flags 7
  · rw [if_neg (by rw [e7]; exact not_not_intro h7), read_mqtt_string_err]
    simp only [read_mqtt_string_iff]
    constructor
    · rintro (hx | ⟨u, t, ⟨hu, rfl⟩, h6, hx⟩)
      · exact .username h7 hx
      · exact .password' h7 hu h6 hx
    · intro hx
      cases hx with
      | username _ hx => exact .inl hx
      | password h => exact absurd h7 h
      | password' _ hu h6 hx => exact .inr ⟨_, _, ⟨hu, rfl⟩, h6, hx⟩
  · rw [if_pos ((e7 _).2 h7), pure_err, false_or]
    simp only [pure_run, ok_inj]
    constructor
    · rintro ⟨_, _, ⟨rfl, rfl⟩, h6, hx⟩
      exact .password h7 h6 hx
    · intro hx
      cases hx with
      | username h => exact absurd h h7
      | password _ h6 hx => exact ⟨_, _, ⟨rfl, rfl⟩, h6, hx⟩
      | password' h => exact absurd h h7

theorem Connect.read_err : (Connect.readM h (hd ++ bd)).1 = .err e ↔ ConnectFails bd e := by
  have hM : fits (utf8 "MQTT").length := by decide +kernel
  unfold Connect.readM
  rw [bind_err, advance_err, advance_run hd bd _ hh]
  simp only [bind_err, false_or, ok_inj, read_mqtt_string_err, read_u8_err, read_mqtt_string_iff,
    read_u8_iff]
  constructor
  · rintro ⟨_, _, ⟨-, rfl⟩, hx | ⟨nm, t, ⟨hnm, rfl⟩, hx | ⟨lv, t, rfl, hx⟩⟩⟩
    · exact .name hx
    · exact .level hnm hx
    · split at hx
      · rename_i hn
        rw [fail_err] at hx; subst hx
        have := ConnectFails.protocol (lv := lv) (t := t) hnm hn
        simpa using this
      · rename_i hn
        have hn : nm = "MQTT" := by simpa using hn
        subst hn
        rw [bind_err] at hx
        rcases hx with hx | ⟨p, t', hp, hx⟩
        · split at hx
          · simp [pure_run] at hx
          · simp [pure_run] at hx
          · rename_i h4 h5
            rw [fail_err] at hx; subst hx
            have := ConnectFails.badLevel (t := t) h4 h5
            simpa using this
        · have hlv : (lv = 4 ∨ lv = 5) ∧ t' = t := by
            split at hp
            · exact ⟨.inl rfl, (ok_inj.1 hp).2.symm⟩
            · exact ⟨.inr rfl, (ok_inj.1 hp).2.symm⟩
            · simp [fail_run] at hp
          obtain ⟨hlv, rfl⟩ := hlv
          merr [LastWill.read_iff, LastWill.read_err, Login.read_err, Login.read_iff] at hx
          rcases hx with hx | ⟨f, t, rfl, hx | ⟨k, t, rfl, hx | ⟨id, t, ⟨hid, rfl⟩, hx |
            ⟨w, t, ⟨wb, rfl, hw⟩, hx⟩⟩⟩⟩
          · have := ConnectFails.flags hlv hx; simpa using this
          · have := ConnectFails.keepAlive (f := f) hlv hx; simpa using this
          · have := ConnectFails.clientId (f := f) hlv k.toNat_lt hx; simpa using this
          · have := ConnectFails.will (f := f) hlv k.toNat_lt hid hx; simpa using this
          · have := ConnectFails.login (f := f) hlv k.toNat_lt hid hw hx; simpa using this
  · intro hx
    refine ⟨(), bd, ⟨trivial, rfl⟩, ?_⟩
    have hM' : ¬ ("MQTT" ≠ "MQTT") := by simp
    cases hx with
    | name hx => exact .inl hx
    | level hnm hx => exact .inr ⟨_, _, ⟨hnm, rfl⟩, .inl hx⟩
    | protocol hnm hn =>
      rename_i nm lv t
      refine .inr ⟨nm, lv :: t, ⟨hnm, by simp⟩, .inr ⟨lv, t, rfl, ?_⟩⟩
      rw [if_pos hn]; rfl
    | badLevel h4 h5 =>
      rename_i lv t
      refine .inr ⟨_, lv :: t, ⟨hM, by simp⟩, .inr ⟨lv, t, rfl, ?_⟩⟩
      rw [if_neg hM', bind_err]
      left
      split
      · exact absurd rfl h4
      · exact absurd rfl h5
      · rfl
    | flags hlv hx =>
      rename_i lv t
      refine .inr ⟨_, lv :: t, ⟨hM, by simp⟩, .inr ⟨lv, t, rfl, ?_⟩⟩
      rw [if_neg hM', bind_err]
      right
      rcases hlv with rfl | rfl <;> refine ⟨_, _, rfl, ?_⟩ <;>
        merr [LastWill.read_iff, LastWill.read_err, Login.read_err, Login.read_iff] <;>
        exact .inl hx
    | keepAlive hlv hx =>
      rename_i lv f t
      refine .inr ⟨_, lv :: f :: t, ⟨hM, by simp⟩, .inr ⟨lv, f :: t, rfl, ?_⟩⟩
      rw [if_neg hM', bind_err]
      right
      rcases hlv with rfl | rfl <;> refine ⟨_, _, rfl, ?_⟩ <;>
        merr [LastWill.read_iff, LastWill.read_err, Login.read_err, Login.read_iff] <;>
        exact .inr ⟨_, _, rfl, .inl hx⟩
    | clientId hlv hk hx =>
      rename_i lv f k t
      refine .inr ⟨_, lv :: f :: (Spec.u16 k ++ t), ⟨hM, by simp⟩, .inr ⟨lv, _, rfl, ?_⟩⟩
      rw [if_neg hM', bind_err]
      right
      rcases hlv with rfl | rfl <;> refine ⟨_, _, rfl, ?_⟩ <;>
        merr [LastWill.read_iff, LastWill.read_err, Login.read_err, Login.read_iff] <;>
        exact .inr ⟨_, _, rfl, .inr ⟨_, _, by rw [u16_of_lt hk], .inl hx⟩⟩
    | will hlv hk hid hx =>
      rename_i lv f k id t
      refine .inr ⟨_, lv :: f :: (Spec.u16 k ++ (str id ++ t)), ⟨hM, by simp⟩, .inr ⟨lv, _, rfl, ?_⟩⟩
      rw [if_neg hM', bind_err]
      right
      rcases hlv with rfl | rfl <;> refine ⟨_, _, rfl, ?_⟩ <;>
        merr [LastWill.read_iff, LastWill.read_err, Login.read_err, Login.read_iff] <;>
        exact .inr ⟨_, _, rfl, .inr ⟨_, _, by rw [u16_of_lt hk], .inr ⟨_, _, ⟨hid, rfl⟩, .inl hx⟩⟩⟩
    | login hlv hk hid hw hx =>
      rename_i lv f k id wb w t
      refine .inr ⟨_, lv :: f :: (Spec.u16 k ++ (str id ++ (wb ++ t))), ⟨hM, by simp⟩,
        .inr ⟨lv, _, rfl, ?_⟩⟩
      rw [if_neg hM', bind_err]
      right
      rcases hlv with rfl | rfl <;> refine ⟨_, _, rfl, ?_⟩ <;>
        merr [LastWill.read_iff, LastWill.read_err, Login.read_err, Login.read_iff] <;>
        exact .inr ⟨_, _, rfl, .inr ⟨_, _, by rw [u16_of_lt hk], .inr ⟨_, _, ⟨hid, rfl⟩,
          .inr ⟨_, _, ⟨_, rfl, hw⟩, hx⟩⟩⟩⟩

/-- `readFrame` returns an error exactly when the frame is rejected for that reason -/
theorem readFrame_err (hr : h.remaining_len = bd.length) :
    readFrame h (hd ++ bd) = .err e ↔ Rejects h.byte1 bd e := by
  have h0 : h.remaining_len = 0 ↔ bd = [] := by
    rw [hr]; exact ⟨List.eq_nil_of_length_eq_zero, by rintro rfl; rfl⟩
  rcases packet_type_cases h with ⟨t, ht⟩ | ⟨hb, ht⟩
  · have ht' := (packet_type_ok_iff _ _).1 ht
    unfold readFrame Rejects typeNum
    rw [ht, ht']
    simp only [h0]
    by_cases hb : bd = []
    · cases t <;> simp [PacketType.toU8, hb, eq_comm]
    · cases t <;> simp only [PacketType.toU8, hb, if_false, onFrame_err_iff]
      case Connect => exact Connect.read_err h hd bd hh e
      case ConnAck => exact ConnAck.read_err h hd bd hh e
      case Publish => exact Publish.read_err h hd bd hh e
      case PubAck => exact PubAck.read_err h hd bd hh e
      case PubRec => exact PubRec.read_err h hd bd hh e
      case PubRel => exact PubRel.read_err h hd bd hh e
      case PubComp => exact PubComp.read_err h hd bd hh e
      case Subscribe => exact Subscribe.read_err h hd bd hh e
      case SubAck => exact SubAck.read_err h hd bd hh e
      case Unsubscribe => exact Unsubscribe.read_err h hd bd hh e hr
      case UnsubAck => exact UnsubAck.read_err h hd bd hh e hr
      all_goals simp
  · unfold readFrame Rejects typeNum
    rw [ht]
    rcases hb with hb | hb <;> rw [hb] <;> simp [eq_comm]

omit hh in
/-- **exact rejection** of `v4::read` -/
theorem read_err_iff (max : Nat) (s s' : Bytes) :
    V4.read max s = (.err e, s') ↔
      (FramingFails max s e ∧ s' = s) ∨
      ∃ b1 bs bd, s = b1 :: (bs ++ (bd ++ s')) ∧ IsVbi bs ∧ vbiValue bs = bd.length ∧
        bd.length ≤ max ∧ Rejects b1 bd e := by
  rw [v4_read_eq, ← check_err_iff]
  constructor
  · intro h1
    rcases check_total s max with ⟨h, hc⟩ | ⟨e', hc⟩
    · obtain ⟨b1, bs, rest, rfl, hv, hm, hr, rfl⟩ := (check_ok_iff _ _ _).1 hc
      rw [readG_ok _ _ hc] at h1
      have e : b1 :: (bs ++ rest) = (b1 :: bs) ++ rest.take (vbiValue bs) ++ rest.drop (vbiValue bs) := by
        simp
      have hl : ((b1 :: bs) ++ rest.take (vbiValue bs)).length = bs.length + 1 + vbiValue bs := by
        simp; omega
      simp only [FixedHeader.frame_length, Prod.mk.injEq] at h1
      rw [e, List.take_left' hl, List.drop_left' hl] at h1
      obtain ⟨h1, rfl⟩ := h1
      rw [readFrame_err _ _ _ (by simp) _ (by simp; omega)] at h1
      exact .inr ⟨b1, bs, rest.take (vbiValue bs), by simp, hv, by simp; omega, by simp; omega, h1⟩
    · rw [readG_err _ _ hc] at h1
      simp only [Prod.mk.injEq, Res.err.injEq] at h1
      obtain ⟨rfl, rfl⟩ := h1
      exact .inl ⟨hc, rfl⟩
  · rintro (⟨hc, rfl⟩ | ⟨b1, bs, bd, rfl, hv, hb, hm, hp⟩)
    · exact readG_err _ _ hc
    · have hc := check_frame b1 bs (bd ++ s') max hv (by omega) (by simp; omega)
      rw [readG_ok _ _ hc]
      have e : b1 :: (bs ++ (bd ++ s')) = ((b1 :: bs) ++ bd) ++ s' := by simp
      have hl : ((b1 :: bs) ++ bd).length = bs.length + 1 + vbiValue bs := by simp; omega
      simp only [FixedHeader.frame_length, Prod.mk.injEq]
      rw [e, List.take_left' hl, List.drop_left' hl]
      exact ⟨(readFrame_err _ _ _ (by simp) _ (by simp; omega)).2 hp, rfl⟩

end Mqtt.V4
