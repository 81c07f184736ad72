import Verif.Proof.V4Errors
import Verif.Proof.V5Read
import Verif.Spec.ErrorsV5
/-! `v5::read` returns an error exactly when the frame is rejected for that reason. -/
set_option linter.unusedSimpArgs false
namespace Mqtt.V5
open Mqtt Spec
open Spec.V5
open Spec.V4 (qosNum level bit typeNum)
open Mqtt.V4 (advance_err qos_field_err option_qos_err str_ne_nil)

theorem peek_length_err (s : Bytes) (e : Error) : (peek_length s).1 = .err e ↔ VbiFails s e := by
  unfold peek_length
  mrun
  exact length_err s e

/-- peek the length, then skip it -/
theorem peek_advance_err {α : Type} (f : Nat → Nat → M α) (s : Bytes) (e : Error) :
    ((do let (k, n) ← peek_length; advance k; f k n : M α) s).1 = .err e ↔
      VbiFails s e ∨ ∃ bs t, s = bs ++ t ∧ IsVbi bs ∧ (f bs.length (vbiValue bs) t).1 = .err e := by
  rw [bind_err, peek_length_err]
  refine or_congr Iff.rfl ?_
  constructor
  · rintro ⟨⟨k, n⟩, s1, h1, h2⟩
    obtain ⟨rfl, bs, t, rfl, hv, rfl, rfl⟩ := (peek_length_iff _ _ _ _).1 h1
    simp only [bind_run, advance_run bs t _ rfl, andThen_ok] at h2
    exact ⟨bs, t, rfl, hv, h2⟩
  · rintro ⟨bs, t, rfl, hv, h2⟩
    refine ⟨_, _, peek_length_run bs t hv, ?_⟩
    simp only [bind_run, advance_run bs t _ rfl, andThen_ok]
    exact h2

theorem readVal_err (k : Kind) (s : Bytes) (e : Error) :
    (readVal k s).1 = .err e ↔ ValFails k s e := by
  cases k
  case vbi =>
    unfold readVal
    rw [peek_advance_err (fun k n => pure (Val.vbi n, 1 + k))]
    simp only [pure_run, reduceCtorEq, and_false, exists_false, or_false]
    exact ⟨.vbi, by rintro ⟨⟩; assumption⟩
  all_goals
    simp only [readVal]
    merr
  · exact ⟨.u8, by rintro ⟨⟩; assumption⟩
  · exact ⟨.u16, by rintro ⟨⟩; assumption⟩
  · exact ⟨.u32, by rintro ⟨⟩; assumption⟩
  · exact ⟨.str, by rintro ⟨⟩; assumption⟩
  · exact ⟨.bin, by rintro ⟨⟩; assumption⟩
  · constructor
    · rintro (h | ⟨n, t, ⟨hn, rfl⟩, h⟩)
      · exact .name h
      · exact .value hn h
    · intro h
      cases h with
      | name h => exact .inl h
      | value hn h => exact .inr ⟨_, _, ⟨hn, rfl⟩, h⟩

section
variable {σ : Type} {kind : Nat → Option Kind} {step : PropStep σ} {dec : List Property → σ}
  (hg : GenStep kind step dec)
include hg

/-- failure of the loop with `c` bytes counted -/
theorem propLoop_err (fuel n c : Nat) (ps0 : List Property) (s : Bytes) (e : Error)
    (hf : s.length < fuel) (hb : c + 2 * s.length < 2 ^ 32) :
    (propLoop step fuel n c (dec ps0) s).1 = .err e ↔
      ∃ good ps t, s = good ++ t ∧ Props kind good ps ∧ c + good.length + vbis ps < n ∧
        PropFails kind t e := by
  have vc : ∀ (b : Nat) (v : Val) (ps : List Property) (vb : Bytes),
      1 + vb.length + vbis (⟨b, v⟩ :: ps) = counted v vb + vbis ps := by
    intro b v ps vb
    unfold counted vbis
    by_cases hk : v.kind = .vbi
    · simp [hk]; omega
    · simp [hk]
  induction fuel generalizing c ps0 s with
  | zero => omega
  | succ fuel ih =>
    by_cases hc : c < n
    · cases s with
      | nil =>
        have h0 : read_u8 [] = (.err .MalformedPacket, []) := rfl
        rw [propLoop, if_pos hc, bind_run, h0, andThen_err]
        constructor
        · intro h
          obtain rfl := Res.err.inj h
          exact ⟨[], [], [], rfl, .nil, by simpa [vbis] using hc, .none⟩
        · rintro ⟨good, ps, t, h, hp, hlt, hx⟩
          obtain ⟨rfl, rfl⟩ := List.append_eq_nil_iff.1 h.symm
          cases hx
          rfl
      | cons b s =>
        simp only [List.length_cons] at hf hb
        rw [turn hg _ _ _ _ _ _ hc (by omega)]
        cases hk : kind b.toNat with
        | none =>
          simp only [Res.err.injEq]
          constructor
          · rintro rfl
            exact ⟨[], [], b :: s, rfl, .nil, by simpa [vbis] using hc, .id hk⟩
          · rintro ⟨good, ps, t, h, hp, hlt, hx⟩
            cases hp with
            | nil =>
              simp only [List.nil_append] at h
              subst h
              cases hx with
              | id _ => rfl
              | value hk' _ => rw [hk] at hk'; cases hk'
            | cons id v vb bs ps hk' =>
              simp only [List.cons_append, List.nil_append, List.cons.injEq] at h
              rw [← h.1, hk] at hk'; cases hk'
        | some k =>
          simp only [andThen_eq_err, readVal_err]
          constructor
          · rintro (hx | ⟨⟨v, m⟩, s1, hr, h⟩)
            · exact ⟨[], [], b :: s, rfl, .nil, by simpa [vbis] using hc, .value hk hx⟩
            have hle := counted_le hg hr
            obtain ⟨hvk, vb, rfl, hd, hm⟩ := (readVal_iff _ _ _ _ _).1 hr
            simp only [bind_run] at h
            rw [uadd_run _ _ _ (by omega), andThen_ok] at h
            obtain ⟨good, ps, t, rfl, hp, hlt, hx⟩ :=
              (ih (c + 1 + m) (ps0 ++ [⟨b.toNat, v⟩]) s1 (by omega) (by omega)).1 h
            refine ⟨[b] ++ vb ++ good, ⟨b.toNat, v⟩ :: ps, t, by simp,
              .cons b v vb good ps (by rw [hk, hvk]) hd hp, ?_, hx⟩
            have := vc b.toNat v ps vb
            simp only [List.length_append, List.length_cons, List.length_nil]
            omega
          · rintro ⟨good, ps, t, h, hp, hlt, hx⟩
            cases hp with
            | nil =>
              simp only [List.nil_append] at h
              subst h
              cases hx with
              | id hk' => rw [hk] at hk'; cases hk'
              | value hk' hx => rw [hk] at hk'; obtain ⟨rfl⟩ := hk'; exact .inl hx
            | cons id v vb good ps hk' hd hp =>
              simp only [List.cons_append, List.nil_append, List.cons.injEq, List.append_assoc] at h
              obtain ⟨rfl, rfl⟩ := h
              rw [hk] at hk'
              obtain ⟨rfl⟩ := hk'
              have hm : 1 + (counted v vb - 1) = counted v vb := by unfold counted; omega
              have hr : readVal v.kind (vb ++ (good ++ t)) = (.ok (v, counted v vb - 1), good ++ t) :=
                (readVal_iff _ _ _ _ _).2 ⟨rfl, vb, rfl, hd, hm⟩
              have hle := counted_le hg hr
              refine .inr ⟨_, _, hr, ?_⟩
              simp only [bind_run]
              rw [uadd_run _ _ _ (by omega), andThen_ok]
              refine (ih (c + 1 + (counted v vb - 1)) (ps0 ++ [⟨b.toNat, v⟩]) (good ++ t) (by omega)
                (by omega)).2 ⟨good, ps, t, rfl, hp, ?_, hx⟩
              have := vc b.toNat v ps vb
              simp only [List.length_append, List.length_cons, List.length_nil] at hlt
              omega
    · rw [propLoop, if_neg hc]
      simp only [pure_run, reduceCtorEq, false_iff]
      rintro ⟨good, ps, t, h, hp, hlt, hx⟩
      omega

/-- **exact rejection of a property section** -/
theorem extractProps_err (s : Bytes) (e : Error) (hb : s.length ≤ maxRemaining) :
    (extractProps step (dec []) s).1 = .err e ↔ SecFails kind s e := by
  unfold extractProps
  rw [peek_advance_err (fun k n => if n = 0 then pure none else do
    let bytes ← M.look
    let st ← propLoop step (bytes.length + 1) n 0 (dec [])
    pure (some st))]
  have hbound : ∀ t : Bytes, t.length ≤ s.length → 0 + 2 * t.length < 2 ^ 32 := by
    intro t ht; unfold maxRemaining at hb; omega
  constructor
  · rintro (h | ⟨len, t, rfl, hv, h⟩)
    · exact .length h
    · split at h
      · simp [pure_run] at h
      · rename_i h0
        rw [bind_run, look_run, andThen_ok, bind_err] at h
        simp only [pure_run, reduceCtorEq, and_false, exists_false, or_false] at h
        rw [propLoop_err hg _ _ _ _ _ _ (Nat.lt_succ_self _) (hbound t (by simp))] at h
        obtain ⟨good, ps, t', rfl, hp, hlt, hx⟩ := h
        rw [← List.append_assoc]
        exact .prop hv hp (by omega) hx
  · intro h
    cases h with
    | length h => exact .inl h
    | prop hv hp hlt hx =>
      rename_i len good ps t
      refine .inr ⟨len, good ++ t, by simp, hv, ?_⟩
      rw [if_neg (by omega), bind_run, look_run, andThen_ok, bind_err]
      refine .inl ?_
      rw [propLoop_err hg _ _ _ _ _ _ (Nat.lt_succ_self _) (hbound _ (by simp))]
      exact ⟨good, ps, t, rfl, hp, by omega, hx⟩

/-- a property section, then the rest -/
theorem sec_bind_err {α : Type} (f : Option σ → M α) (s : Bytes) (e : Error)
    (hb : s.length ≤ maxRemaining) :
    ((extractProps step (dec []) >>= f) s).1 = .err e ↔ SecFails kind s e ∨
      ∃ sec ps t, s = sec ++ t ∧ SecDenotes kind sec ps ∧ (f (ps.map dec) t).1 = .err e := by
  rw [bind_err, extractProps_err hg _ _ hb]
  refine or_congr Iff.rfl ?_
  constructor
  · rintro ⟨o, t, h1, h2⟩
    obtain ⟨sec, rfl, ps, h3, rfl⟩ := (extractProps_iff hg _ _ _ hb).1 h1
    exact ⟨sec, ps, t, rfl, h3, h2⟩
  · rintro ⟨sec, ps, t, rfl, h3, h2⟩
    exact ⟨_, t, (extractProps_iff hg _ _ _ hb).2 ⟨sec, rfl, ps, h3, rfl⟩, h2⟩
end

section
variable {α : Type} (s : Bytes) (e : Error) (hb : s.length ≤ maxRemaining)
include hb
theorem reason_bind_err (f : _ → M α) : ((ReasonProps.extract >>= f) s).1 = .err e ↔ SecFails reasonKind s e ∨
    ∃ sec ps t, s = sec ++ t ∧ SecDenotes reasonKind sec ps ∧ (f (ps.map reasonOf) t).1 = .err e :=
  sec_bind_err reason_gen f s e hb
theorem will_bind_err (f : _ → M α) : ((WillProperties.read >>= f) s).1 = .err e ↔ SecFails willKind s e ∨
    ∃ sec ps t, s = sec ++ t ∧ SecDenotes willKind sec ps ∧ (f (ps.map willOf) t).1 = .err e :=
  sec_bind_err will_gen f s e hb
theorem connect_bind_err (f : _ → M α) : ((ConnectProperties.read >>= f) s).1 = .err e ↔ SecFails connectKind s e ∨
    ∃ sec ps t, s = sec ++ t ∧ SecDenotes connectKind sec ps ∧ (f (ps.map connectOf) t).1 = .err e :=
  sec_bind_err connect_gen f s e hb
theorem connack_bind_err (f : _ → M α) : ((ConnAckProperties.extract >>= f) s).1 = .err e ↔ SecFails connackKind s e ∨
    ∃ sec ps t, s = sec ++ t ∧ SecDenotes connackKind sec ps ∧ (f (ps.map connackOf) t).1 = .err e :=
  sec_bind_err connack_gen f s e hb
theorem publish_bind_err (f : _ → M α) : ((PublishProperties.extract >>= f) s).1 = .err e ↔ SecFails publishKind s e ∨
    ∃ sec ps t, s = sec ++ t ∧ SecDenotes publishKind sec ps ∧ (f (ps.map publishOf) t).1 = .err e :=
  sec_bind_err publish_gen f s e hb
theorem subscribe_bind_err (f : _ → M α) : ((SubscribeProperties.extract >>= f) s).1 = .err e ↔ SecFails subscribeKind s e ∨
    ∃ sec ps t, s = sec ++ t ∧ SecDenotes subscribeKind sec ps ∧ (f (ps.map subscribeOf) t).1 = .err e :=
  sec_bind_err subscribe_gen f s e hb
theorem unsubscribe_bind_err (f : _ → M α) : ((UnsubscribeProperties.extract >>= f) s).1 = .err e ↔ SecFails unsubscribeKind s e ∨
    ∃ sec ps t, s = sec ++ t ∧ SecDenotes unsubscribeKind sec ps ∧ (f (ps.map unsubscribeOf) t).1 = .err e :=
  sec_bind_err unsubscribe_gen f s e hb
theorem disconnect_bind_err (f : _ → M α) : ((DisconnectProperties.extract >>= f) s).1 = .err e ↔ SecFails disconnectKind s e ∨
    ∃ sec ps t, s = sec ++ t ∧ SecDenotes disconnectKind sec ps ∧ (f (ps.map disconnectOf) t).1 = .err e :=
  sec_bind_err disconnect_gen f s e hb
end

/-- a table of codes -/
theorem code_err {C : Type} {conv : UInt8 → Res C} {code : C → Nat} {E : UInt8 → Error}
    (hc : ∀ n c, conv n = .ok c ↔ n = UInt8.ofNat (code c))
    (ht : ∀ n, (∃ c, conv n = .ok c) ∨ conv n = .err (E n)) (hlt : ∀ c, code c < 256)
    (n : UInt8) (e : Error) :
    conv n = .err e ↔ (∀ c, n.toNat ≠ code c) ∧ e = E n := by
  have hc' : ∀ c, n.toNat = code c ↔ conv n = .ok c := by
    intro c; rw [hc, ← UInt8.toNat_inj, UInt8.toNat_ofNat', Nat.mod_eq_of_lt (hlt c)]
  simp only [ne_eq, hc']
  rcases ht n with ⟨c, h⟩ | h
  · simp only [h, reduceCtorEq, false_iff, not_and]
    intro h'; exact absurd rfl (h' c)
  · simp [h, eq_comm]

theorem connect_return_err (n : UInt8) (e : Error) : connect_return n = .err e ↔
    (∀ c, n.toNat ≠ connectCode c) ∧ e = .InvalidConnectReturnCode n := code_err (E := .InvalidConnectReturnCode) connect_return_ok_iff
  (by intro n; unfold connect_return; split <;> simp) (by intro c; cases c <;> decide) n e
theorem puback_reason_err (n : UInt8) (e : Error) : PubAckReason.reason n = .err e ↔
    (∀ c, n.toNat ≠ pubackCode c) ∧ e = .InvalidConnectReturnCode n := code_err (E := .InvalidConnectReturnCode) puback_reason_iff
  (by intro n; unfold PubAckReason.reason; split <;> simp) (by intro c; cases c <;> decide) n e
theorem pubrec_reason_err (n : UInt8) (e : Error) : PubRecReason.reason n = .err e ↔
    (∀ c, n.toNat ≠ pubrecCode c) ∧ e = .InvalidConnectReturnCode n := code_err (E := .InvalidConnectReturnCode) pubrec_reason_iff
  (by intro n; unfold PubRecReason.reason; split <;> simp) (by intro c; cases c <;> decide) n e
theorem pubrel_reason_err (n : UInt8) (e : Error) : PubRelReason.reason n = .err e ↔
    (∀ c, n.toNat ≠ pubrelCode c) ∧ e = .InvalidConnectReturnCode n := code_err (E := .InvalidConnectReturnCode) pubrel_reason_iff
  (by intro n; unfold PubRelReason.reason; split <;> simp) (by intro c; cases c <;> decide) n e
theorem pubcomp_reason_err (n : UInt8) (e : Error) : PubCompReason.reason n = .err e ↔
    (∀ c, n.toNat ≠ pubcompCode c) ∧ e = .InvalidConnectReturnCode n := code_err (E := .InvalidConnectReturnCode) pubcomp_reason_iff
  (by intro n; unfold PubCompReason.reason; split <;> simp) (by intro c; cases c <;> decide) n e
theorem sub_reason_err (n : UInt8) (e : Error) : SubscribeReasonCode.try_from n = .err e ↔
    (∀ c, n.toNat ≠ subCode c) ∧ e = .InvalidSubscribeReasonCode n := code_err (E := .InvalidSubscribeReasonCode) sub_reason_iff
  (by intro n; unfold SubscribeReasonCode.try_from; split <;> simp) (by intro c; cases c <;> decide) n e
theorem unsub_reason_err (n : UInt8) (e : Error) : UnsubAckReason.reason n = .err e ↔
    (∀ c, n.toNat ≠ unsubCode c) ∧ e = .InvalidSubscribeReasonCode n := code_err (E := .InvalidSubscribeReasonCode) unsub_reason_iff
  (by intro n; unfold UnsubAckReason.reason; split <;> simp) (by intro c; cases c <;> decide) n e
theorem disconnect_reason_err (n : UInt8) (e : Error) : DisconnectReasonCode.try_from n = .err e ↔
    (∀ c, n.toNat ≠ disconnectCode c) ∧ e = .InvalidConnectReturnCode n := code_err (E := .InvalidConnectReturnCode) disconnect_reason_iff
  (by intro n; unfold DisconnectReasonCode.try_from; split <;> simp)
  (by intro c; cases c <;> decide) n e

theorem rule_err (o : UInt8) (e : Error) :
    retainForwardRule ((o >>> 4) &&& 3) = .err e ↔
      o.toNat / 16 % 4 = 3 ∧ e = .InvalidRetainForwardRule 3 := by
  have key : ∀ o : UInt8, (((o >>> 4) &&& 3 = 0 ∨ (o >>> 4) &&& 3 = 1 ∨ (o >>> 4) &&& 3 = 2) ∧
      o.toNat / 16 % 4 ≠ 3) ∨ ((o >>> 4) &&& 3 = 3 ∧ o.toNat / 16 % 4 = 3) :=
    forall_u8 (by decide +kernel)
  rcases key o with ⟨h1 | h1 | h1, h2⟩ | ⟨h1, h2⟩ <;> rw [h1] <;>
    simp [retainForwardRule, h2, eq_comm]

variable (h : FixedHeader) (hd bd : Bytes) (hh : hd.length = h.fixed_header_len)
  (hb : bd.length ≤ maxRemaining) (e : Error)

theorem read_u16_lt {k : Nat} (hk : k < 65536) (t : Bytes) :
    Spec.u16 k ++ t = Spec.u16 (UInt16.ofNat k).toNat ++ t := by rw [u16_toUInt16 hk]

include hh hb in
theorem Ack.read_err {R : Type} {success : R} {reason : UInt8 → Res R} {code : R → Nat}
    (hc : ∀ n r, reason n = .ok r ↔ n = UInt8.ofNat (code r))
    (he : ∀ n e, reason n = .err e ↔ (∀ r, n.toNat ≠ code r) ∧ e = .InvalidConnectReturnCode n)
    (hr : h.remaining_len = bd.length) :
    (Ack.readM success reason h (hd ++ bd)).1 = .err e ↔ AckFails code bd e := by
  unfold Ack.readM
  rw [bind_err, advance_err, advance_run hd bd _ hh]
  simp only [bind_err, false_or, ok_inj, read_u16_err, read_u16_iff]
  constructor
  · rintro ⟨_, _, ⟨-, rfl⟩, hx | ⟨k, t, rfl, hx⟩⟩
    · exact .pkid hx
    · rw [hr] at hx
      split at hx
      · simp [pure_run] at hx
      rename_i h2
      simp only [List.length_append, u16_len] at h2
      rw [bind_err, read_u8_err] at hx
      rcases hx with hx | ⟨c, t, hct, hx⟩
      · have := hx.1; subst this; simp at h2
      rw [read_u8_iff] at hct; subst hct
      simp only [List.length_append, u16_len, List.length_cons] at hx
      split at hx
      · merr [he] at hx
        obtain ⟨hx, rfl⟩ := hx
        have := AckFails.badCode (t := t) k.toNat_lt hx
        simpa using this
      · rw [bind_err, lift_err, he] at hx
        rcases hx with ⟨hx, rfl⟩ | ⟨r, _, hr', hx⟩
        · have := AckFails.badCode (t := t) k.toNat_lt hx
          simpa using this
        · simp only [lift_run, Prod.mk.injEq, hc] at hr'
          obtain ⟨rfl, rfl⟩ := hr'
          rw [reason_bind_err _ _ (by simp at hb ⊢; omega)] at hx
          merr at hx
          have := AckFails.props (code := code) (r := r) k.toNat_lt (by rintro rfl; simp at *) hx
          simpa [Spec.u8] using this
  · intro hx
    refine ⟨(), bd, ⟨trivial, rfl⟩, ?_⟩
    cases hx with
    | pkid hx => exact .inl hx
    | badCode hk hx =>
      rename_i k c t
      refine .inr ⟨UInt16.ofNat k, c :: t, by rw [u16_toUInt16 hk]; simp, ?_⟩
      rw [hr, if_neg (by simp [u16_len])]
      rw [bind_err]
      refine .inr ⟨c, t, read_u8_cons _ _, ?_⟩
      split
      · rw [bind_err, lift_err, he]; exact .inl ⟨hx, rfl⟩
      · rw [bind_err, lift_err, he]; exact .inl ⟨hx, rfl⟩
    | props hk hne hx =>
      rename_i k r t
      refine .inr ⟨UInt16.ofNat k, Spec.u8 (code r) ++ t, by rw [u16_toUInt16 hk]; simp, ?_⟩
      have : 1 ≤ t.length := List.length_pos_iff.2 hne
      rw [hr, if_neg (by simp [u16_len, u8_len])]
      rw [bind_err]
      refine .inr ⟨_, t, read_u8_cons _ _, ?_⟩
      rw [if_neg (by simp [u16_len, u8_len]; omega), bind_err]
      refine .inr ⟨r, t, by rw [lift_run, (hc _ _).2 rfl], ?_⟩
      rw [reason_bind_err _ _ (by simp at hb ⊢; omega)]
      exact .inl hx

include hh hb in
theorem ConnAck.read_err : (ConnAck.readM h (hd ++ bd)).1 = .err e ↔ ConnAckFails bd e := by
  unfold ConnAck.readM
  rw [bind_err, advance_err, advance_run hd bd _ hh]
  simp only [bind_err (M.lift _), bind_err read_u8, false_or, ok_inj, read_u8_err, read_u8_iff, lift_err,
    lift_run, Prod.mk.injEq, connect_return_err, connect_return_ok_iff]
  constructor
  · rintro ⟨_, _, ⟨-, rfl⟩, hx | ⟨f, t, rfl, hx | ⟨c, t, rfl, ⟨hx, rfl⟩ | ⟨r, _, ⟨rfl, rfl⟩, hx⟩⟩⟩⟩
    · exact .flags hx
    · exact .code hx
    · exact .badCode hx
    · rw [connack_bind_err _ _ (by simp at hb ⊢; omega)] at hx
      merr at hx
      exact .props hx
  · intro hx
    refine ⟨(), bd, ⟨trivial, rfl⟩, ?_⟩
    cases hx with
    | flags hx => exact .inl hx
    | code hx => exact .inr ⟨_, _, rfl, .inl hx⟩
    | badCode hx => exact .inr ⟨_, _, rfl, .inr ⟨_, _, rfl, .inl ⟨hx, rfl⟩⟩⟩
    | props hx =>
      refine .inr ⟨_, _, rfl, .inr ⟨_, _, rfl, .inr ⟨_, _, ⟨rfl, rfl⟩, ?_⟩⟩⟩
      rw [connack_bind_err _ _ (by simp [u8_len] at hb ⊢; omega)]
      exact .inl hx

include hh hb in
theorem Disconnect.read_err (h14 : h.byte1.toNat / 16 = 14) (h0 : bd ≠ [])
    (hr : h.remaining_len = bd.length) :
    (Disconnect.readM h (hd ++ bd)).1 = .err e ↔ DisconnectFails h.byte1 bd e := by
  have e1 : ∀ b : UInt8, b.toNat / 16 = 14 → b >>> 4 = PacketType.Disconnect.toU8 :=
    forall_u8 (by decide +kernel)
  have e2 : ∀ b : UInt8, b.toNat / 16 = 14 → (b &&& 15 = 0 ↔ b = 0xE0) :=
    forall_u8 (by decide +kernel)
  have hr0 : ¬ h.remaining_len = 0 := by
    rw [hr]; intro h1; exact h0 (List.eq_nil_of_length_eq_zero h1)
  unfold Disconnect.readM
  rw [bind_err, advance_err, advance_run hd bd _ hh]
  simp only [false_or, ok_inj, e1 _ h14, ne_eq, not_true_eq_false, if_false, hr0, e2 _ h14]
  constructor
  · rintro ⟨_, _, ⟨-, rfl⟩, hx⟩
    split at hx
    · rename_i hfl
      rw [fail_err] at hx; subst hx
      exact .reserved hfl
    · rename_i hfl
      rw [Classical.not_not] at hfl
      simp only [bind_err (M.lift _), bind_err read_u8, false_or, read_u8_err, read_u8_iff, lift_err,
        lift_run, Prod.mk.injEq, disconnect_reason_err, disconnect_reason_iff] at hx
      rcases hx with hx | ⟨c, t, rfl, ⟨hx, rfl⟩ | ⟨r, _, ⟨rfl, rfl⟩, hx⟩⟩
      · exact absurd hx.1 h0
      · exact .badCode hfl hx
      · rw [disconnect_bind_err _ _ (by simp at hb ⊢; omega)] at hx
        merr at hx
        exact .props hfl hx
  · intro hx
    refine ⟨(), bd, ⟨trivial, rfl⟩, ?_⟩
    cases hx with
    | reserved hx => rw [if_pos hx]; rfl
    | badCode hfl hx =>
      rw [if_neg (by simpa using hfl)]
      simp only [bind_err (M.lift _), bind_err read_u8, false_or, read_u8_err, read_u8_iff, lift_err,
        lift_run, Prod.mk.injEq, disconnect_reason_err, disconnect_reason_iff]
      exact .inr ⟨_, _, rfl, .inl ⟨hx, rfl⟩⟩
    | props hfl hx =>
      rw [if_neg (by simpa using hfl)]
      simp only [bind_err (M.lift _), bind_err read_u8, false_or, read_u8_err, read_u8_iff, lift_err,
        lift_run, Prod.mk.injEq, disconnect_reason_err, disconnect_reason_iff]
      refine .inr ⟨_, _, rfl, .inr ⟨_, _, ⟨rfl, rfl⟩, ?_⟩⟩
      rw [disconnect_bind_err _ _ (by simp [u8_len] at hb ⊢; omega)]
      exact .inl hx

theorem Login.read_err (flags : UInt8) (s : Bytes) :
    (Login.read flags s).1 = .err e ↔ Spec.V4.LoginFails flags s e := by
  have e7 : ∀ f : UInt8, (f &&& 128 = 0) ↔ ¬ bit f 7 := forall_u8 (by decide +kernel)
  have e6 : ∀ f : UInt8, (f &&& 64 = 0) ↔ ¬ bit f 6 := forall_u8 (by decide +kernel)
  have last : ∀ (u : String) (s : Bytes), ((do
      let password ← (if flags &&& 64 = 0 then pure "" else read_mqtt_string : M String)
      if u.isEmpty && password.isEmpty then pure none
      else pure (some { username := u, password := password }) : M (Option Login)) s).1 = .err e ↔
      bit flags 6 ∧ StrFails s e := by
    intro u s
    rw [bind_err]
    have : ∀ p : String, ∀ s' : Bytes, ¬ ((if u.isEmpty && p.isEmpty then pure none
      else pure (some { username := u, password := p }) : M (Option Login)) s').1 = .err e := by
      intro p s'; split <;> simp [pure_run]
    simp only [this, and_false, exists_false, or_false]
    by_cases h6 : bit flags 6
    · rw [if_neg (by rw [e6]; exact not_not_intro h6), read_mqtt_string_err]; simp [h6]
    · rw [if_pos ((e6 _).2 h6), pure_err]; simp [h6]
  unfold Login.read
  rw [bind_err]
  simp only [last]
  by_cases h7 : bit flags 7
  · rw [if_neg (by rw [e7]; exact not_not_intro h7), read_mqtt_string_err]
    simp only [read_mqtt_string_iff]
    constructor
    · rintro (hx | ⟨u, t, ⟨hu, rfl⟩, h6, hx⟩)
      · exact .username h7 hx
      · exact .password' h7 hu h6 hx
    · intro hx
      cases hx with
      | username _ hx => exact .inl hx
      | password h => exact absurd h7 h
      | password' _ hu h6 hx => exact .inr ⟨_, _, ⟨hu, rfl⟩, h6, hx⟩
  · rw [if_pos ((e7 _).2 h7), pure_err, false_or]
    simp only [pure_run, ok_inj]
    constructor
    · rintro ⟨_, _, ⟨rfl, rfl⟩, h6, hx⟩
      exact .password h7 h6 hx
    · intro hx
      cases hx with
      | username h => exact absurd h h7
      | password _ h6 hx => exact ⟨_, _, ⟨rfl, rfl⟩, h6, hx⟩
      | password' h => exact absurd h h7


include hh hb in
theorem Publish.read_err :
    (Publish.readM h (hd ++ bd)).1 = .err e ↔ PublishFails h.byte1 bd e := by
  have hq : ∀ b : UInt8, ((b &&& 6) >>> 1).toNat = b.toNat / 2 % 4 := forall_u8 (by decide +kernel)
  unfold Publish.readM
  rw [bind_err, lift_err, qos_field_err _ _ e (Nat.mod_lt _ (by decide)) (hq h.byte1)]
  simp only [bind_err, advance_err, lift_run, Prod.mk.injEq, qos_ok_iff, false_or, read_mqtt_string_err,
    read_mqtt_string_iff]
  constructor
  · rintro (⟨h3, rfl⟩ | ⟨q, _, ⟨h1, rfl⟩, _, _, h2, h3 | ⟨v, t, ⟨hv, rfl⟩, h4 | ⟨k, t', hk, h4⟩⟩⟩)
    · exact .qos h3
    · rw [advance_run hd bd _ hh, ok_inj] at h2
      obtain ⟨-, rfl⟩ := h2
      refine .topic ?_ h3
      rw [← hq, h1]; cases q <;> decide
    · rw [advance_run hd bd _ hh, ok_inj] at h2
      obtain ⟨-, rfl⟩ := h2
      rw [← UInt8.toNat_inj, hq] at h1
      cases q with
      | AtMostOnce => simp [pure_run] at h4
      | AtLeastOnce => exact .pkid (.inl h1) hv ((read_u16_err _ _).1 h4)
      | ExactlyOnce => exact .pkid (.inr h1) hv ((read_u16_err _ _).1 h4)
    · rw [advance_run hd bd _ hh, ok_inj] at h2
      obtain ⟨-, rfl⟩ := h2
      rw [← UInt8.toNat_inj, hq] at h1
      split at h4
      · rename_i h5
        obtain ⟨hq0, rfl⟩ := h5
        rw [fail_err] at h4
        subst h4
        cases q with
        | AtMostOnce => simp at hq0
        | AtLeastOnce =>
          rw [read_u16_iff] at hk; subst hk
          rw [← List.append_assoc]
          exact .pkidZero (.inl h1) hv
        | ExactlyOnce =>
          rw [read_u16_iff] at hk; subst hk
          rw [← List.append_assoc]
          exact .pkidZero (.inr h1) hv
      · rename_i h5
        simp only [List.length_append] at hb
        cases q with
        | AtMostOnce =>
          simp only [pure_run, ok_inj] at hk
          obtain ⟨rfl, rfl⟩ := hk
          rw [publish_bind_err _ _ (by omega)] at h4
          merr at h4
          exact .props0 h1 hv h4
        | AtLeastOnce =>
          rw [read_u16_iff] at hk; subst hk
          simp only [List.length_append] at hb
          rw [publish_bind_err _ _ (by omega)] at h4
          merr at h4
          have hk0 : k.toNat ≠ 0 := fun hk => h5 ⟨by simp, UInt16.toNat.inj hk⟩
          rw [← List.append_assoc]
          exact .props (.inl h1) hv hk0 k.toNat_lt h4
        | ExactlyOnce =>
          rw [read_u16_iff] at hk; subst hk
          simp only [List.length_append] at hb
          rw [publish_bind_err _ _ (by omega)] at h4
          merr at h4
          have hk0 : k.toNat ≠ 0 := fun hk => h5 ⟨by simp, UInt16.toNat.inj hk⟩
          rw [← List.append_assoc]
          exact .props (.inr h1) hv hk0 k.toNat_lt h4
  · intro hx
    cases hx with
    | qos h => exact .inl ⟨h, rfl⟩
    | topic h3 hx =>
      right
      have : ∃ q : QoS, (h.byte1 &&& 6) >>> 1 = q.toU8 := by
        have h1 := hq h.byte1
        have h5 : h.byte1.toNat / 2 % 4 = 0 ∨ h.byte1.toNat / 2 % 4 = 1 ∨
          h.byte1.toNat / 2 % 4 = 2 := by omega
        rcases h5 with h5 | h5 | h5 <;> rw [h5] at h1
        · exact ⟨.AtMostOnce, UInt8.toNat.inj h1⟩
        · exact ⟨.AtLeastOnce, UInt8.toNat.inj h1⟩
        · exact ⟨.ExactlyOnce, UInt8.toNat.inj h1⟩
      obtain ⟨q, hq'⟩ := this
      exact ⟨q, _, ⟨hq', rfl⟩, _, _, advance_run hd bd _ hh, .inl hx⟩
    | pkid hq' hv hx =>
      right
      rcases hq' with hq' | hq' <;> rw [← hq] at hq'
      · exact ⟨.AtLeastOnce, _, ⟨UInt8.toNat.inj hq', rfl⟩, _, _, advance_run hd _ _ hh,
          .inr ⟨_, _, ⟨hv, rfl⟩, .inl ((read_u16_err _ _).2 hx)⟩⟩
      · exact ⟨.ExactlyOnce, _, ⟨UInt8.toNat.inj hq', rfl⟩, _, _, advance_run hd _ _ hh,
          .inr ⟨_, _, ⟨hv, rfl⟩, .inl ((read_u16_err _ _).2 hx)⟩⟩
    | pkidZero hq' hv =>
      right
      rename_i v t
      rcases hq' with hq' | hq' <;> rw [← hq] at hq'
      · refine ⟨.AtLeastOnce, _, ⟨UInt8.toNat.inj hq', rfl⟩, _, _, advance_run hd _ _ hh,
          .inr ⟨_, _, ⟨hv, List.append_assoc _ _ _⟩, .inr ⟨0, t, ?_, ?_⟩⟩⟩
        · exact (read_u16_iff _ _ _).2 rfl
        · simp [fail_run]
      · refine ⟨.ExactlyOnce, _, ⟨UInt8.toNat.inj hq', rfl⟩, _, _, advance_run hd _ _ hh,
          .inr ⟨_, _, ⟨hv, List.append_assoc _ _ _⟩, .inr ⟨0, t, ?_, ?_⟩⟩⟩
        · exact (read_u16_iff _ _ _).2 rfl
        · simp [fail_run]
    | props0 hq' hv hx =>
      right
      rename_i v t
      rw [← hq] at hq'
      refine ⟨.AtMostOnce, _, ⟨UInt8.toNat.inj hq', rfl⟩, _, _, advance_run hd _ _ hh,
        .inr ⟨_, _, ⟨hv, rfl⟩, .inr ⟨0, t, rfl, ?_⟩⟩⟩
      rw [if_neg (by simp), publish_bind_err _ _ (by simp at hb ⊢; omega)]
      exact .inl hx
    | props hq' hv hk0 hk hx =>
      right
      rename_i v k t
      have hk0' : ¬ UInt16.ofNat k = 0 := by
        intro h0
        have := congrArg UInt16.toNat h0
        rw [u16_toUInt16 hk] at this
        exact hk0 this
      rcases hq' with hq' | hq' <;> rw [← hq] at hq'
      · refine ⟨.AtLeastOnce, _, ⟨UInt8.toNat.inj hq', rfl⟩, _, _, advance_run hd _ _ hh,
          .inr ⟨_, _, ⟨hv, List.append_assoc _ _ _⟩, .inr ⟨UInt16.ofNat k, t, ?_, ?_⟩⟩⟩
        · exact (read_u16_iff _ _ _).2 (by rw [u16_toUInt16 hk])
        · rw [if_neg (by simp [hk0']), publish_bind_err _ _ (by simp at hb ⊢; omega)]
          exact .inl hx
      · refine ⟨.ExactlyOnce, _, ⟨UInt8.toNat.inj hq', rfl⟩, _, _, advance_run hd _ _ hh,
          .inr ⟨_, _, ⟨hv, List.append_assoc _ _ _⟩, .inr ⟨UInt16.ofNat k, t, ?_, ?_⟩⟩⟩
        · exact (read_u16_iff _ _ _).2 (by rw [u16_toUInt16 hk])
        · rw [if_neg (by simp [hk0']), publish_bind_err _ _ (by simp at hb ⊢; omega)]
          exact .inl hx

/-- how a list of subscription filters can fail -/
inductive FilterFails : Bytes → Error → Prop where
  | path {good fs t e} : FiltersDenote good fs → t ≠ [] → StrFails t e → FilterFails (good ++ t) e
  | options {good fs v t e} : FiltersDenote good fs → fits (utf8 v).length → U8Fails t e →
      FilterFails (good ++ (str v ++ t)) e
  | rule {good fs v o t} : FiltersDenote good fs → fits (utf8 v).length → o.toNat / 16 % 4 = 3 →
      FilterFails (good ++ (str v ++ (o :: t))) (.InvalidRetainForwardRule 3)
  | qos {good fs v o t} : FiltersDenote good fs → fits (utf8 v).length → o.toNat / 16 % 4 ≠ 3 →
      o.toNat % 4 = 3 → FilterFails (good ++ (str v ++ (o :: t))) (.InvalidQoS 3)

theorem filterFails_cons {f : SubscribeFilter} {o : UInt8} {s : Bytes}
    (hp : fits (utf8 f.path).length) (ho : o.toNat % 64 = subOptions f) (hx : FilterFails s e) :
    FilterFails (str f.path ++ (o :: s)) e := by
  have key : ∀ {good fs}, FiltersDenote good fs →
      FiltersDenote (str f.path ++ [o] ++ good) (f :: fs) := fun hg => .cons f o _ _ hp ho hg
  cases hx with
  | path hg hne ht => simpa using FilterFails.path (key hg) hne ht
  | options hg hv ht => simpa using FilterFails.options (key hg) hv ht
  | rule hg hv ht => simpa using FilterFails.rule (key hg) hv ht
  | qos hg hv h3 ht => simpa using FilterFails.qos (key hg) hv h3 ht

theorem Subscribe.readLoop_err (fuel : Nat) (acc : List SubscribeFilter) (s : Bytes)
    (hf : s.length < fuel) :
    (Subscribe.readLoop fuel acc s).1 = .err e ↔ FilterFails s e := by
  have hr3 : ∀ (o : UInt8) (ru : RetainForwardRule), (o >>> 4) &&& 3 = UInt8.ofNat (ruleNum ru) →
      o.toNat / 16 % 4 ≠ 3 := by
    intro o ru; revert o; cases ru <;> exact forall_u8 (by decide +kernel)
  have hr3' : ∀ o : UInt8, o.toNat / 16 % 4 ≠ 3 →
      (o >>> 4) &&& 3 = UInt8.ofNat (ruleNum .OnEverySubscribe) ∨
      (o >>> 4) &&& 3 = UInt8.ofNat (ruleNum .OnNewSubscribe) ∨
      (o >>> 4) &&& 3 = UInt8.ofNat (ruleNum .Never) := forall_u8 (by decide +kernel)
  induction fuel generalizing s acc with
  | zero => omega
  | succ n ih =>
    rw [Subscribe.readLoop]
    by_cases he : s = []
    · subst he
      mrun
      simp only [List.isEmpty_nil, if_true, reduceCtorEq, false_iff]
      intro hx
      generalize hb : ([] : Bytes) = b at hx
      cases hx with
      | path hg hne ht => simp at hb; exact hne hb.2
      | options hg hv ht => exact str_ne_nil _ _ (List.append_eq_nil_iff.1 hb.symm).2
      | rule hg hv ht => exact str_ne_nil _ _ (List.append_eq_nil_iff.1 hb.symm).2
      | qos hg hv h3 ht => exact str_ne_nil _ _ (List.append_eq_nil_iff.1 hb.symm).2
    · have hnemp : s.isEmpty = false := by simpa using he
      rw [bind_run, look_run, andThen_ok]
      simp only [hnemp, Bool.false_eq_true, if_false]
      merr [option_qos_err, rule_err, qos_ok_iff, rule_ok_iff]
      constructor
      · rintro (hx | ⟨p, s1, ⟨hp, rfl⟩, hx | ⟨o, s2, rfl, ⟨ho, rfl⟩ | ⟨ru, _, ⟨hru, rfl⟩,
          ⟨ho, rfl⟩ | ⟨q, _, ⟨ho, rfl⟩, h1⟩⟩⟩⟩)
        · exact FilterFails.path .nil he hx
        · exact FilterFails.options .nil hp hx
        · exact FilterFails.rule .nil hp ho
        · exact FilterFails.qos .nil hp (hr3 _ _ hru) ho
        · have hlt : s2.length < n := by
            simp only [List.length_append, List.length_cons, str_len] at hf; omega
          exact filterFails_cons e (f := ⟨p, q, decide ((o >>> 2) &&& 1 ≠ 0),
            decide ((o >>> 3) &&& 1 ≠ 0), ru⟩) hp ((subOptions_iff _ _).1 ⟨ho, rfl, rfl, hru⟩)
            ((ih _ _ hlt).1 h1)
      · intro hx
        have step : ∀ {good fs}, FiltersDenote good fs → (∃ f fs', fs = f :: fs' ∧ ∃ o good',
              fits (utf8 f.path).length ∧
              o.toNat % 64 = subOptions f ∧ good = str f.path ++ [o] ++ good' ∧
              FiltersDenote good' fs') ∨ (fs = [] ∧ good = []) := by
          intro good fs hg
          cases hg with
          | nil => exact .inr ⟨rfl, rfl⟩
          | cons f o s2 l hp ho hl => exact .inl ⟨_, _, rfl, o, s2, hp, ho, rfl, hl⟩
        -- one good filter in front
        have go : ∀ (f : SubscribeFilter) (o : UInt8) (r : Bytes), fits (utf8 f.path).length →
            o.toNat % 64 = subOptions f → s = str f.path ++ (o :: r) → FilterFails r e →
            StrFails s e ∨ ∃ x x_1, (fits (utf8 x).length ∧ s = str x ++ x_1) ∧
              (U8Fails x_1 e ∨ ∃ x_2 x_3, x_1 = x_2 :: x_3 ∧
                (x_2.toNat / 16 % 4 = 3 ∧ e = Error.InvalidRetainForwardRule 3 ∨
                  ∃ x_4 x_5, ((x_2 >>> 4) &&& 3 = UInt8.ofNat (ruleNum x_4) ∧ x_3 = x_5) ∧
                    (x_2.toNat % 4 = 3 ∧ e = Error.InvalidQoS 3 ∨
                      ∃ x_6 x_7, (x_2 &&& 3 = QoS.toU8 x_6 ∧ x_5 = x_7) ∧
                        (Subscribe.readLoop n (acc ++ [⟨x, x_6, decide ((x_2 >>> 2) &&& 1 ≠ 0),
                          decide ((x_2 >>> 3) &&& 1 ≠ 0), x_4⟩]) x_7).1 = .err e))) := by
          intro f o r hp ho hs hxr
          obtain ⟨h1, h2, h3, h4⟩ := (subOptions_iff o f).2 ho
          refine .inr ⟨f.path, _, ⟨hp, hs⟩, .inr ⟨o, r, rfl, .inr ⟨_, _, ⟨h4, rfl⟩, .inr
            ⟨_, _, ⟨h1, rfl⟩, (ih _ _ ?_).2 hxr⟩⟩⟩⟩
          subst hs
          simp only [List.length_append, List.length_cons, str_len] at hf ⊢; omega
        cases hx with
        | path hg htn ht =>
          rcases step hg with ⟨f, fs', rfl, o, g', hp, ho, rfl, hl⟩ | ⟨rfl, rfl⟩
          · exact go f o _ hp ho (by simp) (.path hl htn ht)
          · exact .inl ht
        | options hg hv ht =>
          rcases step hg with ⟨f, fs', rfl, o, g', hp, ho, rfl, hl⟩ | ⟨rfl, rfl⟩
          · exact go f o _ hp ho (by simp) (.options hl hv ht)
          · exact .inr ⟨_, _, ⟨hv, rfl⟩, .inl ht⟩
        | rule hg hv ht =>
          rename_i good fs v o' t
          rcases step hg with ⟨f, fs', rfl, o, g', hp, ho, rfl, hl⟩ | ⟨rfl, rfl⟩
          · exact go f o _ hp ho (by simp) (.rule (t := t) hl hv ht)
          · exact .inr ⟨_, _, ⟨hv, rfl⟩, .inr ⟨_, _, rfl, .inl ⟨ht, rfl⟩⟩⟩
        | qos hg hv h3 ht =>
          rename_i good fs v o' t
          rcases step hg with ⟨f, fs', rfl, o, g', hp, ho, rfl, hl⟩ | ⟨rfl, rfl⟩
          · exact go f o _ hp ho (by simp) (.qos (t := t) hl hv h3 ht)
          · refine .inr ⟨_, _, ⟨hv, rfl⟩, .inr ⟨_, _, rfl, .inr ?_⟩⟩
            rcases hr3' _ h3 with h4 | h4 | h4 <;> exact ⟨_, _, ⟨h4, rfl⟩, .inl ⟨ht, rfl⟩⟩

include hh hb in
theorem Subscribe.read_err : (Subscribe.readM h (hd ++ bd)).1 = .err e ↔ SubscribeFails bd e := by
  unfold Subscribe.readM
  rw [bind_err, advance_err, advance_run hd bd _ hh]
  simp only [bind_err read_u16, false_or, ok_inj, read_u16_err, read_u16_iff]
  have hl : ∀ s : Bytes, (Subscribe.readLoop (s.length + 1) [] s).1 = .err e ↔ FilterFails s e :=
    fun s => Subscribe.readLoop_err e _ _ s (Nat.lt_succ_self _)
  have hex : ∀ t : Bytes, t.length ≤ maxRemaining → ∀ k : UInt16, ((do
      let properties ← SubscribeProperties.extract
      let bytes ← M.look
      let filters ← Subscribe.readLoop (bytes.length + 1) []
      pure { pkid := k, filters := filters, properties := properties } : M Subscribe) t).1 = .err e ↔
      SecFails subscribeKind t e ∨ ∃ sec ps r, t = sec ++ r ∧ SecDenotes subscribeKind sec ps ∧
        FilterFails r e := by
    intro t ht k
    rw [subscribe_bind_err _ _ ht]
    merr
    simp only [← hl]
    constructor
    · rintro (hx | ⟨sec, ps, r, rfl, hs, _, _, ⟨rfl, rfl⟩, hx⟩)
      · exact .inl hx
      · exact .inr ⟨sec, ps, r, rfl, hs, hx⟩
    · rintro (hx | ⟨sec, ps, r, rfl, hs, hx⟩)
      · exact .inl hx
      · exact .inr ⟨sec, ps, r, rfl, hs, _, _, ⟨rfl, rfl⟩, hx⟩
  constructor
  · rintro ⟨_, _, ⟨-, rfl⟩, hx | ⟨k, t, rfl, hx⟩⟩
    · exact .pkid hx
    · have hk := k.toNat_lt
      rcases (hex t (by simp at hb; omega) k).1 hx with hx | ⟨sec, ps, r, rfl, hs, hx⟩
      · exact .props hk hx
      · cases hx with
        | path hg hne ht => simpa using SubscribeFails.path hk hs hg hne ht
        | options hg hv ht => simpa using SubscribeFails.options hk hs hg hv ht
        | rule hg hv ht =>
          rename_i good fs v o t
          simpa using SubscribeFails.rule (t := t) hk hs hg hv ht
        | qos hg hv h3 ht =>
          rename_i good fs v o t
          simpa using SubscribeFails.qos (t := t) hk hs hg hv h3 ht
  · intro hx
    refine ⟨(), bd, ⟨trivial, rfl⟩, ?_⟩
    have go : ∀ k t, k < 65536 → bd = Spec.u16 k ++ t →
        (SecFails subscribeKind t e ∨ ∃ sec ps r, t = sec ++ r ∧ SecDenotes subscribeKind sec ps ∧
        FilterFails r e) → ∃ (k' : UInt16) (t' : Bytes), bd = Spec.u16 k'.toNat ++ t' ∧ ((do
      let properties ← SubscribeProperties.extract
      let bytes ← M.look
      let filters ← Subscribe.readLoop (bytes.length + 1) []
      pure { pkid := k', filters := filters, properties := properties } : M Subscribe) t').1 = .err e := by
      intro k t hk hs h2
      exact ⟨UInt16.ofNat k, t, by rw [u16_toUInt16 hk, hs],
        (hex t (by rw [hs] at hb; simp at hb; omega) _).2 h2⟩
    cases hx with
    | pkid hx => exact .inl hx
    | props hk hx => exact .inr (go _ _ hk rfl (.inl hx))
    | path hk hs hg hne ht =>
      exact .inr (go _ _ hk (by simp only [List.append_assoc]) (.inr ⟨_, _, _, rfl, hs, .path hg hne ht⟩))
    | options hk hs hg hv ht =>
      exact .inr (go _ _ hk (by simp only [List.append_assoc]) (.inr ⟨_, _, _, rfl, hs, .options hg hv ht⟩))
    | rule hk hs hg hv ht =>
      rename_i t
      exact .inr (go _ _ hk (by simp only [List.append_assoc]; rfl)
        (.inr ⟨_, _, _, rfl, hs, .rule (t := t) hg hv ht⟩))
    | qos hk hs hg hv h3 ht =>
      rename_i t
      exact .inr (go _ _ hk (by simp only [List.append_assoc]; rfl)
        (.inr ⟨_, _, _, rfl, hs, .qos (t := t) hg hv h3 ht⟩))

theorem readCodesLoop_err {C : Type} {conv : UInt8 → Res C} {code : C → Nat} {E : UInt8 → Error}
    (hc : ∀ n c, conv n = .ok c ↔ n = UInt8.ofNat (code c))
    (hce : ∀ n e, conv n = .err e ↔ (∀ c, n.toNat ≠ code c) ∧ e = E n)
    (fuel : Nat) (acc : List C) (s : Bytes) (hf : s.length < fuel) :
    (readCodesLoop conv fuel acc s).1 = .err e ↔
      ∃ cs c t, s = List.flatMap (fun r => Spec.u8 (code r)) cs ++ (c :: t) ∧
        (∀ r, c.toNat ≠ code r) ∧ e = E c := by
  induction fuel generalizing s acc with
  | zero => omega
  | succ n ih =>
    rw [readCodesLoop]
    cases s with
    | nil =>
      mrun
      simp only [List.isEmpty_nil, if_true, reduceCtorEq, false_iff]
      rintro ⟨cs, c, t, hx, _⟩
      simp at hx
    | cons b s =>
      rw [bind_run, look_run, andThen_ok]
      simp only [List.isEmpty_cons, Bool.false_eq_true, if_false]
      merr [hc, hce]
      have hlt : s.length < n := by simp only [List.length_cons] at hf; omega
      have hu : ¬ U8Fails (b :: s) e := fun h0 => by simp [U8Fails] at h0
      constructor
      · rintro (hx | ⟨_, _, h0, ⟨hx, rfl⟩ | ⟨c, _, ⟨hc, rfl⟩, h1⟩⟩)
        · exact absurd hx hu
        · obtain ⟨rfl, rfl⟩ := List.cons.inj h0
          exact ⟨[], b, s, rfl, hx, rfl⟩
        · obtain ⟨rfl, rfl⟩ := List.cons.inj h0
          obtain ⟨cs, c', t, rfl, h2, rfl⟩ := (ih _ _ hlt).1 h1
          exact ⟨c :: cs, c', t, by simp [hc, Spec.u8], h2, rfl⟩
      · rintro ⟨cs, c, t, h0, h1, rfl⟩
        right
        refine ⟨b, s, rfl, ?_⟩
        cases cs with
        | nil =>
          obtain ⟨rfl, rfl⟩ := List.cons.inj h0
          exact .inl ⟨h1, rfl⟩
        | cons c' cs =>
          simp only [List.flatMap_cons, Spec.u8, List.cons_append, List.nil_append,
            List.cons.injEq] at h0
          exact .inr ⟨c', s, ⟨h0.1, rfl⟩, (ih _ _ hlt).2 ⟨cs, c, t, h0.2, h1, rfl⟩⟩

/-- the part of SUBACK and UNSUBACK after the packet id -/
theorem codes_err {C P : Type} {conv : UInt8 → Res C} {code : C → Nat}
    (hc : ∀ n c, conv n = .ok c ↔ n = UInt8.ofNat (code c))
    (hce : ∀ n e, conv n = .err e ↔ (∀ c, n.toNat ≠ code c) ∧ e = .InvalidSubscribeReasonCode n)
    (mk : Option ReasonProps → List C → P) (t : Bytes) (ht : t.length ≤ maxRemaining) :
    ((do
      let properties ← ReasonProps.extract
      let bytes ← M.look
      if bytes.isEmpty then M.fail .MalformedPacket else do
      let cs ← readCodesLoop conv (bytes.length + 1) []
      pure (mk properties cs) : M P) t).1 = .err e ↔
      ∀ k, k < 65536 → CodesFail code (Spec.u16 k ++ t) e := by
  have hu : ∀ k t, ¬ U16Fails (Spec.u16 k ++ t) e := by
    rintro k t ⟨h1, _⟩; simp [u16_len] at h1
    omega
  rw [reason_bind_err _ _ ht]
  simp only [bind_err M.look, look_err, look_run, ok_inj, reduceCtorEq, false_or]
  constructor
  · rintro (hx | ⟨sec, ps, r, rfl, hs, _, _, ⟨rfl, rfl⟩, hx⟩) k hk
    · exact .props hk hx
    · split at hx
      · rename_i h0
        have : r = [] := by simpa using h0
        subst this
        rw [fail_err] at hx; subst hx
        rw [List.append_nil]
        exact .none hk hs
      · merr at hx
        obtain ⟨cs, c, t, rfl, h1, rfl⟩ := (readCodesLoop_err e hc hce _ _ _ (Nat.lt_succ_self _)).1 hx
        simpa using CodesFail.badCode (cs := cs) (t := t) hk hs h1
  · intro hx
    have hx := hx 0 (by decide)
    generalize hw : Spec.u16 0 ++ t = w at hx
    cases hx with
    | pkid hx => subst hw; exact absurd hx (hu _ _)
    | props hk hx => obtain ⟨rfl, rfl⟩ := u16_append_inj (by decide) hk hw; exact .inl hx
    | none hk hs =>
      obtain ⟨rfl, rfl⟩ := u16_append_inj (by decide) hk hw
      exact .inr ⟨_, _, [], by simp, hs, _, _, ⟨rfl, rfl⟩, rfl⟩
    | badCode hk hs h1 =>
      rename_i k sec ps cs c r
      simp only [List.append_assoc] at hw
      obtain ⟨rfl, rfl⟩ := u16_append_inj (by decide) hk hw
      refine .inr ⟨_, _, _, rfl, hs, _, _, ⟨rfl, rfl⟩, ?_⟩
      rw [if_neg (by simp)]
      merr
      exact (readCodesLoop_err _ hc hce _ _ _ (Nat.lt_succ_self _)).2 ⟨cs, c, r, rfl, h1, rfl⟩

theorem codesFail_irrel {C : Type} {code : C → Nat} {k k' : Nat} {t : Bytes} {e : Error}
    (hk : k < 65536) (hk' : k' < 65536) (hx : CodesFail code (Spec.u16 k ++ t) e) :
    CodesFail code (Spec.u16 k' ++ t) e := by
  generalize hw : Spec.u16 k ++ t = w at hx
  cases hx with
  | pkid hx => subst hw; have := hx.1; simp [u16_len] at this; omega
  | props hk1 hx => obtain ⟨rfl, rfl⟩ := u16_append_inj hk hk1 hw; exact .props hk' hx
  | none hk1 hs => obtain ⟨rfl, rfl⟩ := u16_append_inj hk hk1 hw; exact .none hk' hs
  | badCode hk1 hs h1 =>
    simp only [List.append_assoc] at hw
    rename_i cs c r
    obtain ⟨rfl, rfl⟩ := u16_append_inj hk hk1 hw
    have := CodesFail.badCode (code := code) (k := k') (cs := cs) (t := r) hk' hs h1
    simpa using this

include hb in
theorem codes_all {C P : Type} {conv : UInt8 → Res C} {code : C → Nat}
    (hc : ∀ n c, conv n = .ok c ↔ n = UInt8.ofNat (code c))
    (hce : ∀ n e, conv n = .err e ↔ (∀ c, n.toNat ≠ code c) ∧ e = .InvalidSubscribeReasonCode n)
    (mk : UInt16 → Option ReasonProps → List C → P) :
    ((do
      let k ← read_u16
      let properties ← ReasonProps.extract
      let bytes ← M.look
      if bytes.isEmpty then M.fail .MalformedPacket else do
      let cs ← readCodesLoop conv (bytes.length + 1) []
      pure (mk k properties cs) : M P) bd).1 = .err e ↔ CodesFail code bd e := by
  rw [bind_err, read_u16_err]
  simp only [read_u16_iff]
  constructor
  · rintro (hx | ⟨k, t, rfl, hx⟩)
    · exact .pkid hx
    · exact (codes_err e hc hce (mk k) t (by simp at hb; omega)).1 hx _ k.toNat_lt
  · intro hx
    rcases short_or_u16 bd with hs | ⟨n, t, rfl⟩
    · have hlen : ∀ k (r : Bytes), bd = Spec.u16 k ++ r → False := by
        intro k r h0; rw [h0] at hs; simp [u16_len] at hs; omega
      cases hx with
      | pkid hx => exact .inl hx
      | props => exact (hlen _ _ rfl).elim
      | none => exact (hlen _ _ rfl).elim
      | badCode => exact (hlen _ _ (by simp only [List.append_assoc]; rfl)).elim
    · exact .inr ⟨n, t, rfl, (codes_err e hc hce (mk n) t (by simp at hb; omega)).2
        fun k hk => codesFail_irrel n.toNat_lt hk hx⟩

include hh hb in
theorem SubAck.read_err : (SubAck.readM h (hd ++ bd)).1 = .err e ↔ CodesFail subCode bd e := by
  unfold SubAck.readM
  rw [bind_run, advance_run hd bd _ hh, andThen_ok]
  exact codes_all bd hb e sub_reason_iff sub_reason_err fun k ps cs => (⟨k, cs, ps⟩ : SubAck)

include hh hb in
theorem UnsubAck.read_err : (UnsubAck.readM h (hd ++ bd)).1 = .err e ↔ CodesFail unsubCode bd e := by
  unfold UnsubAck.readM
  rw [bind_run, advance_run hd bd _ hh, andThen_ok]
  exact codes_all bd hb e unsub_reason_iff unsub_reason_err fun k ps cs => (⟨k, cs, ps⟩ : UnsubAck)

theorem Unsubscribe.readLoop_err (fuel : Nat) (acc : List String) (s : Bytes)
    (hf : s.length < fuel) :
    (Unsubscribe.readLoop fuel acc s).1 = .err e ↔
      ∃ ts t, s = List.flatMap str ts ++ t ∧ (∀ v ∈ ts, fits (utf8 v).length) ∧ t ≠ [] ∧
        StrFails t e := by
  induction fuel generalizing s acc with
  | zero => omega
  | succ n ih =>
    rw [Unsubscribe.readLoop]
    by_cases he : s = []
    · subst he
      mrun
      simp only [List.isEmpty_nil, if_true, reduceCtorEq, false_iff]
      rintro ⟨ts, t, h0, _, hne, _⟩
      exact hne (List.append_eq_nil_iff.1 h0.symm).2
    · have hnemp : s.isEmpty = false := by simpa using he
      rw [bind_run, look_run, andThen_ok]
      simp only [hnemp, Bool.false_eq_true, if_false]
      merr
      constructor
      · rintro (hx | ⟨t, s1, ⟨ht, hs⟩, h1⟩)
        · exact ⟨[], s, rfl, by simp, he, hx⟩
        · have hlt : s1.length < n := by
            subst hs; simp only [List.length_append, str_len] at hf; omega
          obtain ⟨ts, t', rfl, h2, h3, h4⟩ := (ih _ _ hlt).1 h1
          refine ⟨t :: ts, t', by simp [hs], ?_, h3, h4⟩
          intro v hv
          rcases List.mem_cons.1 hv with rfl | hv
          · exact ht
          · exact h2 v hv
      · rintro ⟨ts, t, hs, h2, h3, h4⟩
        cases ts with
        | nil => left; simpa [hs] using h4
        | cons v ts =>
          have hs' : s = str v ++ (List.flatMap str ts ++ t) := by simp [hs]
          have hlt : (List.flatMap str ts ++ t).length < n := by
            rw [hs'] at hf; rw [List.length_append, str_len] at hf; omega
          refine .inr ⟨v, _, ⟨h2 v (by simp), hs'⟩, ?_⟩
          exact (ih _ _ hlt).2 ⟨ts, t, rfl, fun x hx => h2 x (by simp [hx]), h3, h4⟩

include hh hb in
theorem Unsubscribe.read_err :
    (Unsubscribe.readM h (hd ++ bd)).1 = .err e ↔ UnsubscribeFails bd e := by
  unfold Unsubscribe.readM
  rw [bind_err, advance_err, advance_run hd bd _ hh]
  simp only [bind_err read_u16, false_or, ok_inj, read_u16_err, read_u16_iff]
  constructor
  · rintro ⟨_, _, ⟨-, rfl⟩, hx | ⟨k, t, rfl, hx⟩⟩
    · exact .pkid hx
    · rw [unsubscribe_bind_err _ _ (by simp at hb; omega)] at hx
      merr at hx
      rcases hx with hx | ⟨sec, ps, r, rfl, hs, _, _, ⟨rfl, rfl⟩, hx⟩
      · exact .props k.toNat_lt hx
      · obtain ⟨ts, t', rfl, h2, h3, h4⟩ :=
          (Unsubscribe.readLoop_err e _ _ _ (Nat.lt_succ_self _)).1 hx
        simpa using UnsubscribeFails.topic k.toNat_lt hs h2 h3 h4
  · intro hx
    refine ⟨(), bd, ⟨trivial, rfl⟩, ?_⟩
    cases hx with
    | pkid hx => exact .inl hx
    | props hk hx =>
      refine .inr ⟨_, _, read_u16_lt hk _, ?_⟩
      rw [unsubscribe_bind_err _ _ (by simp at hb; omega)]
      exact .inl hx
    | topic hk hs h2 h3 h4 =>
      refine .inr ⟨_, _, by rw [List.append_assoc, List.append_assoc, read_u16_lt hk], ?_⟩
      rw [unsubscribe_bind_err _ _ (by simp only [List.length_append] at hb ⊢; omega)]
      merr
      refine .inr ⟨_, _, _, rfl, hs, _, _, ⟨rfl, rfl⟩, ?_⟩
      exact (Unsubscribe.readLoop_err e _ _ _ (Nat.lt_succ_self _)).2 ⟨_, _, rfl, h2, h3, h4⟩

theorem LastWill.read_err (flags : UInt8) (s : Bytes) (hsl : s.length ≤ maxRemaining) :
    (LastWill.read flags s).1 = .err e ↔ WillFails flags s e := by
  have e4 : ∀ f : UInt8, (f &&& 4 = 0) ↔ ¬ bit f 2 := forall_u8 (by decide +kernel)
  have e38 : ∀ f : UInt8, (f &&& 56 ≠ 0) ↔ (bit f 3 ∨ bit f 4 ∨ bit f 5) :=
    forall_u8 (by decide +kernel)
  have hq : ∀ b : UInt8, ((b &&& 24) >>> 3).toNat = b.toNat / 8 % 4 := forall_u8 (by decide +kernel)
  unfold LastWill.read
  by_cases h4 : flags &&& 4 = 0
  · rw [if_pos h4]
    rw [e4] at h4
    by_cases h38 : flags &&& 56 ≠ 0
    · rw [if_pos h38, fail_err]
      rw [e38] at h38
      constructor
      · rintro rfl; exact .stray h4 h38
      · intro hx
        cases hx with
        | stray => rfl
        | props h => exact absurd h h4
        | topic h => exact absurd h h4
        | message h => exact absurd h h4
        | qos h => exact absurd h h4
    · rw [if_neg h38, pure_err, false_iff]
      rw [e38] at h38
      intro hx
      cases hx with
      | stray _ h => exact h38 h
      | props h => exact absurd h h4
      | topic h => exact absurd h h4
      | message h => exact absurd h h4
      | qos h => exact absurd h h4
  · rw [if_neg h4]
    rw [e4, Classical.not_not] at h4
    rw [will_bind_err _ _ hsl]
    merr [qos_field_err _ _ e (Nat.mod_lt _ (by decide)) (hq flags)]
    constructor
    · rintro (hx | ⟨sec, ps, r, rfl, hs, hx | ⟨v, t, ⟨hv, rfl⟩, hx | ⟨m, t, ⟨hm, rfl⟩, hx, rfl⟩⟩⟩)
      · exact .props h4 hx
      · exact .topic h4 hs hx
      · rw [← List.append_assoc]; exact .message h4 hs hv hx
      · rw [← List.append_assoc, ← List.append_assoc]; exact .qos h4 hs hv hm hx
    · intro hx
      cases hx with
      | stray h => exact absurd h4 h
      | props _ hx => exact .inl hx
      | topic _ hs hx => exact .inr ⟨_, _, _, rfl, hs, .inl hx⟩
      | message _ hs hv hx =>
        exact .inr ⟨_, _, _, List.append_assoc _ _ _, hs, .inr ⟨_, _, ⟨hv, rfl⟩, .inl hx⟩⟩
      | qos _ hs hv hm hx =>
        exact .inr ⟨_, _, _, by simp only [List.append_assoc]; rfl, hs, .inr ⟨_, _, ⟨hv, rfl⟩,
          .inr ⟨_, _, ⟨hm, rfl⟩, hx, rfl⟩⟩⟩


/-- the part of CONNECT from the properties on, for a level -/
theorem Connect.tail_err {α : Type} (pr : Protocol) (f : UInt8)
    (mk : Option ConnectProperties → String → Option LastWill → Option Login → α)
    (s : Bytes) (hs : s.length ≤ maxRemaining) :
    ((do
      let properties ← (match pr with
        | .V5 => ConnectProperties.read
        | .V4 => pure none : M (Option ConnectProperties))
      let client_id ← read_mqtt_string
      let last_will ← LastWill.read f
      let login ← Login.read f
      pure (mk properties client_id last_will login) : M α) s).1 = .err e ↔
    (pr = .V5 ∧ SecFails connectKind s e) ∨
    ∃ sec t, s = sec ++ t ∧ ConnSec (UInt8.ofNat (level pr)) sec ∧ (StrFails t e ∨
      ∃ id t', fits (utf8 id).length ∧ t = str id ++ t' ∧ (WillFails f t' e ∨
        ∃ wb w r, t' = wb ++ r ∧ WillDenotes f wb w ∧ Spec.V4.LoginFails f r e)) := by
  have tl : ∀ (ps : Option ConnectProperties) (t : Bytes), t.length ≤ maxRemaining →
      (((do
      let client_id ← read_mqtt_string
      let last_will ← LastWill.read f
      let login ← Login.read f
      pure (mk ps client_id last_will login) : M α) t).1 = .err e ↔ (StrFails t e ∨
      ∃ id t', fits (utf8 id).length ∧ t = str id ++ t' ∧ (WillFails f t' e ∨
        ∃ wb w r, t' = wb ++ r ∧ WillDenotes f wb w ∧ Spec.V4.LoginFails f r e))) := by
    intro ps t ht
    simp only [bind_err, read_mqtt_string_err, read_mqtt_string_iff, pure_err, Login.read_err,
      and_false, exists_false, or_false]
    refine or_congr Iff.rfl ?_
    constructor
    · rintro ⟨id, t', ⟨hid, rfl⟩, hx⟩
      have hl : t'.length ≤ maxRemaining := by simp only [List.length_append] at ht; omega
      refine ⟨id, t', hid, rfl, ?_⟩
      rcases hx with hx | ⟨w, r, hw, hx⟩
      · exact .inl ((LastWill.read_err e f t' hl).1 hx)
      · obtain ⟨wb, rfl, hwd⟩ := (LastWill.read_iff _ _ _ _ hl).1 hw
        exact .inr ⟨wb, w, r, rfl, hwd, hx⟩
    · rintro ⟨id, t', hid, rfl, hx⟩
      have hl : t'.length ≤ maxRemaining := by simp only [List.length_append] at ht; omega
      refine ⟨id, t', ⟨hid, rfl⟩, ?_⟩
      rcases hx with hx | ⟨wb, w, r, rfl, hw, hx⟩
      · exact .inl ((LastWill.read_err e f t' hl).2 hx)
      · exact .inr ⟨w, r, (LastWill.read_iff _ _ _ _ hl).2 ⟨wb, rfl, hw⟩, hx⟩
  cases pr with
  | V4 =>
    simp only [bind_run, pure_run, andThen_ok]
    have := tl none s hs
    simp only [bind_run] at this
    rw [this]
    simp only [reduceCtorEq, false_and, false_or]
    constructor
    · intro hx; exact ⟨[], s, rfl, by simp [ConnSec, level], hx⟩
    · rintro ⟨sec, t, rfl, hsec, hx⟩
      have : sec = [] := by simpa [ConnSec, level] using hsec
      subst this; exact hx
  | V5 =>
    rw [connect_bind_err _ _ hs]
    simp only [true_and]
    refine or_congr Iff.rfl ?_
    constructor
    · rintro ⟨sec, ps, t, rfl, hsec, hx⟩
      have hl : t.length ≤ maxRemaining := by simp only [List.length_append] at hs; omega
      exact ⟨sec, t, rfl, by simpa [ConnSec, level] using ⟨ps, hsec⟩, (tl _ _ hl).1 hx⟩
    · rintro ⟨sec, t, rfl, hsec, hx⟩
      have hl : t.length ≤ maxRemaining := by simp only [List.length_append] at hs; omega
      obtain ⟨ps, hsec⟩ : ∃ ps, SecDenotes connectKind sec ps := by simpa [ConnSec, level] using hsec
      exact ⟨sec, ps, t, rfl, hsec, (tl _ _ hl).2 hx⟩

/-- CONNECT after the protocol level -/
theorem Connect.rest_err {α : Type} (pr : Protocol)
    (mk : UInt8 → UInt16 → Option ConnectProperties → String → Option LastWill → Option Login → α)
    (s : Bytes) (hs : s.length ≤ maxRemaining) :
    ((do
      let f ← read_u8
      let k ← read_u16
      let properties ← (match pr with
        | .V5 => ConnectProperties.read
        | .V4 => pure none : M (Option ConnectProperties))
      let client_id ← read_mqtt_string
      let last_will ← LastWill.read f
      let login ← Login.read f
      pure (mk f k properties client_id last_will login) : M α) s).1 = .err e ↔
    U8Fails s e ∨ ∃ f t, s = f :: t ∧ (U16Fails t e ∨ ∃ k t', k < 65536 ∧ t = Spec.u16 k ++ t' ∧
    ((pr = .V5 ∧ SecFails connectKind t' e) ∨
    ∃ sec t, t' = sec ++ t ∧ ConnSec (UInt8.ofNat (level pr)) sec ∧ (StrFails t e ∨
      ∃ id t', fits (utf8 id).length ∧ t = str id ++ t' ∧ (WillFails f t' e ∨
        ∃ wb w r, t' = wb ++ r ∧ WillDenotes f wb w ∧ Spec.V4.LoginFails f r e)))) := by
  rw [bind_err, read_u8_err]
  simp only [bind_err read_u16, read_u8_iff, read_u16_err, read_u16_iff]
  refine or_congr Iff.rfl ?_
  constructor
  · rintro ⟨f, t, rfl, hx | ⟨k, t', rfl, hx⟩⟩
    · exact ⟨f, t, rfl, .inl hx⟩
    · exact ⟨f, _, rfl, .inr ⟨_, _, k.toNat_lt, rfl, (Connect.tail_err e pr f (mk f k) t' (by
        simp only [List.length_cons, List.length_append] at hs; omega)).1 hx⟩⟩
  · rintro ⟨f, t, rfl, hx | ⟨k, t', hk, rfl, hx⟩⟩
    · exact ⟨f, t, rfl, .inl hx⟩
    · exact ⟨f, _, rfl, .inr ⟨_, _, by rw [V4.u16_of_lt hk], (Connect.tail_err e pr f (mk f _) t' (by
        simp only [List.length_cons, List.length_append] at hs; omega)).2 hx⟩⟩

include hh hb in
theorem Connect.read_err : (Connect.readM h (hd ++ bd)).1 = .err e ↔ ConnectFails bd e := by
  have hM : fits (utf8 "MQTT").length := by decide +kernel
  unfold Connect.readM
  rw [bind_err, advance_err, advance_run hd bd _ hh]
  simp only [bind_err read_mqtt_string, bind_err read_u8, false_or, ok_inj, read_mqtt_string_err,
    read_u8_err, read_mqtt_string_iff, read_u8_iff]
  constructor
  · rintro ⟨_, _, ⟨-, rfl⟩, hx | ⟨nm, t, ⟨hnm, rfl⟩, hx | ⟨lv, t, rfl, hx⟩⟩⟩
    · exact .name hx
    · exact .level hnm hx
    · split at hx
      · rename_i hn
        rw [fail_err] at hx; subst hx
        have := ConnectFails.protocol (lv := lv) (t := t) hnm hn
        simpa using this
      · rename_i hn
        have hn : nm = "MQTT" := by simpa using hn
        subst hn
        rw [bind_err] at hx
        rcases hx with hx | ⟨p, t', hp, hx⟩
        · split at hx
          · simp [pure_run] at hx
          · simp [pure_run] at hx
          · rename_i h4 h5
            rw [fail_err] at hx; subst hx
            have := ConnectFails.badLevel (t := t) h4 h5
            simpa using this
        · have hlv : lv = UInt8.ofNat (level p) ∧ t' = t := by
            split at hp
            · obtain ⟨rfl, rfl⟩ := ok_inj.1 hp; exact ⟨rfl, rfl⟩
            · obtain ⟨rfl, rfl⟩ := ok_inj.1 hp; exact ⟨rfl, rfl⟩
            · simp [fail_run] at hp
          obtain ⟨hlv, rfl⟩ := hlv
          have hlv' : lv = 4 ∨ lv = 5 := by rw [hlv]; cases p; exact .inl rfl; exact .inr rfl
          have hl : t'.length ≤ maxRemaining := by
            simp only [List.length_append, List.length_cons] at hb; omega
          rcases (Connect.rest_err e p (fun f k ps id w l => ({ protocol := p, keep_alive := k, client_id := id, clean_session := decide (f &&& 0b10 ≠ 0), last_will := w, login := l, properties := ps } : Connect)) t' hl).1 hx with
            hy | ⟨f, t, rfl, hy | ⟨k, t, hk, rfl, ⟨rfl, hy⟩ | ⟨sec, t, rfl, hsec, hy |
            ⟨id, t, hid, rfl, hy | ⟨wb, w, t, rfl, hw, hy⟩⟩⟩⟩⟩
          · have := ConnectFails.flags hlv' hy; simpa using this
          · have := ConnectFails.keepAlive (f := f) hlv' hy; simpa using this
          · subst hlv
            have := ConnectFails.props (f := f) hk hy; simpa [level] using this
          · rw [← hlv] at hsec
            have := ConnectFails.clientId (f := f) hlv' hk hsec hy; simpa using this
          · rw [← hlv] at hsec
            have := ConnectFails.will (f := f) hlv' hk hsec hid hy; simpa using this
          · rw [← hlv] at hsec
            have := ConnectFails.login (f := f) hlv' hk hsec hid hw hy; simpa using this
  · intro hx
    refine ⟨(), bd, ⟨trivial, rfl⟩, ?_⟩
    have hM' : ¬ ("MQTT" ≠ "MQTT") := by simp
    have go : ∀ (lv : UInt8) (t : Bytes), bd = str "MQTT" ++ [lv] ++ t → (lv = 4 ∨ lv = 5) →
        (U8Fails t e ∨ ∃ f t', t = f :: t' ∧ (U16Fails t' e ∨ ∃ k t'', k < 65536 ∧
          t' = Spec.u16 k ++ t'' ∧ ((lv = 5 ∧ SecFails connectKind t'' e) ∨
          ∃ sec t, t'' = sec ++ t ∧ ConnSec lv sec ∧ (StrFails t e ∨
            ∃ id t', fits (utf8 id).length ∧ t = str id ++ t' ∧ (WillFails f t' e ∨
            ∃ wb w r, t' = wb ++ r ∧ WillDenotes f wb w ∧ Spec.V4.LoginFails f r e))))) →
        ∃ nm t1, (fits (utf8 nm).length ∧ bd = str nm ++ t1) ∧ ∃ l t2, t1 = l :: t2 ∧
          ((if nm ≠ "MQTT" then M.fail .InvalidProtocol else do
            let protocol ← (match l with
              | 4 => pure Protocol.V4
              | 5 => pure Protocol.V5
              | num => M.fail (.InvalidProtocolLevel num) : M Protocol)
            let connect_flags ← read_u8
            let clean_session := decide (connect_flags &&& 0b10 ≠ 0)
            let keep_alive ← read_u16
            let properties ← (match protocol with
              | .V5 => ConnectProperties.read
              | .V4 => pure none : M (Option ConnectProperties))
            let client_id ← read_mqtt_string
            let last_will ← LastWill.read connect_flags
            let login ← Login.read connect_flags
            pure { protocol := protocol, keep_alive := keep_alive, client_id := client_id,
                   clean_session := clean_session, last_will := last_will, login := login,
                   properties := properties } : M Connect) t2).1 = .err e := by
      intro lv t hbd hlv hx
      have hl : t.length ≤ maxRemaining := by
        rw [hbd] at hb
        simp only [List.length_append] at hb; omega
      refine ⟨"MQTT", lv :: t, ⟨hM, by simpa using hbd⟩, lv, t, rfl, ?_⟩
      rw [if_neg hM', bind_err]
      right
      rcases hlv with rfl | rfl
      · exact ⟨.V4, t, rfl, (Connect.rest_err e .V4 (fun f k ps id w l => ({ protocol := .V4, keep_alive := k, client_id := id, clean_session := decide (f &&& 0b10 ≠ 0), last_will := w, login := l, properties := ps } : Connect)) t hl).2 (by simpa [level] using hx)⟩
      · exact ⟨.V5, t, rfl, (Connect.rest_err e .V5 (fun f k ps id w l => ({ protocol := .V5, keep_alive := k, client_id := id, clean_session := decide (f &&& 0b10 ≠ 0), last_will := w, login := l, properties := ps } : Connect)) t hl).2 (by simpa [level] using hx)⟩
    cases hx with
    | name hx => exact .inl hx
    | level hnm hx => exact .inr ⟨_, _, ⟨hnm, rfl⟩, .inl hx⟩
    | protocol hnm hn =>
      rename_i nm lv t
      refine .inr ⟨nm, lv :: t, ⟨hnm, by simp⟩, .inr ⟨lv, t, rfl, ?_⟩⟩
      rw [if_pos hn]; rfl
    | badLevel h4 h5 =>
      rename_i lv t
      refine .inr ⟨_, lv :: t, ⟨hM, by simp⟩, .inr ⟨lv, t, rfl, ?_⟩⟩
      rw [if_neg hM', bind_err]
      left
      split
      · exact absurd rfl h4
      · exact absurd rfl h5
      · rfl
    | flags hlv hx =>
      obtain ⟨nm, t1, h1, l, t2, h2, h3⟩ := go _ _ rfl hlv (.inl hx)
      exact .inr ⟨nm, t1, h1, .inr ⟨l, t2, h2, h3⟩⟩
    | keepAlive hlv hx =>
      obtain ⟨nm, t1, h1, l, t2, h2, h3⟩ := go _ _ (List.append_assoc _ _ _) hlv (.inr ⟨_, _, rfl, .inl hx⟩)
      exact .inr ⟨nm, t1, h1, .inr ⟨l, t2, h2, h3⟩⟩
    | props hk hx =>
      rename_i f k t
      obtain ⟨nm, t1, h1, l, t2, h2, h3⟩ := go 5 (f :: (Spec.u16 k ++ t)) (by simp) (.inr rfl) (.inr ⟨_, _, rfl, .inr ⟨_, _, hk, rfl,
        .inl ⟨rfl, hx⟩⟩⟩)
      exact .inr ⟨nm, t1, h1, .inr ⟨l, t2, h2, h3⟩⟩
    | clientId hlv hk hsec hx =>
      rename_i lv f k sec t
      obtain ⟨nm, t1, h1, l, t2, h2, h3⟩ := go lv (f :: (Spec.u16 k ++ (sec ++ t))) (by simp) hlv (.inr ⟨_, _, rfl, .inr ⟨_, _, hk, rfl,
        .inr ⟨_, _, rfl, hsec, .inl hx⟩⟩⟩)
      exact .inr ⟨nm, t1, h1, .inr ⟨l, t2, h2, h3⟩⟩
    | will hlv hk hsec hid hx =>
      rename_i lv f k sec id t
      obtain ⟨nm, t1, h1, l, t2, h2, h3⟩ := go lv (f :: (Spec.u16 k ++ (sec ++ (str id ++ t)))) (by simp) hlv (.inr ⟨_, _, rfl, .inr ⟨_, _, hk, rfl,
        .inr ⟨_, _, rfl, hsec, .inr ⟨_, _, hid, rfl, .inl hx⟩⟩⟩⟩)
      exact .inr ⟨nm, t1, h1, .inr ⟨l, t2, h2, h3⟩⟩
    | login hlv hk hsec hid hw hx =>
      rename_i lv f k sec id wb w t
      obtain ⟨nm, t1, h1, l, t2, h2, h3⟩ := go lv (f :: (Spec.u16 k ++ (sec ++ (str id ++ (wb ++ t))))) (by simp) hlv (.inr ⟨_, _, rfl, .inr ⟨_, _, hk, rfl,
        .inr ⟨_, _, rfl, hsec, .inr ⟨_, _, hid, rfl, .inr ⟨_, _, _, rfl, hw, hx⟩⟩⟩⟩⟩)
      exact .inr ⟨nm, t1, h1, .inr ⟨l, t2, h2, h3⟩⟩

include hh hb in
/-- `readFrame` returns an error exactly when the frame is rejected for that reason -/
theorem readFrame_err (hr : h.remaining_len = bd.length) :
    readFrame h (hd ++ bd) = .err e ↔ Rejects h.byte1 bd e := by
  have h0 : h.remaining_len = 0 ↔ bd = [] := by
    rw [hr]; exact ⟨List.eq_nil_of_length_eq_zero, by rintro rfl; rfl⟩
  rcases packet_type_cases h with ⟨t, ht⟩ | ⟨hb', ht⟩
  · have ht' := (packet_type_ok_iff _ _).1 ht
    unfold readFrame Rejects typeNum
    rw [ht, ht']
    simp only [h0]
    by_cases hn : bd = []
    · cases t <;> simp [PacketType.toU8, hn, eq_comm]
    · cases t <;> simp only [PacketType.toU8, hn, if_false, onFrame_err_iff]
      case Connect => exact Connect.read_err h hd bd hh hb e
      case ConnAck => exact ConnAck.read_err h hd bd hh hb e
      case Publish => exact Publish.read_err h hd bd hh hb e
      case PubAck => exact Ack.read_err h hd bd hh hb e puback_reason_iff puback_reason_err hr
      case PubRec => exact Ack.read_err h hd bd hh hb e pubrec_reason_iff pubrec_reason_err hr
      case PubRel => exact Ack.read_err h hd bd hh hb e pubrel_reason_iff pubrel_reason_err hr
      case PubComp => exact Ack.read_err h hd bd hh hb e pubcomp_reason_iff pubcomp_reason_err hr
      case Subscribe => exact Subscribe.read_err h hd bd hh hb e
      case SubAck => exact SubAck.read_err h hd bd hh hb e
      case Unsubscribe => exact Unsubscribe.read_err h hd bd hh hb e
      case UnsubAck => exact UnsubAck.read_err h hd bd hh hb e
      case Disconnect => exact Disconnect.read_err h hd bd hh hb e ht' hn hr
      all_goals simp
  · unfold readFrame Rejects typeNum
    rw [ht]
    rcases hb' with hb' | hb' <;> rw [hb'] <;> simp [eq_comm]

/-- **exact rejection** of `v5::read` -/
theorem read_err_iff (max : Nat) (s s' : Bytes) :
    V5.read max s = (.err e, s') ↔
      (FramingFails max s e ∧ s' = s) ∨
      ∃ b1 bs bd, s = b1 :: (bs ++ (bd ++ s')) ∧ IsVbi bs ∧ vbiValue bs = bd.length ∧
        bd.length ≤ max ∧ Rejects b1 bd e := by
  rw [v5_read_eq, ← check_err_iff]
  constructor
  · intro h1
    rcases check_total s max with ⟨h, hc⟩ | ⟨e', hc⟩
    · obtain ⟨b1, bs, rest, rfl, hv, hm, hr, rfl⟩ := (check_ok_iff _ _ _).1 hc
      have hvl := vbiValue_le hv
      rw [readG_ok _ _ hc] at h1
      have e : b1 :: (bs ++ rest) = (b1 :: bs) ++ rest.take (vbiValue bs) ++ rest.drop (vbiValue bs) := by
        simp
      have hl : ((b1 :: bs) ++ rest.take (vbiValue bs)).length = bs.length + 1 + vbiValue bs := by
        simp; omega
      simp only [FixedHeader.frame_length, Prod.mk.injEq] at h1
      rw [e, List.take_left' hl, List.drop_left' hl] at h1
      obtain ⟨h1, rfl⟩ := h1
      rw [readFrame_err _ _ _ (by simp) (by simp; omega) _ (by simp; omega)] at h1
      exact .inr ⟨b1, bs, rest.take (vbiValue bs), by simp, hv, by simp; omega, by simp; omega, h1⟩
    · rw [readG_err _ _ hc] at h1
      simp only [Prod.mk.injEq, Res.err.injEq] at h1
      obtain ⟨rfl, rfl⟩ := h1
      exact .inl ⟨hc, rfl⟩
  · rintro (⟨hc, rfl⟩ | ⟨b1, bs, bd, rfl, hv, hb, hm, hp⟩)
    · exact readG_err _ _ hc
    · have hvl := vbiValue_le hv
      have hc := check_frame b1 bs (bd ++ s') max hv (by omega) (by simp; omega)
      rw [readG_ok _ _ hc]
      have e : b1 :: (bs ++ (bd ++ s')) = ((b1 :: bs) ++ bd) ++ s' := by simp
      have hl : ((b1 :: bs) ++ bd).length = bs.length + 1 + vbiValue bs := by simp; omega
      simp only [FixedHeader.frame_length, Prod.mk.injEq]
      rw [e, List.take_left' hl, List.drop_left' hl]
      exact ⟨(readFrame_err _ _ _ (by simp) (by omega) _ (by simp; omega)).2 hp, rfl⟩

end Mqtt.V5
