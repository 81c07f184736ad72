import Verif.Props.DirectExact
import Verif.Spec.DirectLength
/-! C90: the readers that look at the announced length, with a header that announces any length. -/
namespace Props
open Mqtt Spec

section
variable (h : FixedHeader) (hd bd : Bytes) (hh : hd.length = h.fixed_header_len) (hb : bd.length ≤ maxRemaining)

include hh hb in
theorem ack_as_ok {R : Type} {success : R} {reason : UInt8 → Res R} {code : R → Nat}
    (hc : ∀ n r, reason n = .ok r ↔ n = UInt8.ofNat (code r)) (h0 : ∀ r, code r = 0 ↔ r = success) (a : V5.Ack R) :
    (V5.Ack.readM success reason h (hd ++ bd)).1 = .ok a ↔ Spec.V5.AckAs code h.remaining_len bd a := by
  rw [fst_ok]
  unfold V5.Ack.readM
  mrun [Mqtt.advance_run hd bd _ hh]
  minv
  constructor
  · rintro ⟨r, k', s1, rfl, h1⟩
    split at h1
    · rename_i h2
      minv at h1
      obtain ⟨rfl, _⟩ := h1
      rw [h2]; exact .short ((h0 _).2 rfl)
    · rename_i h2
      minv at h1
      obtain ⟨b, s2, rfl, h1⟩ := h1
      split at h1
      · rename_i h3
        minv [hc] at h1
        obtain ⟨r', _, ⟨rfl, rfl⟩, rfl, _⟩ := h1
        have := Spec.V5.AckAs.reason (code := code) (k := k') (r := r') (t := s2) h2 h3
        simpa [Spec.u8] using this
      · rename_i h3
        minv [hc] at h1
        obtain ⟨r', _, ⟨rfl, rfl⟩, ps', s3, h1, rfl, rfl⟩ := h1
        rw [V5.reason_extract_iff _ _ (by simp at hb ⊢; omega)] at h1
        obtain ⟨sec, rfl, hs⟩ := h1
        have := Spec.V5.AckAs.full (code := code) (n := h.remaining_len) (k := k') (r := r') (t := s3) (by omega) hs
        simpa [Spec.u8] using this
  · intro hx
    generalize hn : h.remaining_len = n at hx
    cases hx with
    | short hz =>
      have := (h0 _).1 hz
      subst this
      exact ⟨_, _, _, rfl, by rw [if_pos rfl]⟩
    | reason h2 h4 =>
      rename_i k r t
      refine ⟨t, k, Spec.u8 (code r) ++ t, by simp, ?_⟩
      rw [if_neg h2]
      minv
      refine ⟨_, t, rfl, ?_⟩
      rw [if_pos h4]
      minv [hc]
      exact ⟨r, _, ⟨rfl, rfl⟩, rfl, rfl⟩
    | full h4 hs =>
      rename_i k r sec o t
      refine ⟨t, k, Spec.u8 (code r) ++ (sec ++ t), by simp, ?_⟩
      rw [if_neg (by omega)]
      minv
      refine ⟨_, sec ++ t, rfl, ?_⟩
      rw [if_neg (by omega)]
      minv [hc]
      refine ⟨r, _, ⟨rfl, rfl⟩, o, t, ?_, rfl, rfl⟩
      rw [V5.reason_extract_iff _ _ (by simp at hb ⊢; omega)]
      exact ⟨sec, rfl, hs⟩

include hh hb in
theorem ack_as_err {R : Type} {success : R} {reason : UInt8 → Res R} {code : R → Nat}
    (hc : ∀ n r, reason n = .ok r ↔ n = UInt8.ofNat (code r))
    (he : ∀ n e, reason n = .err e ↔ (∀ r, n.toNat ≠ code r) ∧ e = .InvalidConnectReturnCode n) (e : Error) :
    (V5.Ack.readM success reason h (hd ++ bd)).1 = .err e ↔ Spec.V5.AckFailsAs code h.remaining_len bd e := by
  unfold V5.Ack.readM
  rw [Mqtt.bind_err, V4.advance_err, Mqtt.advance_run hd bd _ hh]
  simp only [Mqtt.bind_err, false_or, ok_inj, Mqtt.read_u16_err, Mqtt.read_u16_iff]
  constructor
  · rintro ⟨_, _, ⟨-, rfl⟩, hx | ⟨k, t, rfl, hx⟩⟩
    · exact .pkid hx
    · split at hx
      · simp [pure_run] at hx
      rename_i h2
      rw [Mqtt.bind_err, Mqtt.read_u8_err] at hx
      rcases hx with hx | ⟨c, t, hct, hx⟩
      · exact .missing h2 k.toNat_lt hx
      rw [Mqtt.read_u8_iff] at hct; subst hct
      split at hx
      · merr [he] at hx
        obtain ⟨hx, rfl⟩ := hx
        have := Spec.V5.AckFailsAs.badCode (t := t) h2 k.toNat_lt hx
        simpa using this
      · rename_i h4
        rw [Mqtt.bind_err, Mqtt.lift_err, he] at hx
        rcases hx with ⟨hx, rfl⟩ | ⟨r, _, hr', hx⟩
        · have := Spec.V5.AckFailsAs.badCode (t := t) h2 k.toNat_lt hx
          simpa using this
        · simp only [lift_run, Prod.mk.injEq, hc] at hr'
          obtain ⟨rfl, rfl⟩ := hr'
          rw [V5.reason_bind_err _ _ (by simp at hb ⊢; omega)] at hx
          merr at hx
          have := Spec.V5.AckFailsAs.props (code := code) (n := h.remaining_len) (r := r) (by omega) k.toNat_lt hx
          simpa [Spec.u8] using this
  · intro hx
    refine ⟨(), bd, ⟨trivial, rfl⟩, ?_⟩
    generalize hn : h.remaining_len = n at hx
    cases hx with
    | pkid hx => exact .inl hx
    | missing h2 hk hx =>
      rename_i k t
      refine .inr ⟨UInt16.ofNat k, t, by rw [u16_toUInt16 hk], ?_⟩
      rw [if_neg h2, Mqtt.bind_err]
      exact .inl ((Mqtt.read_u8_err _ _).2 hx)
    | badCode h2 hk hx =>
      rename_i k c t
      refine .inr ⟨UInt16.ofNat k, c :: t, by rw [u16_toUInt16 hk]; simp, ?_⟩
      rw [if_neg h2, Mqtt.bind_err]
      refine .inr ⟨c, t, Mqtt.read_u8_cons _ _, ?_⟩
      split
      · merr [he]; exact ⟨hx, trivial⟩
      · rw [Mqtt.bind_err, Mqtt.lift_err, he]
        exact .inl ⟨hx, rfl⟩
    | props h4 hk hx =>
      rename_i k r t
      refine .inr ⟨UInt16.ofNat k, Spec.u8 (code r) ++ t, by rw [u16_toUInt16 hk]; simp, ?_⟩
      rw [if_neg (by omega), Mqtt.bind_err]
      refine .inr ⟨_, t, by rw [Mqtt.read_u8_iff]; rfl, ?_⟩
      rw [if_neg (by omega), Mqtt.bind_err]
      refine .inr ⟨r, t, by rw [lift_run, (hc _ _).2 rfl], ?_⟩
      rw [V5.reason_bind_err _ _ (by simp at hb ⊢; omega)]
      exact .inl hx

include hh hb in
theorem disconnect_as_ok (d : V5.Disconnect) :
    (V5.Disconnect.readM h (hd ++ bd)).1 = .ok d ↔ Spec.V5.DisconnectAs h.byte1 h.remaining_len bd d := by
  have e1 : ∀ b : UInt8, b >>> 4 = PacketType.Disconnect.toU8 ∧ b &&& 15 = 0 ↔ b = 0xE0 := forall_u8 (by decide +kernel)
  rw [fst_ok]
  unfold V5.Disconnect.readM
  mrun [Mqtt.advance_run hd bd _ hh, ne_eq]
  constructor
  · rintro ⟨r, h1⟩
    split at h1
    · simp at h1
    rename_i ht
    split at h1
    · simp at h1
    rename_i hfl
    have hb1 := (e1 h.byte1).1 ⟨by simpa using ht, by simpa using hfl⟩
    rw [hb1]
    split at h1
    · rename_i h0
      minv at h1
      rw [h0, ← h1.1]; exact .empty
    · rename_i h0
      minv [V5.disconnect_reason_iff] at h1
      obtain ⟨b, s1, rfl, c', _, ⟨rfl, rfl⟩, ps', s2, h1, rfl, rfl⟩ := h1
      rw [V5.disconnect_extract_iff _ _ (by simp at hb ⊢; omega)] at h1
      obtain ⟨sec, rfl, hs⟩ := h1
      have := Spec.V5.DisconnectAs.full (r := c') (t := s2) h0 hs
      simpa [Spec.u8] using this
  · intro hx
    generalize hb1 : h.byte1 = b1 at hx
    generalize hn : h.remaining_len = n at hx
    have h2 : b1 = 0xE0 := by cases hx <;> rfl
    obtain ⟨h3, h4⟩ := (e1 b1).2 h2
    rw [if_neg (by simpa using h3), if_neg (by simpa using h4)]
    cases hx with
    | empty => exact ⟨_, by rw [if_pos rfl]; rfl⟩
    | full h0 hs =>
      rename_i r sec o t
      refine ⟨t, ?_⟩
      rw [if_neg h0]
      minv [V5.disconnect_reason_iff]
      refine ⟨_, sec ++ t, by simp only [Spec.u8, List.append_assoc]; rfl, r, _, ⟨rfl, rfl⟩, o, t, ?_, rfl, rfl⟩
      rw [V5.disconnect_extract_iff _ _ (by simp at hb ⊢; omega)]; exact ⟨sec, rfl, hs⟩

include hh hb in
theorem disconnect_as_err (e : Error) :
    (V5.Disconnect.readM h (hd ++ bd)).1 = .err e ↔ Spec.V5.DisconnectFailsAs h.byte1 h.remaining_len bd e := by
  have e1 : ∀ b : UInt8, b >>> 4 = PacketType.Disconnect.toU8 ↔ b.toNat / 16 = 14 := forall_u8 (by decide +kernel)
  have e2 : ∀ b : UInt8, b &&& 15 = 0 ↔ b.toNat % 16 = 0 := forall_u8 (by decide +kernel)
  have e3 : ∀ b : UInt8, b >>> 4 = UInt8.ofNat (b.toNat / 16) := forall_u8 (by decide +kernel)
  have e4 : ∀ b : UInt8, b.toNat / 16 = 14 → b.toNat % 16 = 0 → b = 0xE0 := forall_u8 (by decide +kernel)
  unfold V5.Disconnect.readM
  rw [Mqtt.bind_err, V4.advance_err, Mqtt.advance_run hd bd _ hh]
  simp only [false_or, ok_inj, ne_eq, e1, e2]
  constructor
  · rintro ⟨_, _, ⟨-, rfl⟩, hx⟩
    split at hx
    · rename_i ht
      rw [fail_err] at hx; subst hx
      rw [e3]; exact .type ht
    rename_i ht
    split at hx
    · rename_i hfl
      rw [fail_err] at hx; subst hx
      exact .reserved (by simpa using ht) hfl
    · rename_i hfl
      rw [e4 h.byte1 (by simpa using ht) (by simpa using hfl)]
      split at hx
      · simp [pure_run] at hx
      rename_i h0
      simp only [Mqtt.bind_err (M.lift _), Mqtt.bind_err read_u8, false_or, Mqtt.read_u8_err, Mqtt.read_u8_iff,
        Mqtt.lift_err, lift_run, Prod.mk.injEq, V5.disconnect_reason_err, V5.disconnect_reason_iff] at hx
      rcases hx with hx | ⟨c, t, rfl, ⟨hx, rfl⟩ | ⟨r, _, ⟨rfl, rfl⟩, hx⟩⟩
      · exact .missing h0 hx
      · exact .badCode h0 hx
      · rw [V5.disconnect_bind_err _ _ (by simp at hb ⊢; omega)] at hx
        merr at hx
        exact .props h0 hx
  · intro hx
    refine ⟨(), bd, ⟨trivial, rfl⟩, ?_⟩
    generalize hb1 : h.byte1 = b1 at hx
    generalize hn : h.remaining_len = n at hx
    cases hx with
    | type ht => rw [if_pos ht, fail_err, e3]
    | reserved ht hfl => rw [if_neg (by simpa using ht), if_pos hfl, fail_err]
    | missing h0 hx =>
      rw [if_neg (by decide), if_neg (by decide), if_neg h0]
      simp only [Mqtt.bind_err read_u8, Mqtt.read_u8_err]
      exact .inl hx
    | badCode h0 hx =>
      rw [if_neg (by decide), if_neg (by decide), if_neg h0]
      simp only [Mqtt.bind_err (M.lift _), Mqtt.bind_err read_u8, Mqtt.read_u8_err, Mqtt.read_u8_iff,
        Mqtt.lift_err, V5.disconnect_reason_err]
      exact .inr ⟨_, _, rfl, .inl ⟨hx, rfl⟩⟩
    | props h0 hx =>
      rw [if_neg (by decide), if_neg (by decide), if_neg h0]
      simp only [Mqtt.bind_err (M.lift _), Mqtt.bind_err read_u8, Mqtt.read_u8_err, Mqtt.read_u8_iff,
        Mqtt.lift_err, lift_run, Prod.mk.injEq, V5.disconnect_reason_err, V5.disconnect_reason_iff]
      refine .inr ⟨_, _, rfl, .inr ⟨_, _, ⟨rfl, rfl⟩, ?_⟩⟩
      rw [V5.disconnect_bind_err _ _ (by simp [u8_len] at hb ⊢; omega)]
      exact .inl hx

theorem unsub_usub (n m : Nat) (s r : Bytes) (x : Nat) :
    usub n m s = (.ok x, r) ↔ m ≤ n ∧ x = n - m ∧ r = s := by
  unfold usub
  split
  · rw [pure_run, ok_inj]
    exact ⟨fun ⟨a, b⟩ => ⟨by omega, a.symm, b.symm⟩, fun ⟨_, a, b⟩ => ⟨a.symm, b.symm⟩⟩
  · constructor
    · intro h; cases h
    · rintro ⟨h, _⟩; omega

theorem unsub_usub_err (n m : Nat) (s : Bytes) (e : Error) : (usub n m s).1 = .err e ↔ False := by
  unfold usub
  split
  · simp [pure_run]
  · constructor
    · intro h; cases h
    · exact False.elim

theorem unsub_loop_ok (fuel : Nat) (n : Nat) (acc ts : List String) (s : Bytes) (hf : s.length < fuel) :
    (∃ r, V4.Unsubscribe.readLoop fuel n acc s = (.ok ts, r)) ↔
      ∃ l t, ts = acc ++ l ∧ (∀ v ∈ l, fits (utf8 v).length) ∧ s = l.flatMap str ++ t ∧ n = (l.flatMap str).length := by
  induction fuel generalizing s acc n with
  | zero => omega
  | succ f ih =>
    rw [V4.Unsubscribe.readLoop]
    by_cases hn : n = 0
    · subst hn
      simp only [Nat.lt_irrefl, if_false, ok_inj, pure_run, gt_iff_lt]
      constructor
      · rintro ⟨r, rfl, rfl⟩; exact ⟨[], s, by simp⟩
      · rintro ⟨l, t, rfl, _, rfl, h⟩
        cases l with
        | nil => exact ⟨_, by simp, rfl⟩
        | cons v l => simp [str_len] at h; omega
    · rw [if_pos (by omega)]
      minv [unsub_usub]
      constructor
      · rintro ⟨r, t, s1, ⟨ht, rfl⟩, n', s2, ⟨h0, rfl, rfl⟩, h1⟩
        have hlt : s2.length < f := by simp only [List.length_append, str_len] at hf; omega
        obtain ⟨l, j, rfl, hl, rfl, hl2⟩ := (ih _ _ _ hlt).1 ⟨r, h1⟩
        refine ⟨t :: l, j, by simp, ?_, by simp, ?_⟩
        · intro x hx
          rcases List.mem_cons.1 hx with rfl | hx
          · exact ht
          · exact hl x hx
        · rw [V4.strLen_eq] at h0 hl2
          simp only [List.flatMap_cons, List.length_append, str_len]; omega
      · rintro ⟨l, j, rfl, hl, rfl, h⟩
        cases l with
        | nil => simp at h; omega
        | cons v l =>
          simp only [List.flatMap_cons, List.length_append, str_len] at h hf
          obtain ⟨r, h1⟩ := (ih (n - (strLen v + 2)) (acc ++ [v]) (l.flatMap str ++ j)
            (by simp only [List.length_append]; omega)).2
            ⟨l, j, by simp, fun x hx => hl x (List.mem_cons_of_mem _ hx), rfl, by rw [V4.strLen_eq]; omega⟩
          exact ⟨r, v, l.flatMap str ++ j, ⟨hl v (List.mem_cons_self ..), by simp⟩, _, _,
            ⟨by rw [V4.strLen_eq]; omega, rfl, rfl⟩, h1⟩

theorem unsub_loop_err (fuel : Nat) (n : Nat) (acc : List String) (s : Bytes) (hf : s.length < fuel) (e : Error) :
    (V4.Unsubscribe.readLoop fuel n acc s).1 = .err e ↔
      ∃ (l : List String) (t : Bytes), (∀ v ∈ l, fits (utf8 v).length) ∧ s = l.flatMap str ++ t ∧ (l.flatMap str).length < n ∧ StrFails t e := by
  induction fuel generalizing s acc n with
  | zero => omega
  | succ f ih =>
    rw [V4.Unsubscribe.readLoop]
    by_cases hn : n = 0
    · subst hn
      simp [pure_run]
    · rw [if_pos (by omega)]
      merr [unsub_usub_err, unsub_usub]
      constructor
      · rintro (hx | ⟨t, s1, ⟨ht, rfl⟩, n', s2, ⟨h0, rfl, rfl⟩, h1⟩)
        · exact ⟨[], s, by simp, rfl, by simp; omega, hx⟩
        · have hlt : s2.length < f := by simp only [List.length_append, str_len] at hf; omega
          obtain ⟨l, j, hl, rfl, hl2, hj⟩ := (ih _ _ _ hlt).1 h1
          refine ⟨t :: l, j, ?_, by simp, ?_, hj⟩
          · intro x hx
            rcases List.mem_cons.1 hx with rfl | hx
            · exact ht
            · exact hl x hx
          · rw [V4.strLen_eq] at h0 hl2
            simp only [List.flatMap_cons, List.length_append, str_len]; omega
      · rintro ⟨l, j, hl, rfl, h, hj⟩
        cases l with
        | nil => exact .inl hj
        | cons v l =>
          simp only [List.flatMap_cons, List.length_append, str_len] at h hf
          have h1 := (ih (n - (strLen v + 2)) (acc ++ [v]) (l.flatMap str ++ j)
            (by simp only [List.length_append]; omega)).2
            ⟨l, j, fun x hx => hl x (List.mem_cons_of_mem _ hx), rfl, by rw [V4.strLen_eq]; omega, hj⟩
          exact .inr ⟨v, l.flatMap str ++ j, ⟨hl v (List.mem_cons_self ..), by simp⟩, _, _,
            ⟨by rw [V4.strLen_eq]; omega, rfl, rfl⟩, h1⟩

include hh in
theorem unsub_as_ok (u : V4.Unsubscribe) :
    (V4.Unsubscribe.readM h (hd ++ bd)).1 = .ok u ↔ Spec.V4.UnsubscribeAs h.remaining_len bd u := by
  rw [fst_ok]
  obtain ⟨k, ts⟩ := u
  unfold V4.Unsubscribe.readM
  mrun [Mqtt.advance_run hd bd _ hh]
  minv [unsub_usub]
  constructor
  · rintro ⟨r, k', s1, rfl, n', s2, ⟨h0, rfl, rfl⟩, _, _, ⟨rfl, rfl⟩, ts', s3, h1, h2, rfl⟩
    obtain ⟨rfl, rfl⟩ := V4.Unsubscribe.mk.inj h2
    obtain ⟨l, t, rfl, hl, rfl, h3⟩ := (unsub_loop_ok _ _ _ _ _ (Nat.lt_succ_self _)).1 ⟨_, h1⟩
    have := Spec.V4.UnsubscribeAs.mk (k := k') (t := t) hl
    rw [← h3, show 2 + (h.remaining_len - 2) = h.remaining_len by omega] at this
    simpa using this
  · intro hx
    generalize hn : h.remaining_len = n at hx
    cases hx with
    | mk hl =>
      rename_i t
      obtain ⟨r, h1⟩ := (unsub_loop_ok _ _ [] ts _ (Nat.lt_succ_self (ts.flatMap str ++ t).length)).2
        ⟨ts, t, by simp, hl, rfl, rfl⟩
      exact ⟨r, k, ts.flatMap str ++ t, by simp, _, _, ⟨by omega, rfl, rfl⟩, _, _, ⟨rfl, rfl⟩, ts, r,
        by rw [Nat.add_sub_cancel_left]; exact h1, rfl, rfl⟩

include hh in
theorem unsub_as_err (e : Error) :
    (V4.Unsubscribe.readM h (hd ++ bd)).1 = .err e ↔ Spec.V4.UnsubscribeFailsAs h.remaining_len bd e := by
  unfold V4.Unsubscribe.readM
  rw [Mqtt.bind_err, V4.advance_err, Mqtt.advance_run hd bd _ hh]
  merr [unsub_usub_err, unsub_usub]
  constructor
  · rintro ⟨_, _, ⟨-, rfl⟩, hx | ⟨k, t, rfl, n', s2, ⟨h0, rfl, rfl⟩, _, _, ⟨rfl, rfl⟩, hx⟩⟩
    · exact .pkid hx
    · obtain ⟨l, t, hl, rfl, h3, ht⟩ := (unsub_loop_err _ _ _ _ (Nat.lt_succ_self _) _).1 hx
      have := Spec.V4.UnsubscribeFailsAs.topic (n := h.remaining_len) (t := t) k.toNat_lt hl (by omega) ht
      simpa using this
  · intro hx
    refine ⟨(), bd, ⟨trivial, rfl⟩, ?_⟩
    generalize hn : h.remaining_len = n at hx
    cases hx with
    | pkid hx => exact .inl hx
    | topic hk hl h3 ht =>
      rename_i k l t
      refine .inr ⟨UInt16.ofNat k, l.flatMap str ++ t, by rw [u16_toUInt16 hk]; simp, _, _, ⟨by omega, rfl, rfl⟩, _, _,
        ⟨rfl, rfl⟩, ?_⟩
      exact (unsub_loop_err _ _ _ _ (Nat.lt_succ_self _) _).2 ⟨l, t, hl, rfl, by omega, ht⟩

include hh in
theorem unsuback_as_ok (u : V4.UnsubAck) :
    (V4.UnsubAck.readM h (hd ++ bd)).1 = .ok u ↔ Spec.V4.UnsubAckAs h.remaining_len bd u := by
  rw [fst_ok]
  unfold V4.UnsubAck.readM
  split
  · rename_i h2
    constructor
    · rintro ⟨r, h⟩; cases h
    · intro hx; generalize h.remaining_len = n at hx h2; cases hx; exact absurd rfl h2
  · rename_i h2
    rw [show h.remaining_len = 2 by simpa using h2]
    mrun [Mqtt.advance_run hd bd _ hh]
    minv
    constructor
    · rintro ⟨r, k, s, rfl, rfl, rfl⟩; exact .mk
    · intro hx; cases hx; exact ⟨_, _, _, rfl, rfl, rfl⟩

include hh in
theorem unsuback_as_err (e : Error) :
    (V4.UnsubAck.readM h (hd ++ bd)).1 = .err e ↔ Spec.V4.UnsubAckFailsAs h.remaining_len bd e := by
  unfold V4.UnsubAck.readM
  split
  · rename_i h2
    rw [fail_err]
    constructor
    · rintro rfl; exact .length h2
    · intro hx; generalize h.remaining_len = n at hx h2; cases hx with
      | length => rfl
      | pkid => exact absurd rfl h2
  · rename_i h2
    rw [show h.remaining_len = 2 by simpa using h2]
    rw [Mqtt.bind_err, V4.advance_err, Mqtt.advance_run hd bd _ hh]
    merr
    constructor
    · rintro ⟨_, _, ⟨-, rfl⟩, hx⟩; exact .pkid hx
    · intro hx
      cases hx with
      | length h => exact absurd rfl h
      | pkid hx => exact ⟨(), bd, ⟨trivial, rfl⟩, hx⟩
end

/-- C90 (v5): the acknowledgements' and DISCONNECT's own `read` for every announced length.  With the right length
this is C74; a length of 2 hides reason and properties, one of 0, 1 or 3 hides the properties, and any other makes
the reader look for them whether or not they were announced. -/
theorem C90_v5_any_length :
    ReadsExactlyAs V5.PubAck.readM (fun _ => Spec.V5.AckAs Spec.V5.pubackCode) (fun _ => Spec.V5.AckFailsAs Spec.V5.pubackCode) ∧
    ReadsExactlyAs V5.PubRec.readM (fun _ => Spec.V5.AckAs Spec.V5.pubrecCode) (fun _ => Spec.V5.AckFailsAs Spec.V5.pubrecCode) ∧
    ReadsExactlyAs V5.PubRel.readM (fun _ => Spec.V5.AckAs Spec.V5.pubrelCode) (fun _ => Spec.V5.AckFailsAs Spec.V5.pubrelCode) ∧
    ReadsExactlyAs V5.PubComp.readM (fun _ => Spec.V5.AckAs Spec.V5.pubcompCode) (fun _ => Spec.V5.AckFailsAs Spec.V5.pubcompCode) ∧
    ReadsExactlyAs V5.Disconnect.readM Spec.V5.DisconnectAs Spec.V5.DisconnectFailsAs :=
  ⟨fun h hd bd hh hb => ⟨ack_as_ok h hd bd hh hb V5.puback_reason_iff V5.puback_zero,
      ack_as_err h hd bd hh hb V5.puback_reason_iff V5.puback_reason_err⟩,
   fun h hd bd hh hb => ⟨ack_as_ok h hd bd hh hb V5.pubrec_reason_iff V5.pubrec_zero,
      ack_as_err h hd bd hh hb V5.pubrec_reason_iff V5.pubrec_reason_err⟩,
   fun h hd bd hh hb => ⟨ack_as_ok h hd bd hh hb V5.pubrel_reason_iff V5.pubrel_zero,
      ack_as_err h hd bd hh hb V5.pubrel_reason_iff V5.pubrel_reason_err⟩,
   fun h hd bd hh hb => ⟨ack_as_ok h hd bd hh hb V5.pubcomp_reason_iff V5.pubcomp_zero,
      ack_as_err h hd bd hh hb V5.pubcomp_reason_iff V5.pubcomp_reason_err⟩,
   fun h hd bd hh hb => ⟨disconnect_as_ok h hd bd hh hb, disconnect_as_err h hd bd hh hb⟩⟩

/-- the header says 2: the reason code 0x10 is not looked at -/
example : (V5.PubAck.readM ⟨0x40, 2, 2⟩ ([0x40, 4] ++ [0, 7, 0x10, 0])).1 = .ok ⟨7, .Success, none⟩ := by decide +kernel
/-- the header says 9, the body has 3 bytes: the property section is missed -/
example : (V5.PubAck.readM ⟨0x40, 2, 9⟩ ([0x40, 3] ++ [0, 7, 0x10])).1 = .err (.InsufficientBytes 1) := by decide +kernel
/-- through `read` it is a good packet -/
example : (V5.PubAck.readM ⟨0x40, 2, 3⟩ ([0x40, 3] ++ [0, 7, 0x10])).1 = .ok ⟨7, .NoMatchingSubscribers, none⟩ := by
  decide +kernel
/-- an UNSUBACK's header given to `Disconnect::read` -/
example : (V5.Disconnect.readM ⟨0xB0, 2, 2⟩ ([0xB0, 2] ++ [0, 7])).1 = .err (.InvalidPacketType 11) := by decide +kernel

/-- C90 (v4): UNSUBSCRIBE's and UNSUBACK's own `read` for every announced length (where the announced length is too
short, UNSUBSCRIBE panics: C64). -/
theorem C90_v4_any_length :
    ReadsExactlyAs V4.Unsubscribe.readM (fun _ => Spec.V4.UnsubscribeAs) (fun _ => Spec.V4.UnsubscribeFailsAs) ∧
    ReadsExactlyAs V4.UnsubAck.readM (fun _ => Spec.V4.UnsubAckAs) (fun _ => Spec.V4.UnsubAckFailsAs) :=
  ⟨fun h hd bd hh _ => ⟨unsub_as_ok h hd bd hh, unsub_as_err h hd bd hh⟩,
   fun h hd bd hh _ => ⟨unsuback_as_ok h hd bd hh, unsuback_as_err h hd bd hh⟩⟩

/-- the header announces the first topic only -/
example : (V4.Unsubscribe.readM ⟨0xA2, 2, 5⟩ ([0xA2, 8] ++ [0, 7, 0, 1, 97, 0, 1, 98])).1 = .ok ⟨7, ["a"]⟩ := by decide +kernel
/-- it announces one byte more than the topics have -/
example : (V4.Unsubscribe.readM ⟨0xA2, 2, 9⟩ ([0xA2, 8] ++ [0, 7, 0, 1, 97, 0, 1, 98])).1 = .err .MalformedPacket := by
  decide +kernel
end Props
