import Verif.Spec.Output
import Verif.Props.V5Read
import Verif.Props.V5RoundTrip
/-! C103: what decoding prints to standard error. -/
namespace Mqtt
open Spec
namespace V5

theorem onFrameT_quiet {α β : Type} (m : M α) (f : Bytes) (w : α → β) : onFrameT (T.quiet m) f w = (onFrame m f w, []) := rfl

theorem T.bind_ok {α β : Type} {m : T α} {f : α → T β} {s s' : Bytes} {a : α} {o : List String}
    (h : m s = ((.ok a, s'), o)) : (m >>= f) s = ((f a s').1, o ++ (f a s').2) := by
  show T.bind m f s = _
  unfold T.bind; rw [h]
theorem T.bind_err {α β : Type} {m : T α} {f : α → T β} {s s' : Bytes} {e : Error} {o : List String}
    (h : m s = ((.err e, s'), o)) : (m >>= f) s = ((.err e, s'), o) := by
  show T.bind m f s = _
  unfold T.bind; rw [h]
theorem T.bind_panic {α β : Type} {m : T α} {f : α → T β} {s s' : Bytes} {o : List String}
    (h : m s = ((.panic, s'), o)) : (m >>= f) s = ((.panic, s'), o) := by
  show T.bind m f s = _
  unfold T.bind; rw [h]
theorem T.quiet_bind {α β : Type} (m : M α) (f : α → M β) (s : Bytes) :
    (T.quiet m >>= fun a => T.quiet (f a)) s = T.quiet (m >>= f) s := by
  show T.bind _ _ s = (M.bind m f s, [])
  unfold T.bind M.bind T.quiet
  rcases m s with ⟨_ | _ | _ | _, s'⟩ <;> simp

/-- what remains of `Unsubscribe::read` after the packet identifier -/
def tailM (k : UInt16) : M Unsubscribe := do
  let properties ← UnsubscribeProperties.extract
  let bytes ← M.look
  let filters ← Unsubscribe.readLoop (bytes.length + 1) []
  pure { pkid := k, filters := filters, properties := properties }
/-- the same as printing code -/
def tailT (k : UInt16) : T Unsubscribe := do
  let properties ← T.quiet UnsubscribeProperties.extract
  let bytes ← T.quiet M.look
  let filters ← T.quiet (Unsubscribe.readLoop (bytes.length + 1) [])
  pure { pkid := k, filters := filters, properties := properties }

theorem tailT_eq (k : UInt16) (s : Bytes) : tailT k s = (tailM k s, []) := by
  unfold tailT
  rw [show tailM k s = M.bind UnsubscribeProperties.extract (fun p => M.bind M.look (fun b =>
    M.bind (Unsubscribe.readLoop (b.length + 1) []) (fun fs => pure { pkid := k, filters := fs, properties := p }))) s from rfl]
  rcases h : UnsubscribeProperties.extract s with ⟨p | e | _ | _, s1⟩
  · rw [T.bind_ok (a := p) (s' := s1) (o := []) (by show (_, []) = _; rw [h]),
      T.bind_ok (a := s1) (s' := s1) (o := []) rfl]
    have e2 : M.bind UnsubscribeProperties.extract (fun p => M.bind M.look (fun b =>
      M.bind (Unsubscribe.readLoop (b.length + 1) []) (fun fs => pure { pkid := k, filters := fs, properties := p }))) s
      = M.bind (Unsubscribe.readLoop (s1.length + 1) [])
          (fun fs => pure ({ pkid := k, filters := fs, properties := p } : Unsubscribe)) s1 := by
      rw [M.bind, h]; rfl
    rw [e2]
    rcases h2 : Unsubscribe.readLoop (s1.length + 1) [] s1 with ⟨p2 | e | _ | _, s2⟩
    all_goals
      show ((T.bind _ _ s1).1, [] ++ ([] ++ (T.bind _ _ s1).2)) = _
      unfold T.bind M.bind T.quiet
      rw [h2]
      rfl
  all_goals
    show T.bind _ _ s = _
    unfold T.bind M.bind T.quiet
    rw [h]

theorem unsub_short (works : Bool) (loc : String) (h : FixedHeader) (hd bd : Bytes) (hh : hd.length = h.fixed_header_len)
    (hb : bd.length < 2) :
    Unsubscribe.readT works loc h (hd ++ bd) = (Unsubscribe.readM h (hd ++ bd), []) := by
  have h1 := advance_run hd bd _ hh
  have h2 : ∃ s', read_u16 bd = (.err .MalformedPacket, s') := by
    match bd, hb with
    | [], _ => exact ⟨_, rfl⟩
    | [_], _ => exact ⟨_, rfl⟩
  obtain ⟨s', h2⟩ := h2
  have e1 : Unsubscribe.readM h (hd ++ bd) = (.err .MalformedPacket, s') := by
    unfold Unsubscribe.readM; mrun [h1, h2]
  rw [e1]
  unfold Unsubscribe.readT
  rw [T.bind_ok (a := ()) (s' := bd) (o := []) (by show (advance _ _, []) = _; rw [h1]),
    T.bind_err (e := .MalformedPacket) (s' := s') (o := []) (by show (read_u16 _, []) = _; rw [h2])]
  rfl

theorem unsub_long (works : Bool) (loc : String) (h : FixedHeader) (hd : Bytes) (k : UInt16) (t : Bytes)
    (hh : hd.length = h.fixed_header_len) :
    Unsubscribe.readT works loc h (hd ++ (u16 k.toNat ++ t))
      = if works then (Unsubscribe.readM h (hd ++ (u16 k.toNat ++ t)), [dbgLine loc k]) else ((.panic, t), []) := by
  have h1 := advance_run hd (u16 k.toNat ++ t) _ hh
  have h2 := read_u16_run k t
  have e1 : Unsubscribe.readM h (hd ++ (u16 k.toNat ++ t)) = tailM k t := by
    unfold Unsubscribe.readM; mrun [h1, h2]
    rfl
  rw [e1]
  unfold Unsubscribe.readT
  rw [T.bind_ok (a := ()) (s' := u16 k.toNat ++ t) (o := []) (by show (advance _ _, []) = _; rw [h1]),
    T.bind_ok (a := k) (s' := t) (o := []) (by show (read_u16 _, []) = _; rw [h2])]
  cases works with
  | true =>
    rw [T.bind_ok (a := ()) (s' := t) (o := [dbgLine loc k]) rfl]
    show ((tailT k t).1, [] ++ ([] ++ ([dbgLine loc k] ++ (tailT k t).2))) = _
    rw [tailT_eq]; rfl
  | false => rw [T.bind_panic (s' := t) (o := []) rfl]; rfl

/-- reading with output, frame by frame -/
theorem readT_err {works : Bool} {loc : String} {max : Nat} {s : Bytes} {e : Error} (h : check s max = .err e) :
    readT works loc max s = (V5.read max s, []) := by
  rw [v5_read_eq, readG_err V5.readFrame max h]
  unfold readT
  rw [T.bind_ok (a := s) (s' := s) (o := []) rfl,
    T.bind_err (e := e) (s' := s) (o := []) (by show ((check s max, s), []) = _; rw [h])]
  rfl

theorem readT_ok {works : Bool} {loc : String} {max : Nat} {s : Bytes} {h : FixedHeader} (hc : check s max = .ok h) :
    readT works loc max s = (((readFrameT works loc h (s.take h.frame_length)).1, s.drop h.frame_length),
      (readFrameT works loc h (s.take h.frame_length)).2) := by
  unfold readT
  rw [T.bind_ok (a := s) (s' := s) (o := []) rfl,
    T.bind_ok (a := h) (s' := s) (o := []) (by show ((check s max, s), []) = _; rw [hc]),
    T.bind_ok (a := s.take h.frame_length) (s' := s.drop h.frame_length) (o := [])
      (by show (splitTo _ _, []) = _; unfold splitTo; rw [if_pos (check_frame_length_le max hc).1])]
  rfl

theorem readFrameT_other (works : Bool) (loc : String) (h : FixedHeader) (f : Bytes)
    (hn : h.packet_type = .ok .Unsubscribe → h.remaining_len = 0 ∨
      Unsubscribe.readT works loc h f = (Unsubscribe.readM h f, [])) :
    readFrameT works loc h f = (readFrame h f, []) := by
  unfold readFrameT readFrame
  cases ht : h.packet_type with
  | ok t =>
    by_cases h0 : h.remaining_len = 0
    · simp only [h0, if_true]; cases t <;> rfl
    · simp only [h0, if_false]
      cases t <;> first | rfl | skip
      rcases hn ht with h1 | h1
      · exact absurd h1 h0
      · unfold onFrameT onFrame; simp only [h1]; rfl
  | err e => rfl
  | panic => rfl
  | diverge => rfl

theorem readFrameT_unsub (works : Bool) (loc : String) (h : FixedHeader) (f : Bytes) (k : UInt16) (t : Bytes)
    (ht : h.packet_type = .ok .Unsubscribe) (h0 : h.remaining_len ≠ 0)
    (hr : Unsubscribe.readT works loc h f
      = if works then (Unsubscribe.readM h f, [dbgLine loc k]) else ((.panic, t), [])) :
    readFrameT works loc h f = if works then (readFrame h f, [dbgLine loc k]) else (.panic, []) := by
  unfold readFrameT readFrame
  simp only [ht, h0, if_false]
  unfold onFrameT onFrame
  rw [hr]
  cases works <;> rfl
end V5
end Mqtt

namespace Props
open Mqtt Spec

/-- **C103** `v5::read` prints one line to standard error, with the packet identifier, for every complete UNSUBSCRIBE frame
within the limit that has a packet identifier - even if it then rejects the frame - and nothing for anything else.  Apart from
that, printing changes nothing; but if standard error cannot be written, `v5::read` panics on exactly these frames. -/
theorem C103_v5_output (loc : String) (max : Nat) (s : Bytes) :
    (∀ k rest, UnsubscribeFrame max s k rest →
      V5.readT true loc max s = (V5.read max s, [dbgLine loc k])
      ∧ V5.readT false loc max s = ((.panic, rest), []))
    ∧ ((¬ ∃ k rest, UnsubscribeFrame max s k rest) → ∀ works, V5.readT works loc max s = (V5.read max s, [])) := by
  refine ⟨?_, ?_⟩
  · rintro k rest ⟨b1, bs, tail, rfl, ht, hv, hl, hm⟩
    have hc := check_frame b1 bs (u16 k.toNat ++ tail ++ rest) max hv (by omega) (by simp [u16_len]; omega)
    have e : b1 :: (bs ++ (u16 k.toNat ++ tail ++ rest)) = (b1 :: (bs ++ (u16 k.toNat ++ tail))) ++ rest := by simp
    have hlen : FixedHeader.frame_length ⟨b1, bs.length + 1, vbiValue bs⟩ = (b1 :: (bs ++ (u16 k.toNat ++ tail))).length := by
      simp [FixedHeader.frame_length, u16_len]; omega
    have hp : FixedHeader.packet_type ⟨b1, bs.length + 1, vbiValue bs⟩ = .ok .Unsubscribe := by
      rw [packet_type_ok_iff]
      simp [PacketType.toU8]; omega
    have key : ∀ works, V5.readT works loc max (b1 :: (bs ++ (u16 k.toNat ++ tail ++ rest)))
        = if works then (V5.read max (b1 :: (bs ++ (u16 k.toNat ++ tail ++ rest))), [dbgLine loc k])
          else ((.panic, rest), []) := by
      intro works
      rw [V5.readT_ok hc, v5_read_eq, readG_ok V5.readFrame max hc, hlen, e, List.take_left, List.drop_left,
        V5.readFrameT_unsub works loc _ (b1 :: (bs ++ (u16 k.toNat ++ tail))) k tail hp (by show vbiValue bs ≠ 0; omega)
          (V5.unsub_long works loc _ (b1 :: bs) k tail (by simp))]
      cases works <;> rfl
    exact ⟨by rw [key]; rfl, by rw [key]; rfl⟩
  · intro hn works
    rcases check_total s max with ⟨h, hc⟩ | ⟨e, hc⟩
    · rw [V5.readT_ok hc, v5_read_eq, readG_ok V5.readFrame max hc]
      obtain ⟨b1, bs, rest, rfl, hv, hm, hr, rfl⟩ := (check_ok_iff _ _ _).1 hc
      rw [V5.readFrameT_other]
      intro hp
      by_cases h0 : vbiValue bs = 0
      · exact .inl h0
      refine .inr ?_
      have e : (b1 :: (bs ++ rest)).take (FixedHeader.frame_length ⟨b1, bs.length + 1, vbiValue bs⟩)
          = (b1 :: bs) ++ rest.take (vbiValue bs) := by
        rw [show b1 :: (bs ++ rest) = (b1 :: bs) ++ rest from rfl, List.take_append,
          List.take_of_length_le (by simp [FixedHeader.frame_length])]
        simp [FixedHeader.frame_length]
      rw [e]
      refine V5.unsub_short works loc _ _ _ (by simp) ?_
      by_contra hlt
      apply hn
      obtain ⟨k, t, hkt⟩ : ∃ (k : UInt16) (t : Bytes), rest.take (vbiValue bs) = u16 k.toNat ++ t := by
        rcases short_or_u16 (rest.take (vbiValue bs)) with h2 | ⟨k, t, h2⟩
        · exact absurd h2 hlt
        · exact ⟨k, t, h2⟩
      refine ⟨k, rest.drop (vbiValue bs), b1, bs, t, ?_, ?_, hv, ?_, ?_⟩
      · rw [← hkt, List.take_append_drop]
      · rw [packet_type_ok_iff] at hp
        simp [PacketType.toU8] at hp; omega
      · have := congrArg List.length hkt
        simp [u16_len] at this; omega
      · have := congrArg List.length hkt
        simp [u16_len] at this; omega
    · exact V5.readT_err hc

/-- every frame that prints is gone from the buffer afterwards -/
theorem unsubscribeFrame_consumed {max : Nat} {s rest : Bytes} {k : UInt16} (h : UnsubscribeFrame max s k rest) :
    (V5.read max s).2 ≠ s := by
  obtain ⟨b1, bs, tail, rfl, ht, hv, hl, hm⟩ := h
  have hc := check_frame b1 bs (u16 k.toNat ++ tail ++ rest) max hv (by omega) (by simp [u16_len]; omega)
  rw [v5_read_eq, readG_ok V5.readFrame max hc]
  intro e
  have := congrArg List.length e
  simp [FixedHeader.frame_length, u16_len] at this
  omega

/-- **C103** A packet that is accepted prints its packet identifier if it is an UNSUBSCRIBE, and nothing otherwise. -/
theorem C103_v5_packet_output (loc : String) (max : Nat) (s s' : Bytes) (p : V5.Packet) (h : V5.read max s = (.ok p, s')) :
    V5.readT true loc max s = ((.ok p, s'), linesOf loc p) := by
  obtain ⟨hy, hn⟩ := C103_v5_output loc max s
  obtain ⟨b1, bs, bd, hs, hv, hl, hm, hd⟩ := (C60_v5_read_iff max s p s').1 h
  by_cases hu : ∃ u, p = .Unsubscribe u
  · obtain ⟨u, rfl⟩ := hu
    obtain ⟨ht, ps, rfl, -, -⟩ := hd
    have hf : UnsubscribeFrame max s u.pkid s' := by
      refine ⟨b1, bs, ps ++ u.filters.flatMap str, ?_, ht, hv, ?_, ?_⟩
      · rw [hs]; simp
      · rw [hl]; simp [u16_len]
      · simp only [List.length_append, u16_len] at hm ⊢; omega
    rw [(hy _ _ hf).1, h]; rfl
  · have e : linesOf loc p = [] := by
      cases p <;> first | rfl | exact absurd ⟨_, rfl⟩ hu
    rw [e, hn _ true, h]
    rintro ⟨k, rest, b1', bs', tail, hs', ht, -⟩
    rw [hs] at hs'
    injection hs' with h1 _
    subst h1
    have h10 : Spec.V4.typeNum b1 = 10 := ht
    cases p <;> first
      | exact hu ⟨_, rfl⟩
      | (have hd1 : Spec.V4.typeNum b1 = _ := hd.1; omega)
      | (have hd1 : Spec.V4.typeNum b1 = _ := hd; omega)
      | skip
    · next p =>
      have hd1 : b1 = UInt8.ofNat (Spec.V5.byte1 (.Publish p)) := hd.1
      rw [hd1] at h10
      revert h10
      obtain ⟨d, q, r, t, k, pr, pl⟩ := p
      have key : ∀ (d r : Bool) (q : QoS), Spec.V4.typeNum (UInt8.ofNat (3 * 16 + flag d 8 + 2 * Spec.V4.qosNum q + flag r 1)) ≠ 10 := by
        intro d r q; cases d <;> cases q <;> cases r <;> decide
      exact key d r q
    · next p =>
      have hd1 : b1 = UInt8.ofNat (Spec.V5.byte1 (.Disconnect p)) := hd.1
      rw [hd1] at h10
      revert h10
      show ¬ _
      exact fun h => absurd h (by decide : Spec.V4.typeNum (UInt8.ofNat (14 * 16)) ≠ 10)

/-- **C103** With a standard error that cannot be written, `v5::read` panics on exactly the frames of the first theorem. -/
theorem C103_v5_panic_iff (loc : String) (max : Nat) (s : Bytes) :
    (V5.readT false loc max s).1.1 = .panic ↔ ∃ k rest, UnsubscribeFrame max s k rest := by
  obtain ⟨hy, hn⟩ := C103_v5_output loc max s
  constructor
  · intro h
    by_contra hc
    rw [hn hc false] at h
    rcases C08_v5_read_total max s with ⟨p, s', e⟩ | ⟨x, s', e⟩ <;> rw [e] at h <;> cases h
  · rintro ⟨k, rest, hf⟩
    rw [(hy k rest hf).2]

/-- **C103** `Unsubscribe::read` called directly: one line with the identifier if there are two bytes behind the fixed header
(a panic if standard error does not work), and nothing printed if there are not. -/
theorem C103_v5_direct_output (loc : String) (h : FixedHeader) :
    (∀ (pre tail : Bytes) (k : UInt16), pre.length = h.fixed_header_len →
      V5.Unsubscribe.readT true loc h (pre ++ (u16 k.toNat ++ tail))
          = (V5.Unsubscribe.readM h (pre ++ (u16 k.toNat ++ tail)), [dbgLine loc k])
        ∧ V5.Unsubscribe.readT false loc h (pre ++ (u16 k.toNat ++ tail)) = ((.panic, tail), []))
    ∧ (∀ (s : Bytes), s.length < h.fixed_header_len + 2 → ∀ works,
      V5.Unsubscribe.readT works loc h s = (V5.Unsubscribe.readM h s, [])) := by
  constructor
  · intro pre tail k hp
    exact ⟨by rw [V5.unsub_long true loc h pre k tail hp]; rfl, by rw [V5.unsub_long false loc h pre k tail hp]; rfl⟩
  · intro s hs works
    by_cases hl : h.fixed_header_len ≤ s.length
    · have := V5.unsub_short works loc h (s.take h.fixed_header_len) (s.drop h.fixed_header_len) (by simp [hl])
        (by simp; omega)
      rwa [List.take_append_drop] at this
    · have e : advance h.fixed_header_len s = (.panic, s) := by
        unfold advance
        rw [if_neg hl]
      unfold V5.Unsubscribe.readM V5.Unsubscribe.readT
      simp only [bind, M.bind, T.bind, T.quiet, e]

/-- a call of the printing reader, from a call of the reader -/
theorem readT_calls (loc : String) (max : Nat) (s : Bytes) :
    ∃ o, V5.readT true loc max s = (V5.read max s, o) ∧ o.length ≤ 1 ∧ ((V5.read max s).2 = s → o = []) := by
  obtain ⟨hy, hn⟩ := C103_v5_output loc max s
  by_cases hf : ∃ k rest, UnsubscribeFrame max s k rest
  · obtain ⟨k, rest, hf⟩ := hf
    exact ⟨_, (hy k rest hf).1, by simp, fun e => absurd e (unsubscribeFrame_consumed hf)⟩
  · exact ⟨_, hn hf true, by simp, fun _ => rfl⟩

theorem pumpT_of (loc : String) (max : Nat) {s r : Bytes} {ps : List V5.Packet} {e : Option Error}
    (h : Pump (V5.read max) retryUnconsumed s ps e r) :
    ∃ last, PumpT (V5.readT true loc max) retryUnconsumed s ps e r (ps.flatMap (linesOf loc) ++ last)
      ∧ last.length ≤ 1 ∧ (e = none → last = []) := by
  induction h with
  | @wait s s' e h hr =>
    obtain ⟨o, h1, h2, h3⟩ := readT_calls loc max s
    rw [h] at h1 h3
    exact ⟨o, .wait h1 hr, h2, fun _ => h3 hr.2⟩
  | @fail s s' e h hr =>
    obtain ⟨o, h1, h2, h3⟩ := readT_calls loc max s
    rw [h] at h1
    exact ⟨o, .fail h1 hr, h2, fun e => nomatch e⟩
  | @step s s' p ps e r h ht ih =>
    obtain ⟨o, h1, h2, h3⟩ := ih
    refine ⟨o, ?_, h2, h3⟩
    rw [List.flatMap_cons, List.append_assoc]
    exact .step (C103_v5_packet_output loc max s s' p h) h1

theorem feedT_of (loc : String) (max : Nat) {buf r : Bytes} {cs : List Bytes} {ps : List V5.Packet} {e : Option Error}
    (h : Feed (V5.read max) retryUnconsumed buf cs ps e r) :
    ∃ last, FeedT (V5.readT true loc max) retryUnconsumed buf cs ps e r (ps.flatMap (linesOf loc) ++ last)
      ∧ last.length ≤ 1 ∧ (e = none → last = []) := by
  induction h with
  | nil => exact ⟨[], .nil, by simp, fun _ => rfl⟩
  | more h ht ih =>
    obtain ⟨l1, h1, -, h3⟩ := pumpT_of loc max h
    obtain ⟨l2, g1, g2, g3⟩ := ih
    rw [h3 rfl, List.append_nil] at h1
    refine ⟨l2, ?_, g2, g3⟩
    rw [List.flatMap_append, List.append_assoc]
    exact .more h1 g1
  | dead h =>
    obtain ⟨l1, h1, h2, h3⟩ := pumpT_of loc max h
    exact ⟨l1, .dead h1, h2, h3⟩

theorem readT_quiet_read {loc : String} {max : Nat} {s : Bytes} {r : Res V5.Packet × Bytes} {o : List String}
    (h : V5.readT true loc max s = (r, o)) : V5.read max s = r := by
  obtain ⟨o', h1, -, -⟩ := readT_calls loc max s
  rw [h1] at h
  exact congrArg Prod.fst h

theorem pump_of_pumpT {loc : String} {max : Nat} {s r : Bytes} {ps : List V5.Packet} {e : Option Error} {o : List String}
    (h : PumpT (V5.readT true loc max) retryUnconsumed s ps e r o) : Pump (V5.read max) retryUnconsumed s ps e r := by
  induction h with
  | wait h hr => exact .wait (readT_quiet_read h) hr
  | fail h hr => exact .fail (readT_quiet_read h) hr
  | step h _ ih => exact .step (readT_quiet_read h) ih

theorem feed_of_feedT {loc : String} {max : Nat} {buf r : Bytes} {cs : List Bytes} {ps : List V5.Packet} {e : Option Error}
    {o : List String} (h : FeedT (V5.readT true loc max) retryUnconsumed buf cs ps e r o) :
    Feed (V5.read max) retryUnconsumed buf cs ps e r := by
  induction h with
  | nil => exact .nil
  | more h _ ih => exact .more (pump_of_pumpT h) ih
  | dead h => exact .dead (pump_of_pumpT h)

theorem pumpT_output {loc : String} {max : Nat} {s r : Bytes} {ps : List V5.Packet} {e : Option Error} {o : List String}
    (h : PumpT (V5.readT true loc max) retryUnconsumed s ps e r o) :
    ∃ last, o = ps.flatMap (linesOf loc) ++ last ∧ last.length ≤ 1 ∧ (e = none → last = []) := by
  induction h with
  | @wait s s' e o h hr =>
    obtain ⟨o', h1, h2, h3⟩ := readT_calls loc max s
    have hq := readT_quiet_read h
    rw [h] at h1
    cases congrArg Prod.snd h1
    exact ⟨o, rfl, h2, fun _ => h3 (by rw [hq]; exact hr.2)⟩
  | @fail s s' e o h hr =>
    obtain ⟨o', h1, h2, h3⟩ := readT_calls loc max s
    rw [h] at h1
    cases congrArg Prod.snd h1
    exact ⟨o, rfl, h2, fun e => nomatch e⟩
  | @step s s' p ps e r o o' h ht ih =>
    obtain ⟨l, h1, h2, h3⟩ := ih
    have := C103_v5_packet_output loc max s s' p (readT_quiet_read h)
    rw [h] at this
    have ho : o = linesOf loc p := congrArg Prod.snd this
    exact ⟨l, by rw [List.flatMap_cons, List.append_assoc, ← h1, ho], h2, h3⟩

theorem feedT_output {loc : String} {max : Nat} {buf r : Bytes} {cs : List Bytes} {ps : List V5.Packet} {e : Option Error}
    {o : List String} (h : FeedT (V5.readT true loc max) retryUnconsumed buf cs ps e r o) :
    ∃ last, o = ps.flatMap (linesOf loc) ++ last ∧ last.length ≤ 1 ∧ (e = none → last = []) := by
  induction h with
  | nil => exact ⟨[], rfl, by simp, fun _ => rfl⟩
  | more h _ ih =>
    obtain ⟨l1, h1, -, h3⟩ := pumpT_output h
    obtain ⟨l2, g1, g2, g3⟩ := ih
    rw [h3 rfl, List.append_nil] at h1
    exact ⟨l2, by rw [List.flatMap_append, List.append_assoc, h1, g1], g2, g3⟩
  | dead h => exact pumpT_output h

/-- **C103** A client that feeds network chunks to `v5::read` gets what it gets without printing, however the stream is cut
into chunks, and prints one line per delivered UNSUBSCRIBE in the order of delivery, each once; one further line at most, and
only for the frame the stream died of. -/
theorem C103_v5_stream_output (loc : String) (max : Nat) (chunks : List Bytes) (ps : List V5.Packet) (e : Option Error)
    (r : Bytes) :
    (Feed (V5.read max) retryUnconsumed [] chunks ps e r
      ↔ ∃ o, FeedT (V5.readT true loc max) retryUnconsumed [] chunks ps e r o)
    ∧ ∀ o, FeedT (V5.readT true loc max) retryUnconsumed [] chunks ps e r o →
      ∃ last, o = ps.flatMap (linesOf loc) ++ last ∧ last.length ≤ 1 ∧ (e = none → last = []) :=
  ⟨⟨fun h => (feedT_of loc max h).elim fun _ hl => ⟨_, hl.1⟩, fun ⟨_, h⟩ => feed_of_feedT h⟩,
    fun _ h => feedT_output h⟩

/-- UNSUBSCRIBE 7 of filter "a", then a byte of the next frame: one line -/
example : V5.readT true "src/v5/unsubscribe.rs:45:9" 99 [0xA2, 6, 0, 7, 0, 0, 1, 97, 5]
    = ((.ok (.Unsubscribe ⟨7, ["a"], none⟩), [5]), ["[src/v5/unsubscribe.rs:45:9] pkid = 7"]) := by decide +kernel
example : UnsubscribeFrame 99 [0xA2, 6, 0, 7, 0, 0, 1, 97, 5] 7 [5] := by
  refine ⟨0xA2, [6], [0, 0, 1, 97], ?_, ?_, ⟨by simp, [], 6, rfl, by decide, by simp⟩, ?_, ?_⟩ <;> decide +kernel
/-- the same frame is rejected if the filter is cut short, but the line is printed; too short for an identifier: none;
other types, too big, incomplete: none -/
example : V5.readT true "l" 99 [0xA2, 5, 0, 7, 0, 0, 1] = ((.err (.BoundaryCrossed 1), []), ["[l] pkid = 7"])
    ∧ V5.readT true "l" 99 [0xA2, 1, 0] = ((.err .MalformedPacket, []), [])
    ∧ V5.readT true "l" 99 [0x40, 2, 0, 7] = ((.ok (.PubAck ⟨7, .Success, none⟩), []), [])
    ∧ V5.readT true "l" 5 [0xA2, 6, 0, 7, 0, 0, 1, 97] = ((.err (.PayloadSizeLimitExceeded 6), [0xA2, 6, 0, 7, 0, 0, 1, 97]), [])
    ∧ V5.readT true "l" 9 [0xA2, 6, 0, 7, 0] = ((.err (.InsufficientBytes 3), [0xA2, 6, 0, 7, 0]), [])
    ∧ V5.readT false "l" 99 [0xA2, 6, 0, 7, 0, 0, 1, 97, 5] = ((.panic, [5]), [])
    ∧ V5.readT false "l" 99 [0x40, 2, 0, 7] = ((.ok (.PubAck ⟨7, .Success, none⟩), []), []) := by decide +kernel
/-- called directly: with identifier 7, with one byte too few, and with less than the fixed header -/
example : V5.Unsubscribe.readT true "l" ⟨0xA2, 2, 6⟩ [0xA2, 6, 0, 7, 0, 0, 1, 97]
      = ((.ok ⟨7, ["a"], none⟩, []), ["[l] pkid = 7"])
    ∧ V5.Unsubscribe.readT false "l" ⟨0xA2, 2, 6⟩ [0xA2, 6, 0, 7, 0, 0, 1, 97] = ((.panic, [0, 0, 1, 97]), [])
    ∧ V5.Unsubscribe.readT true "l" ⟨0xA2, 2, 6⟩ [0xA2, 6, 0] = ((.err .MalformedPacket, [0]), [])
    ∧ V5.Unsubscribe.readT true "l" ⟨0xA2, 2, 6⟩ [0xA2] = ((.panic, [0xA2]), []) := by decide +kernel
/-- two frames in three chunks -/
example : FeedT (V5.readT true "l" 99) retryUnconsumed [] [[0xA2, 6, 0], [7, 0, 0, 1, 97, 0x40, 2, 0], [9]]
    [.Unsubscribe ⟨7, ["a"], none⟩, .PubAck ⟨9, .Success, none⟩] none [] ["[l] pkid = 7"] := by
  have a1 : PumpT (V5.readT true "l" 99) retryUnconsumed ([] ++ [0xA2, 6, 0]) [] none [0xA2, 6, 0] [] :=
    .wait (e := .InsufficientBytes 5) (by decide +kernel) ⟨⟨_, rfl⟩, rfl⟩
  have a2 : PumpT (V5.readT true "l" 99) retryUnconsumed ([0xA2, 6, 0] ++ [7, 0, 0, 1, 97, 0x40, 2, 0])
      [.Unsubscribe ⟨7, ["a"], none⟩] none [0x40, 2, 0] (["[l] pkid = 7"] ++ []) :=
    .step (s' := [0x40, 2, 0]) (by decide +kernel)
      (.wait (e := .InsufficientBytes 1) (by decide +kernel) ⟨⟨_, rfl⟩, rfl⟩)
  have a3 : PumpT (V5.readT true "l" 99) retryUnconsumed ([0x40, 2, 0] ++ [9])
      [.PubAck ⟨9, .Success, none⟩] none [] ([] ++ []) :=
    .step (s' := []) (by decide +kernel) (.wait (e := .InsufficientBytes 2) (by decide +kernel) ⟨⟨_, rfl⟩, rfl⟩)
  exact .more a1 (.more a2 (.more a3 .nil))
end Props
