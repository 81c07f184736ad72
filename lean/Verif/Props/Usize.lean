import Verif.Proof.UsizeWrite
/-! C96: length computations on machine integers.

Everywhere else lengths are unbounded numbers.  Here `usize` has `W` bits and every addition in a `len` function is
checked, as in debug builds (`Model/Usize`: `.overflow` is the panic); at the end also release builds, where it wraps.  The computation, with all its intermediate sums,
succeeds exactly if the remaining length the writer announces (`Spec.V4.announced`, `Spec.V5.announced`: the number of
bytes in the body) is representable, and then yields it. -/
set_option linter.unusedSimpArgs false
namespace Mqtt
open Spec Usz

/-- two lengths that come out the same on every machine are the same -/
theorem lit_inj {m n : Nat} (h : ∀ W, (lit m : Usz .debug W) = lit n) : m = n := by
  have h2 : m + n < 2 ^ (m + n) := Nat.lt_two_pow_self
  have := h (m + n)
  rw [lit_pos (by omega), lit_pos (by omega)] at this
  exact Usz.val.inj this

/-- the buffer does not matter: a panic is a panic -/
theorem putU8_panic (b : UInt8) {β : Type} (f : Nat → M β) {n W : Nat} (h : ¬ n < 2 ^ W) (s : Bytes) :
    ((putU8 b >>= fun _ => (lit n : Usz .debug W).get >>= f) s).1 = .panic := by
  rw [get_overflow h]; rfl
theorem get_panic {β : Type} (f : Nat → M β) {n W : Nat} (h : ¬ n < 2 ^ W) (s : Bytes) :
    (((lit n : Usz .debug W).get >>= f) s).1 = .panic := by
  rw [get_overflow h]; rfl

namespace V4
open Spec.V4
theorem usize_announced (p : Packet) (W : Nat) : p.lenU .debug W = lit (announced p) := by
  cases p with
  | Connect c => rw [announced_eq _ rfl, ← Connect.len_eq]; exact Connect.lenU_eq .debug W c
  | ConnAck c => rw [announced_eq _ rfl]; exact ConnAck.lenU_eq .debug W c
  | Publish q =>
    have hl : q.len = announced (.Publish q) := by
      by_cases hq : q.qos ≠ .AtMostOnce ∧ q.pkid = 0
      · simp [Publish.len, announced, pkidMissing, hq.1, hq.2, strLen_eq, body, str_len, u16_len]; omega
      · have hm : q.qos ≠ .AtMostOnce → q.pkid ≠ 0 := fun h1 h2 => hq ⟨h1, h2⟩
        rw [announced_eq _ (by simp [pkidMissing]; simpa using hm), Publish.len_eq q hm]
    rw [← hl]; exact Publish.lenU_eq .debug W q
  | PubAck c => rw [announced_eq _ rfl]; rfl
  | PubRec c => rw [announced_eq _ rfl]; rfl
  | PubRel c => rw [announced_eq _ rfl]; rfl
  | PubComp c => rw [announced_eq _ rfl]; rfl
  | Subscribe q => rw [announced_eq _ rfl, ← Subscribe.len_eq]; exact Subscribe.lenU_eq .debug W q
  | SubAck q => rw [announced_eq _ rfl, ← SubAck.len_eq]; exact SubAck.lenU_eq .debug W q
  | Unsubscribe q => rw [announced_eq _ rfl, ← Unsubscribe.len_eq]; exact Unsubscribe.lenU_eq .debug W q
  | UnsubAck c => rw [announced_eq _ rfl]; rfl
  | PingReq => rfl
  | PingResp => rfl
  | Disconnect => rfl
/-- every packet's `writeU` is its `write` if its length fits -/
theorem writeU_announced (p : Packet) (bld : Build) (W : Nat) (hW : 29 ≤ W) (h : announced p < 2 ^ W) :
    p.writeU bld W = p.write := by
  cases p with
  | Connect c =>
    refine Connect.writeU_eq bld W c ?_
    rwa [lit_inj fun W => (Connect.lenU_eq .debug W c).symm.trans (usize_announced (.Connect c) W)]
  | ConnAck c =>
    refine ConnAck.writeU_eq bld W c hW ?_
    rwa [lit_inj fun W => (ConnAck.lenU_eq .debug W c).symm.trans (usize_announced (.ConnAck c) W)]
  | Publish c =>
    refine Publish.writeU_eq bld W c hW ?_
    rwa [lit_inj fun W => (Publish.lenU_eq .debug W c).symm.trans (usize_announced (.Publish c) W)]
  | PubAck c => exact PubAck.writeU_eq bld W c hW h
  | PubRec c => exact PubRec.writeU_eq bld W c hW h
  | PubRel c => exact PubRel.writeU_eq bld W c hW h
  | PubComp c => exact PubComp.writeU_eq bld W c hW h
  | Subscribe c =>
    refine Subscribe.writeU_eq bld W c hW ?_
    rwa [lit_inj fun W => (Subscribe.lenU_eq .debug W c).symm.trans (usize_announced (.Subscribe c) W)]
  | SubAck c =>
    refine SubAck.writeU_eq bld W c hW ?_
    rwa [lit_inj fun W => (SubAck.lenU_eq .debug W c).symm.trans (usize_announced (.SubAck c) W)]
  | Unsubscribe c =>
    refine Unsubscribe.writeU_eq bld W c hW ?_
    rwa [lit_inj fun W => (Unsubscribe.lenU_eq .debug W c).symm.trans (usize_announced (.Unsubscribe c) W)]
  | UnsubAck c => rfl
  | PingReq => rfl
  | PingResp => rfl
  | Disconnect => rfl

/-- with overflow checks a length that does not fit is a panic -/
theorem writeU_panic (p : Packet) (W : Nat) (hW : 2 ≤ W) (h : ¬ announced p < 2 ^ W) (s : Bytes) :
    (p.writeU .debug W s).1 = .panic := by
  have h4 : 2 ^ 2 ≤ 2 ^ W := Nat.pow_le_pow_right (by decide) hW
  have hl := usize_announced p W
  cases p with
  | Connect c =>
    show ((Connect.writeU .debug W c) s).1 = .panic
    unfold Connect.writeU
    rw [show c.lenU .debug W = lit _ from hl]
    exact get_panic _ h s
  | ConnAck c => exact absurd (show 2 < 2 ^ W by omega) h
  | Publish c =>
    show ((Publish.writeU .debug W c) s).1 = .panic
    unfold Publish.writeU
    rw [show c.lenU .debug W = lit _ from hl]
    exact get_panic _ h s
  | PubAck c => exact absurd (show 2 < 2 ^ W by omega) h
  | PubRec c => exact absurd (show 2 < 2 ^ W by omega) h
  | PubRel c => exact absurd (show 2 < 2 ^ W by omega) h
  | PubComp c => exact absurd (show 2 < 2 ^ W by omega) h
  | Subscribe c =>
    show ((Subscribe.writeU .debug W c) s).1 = .panic
    unfold Subscribe.writeU
    rw [show c.lenU .debug W = lit _ from hl]
    exact putU8_panic _ _ h s
  | SubAck c =>
    show ((SubAck.writeU .debug W c) s).1 = .panic
    unfold SubAck.writeU
    rw [show c.lenU .debug W = lit _ from hl]
    exact putU8_panic _ _ h s
  | Unsubscribe c =>
    show ((Unsubscribe.writeU .debug W c) s).1 = .panic
    unfold Unsubscribe.writeU
    rw [show c.lenU .debug W = lit _ from hl]
    exact get_panic _ h s
  | UnsubAck c => exact absurd (show 2 < 2 ^ W by omega) h
  | PingReq => exact absurd (show 0 < 2 ^ W by omega) h
  | PingResp => exact absurd (show 0 < 2 ^ W by omega) h
  | Disconnect => exact absurd (show 0 < 2 ^ W by omega) h

/-- without, it is reduced modulo `2 ^ W` -/
theorem usize_release (p : Packet) (W : Nat) : p.lenU .release W = .val (announced p % 2 ^ W) := by
  rw [← lit_release]
  cases p with
  | Connect c =>
    rw [← lit_inj fun W => (Connect.lenU_eq .debug W c).symm.trans (usize_announced (.Connect c) W)]
    exact Connect.lenU_eq .release W c
  | ConnAck c =>
    rw [← lit_inj fun W => (ConnAck.lenU_eq .debug W c).symm.trans (usize_announced (.ConnAck c) W)]
    exact ConnAck.lenU_eq .release W c
  | Publish c =>
    rw [← lit_inj fun W => (Publish.lenU_eq .debug W c).symm.trans (usize_announced (.Publish c) W)]
    exact Publish.lenU_eq .release W c
  | PubAck c => rfl
  | PubRec c => rfl
  | PubRel c => rfl
  | PubComp c => rfl
  | Subscribe c =>
    rw [← lit_inj fun W => (Subscribe.lenU_eq .debug W c).symm.trans (usize_announced (.Subscribe c) W)]
    exact Subscribe.lenU_eq .release W c
  | SubAck c =>
    rw [← lit_inj fun W => (SubAck.lenU_eq .debug W c).symm.trans (usize_announced (.SubAck c) W)]
    exact SubAck.lenU_eq .release W c
  | Unsubscribe c =>
    rw [← lit_inj fun W => (Unsubscribe.lenU_eq .debug W c).symm.trans (usize_announced (.Unsubscribe c) W)]
    exact Unsubscribe.lenU_eq .release W c
  | UnsubAck c => rfl
  | PingReq => rfl
  | PingResp => rfl
  | Disconnect => rfl
end V4

namespace V5
open Spec.V5
theorem usize_disconnect (d : Disconnect) :
    d.len = if announced (.Disconnect d) = 0 then 2 else announced (.Disconnect d) := by
  rw [announced_eq _ rfl]
  obtain ⟨r, ps⟩ := d
  unfold Disconnect.len wireBody
  cases ps with
  | none =>
    by_cases hr : r = .NormalDisconnection
    · simp [hr]
    · simp [hr, u8_len, Spec.u8]
  | some p =>
    simp only [propSectionLen_eq disconnect_set]
    by_cases he : disconnectProps p = []
    · simp [he, sec, encAll, vbi, u8_len]
    · simp [he, u8_len, Spec.u8]; omega

theorem usize_announced (p : Packet) (W : Nat) : p.lenU .debug W =
    lit (match p with
      | .Disconnect d => if announced (.Disconnect d) = 0 then 2 else announced (.Disconnect d)
      | p => announced p) := by
  cases p with
  | Connect c => show _ = lit (announced _); rw [announced_eq _ rfl, show wireBody (.Connect c) = body (.Connect c) from rfl, ← Connect.len_eq]; exact Connect.lenU_eq .debug W c (.inl rfl)
  | ConnAck c =>
    have e2 : c.len = (wireBody (.ConnAck c)).length := by
      obtain ⟨a, b, ps⟩ := c
      unfold ConnAck.len wireBody
      cases ps with
      | none => rfl
      | some p => simp [propSectionLen_eq connack_set, u8_len]; omega
    show _ = lit (announced _); rw [announced_eq _ rfl, ← e2]; exact ConnAck.lenU_eq .debug W c (.inl rfl)
  | Publish q =>
    have hl : q.len = announced (.Publish q) := by
      by_cases hq : q.qos ≠ .AtMostOnce ∧ q.pkid = 0
      · have h1 : (if q.qos = .AtMostOnce then ([] : Bytes) else Spec.u16 q.pkid.toNat).length = 2 := by
          rw [if_neg hq.1, u16_len]
        simp only [Publish.len, announced, pkidMissing, V4.strLen_eq, wireBody, body, str_len, h1,
          optSec_len publish_set, List.length_append]
        simp [hq.1, hq.2]; omega
      · have hm : q.qos ≠ .AtMostOnce → q.pkid ≠ 0 := fun h1 h2 => hq ⟨h1, h2⟩
        rw [announced_eq _ (by simp [pkidMissing]; simpa using hm), Publish.len_eq q hm]; rfl
    show _ = lit (announced _); rw [← hl]; exact Publish.lenU_eq .debug W q (.inl rfl)
  | PubAck q =>
    show _ = lit (announced _); rw [announced_eq _ rfl, show wireBody (.PubAck q) = ackBody pubackCode q from rfl, ← ack_len .Success _ puback_zero]
    exact Ack.lenU_eq .debug W _ q (.inl rfl)
  | PubRec q =>
    show _ = lit (announced _); rw [announced_eq _ rfl, show wireBody (.PubRec q) = ackBody pubrecCode q from rfl, ← ack_len .Success _ pubrec_zero]
    exact Ack.lenU_eq .debug W _ q (.inl rfl)
  | PubRel q =>
    show _ = lit (announced _); rw [announced_eq _ rfl, show wireBody (.PubRel q) = ackBody pubrelCode q from rfl, ← ack_len .Success _ pubrel_zero]
    exact Ack.lenU_eq .debug W _ q (.inl rfl)
  | PubComp q =>
    show _ = lit (announced _); rw [announced_eq _ rfl, show wireBody (.PubComp q) = ackBody pubcompCode q from rfl, ← ack_len .Success _ pubcomp_zero]
    exact Ack.lenU_eq .debug W _ q (.inl rfl)
  | Subscribe q =>
    show _ = lit (announced _); rw [announced_eq _ rfl, show wireBody (.Subscribe q) = body (.Subscribe q) from rfl, ← Subscribe.len_eq]
    exact Subscribe.lenU_eq .debug W q (.inl rfl)
  | SubAck q =>
    show _ = lit (announced _); rw [announced_eq _ rfl, show wireBody (.SubAck q) = body (.SubAck q) from rfl, ← SubAck.len_eq]; exact SubAck.lenU_eq .debug W q (.inl rfl)
  | Unsubscribe q =>
    show _ = lit (announced _); rw [announced_eq _ rfl, show wireBody (.Unsubscribe q) = body (.Unsubscribe q) from rfl, ← Unsubscribe.len_eq]
    exact Unsubscribe.lenU_eq .debug W q (.inl rfl)
  | UnsubAck q =>
    show _ = lit (announced _); rw [announced_eq _ rfl, show wireBody (.UnsubAck q) = body (.UnsubAck q) from rfl, ← UnsubAck.len_eq]
    exact UnsubAck.lenU_eq .debug W q (.inl rfl)
  | PingReq => rfl
  | PingResp => rfl
  | Disconnect d => exact (Disconnect.lenU_eq .debug W d (.inl rfl)).trans (congrArg _ (usize_disconnect d))
/-- every packet's `writeU` is its `write` if its length fits -/
theorem writeU_announced (p : Packet) (bld : Build) (W : Nat) (hW : 29 ≤ W) (h : announced p < 2 ^ W) :
    p.writeU bld W = p.write := by
  have h4 : 2 ^ 29 ≤ 2 ^ W := Nat.pow_le_pow_right (by decide) hW
  cases p with
  | Connect c =>
    refine Connect.writeU_eq bld W c ?_
    rwa [lit_inj fun W => (Connect.lenU_eq .debug W c (.inl rfl)).symm.trans (usize_announced (.Connect c) W)]
  | ConnAck c =>
    refine ConnAck.writeU_eq bld W c hW ?_
    rwa [lit_inj fun W => (ConnAck.lenU_eq .debug W c (.inl rfl)).symm.trans (usize_announced (.ConnAck c) W)]
  | Publish c =>
    refine Publish.writeU_eq bld W c hW ?_
    rwa [lit_inj fun W => (Publish.lenU_eq .debug W c (.inl rfl)).symm.trans (usize_announced (.Publish c) W)]
  | PubAck c =>
    refine Ack.writeU_eq bld W _ _ _ c hW ?_
    rwa [lit_inj fun W => (Ack.lenU_eq .debug W _ c (.inl rfl)).symm.trans (usize_announced (.PubAck c) W)]
  | PubRec c =>
    refine Ack.writeU_eq bld W _ _ _ c hW ?_
    rwa [lit_inj fun W => (Ack.lenU_eq .debug W _ c (.inl rfl)).symm.trans (usize_announced (.PubRec c) W)]
  | PubRel c =>
    refine Ack.writeU_eq bld W _ _ _ c hW ?_
    rwa [lit_inj fun W => (Ack.lenU_eq .debug W _ c (.inl rfl)).symm.trans (usize_announced (.PubRel c) W)]
  | PubComp c =>
    refine Ack.writeU_eq bld W _ _ _ c hW ?_
    rwa [lit_inj fun W => (Ack.lenU_eq .debug W _ c (.inl rfl)).symm.trans (usize_announced (.PubComp c) W)]
  | Subscribe c =>
    refine Subscribe.writeU_eq bld W c hW ?_
    rwa [lit_inj fun W => (Subscribe.lenU_eq .debug W c (.inl rfl)).symm.trans (usize_announced (.Subscribe c) W)]
  | SubAck c =>
    refine SubAck.writeU_eq bld W c hW ?_
    rwa [lit_inj fun W => (SubAck.lenU_eq .debug W c (.inl rfl)).symm.trans (usize_announced (.SubAck c) W)]
  | Unsubscribe c =>
    refine Unsubscribe.writeU_eq bld W c hW ?_
    rwa [lit_inj fun W => (Unsubscribe.lenU_eq .debug W c (.inl rfl)).symm.trans (usize_announced (.Unsubscribe c) W)]
  | UnsubAck c =>
    refine UnsubAck.writeU_eq bld W c hW ?_
    rwa [lit_inj fun W => (UnsubAck.lenU_eq .debug W c (.inl rfl)).symm.trans (usize_announced (.UnsubAck c) W)]
  | PingReq => rfl
  | PingResp => rfl
  | Disconnect c =>
    refine Disconnect.writeU_eq bld W c hW ?_
    rw [usize_disconnect]
    split
    · omega
    · exact h

/-- with overflow checks a length that does not fit is a panic -/
theorem writeU_panic (p : Packet) (W : Nat) (hW : 2 ≤ W) (h : ¬ announced p < 2 ^ W) (s : Bytes) :
    (p.writeU .debug W s).1 = .panic := by
  have h4 : 2 ^ 2 ≤ 2 ^ W := Nat.pow_le_pow_right (by decide) hW
  have hl := usize_announced p W
  cases p with
  | Connect c =>
    show ((Connect.writeU .debug W c) s).1 = .panic
    unfold Connect.writeU
    rw [show c.lenU .debug W = lit _ from hl]
    first | exact get_panic _ h s | exact putU8_panic _ _ h s
  | ConnAck c =>
    show ((ConnAck.writeU .debug W c) s).1 = .panic
    unfold ConnAck.writeU
    rw [show c.lenU .debug W = lit _ from hl]
    first | exact get_panic _ h s | exact putU8_panic _ _ h s
  | Publish c =>
    show ((Publish.writeU .debug W c) s).1 = .panic
    unfold Publish.writeU
    rw [show c.lenU .debug W = lit _ from hl]
    first | exact get_panic _ h s | exact putU8_panic _ _ h s
  | PubAck c =>
    show ((Ack.writeU .debug W _ _ _ c) s).1 = .panic
    unfold Ack.writeU
    rw [show Ack.lenU .debug W _ c = lit _ from hl]
    exact get_panic _ h s
  | PubRec c =>
    show ((Ack.writeU .debug W _ _ _ c) s).1 = .panic
    unfold Ack.writeU
    rw [show Ack.lenU .debug W _ c = lit _ from hl]
    exact get_panic _ h s
  | PubRel c =>
    show ((Ack.writeU .debug W _ _ _ c) s).1 = .panic
    unfold Ack.writeU
    rw [show Ack.lenU .debug W _ c = lit _ from hl]
    exact get_panic _ h s
  | PubComp c =>
    show ((Ack.writeU .debug W _ _ _ c) s).1 = .panic
    unfold Ack.writeU
    rw [show Ack.lenU .debug W _ c = lit _ from hl]
    exact get_panic _ h s
  | Subscribe c =>
    show ((Subscribe.writeU .debug W c) s).1 = .panic
    unfold Subscribe.writeU
    rw [show c.lenU .debug W = lit _ from hl]
    first | exact get_panic _ h s | exact putU8_panic _ _ h s
  | SubAck c =>
    show ((SubAck.writeU .debug W c) s).1 = .panic
    unfold SubAck.writeU
    rw [show c.lenU .debug W = lit _ from hl]
    first | exact get_panic _ h s | exact putU8_panic _ _ h s
  | Unsubscribe c =>
    show ((Unsubscribe.writeU .debug W c) s).1 = .panic
    unfold Unsubscribe.writeU
    rw [show c.lenU .debug W = lit _ from hl]
    first | exact get_panic _ h s | exact putU8_panic _ _ h s
  | UnsubAck c =>
    show ((UnsubAck.writeU .debug W c) s).1 = .panic
    unfold UnsubAck.writeU
    rw [show c.lenU .debug W = lit _ from hl]
    first | exact get_panic _ h s | exact putU8_panic _ _ h s
  | PingReq => exact absurd (show 0 < 2 ^ W by omega) h
  | PingResp => exact absurd (show 0 < 2 ^ W by omega) h
  | Disconnect c =>
    simp only [if_neg (show announced (.Disconnect c) ≠ 0 by omega)] at hl
    show ((Disconnect.writeU .debug W c) s).1 = .panic
    unfold Disconnect.writeU
    rw [show c.lenU .debug W = lit _ from hl]
    exact putU8_panic _ _ h s
end V5

end Mqtt

namespace Props
open Mqtt Mqtt.Usz Spec

/-- **C96** (v4) On a machine whose `usize` has `W` bits, in a build that checks for overflow, the length computation
of `write` yields the announced length if that is representable and panics otherwise. -/
theorem C96_v4 (p : V4.Packet) (W : Nat) :
    p.lenU .debug W = if Spec.V4.announced p < 2 ^ W then .val (Spec.V4.announced p) else .overflow :=
  V4.usize_announced p W

/-- **C96** (v5) The same in v5, except for a DISCONNECT without body. -/
theorem C96_v5 (p : V5.Packet) (W : Nat) (h : ∀ d, p = .Disconnect d → Spec.V5.announced p ≠ 0) :
    p.lenU .debug W = if Spec.V5.announced p < 2 ^ W then .val (Spec.V5.announced p) else .overflow := by
  rw [V5.usize_announced]
  cases p with
  | Disconnect d =>
    have := h d rfl
    simp only [if_neg this]; rfl
  | _ => rfl

/-- **C96** (v5) … whose length computation never panics and yields 2, the size of the whole packet. -/
theorem C96_v5_disconnect (d : V5.Disconnect) (W : Nat) (hW : 2 ≤ W) (h : Spec.V5.announced (.Disconnect d) = 0) :
    (V5.Packet.Disconnect d).lenU .debug W = .val 2 := by
  rw [V5.usize_announced]
  simp only [if_pos h]
  exact lit_pos (Nat.lt_of_lt_of_le (by decide : 2 < 2 ^ 2) (Nat.pow_le_pow_right (by decide) hW))

/-- **C96** (v4) With a `usize` of 28 bits or more the length computation panics only for packets that with unbounded
arithmetic are refused as too long (`Spec.V4.written`, C91): no packet that can be written is affected. -/
theorem C96_v4_written (p : V4.Packet) (W : Nat) (hW : 28 ≤ W) (h : p.lenU .debug W = .overflow) :
    (Spec.V4.written p).1 = .err .PayloadTooLong := by
  rw [C96_v4] at h
  have : 2 ^ 28 ≤ 2 ^ W := Nat.pow_le_pow_right (by decide) hW
  have hn : maxRemaining < Spec.V4.announced p := by
    by_cases hl : Spec.V4.announced p < 2 ^ W
    · simp [hl] at h
    · unfold maxRemaining; omega
  unfold Spec.V4.written
  rw [if_pos hn]

/-- **C96** (v5) -/
theorem C96_v5_written (p : V5.Packet) (W : Nat) (hW : 28 ≤ W) (h : p.lenU .debug W = .overflow) :
    (Spec.V5.written p).1 = .err .PayloadTooLong := by
  have h2 : 2 ^ 28 ≤ 2 ^ W := Nat.pow_le_pow_right (by decide) hW
  have hn : maxRemaining < Spec.V5.announced p := by
    by_cases hd : ∀ d, p = .Disconnect d → Spec.V5.announced p ≠ 0
    · rw [C96_v5 p W hd] at h
      by_cases hl : Spec.V5.announced p < 2 ^ W
      · simp [hl] at h
      · unfold maxRemaining; omega
    · obtain ⟨d, hd⟩ := Classical.not_forall.1 hd
      have hd := Classical.not_imp.1 hd
      have h0 := Classical.not_not.1 hd.2
      rw [hd.1] at h h0
      rw [C96_v5_disconnect d W (by omega) h0] at h
      exact absurd h (by simp)
  unfold Spec.V5.written
  rw [if_pos hn]

/-- hypotheses met: a payload of 4 GiB on a 32-bit machine -/
example (big : Bytes) (hb : big.length = 2 ^ 32) :
    (Spec.V5.written (.Publish ⟨false, .AtMostOnce, false, "a", 0, none, big⟩)).1 = .err .PayloadTooLong := by
  refine C96_v5_written _ 32 (by decide) ?_
  rw [C96_v5, if_neg]
  · simp [Spec.V5.announced, Spec.V5.wireBody, Spec.V5.body, Spec.V5.pkidMissing, hb]
    omega
  · simp
example : ∃ big : Bytes, big.length = 2 ^ 32 := ⟨List.replicate (2 ^ 32) 0, List.length_replicate ..⟩


/-- **C96** (v4) Whole writers, debug and release builds: on `usize` of 29 bits or more they do what they do with
unbounded numbers (what that is: C91), unless the announced length itself is not representable. -/
theorem C96_v4_write (p : V4.Packet) (bld : Build) (W : Nat) (hW : 29 ≤ W) (h : Spec.V4.announced p < 2 ^ W) (s : Bytes) :
    p.writeU bld W s = p.write s := by rw [V4.writeU_announced p bld W hW h]

example : V4.Packet.writeU .release 32 (.PubAck ⟨7⟩) [1] = (.ok 4, [1, 0x40, 2, 0, 7]) := by
  rw [C96_v4_write (.PubAck ⟨7⟩) .release 32 (by decide) (by decide +kernel) [1]]; decide +kernel


/-- **C96** (v5) -/
theorem C96_v5_write (p : V5.Packet) (bld : Build) (W : Nat) (hW : 29 ≤ W) (h : Spec.V5.announced p < 2 ^ W) (s : Bytes) :
    p.writeU bld W s = p.write s := by rw [V5.writeU_announced p bld W hW h]

example : V5.Packet.writeU .debug 64 (.PubAck ⟨7, .NotAuthorized, none⟩) [1] = (.ok 5, [1, 0x40, 3, 0, 7, 0x87]) := by
  rw [C96_v5_write (.PubAck ⟨7, .NotAuthorized, none⟩) .debug 64 (by decide) (by decide +kernel) [1]]; decide +kernel


/-- **C96** (v4) If it is not, debug builds panic … -/
theorem C96_v4_write_panic (p : V4.Packet) (W : Nat) (hW : 2 ≤ W) (h : ¬ Spec.V4.announced p < 2 ^ W) (s : Bytes) :
    (p.writeU .debug W s).1 = .panic := V4.writeU_panic p W hW h s

/-- **C96** (v5) -/
theorem C96_v5_write_panic (p : V5.Packet) (W : Nat) (hW : 2 ≤ W) (h : ¬ Spec.V5.announced p < 2 ^ W) (s : Bytes) :
    (p.writeU .debug W s).1 = .panic := V5.writeU_panic p W hW h s

/-- hypotheses met: on an (imaginary) machine with words of 3 bits, 11 bytes are too many -/
example : (V5.Packet.writeU .debug 3
    (.Subscribe ⟨3, [⟨"a/b", .AtLeastOnce, false, false, .OnEverySubscribe⟩], some ⟨some 5, []⟩⟩) []).1 = .panic :=
  C96_v5_write_panic _ 3 (by decide) (by decide +kernel) []


/-- **C96** (v4) … and release builds announce the length modulo `2 ^ W` … -/
theorem C96_v4_release (p : V4.Packet) (W : Nat) : p.lenU .release W = .val (Spec.V4.announced p % 2 ^ W) :=
  V4.usize_release p W

/-- **C96** (witness) … so that a PUBLISH with a payload of `2 ^ W - 2` bytes, which debug builds refuse by a panic, is
written by release builds, successfully, with an announced length of zero.  (About the arithmetic only: memory limits
are not modelled, and a machine with `W`-bit addresses has no room for such a payload.) -/
theorem C96_release_witness (W : Nat) (hW : 29 ≤ W) (payload : Bytes) (hp : payload.length = 2 ^ W - 2) :
    let p : V4.Packet := .Publish ⟨false, .AtMostOnce, false, "", 0, payload⟩
    (p.writeU .debug W []).1 = .panic ∧ p.writeU .release W [] = (.ok 2, [0x30, 0, 0, 0] ++ payload) := by
  have h4 : 2 ^ 29 ≤ 2 ^ W := Nat.pow_le_pow_right (by decide) hW
  have ha : Spec.V4.announced (.Publish ⟨false, .AtMostOnce, false, "", 0, payload⟩) = 2 ^ W := by
    simp [Spec.V4.announced, Spec.V4.pkidMissing, Spec.V4.body, hp, str_len, show (utf8 "").length = 0 by decide +kernel]
    omega
  refine ⟨C96_v4_write_panic _ W (by omega) (by omega) [], ?_⟩
  have hl := C96_v4_release (.Publish ⟨false, .AtMostOnce, false, "", 0, payload⟩) W
  rw [ha, Nat.mod_self] at hl
  show (V4.Publish.writeU .release W _ []) = _
  unfold V4.Publish.writeU
  rw [show V4.Publish.lenU .release W _ = .val 0 from hl]
  have hr : ∀ b : Bytes, (1 + Usz.lit 1 + Usz.lit 0 : Usz .release W).get b = (.ok 2, b) := fun b => by
    rw [get_ret (by omega)]; rfl
  have hv : vbi 0 = [0] := by decide +kernel
  have hs : Spec.str "" = [0, 0] := by decide +kernel
  mrun [show (Usz.val 0 : Usz .release W).get = pure 0 from rfl, putU8_run, write_remaining_length_run (show 0 ≤ maxRemaining by decide),
    hv, write_mqtt_string_all, hs, putSlice_run, hr, ne_eq, not_true, if_false, List.length_singleton]
  rfl

/-- a PUBLISH of 10 bytes on a machine with 4-bit and one with 3-bit addresses -/
example : let p : V4.Packet := .Publish ⟨false, .AtLeastOnce, false, "a/b", 7, [1, 2, 3]⟩
    p.lenU .debug 4 = .val 10 ∧ p.lenU .debug 3 = .overflow ∧ p.lenU .debug 64 = .val 10 := by decide +kernel

/-- a SUBSCRIBE with a subscription identifier: 2 + 1 + 2 + 6 bytes -/
example : let p : V5.Packet := .Subscribe ⟨3, [⟨"a/b", .AtLeastOnce, false, false, .OnEverySubscribe⟩], some ⟨some 5, []⟩⟩
    p.lenU .debug 4 = .val 11 ∧ p.lenU .debug 3 = .overflow := by decide +kernel

example : (V5.Packet.Disconnect ⟨.NormalDisconnection, none⟩).lenU .debug 64 = .val 2 := by decide +kernel
example : (V5.Packet.Disconnect ⟨.ServerBusy, some ⟨some 9, none, [], none⟩⟩).lenU .debug 64 = .val 7 := by decide +kernel

/-- a packet whose length computation panics on a 32-bit machine exists, and its `write` says so on larger ones -/
example : ∃ p : V4.Packet, p.lenU .debug 32 = .overflow ∧ (Spec.V4.written p).1 = .err .PayloadTooLong := by
  obtain ⟨big, hb⟩ : ∃ l : List UInt8, l.length = 2 ^ 32 := ⟨List.replicate (2 ^ 32) 0, List.length_replicate ..⟩
  refine ⟨.Publish ⟨false, .AtMostOnce, false, "a", 0, big⟩, ?_, ?_⟩
  · rw [C96_v4, if_neg]
    simp [Spec.V4.announced, Spec.V4.pkidMissing, Spec.V4.body, hb]
  · refine C96_v4_written _ 32 (by decide) ?_
    rw [C96_v4, if_neg]
    simp [Spec.V4.announced, Spec.V4.pkidMissing, Spec.V4.body, hb]

/-- the payload of `C96_release_witness` on a 32-bit machine -/
example : ∃ payload : Bytes, payload.length = 2 ^ 32 - 2 := ⟨List.replicate (2 ^ 32 - 2) 0, List.length_replicate ..⟩

/-- the writers on a 32-bit machine at work -/
example : let p : V5.Packet := .Subscribe ⟨3, [⟨"a/b", .AtLeastOnce, false, false, .OnEverySubscribe⟩], some ⟨some 5, []⟩⟩
    p.writeU .release 32 [] = (.ok 13, [0x82, 11, 0, 3, 2, 11, 5, 0, 3, 97, 47, 98, 1]) := by decide +kernel
example : let p : V4.Packet := .Publish ⟨false, .AtLeastOnce, false, "a/b", 7, [1, 2, 3]⟩
    p.writeU .debug 32 [9] = (.ok 12, [9, 0x32, 10, 0, 3, 97, 47, 98, 0, 7, 1, 2, 3]) := by decide +kernel
end Props
