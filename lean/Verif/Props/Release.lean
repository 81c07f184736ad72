import Verif.Proof.Release
import Verif.Props.V4Read
/-! C83: release builds (no overflow checks) behave like debug builds. -/
namespace Props
open Mqtt Spec

/-- C83 (v4): on every stream and with every limit, `v4::read` does the same in release builds (`usize` of at least 32
bits) as in debug builds. -/
theorem C83_v4_release (W : Nat) (hW : 32 ≤ W) (max : Nat) (s : Bytes) : V4.readR W max s = V4.read max s := by
  refine V4.read_R W hW max s ?_
  rcases C07_v4_read_total max s with ⟨p, s', h⟩ | ⟨e, s', h⟩ <;> rw [h] <;> simp

/-- C83 (v5): the same for `v5::read`. -/
theorem C83_v5_release (W : Nat) (hW : 32 ≤ W) (max : Nat) (s : Bytes) : V5.readR W max s = V5.read max s := by
  rw [V5.read_R W hW max]

/-- C83: v4 `Unsubscribe::read` called directly, with any header and bytes (whose sizes fit a `usize`), in a release
build: it panics only if the bytes are shorter than the header; where the debug build returns, it returns the same; where
the debug build panics for an announced length that does not fit the bytes (C64), it returns an error, never a packet. -/
theorem C83_v4_unsubscribe_release (W : Nat) (h : FixedHeader) (s : Bytes) (hr : h.remaining_len < 2 ^ W)
    (hs : s.length < 2 ^ W) :
    PanicsExactly (V4.Unsubscribe.readMR W h) s (s.length < h.fixed_header_len)
    ∧ ((V4.Unsubscribe.readM h s).1 ≠ .panic → V4.Unsubscribe.readMR W h s = V4.Unsubscribe.readM h s)
    ∧ ((V4.Unsubscribe.readM h s).1 = .panic → h.fixed_header_len ≤ s.length →
        ∃ e, (V4.Unsubscribe.readMR W h s).1 = .err e) := by
  have h1 := V4.Unsubscribe.read_sim W h hr s
  have h2 := V4.Unsubscribe.readMR_of_panic W h s hr hs
  refine ⟨?_, h1, fun a b => h2 b a⟩
  by_cases hh : s.length < h.fixed_header_len
  · have : (V4.Unsubscribe.readMR W h s).1 = .panic := by
      unfold V4.Unsubscribe.readMR; rw [advance_short hh]
    exact ⟨by simp [this, hh], .inr (.inr this)⟩
  · by_cases hp : (V4.Unsubscribe.readM h s).1 = .panic
    · obtain ⟨e, he⟩ := h2 (by omega) hp
      exact ⟨by simp [he, hh], .inr (.inl ⟨e, he⟩)⟩
    · have := (C64_v4_direct_read_unsubscribe h s).2
      rw [← h1 hp] at this hp
      exact ⟨by simp [hh, hp], this⟩

/-- hypotheses met: three calls whose header does not fit the bytes: an underflow in debug builds is an error in release builds -/
example : ∃ e, (V4.Unsubscribe.readMR 32 ⟨0xA2, 2, 5⟩ [0xA2, 5, 0, 1, 0, 2, 97, 98]).1 = .err e :=
  (C83_v4_unsubscribe_release 32 ⟨0xA2, 2, 5⟩ [0xA2, 5, 0, 1, 0, 2, 97, 98] (by decide) (by decide)).2.2
    (by decide +kernel) (by decide)
example : V4.Unsubscribe.readMR 32 ⟨0xA2, 2, 6⟩ [0xA2, 6, 0, 1, 0, 2, 97, 98]
    = V4.Unsubscribe.readM ⟨0xA2, 2, 6⟩ [0xA2, 6, 0, 1, 0, 2, 97, 98] :=
  (C83_v4_unsubscribe_release 32 ⟨0xA2, 2, 6⟩ _ (by decide) (by decide)).2.1 (by decide +kernel)


/-- C83 (v5): the readers of the individual packets, called directly with any header and any bytes, do the same in
release builds as in debug builds (panics included, C64: those come from indexing, not from arithmetic). -/
theorem C83_v5_direct (W : Nat) (hW : 32 ≤ W) (h : FixedHeader) (s : Bytes) :
    V5.Connect.readMR W h s = V5.Connect.readM h s
    ∧ V5.ConnAck.readMR W h s = V5.ConnAck.readM h s
    ∧ V5.Publish.readMR W h s = V5.Publish.readM h s
    ∧ V5.PubAck.readMR W h s = V5.PubAck.readM h s
    ∧ V5.PubRec.readMR W h s = V5.PubRec.readM h s
    ∧ V5.PubRel.readMR W h s = V5.PubRel.readM h s
    ∧ V5.PubComp.readMR W h s = V5.PubComp.readM h s
    ∧ V5.Subscribe.readMR W h s = V5.Subscribe.readM h s
    ∧ V5.SubAck.readMR W h s = V5.SubAck.readM h s
    ∧ V5.Unsubscribe.readMR W h s = V5.Unsubscribe.readM h s
    ∧ V5.UnsubAck.readMR W h s = V5.UnsubAck.readM h s
    ∧ V5.Disconnect.readMR W h s = V5.Disconnect.readM h s := by
  refine ⟨?_, ?_, ?_, ?_, ?_, ?_, ?_, ?_, ?_, ?_, ?_, ?_⟩
  · rw [V5.Connect_R W hW]
  · rw [V5.ConnAck_R W hW]
  · rw [V5.Publish_R W hW]
  · exact congrFun (V5.Ack_R W hW _ _ h) s
  · exact congrFun (V5.Ack_R W hW _ _ h) s
  · exact congrFun (V5.Ack_R W hW _ _ h) s
  · exact congrFun (V5.Ack_R W hW _ _ h) s
  · rw [V5.Subscribe_R W hW]
  · rw [V5.SubAck_R W hW]
  · rw [V5.Unsubscribe_R W hW]
  · rw [V5.UnsubAck_R W hW]
  · rw [V5.Disconnect_R W hW]

/-- the header announces 3 bytes, the filter takes 4: panic in debug builds, an error in release builds of either width -/
example : (V4.Unsubscribe.readM ⟨0xA2, 2, 5⟩ [0xA2, 5, 0, 1, 0, 2, 97, 98]).1 = .panic
    ∧ (V4.Unsubscribe.readMR 32 ⟨0xA2, 2, 5⟩ [0xA2, 5, 0, 1, 0, 2, 97, 98]).1 = .err .MalformedPacket
    ∧ (V4.Unsubscribe.readMR 64 ⟨0xA2, 2, 0⟩ [0xA2, 5, 0, 1, 0, 2, 97, 98]).1 = .err .MalformedPacket := by decide +kernel
/-- ordinary packets -/
example : V4.readR 64 9 [0xA2, 6, 0, 1, 0, 2, 97, 98] = (.ok (.Unsubscribe ⟨1, ["ab"]⟩), [])
    ∧ V5.readR 64 99 [0xA2, 14, 0, 1, 7, 38, 0, 1, 97, 0, 1, 98, 0, 2, 97, 98, 7]
      = (.ok (.Unsubscribe ⟨1, ["ab"], some ⟨[("a", "b")]⟩⟩), [7]) := by decide +kernel

/-- a v5 reader called directly with a header that does not belong to the bytes: the same packet in both builds -/
example : (V5.Unsubscribe.readMR 32 ⟨0, 2, 99⟩ [0xA2, 14, 0, 1, 7, 38, 0, 1, 97, 0, 1, 98, 0, 2, 97, 98]).1
      = .ok ⟨1, ["ab"], some ⟨[("a", "b")]⟩⟩
    ∧ (V5.Unsubscribe.readMR 32 ⟨0, 99, 2⟩ [0xA2, 14, 0]).1 = .panic := by decide +kernel

end Props
