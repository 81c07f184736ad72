import Verif.Spec.Skim
import Verif.Props.Errors
import Verif.Props.V4Read
import Verif.Proof.V5Stream
/-! C78: a bad packet does not affect its neighbours. -/
namespace Props
open Mqtt Spec

/-- an outcome as the result of a call -/
@[simp] def asRes {P : Type} : Except Error P → Res P
  | .ok p => .ok p
  | .error e => .err e

theorem skim_frames {P : Type} {rd : M P} {max : Nat} {good : UInt8 → Bytes → P → Prop}
    {bad : UInt8 → Bytes → Error → Prop} (h0 : ∃ e, rd [] = (.err e, []))
    (hrd : ∀ f : RawFrame, f.Valid max → ∃ o : Except Error P,
      (∀ rest, rd (f.bytes ++ rest) = (asRes o, rest)) ∧
      (∀ p, good f.byte1 f.body p ↔ o = .ok p) ∧ ∀ e, bad f.byte1 f.body e ↔ o = .error e)
    (fs : List RawFrame) (hf : ∀ f ∈ fs, f.Valid max) (os : List (Except Error P)) (r : Bytes) :
    Skim rd (fs.map RawFrame.bytes).flatten os r ↔ r = [] ∧ List.Forall₂ (Outcome good bad) fs os := by
  induction fs generalizing os with
  | nil =>
    obtain ⟨e, h0⟩ := h0
    simp only [List.map_nil, List.flatten_nil, List.forall₂_nil_left_iff]
    constructor
    · intro h
      cases h with
      | wait h => exact ⟨rfl, rfl⟩
      | packet h _ => rw [h0] at h; simp at h
      | skip h hne _ => rw [h0] at h; simp at h; exact absurd h.2.symm hne.symm
    · rintro ⟨rfl, rfl⟩; exact .wait h0
  | cons f fs ih =>
    have ih := ih (fun g hg => hf g (.tail _ hg))
    obtain ⟨o, h1, hg, hb⟩ := hrd f (hf f (.head _))
    have h1 := h1 (fs.map RawFrame.bytes).flatten
    simp only [List.map_cons, List.flatten_cons]
    have hne : (fs.map RawFrame.bytes).flatten ≠ f.bytes ++ (fs.map RawFrame.bytes).flatten := by
      intro h
      have := congrArg List.length h
      simp [RawFrame.bytes] at this
      omega
    constructor
    · intro h
      cases o with
      | ok p =>
        cases h with
        | wait h => rw [h1] at h; simp at h
        | packet h t =>
          rw [h1] at h
          simp only [asRes, Prod.mk.injEq, Res.ok.injEq] at h
          obtain ⟨rfl, rfl⟩ := h
          obtain ⟨rfl, h2⟩ := (ih _).1 t
          exact ⟨rfl, .cons ((hg _).2 rfl) h2⟩
        | skip h _ _ => rw [h1] at h; simp at h
      | error e =>
        cases h with
        | wait h => rw [h1] at h; simp only [Prod.mk.injEq] at h; exact absurd h.2 hne
        | packet h t => rw [h1] at h; simp at h
        | skip h hn t =>
          rw [h1] at h
          simp only [asRes, Prod.mk.injEq, Res.err.injEq] at h
          obtain ⟨rfl, rfl⟩ := h
          obtain ⟨rfl, h2⟩ := (ih _).1 t
          exact ⟨rfl, .cons ((hb _).2 rfl) h2⟩
    · rintro ⟨rfl, h⟩
      cases h with
      | cons h h2 =>
        rename_i o' os
        have t := (ih os).2 ⟨rfl, h2⟩
        cases o' with
        | ok p => rw [(hg p).1 h] at h1; simp only [asRes] at h1; exact .packet h1 t
        | error e => rw [(hb e).1 h] at h1; simp only [asRes] at h1; exact .skip h1 hne t

/-- every frame within the limit has one outcome, whatever follows it -/
theorem v4_outcome (max : Nat) : ∀ f : RawFrame, f.Valid max → ∃ o : Except Error V4.Packet,
    (∀ rest, V4.read max (f.bytes ++ rest) = (asRes o, rest)) ∧
    (∀ p, Spec.V4.Denotes f.byte1 f.body p ↔ o = .ok p) ∧ ∀ e, Spec.V4.Rejects f.byte1 f.body e ↔ o = .error e := by
  rintro ⟨b1, bs, bd⟩ ⟨hv, hl, hm⟩
  have key : ∀ rest, V4.read max (RawFrame.bytes ⟨b1, bs, bd⟩ ++ rest) =
      (V4.readFrame ⟨b1, bs.length + 1, bd.length⟩ ((b1 :: bs) ++ bd), rest) := by
    intro rest
    have := v4_read_frame max b1 bs bd rest hv hl hm
    simpa [RawFrame.bytes] using this
  have ok := V4.readFrame_iff ⟨b1, bs.length + 1, bd.length⟩ (b1 :: bs) bd rfl rfl
  have er := fun e => V4.readFrame_err ⟨b1, bs.length + 1, bd.length⟩ (b1 :: bs) bd rfl e rfl
  rcases V4.readFrame_good ⟨b1, bs.length + 1, bd.length⟩ ((b1 :: bs) ++ bd) (by simp) (by simp; omega) with
    ⟨p, h⟩ | ⟨e, h, -⟩
  · exact ⟨.ok p, fun rest => by rw [key, h]; rfl, fun p' => by rw [← ok p', h]; simp [eq_comm],
      fun e' => by rw [← er e', h]; simp⟩
  · exact ⟨.error e, fun rest => by rw [key, h]; rfl, fun p' => by rw [← ok p', h]; simp,
      fun e' => by rw [← er e', h]; simp [eq_comm]⟩

/-- C78 (v4): a stream of complete frames, good and bad: reading on after errors gives one outcome per frame, in
order, each determined by that frame alone: the packet it denotes (C31) or the reason for which it is rejected
(C61). -/
theorem C78_v4_frames_independent (max : Nat) (fs : List RawFrame) (hf : ∀ f ∈ fs, f.Valid max)
    (os : List (Except Error V4.Packet)) (r : Bytes) :
    Skim (V4.read max) (fs.map RawFrame.bytes).flatten os r ↔ r = [] ∧
      List.Forall₂ (Outcome Spec.V4.Denotes Spec.V4.Rejects) fs os := by
  refine skim_frames (rd := V4.read max) (max := max) (good := Spec.V4.Denotes) (bad := Spec.V4.Rejects)
    ⟨_, readG_nil V4.readFrame max⟩ (v4_outcome max) fs hf os r

/-- every frame within the limit has one outcome, whatever follows it -/
theorem v5_outcome (max : Nat) : ∀ f : RawFrame, f.Valid max → ∃ o : Except Error V5.Packet,
    (∀ rest, V5.read max (f.bytes ++ rest) = (asRes o, rest)) ∧
    (∀ p, Spec.V5.Denotes f.byte1 f.body p ↔ o = .ok p) ∧ ∀ e, Spec.V5.Rejects f.byte1 f.body e ↔ o = .error e := by
  rintro ⟨b1, bs, bd⟩ ⟨hv, hl, hm⟩
  have hb : bd.length ≤ maxRemaining := by
    have h := vbiValue_le hv
    rw [show vbiValue bs = bd.length from hl] at h
    exact h
  have key : ∀ rest, V5.read max (RawFrame.bytes ⟨b1, bs, bd⟩ ++ rest) =
      (V5.readFrame ⟨b1, bs.length + 1, bd.length⟩ ((b1 :: bs) ++ bd), rest) := by
    intro rest
    have := v5_read_frame max b1 bs bd rest hv hl hm
    simpa [RawFrame.bytes] using this
  have ok := V5.readFrame_iff ⟨b1, bs.length + 1, bd.length⟩ (b1 :: bs) bd rfl hb rfl
  have er := fun e => V5.readFrame_err ⟨b1, bs.length + 1, bd.length⟩ (b1 :: bs) bd rfl hb e rfl
  rcases V5.readFrame_good ⟨b1, bs.length + 1, bd.length⟩ ((b1 :: bs) ++ bd) (by simp) with
    ⟨p, h⟩ | ⟨e, h, -⟩
  · exact ⟨.ok p, fun rest => by rw [key, h]; rfl, fun p' => by rw [← ok p', h]; simp [eq_comm],
      fun e' => by rw [← er e', h]; simp⟩
  · exact ⟨.error e, fun rest => by rw [key, h]; rfl, fun p' => by rw [← ok p', h]; simp,
      fun e' => by rw [← er e', h]; simp [eq_comm]⟩

/-- C78 (v5) -/
theorem C78_v5_frames_independent (max : Nat) (fs : List RawFrame) (hf : ∀ f ∈ fs, f.Valid max)
    (os : List (Except Error V5.Packet)) (r : Bytes) :
    Skim (V5.read max) (fs.map RawFrame.bytes).flatten os r ↔ r = [] ∧
      List.Forall₂ (Outcome Spec.V5.Denotes Spec.V5.Rejects) fs os := by
  refine skim_frames (rd := V5.read max) (max := max) (good := Spec.V5.Denotes) (bad := Spec.V5.Rejects)
    ⟨_, readG_nil V5.readFrame max⟩ (v5_outcome max) fs hf os r

/-- an unknown packet type between two good packets -/
example : Skim (V4.read 10) [0x40, 2, 0, 7, 0xF0, 1, 9, 0xC0, 0]
    [.ok (.PubAck ⟨7⟩), .error (.InvalidPacketType 15), .ok .PingReq] [] :=
  .packet (s' := [0xF0, 1, 9, 0xC0, 0]) (by decide +kernel)
    (.skip (s' := [0xC0, 0]) (by decide +kernel) (by decide) (.packet (s' := []) (by decide +kernel)
      (.wait (e := .InsufficientBytes 2) (by decide +kernel))))
example : ∀ f ∈ [RawFrame.mk 0x40 [2] [0, 7], ⟨0xF0, [1], [9]⟩, ⟨0xC0, [0], []⟩], f.Valid 10 := by
  intro f hf
  simp only [List.mem_cons, List.not_mem_nil, or_false] at hf
  rcases hf with rfl | rfl | rfl <;> exact ⟨(isVbi_singleton _).2 (by decide), rfl, by decide⟩

end Props
