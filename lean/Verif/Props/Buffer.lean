import Verif.Props.Skim
import Verif.Props.Framing
/-! C99: any buffer whatsoever is read in exactly one way. -/
namespace Props
open Mqtt Spec

theorem skim_any {P : Type} {rd : M P} {max : Nat} {good : UInt8 → Bytes → P → Prop}
    {bad : UInt8 → Bytes → Error → Prop} (hstop : ∀ s e, check s max = .err e → rd s = (.err e, s))
    (hrd : ∀ f : RawFrame, f.Valid max → ∃ o : Except Error P,
      (∀ rest, rd (f.bytes ++ rest) = (asRes o, rest)) ∧
      (∀ p, good f.byte1 f.body p ↔ o = .ok p) ∧ ∀ e, bad f.byte1 f.body e ↔ o = .error e)
    (n : Nat) (s : Bytes) (hn : s.length ≤ n) :
    ∃ (fs : List RawFrame) (os : List (Except Error P)) (r : Bytes) (e : Error),
      (∀ f ∈ fs, f.Valid max) ∧ s = (fs.map RawFrame.bytes).flatten ++ r ∧ check r max = .err e ∧
      List.Forall₂ (Outcome good bad) fs os ∧ (∀ os' r', Skim rd s os' r' ↔ os' = os ∧ r' = r) := by
  induction n generalizing s with
  | zero =>
    have : s = [] := List.length_eq_zero_iff.1 (by omega)
    subst this
    have h0 : check [] max = .err (.InsufficientBytes 2) := (C03_check_insufficient_iff [] max 2).2 (.inl ⟨rfl, rfl⟩)
    refine ⟨[], [], [], _, by simp, rfl, h0, .nil, fun os' r' => ?_⟩
    have h1 := hstop _ _ h0
    constructor
    · intro h
      cases h with
      | wait h => exact ⟨rfl, rfl⟩
      | packet h _ => rw [h1] at h; simp at h
      | skip h hne _ => rw [h1] at h; simp only [Prod.mk.injEq] at h; exact absurd h.2.symm hne
    · rintro ⟨rfl, rfl⟩; exact .wait h1
  | succ n ih =>
    have stop : ∀ e, check s max = .err e → _ := fun e he => by
      refine (⟨[], [], s, e, by simp, rfl, he, .nil, fun os' r' => ?_⟩ :
        ∃ (fs : List RawFrame) (os : List (Except Error P)) (r : Bytes) (e : Error),
          (∀ f ∈ fs, f.Valid max) ∧ s = (fs.map RawFrame.bytes).flatten ++ r ∧ check r max = .err e ∧
          List.Forall₂ (Outcome good bad) fs os ∧ (∀ os' r', Skim rd s os' r' ↔ os' = os ∧ r' = r))
      have h1 := hstop _ _ he
      constructor
      · intro h
        cases h with
        | wait h => exact ⟨rfl, rfl⟩
        | packet h _ => rw [h1] at h; simp at h
        | skip h hne _ => rw [h1] at h; simp only [Prod.mk.injEq] at h; exact absurd h.2.symm hne
      · rintro ⟨rfl, rfl⟩; exact .wait h1
    rcases C03_check_outcomes s max with ⟨h, hc⟩ | ⟨k, hc⟩ | hc | ⟨k, hc⟩
    · obtain ⟨b1, bs, t, rfl, hv, hm, hl, -⟩ := (C03_check_ok_iff s max h).1 hc
      let f : RawFrame := ⟨b1, bs, t.take (vbiValue bs)⟩
      have hbl : (t.take (vbiValue bs)).length = vbiValue bs := by simp; omega
      have hf : f.Valid max := ⟨hv, hbl.symm, by show (t.take (vbiValue bs)).length ≤ max; omega⟩
      have hs : b1 :: (bs ++ t) = f.bytes ++ t.drop (vbiValue bs) := by
        simp [f, RawFrame.bytes, List.append_assoc]
      obtain ⟨o, h1, hg, hb⟩ := hrd f hf
      have h1 := h1 (t.drop (vbiValue bs))
      obtain ⟨fs, os, r, e, hfs, hd, hr, ho, hu⟩ := ih (t.drop (vbiValue bs)) (by
        simp only [List.length_cons, List.length_append, List.length_drop] at hn ⊢; omega)
      have hne : t.drop (vbiValue bs) ≠ f.bytes ++ t.drop (vbiValue bs) := by
        intro h
        have := congrArg List.length h
        simp [RawFrame.bytes] at this
        omega
      rw [hs]
      refine ⟨f :: fs, o :: os, r, e, ?_, ?_, hr, .cons ?_ ho, fun os' r' => ?_⟩
      · intro g hg
        rcases List.mem_cons.1 hg with rfl | hg
        · exact hf
        · exact hfs g hg
      · simp only [List.map_cons, List.flatten_cons, List.append_assoc]
        rw [← hd]
      · cases o with
        | ok p => exact (hg p).2 rfl
        | error e => exact (hb e).2 rfl
      · constructor
        · intro h
          cases o with
          | ok p =>
            cases h with
            | wait h => rw [h1] at h; simp at h
            | packet h t =>
              rw [h1] at h
              simp only [asRes, Prod.mk.injEq, Res.ok.injEq] at h
              obtain ⟨rfl, rfl⟩ := h
              obtain ⟨rfl, rfl⟩ := (hu _ _).1 t
              exact ⟨rfl, rfl⟩
            | skip h _ _ => rw [h1] at h; simp at h
          | error e =>
            cases h with
            | wait h => rw [h1] at h; simp only [Prod.mk.injEq] at h; exact absurd h.2 hne
            | packet h t => rw [h1] at h; simp at h
            | skip h hn t =>
              rw [h1] at h
              simp only [asRes, Prod.mk.injEq, Res.err.injEq] at h
              obtain ⟨rfl, rfl⟩ := h
              obtain ⟨rfl, rfl⟩ := (hu _ _).1 t
              exact ⟨rfl, rfl⟩
        · rintro ⟨rfl, rfl⟩
          have t := (hu os r').2 ⟨rfl, rfl⟩
          cases o with
          | ok p => exact .packet h1 t
          | error e => exact .skip h1 hne t
    · exact stop _ hc
    · exact stop _ hc
    · exact stop _ hc

theorem noFrame_of_err {max : Nat} {r : Bytes} {e : Error} (h : check r max = .err e) : NoFrame max r := by
  rintro ⟨b1, bs, bd⟩ ⟨hv, hl, hm⟩ t rfl
  have hl : vbiValue bs = bd.length := hl
  have hm : bd.length ≤ max := hm
  have := (C03_check_ok_iff (RawFrame.bytes ⟨b1, bs, bd⟩ ++ t) max ⟨b1, bs.length + 1, vbiValue bs⟩).2
    ⟨b1, bs, bd ++ t, by simp [RawFrame.bytes], hv, by omega, by simp; omega, rfl⟩
  rw [h] at this
  cases this

theorem isVbi_pos {bs : Bytes} (h : IsVbi bs) : 1 ≤ bs.length := by
  obtain ⟨-, pre, last, rfl, -⟩ := h
  simp

theorem frames_length {α : Type} {R : RawFrame → α → Prop} {max : Nat} {fs : List RawFrame} {os : List α}
    (hf : ∀ f ∈ fs, f.Valid max) (h : List.Forall₂ R fs os) :
    2 * os.length ≤ (fs.map RawFrame.bytes).flatten.length := by
  induction h with
  | nil => simp
  | cons h t ih =>
    rename_i f _ fs os
    have := isVbi_pos (hf f (.head _)).1
    have ih := ih fun g hg => hf g (.tail _ hg)
    simp only [List.map_cons, List.flatten_cons, List.length_append, List.length_cons, RawFrame.bytes]
    omega

/-- C99 (v4): whatever bytes a buffer holds, a client that calls `v4::read` until nothing is consumed any more gets one
definite list of outcomes and one definite rest. The buffer is cut into frames from the left; each frame gives one
outcome, determined by it alone (C31, C61); the rest does not start with a complete frame within the limit, and the
last call says why and consumes nothing. At most one outcome per two bytes. -/
theorem C99_v4_any_buffer (max : Nat) (s : Bytes) :
    ∃ (fs : List RawFrame) (os : List (Except Error V4.Packet)) (r : Bytes),
      s = (fs.map RawFrame.bytes).flatten ++ r ∧ (∀ f ∈ fs, f.Valid max) ∧ NoFrame max r ∧
      List.Forall₂ (Outcome Spec.V4.Denotes Spec.V4.Rejects) fs os ∧
      (∀ os' r', Skim (V4.read max) s os' r' ↔ os' = os ∧ r' = r) ∧
      (∃ e, V4.read max r = (.err e, r)) ∧ 2 * os.length + r.length ≤ s.length := by
  obtain ⟨fs, os, r, e, hf, hs, hr, ho, hu⟩ := skim_any (C09_v4_one_frame max).2 (v4_outcome max) s.length s (Nat.le_refl _)
  refine ⟨fs, os, r, hs, hf, noFrame_of_err hr, ho, hu, ⟨e, (C09_v4_one_frame max).2 r e hr⟩, ?_⟩
  have := frames_length hf ho
  have h := congrArg List.length hs
  rw [List.length_append] at h
  omega

/-- C99 (v5) -/
theorem C99_v5_any_buffer (max : Nat) (s : Bytes) :
    ∃ (fs : List RawFrame) (os : List (Except Error V5.Packet)) (r : Bytes),
      s = (fs.map RawFrame.bytes).flatten ++ r ∧ (∀ f ∈ fs, f.Valid max) ∧ NoFrame max r ∧
      List.Forall₂ (Outcome Spec.V5.Denotes Spec.V5.Rejects) fs os ∧
      (∀ os' r', Skim (V5.read max) s os' r' ↔ os' = os ∧ r' = r) ∧
      (∃ e, V5.read max r = (.err e, r)) ∧ 2 * os.length + r.length ≤ s.length := by
  obtain ⟨fs, os, r, e, hf, hs, hr, ho, hu⟩ := skim_any (C10_v5_one_frame max).2 (v5_outcome max) s.length s (Nat.le_refl _)
  refine ⟨fs, os, r, hs, hf, noFrame_of_err hr, ho, hu, ⟨e, (C10_v5_one_frame max).2 r e hr⟩, ?_⟩
  have := frames_length hf ho
  have h := congrArg List.length hs
  rw [List.length_append] at h
  omega

/-- garbage at the end: two outcomes, then the malformed length stops the client for good -/
example : Skim (V5.read 10) [0xD0, 0, 0xF0, 1, 9, 0x30, 0xFF, 0xFF, 0xFF, 0xFF, 7]
    [.ok .PingResp, .error (.InvalidPacketType 15)] [0x30, 0xFF, 0xFF, 0xFF, 0xFF, 7] :=
  .packet (s' := [0xF0, 1, 9, 0x30, 0xFF, 0xFF, 0xFF, 0xFF, 7]) (by decide +kernel)
    (.skip (s' := [0x30, 0xFF, 0xFF, 0xFF, 0xFF, 7]) (by decide +kernel) (by decide)
      (.wait (e := .MalformedRemainingLength) (by decide +kernel)))

end Props
