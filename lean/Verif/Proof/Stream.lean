import Verif.Spec.Client
import Verif.Proof.V4Spec
/-! Independence of chunking. -/
namespace Mqtt
open Spec

/-- what the chunking argument needs from a decoder -/
structure Streaming {P : Type} (rd : M P) (retry : Error → Bytes → Bytes → Prop) : Prop where
  /-- returns a value or an error -/
  total : ∀ s, (∃ p s', rd s = (.ok p, s')) ∨ ∃ e s', rd s = (.err e, s')
  /-- a packet consumes bytes -/
  shrink : ∀ s p s', rd s = (.ok p, s') → s'.length < s.length
  /-- a packet does not depend on what follows -/
  ok_append : ∀ s p s' t, rd s = (.ok p, s') → rd (s ++ t) = (.ok p, s' ++ t)
  /-- neither does a fatal error -/
  err_append : ∀ s e s' t, rd s = (.err e, s') → ¬ retry e s s' →
    rd (s ++ t) = (.err e, s' ++ t) ∧ ¬ retry e (s ++ t) (s' ++ t)
  /-- waiting leaves the buffer as it was -/
  wait_same : ∀ s e s', rd s = (.err e, s') → retry e s s' → s' = s

section
variable {P : Type} {rd : M P} {retry : Error → Bytes → Bytes → Prop}

theorem pump_exists (hs : Streaming rd retry) (s : Bytes) : ∃ ps e r, Pump rd retry s ps e r := by
  generalize hn : s.length = n
  induction n using Nat.strongRecOn generalizing s with
  | ind n ih =>
    rcases hs.total s with ⟨p, s', h⟩ | ⟨e, s', h⟩
    · have := hs.shrink s p s' h
      obtain ⟨ps, e, r, hp⟩ := ih s'.length (by omega) s' rfl
      exact ⟨p :: ps, e, r, .step h hp⟩
    · by_cases hr : retry e s s'
      · exact ⟨[], none, s', .wait h hr⟩
      · exact ⟨[], some e, s', .fail h hr⟩

theorem pump_unique {s : Bytes} {ps qs : List P} {e f : Option Error} {r t : Bytes}
    (h1 : Pump rd retry s ps e r) (h2 : Pump rd retry s qs f t) : ps = qs ∧ e = f ∧ r = t := by
  induction h1 generalizing qs with
  | wait h hr =>
    cases h2 with
    | wait h' hr' => rw [h] at h'; simp at h'; exact ⟨rfl, rfl, h'.2⟩
    | fail h' hr' => rw [h] at h'; simp at h'; obtain ⟨rfl, rfl⟩ := h'; exact absurd hr hr'
    | step h' _ => rw [h] at h'; simp at h'
  | fail h hr =>
    cases h2 with
    | wait h' hr' => rw [h] at h'; simp at h'; obtain ⟨rfl, rfl⟩ := h'; exact absurd hr' hr
    | fail h' hr' => rw [h] at h'; simp at h'; obtain ⟨rfl, rfl⟩ := h'; exact ⟨rfl, rfl, rfl⟩
    | step h' _ => rw [h] at h'; simp at h'
  | step h _ ih =>
    cases h2 with
    | wait h' hr' => rw [h] at h'; simp at h'
    | fail h' hr' => rw [h] at h'; simp at h'
    | step h' ht =>
      rw [h] at h'; simp at h'; obtain ⟨rfl, rfl⟩ := h'
      obtain ⟨rfl, rfl, rfl⟩ := ih ht
      exact ⟨rfl, rfl, rfl⟩

theorem pump_append_some (hs : Streaming rd retry) {s : Bytes} {ps : List P} {e : Option Error}
    {r : Bytes} (h1 : Pump rd retry s ps e r) (he : e ≠ none) (t : Bytes) :
    Pump rd retry (s ++ t) ps e (r ++ t) := by
  induction h1 with
  | wait h hr => exact absurd rfl he
  | fail h hr =>
    obtain ⟨h', hr'⟩ := hs.err_append _ _ _ t h hr
    exact .fail h' hr'
  | step h _ ih => exact .step (hs.ok_append _ _ _ t h) (ih he)

/-- pumping, then more bytes, is pumping everything -/
theorem pump_append_none (hs : Streaming rd retry) {s : Bytes} {ps : List P} {e : Option Error}
    {r : Bytes} (h1 : Pump rd retry s ps e r) (he : e = none) (t : Bytes) {qs : List P}
    {f : Option Error} {r' : Bytes} (h2 : Pump rd retry (r ++ t) qs f r') :
    Pump rd retry (s ++ t) (ps ++ qs) f r' := by
  induction h1 with
  | wait h hr => rw [hs.wait_same _ _ _ h hr] at h2; exact h2
  | fail h hr => exact absurd he (by simp)
  | step h _ ih => exact .step (hs.ok_append _ _ _ t h) (ih he h2)

/-- a buffer left by a pump that waits is one on which the client waits -/
theorem pump_rest (hs : Streaming rd retry) {s : Bytes} {ps : List P} {e : Option Error}
    {r : Bytes} (h1 : Pump rd retry s ps e r) (he : e = none) : Pump rd retry r [] none r := by
  induction h1 with
  | wait h hr =>
    have := hs.wait_same _ _ _ h hr
    subst this
    exact .wait h hr
  | fail h hr => exact absurd he (by simp)
  | step h _ ih => exact ih he

theorem feed_to_pump (hs : Streaming rd retry) {buf : Bytes} {cs : List Bytes} {ps : List P}
    {e : Option Error} {r : Bytes} (hf : Feed rd retry buf cs ps e r)
    (hb : Pump rd retry buf [] none buf) : Pump rd retry (buf ++ cs.flatten) ps e r := by
  induction hf with
  | nil => simpa using hb
  | more h _ ih =>
    have := pump_append_none hs h rfl _ (ih (pump_rest hs h rfl))
    simpa using this
  | @dead buf c r cs ps e h =>
    have := pump_append_some hs h (by simp) cs.flatten
    rw [List.append_assoc] at this
    exact this

theorem feed_exists (hs : Streaming rd retry) (buf : Bytes) (cs : List Bytes) :
    ∃ ps e r, Feed rd retry buf cs ps e r := by
  induction cs generalizing buf with
  | nil => exact ⟨_, _, _, .nil⟩
  | cons c cs ih =>
    obtain ⟨ps, e, r, h⟩ := pump_exists hs (buf ++ c)
    cases e with
    | none => obtain ⟨qs, f, r', h'⟩ := ih r; exact ⟨_, _, _, .more h h'⟩
    | some e => exact ⟨_, _, _, .dead h⟩

/-- **chunk independence**: the chunked run and the run on the whole input have the same result -/
theorem feed_chunks (hs : Streaming rd retry) (h0 : Pump rd retry [] [] none [])
    (cs : List Bytes) (ps : List P) (e : Option Error) (r : Bytes) :
    Feed rd retry [] cs ps e r ↔ Pump rd retry cs.flatten ps e r := by
  constructor
  · intro h; simpa using feed_to_pump hs h h0
  · intro h
    obtain ⟨ps', e', r', h'⟩ := feed_exists hs [] cs
    have h'' := feed_to_pump hs h' h0
    rw [List.nil_append] at h''
    obtain ⟨rfl, rfl, rfl⟩ := pump_unique h h''
    exact h'
end

/-- properties of the generic reader, from those of the dispatcher -/
theorem readG_total {P : Type} (rf : FixedHeader → Bytes → Res P)
    (hrf : ∀ h s, h.fixed_header_len ≤ s.length → h.remaining_len + h.fixed_header_len = s.length →
      h.remaining_len ≤ maxRemaining →
      (∃ p, rf h s = .ok p) ∨ ∃ e, rf h s = .err e) (max : Nat) (s : Bytes) :
    (∃ p s', readG rf max s = (.ok p, s')) ∨ ∃ e s', readG rf max s = (.err e, s') := by
  rcases check_total s max with ⟨h, hc⟩ | ⟨e, hc⟩
  · have hl := (check_frame_length_le max hc).1
    rw [readG_ok rf max hc]
    have e1 : (s.take h.frame_length).length = h.frame_length := by simp; omega
    rcases hrf h (s.take h.frame_length)
      (by rw [e1]; simp only [FixedHeader.frame_length]; omega)
      (by rw [e1]; simp only [FixedHeader.frame_length]; omega) (check_remaining_le max hc) with ⟨p, hp⟩ | ⟨e, he⟩
    · rw [hp]; exact .inl ⟨_, _, rfl⟩
    · rw [he]; exact .inr ⟨_, _, rfl⟩
  · rw [readG_err rf max hc]; exact .inr ⟨_, _, rfl⟩

theorem check_fatal_append (max : Nat) {s : Bytes} {e : Error} (h : check s max = .err e)
    (he : NotMore e) (t : Bytes) : check (s ++ t) max = .err e := by
  rcases check_err_cases max h with ⟨n, rfl⟩ | rfl | ⟨n, rfl⟩
  · exact absurd rfl (he n)
  · obtain ⟨b1, a, r, rfl, h1, h2⟩ := (check_malformed_iff _ _).1 h
    exact (check_malformed_iff _ _).2 ⟨b1, a, r ++ t, by simp, h1, h2⟩
  · obtain ⟨b1, a, r, rfl, h1, h2, h3⟩ := (check_limit_iff _ _ _).1 h
    exact (check_limit_iff _ _ _).2 ⟨b1, a, r ++ t, by simp, h1, h2, h3⟩

section
variable {P : Type} (rf : FixedHeader → Bytes → Res P) (max : Nat)

/-- a result of the generic reader past framing does not depend on what follows -/
theorem readG_append {s : Bytes} {h : FixedHeader} (hc : check s max = .ok h) (t : Bytes) :
    readG rf max (s ++ t) = ((readG rf max s).1, (readG rf max s).2 ++ t) := by
  have hl := (check_frame_length_le max hc).1
  rw [readG_ok rf max hc, readG_ok rf max (check_ok_append max hc t),
    List.take_append_of_le_length hl, List.drop_append_of_le_length hl]

theorem readG_shrink {s s' : Bytes} {p : P} (h : readG rf max s = (.ok p, s')) :
    s'.length < s.length ∧ ∃ hd, check s max = .ok hd := by
  rcases check_total s max with ⟨hd, hc⟩ | ⟨e, hc⟩
  · have hl := check_frame_length_le max hc
    rw [readG_ok rf max hc] at h
    obtain ⟨_, rfl⟩ := Prod.mk.inj h
    exact ⟨by simp; omega, hd, hc⟩
  · rw [readG_err rf max hc] at h; simp at h

/-- the generic reader, with the client that waits only when nothing was consumed -/
theorem readG_streaming
    (hrf : ∀ h s, h.fixed_header_len ≤ s.length → h.remaining_len + h.fixed_header_len = s.length →
      h.remaining_len ≤ maxRemaining →
      (∃ p, rf h s = .ok p) ∨ ∃ e, rf h s = .err e) :
    Streaming (readG rf max) retryUnconsumed where
  total := readG_total rf hrf max
  shrink s p s' h := (readG_shrink rf max h).1
  ok_append s p s' t h := by
    obtain ⟨hd, hc⟩ := (readG_shrink rf max h).2
    rw [readG_append rf max hc, h]
  err_append s e s' t h hr := by
    rcases check_total s max with ⟨hd, hc⟩ | ⟨e', hc⟩
    · refine ⟨by rw [readG_append rf max hc, h], ?_⟩
      have hl := check_frame_length_le max hc
      rw [readG_ok rf max hc] at h
      obtain ⟨_, rfl⟩ := Prod.mk.inj h
      rintro ⟨_, h2⟩
      have := congrArg List.length h2
      simp at this
      omega
    · rw [readG_err rf max hc] at h
      simp only [Prod.mk.injEq, Res.err.injEq] at h
      obtain ⟨rfl, rfl⟩ := h
      have hn : NotMore e' := fun n hn => hr ⟨⟨n, hn⟩, rfl⟩
      refine ⟨readG_err rf max (check_fatal_append max hc hn t), ?_⟩
      rintro ⟨⟨n, rfl⟩, _⟩
      exact hn n rfl
  wait_same s e s' h hr := hr.2

/-- the generic reader, when content errors never ask for more bytes -/
theorem readG_streaming_strict
    (hrf : ∀ h s, h.fixed_header_len ≤ s.length → h.remaining_len + h.fixed_header_len = s.length →
      h.remaining_len ≤ maxRemaining →
      (∃ p, rf h s = .ok p) ∨ ∃ e, rf h s = .err e ∧ NotMore e) :
    Streaming (readG rf max) retryInsufficient := by
  have key : ∀ s e s', readG rf max s = (.err e, s') → (retryInsufficient e s s' ↔ retryUnconsumed e s s') := by
    intro s e s' h
    refine ⟨fun hr => ⟨hr, ?_⟩, fun hr => hr.1⟩
    obtain ⟨n, rfl⟩ := hr
    rcases check_total s max with ⟨hd, hc⟩ | ⟨e', hc⟩
    · have hl := (check_frame_length_le max hc).1
      rw [readG_ok rf max hc] at h
      have e1 : (s.take hd.frame_length).length = hd.frame_length := by simp; omega
      rcases hrf hd (s.take hd.frame_length)
        (by rw [e1]; simp only [FixedHeader.frame_length]; omega)
        (by rw [e1]; simp only [FixedHeader.frame_length]; omega) (check_remaining_le max hc) with ⟨p, hp⟩ | ⟨e, he, hn⟩
      · rw [hp] at h; simp at h
      · rw [he] at h; simp at h; exact absurd h.1 (hn n)
    · rw [readG_err rf max hc] at h; exact (Prod.mk.inj h).2.symm
  have hs := readG_streaming rf max fun h s h1 h2 h3 => by
    rcases hrf h s h1 h2 h3 with h | ⟨e, h, _⟩
    · exact .inl h
    · exact .inr ⟨e, h⟩
  refine ⟨hs.total, hs.shrink, hs.ok_append, ?_, ?_⟩
  · intro s e s' t h hr
    rw [key s e s' h] at hr
    obtain ⟨h1, h2⟩ := hs.err_append s e s' t h hr
    exact ⟨h1, by rw [key _ _ _ h1]; exact h2⟩
  · intro s e s' h hr
    exact ((key s e s' h).1 hr).2

theorem readG_nil : readG rf max [] = (.err (.InsufficientBytes 2), []) :=
  readG_err rf max rfl
end

theorem v4_streaming (max : Nat) : Streaming (V4.read max) retryInsufficient :=
  readG_streaming_strict V4.readFrame max fun h s h1 h2 _ => V4.readFrame_good h s h1 h2

theorem v4_pump_nil (max : Nat) : Pump (V4.read max) retryInsufficient [] [] none [] :=
  .wait (readG_nil V4.readFrame max) ⟨2, rfl⟩

end Mqtt
