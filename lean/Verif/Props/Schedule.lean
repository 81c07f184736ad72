import Verif.Spec.Schedule
import Verif.Props.Buffer
/-! C123: a client under an arbitrary schedule of arrivals and calls. -/
namespace Props
open Mqtt Spec

section generic
variable {P : Type} {rd : Nat → M P} {good : UInt8 → Bytes → P → Prop} {bad : UInt8 → Bytes → Error → Prop}

theorem valid_max {m : Nat} {f : RawFrame} (h : f.Valid m) : f.Valid maxRemaining := by
  have := vbiValue_le h.1
  exact ⟨h.1, h.2.1, by rw [← h.2.1]; exact this⟩

/-- one call: takes a frame, or nothing -/
theorem call_cases (hstop : ∀ m s e, check s m = .err e → rd m s = (.err e, s))
    (hrd : ∀ m (f : RawFrame), f.Valid m → ∃ o : Except Error P,
      (∀ rest, rd m (f.bytes ++ rest) = (asRes o, rest)) ∧
      (∀ p, good f.byte1 f.body p ↔ o = .ok p) ∧ ∀ e, bad f.byte1 f.body e ↔ o = .error e) (m : Nat) (s : Bytes) :
    (∃ (f : RawFrame) (o : Except Error P) (t : Bytes), f.Valid m ∧ s = f.bytes ++ t ∧ rd m s = (asRes o, t) ∧ t ≠ s ∧
      Outcome good bad f o ∧ ∀ rest, rd maxRemaining (f.bytes ++ rest) = (asRes o, rest)) ∨
    ∃ e, check s m = .err e ∧ rd m s = (.err e, s) := by
  rcases C03_check_outcomes s m with ⟨h, hc⟩ | ⟨k, hc⟩ | hc | ⟨k, hc⟩
  · obtain ⟨b1, bs, t, rfl, hv, hm, hl, -⟩ := (C03_check_ok_iff s m h).1 hc
    have hbl : (t.take (vbiValue bs)).length = vbiValue bs := by simp; omega
    have hf : RawFrame.Valid m ⟨b1, bs, t.take (vbiValue bs)⟩ :=
      ⟨hv, hbl.symm, by show (t.take (vbiValue bs)).length ≤ m; omega⟩
    have hs : b1 :: (bs ++ t) = RawFrame.bytes ⟨b1, bs, t.take (vbiValue bs)⟩ ++ t.drop (vbiValue bs) := by
      simp [RawFrame.bytes, List.append_assoc]
    obtain ⟨o, h1, hg, hb⟩ := hrd m _ hf
    obtain ⟨o', h1', hg', hb'⟩ := hrd maxRemaining _ (valid_max hf)
    have ho : Outcome good bad ⟨b1, bs, t.take (vbiValue bs)⟩ o := by
      cases o with
      | ok p => exact (hg p).2 rfl
      | error e => exact (hb e).2 rfl
    have heq : o' = o := by
      cases o with
      | ok p => exact (hg' p).1 ho
      | error e => exact (hb' e).1 ho
    subst heq
    refine .inl ⟨_, o', _, hf, hs, by rw [hs]; exact h1 _, ?_, ho, h1'⟩
    intro h
    rw [hs] at h
    have := congrArg List.length h
    simp [RawFrame.bytes] at this
    omega
  · exact .inr ⟨_, hc, hstop _ _ _ hc⟩
  · exact .inr ⟨_, hc, hstop _ _ _ hc⟩
  · exact .inr ⟨_, hc, hstop _ _ _ hc⟩

theorem scheduled_any (hstop : ∀ m s e, check s m = .err e → rd m s = (.err e, s))
    (hrd : ∀ m (f : RawFrame), f.Valid m → ∃ o : Except Error P,
      (∀ rest, rd m (f.bytes ++ rest) = (asRes o, rest)) ∧
      (∀ p, good f.byte1 f.body p ↔ o = .ok p) ∧ ∀ e, bad f.byte1 f.body e ↔ o = .error e)
    (es : List Event) (s : Bytes) :
    ∃ (fs : List RawFrame) (os : List (Except Error P)) (r : Bytes),
      (∀ os' r', Scheduled rd s es os' r' ↔ os' = os ∧ r' = r) ∧
      s ++ received es = (fs.map RawFrame.bytes).flatten ++ r ∧
      (∀ f ∈ fs, ∃ m, Event.call m ∈ es ∧ f.Valid m) ∧ List.Forall₂ (Outcome good bad) fs os ∧
      ∀ os' r', Skim (rd maxRemaining) r os' r' → Skim (rd maxRemaining) (s ++ received es) (os ++ os') r' := by
  induction es generalizing s with
  | nil =>
    refine ⟨[], [], s, fun os' r' => ⟨fun h => by cases h; exact ⟨rfl, rfl⟩, ?_⟩, by simp [received], by simp, .nil,
      fun os' r' h => by simpa [received] using h⟩
    rintro ⟨rfl, rfl⟩; exact .done
  | cons ev es ih =>
    cases ev with
    | arrive c =>
      obtain ⟨fs, os, r, hu, hs, hf, ho, hk⟩ := ih (s ++ c)
      refine ⟨fs, os, r, fun os' r' => ⟨fun h => ?_, fun h => .arrive ((hu os' r').2 h)⟩, ?_, ?_, ho, ?_⟩
      · cases h with | arrive t => exact (hu _ _).1 t
      · rw [received, ← List.append_assoc]; exact hs
      · intro f hf'; obtain ⟨m, h1, h2⟩ := hf f hf'; exact ⟨m, .tail _ h1, h2⟩
      · intro os' r' h; rw [received, ← List.append_assoc]; exact hk os' r' h
    | call m =>
      rcases call_cases hstop hrd m s with ⟨f, o, t, hv, hst, hr, hne, hout, hM⟩ | ⟨e, hc, hr⟩
      · obtain ⟨fs, os, r, hu, hs, hf, ho, hk⟩ := ih t
        refine ⟨f :: fs, o :: os, r, fun os' r' => ⟨fun h => ?_, ?_⟩, ?_, ?_, .cons hout ho, ?_⟩
        · cases h with
          | packet h t' =>
            rw [hr] at h
            cases o with
            | ok p =>
              simp only [asRes, Prod.mk.injEq, Res.ok.injEq] at h
              obtain ⟨rfl, rfl⟩ := h
              obtain ⟨rfl, rfl⟩ := (hu _ _).1 t'
              exact ⟨rfl, rfl⟩
            | error e => simp at h
          | bad h hn t' =>
            rw [hr] at h
            cases o with
            | ok p => simp at h
            | error e =>
              simp only [asRes, Prod.mk.injEq, Res.err.injEq] at h
              obtain ⟨rfl, rfl⟩ := h
              obtain ⟨rfl, rfl⟩ := (hu _ _).1 t'
              exact ⟨rfl, rfl⟩
          | nothing h t' =>
            rw [hr] at h
            simp only [Prod.mk.injEq] at h
            exact absurd h.2 hne
        · rintro ⟨rfl, rfl⟩
          have t' := (hu os r').2 ⟨rfl, rfl⟩
          cases o with
          | ok p => exact .packet hr t'
          | error e => exact .bad hr hne t'
        · simp only [received, List.map_cons, List.flatten_cons, List.append_assoc]
          rw [hst, List.append_assoc, hs]
        · intro g hg
          rcases List.mem_cons.1 hg with rfl | hg
          · exact ⟨m, .head _, hv⟩
          · obtain ⟨k, h1, h2⟩ := hf g hg; exact ⟨k, .tail _ h1, h2⟩
        · intro os' r' h
          have h := hk os' r' h
          have hM := hM (t ++ received es)
          have hb : s ++ received (.call m :: es) = f.bytes ++ (t ++ received es) := by
            rw [hst]; simp [received]
          rw [hb, List.cons_append]
          cases o with
          | ok p => exact .packet hM h
          | error e =>
            refine .skip hM ?_ h
            intro h
            have := congrArg List.length h
            simp [RawFrame.bytes] at this
            omega
      · obtain ⟨fs, os, r, hu, hs, hf, ho, hk⟩ := ih s
        refine ⟨fs, os, r, fun os' r' => ⟨fun h => ?_, fun h => .nothing hr ((hu os' r').2 h)⟩, hs, ?_, ho, hk⟩
        · cases h with
          | packet h t' => rw [hr] at h; simp at h
          | bad h hn t' => rw [hr] at h; simp only [Prod.mk.injEq] at h; exact absurd h.2.symm hn
          | nothing h t' => exact (hu _ _).1 t'
        · intro f hf'; obtain ⟨m, h1, h2⟩ := hf f hf'; exact ⟨m, .tail _ h1, h2⟩

/-- after enough further calls nothing complete is left -/
theorem scheduled_replicate (hstop : ∀ m s e, check s m = .err e → rd m s = (.err e, s))
    (hrd : ∀ m (f : RawFrame), f.Valid m → ∃ o : Except Error P,
      (∀ rest, rd m (f.bytes ++ rest) = (asRes o, rest)) ∧
      (∀ p, good f.byte1 f.body p ↔ o = .ok p) ∧ ∀ e, bad f.byte1 f.body e ↔ o = .error e)
    (m k : Nat) (s : Bytes) (hk : s.length ≤ 2 * k) (os : List (Except Error P)) (r : Bytes)
    (h : Scheduled rd s (List.replicate k (.call m)) os r) : ∃ e, check r m = .err e := by
  induction k generalizing s os with
  | zero =>
    have : s = [] := List.length_eq_zero_iff.1 (by omega)
    subst this
    cases h
    exact ⟨_, (C03_check_insufficient_iff [] m 2).2 (.inl ⟨rfl, rfl⟩)⟩
  | succ k ih =>
    rw [List.replicate_succ] at h
    rcases call_cases hstop hrd m s with ⟨f, o, t, hv, hst, hr, hne, hout, hM⟩ | ⟨e, hc, hr⟩
    · have hlen : t.length ≤ 2 * k := by
        have h1 := congrArg List.length hst
        have := isVbi_pos hv.1
        simp [RawFrame.bytes] at h1
        omega
      cases h with
      | packet h t' => rw [hr] at h; simp only [Prod.mk.injEq] at h; rw [← h.2] at t'; exact ih t hlen _ t'
      | bad h hn t' => rw [hr] at h; simp only [Prod.mk.injEq] at h; rw [← h.2] at t'; exact ih t hlen _ t'
      | nothing h t' => rw [hr] at h; simp only [Prod.mk.injEq] at h; exact absurd h.2 hne
    · have stay : ∀ (k : Nat) os r, Scheduled rd s (List.replicate k (.call m)) os r → r = s := by
        intro k
        induction k with
        | zero => intro os r h; cases h; rfl
        | succ k ih =>
          intro os r h
          rw [List.replicate_succ] at h
          cases h with
          | packet h t' => rw [hr] at h; simp at h
          | bad h hn t' => rw [hr] at h; simp only [Prod.mk.injEq] at h; exact absurd h.2.symm hn
          | nothing h t' => exact ih _ _ t'
      have : r = s := stay (k + 1) os r (by rw [List.replicate_succ]; exact h)
      rw [this]
      exact ⟨e, hc⟩

theorem received_append (es es' : List Event) : received (es ++ es') = received es ++ received es' := by
  induction es with
  | nil => rfl
  | cons e es ih => cases e <;> simp [received, ih]

theorem received_calls (m k : Nat) : received (List.replicate k (.call m)) = [] := by
  induction k with
  | zero => rfl
  | succ k ih => rw [List.replicate_succ, received]; exact ih

theorem scheduled_split {es es' : List Event} {s r : Bytes} {os : List (Except Error P)}
    (h : Scheduled rd s (es ++ es') os r) :
    ∃ os₁ r₁ os₂, Scheduled rd s es os₁ r₁ ∧ Scheduled rd r₁ es' os₂ r ∧ os = os₁ ++ os₂ := by
  induction es generalizing s os with
  | nil => exact ⟨[], s, os, .done, h, rfl⟩
  | cons ev es ih =>
    rw [List.cons_append] at h
    cases h with
    | arrive t => obtain ⟨a, b, c, h1, h2, rfl⟩ := ih t; exact ⟨a, b, c, .arrive h1, h2, rfl⟩
    | packet h t => obtain ⟨a, b, c, h1, h2, rfl⟩ := ih t; exact ⟨_ :: a, b, c, .packet h h1, h2, rfl⟩
    | bad h hn t => obtain ⟨a, b, c, h1, h2, rfl⟩ := ih t; exact ⟨_ :: a, b, c, .bad h hn h1, h2, rfl⟩
    | nothing h t => obtain ⟨a, b, c, h1, h2, rfl⟩ := ih t; exact ⟨a, b, c, .nothing h h1, h2, rfl⟩

theorem scheduled_catch_up (hstop : ∀ m s e, check s m = .err e → rd m s = (.err e, s))
    (hrd : ∀ m (f : RawFrame), f.Valid m → ∃ o : Except Error P,
      (∀ rest, rd m (f.bytes ++ rest) = (asRes o, rest)) ∧
      (∀ p, good f.byte1 f.body p ↔ o = .ok p) ∧ ∀ e, bad f.byte1 f.body e ↔ o = .error e)
    (m k : Nat) (es : List Event) (s : Bytes) (hk : (s ++ received es).length ≤ 2 * k)
    (os : List (Except Error P)) (r : Bytes)
    (h : Scheduled rd s (es ++ List.replicate k (.call m)) os r) :
    NoFrame m r ∧ (m = maxRemaining → Skim (rd maxRemaining) (s ++ received es) os r) := by
  obtain ⟨fs, os', r', hu, -, -, -, hs⟩ := scheduled_any hstop hrd (es ++ List.replicate k (.call m)) s
  obtain ⟨rfl, rfl⟩ := (hu _ _).1 h
  obtain ⟨os₁, r₁, os₂, h1, h2, -⟩ := scheduled_split h
  obtain ⟨fs', os'', r'', hu', hd, -⟩ := scheduled_any hstop hrd es s
  obtain ⟨rfl, rfl⟩ := (hu' _ _).1 h1
  have hl := congrArg List.length hd
  rw [List.length_append] at hl
  obtain ⟨e, he⟩ := scheduled_replicate hstop hrd m k r₁ (by
    rw [List.length_append] at hk hl; omega) _ _ h2
  refine ⟨noFrame_of_err he, fun hm => ?_⟩
  subst hm
  have := hs [] r (.wait (hstop _ _ _ he))
  rw [received_append, received_calls, List.append_nil, List.append_nil] at this
  exact this

theorem scheduled_agree (hstop : ∀ m s e, check s m = .err e → rd m s = (.err e, s))
    (hrd : ∀ m (f : RawFrame), f.Valid m → ∃ o : Except Error P,
      (∀ rest, rd m (f.bytes ++ rest) = (asRes o, rest)) ∧
      (∀ p, good f.byte1 f.body p ↔ o = .ok p) ∧ ∀ e, bad f.byte1 f.body e ↔ o = .error e)
    (es₁ es₂ : List Event) (s₁ s₂ r₁ r₂ : Bytes) (os₁ os₂ : List (Except Error P))
    (hsame : s₁ ++ received es₁ = s₂ ++ received es₂) (h₁ : Scheduled rd s₁ es₁ os₁ r₁)
    (h₂ : Scheduled rd s₂ es₂ os₂ r₂) :
    (os₁ <+: os₂ ∨ os₂ <+: os₁) ∧ (os₁.length = os₂.length → os₁ = os₂ ∧ r₁ = r₂) := by
  obtain ⟨fs₁, _, _, hu₁, hd₁, hf₁, ho₁, hk₁⟩ := scheduled_any hstop hrd es₁ s₁
  obtain ⟨rfl, rfl⟩ := (hu₁ _ _).1 h₁
  obtain ⟨fs₂, _, _, hu₂, hd₂, hf₂, ho₂, hk₂⟩ := scheduled_any hstop hrd es₂ s₂
  obtain ⟨rfl, rfl⟩ := (hu₂ _ _).1 h₂
  obtain ⟨-, t₁, e₁, -, -, -, -, -, hn₁⟩ := skim_any (hstop maxRemaining) (hrd maxRemaining) r₁.length r₁ (Nat.le_refl _)
  obtain ⟨-, t₂, e₂, -, -, -, -, -, hn₂⟩ := skim_any (hstop maxRemaining) (hrd maxRemaining) r₂.length r₂ (Nat.le_refl _)
  have a₁ := hk₁ _ _ ((hn₁ _ _).2 ⟨rfl, rfl⟩)
  have a₂ := hk₂ _ _ ((hn₂ _ _).2 ⟨rfl, rfl⟩)
  obtain ⟨-, t, e, -, -, -, -, -, hn⟩ := skim_any (hstop maxRemaining) (hrd maxRemaining) _ (s₁ ++ received es₁) (Nat.le_refl _)
  rw [← hsame] at a₂
  obtain ⟨rfl, -⟩ := (hn _ _).1 a₁
  obtain ⟨heq, -⟩ := (hn _ _).1 a₂
  refine ⟨List.prefix_or_prefix_of_prefix (List.prefix_append ..) (heq ▸ List.prefix_append ..), fun hl => ?_⟩
  obtain ⟨rfl, -⟩ := List.append_inj heq hl.symm
  have hlen : fs₁.length = fs₂.length := by rw [ho₁.length_eq, ho₂.length_eq]
  have v₁ : ∀ f ∈ fs₁, f.Valid maxRemaining := fun f h => let ⟨_, _, v⟩ := hf₁ f h; valid_max v
  have v₂ : ∀ f ∈ fs₂, f.Valid maxRemaining := fun f h => let ⟨_, _, v⟩ := hf₂ f h; valid_max v
  rw [← hsame, hd₁] at hd₂
  refine ⟨rfl, ?_⟩
  clear ho₁ ho₂ hf₁ hf₂ hd₁ hu₁ hu₂ hk₁ hk₂ a₁ a₂ hn hl heq h₁ h₂
  induction fs₁ generalizing fs₂ with
  | nil =>
    cases fs₂ with
    | nil => simpa using hd₂
    | cons f fs => simp at hlen
  | cons f₁ fs₁ ih =>
    cases fs₂ with
    | nil => simp at hlen
    | cons f₂ fs₂ =>
      simp only [List.map_cons, List.flatten_cons, List.append_assoc] at hd₂
      have w₁ := v₁ f₁ (.head _)
      have w₂ := v₂ f₂ (.head _)
      obtain ⟨o₁, k₁, -⟩ := hrd maxRemaining f₁ w₁
      obtain ⟨o₂, k₂, -⟩ := hrd maxRemaining f₂ w₂
      have k₁ := k₁ ((fs₁.map RawFrame.bytes).flatten ++ r₁)
      rw [hd₂, k₂] at k₁
      simp only [Prod.mk.injEq] at k₁
      exact ih fs₂ k₁.2.symm (by simpa using hlen) (fun f h => v₁ f (.tail _ h)) (fun f h => v₂ f (.tail _ h))

end generic

/-- C123 (v4): whatever arrives whenever, and whenever the client calls `v4::read` with whatever limit, there is one
definite list of outcomes and one definite rest. The bytes received are cut into frames from the left; every call took
nothing or one of them, within the limit of a call; a frame's outcome is the packet it denotes or the error it is rejected
with. What is still to come out of the rest is what a client would get after these outcomes that had received everything
first and read without a limit. -/
theorem C123_v4_any_schedule (es : List Event) (s : Bytes) :
    ∃ (fs : List RawFrame) (os : List (Except Error V4.Packet)) (r : Bytes),
      (∀ os' r', Scheduled V4.read s es os' r' ↔ os' = os ∧ r' = r) ∧
      s ++ received es = (fs.map RawFrame.bytes).flatten ++ r ∧
      (∀ f ∈ fs, ∃ m, Event.call m ∈ es ∧ f.Valid m) ∧ List.Forall₂ (Outcome Spec.V4.Denotes Spec.V4.Rejects) fs os ∧
      ∀ os' r', Skim (V4.read 268435455) r os' r' →
        Skim (V4.read 268435455) (s ++ received es) (os ++ os') r' :=
  scheduled_any (fun m => (C09_v4_one_frame m).2) v4_outcome es s

/-- C123 (v4): two clients that were sent the same bytes have seen the same outcomes, except that one may be ahead; if
neither is, the same bytes are left in their buffers. -/
theorem C123_v4_schedules_agree (es₁ es₂ : List Event) (s₁ s₂ r₁ r₂ : Bytes) (os₁ os₂ : List (Except Error V4.Packet))
    (hsame : s₁ ++ received es₁ = s₂ ++ received es₂) (h₁ : Scheduled V4.read s₁ es₁ os₁ r₁)
    (h₂ : Scheduled V4.read s₂ es₂ os₂ r₂) :
    (os₁ <+: os₂ ∨ os₂ <+: os₁) ∧ (os₁.length = os₂.length → os₁ = os₂ ∧ r₁ = r₂) :=
  scheduled_agree (fun m => (C09_v4_one_frame m).2) v4_outcome es₁ es₂ s₁ s₂ r₁ r₂ os₁ os₂ hsame h₁ h₂

/-- C123 (v4): a client that in the end calls often enough (once for every two bytes received) has everything: nothing
within the limit is left, and without a limit it has what it would have got by reading everything at once. -/
theorem C123_v4_catches_up (m k : Nat) (es : List Event) (s : Bytes) (hk : (s ++ received es).length ≤ 2 * k)
    (os : List (Except Error V4.Packet)) (r : Bytes)
    (h : Scheduled V4.read s (es ++ List.replicate k (.call m)) os r) :
    NoFrame m r ∧ (m = 268435455 → Skim (V4.read 268435455) (s ++ received es) os r) :=
  scheduled_catch_up (fun m => (C09_v4_one_frame m).2) v4_outcome m k es s hk os r h

/-- C123 (v5): whatever arrives whenever, and whenever the client calls `v5::read` with whatever limit, there is one
definite list of outcomes and one definite rest. The bytes received are cut into frames from the left; every call took
nothing or one of them, within the limit of a call; a frame's outcome is the packet it denotes or the error it is rejected
with. What is still to come out of the rest is what a client would get after these outcomes that had received everything
first and read without a limit. -/
theorem C123_v5_any_schedule (es : List Event) (s : Bytes) :
    ∃ (fs : List RawFrame) (os : List (Except Error V5.Packet)) (r : Bytes),
      (∀ os' r', Scheduled V5.read s es os' r' ↔ os' = os ∧ r' = r) ∧
      s ++ received es = (fs.map RawFrame.bytes).flatten ++ r ∧
      (∀ f ∈ fs, ∃ m, Event.call m ∈ es ∧ f.Valid m) ∧ List.Forall₂ (Outcome Spec.V5.Denotes Spec.V5.Rejects) fs os ∧
      ∀ os' r', Skim (V5.read 268435455) r os' r' →
        Skim (V5.read 268435455) (s ++ received es) (os ++ os') r' :=
  scheduled_any (fun m => (C10_v5_one_frame m).2) v5_outcome es s

/-- C123 (v5): two clients that were sent the same bytes have seen the same outcomes, except that one may be ahead; if
neither is, the same bytes are left in their buffers. -/
theorem C123_v5_schedules_agree (es₁ es₂ : List Event) (s₁ s₂ r₁ r₂ : Bytes) (os₁ os₂ : List (Except Error V5.Packet))
    (hsame : s₁ ++ received es₁ = s₂ ++ received es₂) (h₁ : Scheduled V5.read s₁ es₁ os₁ r₁)
    (h₂ : Scheduled V5.read s₂ es₂ os₂ r₂) :
    (os₁ <+: os₂ ∨ os₂ <+: os₁) ∧ (os₁.length = os₂.length → os₁ = os₂ ∧ r₁ = r₂) :=
  scheduled_agree (fun m => (C10_v5_one_frame m).2) v5_outcome es₁ es₂ s₁ s₂ r₁ r₂ os₁ os₂ hsame h₁ h₂

/-- C123 (v5): a client that in the end calls often enough (once for every two bytes received) has everything: nothing
within the limit is left, and without a limit it has what it would have got by reading everything at once. -/
theorem C123_v5_catches_up (m k : Nat) (es : List Event) (s : Bytes) (hk : (s ++ received es).length ≤ 2 * k)
    (os : List (Except Error V5.Packet)) (r : Bytes)
    (h : Scheduled V5.read s (es ++ List.replicate k (.call m)) os r) :
    NoFrame m r ∧ (m = 268435455 → Skim (V5.read 268435455) (s ++ received es) os r) :=
  scheduled_catch_up (fun m => (C10_v5_one_frame m).2) v5_outcome m k es s hk os r h

/-- a schedule: half a PUBACK arrives, a call with too small a limit, the rest and a PINGREQ arrive, calls -/
def aSchedule : List Event :=
  [.arrive [0x40, 2, 0], .call 10, .arrive [7, 0xc0, 0], .call 1, .call 2, .call 0]

example : Scheduled V4.read [] aSchedule [.ok (.PubAck ⟨7⟩), .ok .PingReq] [] :=
  .arrive (.nothing (e := .InsufficientBytes 1) (by decide +kernel) (.arrive
    (.nothing (e := .PayloadSizeLimitExceeded 2) (by decide +kernel)
    (.packet (s' := [0xc0, 0]) (by decide +kernel) (.packet (s' := []) (by decide +kernel) .done)))))

example : Scheduled V5.read [] aSchedule [.ok (.PubAck ⟨7, .Success, none⟩), .ok .PingReq] [] :=
  .arrive (.nothing (e := .InsufficientBytes 1) (by decide +kernel) (.arrive
    (.nothing (e := .PayloadSizeLimitExceeded 2) (by decide +kernel)
    (.packet (s' := [0xc0, 0]) (by decide +kernel) (.packet (s' := []) (by decide +kernel) .done)))))

/-- the hypotheses of the agreement and of catching up are met: the same bytes at once, one call -/
example : (∃ os r, Scheduled V4.read [] [.arrive [0x40, 2, 0, 7, 0xc0, 0], .call 9] os r ∧ os <+: [.ok (.PubAck ⟨7⟩), .ok .PingReq])
    ∧ received aSchedule = [0x40, 2, 0, 7, 0xc0, 0] :=
  ⟨⟨[.ok (.PubAck ⟨7⟩)], [0xc0, 0], .arrive (.packet (by decide +kernel) .done), ⟨[.ok .PingReq], rfl⟩⟩, rfl⟩
example : Skim (V4.read 268435455) [0xc0, 0] [.ok .PingReq] [] :=
  (C123_v4_catches_up 268435455 1 [.arrive [0xc0, 0]] [] (by decide) [.ok .PingReq] []
    (.arrive (.packet (by decide +kernel) .done))).2 rfl
example : Skim (V5.read 268435455) [0xc0, 0] [.ok .PingReq] [] :=
  (C123_v5_catches_up 268435455 1 [.arrive [0xc0, 0]] [] (by decide) [.ok .PingReq] []
    (.arrive (.packet (by decide +kernel) .done))).2 rfl

end Props
