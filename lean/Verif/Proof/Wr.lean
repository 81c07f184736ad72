import Verif.Proof.Good
/-! Writers: append-only, no panic, exact number of bytes. -/
namespace Mqtt
open Spec

/-- `m` appends to the buffer (also when it fails) and never panics or loops; errors are in `E` -/
def Wr {α : Type} (E : Error → Prop) (m : M α) : Prop :=
  ∀ s, ∃ t, (∃ a, m s = (.ok a, s ++ t)) ∨ ∃ e, m s = (.err e, s ++ t) ∧ E e

/-- `m` succeeds with `a` and appends exactly `n` bytes -/
def WrN {α : Type} (n : Nat) (a : α) (m : M α) : Prop :=
  ∀ s, ∃ t, t.length = n ∧ m s = (.ok a, s ++ t)

section
variable {α β : Type} {E E' : Error → Prop}

theorem Wr.mono {m : M α} (h : Wr E m) (hE : ∀ e, E e → E' e) : Wr E' m := by
  intro s
  obtain ⟨t, ⟨a, h⟩ | ⟨e, h, he⟩⟩ := h s
  · exact ⟨t, .inl ⟨a, h⟩⟩
  · exact ⟨t, .inr ⟨e, h, hE e he⟩⟩

theorem Wr.bind {m : M α} {f : α → M β} (h : Wr E m) (hf : ∀ a, Wr E (f a)) : Wr E (m >>= f) := by
  intro s
  obtain ⟨t, ⟨a, h⟩ | ⟨e, h, he⟩⟩ := h s
  · obtain ⟨t', ⟨b, h'⟩ | ⟨e, h', he⟩⟩ := hf a (s ++ t)
    · exact ⟨t ++ t', .inl ⟨b, by rw [bind_run, h, andThen_ok, h', List.append_assoc]⟩⟩
    · exact ⟨t ++ t', .inr ⟨e, by rw [bind_run, h, andThen_ok, h', List.append_assoc], he⟩⟩
  · exact ⟨t, .inr ⟨e, by rw [bind_run, h, andThen_err], he⟩⟩

theorem Wr.pure (a : α) : Wr E (Pure.pure a : M α) :=
  fun s => ⟨[], .inl ⟨a, by rw [List.append_nil]; rfl⟩⟩
theorem Wr.fail (e : Error) (he : E e) : Wr E (M.fail e : M α) :=
  fun s => ⟨[], .inr ⟨e, by rw [List.append_nil]; rfl, he⟩⟩
theorem Wr.ite {c : Prop} [Decidable c] {m n : M α} (h1 : c → Wr E m) (h2 : ¬ c → Wr E n) :
    Wr E (if c then m else n) := by
  split
  · exact h1 ‹_›
  · exact h2 ‹_›
theorem Wr.of_N {n : Nat} {a : α} {m : M α} (h : WrN n a m) : Wr E m := by
  intro s; obtain ⟨t, _, h⟩ := h s; exact ⟨t, .inl ⟨a, h⟩⟩

theorem WrN.bind {m : M α} {f : α → M β} {n k : Nat} {a : α} {b : β} (h : WrN n a m)
    (hf : WrN k b (f a)) : WrN (n + k) b (m >>= f) := by
  intro s
  obtain ⟨t, ht, h⟩ := h s
  obtain ⟨t', ht', h'⟩ := hf (s ++ t)
  exact ⟨t ++ t', by simp [ht, ht'], by rw [bind_run, h, andThen_ok, h', List.append_assoc]⟩
theorem WrN.seq {m : M Unit} {m2 : M β} {n k : Nat} {b : β} (h : WrN n () m)
    (hf : WrN k b m2) : WrN (n + k) b (m >>= fun _ => m2) := WrN.bind h hf
theorem WrN.pure (a : α) : WrN 0 a (Pure.pure a : M α) :=
  fun s => ⟨[], rfl, by rw [List.append_nil]; rfl⟩
theorem WrN.cast {m : M α} {n k : Nat} {a : α} (h : WrN n a m) (e : n = k) : WrN k a m := e ▸ h
end

/-- `m` appends to the buffer; when `c` holds it succeeds with `a` after exactly `n` bytes, otherwise
it fails with an error in `E` -/
structure WrX {α : Type} (c : Prop) (E : Error → Prop) (n : Nat) (a : α) (m : M α) : Prop where
  ok : c → WrN n a m
  bad : ¬ c → ∀ s, ∃ t e, m s = (.err e, s ++ t) ∧ E e

section
variable {α β : Type} {E : Error → Prop} {c d : Prop} {n k : Nat} {a : α} {b : β}

theorem WrX.of_N {m : M α} (h : WrN n a m) (hc : c) : WrX c E n a m :=
  ⟨fun _ => h, fun hn => absurd hc hn⟩
theorem WrX.bind {m : M α} {f : α → M β} (h : WrX c E n a m) (hf : WrX d E k b (f a)) :
    WrX (c ∧ d) E (n + k) b (m >>= f) where
  ok := fun hcd => WrN.bind (h.ok hcd.1) (hf.ok hcd.2)
  bad := fun hcd s => by
    by_cases hc : c
    · obtain ⟨t, _, ht⟩ := h.ok hc s
      obtain ⟨t', e, ht', he⟩ := hf.bad (fun hd => hcd ⟨hc, hd⟩) (s ++ t)
      exact ⟨t ++ t', e, by rw [bind_run, ht, andThen_ok, ht', List.append_assoc], he⟩
    · obtain ⟨t, e, ht, he⟩ := h.bad hc s
      exact ⟨t, e, by rw [bind_run, ht, andThen_err], he⟩
theorem WrX.seq {m : M Unit} {m2 : M β} (h : WrX c E n () m) (hf : WrX d E k b m2) :
    WrX (c ∧ d) E (n + k) b (m >>= fun _ => m2) := WrX.bind h hf
/-- a step that always succeeds, first -/
theorem WrX.after {m : M α} {f : α → M β} (h : WrN n a m) (hf : WrX d E k b (f a)) :
    WrX d E (n + k) b (m >>= f) where
  ok := fun hd => WrN.bind h (hf.ok hd)
  bad := fun hd s => by
    obtain ⟨t, _, ht⟩ := h s
    obtain ⟨t', e, ht', he⟩ := hf.bad hd (s ++ t)
    exact ⟨t ++ t', e, by rw [bind_run, ht, andThen_ok, ht', List.append_assoc], he⟩
/-- steps that always succeed, last -/
theorem WrX.before {m : M α} {f : α → M β} (h : WrX c E n a m) (hf : WrN k b (f a)) :
    WrX c E (n + k) b (m >>= f) where
  ok := fun hc => WrN.bind (h.ok hc) hf
  bad := fun hc s => by
    obtain ⟨t, e, ht, he⟩ := h.bad hc s
    exact ⟨t, e, by rw [bind_run, ht, andThen_err], he⟩
/-- the same with the value ignored -/
theorem WrX.beforeU {m : M Unit} {m2 : M β} (h : WrX c E n () m) (hf : WrN k b m2) :
    WrX c E (n + k) b (m >>= fun _ => m2) := WrX.before h hf
theorem WrX.cast {m : M α} (h : WrX c E n a m) (e : n = k) (hcd : c ↔ d) : WrX d E k a m := by
  subst e; exact ⟨fun hd => h.ok (hcd.2 hd), fun hd => h.bad fun hc => hd (hcd.1 hc)⟩
theorem WrX.mono {E' : Error → Prop} {m : M α} (h : WrX c E n a m) (hE : ∀ e, E e → E' e) :
    WrX c E' n a m :=
  ⟨h.ok, fun hc s => by obtain ⟨t, e, ht, he⟩ := h.bad hc s; exact ⟨t, e, ht, hE e he⟩⟩
theorem WrX.wr {m : M α} (h : WrX c E n a m) : Wr E m := by
  intro s
  by_cases hc : c
  · obtain ⟨t, _, ht⟩ := h.ok hc s; exact ⟨t, .inl ⟨a, ht⟩⟩
  · obtain ⟨t, e, ht, he⟩ := h.bad hc s; exact ⟨t, .inr ⟨e, ht, he⟩⟩
end

theorem putU8_N (b : UInt8) : WrN 1 () (putU8 b) := fun s => ⟨[b], rfl, rfl⟩
theorem putU16_N (b : UInt16) : WrN 2 () (putU16 b) := fun s => ⟨_, rfl, rfl⟩
theorem putU32_N (b : UInt32) : WrN 4 () (putU32 b) := fun s => ⟨_, rfl, rfl⟩
theorem putSlice_N (l : Bytes) : WrN l.length () (putSlice l) := fun s => ⟨l, rfl, rfl⟩
theorem write_mqtt_bytes_N (b : Bytes) : WrN (2 + b.length) () (write_mqtt_bytes b) :=
  .bind (putU16_N _) (putSlice_N _)
theorem write_mqtt_string_N (v : String) : WrN (2 + (utf8 v).length) () (write_mqtt_string v) :=
  write_mqtt_bytes_N _
theorem write_remaining_length_N {n : Nat} (h : n ≤ maxRemaining) :
    WrN (vbi n).length (vbi n).length (write_remaining_length n) :=
  fun s => ⟨vbi n, rfl, write_remaining_length_run h s⟩
theorem write_remaining_length_Wr (n : Nat) :
    Wr (· = .PayloadTooLong) (write_remaining_length n) := by
  by_cases h : n ≤ maxRemaining
  · exact .of_N (write_remaining_length_N h)
  · intro s
    exact ⟨[], .inr ⟨_, by rw [List.append_nil]; exact write_remaining_length_too_long (by omega) s, rfl⟩⟩

theorem write_remaining_length_Wr' (n : Nat) :
    Wr (fun e => e = .PayloadTooLong ∧ maxRemaining < n) (write_remaining_length n) := by
  by_cases h : n ≤ maxRemaining
  · exact .of_N (write_remaining_length_N h)
  · intro s
    exact ⟨[], .inr ⟨_, by rw [write_remaining_length_too_long (by omega), List.append_nil],
      rfl, by omega⟩⟩
theorem write_remaining_length_X (n : Nat) :
    WrX (n ≤ maxRemaining) (· = .PayloadTooLong) (vbi n).length (vbi n).length
      (write_remaining_length n) :=
  ⟨write_remaining_length_N, fun hn s => ⟨[], _, by
    rw [write_remaining_length_too_long (by omega), List.append_nil], rfl⟩⟩
theorem forEach_N {α : Type} (l : List α) (w : α → M Unit) (k : α → Nat)
    (h : ∀ a, WrN (k a) () (w a)) : WrN (l.map k).sum () (forEach l w) := by
  induction l with
  | nil => exact WrN.pure ()
  | cons a l ih =>
    rw [forEach]
    exact (WrN.bind (h a) ih).cast (by simp)

theorem forEach_Wr {α : Type} {E : Error → Prop} (l : List α) (w : α → M Unit)
    (h : ∀ a, Wr E (w a)) : Wr E (forEach l w) := by
  induction l with
  | nil => exact Wr.pure ()
  | cons a l ih => rw [forEach]; exact .bind (h a) fun _ => ih

theorem orFlags_Wr {α : Type} {E : Error → Prop} (o : Option α) (w : α → M UInt8) (f : UInt8)
    (h : ∀ a, Wr E (w a)) : Wr E (orFlags o w f) := by
  unfold orFlags
  cases o with
  | none => exact .pure _
  | some a => exact .bind (h a) fun _ => .pure _

end Mqtt
