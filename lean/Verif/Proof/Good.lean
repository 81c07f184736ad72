import Verif.Proof.Dispatch
/-! "No panic, no endless loop, buffer does not grow" as a compositional predicate. -/
namespace Mqtt
open Spec

/-- Running `m` on `s` returns: a value, with the buffer shorter by at least `k`, or an error in
`E`. -/
def Good {α : Type} (E : Error → Prop) (k : Nat) (m : M α) (s : Bytes) : Prop :=
  (∃ a s', m s = (.ok a, s') ∧ s'.length + k ≤ s.length) ∨ (∃ e s', m s = (.err e, s') ∧ E e)

/-- errors that do not ask for more bytes -/
def NotMore (e : Error) : Prop := ∀ n, e ≠ .InsufficientBytes n

section
variable {α β : Type} {E E' : Error → Prop} {k j : Nat} {m : M α} {f : α → M β} {s : Bytes}

theorem Good.mono (h : Good E k m s) (hE : ∀ e, E e → E' e) (hk : j ≤ k) : Good E' j m s := by
  rcases h with ⟨a, s', h, hl⟩ | ⟨e, s', h, he⟩
  · exact .inl ⟨a, s', h, by omega⟩
  · exact .inr ⟨e, s', h, hE e he⟩

theorem Good.bind (h : Good E k m s)
    (hf : ∀ a s', m s = (.ok a, s') → s'.length + k ≤ s.length → Good E j (f a) s') :
    Good E (k + j) (m >>= f) s := by
  rcases h with ⟨a, s', h, hl⟩ | ⟨e, s', h, he⟩
  · rcases hf a s' h hl with ⟨b, s'', h', hl'⟩ | ⟨e, s'', h', he⟩
    · exact .inl ⟨b, s'', by rw [bind_run, h, andThen_ok, h'], by omega⟩
    · exact .inr ⟨e, s'', by rw [bind_run, h, andThen_ok, h'], he⟩
  · exact .inr ⟨e, s', by rw [bind_run, h, andThen_err], he⟩

/-- bind, forgetting how much was consumed -/
theorem Good.bind0 (h : Good E k m s)
    (hf : ∀ a s', m s = (.ok a, s') → s'.length + k ≤ s.length → Good E 0 (f a) s') :
    Good E 0 (m >>= f) s := (Good.bind h hf).mono (fun _ h => h) (Nat.zero_le _)

theorem Good.pure (a : α) : Good E 0 (Pure.pure a : M α) s := .inl ⟨a, s, rfl, by omega⟩
theorem Good.look : Good E 0 M.look s := .inl ⟨s, s, rfl, by omega⟩
theorem Good.fail (e : Error) (he : E e) : Good E k (M.fail e : M α) s := .inr ⟨e, s, rfl, he⟩
theorem Good.lift_ok {r : Res α} {a : α} (h : r = .ok a) : Good E 0 (M.lift r) s :=
  .inl ⟨a, s, by rw [h]; rfl, by omega⟩
theorem Good.lift {r : Res α} (h : (∃ a, r = .ok a) ∨ ∃ e, r = .err e ∧ E e) :
    Good E 0 (M.lift r) s := by
  rcases h with ⟨a, h⟩ | ⟨e, h, he⟩
  · exact .lift_ok h
  · exact .inr ⟨e, s, by rw [h]; rfl, he⟩
theorem Good.ite {c : Prop} [Decidable c] {m n : M α} (h1 : c → Good E k m s)
    (h2 : ¬ c → Good E k n s) : Good E k (if c then m else n) s := by
  split
  · exact h1 ‹_›
  · exact h2 ‹_›

/-- an outcome of a computation that is `Good` -/
theorem Good.res (h : Good E k m s) : (∃ a, (m s).1 = .ok a) ∨ ∃ e, (m s).1 = .err e ∧ E e := by
  rcases h with ⟨a, s', h, _⟩ | ⟨e, s', h, he⟩
  · exact .inl ⟨a, by rw [h]⟩
  · exact .inr ⟨e, by rw [h], he⟩
end

theorem read_u8_good (s : Bytes) : Good NotMore 1 read_u8 s := by
  cases s with
  | nil => exact .inr ⟨_, _, rfl, by intro n; simp⟩
  | cons b s => exact .inl ⟨b, s, rfl, by simp⟩

theorem read_u16_good (s : Bytes) : Good NotMore 2 read_u16 s := by
  match s with
  | [] => exact .inr ⟨_, _, rfl, by intro n; simp⟩
  | [_] => exact .inr ⟨_, _, rfl, by intro n; simp⟩
  | a :: b :: t => exact .inl ⟨_, t, rfl, by simp⟩

theorem read_u32_good (s : Bytes) : Good NotMore 4 read_u32 s := by
  match s with
  | [] => exact .inr ⟨_, _, rfl, by intro n; simp⟩
  | [_] => exact .inr ⟨_, _, rfl, by intro n; simp⟩
  | [_, _] => exact .inr ⟨_, _, rfl, by intro n; simp⟩
  | [_, _, _] => exact .inr ⟨_, _, rfl, by intro n; simp⟩
  | a :: b :: c :: d :: t => exact .inl ⟨_, t, rfl, by simp⟩

theorem read_mqtt_bytes_good (s : Bytes) : Good NotMore 2 read_mqtt_bytes s := by
  rcases short_or_u16 s with hs | ⟨n, t, rfl⟩
  · exact .inr ⟨_, _, read_mqtt_bytes_short s hs, by intro n; simp⟩
  · rw [Good, read_mqtt_bytes_u16]
    split
    · exact .inl ⟨_, _, rfl, by simp [u16_len]; omega⟩
    · exact .inr ⟨_, _, rfl, by intro n; simp⟩

theorem read_mqtt_string_good (s : Bytes) : Good NotMore 2 read_mqtt_string s := by
  have : Good NotMore (2 + 0) read_mqtt_string s := by
    unfold read_mqtt_string
    refine Good.bind (read_mqtt_bytes_good s) fun a s' _ _ => ?_
    split
    · exact Good.pure _
    · exact Good.fail _ (by intro n; simp)
  exact this

theorem qos_good (n : UInt8) : (∃ a, Mqtt.qos n = .ok a) ∨ ∃ e, Mqtt.qos n = .err e ∧ NotMore e := by
  rcases qos_cases n with h | h
  · exact .inl h
  · exact .inr ⟨_, h, by intro n; simp⟩

theorem advance_good {E : Error → Prop} (n : Nat) (s : Bytes) (h : n ≤ s.length) :
    Good E n (advance n) s := by
  exact .inl ⟨(), _, (advance_iff _ _ _ _).2 ⟨h, rfl⟩, by simp; omega⟩

theorem usub_good {E : Error → Prop} (a b : Nat) (s : Bytes) (h : b ≤ a) : Good E 0 (usub a b) s := by
  unfold usub; rw [if_pos h]; exact Good.pure _

end Mqtt
