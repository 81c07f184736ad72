import Verif.Proof.Dispatch
import Verif.Spec.Errors
/-! Errors of the buffer monad and of the field readers. -/
namespace Mqtt
open Spec

section
variable {α β : Type}

theorem andThen_eq_err {r : Res α × Bytes} {f : α → M β} {e : Error} :
    (M.andThen r f).1 = .err e ↔ r.1 = .err e ∨ ∃ a s', r = (.ok a, s') ∧ (f a s').1 = .err e := by
  obtain ⟨r, s'⟩ := r
  cases r with
  | ok a =>
    simp only [andThen_ok, reduceCtorEq, false_or]
    constructor
    · intro h; exact ⟨a, s', rfl, h⟩
    · rintro ⟨a', s'', h, h'⟩
      simp only [Prod.mk.injEq, Res.ok.injEq] at h
      obtain ⟨rfl, rfl⟩ := h; exact h'
  | err e => simp [andThen_err]
  | panic => simp [andThen_panic]
  | diverge => simp [andThen_diverge]

theorem bind_err (m : M α) (f : α → M β) (s : Bytes) (e : Error) :
    ((m >>= f) s).1 = .err e ↔
      (m s).1 = .err e ∨ ∃ a s', m s = (.ok a, s') ∧ (f a s').1 = .err e := by
  rw [bind_run, andThen_eq_err]

theorem pure_err (a : α) (s : Bytes) (e : Error) : ((pure a : M α) s).1 = .err e ↔ False := by
  simp [pure_run]

theorem fail_err (e e' : Error) (s : Bytes) : ((M.fail e : M α) s).1 = .err e' ↔ e' = e := by
  simp [fail_run, eq_comm]

theorem look_err (s : Bytes) (e : Error) : (M.look s).1 = .err e ↔ False := by
  simp [look_run]

theorem lift_err (r : Res α) (s : Bytes) (e : Error) : (M.lift r s).1 = .err e ↔ r = .err e :=
  Iff.rfl
end

theorem read_u8_err (s : Bytes) (e : Error) : (read_u8 s).1 = .err e ↔ U8Fails s e := by
  unfold U8Fails
  cases s with
  | nil =>
    have : read_u8 [] = (.err .MalformedPacket, []) := rfl
    rw [this]; simp only [Res.err.injEq, true_and]; exact eq_comm
  | cons a t => simp [read_u8_cons]

theorem read_u16_err (s : Bytes) (e : Error) : (read_u16 s).1 = .err e ↔ U16Fails s e := by
  unfold U16Fails
  rcases short_or_u16 s with hs | ⟨n, t, rfl⟩
  · unfold read_u16; mrun; simp [hs, eq_comm]
  · rw [read_u16_run]; simp [u16_len]; omega

theorem read_u32_err (s : Bytes) (e : Error) : (read_u32 s).1 = .err e ↔ U32Fails s e := by
  unfold U32Fails read_u32; mrun
  match s with
  | [] => simp [eq_comm]
  | [a] => simp [eq_comm]
  | [a, b] => simp [eq_comm]
  | [a, b, c] => simp [eq_comm]
  | a :: b :: c :: d :: t =>
    simp only [List.length_cons, show ¬ (t.length + 1 + 1 + 1 + 1 < 4) by omega, if_false, getU32]
    simp

theorem u16_append_inj {n m : Nat} (hn : n < 65536) (hm : m < 65536) {s t : Bytes}
    (h : Spec.u16 n ++ s = Spec.u16 m ++ t) : n = m ∧ s = t := by
  simp only [Spec.u16, List.cons_append, List.nil_append, List.cons.injEq, ← UInt8.toNat_inj,
    UInt8.toNat_ofNat'] at h
  exact ⟨by omega, h.2.2⟩

theorem u16_toUInt16 {n : Nat} (hn : n < 65536) : (UInt16.ofNat n).toNat = n :=
  UInt16.toNat_ofNat_of_lt' hn

theorem read_mqtt_bytes_err (s : Bytes) (e : Error) :
    (read_mqtt_bytes s).1 = .err e ↔ BinFails s e := by
  unfold BinFails
  rcases short_or_u16 s with hs | ⟨n, t, rfl⟩
  · rw [read_mqtt_bytes_short _ hs]
    constructor
    · intro h; exact .inl ⟨hs, by simpa using h.symm⟩
    · rintro (h | ⟨n, t, _, rfl, _⟩)
      · simp [h.2]
      · simp [u16_len] at hs; omega
  · rw [read_mqtt_bytes_u16]
    have hn := n.toNat_lt
    constructor
    · intro h
      split at h
      · simp at h
      · rename_i hl
        exact .inr ⟨n.toNat, t, by omega, rfl, by omega, by simpa using h.symm⟩
    · rintro (h | ⟨m, t', hm, h, hl, rfl⟩)
      · have := h.1; simp [u16_len] at this; omega
      · obtain ⟨rfl, rfl⟩ := u16_append_inj (by omega) hm h
        rw [if_neg (by omega)]

theorem read_mqtt_string_err (s : Bytes) (e : Error) :
    (read_mqtt_string s).1 = .err e ↔ StrFails s e := by
  unfold StrFails read_mqtt_string
  rw [bind_err, read_mqtt_bytes_err]
  refine or_congr Iff.rfl ?_
  constructor
  · rintro ⟨b, t, h1, h2⟩
    rw [read_mqtt_bytes_iff] at h1
    cases hb : fromUtf8 b with
    | none =>
      rw [hb] at h2
      refine ⟨b, t, h1.1, h1.2, ?_, by simpa [fail_run, eq_comm] using h2⟩
      intro v hv
      rw [(fromUtf8_iff b v).2 hv] at hb; simp at hb
    | some w => rw [hb] at h2; simp [pure_run] at h2
  · rintro ⟨b, t, h1, h2, h3, rfl⟩
    refine ⟨b, t, (read_mqtt_bytes_iff _ _ _).2 ⟨h1, h2⟩, ?_⟩
    cases hb : fromUtf8 b with
    | none => rfl
    | some w => exact absurd ((fromUtf8_iff b w).1 hb) (h3 w)

theorem length_err (s : Bytes) (e : Error) : length s = .err e ↔ VbiFails s e := by
  unfold VbiFails
  constructor
  · intro h
    rcases length_cases s with ⟨k, n, h1⟩ | h1 | h1
    · rw [h1] at h; simp at h
    · have h2 := (length_insufficient_iff _ _).1 h1
      rw [h1] at h; exact .inl ⟨h2.2.1, h2.2.2, by simpa using h.symm⟩
    · obtain ⟨a, t, h2, h3, h4⟩ := (length_malformed_iff _).1 h1
      rw [h1] at h; exact .inr ⟨a, t, h2, h3, h4, by simpa using h.symm⟩
  · rintro (⟨h1, h2, rfl⟩ | ⟨a, t, h1, h2, h3, rfl⟩)
    · exact (length_insufficient_iff _ _).2 ⟨rfl, h1, h2⟩
    · exact (length_malformed_iff _).2 ⟨a, t, h1, h2, h3⟩

theorem check_err_iff (max : Nat) (s : Bytes) (e : Error) :
    check s max = .err e ↔ FramingFails max s e := by
  constructor
  · intro h
    rcases check_err_cases max h with ⟨n, rfl⟩ | rfl | ⟨n, rfl⟩
    · rcases (check_insufficient_iff _ _ _).1 h with
        ⟨rfl, rfl⟩ | ⟨b1, t, rfl, h1, h2, rfl⟩ | ⟨b1, bs, t, rfl, h1, h2, h3, rfl⟩
      · exact .empty
      · exact .length (.inl ⟨h1, h2, rfl⟩)
      · exact .body h1 h2 h3
    · obtain ⟨b1, a, t, rfl, h1, h2⟩ := (check_malformed_iff _ _).1 h
      exact .length (.inr ⟨a, t, rfl, h1, h2, rfl⟩)
    · obtain ⟨b1, bs, t, rfl, h1, rfl, h2⟩ := (check_limit_iff _ _ _).1 h
      exact .limit h1 h2
  · intro h
    cases h with
    | empty => exact (check_insufficient_iff _ _ _).2 (.inl ⟨rfl, rfl⟩)
    | length h =>
      rcases h with ⟨h1, h2, rfl⟩ | ⟨a, t, rfl, h2, h3, rfl⟩
      · exact (check_insufficient_iff _ _ _).2 (.inr (.inl ⟨_, _, rfl, h1, h2, rfl⟩))
      · exact (check_malformed_iff _ _).2 ⟨_, a, t, rfl, h2, h3⟩
    | limit h1 h2 => exact (check_limit_iff _ _ _).2 ⟨_, _, _, rfl, h1, rfl, h2⟩
    | body h1 h2 h3 =>
      exact (check_insufficient_iff _ _ _).2 (.inr (.inr ⟨_, _, _, rfl, h1, h2, h3, rfl⟩))

theorem qos_err (n : UInt8) (e : Error) :
    Mqtt.qos n = .err e ↔ (∀ q : QoS, n ≠ q.toU8) ∧ e = .InvalidQoS n := by
  constructor
  · intro h
    rcases qos_cases n with ⟨q, hq⟩ | hq
    · rw [hq] at h; simp at h
    · refine ⟨fun q h1 => ?_, by rw [hq] at h; simpa using h.symm⟩
      rw [(qos_ok_iff n q).2 h1] at hq; simp at hq
  · rintro ⟨h1, rfl⟩
    rcases qos_cases n with ⟨q, hq⟩ | hq
    · exact absurd ((qos_ok_iff n q).1 hq) (h1 q)
    · exact hq

/-- turn "the `do` block returned this error" into facts about its parts -/
syntax "merr" ("[" Lean.Parser.Tactic.simpLemma,* "]")? (Lean.Parser.Tactic.location)? : tactic
macro_rules
  | `(tactic| merr $[$loc:location]?) => `(tactic| simp only [bind_err, pure_err, fail_err, look_err, lift_err, read_u8_err, read_u16_err, read_u32_err, read_mqtt_bytes_err, read_mqtt_string_err, false_or, or_false, exists_false, and_false, pure_run, look_run, lift_run, Prod.mk.injEq, Res.ok.injEq, reduceCtorEq, false_and, read_u8_iff, read_u16_iff, read_u32_iff, read_mqtt_bytes_iff, read_mqtt_string_iff] $[$loc]?)
  | `(tactic| merr [$ls,*] $[$loc:location]?) => `(tactic| simp only [bind_err, pure_err, fail_err, look_err, lift_err, read_u8_err, read_u16_err, read_u32_err, read_mqtt_bytes_err, read_mqtt_string_err, false_or, or_false, exists_false, and_false, pure_run, look_run, lift_run, Prod.mk.injEq, Res.ok.injEq, reduceCtorEq, false_and, read_u8_iff, read_u16_iff, read_u32_iff, read_mqtt_bytes_iff, read_mqtt_string_iff, $ls,*] $[$loc]?)

end Mqtt
