import Verif.Spec.Wire
import Verif.Model.Lib
/-! Evaluation lemmas for the buffer monad. -/
namespace Mqtt

/-- continue with the outcome of a computation -/
def M.andThen {α β : Type} (r : Res α × Bytes) (f : α → M β) : Res β × Bytes :=
  match r with
  | (.ok a, s') => f a s'
  | (.err e, s') => (.err e, s')
  | (.panic, s') => (.panic, s')
  | (.diverge, s') => (.diverge, s')

section
variable {α β : Type}
theorem bind_run (m : M α) (f : α → M β) (s : Bytes) : (m >>= f) s = M.andThen (m s) f := by
  show M.bind m f s = _
  unfold M.bind M.andThen; rfl
theorem M.bind_assoc {γ : Type} (m : M α) (f : α → M β) (g : β → M γ) :
    (m >>= f) >>= g = m >>= fun a => f a >>= g := by
  funext s
  simp only [bind_run]
  unfold M.andThen
  cases m s with
  | mk r s' => cases r <;> simp [bind_run, M.andThen]
theorem M.pure_bind (a : α) (f : α → M β) : (Pure.pure a >>= f) = f a := rfl
theorem pure_run (a : α) (s : Bytes) : (pure a : M α) s = (.ok a, s) := rfl
theorem andThen_ok (a : α) (s : Bytes) (f : α → M β) : M.andThen (.ok a, s) f = f a s := rfl
theorem andThen_err (e : Error) (s : Bytes) (f : α → M β) :
    M.andThen (.err e, s) f = (.err e, s) := rfl
theorem andThen_panic (s : Bytes) (f : α → M β) : M.andThen (.panic, s) f = (.panic, s) := rfl
theorem andThen_diverge (s : Bytes) (f : α → M β) : M.andThen (.diverge, s) f = (.diverge, s) :=
  rfl
theorem fail_run (e : Error) (s : Bytes) : (M.fail e : M α) s = (.err e, s) := rfl
theorem look_run (s : Bytes) : M.look s = (.ok s, s) := rfl
theorem lift_run (r : Res α) (s : Bytes) : M.lift r s = (r, s) := rfl

theorem andThen_eq_ok {r : Res α × Bytes} {f : α → M β} {b : β} {s : Bytes} :
    M.andThen r f = (.ok b, s) ↔ ∃ a s', r = (.ok a, s') ∧ f a s' = (.ok b, s) := by
  obtain ⟨r, s'⟩ := r
  cases r with
  | ok a =>
    simp only [andThen_ok]
    constructor
    · intro h; exact ⟨a, s', rfl, h⟩
    · rintro ⟨a', s'', h, h'⟩
      simp only [Prod.mk.injEq, Res.ok.injEq] at h
      obtain ⟨rfl, rfl⟩ := h; exact h'
  | err e => simp [andThen_err]
  | panic => simp [andThen_panic]
  | diverge => simp [andThen_diverge]

theorem ite_run (c : Prop) [Decidable c] (m n : M α) (s : Bytes) :
    (if c then m else n) s = if c then m s else n s := by split <;> rfl
end

/-- run a `do` block, with extra simp lemmas -/
syntax "mrun" ("[" Lean.Parser.Tactic.simpLemma,* "]")? : tactic
macro_rules
  | `(tactic| mrun) => `(tactic| simp only [bind_run, pure_run, andThen_ok, andThen_err, andThen_panic, andThen_diverge, fail_run, look_run, lift_run, ite_run])
  | `(tactic| mrun [$ls,*]) => `(tactic| simp only [bind_run, pure_run, andThen_ok, andThen_err, andThen_panic, andThen_diverge, fail_run, look_run, lift_run, ite_run, $ls,*])

end Mqtt
