import Verif.Spec.Direct
import Verif.Proof.V5Total
/-! Packet readers called with an arbitrary fixed header. -/
namespace Mqtt
open Spec

theorem panicsExactly_of_good {α : Type} {E : Error → Prop} {k : Nat} {m : M α} {s : Bytes} {p : Prop}
    (h1 : ¬ p → Good E k m s) (h2 : p → (m s).1 = .panic) : PanicsExactly m s p := by
  by_cases hp : p
  · exact ⟨⟨fun _ => hp, h2⟩, .inr (.inr (h2 hp))⟩
  · rcases (h1 hp).res with ⟨a, h⟩ | ⟨e, h, _⟩
    · exact ⟨by rw [h]; simp [hp], .inl ⟨a, h⟩⟩
    · exact ⟨by rw [h]; simp [hp], .inr (.inl ⟨e, h⟩)⟩

theorem advance_short {α : Type} {n : Nat} {f : Unit → M α} {s : Bytes} (h : s.length < n) :
    (advance n >>= f) s = (.panic, s) := by
  rw [bind_run, advance, if_neg (by omega)]; rfl

/-- a reader that begins by skipping the header -/
theorem panics_advance {α : Type} {E : Error → Prop} {k : Nat} {n : Nat} {m : M α} {s : Bytes}
    (h1 : n ≤ s.length → Good E k m s) (h2 : s.length < n → (m s).1 = .panic) :
    PanicsExactly m s (s.length < n) :=
  panicsExactly_of_good (fun h => h1 (by omega)) h2

namespace V4
theorem Unsubscribe.readLoop_panics (fuel : Nat) (acc : List String) (n : Nat) (s : Bytes)
    (hf : s.length < fuel) : PanicsExactly (Unsubscribe.readLoop fuel n acc) s (Overruns n s) := by
  induction fuel generalizing s acc n with
  | zero => omega
  | succ k ih =>
    by_cases hn : 0 < n
    · have e : Unsubscribe.readLoop (k + 1) n acc s = M.andThen (read_mqtt_string s) fun t =>
          usub n (strLen t + 2) >>= fun n => Unsubscribe.readLoop k n (acc ++ [t]) := by
        rw [Unsubscribe.readLoop, if_pos hn]; rfl
      rcases read_mqtt_string_good s with ⟨v, s1, h1, hl⟩ | ⟨er, s1, h1, _⟩
      · rw [h1, andThen_ok] at e
        have hs := (read_mqtt_string_iff _ _ _).1 h1
        have hinv : ∀ v' t', (utf8 v').length ≤ 65535 → s = str v' ++ t' → v' = v ∧ t' = s1 := by
          intro v' t' h2 h3
          have := (read_mqtt_string_iff _ _ _).2 ⟨h2, h3⟩
          rw [h1] at this
          obtain ⟨a, b⟩ := ok_inj.1 this
          exact ⟨a.symm, b.symm⟩
        by_cases hle : strLen v + 2 ≤ n
        · have e2 : Unsubscribe.readLoop (k + 1) n acc s
              = Unsubscribe.readLoop k (n - (2 + (utf8 v).length)) (acc ++ [v]) s1 := by
            rw [e, bind_run, usub, if_pos hle, pure_run, andThen_ok, strLen_eq, Nat.add_comm 2]
          have := ih (acc ++ [v]) (n - (2 + (utf8 v).length)) s1 (by omega)
          unfold PanicsExactly at this ⊢
          rw [e2]
          refine ⟨this.1.trans ⟨fun h => ?_, fun h => ?_⟩, this.2⟩
          · rw [hs.2]; exact .later hs.1 (by rw [strLen_eq] at hle; omega) h
          · rw [strLen_eq] at hle
            generalize hg : s = s0 at h
            cases h with
            | here h1 h2 h3 => obtain ⟨rfl, rfl⟩ := hinv _ _ h2 hg; omega
            | later h2 h3 h4 => obtain ⟨rfl, rfl⟩ := hinv _ _ h2 hg; exact h4
        · have e2 : (Unsubscribe.readLoop (k + 1) n acc s).1 = .panic := by
            rw [e, bind_run, usub, if_neg hle]; rfl
          refine ⟨by simp only [e2, true_iff]; rw [hs.2]; exact .here hn hs.1 (by rw [strLen_eq] at hle; omega),
            .inr (.inr e2)⟩
      · rw [h1, andThen_err] at e
        refine ⟨?_, .inr (.inl ⟨er, by rw [e]⟩)⟩
        rw [e]
        simp only [reduceCtorEq, false_iff]
        intro h
        have hx : ∀ v' t', (utf8 v').length ≤ 65535 → s = str v' ++ t' → False := by
          intro v' t' h2 h3
          have := (read_mqtt_string_iff _ _ _).2 ⟨h2, h3⟩
          rw [h1] at this; simp at this
        generalize hg : s = s0 at h
        cases h with
        | here h1 h2 h3 => exact hx _ _ h2 hg
        | later h2 h3 h4 => exact hx _ _ h2 hg
    · have e : Unsubscribe.readLoop (k + 1) n acc s = (.ok acc, s) := by
        rw [Unsubscribe.readLoop, if_neg hn]; rfl
      refine ⟨?_, .inl ⟨acc, by rw [e]⟩⟩
      rw [e]
      simp only [reduceCtorEq, false_iff]
      intro h
      cases h with
      | here h1 => omega
      | later h1 h2 => omega

theorem Unsubscribe.read_panics (h : FixedHeader) (s : Bytes) :
    PanicsExactly (Unsubscribe.readM h) s (s.length < h.fixed_header_len ∨
      (h.fixed_header_len + 2 ≤ s.length ∧
        (h.remaining_len < 2 ∨ Overruns (h.remaining_len - 2) (s.drop (h.fixed_header_len + 2))))) := by
  by_cases hs : s.length < h.fixed_header_len
  · have : (Unsubscribe.readM h s).1 = .panic := by unfold Unsubscribe.readM; rw [advance_short hs]
    exact ⟨by simp [this, hs], .inr (.inr this)⟩
  · have ha : advance h.fixed_header_len s = (.ok (), s.drop h.fixed_header_len) :=
      (advance_iff _ _ _ _).2 ⟨by omega, rfl⟩
    rcases read_u16_good (s.drop h.fixed_header_len) with ⟨pk, s1, h1, hl⟩ | ⟨e, s1, h1, _⟩
    · have hd : s1 = s.drop (h.fixed_header_len + 2) := by
        have := congrArg (List.drop 2) ((read_u16_iff _ _ _).1 h1)
        rw [List.drop_drop, List.drop_left' (u16_len _)] at this
        exact this.symm
      rw [List.length_drop] at hl
      by_cases hr : 2 ≤ h.remaining_len
      · have e : Unsubscribe.readM h s
            = M.andThen (Unsubscribe.readLoop (s1.length + 1) (h.remaining_len - 2) [] s1) fun ts =>
              pure ⟨pk, ts⟩ := by
          unfold Unsubscribe.readM
          simp only [bind_run, ha, andThen_ok, h1, usub, if_pos hr, pure_run, look_run]
        have hp := Unsubscribe.readLoop_panics (s1.length + 1) [] (h.remaining_len - 2) s1 (by omega)
        have hc : (s.length < h.fixed_header_len ∨ (h.fixed_header_len + 2 ≤ s.length ∧
            (h.remaining_len < 2 ∨ Overruns (h.remaining_len - 2) (s.drop (h.fixed_header_len + 2)))))
            ↔ Overruns (h.remaining_len - 2) s1 := by
          rw [hd]
          refine ⟨?_, fun h' => .inr ⟨by omega, .inr h'⟩⟩
          rintro (h' | ⟨_, h' | h'⟩)
          · omega
          · omega
          · exact h'
        unfold PanicsExactly at hp ⊢
        rw [hc, ← hp.1, e]
        rcases hp.2 with ⟨a, h'⟩ | ⟨er, h'⟩ | h' <;>
          revert h' <;> cases Unsubscribe.readLoop (s1.length + 1) (h.remaining_len - 2) [] s1 with
          | mk r s' => intro h'; simp only at h'; subst h'; simp [M.andThen, pure_run]
      · have e : (Unsubscribe.readM h s).1 = .panic := by
          unfold Unsubscribe.readM
          simp only [bind_run, ha, andThen_ok, h1, usub, if_neg hr]
          rfl
        exact ⟨by simp only [e, true_iff]; exact .inr ⟨by omega, .inl (by omega)⟩, .inr (.inr e)⟩
    · have e' : (Unsubscribe.readM h s).1 = .err e := by
        unfold Unsubscribe.readM
        simp only [bind_run, ha, andThen_ok, h1, andThen_err]
      refine ⟨?_, .inr (.inl ⟨e, e'⟩)⟩
      rw [e']
      simp only [reduceCtorEq, false_iff]
      rintro (h' | ⟨h', _⟩)
      · exact hs h'
      · have hl : 2 ≤ (s.drop h.fixed_header_len).length := by rw [List.length_drop]; omega
        obtain ⟨a, t, ht⟩ : ∃ (a : UInt16) (t : Bytes), read_u16 (s.drop h.fixed_header_len) = (.ok a, t) := by
          generalize s.drop h.fixed_header_len = l at hl
          match l, hl with
          | a :: b :: t, _ => exact ⟨_, _, rfl⟩
        rw [h1] at ht; simp at ht
end V4
end Mqtt
