import Verif.Spec.Steps
import Verif.Props.Direct
/-! C85: the decoding and encoding loops take at most one turn per byte. -/
set_option linter.unusedSimpArgs false
namespace Mqtt
open Spec

/-- `mr` does what `m` does wherever `m` ends -/
def Agree {α : Type} (m mr : M α) : Prop := ∀ s, (m s).1 ≠ .diverge → mr s = m s

theorem Agree.refl {α : Type} (m : M α) : Agree m m := fun _ _ => rfl

theorem Agree.div {α : Type} (m : M α) : Agree M.diverge m := fun _ h => absurd rfl h

theorem Agree.bind {α β : Type} {m : M α} {f fr : α → M β} (hf : ∀ a, Agree (f a) (fr a)) :
    Agree (m >>= f) (m >>= fr) := by
  intro s hs
  rw [bind_run] at hs ⊢
  rw [bind_run]
  revert hs
  generalize m s = x
  obtain ⟨r, s'⟩ := x
  intro hs
  cases r with
  | ok a => exact hf a s' hs
  | err e => rfl
  | panic => rfl
  | diverge => rfl

theorem endsWithin {α : Type} {loop : Nat → M α} (h : ∀ k, Agree (loop k) (loop (k + 1))) {s : Bytes} {n : Nat}
    (hn : (loop n s).1 ≠ .diverge) : EndsWithin loop s n := by
  refine ⟨hn, fun k hk => ?_⟩
  induction k with
  | zero => obtain rfl : n = 0 := by omega
            rfl
  | succ k ih =>
    by_cases e : n = k + 1
    · rw [e]
    · have := ih (by omega)
      rw [h k s (by rw [this]; exact hn), this]

theorem Good.ne_diverge {α : Type} {E : Error → Prop} {k : Nat} {m : M α} {s : Bytes} (h : Good E k m s) :
    (m s).1 ≠ .diverge := by
  rcases h with ⟨a, s', h, -⟩ | ⟨e, s', h, -⟩ <;> rw [h] <;> simp

theorem V4.sub_agree (acc : List V4.SubscribeFilter) (k : Nat) :
    Agree (V4.Subscribe.readLoop k acc) (V4.Subscribe.readLoop (k + 1) acc) := by
  induction k generalizing acc with
  | zero => exact .div _
  | succ k ih =>
    rw [V4.Subscribe.readLoop, V4.Subscribe.readLoop]
    refine .bind fun b => ?_
    split
    · exact .refl _
    · exact .bind fun _ => .bind fun _ => .bind fun _ => ih _

theorem V4.suback_agree (acc : List V4.SubscribeReasonCode) (k : Nat) :
    Agree (V4.SubAck.readLoop k acc) (V4.SubAck.readLoop (k + 1) acc) := by
  induction k generalizing acc with
  | zero => exact .div _
  | succ k ih =>
    rw [V4.SubAck.readLoop, V4.SubAck.readLoop]
    refine .bind fun b => ?_
    split
    · exact .refl _
    · exact .bind fun _ => .bind fun _ => ih _

theorem V4.unsub_agree (n : Nat) (acc : List String) (k : Nat) :
    Agree (V4.Unsubscribe.readLoop k n acc) (V4.Unsubscribe.readLoop (k + 1) n acc) := by
  induction k generalizing n acc with
  | zero => exact .div _
  | succ k ih =>
    rw [V4.Unsubscribe.readLoop, V4.Unsubscribe.readLoop]
    split
    · exact .bind fun _ => .bind fun _ => ih _ _
    · exact .refl _

theorem V5.prop_agree {σ : Type} (step : V5.PropStep σ) (n c : Nat) (st : σ) (k : Nat) :
    Agree (V5.propLoop step k n c st) (V5.propLoop step (k + 1) n c st) := by
  induction k generalizing c st with
  | zero => exact .div _
  | succ k ih =>
    rw [V5.propLoop, V5.propLoop]
    split
    · exact .bind fun _ => .bind fun _ => .bind fun _ => .bind fun ⟨_, _⟩ => .bind fun _ => ih _ _
    · exact .refl _

theorem V5.sub_agree (acc : List V5.SubscribeFilter) (k : Nat) :
    Agree (V5.Subscribe.readLoop k acc) (V5.Subscribe.readLoop (k + 1) acc) := by
  induction k generalizing acc with
  | zero => exact .div _
  | succ k ih =>
    rw [V5.Subscribe.readLoop, V5.Subscribe.readLoop]
    refine .bind fun b => ?_
    split
    · exact .refl _
    · exact .bind fun _ => .bind fun _ => .bind fun _ => .bind fun _ => ih _

theorem V5.codes_agree {C : Type} (conv : UInt8 → Res C) (acc : List C) (k : Nat) :
    Agree (V5.readCodesLoop conv k acc) (V5.readCodesLoop conv (k + 1) acc) := by
  induction k generalizing acc with
  | zero => exact .div _
  | succ k ih =>
    rw [V5.readCodesLoop, V5.readCodesLoop]
    refine .bind fun b => ?_
    split
    · exact .refl _
    · exact .bind fun _ => .bind fun _ => ih _

theorem V5.unsub_agree (acc : List String) (k : Nat) :
    Agree (V5.Unsubscribe.readLoop k acc) (V5.Unsubscribe.readLoop (k + 1) acc) := by
  induction k generalizing acc with
  | zero => exact .div _
  | succ k ih =>
    rw [V5.Unsubscribe.readLoop, V5.Unsubscribe.readLoop]
    refine .bind fun b => ?_
    split
    · exact .refl _
    · exact .bind fun _ => ih _

theorem rl_agree (x c k : Nat) : Agree (write_remaining_length_loop k x c) (write_remaining_length_loop (k + 1) x c) := by
  induction k generalizing x c with
  | zero => exact .div _
  | succ k ih =>
    rw [write_remaining_length_loop, write_remaining_length_loop]
    refine .bind fun _ => ?_
    split
    · exact .refl _
    · exact ih _ _

theorem V5.prop_ends {σ : Type} {kind : Nat → Option Spec.V5.Kind} {step : V5.PropStep σ}
    {dec : List Spec.V5.Property → σ}
    (hg : V5.GenStep kind step dec) (n : Nat) (hn : n ≤ 268435455) (s : Bytes) :
    EndsWithin (fun k => V5.propLoop step k n 0 (dec [])) s (s.length + 1) :=
  endsWithin (fun k => V5.prop_agree _ _ _ _ k)
    (V5.propLoop_good hg _ _ _ _ _ (Nat.lt_succ_self _) hn).ne_diverge

end Mqtt

namespace Props
open Mqtt Spec

/-- C85 (MQTT 3.1.1): the loops of SUBSCRIBE, SUBACK and UNSUBSCRIBE decoding, started on any bytes and (UNSUBSCRIBE)
with any announced length, take at most one turn per byte. -/
theorem C85_v4_loops (s : Bytes) :
    EndsWithin (fun k => V4.Subscribe.readLoop k []) s (s.length + 1) ∧
    EndsWithin (fun k => V4.SubAck.readLoop k []) s (s.length + 1) ∧
    ∀ n, EndsWithin (fun k => V4.Unsubscribe.readLoop k n []) s (s.length + 1) := by
  refine ⟨endsWithin (fun k => V4.sub_agree _ k) (V4.Subscribe.readLoop_good _ _ _ (Nat.lt_succ_self _)).ne_diverge,
    endsWithin (fun k => V4.suback_agree _ k) (V4.SubAck.readLoop_good _ _ _ (Nat.lt_succ_self _)).ne_diverge,
    fun n => endsWithin (fun k => V4.unsub_agree _ _ k) ?_⟩
  rcases (V4.Unsubscribe.readLoop_panics _ [] n s (Nat.lt_succ_self _)).2 with ⟨a, h⟩ | ⟨e, h⟩ | h <;> rw [h] <;> simp

/-- C85 (MQTT 5): the same for the loops of SUBSCRIBE, SUBACK, UNSUBSCRIBE and UNSUBACK decoding. -/
theorem C85_v5_loops (s : Bytes) :
    EndsWithin (fun k => V5.Subscribe.readLoop k []) s (s.length + 1) ∧
    EndsWithin (fun k => V5.readCodesLoop V5.SubscribeReasonCode.try_from k []) s (s.length + 1) ∧
    EndsWithin (fun k => V5.Unsubscribe.readLoop k []) s (s.length + 1) ∧
    EndsWithin (fun k => V5.readCodesLoop V5.UnsubAckReason.reason k []) s (s.length + 1) := by
  refine ⟨endsWithin (fun k => V5.sub_agree _ k) (V5.Subscribe.readLoop_good _ _ _ (Nat.lt_succ_self _)).ne_diverge,
    endsWithin (fun k => V5.codes_agree _ _ k) (V5.readCodesLoop_good _ _ ?_ _ _ (Nat.lt_succ_self _)).ne_diverge,
    endsWithin (fun k => V5.unsub_agree _ k) (V5.Unsubscribe.readLoop_good _ _ _ (Nat.lt_succ_self _)).ne_diverge,
    endsWithin (fun k => V5.codes_agree _ _ k) (V5.readCodesLoop_good _ _ ?_ _ _ (Nat.lt_succ_self _)).ne_diverge⟩
  all_goals
    intro n
    simp only [V5.SubscribeReasonCode.try_from, V5.UnsubAckReason.reason]
    split <;> simp [NotMore]

/-- C85 (MQTT 5): the property loops of all packets, with any announced section length. -/
theorem C85_v5_property_loops (s : Bytes) (n : Nat) (hn : n ≤ 268435455) :
    EndsWithin (fun k => V5.propLoop V5.ConnectProperties.step k n 0 V5.ConnectProperties.empty) s (s.length + 1) ∧
    EndsWithin (fun k => V5.propLoop V5.WillProperties.step k n 0 V5.WillProperties.empty) s (s.length + 1) ∧
    EndsWithin (fun k => V5.propLoop V5.ConnAckProperties.step k n 0 V5.ConnAckProperties.new) s (s.length + 1) ∧
    EndsWithin (fun k => V5.propLoop V5.PublishProperties.step k n 0 V5.PublishProperties.empty) s (s.length + 1) ∧
    EndsWithin (fun k => V5.propLoop V5.PubAckProperties.step k n 0 ⟨none, []⟩) s (s.length + 1) ∧
    EndsWithin (fun k => V5.propLoop V5.PubRecProperties.step k n 0 ⟨none, []⟩) s (s.length + 1) ∧
    EndsWithin (fun k => V5.propLoop V5.PubRelProperties.step k n 0 ⟨none, []⟩) s (s.length + 1) ∧
    EndsWithin (fun k => V5.propLoop V5.PubCompProperties.step k n 0 ⟨none, []⟩) s (s.length + 1) ∧
    EndsWithin (fun k => V5.propLoop V5.SubAckProperties.step k n 0 ⟨none, []⟩) s (s.length + 1) ∧
    EndsWithin (fun k => V5.propLoop V5.UnsubAckProperties.step k n 0 ⟨none, []⟩) s (s.length + 1) ∧
    EndsWithin (fun k => V5.propLoop V5.SubscribeProperties.step k n 0 ⟨none, []⟩) s (s.length + 1) ∧
    EndsWithin (fun k => V5.propLoop V5.UnsubscribeProperties.step k n 0 ⟨[]⟩) s (s.length + 1) ∧
    EndsWithin (fun k => V5.propLoop V5.DisconnectProperties.step k n 0 V5.DisconnectProperties.new) s (s.length + 1) :=
  have hr := V5.prop_ends V5.reason_gen n hn s
  ⟨V5.prop_ends V5.connect_gen n hn s, V5.prop_ends V5.will_gen n hn s, V5.prop_ends V5.connack_gen n hn s,
   V5.prop_ends V5.publish_gen n hn s, hr, hr, hr, hr, hr, hr, V5.prop_ends V5.subscribe_gen n hn s,
   V5.prop_ends V5.unsubscribe_gen n hn s, V5.prop_ends V5.disconnect_gen n hn s⟩

/-- C85: writing a length takes at most four turns, whatever the buffer. -/
theorem C85_write_length (x : Nat) (hx : x ≤ 268435455) (s : Bytes) :
    EndsWithin (fun k => write_remaining_length_loop k x 0) s 4 := by
  refine endsWithin (fun k => rl_agree _ _ k) ?_
  have h0 : x / 128 / 128 / 128 / 128 = 0 := by omega
  simp only [write_remaining_length_loop, h0, if_true]
  mrun [putU8]
  repeat' split
  all_goals simp

/-- the bound is met: a property section of three bytes announced as longer; the length 268435455 needs all four turns -/
example : (V5.propLoop V5.SubAckProperties.step 1 3 0 ⟨none, []⟩ [31, 0, 0]).1 = .diverge
    ∧ (V5.propLoop V5.SubAckProperties.step 2 3 0 ⟨none, []⟩ [31, 0, 0]).1 = .ok ⟨some "", []⟩
    ∧ (write_remaining_length_loop 3 268435455 0 []).1 = .diverge
    ∧ (write_remaining_length_loop 4 268435455 0 []).1 = .ok 4 := by decide +kernel

end Props
