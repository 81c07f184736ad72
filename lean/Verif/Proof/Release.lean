import Verif.Model.Release
import Verif.Proof.Direct
import Verif.Props.Direct
/-! Release builds do what debug builds do, where those do not panic. -/
set_option linter.unusedSimpArgs false
namespace Mqtt
open Spec

/-- `mr` does what `m` does wherever `m` does not panic -/
def Sim {α : Type} (m mr : M α) : Prop := ∀ s, (m s).1 ≠ .panic → mr s = m s

theorem Sim.refl {α : Type} (m : M α) : Sim m m := fun _ _ => rfl

theorem Sim.bind {α β : Type} {m mr : M α} {f fr : α → M β} (h : Sim m mr) (hf : ∀ a, Sim (f a) (fr a)) :
    Sim (m >>= f) (mr >>= fr) := by
  intro s hs
  rw [bind_run] at hs ⊢
  rw [bind_run]
  have hm : (m s).1 ≠ .panic := by
    intro e
    apply hs
    revert e
    generalize m s = x
    obtain ⟨r, s'⟩ := x
    intro e
    simp only at e; subst e; rfl
  rw [h s hm]
  revert hs
  generalize m s = x
  obtain ⟨r, s'⟩ := x
  intro hs
  cases r with
  | ok a => exact hf a s' hs
  | err e => rfl
  | panic => rfl
  | diverge => rfl

theorem Sim.eq {α : Type} {m mr : M α} (h : Sim m mr) (hn : ∀ s, (m s).1 ≠ .panic) : mr = m :=
  funext fun s => h s (hn s)

theorem uadd_sim (W a b : Nat) (hW : 32 ≤ W) : Sim (uadd a b) (wadd W a b) := by
  intro s hs
  unfold uadd at hs ⊢
  split
  · rename_i h
    have : 2 ^ 32 ≤ 2 ^ W := Nat.pow_le_pow_right (by decide) hW
    show (_, _) = (_, _)
    rw [Nat.mod_eq_of_lt (by omega)]
  · rename_i h; rw [if_neg h] at hs; exact absurd rfl hs

theorem wsub_of_le (W a b : Nat) (h : b ≤ a) (ha : a < 2 ^ W) : (a + 2 ^ W - b) % 2 ^ W = a - b := by
  rw [show a + 2 ^ W - b = (a - b) + 2 ^ W by omega, Nat.add_mod_right, Nat.mod_eq_of_lt (by omega)]

theorem wsub_of_lt (W a b : Nat) (h : a < b) (hb : b ≤ 2 ^ W) : (a + 2 ^ W - b) % 2 ^ W = a + 2 ^ W - b :=
  Nat.mod_eq_of_lt (by omega)

namespace V5

theorem propLoop_sim {σ : Type} (W : Nat) (hW : 32 ≤ W) (step : PropStep σ) (fuel n c : Nat) (st : σ) :
    Sim (propLoop step fuel n c st) (propLoopR W step fuel n c st) := by
  induction fuel generalizing c st with
  | zero => exact Sim.refl _
  | succ k ih =>
    unfold propLoop propLoopR
    split
    · refine (Sim.refl _).bind fun prop => (uadd_sim W _ _ hW).bind fun c => (Sim.refl _).bind fun ty =>
        (Sim.refl _).bind fun x => ?_
      obtain ⟨st, m⟩ := x
      exact (uadd_sim W _ _ hW).bind fun c => ih c st
    · exact Sim.refl _

theorem extractProps_sim {σ : Type} (W : Nat) (hW : 32 ≤ W) (step : PropStep σ) (init : σ) :
    Sim (extractProps step init) (extractPropsR W step init) := by
  unfold extractProps extractPropsR
  refine (Sim.refl _).bind fun x => ?_
  obtain ⟨a, n⟩ := x
  refine (Sim.refl _).bind fun _ => ?_
  split
  · exact Sim.refl _
  · exact (Sim.refl _).bind fun _ => (propLoop_sim W hW _ _ _ _ _).bind fun _ => Sim.refl _

theorem np {α : Type} {m : M α} (h : ∀ s, PanicsExactly m s False) (s : Bytes) : (m s).1 ≠ .panic :=
  fun e => (h s).1.1 e

section
variable (W : Nat) (hW : 32 ≤ W)
include hW

theorem reason_R : ReasonProps.extractR W = ReasonProps.extract :=
  (extractProps_sim W hW _ _).eq (np fun s => (Props.C64_v5_extract s).1)
theorem will_R : WillProperties.readR W = WillProperties.read :=
  (extractProps_sim W hW _ _).eq (np fun s => (Props.C64_v5_extract s).2.2.2.2.2.2.1)
theorem connect_R : ConnectProperties.readR W = ConnectProperties.read :=
  (extractProps_sim W hW _ _).eq (np fun s => (Props.C64_v5_extract s).2.2.2.2.2.2.2.1)
theorem connack_R : ConnAckProperties.extractR W = ConnAckProperties.extract :=
  (extractProps_sim W hW _ _).eq (np fun s => (Props.C64_v5_extract s).2.2.2.2.2.2.2.2.1)
theorem publish_R : PublishProperties.extractR W = PublishProperties.extract :=
  (extractProps_sim W hW _ _).eq (np fun s => (Props.C64_v5_extract s).2.2.2.2.2.2.2.2.2.1)
theorem subscribe_R : SubscribeProperties.extractR W = SubscribeProperties.extract :=
  (extractProps_sim W hW _ _).eq (np fun s => (Props.C64_v5_extract s).2.2.2.2.2.2.2.2.2.2.1)
theorem unsubscribe_R : UnsubscribeProperties.extractR W = UnsubscribeProperties.extract :=
  (extractProps_sim W hW _ _).eq (np fun s => (Props.C64_v5_extract s).2.2.2.2.2.2.2.2.2.2.2.1)
theorem disconnect_R : DisconnectProperties.extractR W = DisconnectProperties.extract :=
  (extractProps_sim W hW _ _).eq (np fun s => (Props.C64_v5_extract s).2.2.2.2.2.2.2.2.2.2.2.2)

theorem LastWill_R (f : UInt8) : LastWill.readR W f = LastWill.read f := by
  unfold LastWill.readR LastWill.read; rw [will_R W hW]
theorem Connect_R (h : FixedHeader) : Connect.readMR W h = Connect.readM h := by
  unfold Connect.readMR Connect.readM; rw [connect_R W hW]; simp only [LastWill_R W hW]; rfl
theorem ConnAck_R (h : FixedHeader) : ConnAck.readMR W h = ConnAck.readM h := by
  unfold ConnAck.readMR ConnAck.readM; rw [connack_R W hW]
theorem Publish_R (h : FixedHeader) : Publish.readMR W h = Publish.readM h := by
  unfold Publish.readMR Publish.readM; simp only [publish_R W hW]; rfl
theorem Ack_R {R : Type} (d : R) (f : UInt8 → Res R) (h : FixedHeader) : Ack.readMR W d f h = Ack.readM d f h := by
  unfold Ack.readMR Ack.readM; rw [reason_R W hW]
theorem Subscribe_R (h : FixedHeader) : Subscribe.readMR W h = Subscribe.readM h := by
  unfold Subscribe.readMR Subscribe.readM; rw [subscribe_R W hW]
theorem SubAck_R (h : FixedHeader) : SubAck.readMR W h = SubAck.readM h := by
  unfold SubAck.readMR SubAck.readM; rw [reason_R W hW, SubAckProperties.extract_eq]
theorem Unsubscribe_R (h : FixedHeader) : Unsubscribe.readMR W h = Unsubscribe.readM h := by
  unfold Unsubscribe.readMR Unsubscribe.readM; rw [unsubscribe_R W hW]
theorem UnsubAck_R (h : FixedHeader) : UnsubAck.readMR W h = UnsubAck.readM h := by
  unfold UnsubAck.readMR UnsubAck.readM; rw [reason_R W hW, UnsubAckProperties.extract_eq]
theorem Disconnect_R (h : FixedHeader) : Disconnect.readMR W h = Disconnect.readM h := by
  unfold Disconnect.readMR Disconnect.readM; rw [disconnect_R W hW]

theorem readFrame_R (h : FixedHeader) (b : Bytes) : readFrameR W h b = readFrame h b := by
  unfold readFrameR readFrame PubAck.readMR PubRec.readMR PubRel.readMR PubComp.readMR
    PubAck.readM PubRec.readM PubRel.readM PubComp.readM
  simp only [Connect_R W hW, ConnAck_R W hW, Publish_R W hW, Ack_R W hW, Subscribe_R W hW, SubAck_R W hW,
    Unsubscribe_R W hW, UnsubAck_R W hW, Disconnect_R W hW]
  rfl

theorem read_R (max : Nat) : readR W max = read max := by
  unfold readR read; simp only [readFrame_R W hW]
end
end V5

namespace V4

theorem readLoop_sim (W fuel n : Nat) (hn : n < 2 ^ W) (acc : List String) :
    Sim (Unsubscribe.readLoop fuel n acc) (Unsubscribe.readLoopR W fuel n acc) := by
  induction fuel generalizing n acc with
  | zero => exact Sim.refl _
  | succ k ih =>
    unfold Unsubscribe.readLoop Unsubscribe.readLoopR
    split
    · refine (Sim.refl _).bind fun t => ?_
      by_cases h : strLen t + 2 ≤ n
      · have e1 : usub n (strLen t + 2) = pure (n - (strLen t + 2)) := if_pos h
        have e2 : wsub W n (strLen t + 2) = pure (n - (strLen t + 2)) := by
          unfold wsub; rw [wsub_of_le W _ _ h hn]
        rw [e1, e2]
        exact ih _ (by omega) _
      · intro s hs
        exfalso
        apply hs
        rw [bind_run, usub, if_neg h]; rfl
    · exact Sim.refl _

theorem Unsubscribe.read_sim (W : Nat) (h : FixedHeader) (hr : h.remaining_len < 2 ^ W) :
    Sim (Unsubscribe.readM h) (Unsubscribe.readMR W h) := by
  unfold Unsubscribe.readM Unsubscribe.readMR
  refine (Sim.refl _).bind fun _ => (Sim.refl _).bind fun pk => ?_
  by_cases h2 : 2 ≤ h.remaining_len
  · have e1 : usub h.remaining_len 2 = pure (h.remaining_len - 2) := if_pos h2
    have e2 : wsub W h.remaining_len 2 = pure (h.remaining_len - 2) := by
      unfold wsub; rw [wsub_of_le W _ _ h2 hr]
    rw [e1, e2]
    rw [M.pure_bind, M.pure_bind]
    exact (Sim.refl _).bind fun b => (readLoop_sim W _ _ (by omega) _).bind fun _ => Sim.refl _
  · intro s hs
    exfalso
    apply hs
    rw [bind_run, usub, if_neg h2]; rfl
theorem readFrame_R (W : Nat) (h : FixedHeader) (hr : h.remaining_len < 2 ^ W) (b : Bytes)
    (hn : readFrame h b ≠ .panic) : readFrameR W h b = readFrame h b := by
  have key : ∀ t, h.packet_type = .ok t → t = .Unsubscribe → h.remaining_len ≠ 0 →
      onFrame (Unsubscribe.readMR W h) b Packet.Unsubscribe = onFrame (Unsubscribe.readM h) b Packet.Unsubscribe := by
    rintro t ht rfl h0
    have e : readFrame h b = onFrame (Unsubscribe.readM h) b Packet.Unsubscribe := by
      unfold readFrame; rw [ht]; simp only; rw [if_neg h0]
    have hs : (Unsubscribe.readM h b).1 ≠ .panic := by
      intro hp
      apply hn
      rw [e]; unfold onFrame; rw [hp]
    unfold onFrame
    rw [Unsubscribe.read_sim W h hr b hs]
  unfold readFrameR readFrame
  cases ht : h.packet_type with
  | ok t =>
    simp only
    split
    · cases t <;> rfl
    · rename_i h0
      cases t <;> first | rfl | exact key _ ht rfl h0
  | err e => rfl
  | panic => rfl
  | diverge => rfl

theorem v4_readR_eq (W max : Nat) : readR W max = readG (readFrameR W) max := rfl

theorem read_R (W : Nat) (hW : 32 ≤ W) (max : Nat) (s : Bytes) (hn : (V4.read max s).1 ≠ .panic) :
    readR W max s = V4.read max s := by
  rw [v4_readR_eq, v4_read_eq] at *
  rcases check_total s max with ⟨h, hc⟩ | ⟨e, he⟩
  · rw [readG_ok _ _ hc] at hn ⊢
    rw [readG_ok _ _ hc]
    have h1 := check_remaining_le max hc
    have h2 : 2 ^ 32 ≤ 2 ^ W := Nat.pow_le_pow_right (by decide) hW
    unfold maxRemaining at h1
    rw [readFrame_R W h (by omega) _ hn]
  · rw [readG_err _ _ he, readG_err _ _ he]

/-- a wrapped counter larger than what is left of the bytes: the bytes run out -/
theorem readLoopR_err (W fuel n : Nat) (acc : List String) (s : Bytes) (hf : s.length < fuel) (hs : s.length < n)
    (hn : n < 2 ^ W) : ∃ e s', Unsubscribe.readLoopR W fuel n acc s = (.err e, s') := by
  induction fuel generalizing n acc s with
  | zero => omega
  | succ k ih =>
    have e : Unsubscribe.readLoopR W (k + 1) n acc s = M.andThen (read_mqtt_string s) fun t =>
        wsub W n (strLen t + 2) >>= fun n => Unsubscribe.readLoopR W k n (acc ++ [t]) := by
      rw [Unsubscribe.readLoopR, if_pos (by omega)]; rfl
    rcases read_mqtt_string_good s with ⟨v, s1, h1, hl⟩ | ⟨er, s1, h1, _⟩
    · rw [h1, andThen_ok] at e
      obtain ⟨h2, h3⟩ := (read_mqtt_string_iff _ _ _).1 h1
      have h4 : s.length = strLen v + 2 + s1.length := by
        rw [h3, List.length_append, strLen_eq, str_len]; omega
      have e2 : wsub W n (strLen v + 2) = pure (n - (strLen v + 2)) := by
        unfold wsub; rw [wsub_of_le W _ _ (by omega) hn]
      rw [e2, M.pure_bind] at e
      rw [e]
      exact ih _ _ _ (by omega) (by omega) (by omega)
    · rw [h1, andThen_err] at e
      exact ⟨_, _, e⟩

theorem readLoopR_of_panic (W fuel n : Nat) (acc : List String) (s : Bytes) (hf : s.length < fuel) (hn : n < 2 ^ W)
    (hs : s.length < 2 ^ W) (hp : (Unsubscribe.readLoop fuel n acc s).1 = .panic) :
    ∃ e s', Unsubscribe.readLoopR W fuel n acc s = (.err e, s') := by
  induction fuel generalizing n acc s with
  | zero => omega
  | succ k ih =>
    by_cases h0 : 0 < n
    · have e : Unsubscribe.readLoopR W (k + 1) n acc s = M.andThen (read_mqtt_string s) fun t =>
          wsub W n (strLen t + 2) >>= fun n => Unsubscribe.readLoopR W k n (acc ++ [t]) := by
        rw [Unsubscribe.readLoopR, if_pos h0]; rfl
      have e' : Unsubscribe.readLoop (k + 1) n acc s = M.andThen (read_mqtt_string s) fun t =>
          usub n (strLen t + 2) >>= fun n => Unsubscribe.readLoop k n (acc ++ [t]) := by
        rw [Unsubscribe.readLoop, if_pos h0]; rfl
      rcases read_mqtt_string_good s with ⟨v, s1, h1, hl⟩ | ⟨er, s1, h1, _⟩
      · rw [h1, andThen_ok] at e e'
        obtain ⟨h2, h3⟩ := (read_mqtt_string_iff _ _ _).1 h1
        have h4 : s.length = strLen v + 2 + s1.length := by
          rw [h3, List.length_append, strLen_eq, str_len]; omega
        by_cases hle : strLen v + 2 ≤ n
        · have e2 : wsub W n (strLen v + 2) = pure (n - (strLen v + 2)) := by
            unfold wsub; rw [wsub_of_le W _ _ hle hn]
          have e3 : usub n (strLen v + 2) = pure (n - (strLen v + 2)) := if_pos hle
          rw [e2, M.pure_bind] at e
          rw [e3, M.pure_bind] at e'
          rw [e]
          rw [e'] at hp
          exact ih _ _ _ (by omega) (by omega) (by omega) hp
        · have e2 : wsub W n (strLen v + 2) = pure (n + 2 ^ W - (strLen v + 2)) := by
            unfold wsub; rw [wsub_of_lt W _ _ (by omega) (by omega)]
          rw [e2, M.pure_bind] at e
          rw [e]
          exact readLoopR_err W _ _ _ _ (by omega) (by omega) (by omega)
      · rw [h1, andThen_err] at e
        exact ⟨_, _, e⟩
    · rw [Unsubscribe.readLoop, if_neg h0] at hp
      exact absurd hp (by simp [pure_run])

/-- an underflow that panics in a debug build: in a release build the counter becomes huge and the bytes run out -/
theorem Unsubscribe.readMR_of_panic (W : Nat) (h : FixedHeader) (s : Bytes) (hr : h.remaining_len < 2 ^ W)
    (hs : s.length < 2 ^ W) (hh : h.fixed_header_len ≤ s.length) (hp : (Unsubscribe.readM h s).1 = .panic) :
    ∃ e, (Unsubscribe.readMR W h s).1 = .err e := by
  have ha : advance h.fixed_header_len s = (.ok (), s.drop h.fixed_header_len) :=
    (advance_iff _ _ _ _).2 ⟨by omega, rfl⟩
  rcases read_u16_good (s.drop h.fixed_header_len) with ⟨pk, s1, h1, hl⟩ | ⟨e, s1, h1, _⟩
  · rw [List.length_drop] at hl
    have key : ∀ n, (∃ e s', Unsubscribe.readLoopR W (s1.length + 1) n [] s1 = (.err e, s')) →
        wsub W h.remaining_len 2 = pure n → ∃ e, (Unsubscribe.readMR W h s).1 = .err e := by
      rintro n ⟨e, s', he⟩ hw
      refine ⟨e, ?_⟩
      unfold Unsubscribe.readMR
      rw [hw]
      simp only [bind_run, ha, andThen_ok, h1, pure_run, look_run, he, andThen_err]
    by_cases h2 : 2 ≤ h.remaining_len
    · refine key (h.remaining_len - 2) (readLoopR_of_panic W _ _ _ _ (by omega) (by omega) (by omega) ?_) (by
        unfold wsub; rw [wsub_of_le W _ _ h2 hr])
      have e : Unsubscribe.readM h s
          = M.andThen (Unsubscribe.readLoop (s1.length + 1) (h.remaining_len - 2) [] s1) fun ts =>
            pure ⟨pk, ts⟩ := by
        unfold Unsubscribe.readM
        simp only [bind_run, ha, andThen_ok, h1, usub, if_pos h2, pure_run, look_run]
      rw [e] at hp
      revert hp
      generalize Unsubscribe.readLoop (s1.length + 1) (h.remaining_len - 2) [] s1 = x
      obtain ⟨r, s'⟩ := x
      cases r <;> simp [M.andThen, pure_run]
    · refine key (h.remaining_len + 2 ^ W - 2) (readLoopR_err W _ _ _ _ (by omega) (by omega) (by omega)) (by
        unfold wsub; rw [wsub_of_lt W _ _ (by omega) (by omega)])
  · refine ⟨e, ?_⟩
    unfold Unsubscribe.readMR
    simp only [bind_run, ha, andThen_ok, h1, andThen_err]

end V4
end Mqtt
