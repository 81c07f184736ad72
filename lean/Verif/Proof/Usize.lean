import Verif.Model.Usize
import Verif.Proof.WriteAll
/-! Checked lengths are the unchecked ones as long as they fit. -/
namespace Mqtt
namespace Usz
variable {bld : Build} {W : Nat}

theorem lit_pos {n : Nat} (h : n < 2 ^ W) : (lit n : Usz bld W) = .val n := if_pos h
theorem lit_neg {n : Nat} (h : ¬ n < 2 ^ W) : (lit n : Usz .debug W) = .overflow := if_neg h
theorem lit_release (n : Nat) : (lit n : Usz .release W) = .val (n % 2 ^ W) := by
  unfold lit
  by_cases h : n < 2 ^ W
  · rw [if_pos h, Nat.mod_eq_of_lt h]
  · rw [if_neg h]

theorem lit_add (m n : Nat) : (lit m + lit n : Usz bld W) = lit (m + n) := by
  cases bld with
  | debug =>
    show add (lit m) (lit n) = lit (m + n)
    by_cases h : m + n < 2 ^ W
    · rw [lit_pos (show m < 2 ^ W by omega), lit_pos (show n < 2 ^ W by omega)]
      rfl
    · by_cases h1 : m < 2 ^ W
      · by_cases h2 : n < 2 ^ W
        · rw [lit_pos h1, lit_pos h2]; rfl
        · rw [lit_neg h, lit_neg h2, lit_pos h1]; unfold add; rfl
      · rw [lit_neg h, lit_neg h1]; unfold add; rfl
  | release =>
    show add (lit m) (lit n) = lit (m + n)
    rw [lit_release, lit_release]
    show lit (m % 2 ^ W + n % 2 ^ W) = lit (m + n)
    rw [lit_release, lit_release, ← Nat.add_mod]

theorem ofNat_lit (n : Nat) : (OfNat.ofNat n : Usz bld W) = lit n := rfl
theorem zero_lit : (0 : Usz bld W) = lit 0 := rfl
theorem one_lit : (1 : Usz bld W) = lit 1 := rfl
theorem two_lit : (2 : Usz bld W) = lit 2 := rfl
theorem four_lit : (4 : Usz bld W) = lit 4 := rfl

theorem ite_lit (c : Prop) [Decidable c] (m n : Nat) :
    (if c then lit m else lit n : Usz bld W) = lit (if c then m else n) := by
  split <;> rfl

/-- with overflow checks always, without if nothing wraps -/
def Exact (bld : Build) (W n : Nat) : Prop := bld = .debug ∨ n < 2 ^ W

theorem Exact.le {bld : Build} {W m n : Nat} (h : Exact bld W n) (hl : m ≤ n) : Exact bld W m :=
  h.imp id fun h => Nat.lt_of_le_of_lt hl h

theorem len_len_add (n : Nat) (hx : Exact bld W n) :
    ((lit n : Usz bld W).len_len + lit n : Usz bld W) = lit (Mqtt.len_len n + n) := by
  by_cases h : n < 2 ^ W
  · rw [← lit_add]
    congr 1
    rw [lit_pos h]; rfl
  · rcases hx with rfl | hx
    · rw [lit_neg h, lit_neg (show ¬ Mqtt.len_len n + n < 2 ^ W by omega)]
      rfl
    · exact absurd hx h

theorem foldl_lit {α : Type} (f : Usz bld W → α → Usz bld W) (g : Nat → α → Nat) (h : ∀ n x, f (lit n) x = lit (g n x))
    (l : List α) (n : Nat) : l.foldl f (lit n) = lit (l.foldl g n) := by
  induction l generalizing n with
  | nil => rfl
  | cons x l ih => rw [List.foldl_cons, List.foldl_cons, h, ih]

end Usz
open Usz

namespace V4
variable (bld : Build) (W : Nat)
theorem LastWill.lenU_eq (w : LastWill) : w.lenU bld W = lit w.len := by
  simp only [lenU, len, two_lit, lit_add]
theorem Login.lenU_eq (l : Login) : l.lenU bld W = lit l.len := by
  simp only [lenU, len, zero_lit, two_lit, lit_add, ite_lit]
theorem Connect.lenU_eq (c : Connect) : c.lenU bld W = lit c.len := by
  unfold lenU len
  cases c.last_will <;> cases c.login <;>
    simp only [one_lit, two_lit, four_lit, lit_add, LastWill.lenU_eq, Login.lenU_eq]
theorem ConnAck.lenU_eq (c : ConnAck) : c.lenU bld W = lit c.len := by
  simp only [lenU, len, one_lit, lit_add]
theorem Publish.lenU_eq (c : Publish) : c.lenU bld W = lit c.len := by
  simp only [lenU, len, two_lit, lit_add, ite_lit]
theorem SubscribeFilter.lenU_eq (f : SubscribeFilter) : f.lenU bld W = lit f.len := by
  simp only [lenU, len, one_lit, two_lit, lit_add]
theorem Subscribe.lenU_eq (s : Subscribe) : s.lenU bld W = lit s.len := by
  unfold lenU len
  rw [zero_lit, foldl_lit _ (fun s t => s + t.len) (fun n x => by rw [SubscribeFilter.lenU_eq, lit_add]), two_lit, lit_add]
theorem SubAck.lenU_eq (s : SubAck) : s.lenU bld W = lit s.len := by
  simp only [lenU, len, two_lit, lit_add]
theorem Unsubscribe.lenU_eq (u : Unsubscribe) :
    u.lenU bld W = lit (2 + u.topics.foldl (fun s topic => s + strLen topic + 2) 0) := by
  unfold lenU
  rw [zero_lit, foldl_lit _ (fun s topic => s + strLen topic + 2) (fun n x => by rw [two_lit, lit_add, lit_add]), two_lit, lit_add]
end V4

namespace V5
variable (bld : Build) (W : Nat)
theorem addUserPropsLenU_eq (l : List (String × String)) (n : Nat) :
    addUserPropsLenU bld W l (lit n) = lit (addUserPropsLen l n) := by
  unfold addUserPropsLenU addUserPropsLen
  exact foldl_lit _ _ (fun n x => by simp only [one_lit, two_lit, lit_add]) l n
theorem addSomeU_eq {α : Type} (o : Option α) (f : α → Usz bld W) (g : α → Nat) (h : ∀ x, f x = lit (g x)) (n : Nat) :
    addSomeU bld W o f (lit n) = lit (addSome o g n) := by
  cases o <;> simp only [addSomeU, addSome, h, lit_add]
theorem propSectionLenU_eq (n : Nat) (h : Exact bld W n) : propSectionLenU bld W (lit n) = lit (propSectionLen n) :=
  len_len_add n h
theorem lenPropsOrOneU_eq {π : Type} (f : π → Usz bld W) (g : π → Nat) (h : ∀ x, f x = lit (g x)) (o : Option π) (n : Nat)
    (hx : Exact bld W (lenPropsOrOne g o n)) :
    lenPropsOrOneU bld W f o (lit n) = lit (lenPropsOrOne g o n) := by
  cases o with
  | none => simp only [lenPropsOrOneU, lenPropsOrOne, one_lit, lit_add]
  | some x =>
    have := hx.le (m := g x) (by simp only [lenPropsOrOne, propSectionLen]; omega)
    simp only [lenPropsOrOneU, lenPropsOrOne, h, propSectionLenU_eq _ _ _ this, lit_add]
theorem str_lit {α : Type} (f : α → Nat) (x : α) : (1 + 2 + lit (f x) : Usz bld W) = lit (1 + 2 + f x) := by
  simp only [one_lit, two_lit, lit_add]
theorem id_lit (x : Nat) : (1 + lit (Mqtt.len_len x) : Usz bld W) = lit (1 + Mqtt.len_len x) := by
  simp only [one_lit, lit_add]
theorem str_lit' {α : Type} (f : α → Nat) (x : α) : (lit (1 + 2) + lit (f x) : Usz bld W) = lit (1 + 2 + f x) := lit_add _ _

/-- evaluate a checked length -/
macro "lens" : tactic => `(tactic| simp only [zero_lit, one_lit, two_lit, four_lit, lit_add, ite_lit, addUserPropsLenU_eq,
  addSomeU_eq _ _ _ _ _ (fun _ => rfl)])

theorem ReasonProps.lenU_eq (p : ReasonProps) : p.lenU bld W = lit p.len := by
  unfold lenU len; lens
theorem WillProperties.lenU_eq (p : WillProperties) : p.lenU bld W = lit p.len := by
  unfold lenU len; lens
theorem LastWill.lenU_eq (w : LastWill) (hx : Exact bld W w.len) : w.lenU bld W = lit w.len := by
  have h := hx.le (m := lenPropsOrOne WillProperties.len w.properties 0) (by unfold len; simp only; omega)
  unfold lenU len
  simp only [zero_lit, two_lit, lit_add, lenPropsOrOneU_eq bld W _ _ (WillProperties.lenU_eq bld W) _ _ h]
theorem Login.lenU_eq (l : Login) : l.lenU bld W = lit l.len := by
  unfold lenU len; lens
theorem ConnectProperties.lenU_eq (p : ConnectProperties) : p.lenU bld W = lit p.len := by
  unfold lenU len; lens
theorem Connect.lenU_eq (c : Connect) (hx : Exact bld W c.len) : c.lenU bld W = lit c.len := by
  have h1 := hx.le (m := lenPropsOrOne ConnectProperties.len c.properties (2 + 4 + 1 + 1 + 2)) (by
    unfold len; cases c.last_will <;> cases c.login <;> simp only <;> omega)
  have h2 : ∀ w, c.last_will = some w → Exact bld W w.len := fun w hw => hx.le (by
    unfold len; rw [hw]; cases c.login <;> simp only <;> omega)
  unfold lenU len
  simp only [one_lit, two_lit, four_lit, lit_add, lenPropsOrOneU_eq bld W _ _ (ConnectProperties.lenU_eq bld W) _ _ h1]
  cases hw : c.last_will with
  | none => cases c.login <;> simp only [lit_add, Login.lenU_eq]
  | some w => cases c.login <;> simp only [lit_add, LastWill.lenU_eq bld W w (h2 w hw), Login.lenU_eq]
theorem ConnAckProperties.lenU_eq (p : ConnAckProperties) : p.lenU bld W = lit p.len := by
  unfold lenU len; lens
theorem ConnAck.lenU_eq (c : ConnAck) (hx : Exact bld W c.len) : c.lenU bld W = lit c.len := by
  unfold lenU
  unfold len at hx ⊢
  cases hc : c.properties with
  | none => simp only [one_lit, lit_add]
  | some p =>
    rw [hc] at hx
    have h := hx.le (m := p.len) (by simp only [propSectionLen]; omega)
    simp only [one_lit, lit_add, ConnAckProperties.lenU_eq, propSectionLenU_eq _ _ _ h]
theorem PublishProperties.lenU_eq (p : PublishProperties) : p.lenU bld W = lit p.len := by
  unfold lenU len
  simp only [zero_lit, one_lit, two_lit, four_lit, lit_add, ite_lit, addUserPropsLenU_eq, addSomeU_eq _ _ _ _ _ (fun _ => rfl),
    foldl_lit (bld := bld) (W := W) (fun l id => l + lit (1 + Mqtt.len_len id)) (fun l id => l + (1 + Mqtt.len_len id)) (fun _ _ => lit_add _ _)]
theorem Publish.lenU_eq (p : Publish) (hx : Exact bld W p.len) : p.lenU bld W = lit p.len := by
  have h := hx.le (m := lenPropsOrOne PublishProperties.len p.properties
    (if p.qos ≠ .AtMostOnce ∧ p.pkid ≠ 0 then 2 + strLen p.topic + 2 else 2 + strLen p.topic)) (by
      unfold len; simp only; omega)
  unfold lenU len
  simp only [two_lit, lit_add, ite_lit]
  rw [lenPropsOrOneU_eq bld W _ _ (PublishProperties.lenU_eq bld W) _ _ h, lit_add]
theorem Ack.lenU_eq {R : Type} [DecidableEq R] (success : R) (a : Ack R) (hx : Exact bld W (a.len success)) :
    a.lenU bld W success = lit (a.len success) := by
  unfold lenU
  unfold len at hx ⊢
  by_cases h0 : a.reason = success ∧ a.properties = none
  · simp only [if_pos h0]; rfl
  · simp only [if_neg h0] at hx ⊢
    cases hc : a.properties with
    | none => simp only [one_lit, two_lit, lit_add]
    | some p =>
      rw [hc] at hx
      have h := hx.le (m := p.len) (by simp only [propSectionLen]; omega)
      simp only [one_lit, two_lit, lit_add, ReasonProps.lenU_eq, propSectionLenU_eq _ _ _ h]
theorem SubscribeFilter.lenU_eq (f : SubscribeFilter) : f.lenU bld W = lit f.len := by
  unfold lenU len; lens
theorem SubscribeProperties.lenU_eq (p : SubscribeProperties) : p.lenU bld W = lit p.len := by
  unfold lenU len; lens
theorem Subscribe.lenU_eq (s : Subscribe) (hx : Exact bld W s.len) : s.lenU bld W = lit s.len := by
  unfold lenU
  rw [zero_lit, foldl_lit _ (fun s t => s + t.len) (fun n x => by rw [SubscribeFilter.lenU_eq, lit_add]), two_lit, lit_add]
  exact lenPropsOrOneU_eq bld W _ _ (SubscribeProperties.lenU_eq bld W) _ _ hx
theorem SubAck.lenU_eq (s : SubAck) (hx : Exact bld W s.len) : s.lenU bld W = lit s.len := by
  unfold lenU
  rw [two_lit, lit_add]
  exact lenPropsOrOneU_eq bld W _ _ (ReasonProps.lenU_eq bld W) _ _ hx
theorem UnsubscribeProperties.lenU_eq (p : UnsubscribeProperties) : p.lenU bld W = lit p.len := by
  unfold lenU len; lens
theorem Unsubscribe.lenU_eq (u : Unsubscribe) (hx : Exact bld W u.len) : u.lenU bld W = lit u.len := by
  unfold lenU
  rw [zero_lit, foldl_lit _ (fun s t => 2 + s + strLen t) (fun n x => by rw [two_lit, lit_add, lit_add]), two_lit, lit_add]
  exact lenPropsOrOneU_eq bld W _ _ (UnsubscribeProperties.lenU_eq bld W) _ _ hx
theorem UnsubAck.lenU_eq (s : UnsubAck) (hx : Exact bld W s.len) : s.lenU bld W = lit s.len := by
  unfold lenU
  rw [two_lit, lit_add]
  exact lenPropsOrOneU_eq bld W _ _ (ReasonProps.lenU_eq bld W) _ _ hx
theorem DisconnectProperties.lenU_eq (p : DisconnectProperties) : p.lenU bld W = lit p.len := by
  unfold lenU len; lens
theorem Disconnect.lenU_eq (d : Disconnect) (hx : Exact bld W d.len) : d.lenU bld W = lit d.len := by
  unfold lenU
  unfold len at hx ⊢
  by_cases h0 : d.reason_code = .NormalDisconnection ∧ d.properties = none
  · simp only [if_pos h0]; rfl
  · simp only [if_neg h0] at hx ⊢
    cases hc : d.properties with
    | none => simp only [zero_lit, one_lit, lit_add, ite_lit]
    | some p =>
      rw [hc] at hx
      have h := hx.le (m := p.len) (by simp only [propSectionLen]; omega)
      simp only [zero_lit, one_lit, lit_add, DisconnectProperties.lenU_eq, propSectionLenU_eq _ _ _ h]
end V5
end Mqtt
