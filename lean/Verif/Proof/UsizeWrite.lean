import Verif.Model.UsizeWrite
import Verif.Proof.Usize
/-! The writers on `usize` are those on unbounded numbers as long as the lengths fit. -/
namespace Mqtt
namespace Usz
variable {bld : Build} {W : Nat}

theorem get_lit {n : Nat} (h : n < 2 ^ W) : (lit n : Usz bld W).get = pure n := by
  rw [lit_pos h]; rfl

theorem get_overflow {n : Nat} (h : ¬ n < 2 ^ W) : (lit n : Usz .debug W).get = M.panic := by
  rw [lit_neg h]; rfl

theorem get_ret {c n : Nat} (h : 1 + c + n < 2 ^ W) : (1 + lit c + lit n : Usz bld W).get = pure (1 + c + n) := by
  rw [one_lit, lit_add, lit_add, get_lit h]
end Usz
open Usz

theorem pure_bindM {α β : Type} (a : α) (f : α → M β) : (pure a >>= f) = f a := rfl

theorem bind_congrM {α β : Type} (m : M α) {f g : α → M β} (h : ∀ a, f a = g a) : (m >>= f) = (m >>= g) := by
  rw [show f = g from funext h]

theorem wrl_congr {β : Type} {n : Nat} {f g : Nat → M β} (h : n ≤ 268435455 → ∀ c, c ≤ 4 → f c = g c) :
    (write_remaining_length n >>= f) = (write_remaining_length n >>= g) := by
  funext s
  show M.bind _ _ s = M.bind _ _ s
  unfold M.bind
  by_cases hn : n ≤ Spec.maxRemaining
  · rw [write_remaining_length_run hn]
    simp only
    rw [h hn _ (vbi_length_le n)]
  · rw [write_remaining_length_too_long (by omega)]

theorem ifSome_congr {α : Type} {o : Option α} {f g : α → M Unit} (h : ∀ x, o = some x → f x = g x) :
    V5.ifSome o f = V5.ifSome o g := by
  cases o with
  | none => rfl
  | some x => exact h x rfl

theorem orFlags_congr {α : Type} {o : Option α} {f g : α → M UInt8} (h : ∀ x, o = some x → f x = g x) (b : UInt8) :
    orFlags o f b = orFlags o g b := by
  cases o with
  | none => rfl
  | some x => simp only [orFlags, h x rfl]

theorem writePropsOrZero_congr {α : Type} {o : Option α} {f g : α → M Unit} (h : ∀ x, o = some x → f x = g x) :
    V5.writePropsOrZero f o = V5.writePropsOrZero g o := by
  cases o with
  | none => rfl
  | some x => exact h x rfl

theorem small_word {W n c : Nat} (hW : 29 ≤ W) (hn : n ≤ 268435455) (hc : c ≤ 4) : 1 + c + n < 2 ^ W := by
  have : 2 ^ 29 ≤ 2 ^ W := Nat.pow_le_pow_right (by decide) hW
  omega

/-- the common shape: compute the length, write the first byte, the length, the rest -/
macro "plain" h:term "," hW:term : tactic => `(tactic| (
  simp only [get_lit $h, pure_bindM]
  refine bind_congrM _ fun _ => wrl_congr fun hl c hc => ?_
  simp only [get_ret (small_word $hW hl hc)]))

namespace V4
variable (bld : Build) (W : Nat)

theorem Connect.writeU_eq (c : Connect) (h : c.len < 2 ^ W) : c.writeU bld W = c.write := by
  unfold writeU write
  rw [Connect.lenU_eq]
  simp only [get_lit h, pure_bindM]
theorem ConnAck.writeU_eq (c : ConnAck) (hW : 29 ≤ W) (h : c.len < 2 ^ W) : c.writeU bld W = c.write := by
  unfold writeU write
  rw [ConnAck.lenU_eq]
  plain h, hW
theorem Publish.writeU_eq (c : Publish) (hW : 29 ≤ W) (h : c.len < 2 ^ W) : c.writeU bld W = c.write := by
  unfold writeU write
  rw [Publish.lenU_eq]
  plain h, hW
theorem PubAck.writeU_eq (c : PubAck) (hW : 29 ≤ W) (h : c.len < 2 ^ W) : c.writeU bld W = c.write := by
  unfold writeU write
  rw [show c.lenU bld W = lit c.len from rfl]
  plain h, hW
theorem PubRec.writeU_eq (c : PubRec) (hW : 29 ≤ W) (h : c.len < 2 ^ W) : c.writeU bld W = c.write := by
  unfold writeU write
  rw [show c.lenU bld W = lit c.len from rfl]
  plain h, hW
theorem PubRel.writeU_eq (c : PubRel) (hW : 29 ≤ W) (h : c.len < 2 ^ W) : c.writeU bld W = c.write := by
  unfold writeU write
  rw [show c.lenU bld W = lit c.len from rfl]
  plain h, hW
theorem PubComp.writeU_eq (c : PubComp) (hW : 29 ≤ W) (h : c.len < 2 ^ W) : c.writeU bld W = c.write := by
  unfold writeU write
  rw [show c.lenU bld W = lit c.len from rfl]
  plain h, hW
theorem Subscribe.writeU_eq (c : Subscribe) (hW : 29 ≤ W) (h : c.len < 2 ^ W) : c.writeU bld W = c.write := by
  unfold writeU write
  rw [Subscribe.lenU_eq]
  plain h, hW
theorem SubAck.writeU_eq (c : SubAck) (hW : 29 ≤ W) (h : c.len < 2 ^ W) : c.writeU bld W = c.write := by
  unfold writeU write
  rw [SubAck.lenU_eq]
  plain h, hW
theorem Unsubscribe.writeU_eq (c : Unsubscribe) (hW : 29 ≤ W)
    (h : 2 + c.topics.foldl (fun s topic => s + strLen topic + 2) 0 < 2 ^ W) : c.writeU bld W = c.write := by
  unfold writeU write
  rw [Unsubscribe.lenU_eq]
  plain h, hW
end V4

namespace V5
variable (bld : Build) (W : Nat)

theorem ReasonProps.writeU_eq (p : ReasonProps) (h : p.len < 2 ^ W) : p.writeU bld W = p.write := by
  unfold writeU write
  rw [ReasonProps.lenU_eq]
  simp only [get_lit h, pure_bindM]
theorem WillProperties.writeU_eq (p : WillProperties) (h : p.len < 2 ^ W) : p.writeU bld W = p.write := by
  unfold writeU write
  rw [WillProperties.lenU_eq]
  simp only [get_lit h, pure_bindM]
theorem ConnectProperties.writeU_eq (p : ConnectProperties) (h : p.len < 2 ^ W) : p.writeU bld W = p.write := by
  unfold writeU write
  rw [ConnectProperties.lenU_eq]
  simp only [get_lit h, pure_bindM]
theorem ConnAckProperties.writeU_eq (p : ConnAckProperties) (h : p.len < 2 ^ W) : p.writeU bld W = p.write := by
  unfold writeU write
  rw [ConnAckProperties.lenU_eq]
  simp only [get_lit h, pure_bindM]
theorem PublishProperties.writeU_eq (p : PublishProperties) (h : p.len < 2 ^ W) : p.writeU bld W = p.write := by
  unfold writeU write
  rw [PublishProperties.lenU_eq]
  simp only [get_lit h, pure_bindM]
theorem SubscribeProperties.writeU_eq (p : SubscribeProperties) (h : p.len < 2 ^ W) : p.writeU bld W = p.write := by
  unfold writeU write
  rw [SubscribeProperties.lenU_eq]
  simp only [get_lit h, pure_bindM]
theorem UnsubscribeProperties.writeU_eq (p : UnsubscribeProperties) (h : p.len < 2 ^ W) : p.writeU bld W = p.write := by
  unfold writeU write
  rw [UnsubscribeProperties.lenU_eq]
  simp only [get_lit h, pure_bindM]
theorem DisconnectProperties.writeU_eq (p : DisconnectProperties) (h : p.len < 2 ^ W) : p.writeU bld W = p.write := by
  unfold writeU write
  rw [DisconnectProperties.lenU_eq]
  simp only [get_lit h, pure_bindM]

theorem lenProps_le {π : Type} (len : π → Nat) (o : Option π) (n : Nat) (p : π) (h : o = some p) :
    len p ≤ lenPropsOrOne len o n := by
  subst h; simp only [lenPropsOrOne, propSectionLen]; omega

theorem LastWill.writeU_eq (w : LastWill) (h : w.len < 2 ^ W) : w.writeU bld W = w.write := by
  unfold writeU write
  rw [writePropsOrZero_congr fun p hp => WillProperties.writeU_eq bld W p (Nat.lt_of_le_of_lt ?_ h)]
  have := lenProps_le WillProperties.len w.properties 0 p hp
  unfold len; simp only; omega
theorem Connect.writeU_eq (c : Connect) (h : c.len < 2 ^ W) : c.writeU bld W = c.write := by
  have h1 : ∀ p, c.properties = some p → p.len ≤ c.len := fun p hp => by
    have := lenProps_le ConnectProperties.len c.properties (2 + 4 + 1 + 1 + 2) p hp
    unfold len; cases c.last_will <;> cases c.login <;> simp only <;> omega
  have h2 : ∀ w, c.last_will = some w → w.len ≤ c.len := fun w hw => by
    unfold len; rw [hw]; cases c.login <;> simp only <;> omega
  unfold writeU write
  rw [Connect.lenU_eq bld W c (.inr h),
    writePropsOrZero_congr fun p hp => ConnectProperties.writeU_eq bld W p (Nat.lt_of_le_of_lt (h1 p hp) h)]
  simp only [get_lit h, pure_bindM,
    orFlags_congr fun w hw => LastWill.writeU_eq bld W w (Nat.lt_of_le_of_lt (h2 w hw) h)]
theorem ConnAck.writeU_eq (c : ConnAck) (hW : 29 ≤ W) (h : c.len < 2 ^ W) : c.writeU bld W = c.write := by
  have h1 : ∀ p, c.properties = some p → p.len ≤ c.len := fun p hp => by
    unfold len; rw [hp]; simp only [propSectionLen]; omega
  unfold writeU write
  rw [ConnAck.lenU_eq bld W c (.inr h),
    ifSome_congr fun p hp => ConnAckProperties.writeU_eq bld W p (Nat.lt_of_le_of_lt (h1 p hp) h)]
  plain h, hW
theorem Publish.writeU_eq (c : Publish) (hW : 29 ≤ W) (h : c.len < 2 ^ W) : c.writeU bld W = c.write := by
  have h1 : ∀ p, c.properties = some p → p.len ≤ c.len := fun p hp => by
    unfold len
    have := lenProps_le PublishProperties.len c.properties
      (if c.qos ≠ .AtMostOnce ∧ c.pkid ≠ 0 then 2 + strLen c.topic + 2 else 2 + strLen c.topic) p hp
    simp only; omega
  unfold writeU write
  rw [Publish.lenU_eq bld W c (.inr h),
    writePropsOrZero_congr fun p hp => PublishProperties.writeU_eq bld W p (Nat.lt_of_le_of_lt (h1 p hp) h)]
  plain h, hW
theorem Ack.writeU_eq {R : Type} [DecidableEq R] (b1 : UInt8) (success : R) (f : R → UInt8) (c : Ack R) (hW : 29 ≤ W)
    (h : c.len success < 2 ^ W) : c.writeU bld W b1 success f = c.write b1 success f := by
  have h1 : ∀ p, c.properties = some p → p.len ≤ c.len success := fun p hp => by
    unfold len; rw [hp]; simp only [reduceCtorEq, and_false, if_false, propSectionLen]; omega
  unfold writeU write
  rw [Ack.lenU_eq bld W success c (.inr h),
    ifSome_congr fun p hp => ReasonProps.writeU_eq bld W p (Nat.lt_of_le_of_lt (h1 p hp) h)]
  plain h, hW
theorem Subscribe.writeU_eq (c : Subscribe) (hW : 29 ≤ W) (h : c.len < 2 ^ W) : c.writeU bld W = c.write := by
  have h1 : ∀ p, c.properties = some p → p.len ≤ c.len := fun p hp => lenProps_le _ _ _ p hp
  unfold writeU write
  rw [Subscribe.lenU_eq bld W c (.inr h),
    writePropsOrZero_congr fun p hp => SubscribeProperties.writeU_eq bld W p (Nat.lt_of_le_of_lt (h1 p hp) h)]
  plain h, hW
theorem SubAck.writeU_eq (c : SubAck) (hW : 29 ≤ W) (h : c.len < 2 ^ W) : c.writeU bld W = c.write := by
  have h1 : ∀ p, c.properties = some p → p.len ≤ c.len := fun p hp => lenProps_le _ _ _ p hp
  unfold writeU write
  rw [SubAckProperties.write_eq, SubAck.lenU_eq bld W c (.inr h),
    writePropsOrZero_congr fun p hp => ReasonProps.writeU_eq bld W p (Nat.lt_of_le_of_lt (h1 p hp) h)]
  plain h, hW
theorem Unsubscribe.writeU_eq (c : Unsubscribe) (hW : 29 ≤ W) (h : c.len < 2 ^ W) : c.writeU bld W = c.write := by
  have h1 : ∀ p, c.properties = some p → p.len ≤ c.len := fun p hp => lenProps_le _ _ _ p hp
  unfold writeU write
  rw [Unsubscribe.lenU_eq bld W c (.inr h),
    writePropsOrZero_congr fun p hp => UnsubscribeProperties.writeU_eq bld W p (Nat.lt_of_le_of_lt (h1 p hp) h)]
  plain h, hW
theorem UnsubAck.writeU_eq (c : UnsubAck) (hW : 29 ≤ W) (h : c.len < 2 ^ W) : c.writeU bld W = c.write := by
  have h1 : ∀ p, c.properties = some p → p.len ≤ c.len := fun p hp => lenProps_le _ _ _ p hp
  unfold writeU write
  rw [UnsubAckProperties.write_eq, UnsubAck.lenU_eq bld W c (.inr h),
    writePropsOrZero_congr fun p hp => ReasonProps.writeU_eq bld W p (Nat.lt_of_le_of_lt (h1 p hp) h)]
  plain h, hW
theorem Disconnect.writeU_eq (c : Disconnect) (hW : 29 ≤ W) (h : c.len < 2 ^ W) : c.writeU bld W = c.write := by
  have h1 : ∀ p, c.properties = some p → p.len ≤ c.len := fun p hp => by
    unfold len; rw [hp]; simp only [reduceCtorEq, and_false, if_false, propSectionLen]; omega
  unfold writeU write
  rw [Disconnect.lenU_eq bld W c (.inr h),
    ifSome_congr fun p hp => DisconnectProperties.writeU_eq bld W p (Nat.lt_of_le_of_lt (h1 p hp) h)]
  simp only [get_lit h, pure_bindM]
  refine bind_congrM _ fun _ => ?_
  split
  · rfl
  · refine wrl_congr fun hl c hc => ?_
    simp only [get_ret (small_word hW hl hc)]
end V5
end Mqtt
