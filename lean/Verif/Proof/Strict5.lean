import Verif.Spec.Strict5
import Verif.Proof.Relay
import Verif.Proof.V5SetsSub
/-! Lemmas for C127: the order of properties. -/
set_option linter.unusedSimpArgs false
namespace Mqtt.V5
open Mqtt Spec Spec.V5

theorem inOrder_mem {many is : List Nat} {ps : List Property} (h : InOrder many is ps) : ∀ p ∈ ps, p.id ∈ is := by
  induction h with
  | nil => simp
  | cons i is ps qs hi _ _ ih =>
    intro p hp
    rcases List.mem_append.1 hp with hp | hp
    · rw [hi p hp]; exact List.mem_cons_self
    · exact List.mem_cons_of_mem _ (ih p hp)

theorem inOrder_flat {many is : List Nat} {ps : List Property} (h : InOrder many is ps) (hn : is.Nodup) :
    ps = is.flatMap (sel ps) ∧ ∀ i ∈ is, i ∉ many → (sel ps i).length ≤ 1 := by
  induction h with
  | nil => simp
  | cons i is ps qs hi h1 h ih =>
    obtain ⟨hni, hn⟩ := List.nodup_cons.1 hn
    obtain ⟨ih1, ih2⟩ := ih hn
    have hm := inOrder_mem h
    have e1 : sel (ps ++ qs) i = ps := by
      simp only [sel, List.filter_append]
      rw [List.filter_eq_self.2 (fun p hp => by simp [hi p hp]),
        List.filter_eq_nil_iff.2 (fun p hp => ?_), List.append_nil]
      simp only [decide_eq_true_eq]; intro e; exact hni (e ▸ hm p hp)
    have e2 : ∀ j ∈ is, sel (ps ++ qs) j = sel qs j := by
      intro j hj
      simp only [sel, List.filter_append]
      rw [List.filter_eq_nil_iff.2 (fun p hp => ?_), List.nil_append]
      simp only [decide_eq_true_eq, hi p hp]; rintro rfl; exact hni hj
    refine ⟨?_, ?_⟩
    · rw [List.flatMap_cons, e1]
      congr 1
      conv => lhs; rw [ih1]
      rw [List.flatMap, List.flatMap, List.map_congr_left (fun j hj => e2 j hj)]
    · intro j hj hjm
      rcases List.mem_cons.1 hj with rfl | hj
      · rw [e1]; exact h1.resolve_left hjm
      · rw [e2 j hj]; exact ih2 j hj hjm

theorem inOrder_opt {α : Type} {many is : List Nat} {qs : List Property} (i : Nat) (f : α → Val) (o : Option α)
    (h : InOrder many is qs) : InOrder many (i :: is) (opt i f o ++ qs) := by
  refine .cons _ _ _ _ ?_ (.inr ?_) h
  · cases o <;> simp [opt]
  · cases o <;> simp [opt]
theorem inOrder_opt_last {α : Type} {many : List Nat} (i : Nat) (f : α → Val) (o : Option α) :
    InOrder many [i] (opt i f o) := by
  have := inOrder_opt (many := many) i f o .nil
  rwa [List.append_nil] at this
theorem inOrder_users {many is : List Nat} {qs : List Property} (l : List (String × String)) (h : InOrder many is qs)
    (hm : 38 ∈ many) : InOrder many (38 :: is) (users l ++ qs) :=
  .cons _ _ _ _ (fun p hp => by obtain ⟨_, _, rfl⟩ := List.mem_map.1 hp; rfl) (.inl hm) h
theorem inOrder_users_last {many : List Nat} (l : List (String × String)) (hm : 38 ∈ many) :
    InOrder many [38] (users l) := by
  have := inOrder_users (many := many) l .nil hm
  rwa [List.append_nil] at this

/-- a property set has an order, and a list in this order is the list of the set it becomes -/
structure Ordered {π : Type} (kind : Nat → Option Kind) (props : π → List Property) (dec : List Property → π) : Prop where
  ord : ∃ is many, WriterOrder kind is many ∧ ∀ x, InOrder many is (props x)
  back : ∀ is many ps, WriterOrder kind is many → (∀ p ∈ ps, kind p.id = some p.val.kind) → InOrder many is ps →
    props (dec ps) = ps

section
variable {kind : Nat → Option Kind} {ps : List Property}
theorem sK (h : ∀ p ∈ ps, kind p.id = some p.val.kind) {i : Nat} {K : Kind} (hi : kind i = some K)
    (p : Property) (hp : p ∈ ps) (e : p.id = i) : p.val.kind = K := by
  have := h p hp
  rw [e, hi] at this
  exact (Option.some.inj this).symm
variable (h : ∀ p ∈ ps, kind p.id = some p.val.kind) (i : Nat) (hs : (sel ps i).length ≤ 1)
include h
theorem s8 (hs : (sel ps i).length ≤ 1) (hi : kind i = some .u8) : opt i .u8 (lastOf i Val.u8? ps) = sel ps i :=
  opt_sel ps i _ _ (fun p hp e => kind_sel.1 (sK h hi p hp e)) hs
theorem s16 (hs : (sel ps i).length ≤ 1) (hi : kind i = some .u16) : opt i .u16 (lastOf i Val.u16? ps) = sel ps i :=
  opt_sel ps i _ _ (fun p hp e => kind_sel.2.1 (sK h hi p hp e)) hs
theorem s32 (hs : (sel ps i).length ≤ 1) (hi : kind i = some .u32) : opt i .u32 (lastOf i Val.u32? ps) = sel ps i :=
  opt_sel ps i _ _ (fun p hp e => kind_sel.2.2.1 (sK h hi p hp e)) hs
theorem sVbi (hs : (sel ps i).length ≤ 1) (hi : kind i = some .vbi) : opt i .vbi (lastOf i Val.vbi? ps) = sel ps i :=
  opt_sel ps i _ _ (fun p hp e => kind_sel.2.2.2.1 (sK h hi p hp e)) hs
theorem sStr (hs : (sel ps i).length ≤ 1) (hi : kind i = some .str) : opt i .str (lastOf i Val.str? ps) = sel ps i :=
  opt_sel ps i _ _ (fun p hp e => kind_sel.2.2.2.2.1 (sK h hi p hp e)) hs
theorem sBin (hs : (sel ps i).length ≤ 1) (hi : kind i = some .bin) : opt i .bin (lastOf i Val.bin? ps) = sel ps i :=
  opt_sel ps i _ _ (fun p hp e => kind_sel.2.2.2.2.2.1 (sK h hi p hp e)) hs
omit i in
theorem sUsers (hi : kind 38 = some .pair) : users (valuesOf 38 Val.pair? ps) = sel ps 38 :=
  many_sel ps 38 (fun x : String × String => .pair x.1 x.2) _ (fun p hp e => kind_sel.2.2.2.2.2.2 (sK h hi p hp e))
omit i in
theorem sIds (hi : kind 11 = some .vbi) : (valuesOf 11 Val.vbi? ps).map (fun n => (⟨11, .vbi n⟩ : Property)) = sel ps 11 :=
  many_sel ps 11 .vbi _ (fun p hp e => kind_sel.2.2.2.1 (sK h hi p hp e))
end

/-- another table -/
macro "other" : tactic => `(tactic| first
  | exact absurd (congrFun (by assumption) 17) (by decide) | exact absurd (congrFun (by assumption) 1) (by decide)
  | exact absurd (congrFun (by assumption) 33) (by decide) | exact absurd (congrFun (by assumption) 31) (by decide)
  | exact absurd (congrFun (by assumption) 11) (by decide) | exact absurd (congrFun (by assumption) 24) (by decide)
  | exact absurd (congrFun (by assumption) 36) (by decide))

/-- a list in the order of its table -/
macro "prop_back" k:ident p:ident d:ident : tactic => `(tactic| (
  intro is many ps hw hk ho
  generalize hkk : $k = K at hw
  cases hw <;> first | other | skip
  obtain ⟨e, hs⟩ := inOrder_flat ho (by decide)
  conv => rhs; rw [e]
  simp only [$p:ident, $d:ident, List.flatMap_cons, List.flatMap_nil, List.append_nil]
  repeat first
    | rw [s8 hk _ (hs _ (by decide) (by decide)) rfl]
    | rw [s16 hk _ (hs _ (by decide) (by decide)) rfl]
    | rw [s32 hk _ (hs _ (by decide) (by decide)) rfl]
    | rw [sVbi hk _ (hs _ (by decide) (by decide)) rfl]
    | rw [sStr hk _ (hs _ (by decide) (by decide)) rfl]
    | rw [sBin hk _ (hs _ (by decide) (by decide)) rfl]
    | rw [sUsers hk rfl]
    | rw [sIds hk rfl]
  try simp only [List.append_assoc]))

/-- the list of a set is in the order of its table -/
macro "prop_ord" p:ident : tactic => `(tactic| (
  intro x
  simp only [$p:ident, List.append_assoc]
  repeat first
    | exact inOrder_opt_last _ _ _
    | exact inOrder_users_last _ (by decide)
    | refine inOrder_opt _ _ _ ?_
    | refine inOrder_users _ ?_ (by decide)
    | refine .cons 11 _ _ _ (by simp) (.inl (by decide)) ?_))

theorem reason_ordered : Ordered reasonKind reasonProps reasonOf :=
  ⟨⟨_, _, .reason, by prop_ord reasonProps⟩, by prop_back reasonKind reasonProps reasonOf⟩
theorem will_ordered : Ordered willKind willProps willOf :=
  ⟨⟨_, _, .will, by prop_ord willProps⟩, by prop_back willKind willProps willOf⟩
theorem connect_ordered : Ordered connectKind connectProps connectOf :=
  ⟨⟨_, _, .connect, by prop_ord connectProps⟩, by prop_back connectKind connectProps connectOf⟩
theorem connack_ordered : Ordered connackKind connackProps connackOf :=
  ⟨⟨_, _, .connack, by prop_ord connackProps⟩, by prop_back connackKind connackProps connackOf⟩
theorem publish_ordered : Ordered publishKind publishProps publishOf :=
  ⟨⟨_, _, .publish, by prop_ord publishProps⟩, by prop_back publishKind publishProps publishOf⟩
theorem subscribe_ordered : Ordered subscribeKind subscribeProps subscribeOf :=
  ⟨⟨_, _, .subscribe, by prop_ord subscribeProps⟩, by prop_back subscribeKind subscribeProps subscribeOf⟩
theorem unsubscribe_ordered : Ordered unsubscribeKind unsubscribeProps unsubscribeOf :=
  ⟨⟨_, _, .unsubscribe, by prop_ord unsubscribeProps⟩, by prop_back unsubscribeKind unsubscribeProps unsubscribeOf⟩
theorem disconnect_ordered : Ordered disconnectKind disconnectProps disconnectOf :=
  ⟨⟨_, _, .disconnect, by prop_ord disconnectProps⟩, by prop_back disconnectKind disconnectProps disconnectOf⟩

end Mqtt.V5
