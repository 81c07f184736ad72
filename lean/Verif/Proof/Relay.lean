import Verif.Props.StdSend
import Verif.Spec.Relay
/-! Lemmas for C82: property sets keep every property. -/
set_option linter.unusedSimpArgs false
namespace Mqtt.V5
open Mqtt Spec Spec.V5 Spec.Std5

/-- the properties with identifier `i`, in order -/
abbrev sel (ps : List Property) (i : Nat) : List Property := ps.filter (·.id = i)

theorem sel_sel (ps : List Property) (i j : Nat) : sel (sel ps i) j = if i = j then sel ps j else [] := by
  split
  · subst_vars; simp [sel, List.filter_filter]
  · rename_i h
    simp only [sel, List.filter_filter, List.filter_eq_nil_iff]
    intro q _; simp; intro e e'; exact absurd (e'.symm.trans e) h

theorem sel_flat (ps : List Property) (js : List Nat) (hn : js.Nodup) (i : Nat) :
    sel (js.flatMap (sel ps)) i = if i ∈ js then sel ps i else [] := by
  induction js with
  | nil => simp [sel]
  | cons j js ih =>
    obtain ⟨h1, h2⟩ := List.nodup_cons.1 hn
    rw [List.flatMap_cons]
    show List.filter _ _ = _
    rw [List.filter_append]
    have e1 := sel_sel ps j i
    have e2 := ih h2
    simp only [sel] at e1 e2 ⊢
    rw [e1, e2]
    by_cases hj : j = i
    · subst hj; simp [h1]
    · simp [hj, Ne.symm hj]

theorem opt_sel {α : Type} (ps : List Property) (i : Nat) (f : α → Val) (g : Val → Option α)
    (hk : ∀ p ∈ ps, p.id = i → ∃ v, p.val = f v ∧ g (f v) = some v)
    (hn : (sel ps i).length ≤ 1) : opt i f (lastOf i g ps) = sel ps i := by
  have hv : valuesOf i g ps = (sel ps i).filterMap (fun p => g p.val) := by
    simp only [valuesOf, sel, List.filterMap_filter]
    congr 1; funext p; by_cases h : p.id = i <;> simp [h]
  rw [lastOf, hv]
  match hs : sel ps i, hn with
  | [], _ => simp [opt]
  | [q], _ =>
    have hq : q ∈ sel ps i := by rw [hs]; simp
    obtain ⟨hq1, hq0⟩ := List.mem_filter.1 hq
    have hq2 : q.id = i := by simpa using hq0
    clear hq0
    obtain ⟨v, e1, e2⟩ := hk q hq1 hq2
    obtain ⟨qi, qv⟩ := q
    simp only at e1 hq2
    subst e1 hq2
    simp [e2, opt]

theorem many_sel {α : Type} (ps : List Property) (i : Nat) (f : α → Val) (g : Val → Option α)
    (hk : ∀ p ∈ ps, p.id = i → ∃ v, p.val = f v ∧ g (f v) = some v) :
    (valuesOf i g ps).map (fun v => (⟨i, f v⟩ : Property)) = sel ps i := by
  induction ps with
  | nil => rfl
  | cons q ps ih =>
    have ih := ih fun p hp => hk p (List.mem_cons_of_mem _ hp)
    by_cases h : q.id = i
    · obtain ⟨v, e1, e2⟩ := hk q (by simp) h
      obtain ⟨qi, qv⟩ := q
      simp only at e1 h
      subst e1 h
      simp only [valuesOf, List.filterMap_cons, e2, if_true, List.map_cons, sel] at ih ⊢
      rw [ih]; simp
    · simp only [valuesOf, List.filterMap_cons, h, if_false, sel] at ih ⊢
      rw [ih]; simp [h]

/-- a value of this data type is what its selector returns -/
theorem kind_sel {v : Val} :
    (v.kind = .u8 → ∃ x, v = .u8 x ∧ Val.u8? (.u8 x) = some x) ∧ (v.kind = .u16 → ∃ x, v = .u16 x ∧ Val.u16? (.u16 x) = some x) ∧
    (v.kind = .u32 → ∃ x, v = .u32 x ∧ Val.u32? (.u32 x) = some x) ∧ (v.kind = .vbi → ∃ x, v = .vbi x ∧ Val.vbi? (.vbi x) = some x) ∧
    (v.kind = .str → ∃ x, v = .str x ∧ Val.str? (.str x) = some x) ∧ (v.kind = .bin → ∃ x, v = .bin x ∧ Val.bin? (.bin x) = some x) ∧
    (v.kind = .pair → ∃ x : String × String, v = .pair x.1 x.2 ∧ Val.pair? (.pair x.1 x.2) = some x) := by
  cases v <;> simp [Val.kind, Val.u8?, Val.u16?, Val.u32?, Val.vbi?, Val.str?, Val.bin?, Val.pair?]

section
variable {pl : Place} {ps : List Property} {kind : Nat → Option Kind}

theorem Ok_kind (hk : ∀ i, kindAt pl i = kind i) (h : PropsOk pl ps) {i : Nat} {K : Kind} (hi : kind i = some K)
    (p : Property) (hp : p ∈ ps) (e : p.id = i) : p.val.kind = K := by
  have := (h.1 p hp).1
  rw [hk, e, hi] at this
  exact (Option.some.inj this).symm

theorem Ok_one (h : PropsOk pl ps) (i : Nat) (hm : ¬ Multi pl i) : (sel ps i).length ≤ 1 := h.2 i hm

theorem opt8 (hk : ∀ i, kindAt pl i = kind i) (h : PropsOk pl ps) (i : Nat) (hm : ¬ Multi pl i) (hi : kind i = some .u8) :
    opt i .u8 (lastOf i Val.u8? ps) = sel ps i :=
  opt_sel ps i _ _ (fun p hp e => kind_sel.1 (Ok_kind hk h hi p hp e)) (Ok_one h i hm)
theorem opt16 (hk : ∀ i, kindAt pl i = kind i) (h : PropsOk pl ps) (i : Nat) (hm : ¬ Multi pl i) (hi : kind i = some .u16) :
    opt i .u16 (lastOf i Val.u16? ps) = sel ps i :=
  opt_sel ps i _ _ (fun p hp e => kind_sel.2.1 (Ok_kind hk h hi p hp e)) (Ok_one h i hm)
theorem opt32 (hk : ∀ i, kindAt pl i = kind i) (h : PropsOk pl ps) (i : Nat) (hm : ¬ Multi pl i) (hi : kind i = some .u32) :
    opt i .u32 (lastOf i Val.u32? ps) = sel ps i :=
  opt_sel ps i _ _ (fun p hp e => kind_sel.2.2.1 (Ok_kind hk h hi p hp e)) (Ok_one h i hm)
theorem optVbi (hk : ∀ i, kindAt pl i = kind i) (h : PropsOk pl ps) (i : Nat) (hm : ¬ Multi pl i) (hi : kind i = some .vbi) :
    opt i .vbi (lastOf i Val.vbi? ps) = sel ps i :=
  opt_sel ps i _ _ (fun p hp e => kind_sel.2.2.2.1 (Ok_kind hk h hi p hp e)) (Ok_one h i hm)
theorem optStr (hk : ∀ i, kindAt pl i = kind i) (h : PropsOk pl ps) (i : Nat) (hm : ¬ Multi pl i) (hi : kind i = some .str) :
    opt i .str (lastOf i Val.str? ps) = sel ps i :=
  opt_sel ps i _ _ (fun p hp e => kind_sel.2.2.2.2.1 (Ok_kind hk h hi p hp e)) (Ok_one h i hm)
theorem optBin (hk : ∀ i, kindAt pl i = kind i) (h : PropsOk pl ps) (i : Nat) (hm : ¬ Multi pl i) (hi : kind i = some .bin) :
    opt i .bin (lastOf i Val.bin? ps) = sel ps i :=
  opt_sel ps i _ _ (fun p hp e => kind_sel.2.2.2.2.2.1 (Ok_kind hk h hi p hp e)) (Ok_one h i hm)
theorem usersSel (hk : ∀ i, kindAt pl i = kind i) (h : PropsOk pl ps) (hi : kind 38 = some .pair) :
    users (valuesOf 38 Val.pair? ps) = sel ps 38 :=
  many_sel ps 38 (fun x : String × String => .pair x.1 x.2) _
    (fun p hp e => kind_sel.2.2.2.2.2.2 (Ok_kind hk h hi p hp e))
theorem idsSel (hk : ∀ i, kindAt pl i = kind i) (h : PropsOk pl ps) (hi : kind 11 = some .vbi) :
    (valuesOf 11 Val.vbi? ps).map (fun n => (⟨11, .vbi n⟩ : Property)) = sel ps 11 :=
  many_sel ps 11 .vbi _ (fun p hp e => kind_sel.2.2.2.1 (Ok_kind hk h hi p hp e))

/-- a list that collects the allowed identifiers one after the other has the same properties -/
theorem same_flat (hk : ∀ i, kindAt pl i = kind i) (h : PropsOk pl ps) (js : List Nat) (hn : js.Nodup)
    (hj : ∀ i, kind i ≠ none → i ∈ js) : SameById ps (js.flatMap (sel ps)) := by
  intro i
  have := sel_flat ps js hn i
  simp only [sel] at this ⊢
  rw [this]
  split
  · rfl
  · rename_i hi
    rw [List.filter_eq_nil_iff]
    intro q hq
    simp only [decide_eq_true_eq]
    intro e
    apply hi
    apply hj
    have := (h.1 q hq).1
    rw [hk, e] at this
    rw [this]; simp
end

theorem kind_lt43 {kind : Nat → Option Kind} (h : ∀ i, 43 ≤ i → kind i = none) (js : List Nat)
    (hj : ∀ i < 43, kind i ≠ none → i ∈ js) (i : Nat) (hi : kind i ≠ none) : i ∈ js := by
  by_cases hl : i < 43
  · exact hj i hl hi
  · exact absurd (h i (by omega)) hi

/-- the tables end before 43 -/
macro "tbl" : tactic => `(tactic| exact kind_lt43 (by
      intro i hi
      simp only [connectKind, willKind, connackKind, publishKind, reasonKind, subscribeKind, unsubscribeKind, disconnectKind]
      split <;> first | rfl | omega) _ (by decide +kernel))

theorem reason_same {pl : Place} {ps : List Property} (hk : ∀ i, kindAt pl i = reasonKind i) (hp : pl ≠ .publish)
    (h : PropsOk pl ps) : SameById ps (reasonProps (reasonOf ps)) := by
  have e : reasonProps (reasonOf ps) = [31, 38].flatMap (sel ps) := by
    simp only [reasonProps, reasonOf, List.flatMap_cons, List.flatMap_nil, List.append_nil]
    rw [optStr hk h 31 (by simp [Multi]) rfl, usersSel hk h rfl]
  rw [e]
  exact same_flat hk h _ (by decide) (by tbl)

theorem will_same {ps : List Property} (h : PropsOk .will ps) : SameById ps (willProps (willOf ps)) := by
  have hk : ∀ i, kindAt .will i = willKind i := fun i => (Props.C79_v5_property_tables i).2.1
  have e : willProps (willOf ps) = [24, 1, 2, 3, 8, 9, 38].flatMap (sel ps) := by
    simp only [willProps, willOf, List.flatMap_cons, List.flatMap_nil, List.append_nil]
    rw [opt32 hk h 24 (by simp [Multi]) rfl, opt8 hk h 1 (by simp [Multi]) rfl, opt32 hk h 2 (by simp [Multi]) rfl,
      optStr hk h 3 (by simp [Multi]) rfl, optStr hk h 8 (by simp [Multi]) rfl, optBin hk h 9 (by simp [Multi]) rfl,
      usersSel hk h rfl]
    simp only [List.append_assoc]
  rw [e]
  exact same_flat hk h _ (by decide) (by tbl)

theorem connect_same {ps : List Property} (h : PropsOk .connect ps) : SameById ps (connectProps (connectOf ps)) := by
  have hk : ∀ i, kindAt .connect i = connectKind i := fun i => (Props.C79_v5_property_tables i).1
  have e : connectProps (connectOf ps) = [17, 33, 39, 34, 25, 23, 38, 21, 22].flatMap (sel ps) := by
    simp only [connectProps, connectOf, List.flatMap_cons, List.flatMap_nil, List.append_nil]
    rw [opt32 hk h 17 (by simp [Multi]) rfl, opt16 hk h 33 (by simp [Multi]) rfl, opt32 hk h 39 (by simp [Multi]) rfl,
      opt16 hk h 34 (by simp [Multi]) rfl, opt8 hk h 25 (by simp [Multi]) rfl, opt8 hk h 23 (by simp [Multi]) rfl,
      usersSel hk h rfl, optStr hk h 21 (by simp [Multi]) rfl, optBin hk h 22 (by simp [Multi]) rfl]
    simp only [List.append_assoc]
  rw [e]
  exact same_flat hk h _ (by decide) (by tbl)

theorem connack_same {ps : List Property} (h : PropsOk .connack ps) : SameById ps (connackProps (connackOf ps)) := by
  have hk : ∀ i, kindAt .connack i = connackKind i := fun i => (Props.C79_v5_property_tables i).2.2.1
  have e : connackProps (connackOf ps)
      = [17, 33, 36, 37, 39, 18, 34, 31, 38, 40, 41, 42, 19, 26, 28, 21, 22].flatMap (sel ps) := by
    simp only [connackProps, connackOf, List.flatMap_cons, List.flatMap_nil, List.append_nil]
    rw [opt32 hk h 17 (by simp [Multi]) rfl, opt16 hk h 33 (by simp [Multi]) rfl, opt8 hk h 36 (by simp [Multi]) rfl,
      opt8 hk h 37 (by simp [Multi]) rfl, opt32 hk h 39 (by simp [Multi]) rfl, optStr hk h 18 (by simp [Multi]) rfl,
      opt16 hk h 34 (by simp [Multi]) rfl, optStr hk h 31 (by simp [Multi]) rfl, usersSel hk h rfl,
      opt8 hk h 40 (by simp [Multi]) rfl, opt8 hk h 41 (by simp [Multi]) rfl, opt8 hk h 42 (by simp [Multi]) rfl,
      opt16 hk h 19 (by simp [Multi]) rfl, optStr hk h 26 (by simp [Multi]) rfl, optStr hk h 28 (by simp [Multi]) rfl,
      optStr hk h 21 (by simp [Multi]) rfl, optBin hk h 22 (by simp [Multi]) rfl]
    simp only [List.append_assoc]
  rw [e]
  exact same_flat hk h _ (by decide) (by tbl)

theorem publish_same {ps : List Property} (h : PropsOk .publish ps) : SameById ps (publishProps (publishOf ps)) := by
  have hk : ∀ i, kindAt .publish i = publishKind i := fun i => (Props.C79_v5_property_tables i).2.2.2.1
  have e : publishProps (publishOf ps) = [1, 2, 35, 8, 9, 38, 11, 3].flatMap (sel ps) := by
    simp only [publishProps, publishOf, List.flatMap_cons, List.flatMap_nil, List.append_nil]
    rw [opt8 hk h 1 (by simp [Multi]) rfl, opt32 hk h 2 (by simp [Multi]) rfl, opt16 hk h 35 (by simp [Multi]) rfl,
      optStr hk h 8 (by simp [Multi]) rfl, optBin hk h 9 (by simp [Multi]) rfl, usersSel hk h rfl, idsSel hk h rfl,
      optStr hk h 3 (by simp [Multi]) rfl]
    simp only [List.append_assoc]
  rw [e]
  exact same_flat hk h _ (by decide) (by tbl)

theorem subscribe_same {ps : List Property} (h : PropsOk .subscribe ps) : SameById ps (subscribeProps (subscribeOf ps)) := by
  have hk : ∀ i, kindAt .subscribe i = subscribeKind i := fun i => (Props.C79_v5_property_tables i).2.2.2.2.2.2.2.2.1
  have e : subscribeProps (subscribeOf ps) = [11, 38].flatMap (sel ps) := by
    simp only [subscribeProps, subscribeOf, List.flatMap_cons, List.flatMap_nil, List.append_nil]
    rw [optVbi hk h 11 (by simp [Multi]) rfl, usersSel hk h rfl]
  rw [e]
  exact same_flat hk h _ (by decide) (by tbl)

theorem unsubscribe_same {ps : List Property} (h : PropsOk .unsubscribe ps) :
    SameById ps (unsubscribeProps (unsubscribeOf ps)) := by
  have hk : ∀ i, kindAt .unsubscribe i = unsubscribeKind i :=
    fun i => (Props.C79_v5_property_tables i).2.2.2.2.2.2.2.2.2.2.1
  have e : unsubscribeProps (unsubscribeOf ps) = [38].flatMap (sel ps) := by
    simp only [unsubscribeProps, unsubscribeOf, List.flatMap_cons, List.flatMap_nil, List.append_nil]
    rw [usersSel hk h rfl]
  rw [e]
  exact same_flat hk h _ (by decide) (by tbl)

theorem disconnect_same {ps : List Property} (h : PropsOk .disconnect ps) :
    SameById ps (disconnectProps (disconnectOf ps)) := by
  have hk : ∀ i, kindAt .disconnect i = disconnectKind i :=
    fun i => (Props.C79_v5_property_tables i).2.2.2.2.2.2.2.2.2.2.2.2
  have e : disconnectProps (disconnectOf ps) = [17, 31, 38, 28].flatMap (sel ps) := by
    simp only [disconnectProps, disconnectOf, List.flatMap_cons, List.flatMap_nil, List.append_nil]
    rw [opt32 hk h 17 (by simp [Multi]) rfl, optStr hk h 31 (by simp [Multi]) rfl, usersSel hk h rfl,
      optStr hk h 28 (by simp [Multi]) rfl]
    simp only [List.append_assoc]
  rw [e]
  exact same_flat hk h _ (by decide) (by tbl)

/-- the properties of the set a property list becomes -/
theorem same_list {π : Type} {of : List Property → π} {toList : π → List Property} {ps : List Property}
    (h : SameById ps (toList (of ps))) : SameById ps (Spec.Std5.list toList (Spec.Std5.props of ps)) := by
  unfold Spec.Std5.props
  split
  · subst_vars; intro i; rfl
  · exact h

/-- the same properties take the same space -/
theorem same_len {a b : List Property} (h : SameById a b) : (encAll a).length = (encAll b).length := by
  have hp : a.Perm b := by
    rw [List.perm_iff_count]
    intro q
    have := congrArg (List.count q) (h q.id)
    rw [List.count_filter (by simp), List.count_filter (by simp)] at this
    exact this
  exact (hp.flatMap_right Property.enc).length_eq

theorem same_sec {a b : List Property} (h : SameById a b) : (sec a).length = (sec b).length := by
  unfold sec
  simp only [List.length_append, same_len h]

end Mqtt.V5
