import Verif.Proof.V5Sets
/-! The eight v5 property sets: decoded sets re-encoded. -/
set_option linter.unusedSimpArgs false
set_option linter.unusedTactic false
set_option linter.unreachableTactic false
namespace Mqtt.V5
open Mqtt Spec
open Spec.V5

theorem users_field (ps : List Property) : Field 38 (users (valuesOf 38 Val.pair? ps)) ps :=
  field_values 38 Val.pair? (fun kv => .pair kv.1 kv.2) pair_sel ps

theorem SubOf.sub {ids : List Nat} {l ps : List Property} (h : SubOf ids l ps) : l.Subperm ps := h.1

/-- encoding a decoded set gives some of the decoded properties -/
macro "prop_sub" ps:ident d:ident ids:term : tactic => `(tactic|
  (intro ps
   simp only [$ps:ident, $d:ident]
   refine SubOf.sub (ids := $ids) ?_
   repeat' refine SubOf.snoc ?_ ?_ ?_
   all_goals first
     | exact users_field ps
     | exact field_last _ _ _ u8_sel ps
     | exact field_last _ _ _ u16_sel ps
     | exact field_last _ _ _ u32_sel ps
     | exact field_last _ _ _ str_sel ps
     | exact field_last _ _ _ bin_sel ps
     | exact field_last _ _ _ vbi_sel ps
     | exact field_values _ _ _ vbi_sel ps
     | exact SubOf.one (users_field ps)
     | exact SubOf.one (field_last _ _ _ u8_sel ps)
     | exact SubOf.one (field_last _ _ _ u16_sel ps)
     | exact SubOf.one (field_last _ _ _ u32_sel ps)
     | exact SubOf.one (field_last _ _ _ str_sel ps)
     | exact SubOf.one (field_last _ _ _ vbi_sel ps)
     | decide))

theorem reason_sub : ∀ ps, (reasonProps (reasonOf ps)).Subperm ps := by
  prop_sub reasonProps reasonOf [38, 31]
theorem will_sub : ∀ ps, (willProps (willOf ps)).Subperm ps := by
  prop_sub willProps willOf [38, 9, 8, 3, 2, 1, 24]
theorem connect_sub : ∀ ps, (connectProps (connectOf ps)).Subperm ps := by
  prop_sub connectProps connectOf [22, 21, 38, 23, 25, 34, 39, 33, 17]
theorem connack_sub : ∀ ps, (connackProps (connackOf ps)).Subperm ps := by
  prop_sub connackProps connackOf [22, 21, 28, 26, 19, 42, 41, 40, 38, 31, 34, 18, 39, 37, 36, 33, 17]
theorem publish_sub : ∀ ps, (publishProps (publishOf ps)).Subperm ps := by
  prop_sub publishProps publishOf [3, 11, 38, 9, 8, 35, 2, 1]
theorem subscribe_sub : ∀ ps, (subscribeProps (subscribeOf ps)).Subperm ps := by
  prop_sub subscribeProps subscribeOf [38, 11]
theorem unsubscribe_sub : ∀ ps, (unsubscribeProps (unsubscribeOf ps)).Subperm ps := by
  prop_sub unsubscribeProps unsubscribeOf [38]
theorem disconnect_sub : ∀ ps, (disconnectProps (disconnectOf ps)).Subperm ps := by
  prop_sub disconnectProps disconnectOf [28, 38, 31, 17]

/-- a decoded set is not empty -/
macro "prop_ne" ps:ident d:ident k:ident : tactic => `(tactic|
  (intro ps hne hk h
   simp only [$ps:ident, $d:ident, List.append_eq_nil_iff, opt_eq_nil, users_eq_nil, lastOf_eq_none,
     valuesOf_eq_nil, List.map_eq_nil_iff] at h
   obtain ⟨q, hq⟩ := List.exists_mem_of_ne_nil ps hne
   have hk := hk q hq
   obtain ⟨i, v⟩ := q
   unfold $k at hk
   split at hk <;> simp only [Option.some.injEq, reduceCtorEq] at hk <;> cases v <;>
     simp only [Val.kind, reduceCtorEq] at hk <;>
     (subst_vars
      repeat first
        | exact absurd (h _ hq rfl) (Option.some_ne_none _)
        | (obtain ⟨h, h1⟩ := h
           first
           | exact absurd (h1 _ hq rfl) (Option.some_ne_none _)
           | clear h1))))

theorem reason_ne : ∀ ps, ps ≠ [] → (∀ q ∈ ps, reasonKind q.id = some q.val.kind) →
    reasonProps (reasonOf ps) ≠ [] := by
  prop_ne reasonProps reasonOf reasonKind
theorem will_ne : ∀ ps, ps ≠ [] → (∀ q ∈ ps, willKind q.id = some q.val.kind) →
    willProps (willOf ps) ≠ [] := by
  prop_ne willProps willOf willKind
theorem connect_ne : ∀ ps, ps ≠ [] → (∀ q ∈ ps, connectKind q.id = some q.val.kind) →
    connectProps (connectOf ps) ≠ [] := by
  prop_ne connectProps connectOf connectKind
theorem connack_ne : ∀ ps, ps ≠ [] → (∀ q ∈ ps, connackKind q.id = some q.val.kind) →
    connackProps (connackOf ps) ≠ [] := by
  prop_ne connackProps connackOf connackKind
theorem publish_ne : ∀ ps, ps ≠ [] → (∀ q ∈ ps, publishKind q.id = some q.val.kind) →
    publishProps (publishOf ps) ≠ [] := by
  prop_ne publishProps publishOf publishKind
theorem subscribe_ne : ∀ ps, ps ≠ [] → (∀ q ∈ ps, subscribeKind q.id = some q.val.kind) →
    subscribeProps (subscribeOf ps) ≠ [] := by
  prop_ne subscribeProps subscribeOf subscribeKind
theorem unsubscribe_ne : ∀ ps, ps ≠ [] → (∀ q ∈ ps, unsubscribeKind q.id = some q.val.kind) →
    unsubscribeProps (unsubscribeOf ps) ≠ [] := by
  prop_ne unsubscribeProps unsubscribeOf unsubscribeKind
theorem disconnect_ne : ∀ ps, ps ≠ [] → (∀ q ∈ ps, disconnectKind q.id = some q.val.kind) →
    disconnectProps (disconnectOf ps) ≠ [] := by
  prop_ne disconnectProps disconnectOf disconnectKind

theorem reason_set : PropSet reasonKind reasonProps reasonOf ReasonProps.step ReasonProps.len ReasonProps.write :=
  ⟨reason_gen, reason_len, reason_chunk, reason_dec, reason_kinds, reason_sub, reason_ne⟩

theorem will_set : PropSet willKind willProps willOf WillProperties.step WillProperties.len WillProperties.write :=
  ⟨will_gen, will_len, will_chunk, will_dec, will_kinds, will_sub, will_ne⟩

theorem connect_set : PropSet connectKind connectProps connectOf ConnectProperties.step ConnectProperties.len ConnectProperties.write :=
  ⟨connect_gen, connect_len, connect_chunk, connect_dec, connect_kinds, connect_sub, connect_ne⟩

theorem connack_set : PropSet connackKind connackProps connackOf ConnAckProperties.step ConnAckProperties.len ConnAckProperties.write :=
  ⟨connack_gen, connack_len, connack_chunk, connack_dec, connack_kinds, connack_sub, connack_ne⟩

theorem publish_set : PropSet publishKind publishProps publishOf PublishProperties.step PublishProperties.len PublishProperties.write :=
  ⟨publish_gen, publish_len, publish_chunk, publish_dec, publish_kinds, publish_sub, publish_ne⟩

theorem subscribe_set : PropSet subscribeKind subscribeProps subscribeOf SubscribeProperties.step SubscribeProperties.len SubscribeProperties.write :=
  ⟨subscribe_gen, subscribe_len, subscribe_chunk, subscribe_dec, subscribe_kinds, subscribe_sub, subscribe_ne⟩

theorem unsubscribe_set : PropSet unsubscribeKind unsubscribeProps unsubscribeOf UnsubscribeProperties.step UnsubscribeProperties.len UnsubscribeProperties.write :=
  ⟨unsubscribe_gen, unsubscribe_len, unsubscribe_chunk, unsubscribe_dec, unsubscribe_kinds, unsubscribe_sub, unsubscribe_ne⟩

theorem disconnect_set : PropSet disconnectKind disconnectProps disconnectOf DisconnectProperties.step DisconnectProperties.len DisconnectProperties.write :=
  ⟨disconnect_gen, disconnect_len, disconnect_chunk, disconnect_dec, disconnect_kinds, disconnect_sub, disconnect_ne⟩

end Mqtt.V5
