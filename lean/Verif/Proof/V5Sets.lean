import Verif.Proof.V5Chunk
/-! The eight v5 property sets are instances of the generic development. -/
set_option linter.unusedSimpArgs false
set_option linter.unusedTactic false
set_option linter.unreachableTactic false
namespace Mqtt.V5
open Mqtt Spec
open Spec.V5

theorem strLen_eq' (s : String) : strLen s = (utf8 s).length := rfl

theorem addUserPropsLen_eq (l : List (String × String)) (n : Nat) :
    addUserPropsLen l n = n + (encAll (users l)).length := by
  unfold addUserPropsLen
  induction l generalizing n with
  | nil => simp [users, encAll]
  | cons a l ih =>
    rw [List.foldl_cons, ih]
    simp [users, encAll, Property.enc, Val.enc, u8_len, str_len, strLen_eq']
    omega

theorem ids_len_eq (l : List Nat) (n : Nat) :
    l.foldl (fun len id => len + (1 + len_len id)) n
      = n + (encAll (l.map fun n => ⟨11, .vbi n⟩)).length := by
  induction l generalizing n with
  | nil => simp [encAll]
  | cons a l ih =>
    rw [List.foldl_cons, ih]
    simp [encAll, Property.enc, Val.enc, u8_len, len_len_eq]
    omega

/-- the bytes of an optional property -/
theorem optLen {α : Type} (i : Nat) (f : α → Val) (o : Option α) :
    (encAll (opt i f o)).length = match o with | some v => 1 + (f v).enc.length | none => 0 := by
  cases o <;> simp [opt, encAll, Property.enc, u8_len]

theorem isSome_add {α : Type} (o : Option α) (n k : Nat) :
    (if o.isSome = true then n + k else n) = n + if o.isSome = true then k else 0 := by
  split <;> rfl
theorem addSome_eq {α : Type} (o : Option α) (f : α → Nat) (n : Nat) :
    addSome o f n = n + addSome o f 0 := by cases o <;> simp [addSome]
theorem opt_u8 (i : Nat) (o : Option UInt8) :
    (encAll (opt i .u8 o)).length = if o.isSome = true then 1 + 1 else 0 := by
  cases o <;> simp [optLen, Val.enc, u8_len]
theorem opt_u16 (i : Nat) (o : Option UInt16) :
    (encAll (opt i .u16 o)).length = if o.isSome = true then 1 + 2 else 0 := by
  cases o <;> simp [optLen, Val.enc, u16_len]
theorem opt_u32 (i : Nat) (o : Option UInt32) :
    (encAll (opt i .u32 o)).length = if o.isSome = true then 1 + 4 else 0 := by
  cases o <;> simp [optLen, Val.enc, u32_len]
theorem opt_str (i : Nat) (o : Option String) :
    (encAll (opt i .str o)).length = addSome o (fun t => 1 + 2 + strLen t) 0 := by
  cases o <;> simp [optLen, Val.enc, str_len, strLen_eq', addSome]; omega
theorem opt_bin (i : Nat) (o : Option Bytes) :
    (encAll (opt i .bin o)).length = addSome o (fun t => 1 + 2 + t.length) 0 := by
  cases o <;> simp [optLen, Val.enc, bin_len, addSome]; omega
theorem opt_vbi (i : Nat) (o : Option Nat) :
    (encAll (opt i .vbi o)).length = addSome o (fun t => 1 + len_len t) 0 := by
  cases o <;> simp [optLen, Val.enc, len_len_eq, addSome]

/-- `len` of a property set is the length of its encoding -/
macro "prop_len" l:ident ps:ident : tactic => `(tactic|
  (intro p
   simp only [$l:ident, $ps:ident, encAll_append, List.length_append, addUserPropsLen_eq, ids_len_eq,
     isSome_add, opt_u8, opt_u16, opt_u32, opt_str, opt_bin, opt_vbi,
     Nat.zero_add, Nat.add_zero]
   try simp only [addSome_eq _ _ (_ + _), addSome_eq _ _ (ite _ _ _), addSome_eq _ _ (List.length _), addSome_eq _ _ (addSome _ _ _)]))

theorem reason_len : ∀ p : ReasonProps, p.len = (encAll (reasonProps p)).length := by
  prop_len ReasonProps.len reasonProps
theorem will_len : ∀ p : WillProperties, p.len = (encAll (willProps p)).length := by
  prop_len WillProperties.len willProps
theorem connect_len : ∀ p : ConnectProperties, p.len = (encAll (connectProps p)).length := by
  prop_len ConnectProperties.len connectProps
theorem connack_len : ∀ p : ConnAckProperties, p.len = (encAll (connackProps p)).length := by
  prop_len ConnAckProperties.len connackProps
theorem publish_len : ∀ p : PublishProperties, p.len = (encAll (publishProps p)).length := by
  prop_len PublishProperties.len publishProps
theorem subscribe_len : ∀ p : SubscribeProperties, p.len = (encAll (subscribeProps p)).length := by
  prop_len SubscribeProperties.len subscribeProps
theorem unsubscribe_len : ∀ p : UnsubscribeProperties,
    p.len = (encAll (unsubscribeProps p)).length := by
  prop_len UnsubscribeProperties.len unsubscribeProps
theorem disconnect_len : ∀ p : DisconnectProperties, p.len = (encAll (disconnectProps p)).length := by
  prop_len DisconnectProperties.len disconnectProps

/-- decoding the list of properties of a set gives back the set -/
macro "prop_dec" ps:ident d:ident : tactic => `(tactic|
  (intro p
   simp [$ps:ident, $d:ident, lastOf, valuesOf_append, valuesOf_opt, valuesOf_users, valuesOf_map,
     toList_getLast?, bind_some_self, Val.u8?, Val.u16?, Val.u32?, Val.str?, Val.bin?, Val.pair?,
     Val.vbi?]))

theorem reason_dec : ∀ p, reasonOf (reasonProps p) = p := by prop_dec reasonProps reasonOf
theorem will_dec : ∀ p, willOf (willProps p) = p := by prop_dec willProps willOf
theorem connect_dec : ∀ p, connectOf (connectProps p) = p := by prop_dec connectProps connectOf
theorem connack_dec : ∀ p, connackOf (connackProps p) = p := by prop_dec connackProps connackOf
theorem publish_dec : ∀ p, publishOf (publishProps p) = p := by prop_dec publishProps publishOf
theorem subscribe_dec : ∀ p, subscribeOf (subscribeProps p) = p := by
  prop_dec subscribeProps subscribeOf
theorem unsubscribe_dec : ∀ p, unsubscribeOf (unsubscribeProps p) = p := by
  prop_dec unsubscribeProps unsubscribeOf
theorem disconnect_dec : ∀ p, disconnectOf (disconnectProps p) = p := by
  prop_dec disconnectProps disconnectOf

theorem bind_congr {α β : Type} {m : M α} {f g : α → M β} (h : ∀ a, f a = g a) :
    m >>= f = m >>= g := by rw [funext h]

/-- the arms of a property loop are the generic decoder -/
macro "prop_gen" st:ident k:ident d:ident : tactic => `(tactic|
  (constructor
   · intro b k hk
     unfold $k at hk
     have := (UInt8.ofNat_toNat (x := b)).symm
     split at hk <;> first | cases hk; done | (rename_i e; rw [e] at this; subst this; exact ⟨_, rfl⟩)
   · intro b ty ps h
     rw [property_toU8] at h
     subst h
     cases ty <;>
       first
       | rfl
       | (simp only [$st:ident, PropertyType.toU8, armStr, armBytes, armU8, armU16, armU32, armPair, armVbi]
          show _ = _ >>= _
          simp only [readVal, M.bind_assoc, M.pure_bind]
          refine bind_congr fun v => ?_
          first
          | (simp [$d:ident, lastOf, valuesOf_append, valuesOf_one, Val.u8?, Val.u16?, Val.u32?, Val.str?, Val.bin?, Val.pair?, Val.vbi?]; done)
          | (refine bind_congr fun w => ?_
             simp [$d:ident, lastOf, valuesOf_append, valuesOf_one, Val.u8?, Val.u16?, Val.u32?, Val.str?, Val.bin?, Val.pair?, Val.vbi?]; done))))

theorem reason_gen : GenStep reasonKind ReasonProps.step reasonOf := by
  prop_gen ReasonProps.step reasonKind reasonOf
theorem will_gen : GenStep willKind WillProperties.step willOf := by
  prop_gen WillProperties.step willKind willOf
theorem connect_gen : GenStep connectKind ConnectProperties.step connectOf := by
  prop_gen ConnectProperties.step connectKind connectOf
theorem connack_gen : GenStep connackKind ConnAckProperties.step connackOf := by
  prop_gen ConnAckProperties.step connackKind connackOf
theorem publish_gen : GenStep publishKind PublishProperties.step publishOf := by
  prop_gen PublishProperties.step publishKind publishOf
theorem subscribe_gen : GenStep subscribeKind SubscribeProperties.step subscribeOf := by
  prop_gen SubscribeProperties.step subscribeKind subscribeOf
theorem unsubscribe_gen : GenStep unsubscribeKind UnsubscribeProperties.step unsubscribeOf := by
  prop_gen UnsubscribeProperties.step unsubscribeKind unsubscribeOf
theorem disconnect_gen : GenStep disconnectKind DisconnectProperties.step disconnectOf := by
  prop_gen DisconnectProperties.step disconnectKind disconnectOf

/-- `write` of a property set -/
macro "prop_chunk" w:ident ps:ident l:ident : tactic => `(tactic|
  (intro p
   unfold $w
   refine Chunk.sec ?_ ($l p)
   simp only [$ps:ident, List.append_assoc]
   repeat' refine Chunk.seq ?_ ?_
   all_goals first
     | exact chunk_users _
     | exact .ifSome (prop_u8 _) _
     | exact .ifSome (prop_u16 _) _
     | exact .ifSome (prop_u32 _) _
     | exact .ifSome (prop_str _) _
     | exact .ifSome (prop_bin _) _
     | exact .ifSome (prop_vbi _) _
     | exact .forEach (prop_vbi _) _))

theorem reason_chunk : ∀ p : ReasonProps, SecChunk p.write (reasonProps p) := by
  prop_chunk ReasonProps.write reasonProps reason_len
theorem will_chunk : ∀ p : WillProperties, SecChunk p.write (willProps p) := by
  prop_chunk WillProperties.write willProps will_len
theorem connect_chunk : ∀ p : ConnectProperties, SecChunk p.write (connectProps p) := by
  prop_chunk ConnectProperties.write connectProps connect_len
theorem connack_chunk : ∀ p : ConnAckProperties, SecChunk p.write (connackProps p) := by
  prop_chunk ConnAckProperties.write connackProps connack_len
theorem publish_chunk : ∀ p : PublishProperties, SecChunk p.write (publishProps p) := by
  prop_chunk PublishProperties.write publishProps publish_len
theorem subscribe_chunk : ∀ p : SubscribeProperties, SecChunk p.write (subscribeProps p) := by
  prop_chunk SubscribeProperties.write subscribeProps subscribe_len
theorem unsubscribe_chunk : ∀ p : UnsubscribeProperties, SecChunk p.write (unsubscribeProps p) := by
  prop_chunk UnsubscribeProperties.write unsubscribeProps unsubscribe_len
theorem disconnect_chunk : ∀ p : DisconnectProperties, SecChunk p.write (disconnectProps p) := by
  prop_chunk DisconnectProperties.write disconnectProps disconnect_len

theorem mem_opt {α : Type} (i : Nat) (f : α → Val) (o : Option α) (q : Property) :
    q ∈ opt i f o ↔ ∃ v, o = some v ∧ q = ⟨i, f v⟩ := by
  cases o <;> simp [opt]
theorem mem_users (l : List (String × String)) (q : Property) :
    q ∈ users l ↔ ∃ v, v ∈ l ∧ q = ⟨38, .pair v.1 v.2⟩ := by
  unfold users; rw [List.mem_map]
  exact exists_congr fun _ => and_congr_right fun _ => eq_comm
theorem mem_ids (l : List Nat) (q : Property) :
    (q ∈ l.map fun n => (⟨11, .vbi n⟩ : Property)) ↔ ∃ v, v ∈ l ∧ q = ⟨11, .vbi v⟩ := by
  rw [List.mem_map]
  exact exists_congr fun _ => and_congr_right fun _ => eq_comm

/-- identifiers and data types of the properties of a set -/
macro "prop_kinds" ps:ident k:ident : tactic => `(tactic|
  (intro p q hq
   simp only [$ps:ident, List.mem_append, mem_opt, mem_users, mem_ids] at hq
   revert hq
   repeat' refine or_imp.2 ⟨?_, ?_⟩
   all_goals
     rintro ⟨v, _, hq⟩
     subst hq
     exact ⟨by simp only; decide, rfl⟩))

theorem reason_kinds : ∀ p, ∀ q ∈ reasonProps p, q.id < 256 ∧ reasonKind q.id = some q.val.kind := by
  prop_kinds reasonProps reasonKind
theorem will_kinds : ∀ p, ∀ q ∈ willProps p, q.id < 256 ∧ willKind q.id = some q.val.kind := by
  prop_kinds willProps willKind
theorem connect_kinds : ∀ p, ∀ q ∈ connectProps p, q.id < 256 ∧ connectKind q.id = some q.val.kind := by
  prop_kinds connectProps connectKind
theorem connack_kinds : ∀ p, ∀ q ∈ connackProps p, q.id < 256 ∧ connackKind q.id = some q.val.kind := by
  prop_kinds connackProps connackKind
theorem publish_kinds : ∀ p, ∀ q ∈ publishProps p, q.id < 256 ∧ publishKind q.id = some q.val.kind := by
  prop_kinds publishProps publishKind
theorem subscribe_kinds : ∀ p, ∀ q ∈ subscribeProps p, q.id < 256 ∧ subscribeKind q.id = some q.val.kind := by
  prop_kinds subscribeProps subscribeKind
theorem unsubscribe_kinds : ∀ p, ∀ q ∈ unsubscribeProps p, q.id < 256 ∧ unsubscribeKind q.id = some q.val.kind := by
  prop_kinds unsubscribeProps unsubscribeKind
theorem disconnect_kinds : ∀ p, ∀ q ∈ disconnectProps p, q.id < 256 ∧ disconnectKind q.id = some q.val.kind := by
  prop_kinds disconnectProps disconnectKind

end Mqtt.V5
