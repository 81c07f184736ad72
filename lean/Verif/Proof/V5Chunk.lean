import Verif.Proof.V5Prop
import Verif.Proof.V4Wr
import Verif.Spec.Written
import Mathlib.Data.List.Perm.Subperm
/-! v5 property sections: the writers, generically, and property sets as lists of properties. -/
set_option linter.unusedSimpArgs false
namespace Mqtt.V5
open Mqtt Spec
open Spec.V5 (Kind Val Property PropSeq SecDenotes SetDenotes counted encAll vbis Readable sec opt
  users valuesOf lastOf)

/-- a variable byte integer value has an encoding -/
def VbiFits : Val → Prop
  | .vbi n => n ≤ maxRemaining
  | _ => True

theorem VbiFits.of_fits {v : Val} (h : v.Fits) : VbiFits v := by
  cases v <;> first | trivial | exact h

theorem encAll_append (a b : List Property) : encAll (a ++ b) = encAll a ++ encAll b := by
  simp [encAll]
theorem encAll_nil : encAll [] = [] := rfl
theorem encAll_cons (q : Property) (l : List Property) : encAll (q :: l) = q.enc ++ encAll l := rfl

theorem torn_append (a b : List Property) : Spec.V5.torn (a ++ b) =
    match Spec.V5.torn a with
    | some t => some t
    | none => (Spec.V5.torn b).map (encAll a ++ ·) := by
  induction a with
  | nil => simp [Spec.V5.torn, encAll]
  | cons q l ih =>
    simp only [List.cons_append, Spec.V5.torn]
    split
    · rfl
    · rw [ih]
      cases Spec.V5.torn l with
      | some t => rfl
      | none => cases Spec.V5.torn b <;> simp [encAll]

theorem torn_none {ps : List Property} (h : ∀ q ∈ ps, VbiFits q.val) : Spec.V5.torn ps = none := by
  induction ps with
  | nil => rfl
  | cons q l ih =>
    have hq := h q (by simp)
    simp only [Spec.V5.torn]
    rw [ih fun r hr => h r (by simp [hr]), if_neg]
    · rfl
    · cases hv : q.val <;> simp [Spec.V5.tooBig]
      rw [hv] at hq; exact hq

/-- `m` writes the properties `ps` -/
structure Chunk (m : M Unit) (ps : List Property) : Prop where
  run : (∀ q ∈ ps, q.val.Fits) → ∀ s, m s = (.ok (), s ++ encAll ps)
  wrx : WrX (∀ q ∈ ps, VbiFits q.val) (· = .PayloadTooLong) (encAll ps).length () m
  emits : ∀ s, m s = ((Spec.V5.emit ps).1, s ++ (Spec.V5.emit ps).2)

theorem Chunk.nil : Chunk (pure ()) [] where
  run := fun _ s => by simp [pure_run, encAll]
  wrx := .of_N (WrN.pure ()) (by simp)
  emits := fun s => by simp [pure_run, Spec.V5.emit, Spec.V5.torn, encAll]

theorem Chunk.seq {m n : M Unit} {ps qs : List Property} (h : Chunk m ps) (k : Chunk n qs) :
    Chunk (m >>= fun _ => n) (ps ++ qs) where
  run := fun hf s => by
    rw [bind_run, h.run (fun q hq => hf q (by simp [hq])), andThen_ok,
      k.run (fun q hq => hf q (by simp [hq])), encAll_append, List.append_assoc]
  wrx := (h.wrx.seq k.wrx).cast (by rw [encAll_append, List.length_append])
    List.forall_mem_append.symm
  emits := fun s => by
    rw [bind_run, h.emits]
    unfold Spec.V5.emit
    rw [torn_append]
    cases Spec.V5.torn ps with
    | some t => rfl
    | none =>
      simp only [andThen_ok]
      rw [k.emits]
      unfold Spec.V5.emit
      cases Spec.V5.torn qs <;> simp [encAll_append]

/-- a writer that never fails -/
theorem Chunk.of {m : M Unit} {ps : List Property}
    (run : ∀ s, m s = (.ok (), s ++ encAll ps))
    (wrn : WrN (encAll ps).length () m) (hv : ∀ q ∈ ps, VbiFits q.val := by simp [VbiFits]) :
    Chunk m ps :=
  ⟨fun _ => run, .of_N wrn hv, fun s => by rw [run s, Spec.V5.emit, torn_none hv]⟩

theorem Chunk.ifSome {α : Type} {id : Nat} {f : α → Val} {w : α → M Unit}
    (h : ∀ v, Chunk (w v) [⟨id, f v⟩]) (o : Option α) : Chunk (V5.ifSome o w) (opt id f o) := by
  cases o with
  | none => exact .nil
  | some v => exact h v

theorem Chunk.forEach {α : Type} {id : Nat} {f : α → Val} {w : α → M Unit}
    (h : ∀ v, Chunk (w v) [⟨id, f v⟩]) (l : List α) :
    Chunk (Mqtt.forEach l w) (l.map fun v => ⟨id, f v⟩) := by
  induction l with
  | nil => exact .nil
  | cons a l ih => rw [Mqtt.forEach, List.map_cons]; exact .seq (h a) ih

theorem prop_u8 (t : PropertyType) (v : UInt8) :
    Chunk (putPropU8 t v) [⟨t.toU8.toNat, .u8 v⟩] :=
  .of (fun s => by simp [putPropU8, bind_run, putU8_run, andThen_ok, encAll, Property.enc, Val.enc, u8_toNat])
    ((WrN.seq (putU8_N _) (putU8_N _)).cast (by simp [encAll, Property.enc, Val.enc, u8_len]))
theorem prop_u16 (t : PropertyType) (v : UInt16) :
    Chunk (putPropU16 t v) [⟨t.toU8.toNat, .u16 v⟩] :=
  .of (fun s => by simp [putPropU16, bind_run, putU8_run, putU16_run, andThen_ok, encAll, Property.enc, Val.enc, u8_toNat])
    ((WrN.seq (putU8_N _) (putU16_N _)).cast (by simp [encAll, Property.enc, Val.enc, u8_len, u16_len]))
theorem prop_u32 (t : PropertyType) (v : UInt32) :
    Chunk (putPropU32 t v) [⟨t.toU8.toNat, .u32 v⟩] :=
  .of (fun s => by simp [putPropU32, bind_run, putU8_run, putU32_run, andThen_ok, encAll, Property.enc, Val.enc, u8_toNat])
    ((WrN.seq (putU8_N _) (putU32_N _)).cast (by simp [encAll, Property.enc, Val.enc, u8_len, u32_len]))
theorem prop_str (t : PropertyType) (v : String) :
    Chunk (putPropStr t v) [⟨t.toU8.toNat, .str v⟩] :=
  .of (fun s => by
      simp [putPropStr, bind_run, putU8_run, andThen_ok, encAll, Property.enc, Val.enc, u8_toNat,
        write_mqtt_string_all])
    ((WrN.seq (putU8_N _) (write_mqtt_string_N _)).cast
      (by simp [encAll, Property.enc, Val.enc, u8_len, str_len]))
theorem prop_bin (t : PropertyType) (v : Bytes) :
    Chunk (putPropBytes t v) [⟨t.toU8.toNat, .bin v⟩] :=
  .of (fun s => by
      simp [putPropBytes, bind_run, putU8_run, andThen_ok, encAll, Property.enc, Val.enc, u8_toNat,
        write_mqtt_bytes_all])
    ((WrN.seq (putU8_N _) (write_mqtt_bytes_N _)).cast
      (by simp [encAll, Property.enc, Val.enc, u8_len, bin_len]))
theorem prop_pair (t : PropertyType) (v : String × String) :
    Chunk (putPropPair t v) [⟨t.toU8.toNat, .pair v.1 v.2⟩] :=
  .of (fun s => by
      simp [putPropPair, bind_run, putU8_run, andThen_ok, encAll, Property.enc, Val.enc, u8_toNat,
        write_mqtt_string_all])
    ((WrN.seq (putU8_N _) (WrN.seq (write_mqtt_string_N _) (write_mqtt_string_N _))).cast
      (by simp [encAll, Property.enc, Val.enc, u8_len, str_len]))
theorem prop_vbi (t : PropertyType) (v : Nat) :
    Chunk (putPropVbi t v) [⟨t.toU8.toNat, .vbi v⟩] where
  run := fun hf s => by
    have h : v ≤ maxRemaining := hf _ (List.mem_singleton.2 rfl)
    simp [putPropVbi, bind_run, putU8_run, andThen_ok, encAll, Property.enc, Val.enc, u8_toNat,
        write_remaining_length_run h, pure_run]
  wrx := (WrX.after (putU8_N _) ((write_remaining_length_X v).before (WrN.pure ()))).cast
    (by simp [encAll, Property.enc, Val.enc, u8_len]) (by simp [VbiFits])
  emits := fun s => by
    by_cases h : v ≤ maxRemaining
    · simp [putPropVbi, bind_run, putU8_run, andThen_ok, encAll, Property.enc, Val.enc, u8_toNat,
        write_remaining_length_run h, pure_run, Spec.V5.emit, Spec.V5.torn, Spec.V5.tooBig, Nat.not_lt.2 h]
    · simp [putPropVbi, bind_run, putU8_run, andThen_ok, u8_toNat, write_remaining_length_too_long (Nat.lt_of_not_le h),
        Spec.V5.emit, Spec.V5.torn, Spec.V5.tooBig, Nat.lt_of_not_le h]; rfl

theorem chunk_users (l : List (String × String)) :
    Chunk (Mqtt.forEach l (putPropPair .UserProperty)) (users l) :=
  .forEach (id := 38) (f := fun kv => .pair kv.1 kv.2) (prop_pair .UserProperty) l

/-- `m` writes the property section `sec ps` -/
structure SecChunk (m : M Unit) (ps : List Property) : Prop where
  run : (∀ q ∈ ps, q.val.Fits) → (encAll ps).length ≤ maxRemaining → ∀ s, m s = (.ok (), s ++ sec ps)
  wrx : WrX ((∀ q ∈ ps, VbiFits q.val) ∧ (encAll ps).length ≤ maxRemaining) (· = .PayloadTooLong)
    (sec ps).length () m
  emits : (encAll ps).length ≤ maxRemaining → ∀ s, m s =
    ((Spec.V5.emit ps).1, s ++ (vbi (encAll ps).length ++ (Spec.V5.emit ps).2))

theorem Chunk.sec {m : M Unit} {ps : List Property} {len : Nat} (h : Chunk m ps)
    (hl : len = (encAll ps).length) :
    SecChunk (write_remaining_length len >>= fun _ => m) ps where
  run := fun hf hb s => by
    subst hl
    rw [bind_run, write_remaining_length_run hb, andThen_ok, h.run hf, Spec.V5.sec,
      List.append_assoc]
  wrx := by
    subst hl
    exact ((write_remaining_length_X _).bind h.wrx).cast (by simp [Spec.V5.sec]) And.comm
  emits := fun hb s => by
    subst hl
    rw [bind_run, write_remaining_length_run hb, andThen_ok, h.emits, List.append_assoc]

/-! ### property sets as lists -/

theorem valuesOf_append {α : Type} (id : Nat) (sel : Val → Option α) (a b : List Property) :
    valuesOf id sel (a ++ b) = valuesOf id sel a ++ valuesOf id sel b := by simp [valuesOf]
theorem valuesOf_nil {α : Type} (id : Nat) (sel : Val → Option α) : valuesOf id sel [] = [] := rfl
theorem valuesOf_one {α : Type} (id : Nat) (sel : Val → Option α) (q : Property) :
    valuesOf id sel [q] = if q.id = id then (sel q.val).toList else [] := by
  unfold valuesOf
  by_cases h : q.id = id
  · cases hs : sel q.val <;> simp [h, hs]
  · simp [h]
theorem valuesOf_opt {α β : Type} (id i : Nat) (sel : Val → Option α) (f : β → Val)
    (o : Option β) : valuesOf id sel (opt i f o) =
      if i = id then (o.bind fun v => sel (f v)).toList else [] := by
  cases o with
  | none => simp [opt, valuesOf]
  | some v => simp [opt, valuesOf_one]
theorem valuesOf_map {α β : Type} (id i : Nat) (sel : Val → Option α) (f : β → Val)
    (l : List β) : valuesOf id sel (l.map fun v => ⟨i, f v⟩) =
      if i = id then l.filterMap (fun v => sel (f v)) else [] := by
  unfold valuesOf
  rw [List.filterMap_map]
  split
  · congr 1; funext v; simp [*]
  · rw [List.filterMap_eq_nil_iff]; simp [*]
theorem valuesOf_users {α : Type} (id : Nat) (sel : Val → Option α)
    (l : List (String × String)) : valuesOf id sel (users l) =
      if 38 = id then l.filterMap (fun kv => sel (.pair kv.1 kv.2)) else [] :=
  valuesOf_map id 38 sel _ l

theorem toList_getLast? {α : Type} (o : Option α) : o.toList.getLast? = o := by cases o <;> rfl
theorem bind_some_self {α : Type} (o : Option α) : (o.bind fun v => some v) = o := by cases o <;> rfl

theorem valuesOf_eq_nil {α : Type} (id : Nat) (sel : Val → Option α) (ps : List Property) :
    valuesOf id sel ps = [] ↔ ∀ q ∈ ps, q.id = id → sel q.val = none := by
  unfold valuesOf
  rw [List.filterMap_eq_nil_iff]
  constructor
  · intro h q hq hi; simpa [hi] using h q hq
  · intro h q hq; split
    · exact h q hq ‹_›
    · rfl
theorem lastOf_eq_none {α : Type} (id : Nat) (sel : Val → Option α) (ps : List Property) :
    lastOf id sel ps = none ↔ ∀ q ∈ ps, q.id = id → sel q.val = none := by
  unfold lastOf; rw [List.getLast?_eq_none_iff, valuesOf_eq_nil]
theorem opt_eq_nil {α : Type} (i : Nat) (f : α → Val) (o : Option α) :
    opt i f o = [] ↔ o = none := by cases o <;> simp [opt]
theorem users_eq_nil (l : List (String × String)) : users l = [] ↔ l = [] := by simp [users]

/-- a sublist of the properties with identifier `i` -/
def Field (i : Nat) (l ps : List Property) : Prop := l.Sublist ps ∧ ∀ q ∈ l, q.id = i

theorem field_values {α : Type} (i : Nat) (sel : Val → Option α) (f : α → Val)
    (h : ∀ v a, sel v = some a → f a = v) (ps : List Property) :
    Field i ((valuesOf i sel ps).map fun a => ⟨i, f a⟩) ps := by
  refine ⟨?_, by simp only [List.mem_map]; rintro q ⟨a, _, rfl⟩; rfl⟩
  induction ps with
  | nil => exact List.Sublist.refl _
  | cons q ps ih =>
    have : valuesOf i sel (q :: ps) = valuesOf i sel [q] ++ valuesOf i sel ps :=
      valuesOf_append i sel [q] ps
    rw [this, valuesOf_one]
    by_cases hi : q.id = i
    · cases hs : sel q.val with
      | none => simpa [hi, hs] using ih.cons q
      | some a =>
        have e := h _ _ hs
        have : (⟨i, f a⟩ : Property) = q := by cases q; simp_all
        simp only [hi, if_pos, Option.toList_some, List.map_cons, List.map_nil, this,
          List.singleton_append, hs, List.cons_append, List.nil_append]
        exact ih.cons_cons q
    · simpa [hi] using ih.cons q

theorem field_last {α : Type} (i : Nat) (sel : Val → Option α) (f : α → Val)
    (h : ∀ v a, sel v = some a → f a = v) (ps : List Property) :
    Field i (opt i f (lastOf i sel ps)) ps := by
  have hv := field_values i sel f h ps
  have hs : (opt i f (lastOf i sel ps)).Sublist
      ((valuesOf i sel ps).map fun a => (⟨i, f a⟩ : Property)) := by
    unfold lastOf
    cases hl : (valuesOf i sel ps).getLast? with
    | none => simp [opt]
    | some a =>
      obtain ⟨l, hl⟩ := List.getLast?_eq_some_iff.1 hl
      rw [hl, List.map_append]
      exact List.sublist_append_right _ _
  exact ⟨hs.trans hv.1, fun q hq => hv.2 q (hs.subset hq)⟩

/-- fields with different identifiers together are a sub-multiset of the properties -/
def SubOf (ids : List Nat) (l ps : List Property) : Prop := l.Subperm ps ∧ ∀ q ∈ l, q.id ∈ ids

theorem SubOf.nil (ps : List Property) : SubOf [] [] ps := ⟨List.nil_subperm, by simp⟩
theorem SubOf.snoc {i : Nat} {ids : List Nat} {l r ps : List Property} (hr : SubOf ids r ps)
    (hl : Field i l ps) (hi : i ∉ ids) : SubOf (i :: ids) (r ++ l) ps := by
  refine ⟨?_, ?_⟩
  · have h1 : l.Subperm (ps.filter fun q => decide (q.id = i)) := by
      have := hl.1.filter (fun q : Property => decide (q.id = i))
      rw [List.filter_eq_self.2 (by intro q hq; simp [hl.2 q hq])] at this
      exact this.subperm
    have h2 : r.Subperm (ps.filter fun q => !decide (q.id = i)) := by
      have := hr.1.filter (fun q : Property => !decide (q.id = i))
      rw [List.filter_eq_self.2 (by
        intro q hq
        have hm := hr.2 q hq
        have : q.id ≠ i := fun e => hi (e ▸ hm)
        simp [this])] at this
      exact this
    have := (h2.append h1).trans (List.perm_append_comm.trans (List.filter_append_perm (fun q : Property => decide (q.id = i)) ps)).subperm
    exact this
  · intro q hq
    rcases List.mem_append.1 hq with hq | hq
    · exact List.mem_cons_of_mem _ (hr.2 q hq)
    · rw [hl.2 q hq]; exact List.mem_cons_self ..
theorem SubOf.one {i : Nat} {l ps : List Property} (hl : Field i l ps) : SubOf [i] l ps := by
  simpa using (SubOf.nil ps).snoc hl (by simp)

theorem encAll_subperm {a b : List Property} (h : a.Subperm b) :
    (encAll a).length ≤ (encAll b).length := by
  obtain ⟨c, hp, hs⟩ := h
  have e1 : (encAll a).length = (encAll c).length := by
    unfold encAll
    simp only [List.length_flatMap]
    exact (hp.symm.map _).sum_nat
  rw [e1]
  unfold encAll
  clear hp e1
  induction hs with
  | slnil => simp
  | cons _ _ ih => simp only [List.flatMap_cons, List.length_append]; omega
  | cons_cons _ _ ih => simp only [List.flatMap_cons, List.length_append]; omega

theorem u8_sel (v : Val) (a : UInt8) (h : v.u8? = some a) : Val.u8 a = v := by
  cases v <;> simp_all [Val.u8?]
theorem u16_sel (v : Val) (a : UInt16) (h : v.u16? = some a) : Val.u16 a = v := by
  cases v <;> simp_all [Val.u16?]
theorem u32_sel (v : Val) (a : UInt32) (h : v.u32? = some a) : Val.u32 a = v := by
  cases v <;> simp_all [Val.u32?]
theorem vbi_sel (v : Val) (a : Nat) (h : v.vbi? = some a) : Val.vbi a = v := by
  cases v <;> simp_all [Val.vbi?]
theorem str_sel (v : Val) (a : String) (h : v.str? = some a) : Val.str a = v := by
  cases v <;> simp_all [Val.str?]
theorem bin_sel (v : Val) (a : Bytes) (h : v.bin? = some a) : Val.bin a = v := by
  cases v <;> simp_all [Val.bin?]
theorem pair_sel (v : Val) (a : String × String) (h : v.pair? = some a) : Val.pair a.1 a.2 = v := by
  cases v <;> simp [Val.pair?] at h; subst h; rfl

/-- everything about one property set -/
structure PropSet {π : Type} (kind : Nat → Option Kind) (props : π → List Property)
    (dec : List Property → π) (step : PropStep π) (len : π → Nat) (write : π → M Unit) : Prop where
  gen : GenStep kind step dec
  len_eq : ∀ p, len p = (encAll (props p)).length
  chunk : ∀ p, SecChunk (write p) (props p)
  dec_props : ∀ p, dec (props p) = p
  kinds : ∀ p, ∀ q ∈ props p, q.id < 256 ∧ kind q.id = some q.val.kind
  sub : ∀ ps, (props (dec ps)).Subperm ps
  ne_nil : ∀ ps, ps ≠ [] → (∀ q ∈ ps, kind q.id = some q.val.kind) → props (dec ps) ≠ []

end Mqtt.V5
