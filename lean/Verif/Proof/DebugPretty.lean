import Verif.Model.DebugPretty
import Verif.Proof.Debug
/-! Derived `Debug` texts in the pretty form can be read back. -/
namespace Mqtt
open Props

/-- complete lines, when `nl` says whether the text before ended a line -/
def Lines : Bool → List Char → Prop
  | nl, [] => nl = true
  | _, c :: cs => Lines (c == '\n') cs

/-- whether a line has ended after these characters -/
def endsLine : Bool → List Char → Bool
  | nl, [] => nl
  | _, c :: cs => endsLine (c == '\n') cs

theorem padList_append (nl : Bool) (s t : List Char) :
    padList nl (s ++ t) = padList nl s ++ padList (endsLine nl s) t := by
  induction s generalizing nl with
  | nil => rfl
  | cons c s ih => cases nl <;> simp [padList, endsLine, ih]

theorem endsLine_line (nl : Bool) (s : List Char) : endsLine nl (s ++ [',', '\n']) = true := by
  induction s generalizing nl with
  | nil => rfl
  | cons c s ih => exact ih _

theorem lines_append (nl : Bool) (s t : List Char) (h : Lines true t) : Lines nl (s ++ [',', '\n'] ++ t) := by
  induction s generalizing nl with
  | nil => exact h
  | cons c s ih => exact ih _

theorem unpad {c : Char} (hc : c ≠ ' ') (nl : Bool) (u v x y : List Char) (hu : Lines nl u) (hv : Lines nl v)
    (h : padList nl u ++ c :: x = padList nl v ++ c :: y) : u = v ∧ x = y := by
  induction u generalizing nl v with
  | nil =>
    cases v with
    | nil => exact ⟨rfl, (List.cons.inj h).2⟩
    | cons d v =>
      have hn : nl = true := hu
      subst hn
      exact absurd (List.cons.inj h).1 hc
  | cons a u ih =>
    cases v with
    | nil =>
      have hn : nl = true := hv
      subst hn
      exact absurd (List.cons.inj h).1.symm hc
    | cons d v =>
      cases nl with
      | true =>
        simp only [padList, List.cons_append, List.cons.injEq, true_and] at h
        obtain ⟨rfl, h1⟩ := h
        obtain ⟨rfl, h2⟩ := ih _ v hu hv h1
        exact ⟨rfl, h2⟩
      | false =>
        simp only [padList, List.cons_append, List.cons.injEq] at h
        obtain ⟨rfl, h1⟩ := h
        obtain ⟨rfl, h2⟩ := ih _ v hu hv h1
        exact ⟨rfl, h2⟩

/-- the unindented entries -/
def body (l : List String) : List Char := l.flatMap fun s => s.toList ++ [',', '\n']

theorem body_lines (l : List String) : Lines true (body l) := by
  induction l with
  | nil => rfl
  | cons s l ih => exact lines_append true s.toList _ ih

theorem entries_eq (l : List String) : (String.join (l.map entry)).toList = padList true (body l) := by
  have key : ∀ l : List String, (l.map entry).flatMap String.toList = padList true (body l) := by
    intro l
    induction l with
    | nil => rfl
    | cons s l ih =>
      rw [show body (s :: l) = (s.toList ++ [',', '\n']) ++ body l from rfl, padList_append, endsLine_line, ← ih]
      simp [entry]
  have join : ∀ (l : List String) (acc : String),
      (l.foldl (fun r s => r ++ s) acc).toList = acc.toList ++ l.flatMap String.toList := by
    intro l
    induction l with
    | nil => intro acc; simp
    | cons s l ih => intro acc; simp [ih]
  rw [← key]
  exact join _ ""

theorem block_inj {op cl : String} {c : Char} {l m : List String} {x y : List Char} (hcl : cl.toList = [c]) (hc : c ≠ ' ')
    (e : (block op l cl).toList ++ x = (block op m cl).toList ++ y) : body l = body m ∧ x = y := by
  simp only [block, String.toList_append, entries_eq, hcl, List.append_assoc] at e
  exact unpad hc true _ _ x y (body_lines l) (body_lines m) (List.append_cancel_left (List.append_cancel_left e))

/-- the value can be read off an entry and what follows -/
def Neat {α : Type} (f : α → String) : Prop :=
  ∀ a b x y, (f a).toList ++ ([',', '\n'] ++ x) = (f b).toList ++ ([',', '\n'] ++ y) → a = b ∧ x = y

theorem Clean.neat {α : Type} {f : α → String} (h : Clean f) : Neat f := fun a b x y e => by
  obtain ⟨h1, h2⟩ := h.inj a b _ _ (.comma _) (.comma _) e
  exact ⟨h1, (List.cons.inj (List.cons.inj h2).2).2⟩

theorem Neat.eq {α : Type} {f : α → String} (h : Neat f) {a b : α} (e : f a = f b) : a = b :=
  (h a b [] [] (by rw [e])).1

/-- two texts that are equal as soon as they begin equal entries -/
def CompatP (s t : String) : Prop :=
  ∀ x y, s.toList ++ ([',', '\n'] ++ x) = t.toList ++ ([',', '\n'] ++ y) → s = t ∧ x = y

theorem Neat.compat {α : Type} {f : α → String} (h : Neat f) (a b : α) : CompatP (f a) (f b) := fun x y e => by
  obtain ⟨rfl, h2⟩ := h a b x y e
  exact ⟨rfl, h2⟩

theorem body_map_inj {α : Type} {f : α → String} (h : Neat f) (l m : List α) (e : body (l.map f) = body (m.map f)) : l = m := by
  induction l generalizing m with
  | nil => cases m with
    | nil => rfl
    | cons b m => simp [body] at e
  | cons a l ih => cases m with
    | nil => simp [body] at e
    | cons b m =>
      have e : (f a).toList ++ ([',', '\n'] ++ body (l.map f)) = (f b).toList ++ ([',', '\n'] ++ body (m.map f)) := by
        simpa [body] using e
      obtain ⟨rfl, h2⟩ := h a b _ _ e
      rw [ih m h2]

theorem body_one {s t : String} (e : body [s] = body [t]) : s = t := by
  have e : s.toList ++ [',', '\n'] = t.toList ++ [',', '\n'] := by simpa [body] using e
  exact String.toList_inj.1 (List.append_cancel_right e)

theorem tupleP_inj {n s t : String} {x y : List Char} (e : (fmtTupleP n s).toList ++ x = (fmtTupleP n t).toList ++ y) :
    s = t ∧ x = y := by
  obtain ⟨h1, h2⟩ := block_inj (c := ')') (by decide) (by decide) e
  exact ⟨body_one h1, h2⟩

theorem tupleP_toList (n s : String) (x : List Char) :
    (fmtTupleP n s).toList ++ x = n.toList ++ '(' :: ('\n' :: padList true (body [s]) ++ ')' :: x) := by
  have := entries_eq [s]
  simp only [fmtTupleP, block, String.toList_append, this, List.append_assoc]
  rfl

theorem Neat.option {α : Type} {f : α → String} (h : Neat f) : Neat (fmtOptionP f) := by
  intro a b x y e
  cases a with
  | none =>
    cases b with
    | none => exact ⟨rfl, List.append_cancel_left (List.append_cancel_left e)⟩
    | some b =>
      rw [show fmtOptionP f (some b) = fmtTupleP "Some" (f b) from rfl, tupleP_toList] at e
      simp [fmtOptionP] at e
  | some a =>
    cases b with
    | none =>
      rw [show fmtOptionP f (some a) = fmtTupleP "Some" (f a) from rfl, tupleP_toList] at e
      simp [fmtOptionP] at e
    | some b =>
      obtain ⟨h1, h2⟩ := tupleP_inj e
      exact ⟨by rw [h.eq h1], List.append_cancel_left h2⟩

theorem Neat.pair {α β : Type} {f : α → String} {g : β → String} (hf : Neat f) (hg : Neat g) : Neat (fmtPairP f g) := by
  intro a b x y e
  obtain ⟨h1, h2⟩ := block_inj (c := ')') (by decide) (by decide) e
  have e1 : (f a.1).toList ++ ([',', '\n'] ++ body [g a.2]) = (f b.1).toList ++ ([',', '\n'] ++ body [g b.2]) := by
    simpa [body] using h1
  obtain ⟨h3, h4⟩ := hf _ _ _ _ e1
  exact ⟨Prod.ext h3 (hg.eq (body_one h4)), List.append_cancel_left h2⟩

theorem vecP_cons {α : Type} (f : α → String) (a : α) (l : List α) : fmtVecP f (a :: l) = block "[" ((a :: l).map f) "]" := rfl

theorem Neat.vec {α : Type} {f : α → String} (h : Neat f) : Neat (fmtVecP f) := by
  intro a b x y e
  cases a with
  | nil => cases b with
    | nil => exact ⟨rfl, List.append_cancel_left (List.append_cancel_left e)⟩
    | cons b m =>
      rw [vecP_cons] at e
      simp [block, fmtVecP] at e
  | cons a l => cases b with
    | nil =>
      rw [vecP_cons] at e
      simp [block, fmtVecP] at e
    | cons b m =>
      obtain ⟨h1, h2⟩ := block_inj (c := ']') (by decide) (by decide) e
      exact ⟨body_map_inj h _ _ h1, List.append_cancel_left h2⟩

/-- fields with the same names and texts that can be told apart -/
inductive SameFieldsP : List (String × String) → List (String × String) → Prop where
  | nil : SameFieldsP [] []
  | cons {n s t : String} {fs gs : List (String × String)} (h : CompatP s t) (hs : SameFieldsP fs gs) :
      SameFieldsP ((n, s) :: fs) ((n, t) :: gs)

theorem fieldsP_inj {fs gs : List (String × String)} (h : SameFieldsP fs gs)
    (e : body (fs.map fun f => f.1 ++ ": " ++ f.2) = body (gs.map fun f => f.1 ++ ": " ++ f.2)) : fs = gs := by
  induction h with
  | nil => rfl
  | @cons n s t fs gs h hs ih =>
    simp only [body, List.map_cons, List.flatMap_cons, String.toList_append, List.append_assoc] at e
    obtain ⟨rfl, e1⟩ := h _ _ (List.append_cancel_left (List.append_cancel_left e))
    rw [ih e1]

theorem structP_inj {name : String} {fs gs : List (String × String)} {x y : List Char} (h : SameFieldsP fs gs)
    (e : (fmtStructP name fs).toList ++ ([',', '\n'] ++ x) = (fmtStructP name gs).toList ++ ([',', '\n'] ++ y)) :
    fs = gs ∧ x = y := by
  obtain ⟨h1, h2⟩ := block_inj (c := '}') (by decide) (by decide) e
  exact ⟨fieldsP_inj h h1, List.append_cancel_left h2⟩

theorem FixedHeader.neat : Neat (FixedHeader.pretty) := by
  intro a b x y e
  obtain ⟨h1, h2⟩ := structP_inj (.cons (Clean.u8.neat.compat _ _) <| .cons (Clean.nat.neat.compat _ _) <| .cons (Clean.nat.neat.compat _ _) <| .nil) e
  simp only [List.cons.injEq, Prod.mk.injEq, true_and, and_true] at h1
  refine ⟨?_, h2⟩
  cases a; cases b
  simp only [FixedHeader.mk.injEq]
  exact ⟨Clean.u8.neat.eq h1.1, Clean.nat.neat.eq h1.2.1, Clean.nat.neat.eq h1.2.2⟩
namespace V4
theorem ConnAck.neat : Neat (ConnAck.pretty) := by
  intro a b x y e
  obtain ⟨h1, h2⟩ := structP_inj (.cons (Clean.bool.neat.compat _ _) <| .cons (ConnectReturnCode.clean.neat.compat _ _) <| .nil) e
  simp only [List.cons.injEq, Prod.mk.injEq, true_and, and_true] at h1
  refine ⟨?_, h2⟩
  cases a; cases b
  simp only [ConnAck.mk.injEq]
  exact ⟨Clean.bool.neat.eq h1.1, ConnectReturnCode.clean.neat.eq h1.2⟩
theorem LastWill.neat (esc : Char → Bool) : Neat (LastWill.pretty esc) := by
  intro a b x y e
  obtain ⟨h1, h2⟩ := structP_inj (.cons ((Clean.str esc).neat.compat _ _) <| .cons (Clean.bytes.neat.compat _ _) <| .cons (Clean.qos.neat.compat _ _) <| .cons (Clean.bool.neat.compat _ _) <| .nil) e
  simp only [List.cons.injEq, Prod.mk.injEq, true_and, and_true] at h1
  refine ⟨?_, h2⟩
  cases a; cases b
  simp only [LastWill.mk.injEq]
  exact ⟨(Clean.str esc).neat.eq h1.1, Clean.bytes.neat.eq h1.2.1, Clean.qos.neat.eq h1.2.2.1, Clean.bool.neat.eq h1.2.2.2⟩
theorem Login.neat (esc : Char → Bool) : Neat (Login.pretty esc) := by
  intro a b x y e
  obtain ⟨h1, h2⟩ := structP_inj (.cons ((Clean.str esc).neat.compat _ _) <| .cons ((Clean.str esc).neat.compat _ _) <| .nil) e
  simp only [List.cons.injEq, Prod.mk.injEq, true_and, and_true] at h1
  refine ⟨?_, h2⟩
  cases a; cases b
  simp only [Login.mk.injEq]
  exact ⟨(Clean.str esc).neat.eq h1.1, (Clean.str esc).neat.eq h1.2⟩
theorem Connect.neat (esc : Char → Bool) : Neat (Connect.pretty esc) := by
  intro a b x y e
  obtain ⟨h1, h2⟩ := structP_inj (.cons (Protocol.clean.neat.compat _ _) <| .cons (Clean.u16.neat.compat _ _) <| .cons ((Clean.str esc).neat.compat _ _) <| .cons (Clean.bool.neat.compat _ _) <| .cons ((Neat.option (LastWill.neat esc)).compat _ _) <| .cons ((Neat.option (Login.neat esc)).compat _ _) <| .nil) e
  simp only [List.cons.injEq, Prod.mk.injEq, true_and, and_true] at h1
  refine ⟨?_, h2⟩
  cases a; cases b
  simp only [Connect.mk.injEq]
  exact ⟨Protocol.clean.neat.eq h1.1, Clean.u16.neat.eq h1.2.1, (Clean.str esc).neat.eq h1.2.2.1, Clean.bool.neat.eq h1.2.2.2.1, (Neat.option (LastWill.neat esc)).eq h1.2.2.2.2.1, (Neat.option (Login.neat esc)).eq h1.2.2.2.2.2⟩
theorem PubAck.neat : Neat (PubAck.pretty) := by
  intro a b x y e
  obtain ⟨h1, h2⟩ := structP_inj (.cons (Clean.u16.neat.compat _ _) <| .nil) e
  simp only [List.cons.injEq, Prod.mk.injEq, true_and, and_true] at h1
  refine ⟨?_, h2⟩
  cases a; cases b
  simp only [PubAck.mk.injEq]
  exact Clean.u16.neat.eq h1
theorem PubComp.neat : Neat (PubComp.pretty) := by
  intro a b x y e
  obtain ⟨h1, h2⟩ := structP_inj (.cons (Clean.u16.neat.compat _ _) <| .nil) e
  simp only [List.cons.injEq, Prod.mk.injEq, true_and, and_true] at h1
  refine ⟨?_, h2⟩
  cases a; cases b
  simp only [PubComp.mk.injEq]
  exact Clean.u16.neat.eq h1
theorem PubRec.neat : Neat (PubRec.pretty) := by
  intro a b x y e
  obtain ⟨h1, h2⟩ := structP_inj (.cons (Clean.u16.neat.compat _ _) <| .nil) e
  simp only [List.cons.injEq, Prod.mk.injEq, true_and, and_true] at h1
  refine ⟨?_, h2⟩
  cases a; cases b
  simp only [PubRec.mk.injEq]
  exact Clean.u16.neat.eq h1
theorem PubRel.neat : Neat (PubRel.pretty) := by
  intro a b x y e
  obtain ⟨h1, h2⟩ := structP_inj (.cons (Clean.u16.neat.compat _ _) <| .nil) e
  simp only [List.cons.injEq, Prod.mk.injEq, true_and, and_true] at h1
  refine ⟨?_, h2⟩
  cases a; cases b
  simp only [PubRel.mk.injEq]
  exact Clean.u16.neat.eq h1
theorem SubscribeReasonCode.neat : Neat SubscribeReasonCode.pretty := by
  intro a b x y e
  cases a with
  | Success q =>
    cases b with
    | Success r =>
      obtain ⟨h1, h2⟩ := tupleP_inj (x := [',', '\n'] ++ x) (y := [',', '\n'] ++ y) e
      exact ⟨by rw [Clean.qos.eq h1], List.append_cancel_left h2⟩
    | Failure => unfold SubscribeReasonCode.pretty at e; simp only [tupleP_toList] at e; simp at e
  | Failure =>
    cases b with
    | Success r => unfold SubscribeReasonCode.pretty at e; simp only [tupleP_toList] at e; simp at e
    | Failure => exact ⟨rfl, List.append_cancel_left (List.append_cancel_left e)⟩
theorem SubAck.neat : Neat (SubAck.pretty) := by
  intro a b x y e
  obtain ⟨h1, h2⟩ := structP_inj (.cons (Clean.u16.neat.compat _ _) <| .cons ((Neat.vec SubscribeReasonCode.neat).compat _ _) <| .nil) e
  simp only [List.cons.injEq, Prod.mk.injEq, true_and, and_true] at h1
  refine ⟨?_, h2⟩
  cases a; cases b
  simp only [SubAck.mk.injEq]
  exact ⟨Clean.u16.neat.eq h1.1, (Neat.vec SubscribeReasonCode.neat).eq h1.2⟩
theorem UnsubAck.neat : Neat (UnsubAck.pretty) := by
  intro a b x y e
  obtain ⟨h1, h2⟩ := structP_inj (.cons (Clean.u16.neat.compat _ _) <| .nil) e
  simp only [List.cons.injEq, Prod.mk.injEq, true_and, and_true] at h1
  refine ⟨?_, h2⟩
  cases a; cases b
  simp only [UnsubAck.mk.injEq]
  exact Clean.u16.neat.eq h1
theorem Unsubscribe.neat (esc : Char → Bool) : Neat (Unsubscribe.pretty esc) := by
  intro a b x y e
  obtain ⟨h1, h2⟩ := structP_inj (.cons (Clean.u16.neat.compat _ _) <| .cons ((Neat.vec (Clean.str esc).neat).compat _ _) <| .nil) e
  simp only [List.cons.injEq, Prod.mk.injEq, true_and, and_true] at h1
  refine ⟨?_, h2⟩
  cases a; cases b
  simp only [Unsubscribe.mk.injEq]
  exact ⟨Clean.u16.neat.eq h1.1, (Neat.vec (Clean.str esc).neat).eq h1.2⟩
end V4

namespace V5
theorem ReasonProps.neat (esc : Char → Bool) (name : String) : Neat (ReasonProps.pretty esc name) := by
  intro a b x y e
  obtain ⟨h1, h2⟩ := structP_inj (.cons ((Neat.option (Clean.str esc).neat).compat _ _) <| .cons ((Neat.vec (Neat.pair (Clean.str esc).neat (Clean.str esc).neat)).compat _ _) <| .nil) e
  simp only [List.cons.injEq, Prod.mk.injEq, true_and, and_true] at h1
  refine ⟨?_, h2⟩
  cases a; cases b
  simp only [ReasonProps.mk.injEq]
  exact ⟨(Neat.option (Clean.str esc).neat).eq h1.1, (Neat.vec (Neat.pair (Clean.str esc).neat (Clean.str esc).neat)).eq h1.2⟩
theorem ConnAckProperties.neat (esc : Char → Bool) : Neat (ConnAckProperties.pretty esc) := by
  intro a b x y e
  obtain ⟨h1, h2⟩ := structP_inj (.cons ((Neat.option Clean.u32.neat).compat _ _) <| .cons ((Neat.option Clean.u16.neat).compat _ _) <| .cons ((Neat.option Clean.u8.neat).compat _ _) <| .cons ((Neat.option Clean.u8.neat).compat _ _) <| .cons ((Neat.option Clean.u32.neat).compat _ _) <| .cons ((Neat.option (Clean.str esc).neat).compat _ _) <| .cons ((Neat.option Clean.u16.neat).compat _ _) <| .cons ((Neat.option (Clean.str esc).neat).compat _ _) <| .cons ((Neat.vec (Neat.pair (Clean.str esc).neat (Clean.str esc).neat)).compat _ _) <| .cons ((Neat.option Clean.u8.neat).compat _ _) <| .cons ((Neat.option Clean.u8.neat).compat _ _) <| .cons ((Neat.option Clean.u8.neat).compat _ _) <| .cons ((Neat.option Clean.u16.neat).compat _ _) <| .cons ((Neat.option (Clean.str esc).neat).compat _ _) <| .cons ((Neat.option (Clean.str esc).neat).compat _ _) <| .cons ((Neat.option (Clean.str esc).neat).compat _ _) <| .cons ((Neat.option Clean.bytes.neat).compat _ _) <| .nil) e
  simp only [List.cons.injEq, Prod.mk.injEq, true_and, and_true] at h1
  refine ⟨?_, h2⟩
  cases a; cases b
  simp only [ConnAckProperties.mk.injEq]
  exact ⟨(Neat.option Clean.u32.neat).eq h1.1, (Neat.option Clean.u16.neat).eq h1.2.1, (Neat.option Clean.u8.neat).eq h1.2.2.1, (Neat.option Clean.u8.neat).eq h1.2.2.2.1, (Neat.option Clean.u32.neat).eq h1.2.2.2.2.1, (Neat.option (Clean.str esc).neat).eq h1.2.2.2.2.2.1, (Neat.option Clean.u16.neat).eq h1.2.2.2.2.2.2.1, (Neat.option (Clean.str esc).neat).eq h1.2.2.2.2.2.2.2.1, (Neat.vec (Neat.pair (Clean.str esc).neat (Clean.str esc).neat)).eq h1.2.2.2.2.2.2.2.2.1, (Neat.option Clean.u8.neat).eq h1.2.2.2.2.2.2.2.2.2.1, (Neat.option Clean.u8.neat).eq h1.2.2.2.2.2.2.2.2.2.2.1, (Neat.option Clean.u8.neat).eq h1.2.2.2.2.2.2.2.2.2.2.2.1, (Neat.option Clean.u16.neat).eq h1.2.2.2.2.2.2.2.2.2.2.2.2.1, (Neat.option (Clean.str esc).neat).eq h1.2.2.2.2.2.2.2.2.2.2.2.2.2.1, (Neat.option (Clean.str esc).neat).eq h1.2.2.2.2.2.2.2.2.2.2.2.2.2.2.1, (Neat.option (Clean.str esc).neat).eq h1.2.2.2.2.2.2.2.2.2.2.2.2.2.2.2.1, (Neat.option Clean.bytes.neat).eq h1.2.2.2.2.2.2.2.2.2.2.2.2.2.2.2.2⟩
theorem ConnAck.neat (esc : Char → Bool) : Neat (ConnAck.pretty esc) := by
  intro a b x y e
  obtain ⟨h1, h2⟩ := structP_inj (.cons (Clean.bool.neat.compat _ _) <| .cons (ConnectReturnCode.clean.neat.compat _ _) <| .cons ((Neat.option (ConnAckProperties.neat esc)).compat _ _) <| .nil) e
  simp only [List.cons.injEq, Prod.mk.injEq, true_and, and_true] at h1
  refine ⟨?_, h2⟩
  cases a; cases b
  simp only [ConnAck.mk.injEq]
  exact ⟨Clean.bool.neat.eq h1.1, ConnectReturnCode.clean.neat.eq h1.2.1, (Neat.option (ConnAckProperties.neat esc)).eq h1.2.2⟩
theorem WillProperties.neat (esc : Char → Bool) : Neat (WillProperties.pretty esc) := by
  intro a b x y e
  obtain ⟨h1, h2⟩ := structP_inj (.cons ((Neat.option Clean.u32.neat).compat _ _) <| .cons ((Neat.option Clean.u8.neat).compat _ _) <| .cons ((Neat.option Clean.u32.neat).compat _ _) <| .cons ((Neat.option (Clean.str esc).neat).compat _ _) <| .cons ((Neat.option (Clean.str esc).neat).compat _ _) <| .cons ((Neat.option Clean.bytes.neat).compat _ _) <| .cons ((Neat.vec (Neat.pair (Clean.str esc).neat (Clean.str esc).neat)).compat _ _) <| .nil) e
  simp only [List.cons.injEq, Prod.mk.injEq, true_and, and_true] at h1
  refine ⟨?_, h2⟩
  cases a; cases b
  simp only [WillProperties.mk.injEq]
  exact ⟨(Neat.option Clean.u32.neat).eq h1.1, (Neat.option Clean.u8.neat).eq h1.2.1, (Neat.option Clean.u32.neat).eq h1.2.2.1, (Neat.option (Clean.str esc).neat).eq h1.2.2.2.1, (Neat.option (Clean.str esc).neat).eq h1.2.2.2.2.1, (Neat.option Clean.bytes.neat).eq h1.2.2.2.2.2.1, (Neat.vec (Neat.pair (Clean.str esc).neat (Clean.str esc).neat)).eq h1.2.2.2.2.2.2⟩
theorem LastWill.neat (esc : Char → Bool) : Neat (LastWill.pretty esc) := by
  intro a b x y e
  obtain ⟨h1, h2⟩ := structP_inj (.cons ((Clean.str esc).neat.compat _ _) <| .cons (Clean.bytes.neat.compat _ _) <| .cons (Clean.qos.neat.compat _ _) <| .cons (Clean.bool.neat.compat _ _) <| .cons ((Neat.option (WillProperties.neat esc)).compat _ _) <| .nil) e
  simp only [List.cons.injEq, Prod.mk.injEq, true_and, and_true] at h1
  refine ⟨?_, h2⟩
  cases a; cases b
  simp only [LastWill.mk.injEq]
  exact ⟨(Clean.str esc).neat.eq h1.1, Clean.bytes.neat.eq h1.2.1, Clean.qos.neat.eq h1.2.2.1, Clean.bool.neat.eq h1.2.2.2.1, (Neat.option (WillProperties.neat esc)).eq h1.2.2.2.2⟩
theorem Login.neat (esc : Char → Bool) : Neat (Login.pretty esc) := by
  intro a b x y e
  obtain ⟨h1, h2⟩ := structP_inj (.cons ((Clean.str esc).neat.compat _ _) <| .cons ((Clean.str esc).neat.compat _ _) <| .nil) e
  simp only [List.cons.injEq, Prod.mk.injEq, true_and, and_true] at h1
  refine ⟨?_, h2⟩
  cases a; cases b
  simp only [Login.mk.injEq]
  exact ⟨(Clean.str esc).neat.eq h1.1, (Clean.str esc).neat.eq h1.2⟩
theorem ConnectProperties.neat (esc : Char → Bool) : Neat (ConnectProperties.pretty esc) := by
  intro a b x y e
  obtain ⟨h1, h2⟩ := structP_inj (.cons ((Neat.option Clean.u32.neat).compat _ _) <| .cons ((Neat.option Clean.u16.neat).compat _ _) <| .cons ((Neat.option Clean.u32.neat).compat _ _) <| .cons ((Neat.option Clean.u16.neat).compat _ _) <| .cons ((Neat.option Clean.u8.neat).compat _ _) <| .cons ((Neat.option Clean.u8.neat).compat _ _) <| .cons ((Neat.vec (Neat.pair (Clean.str esc).neat (Clean.str esc).neat)).compat _ _) <| .cons ((Neat.option (Clean.str esc).neat).compat _ _) <| .cons ((Neat.option Clean.bytes.neat).compat _ _) <| .nil) e
  simp only [List.cons.injEq, Prod.mk.injEq, true_and, and_true] at h1
  refine ⟨?_, h2⟩
  cases a; cases b
  simp only [ConnectProperties.mk.injEq]
  exact ⟨(Neat.option Clean.u32.neat).eq h1.1, (Neat.option Clean.u16.neat).eq h1.2.1, (Neat.option Clean.u32.neat).eq h1.2.2.1, (Neat.option Clean.u16.neat).eq h1.2.2.2.1, (Neat.option Clean.u8.neat).eq h1.2.2.2.2.1, (Neat.option Clean.u8.neat).eq h1.2.2.2.2.2.1, (Neat.vec (Neat.pair (Clean.str esc).neat (Clean.str esc).neat)).eq h1.2.2.2.2.2.2.1, (Neat.option (Clean.str esc).neat).eq h1.2.2.2.2.2.2.2.1, (Neat.option Clean.bytes.neat).eq h1.2.2.2.2.2.2.2.2⟩
theorem Connect.neat (esc : Char → Bool) : Neat (Connect.pretty esc) := by
  intro a b x y e
  obtain ⟨h1, h2⟩ := structP_inj (.cons (Protocol.clean.neat.compat _ _) <| .cons (Clean.u16.neat.compat _ _) <| .cons ((Clean.str esc).neat.compat _ _) <| .cons (Clean.bool.neat.compat _ _) <| .cons ((Neat.option (LastWill.neat esc)).compat _ _) <| .cons ((Neat.option (Login.neat esc)).compat _ _) <| .cons ((Neat.option (ConnectProperties.neat esc)).compat _ _) <| .nil) e
  simp only [List.cons.injEq, Prod.mk.injEq, true_and, and_true] at h1
  refine ⟨?_, h2⟩
  cases a; cases b
  simp only [Connect.mk.injEq]
  exact ⟨Protocol.clean.neat.eq h1.1, Clean.u16.neat.eq h1.2.1, (Clean.str esc).neat.eq h1.2.2.1, Clean.bool.neat.eq h1.2.2.2.1, (Neat.option (LastWill.neat esc)).eq h1.2.2.2.2.1, (Neat.option (Login.neat esc)).eq h1.2.2.2.2.2.1, (Neat.option (ConnectProperties.neat esc)).eq h1.2.2.2.2.2.2⟩
theorem DisconnectProperties.neat (esc : Char → Bool) : Neat (DisconnectProperties.pretty esc) := by
  intro a b x y e
  obtain ⟨h1, h2⟩ := structP_inj (.cons ((Neat.option Clean.u32.neat).compat _ _) <| .cons ((Neat.option (Clean.str esc).neat).compat _ _) <| .cons ((Neat.vec (Neat.pair (Clean.str esc).neat (Clean.str esc).neat)).compat _ _) <| .cons ((Neat.option (Clean.str esc).neat).compat _ _) <| .nil) e
  simp only [List.cons.injEq, Prod.mk.injEq, true_and, and_true] at h1
  refine ⟨?_, h2⟩
  cases a; cases b
  simp only [DisconnectProperties.mk.injEq]
  exact ⟨(Neat.option Clean.u32.neat).eq h1.1, (Neat.option (Clean.str esc).neat).eq h1.2.1, (Neat.vec (Neat.pair (Clean.str esc).neat (Clean.str esc).neat)).eq h1.2.2.1, (Neat.option (Clean.str esc).neat).eq h1.2.2.2⟩
theorem Disconnect.neat (esc : Char → Bool) : Neat (Disconnect.pretty esc) := by
  intro a b x y e
  obtain ⟨h1, h2⟩ := structP_inj (.cons (DisconnectReasonCode.clean.neat.compat _ _) <| .cons ((Neat.option (DisconnectProperties.neat esc)).compat _ _) <| .nil) e
  simp only [List.cons.injEq, Prod.mk.injEq, true_and, and_true] at h1
  refine ⟨?_, h2⟩
  cases a; cases b
  simp only [Disconnect.mk.injEq]
  exact ⟨DisconnectReasonCode.clean.neat.eq h1.1, (Neat.option (DisconnectProperties.neat esc)).eq h1.2⟩
theorem PubAck.neat (esc : Char → Bool) : Neat (PubAck.pretty esc) := by
  intro a b x y e
  obtain ⟨h1, h2⟩ := structP_inj (.cons (Clean.u16.neat.compat _ _) <| .cons (PubAckReason.clean.neat.compat _ _) <| .cons ((Neat.option (ReasonProps.neat esc "PubAckProperties")).compat _ _) <| .nil) e
  simp only [List.cons.injEq, Prod.mk.injEq, true_and, and_true] at h1
  refine ⟨?_, h2⟩
  cases a; cases b
  simp only [Ack.mk.injEq]
  exact ⟨Clean.u16.neat.eq h1.1, PubAckReason.clean.neat.eq h1.2.1, (Neat.option (ReasonProps.neat esc "PubAckProperties")).eq h1.2.2⟩
theorem PubComp.neat (esc : Char → Bool) : Neat (PubComp.pretty esc) := by
  intro a b x y e
  obtain ⟨h1, h2⟩ := structP_inj (.cons (Clean.u16.neat.compat _ _) <| .cons (PubCompReason.clean.neat.compat _ _) <| .cons ((Neat.option (ReasonProps.neat esc "PubCompProperties")).compat _ _) <| .nil) e
  simp only [List.cons.injEq, Prod.mk.injEq, true_and, and_true] at h1
  refine ⟨?_, h2⟩
  cases a; cases b
  simp only [Ack.mk.injEq]
  exact ⟨Clean.u16.neat.eq h1.1, PubCompReason.clean.neat.eq h1.2.1, (Neat.option (ReasonProps.neat esc "PubCompProperties")).eq h1.2.2⟩
theorem PublishProperties.neat (esc : Char → Bool) : Neat (PublishProperties.pretty esc) := by
  intro a b x y e
  obtain ⟨h1, h2⟩ := structP_inj (.cons ((Neat.option Clean.u8.neat).compat _ _) <| .cons ((Neat.option Clean.u32.neat).compat _ _) <| .cons ((Neat.option Clean.u16.neat).compat _ _) <| .cons ((Neat.option (Clean.str esc).neat).compat _ _) <| .cons ((Neat.option Clean.bytes.neat).compat _ _) <| .cons ((Neat.vec (Neat.pair (Clean.str esc).neat (Clean.str esc).neat)).compat _ _) <| .cons ((Neat.vec Clean.nat.neat).compat _ _) <| .cons ((Neat.option (Clean.str esc).neat).compat _ _) <| .nil) e
  simp only [List.cons.injEq, Prod.mk.injEq, true_and, and_true] at h1
  refine ⟨?_, h2⟩
  cases a; cases b
  simp only [PublishProperties.mk.injEq]
  exact ⟨(Neat.option Clean.u8.neat).eq h1.1, (Neat.option Clean.u32.neat).eq h1.2.1, (Neat.option Clean.u16.neat).eq h1.2.2.1, (Neat.option (Clean.str esc).neat).eq h1.2.2.2.1, (Neat.option Clean.bytes.neat).eq h1.2.2.2.2.1, (Neat.vec (Neat.pair (Clean.str esc).neat (Clean.str esc).neat)).eq h1.2.2.2.2.2.1, (Neat.vec Clean.nat.neat).eq h1.2.2.2.2.2.2.1, (Neat.option (Clean.str esc).neat).eq h1.2.2.2.2.2.2.2⟩
theorem PubRec.neat (esc : Char → Bool) : Neat (PubRec.pretty esc) := by
  intro a b x y e
  obtain ⟨h1, h2⟩ := structP_inj (.cons (Clean.u16.neat.compat _ _) <| .cons (PubRecReason.clean.neat.compat _ _) <| .cons ((Neat.option (ReasonProps.neat esc "PubRecProperties")).compat _ _) <| .nil) e
  simp only [List.cons.injEq, Prod.mk.injEq, true_and, and_true] at h1
  refine ⟨?_, h2⟩
  cases a; cases b
  simp only [Ack.mk.injEq]
  exact ⟨Clean.u16.neat.eq h1.1, PubRecReason.clean.neat.eq h1.2.1, (Neat.option (ReasonProps.neat esc "PubRecProperties")).eq h1.2.2⟩
theorem PubRel.neat (esc : Char → Bool) : Neat (PubRel.pretty esc) := by
  intro a b x y e
  obtain ⟨h1, h2⟩ := structP_inj (.cons (Clean.u16.neat.compat _ _) <| .cons (PubRelReason.clean.neat.compat _ _) <| .cons ((Neat.option (ReasonProps.neat esc "PubRelProperties")).compat _ _) <| .nil) e
  simp only [List.cons.injEq, Prod.mk.injEq, true_and, and_true] at h1
  refine ⟨?_, h2⟩
  cases a; cases b
  simp only [Ack.mk.injEq]
  exact ⟨Clean.u16.neat.eq h1.1, PubRelReason.clean.neat.eq h1.2.1, (Neat.option (ReasonProps.neat esc "PubRelProperties")).eq h1.2.2⟩
theorem SubAck.neat (esc : Char → Bool) : Neat (SubAck.pretty esc) := by
  intro a b x y e
  obtain ⟨h1, h2⟩ := structP_inj (.cons (Clean.u16.neat.compat _ _) <| .cons ((Neat.vec SubscribeReasonCode.clean.neat).compat _ _) <| .cons ((Neat.option (ReasonProps.neat esc "SubAckProperties")).compat _ _) <| .nil) e
  simp only [List.cons.injEq, Prod.mk.injEq, true_and, and_true] at h1
  refine ⟨?_, h2⟩
  cases a; cases b
  simp only [SubAck.mk.injEq]
  exact ⟨Clean.u16.neat.eq h1.1, (Neat.vec SubscribeReasonCode.clean.neat).eq h1.2.1, (Neat.option (ReasonProps.neat esc "SubAckProperties")).eq h1.2.2⟩
theorem SubscribeProperties.neat (esc : Char → Bool) : Neat (SubscribeProperties.pretty esc) := by
  intro a b x y e
  obtain ⟨h1, h2⟩ := structP_inj (.cons ((Neat.option Clean.nat.neat).compat _ _) <| .cons ((Neat.vec (Neat.pair (Clean.str esc).neat (Clean.str esc).neat)).compat _ _) <| .nil) e
  simp only [List.cons.injEq, Prod.mk.injEq, true_and, and_true] at h1
  refine ⟨?_, h2⟩
  cases a; cases b
  simp only [SubscribeProperties.mk.injEq]
  exact ⟨(Neat.option Clean.nat.neat).eq h1.1, (Neat.vec (Neat.pair (Clean.str esc).neat (Clean.str esc).neat)).eq h1.2⟩
theorem UnsubAck.neat (esc : Char → Bool) : Neat (UnsubAck.pretty esc) := by
  intro a b x y e
  obtain ⟨h1, h2⟩ := structP_inj (.cons (Clean.u16.neat.compat _ _) <| .cons ((Neat.vec UnsubAckReason.clean.neat).compat _ _) <| .cons ((Neat.option (ReasonProps.neat esc "UnsubAckProperties")).compat _ _) <| .nil) e
  simp only [List.cons.injEq, Prod.mk.injEq, true_and, and_true] at h1
  refine ⟨?_, h2⟩
  cases a; cases b
  simp only [UnsubAck.mk.injEq]
  exact ⟨Clean.u16.neat.eq h1.1, (Neat.vec UnsubAckReason.clean.neat).eq h1.2.1, (Neat.option (ReasonProps.neat esc "UnsubAckProperties")).eq h1.2.2⟩
theorem UnsubscribeProperties.neat (esc : Char → Bool) : Neat (UnsubscribeProperties.pretty esc) := by
  intro a b x y e
  obtain ⟨h1, h2⟩ := structP_inj (.cons ((Neat.vec (Neat.pair (Clean.str esc).neat (Clean.str esc).neat)).compat _ _) <| .nil) e
  simp only [List.cons.injEq, Prod.mk.injEq, true_and, and_true] at h1
  refine ⟨?_, h2⟩
  cases a; cases b
  simp only [UnsubscribeProperties.mk.injEq]
  exact (Neat.vec (Neat.pair (Clean.str esc).neat (Clean.str esc).neat)).eq h1
theorem Unsubscribe.neat (esc : Char → Bool) : Neat (Unsubscribe.pretty esc) := by
  intro a b x y e
  obtain ⟨h1, h2⟩ := structP_inj (.cons (Clean.u16.neat.compat _ _) <| .cons ((Neat.vec (Clean.str esc).neat).compat _ _) <| .cons ((Neat.option (UnsubscribeProperties.neat esc)).compat _ _) <| .nil) e
  simp only [List.cons.injEq, Prod.mk.injEq, true_and, and_true] at h1
  refine ⟨?_, h2⟩
  cases a; cases b
  simp only [Unsubscribe.mk.injEq]
  exact ⟨Clean.u16.neat.eq h1.1, (Neat.vec (Clean.str esc).neat).eq h1.2.1, (Neat.option (UnsubscribeProperties.neat esc)).eq h1.2.2⟩
end V5
end Mqtt
