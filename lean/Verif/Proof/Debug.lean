import Verif.Model.Debug
import Verif.Props.Fmt
/-! Derived `Debug` texts can be read back. -/
namespace Mqtt
open Props

/-- what can follow a value inside a larger text -/
def End (x : List Char) : Prop := x = [] ∨ ∃ c t, x = c :: t ∧ c.isAlphanum = false ∧ c ≠ '"' ∧ c ≠ '\\'

theorem End.nil : End [] := .inl rfl
theorem End.cons {c : Char} {t : List Char} (h : c.isAlphanum = false ∧ c ≠ '"' ∧ c ≠ '\\') : End (c :: t) :=
  .inr ⟨c, t, rfl, h⟩
theorem End.paren (t : List Char) : End (')' :: t) := .cons (by decide)
theorem End.brack (t : List Char) : End (']' :: t) := .cons (by decide)
theorem End.comma (t : List Char) : End (',' :: t) := .cons (by decide)
theorem End.sep (t : List Char) : End (", ".toList ++ t) := .comma (' ' :: t)
theorem End.space (t : List Char) : End (' ' :: t) := .cons (by decide)

/-- the value can be read off its text and what follows -/
structure Clean {α : Type} (f : α → String) : Prop where
  inj : ∀ a b x y, End x → End y → (f a).toList ++ x = (f b).toList ++ y → a = b ∧ x = y
  start : ∀ a, ∃ c cs, (f a).toList = c :: cs ∧ c ≠ ']'

theorem Clean.eq {α : Type} {f : α → String} (h : Clean f) {a b : α} (e : f a = f b) : a = b :=
  (h.inj a b [] [] .nil .nil (by rw [e])).1

/-- two texts that are equal as soon as they begin equal texts -/
def Compat (s t : String) : Prop := ∀ x y, End x → End y → s.toList ++ x = t.toList ++ y → s = t ∧ x = y

theorem Clean.compat {α : Type} {f : α → String} (h : Clean f) (a b : α) : Compat (f a) (f b) := fun x y hx hy e => by
  obtain ⟨rfl, h2⟩ := h.inj a b x y hx hy e
  exact ⟨rfl, h2⟩

/-- ### words -/
theorem span {P : Char → Bool} {a b x y : List Char} (ha : ∀ c ∈ a, P c = true) (hb : ∀ c ∈ b, P c = true)
    (hx : ∀ c t, x = c :: t → P c = false) (hy : ∀ c t, y = c :: t → P c = false) (h : a ++ x = b ++ y) :
    a = b ∧ x = y := by
  induction a generalizing b with
  | nil =>
    cases b with
    | nil => exact ⟨rfl, h⟩
    | cons d b =>
      have := hx d (b ++ y) h
      rw [hb d (.head _)] at this; exact absurd this (by decide)
  | cons c a ih =>
    cases b with
    | nil =>
      have := hy c (a ++ x) h.symm
      rw [ha c (.head _)] at this; exact absurd this (by decide)
    | cons d b =>
      obtain ⟨rfl, h1⟩ := List.cons.inj h
      obtain ⟨rfl, h2⟩ := ih (fun c hc => ha c (.tail _ hc)) (fun c hc => hb c (.tail _ hc)) h1
      exact ⟨rfl, h2⟩

theorem End.not_word {x : List Char} (h : End x) (c : Char) (t : List Char) (e : x = c :: t) : c.isAlphanum = false := by
  rcases h with rfl | ⟨d, u, rfl, h, _⟩
  · cases e
  · cases e; exact h

theorem Clean.word {α : Type} {f : α → String} (hw : ∀ a, (f a).toList ≠ [] ∧ ∀ c ∈ (f a).toList, c.isAlphanum = true)
    (hi : ∀ a b, f a = f b → a = b) : Clean f where
  inj a b x y hx hy h := by
    obtain ⟨h1, h2⟩ := span (P := Char.isAlphanum) (hw a).2 (hw b).2 hx.not_word hy.not_word h
    exact ⟨hi a b (String.toList_inj.1 h1), h2⟩
  start a := by
    have h := hw a
    cases e : (f a).toList with
    | nil => exact absurd e h.1
    | cons c cs =>
      refine ⟨c, cs, rfl, fun hc => ?_⟩
      have := h.2 c (by rw [e]; exact .head _)
      rw [hc] at this; exact absurd this (by decide)

theorem Clean.nat : Clean fmtNat := .word (fun n => ⟨by simp [fmtNat, Nat.repr], fun c hc => by
    have := nat_digits n c hc
    simp [Char.isAlphanum, this]⟩) fun _ _ h => nat_inj (congrArg _ h)

theorem Clean.comap {α β : Type} {f : α → String} (h : Clean f) (g : β → α) (hg : ∀ a b, g a = g b → a = b) :
    Clean fun b => f (g b) where
  inj a b x y hx hy e := by
    obtain ⟨h1, h2⟩ := h.inj _ _ x y hx hy e
    exact ⟨hg _ _ h1, h2⟩
  start a := h.start _

theorem Clean.u8 : Clean fmtU8 := Clean.nat.comap UInt8.toNat fun _ _ => UInt8.toNat_inj.1
theorem Clean.u16 : Clean fmtU16 := Clean.nat.comap UInt16.toNat fun _ _ => UInt16.toNat_inj.1
theorem Clean.u32 : Clean fmtU32 := Clean.nat.comap UInt32.toNat fun _ _ => UInt32.toNat_inj.1
theorem Clean.bool : Clean fmtBool :=
  .word (by intro a; cases a <;> decide) fun a b => by cases a <;> cases b <;> decide
theorem Clean.qos : Clean QoS.debug :=
  .word (by intro a; cases a <;> decide) fun a b => by cases a <;> cases b <;> decide

/-! ### `Option`, pairs, lists -/
theorem tuple_toList (n s : String) (x : List Char) :
    (fmtTuple n s).toList ++ x = n.toList ++ '(' :: (s.toList ++ ')' :: x) := by
  simp [fmtTuple]

theorem Clean.option {α : Type} {f : α → String} (h : Clean f) : Clean (fmtOption f) where
  inj a b x y hx hy e := by
    cases a with
    | none =>
      cases b with
      | none => exact ⟨rfl, List.append_cancel_left e⟩
      | some b => rw [show fmtOption f (some b) = fmtTuple "Some" (f b) from rfl, tuple_toList] at e; simp [fmtOption] at e
    | some a =>
      cases b with
      | none => rw [show fmtOption f (some a) = fmtTuple "Some" (f a) from rfl, tuple_toList] at e; simp [fmtOption] at e
      | some b =>
        rw [show fmtOption f (some a) = fmtTuple "Some" (f a) from rfl, tuple_toList,
          show fmtOption f (some b) = fmtTuple "Some" (f b) from rfl, tuple_toList] at e
        obtain ⟨h1, h2⟩ := h.inj a b _ _ (.paren _) (.paren _) (List.cons.inj (List.append_cancel_left e)).2
        exact ⟨by rw [h1], (List.cons.inj h2).2⟩
  start a := by
    cases a with
    | none => exact ⟨'N', ['o', 'n', 'e'], by simp [fmtOption], by decide⟩
    | some a => exact ⟨'S', "ome(".toList ++ (f a).toList ++ [')'], by simp [fmtOption, fmtTuple], by decide⟩

theorem Clean.pair {α β : Type} {f : α → String} {g : β → String} (hf : Clean f) (hg : Clean g) : Clean (fmtPair f g) where
  inj a b x y hx hy e := by
    unfold fmtPair at e
    rw [tuple_toList, tuple_toList] at e
    simp only [String.toList_append, List.append_assoc] at e
    have e := (List.cons.inj (List.append_cancel_left e)).2
    obtain ⟨h1, e⟩ := hf.inj a.1 b.1 _ _ (.sep _) (.sep _) e
    have e := (List.append_cancel_left e)
    obtain ⟨h2, e⟩ := hg.inj a.2 b.2 _ _ (.paren _) (.paren _) e
    exact ⟨Prod.ext h1 h2, (List.cons.inj e).2⟩
  start a := ⟨'(', (f a.1).toList ++ ", ".toList ++ (g a.2).toList ++ [')'], by simp [fmtPair, fmtTuple], by decide⟩

theorem items_inj {α : Type} {f : α → String} (h : Clean f) (l m : List α) (x y : List Char)
    (e : (", ".intercalate (l.map f)).toList ++ ']' :: x = (", ".intercalate (m.map f)).toList ++ ']' :: y) :
    l = m ∧ x = y := by
  have start : ∀ (a : α) (l : List α) (w : List Char), ∃ c cs,
      (", ".intercalate ((a :: l).map f)).toList ++ w = c :: cs ∧ c ≠ ']' := by
    intro a l w
    obtain ⟨c, cs, hc, hn⟩ := h.start a
    cases l with
    | nil => exact ⟨c, cs ++ w, by simp [hc], hn⟩
    | cons b l =>
      refine ⟨c, cs ++ ", ".toList ++ (", ".intercalate ((b :: l).map f)).toList ++ w, ?_, hn⟩
      simp only [List.map_cons, String.intercalate_cons_cons, String.toList_append, hc, List.cons_append]
  induction l generalizing m with
  | nil =>
    cases m with
    | nil => exact ⟨rfl, by simpa using e⟩
    | cons b m =>
      obtain ⟨c, cs, hc, hn⟩ := start b m (']' :: y)
      rw [hc] at e
      simp at e
      exact absurd e.1.symm hn
  | cons a l ih =>
    cases m with
    | nil =>
      obtain ⟨c, cs, hc, hn⟩ := start a l (']' :: x)
      rw [hc] at e
      simp at e
      exact absurd e.1 hn
    | cons b m =>
      have ih := ih m
      cases l with
      | nil =>
        cases m with
        | nil =>
          simp only [List.map_cons, List.map_nil, String.intercalate_singleton] at e
          obtain ⟨h1, h2⟩ := h.inj a b _ _ (.brack _) (.brack _) e
          exact ⟨by rw [h1], (List.cons.inj h2).2⟩
        | cons z m =>
          simp only [List.map_cons, List.map_nil, String.intercalate_singleton, String.intercalate_cons_cons,
            String.toList_append, List.append_assoc] at e
          have e := (h.inj a b _ _ (.brack _) (.comma _) e).2
          exact absurd (List.cons.inj e).1 (by decide)
      | cons w l =>
        cases m with
        | nil =>
          simp only [List.map_cons, List.map_nil, String.intercalate_singleton, String.intercalate_cons_cons,
            String.toList_append, List.append_assoc] at e
          have e := (h.inj a b _ _ (.comma _) (.brack _) e).2
          exact absurd (List.cons.inj e).1 (by decide)
        | cons z m =>
          rw [List.map_cons, List.map_cons, String.intercalate_cons_cons, ← List.map_cons,
            List.map_cons (l := z :: m), List.map_cons (l := m), String.intercalate_cons_cons, ← List.map_cons] at e
          simp only [String.toList_append, List.append_assoc] at e
          obtain ⟨h0, e⟩ := h.inj a b _ _ (.sep _) (.sep _) e
          obtain ⟨h1, h2⟩ := ih (List.append_cancel_left e)
          exact ⟨by rw [h0, h1], h2⟩

theorem Clean.vec {α : Type} {f : α → String} (h : Clean f) : Clean (fmtVec f) where
  inj a b x y _ _ e := by
    simp only [fmtVec, fmtList, String.toList_append, List.append_assoc] at e
    exact items_inj h a b x y (List.append_cancel_left e)
  start a := ⟨'[', (", ".intercalate (a.map f)).toList ++ [']'], by simp [fmtVec, fmtList], by decide⟩

/-! ### structs -/
/-- fields with the same names and texts that can be told apart -/
inductive SameFields : List (String × String) → List (String × String) → Prop where
  | nil : SameFields [] []
  | cons {n s t : String} {fs gs : List (String × String)} (h : Compat s t) (hs : SameFields fs gs) :
      SameFields ((n, s) :: fs) ((n, t) :: gs)

theorem fields_inj (fs gs : List (String × String)) (h : SameFields fs gs)
    (x y : List Char)
    (e : (", ".intercalate (fs.map fun f => f.1 ++ ": " ++ f.2)).toList ++ ' ' :: x
      = (", ".intercalate (gs.map fun f => f.1 ++ ": " ++ f.2)).toList ++ ' ' :: y) : fs = gs ∧ x = y := by
  induction h with
  | nil => exact ⟨rfl, by simpa using e⟩
  | cons h2 hs ih =>
    cases hs with
    | nil =>
      simp only [List.map_cons, List.map_nil, String.intercalate_singleton, String.toList_append, List.append_assoc] at e
      have e := List.append_cancel_left (List.append_cancel_left e)
      obtain ⟨rfl, e2⟩ := h2 _ _ (.space _) (.space _) e
      exact ⟨rfl, (List.cons.inj e2).2⟩
    | cons h' hs' =>
      simp only [List.map_cons, String.intercalate_cons_cons, String.toList_append, List.append_assoc] at e
      have e := List.append_cancel_left (List.append_cancel_left e)
      obtain ⟨rfl, e2⟩ := h2 _ _ (.sep _) (.sep _) e
      obtain ⟨h3, h4⟩ := ih (List.append_cancel_left e2)
      exact ⟨by rw [h3], h4⟩

theorem struct_inj {name : String} {fs gs : List (String × String)} {x y : List Char}
    (h : SameFields fs gs)
    (e : (fmtStruct name fs).toList ++ x = (fmtStruct name gs).toList ++ y) : fs = gs ∧ x = y := by
  simp only [fmtStruct, String.toList_append, List.append_assoc] at e
  have e := List.append_cancel_left (List.append_cancel_left e)
  obtain ⟨h1, h2⟩ := fields_inj fs gs h ('}' :: x) ('}' :: y) e
  exact ⟨h1, (List.cons.inj h2).2⟩

theorem struct_start (name : String) (fs : List (String × String))
    (h : name.toList.head?.isSome = true ∧ name.toList.head? ≠ some ']') :
    ∃ c cs, (fmtStruct name fs).toList = c :: cs ∧ c ≠ ']' := by
  cases e : name.toList with
  | nil => rw [e] at h; exact absurd h.1 (by decide)
  | cons c cs =>
    rw [e] at h
    simp only [fmtStruct, String.toList_append, e, List.cons_append]
    exact ⟨c, _, rfl, fun hc => h.2 (by rw [hc]; rfl)⟩

/-! ### strings -/
theorem digitChar_inj {m n : Nat} (hm : m < 16) (hn : n < 16) (h : Nat.digitChar m = Nat.digitChar n) : m = n := by
  revert h
  have : ∀ a : Fin 16, ∀ b : Fin 16, Nat.digitChar a.val = Nat.digitChar b.val → a.val = b.val := by decide
  exact this ⟨m, hm⟩ ⟨n, hn⟩
theorem digitChar_word (n : Nat) (h : n < 16) : Nat.digitChar n ≠ '}' := by
  have : ∀ a : Fin 16, Nat.digitChar a.val ≠ '}' := by decide
  exact this ⟨n, h⟩

theorem hex_inj (m : Nat) : ∀ n, hexDigits m = hexDigits n → m = n := by
  induction m using Nat.strongRecOn with
  | _ m ih =>
    intro n h
    unfold hexDigits at h ih
    rw [Nat.toDigits_eq_if (by decide), Nat.toDigits_eq_if (n := n) (by decide)] at h
    by_cases hm : m < 16
    · by_cases hn : n < 16
      · rw [if_pos hm, if_pos hn] at h
        exact digitChar_inj hm hn (List.cons.inj h).1
      · rw [if_pos hm, if_neg hn] at h
        have := congrArg List.length h
        have h2 : 0 < (Nat.toDigits 16 (n / 16)).length := Nat.length_toDigits_pos
        simp at this
    · by_cases hn : n < 16
      · rw [if_neg hm, if_pos hn] at h
        have := congrArg List.length h
        have h2 : 0 < (Nat.toDigits 16 (m / 16)).length := Nat.length_toDigits_pos
        simp at this
      · rw [if_neg hm, if_neg hn] at h
        obtain ⟨h1, h2⟩ := List.append_inj' h rfl
        have h1 := ih (m / 16) (by omega) _ h1
        have h2 := digitChar_inj (Nat.mod_lt _ (by decide)) (Nat.mod_lt _ (by decide)) (List.cons.inj h2).1
        omega

theorem hex_no_brace (m : Nat) : '}' ∉ hexDigits m := by
  induction m using Nat.strongRecOn with
  | _ m ih =>
    unfold hexDigits at *
    rw [Nat.toDigits_eq_if (by decide)]
    by_cases hm : m < 16
    · rw [if_pos hm]
      simp only [List.mem_singleton]
      exact fun h => digitChar_word m hm h.symm
    · rw [if_neg hm, List.mem_append, not_or]
      refine ⟨ih _ (by omega), ?_⟩
      simp only [List.mem_singleton]
      exact fun h => digitChar_word _ (Nat.mod_lt _ (by decide)) h.symm

/-- what `escChar` yields: a backslash and a letter, a hexadecimal escape, or the character itself -/
theorem escChar_cases (esc : Char → Bool) (c : Char) :
    (∃ k, escChar esc c = ['\\', k] ∧ (c, k) ∈ [('\x00', '0'), ('\t', 't'), ('\r', 'r'), ('\n', 'n'), ('\\', '\\'), ('"', '"')])
    ∨ escChar esc c = '\\' :: 'u' :: '{' :: (hexDigits c.toNat ++ ['}'])
    ∨ (escChar esc c = [c] ∧ c ≠ '\\' ∧ c ≠ '"') := by
  unfold escChar
  by_cases h1 : c = '\x00'
  · rw [if_pos h1]; exact .inl ⟨_, rfl, by simp [h1]⟩
  rw [if_neg h1]
  by_cases h2 : c = '\t'
  · rw [if_pos h2]; exact .inl ⟨_, rfl, by simp [h2]⟩
  rw [if_neg h2]
  by_cases h3 : c = '\r'
  · rw [if_pos h3]; exact .inl ⟨_, rfl, by simp [h3]⟩
  rw [if_neg h3]
  by_cases h4 : c = '\n'
  · rw [if_pos h4]; exact .inl ⟨_, rfl, by simp [h4]⟩
  rw [if_neg h4]
  by_cases h5 : c = '\\'
  · rw [if_pos h5]; exact .inl ⟨_, rfl, by simp [h5]⟩
  rw [if_neg h5]
  by_cases h6 : c = '"'
  · rw [if_pos h6]; exact .inl ⟨_, rfl, by simp [h6]⟩
  rw [if_neg h6]
  split
  · exact .inr (.inl rfl)
  · exact .inr (.inr ⟨rfl, h5, h6⟩)

theorem pairs_inj {c d k : Char}
    (hc : (c, k) ∈ [('\x00', '0'), ('\t', 't'), ('\r', 'r'), ('\n', 'n'), ('\\', '\\'), ('"', '"')])
    (hd : (d, k) ∈ [('\x00', '0'), ('\t', 't'), ('\r', 'r'), ('\n', 'n'), ('\\', '\\'), ('"', '"')]) : c = d := by
  simp only [List.mem_cons, Prod.mk.injEq, List.not_mem_nil, or_false] at hc hd
  rcases hc with ⟨rfl, rfl⟩ | ⟨rfl, rfl⟩ | ⟨rfl, rfl⟩ | ⟨rfl, rfl⟩ | ⟨rfl, rfl⟩ | ⟨rfl, rfl⟩ <;>
    rcases hd with ⟨rfl, hd⟩ | ⟨rfl, hd⟩ | ⟨rfl, hd⟩ | ⟨rfl, hd⟩ | ⟨rfl, hd⟩ | ⟨rfl, hd⟩ <;>
    first | rfl | exact absurd hd (by decide)
theorem pairs_not_u {c : Char}
    (hc : (c, 'u') ∈ [('\x00', '0'), ('\t', 't'), ('\r', 'r'), ('\n', 'n'), ('\\', '\\'), ('"', '"')]) : False := by
  simp at hc

theorem escChar_inj (esc : Char → Bool) (c d : Char) (x y : List Char) (h : escChar esc c ++ x = escChar esc d ++ y) :
    c = d ∧ x = y := by
  rcases escChar_cases esc c with ⟨k, e1, m1⟩ | e1 | ⟨e1, n1, _⟩ <;>
    rcases escChar_cases esc d with ⟨k', e2, m2⟩ | e2 | ⟨e2, n2, _⟩ <;> rw [e1, e2] at h <;>
    simp only [List.cons_append, List.nil_append, List.cons.injEq, List.append_assoc, true_and] at h
  · obtain ⟨rfl, h⟩ := h
    exact ⟨pairs_inj m1 m2, h⟩
  · obtain ⟨rfl, h⟩ := h; exact (pairs_not_u m1).elim
  · exact absurd h.1.symm n2
  · obtain ⟨rfl, h⟩ := h; exact (pairs_not_u m2).elim
  · obtain ⟨h1, h2⟩ := split_first (hex_no_brace _) (hex_no_brace _) h
    exact ⟨Char.toNat_inj.1 (hex_inj _ _ h1), h2⟩
  · exact absurd h.1.symm n2
  · exact absurd h.1 n1
  · exact absurd h.1 n1
  · exact h

theorem escChar_start (esc : Char → Bool) (c : Char) : ∃ d t, escChar esc c = d :: t ∧ d ≠ '"' := by
  rcases escChar_cases esc c with ⟨k, e1, m1⟩ | e1 | ⟨e1, _, n1⟩
  · exact ⟨_, _, e1, by decide⟩
  · exact ⟨_, _, e1, by decide⟩
  · exact ⟨_, _, e1, n1⟩

/-- a code in which each item can be read off and none begins with the closing quote -/
theorem quoted_inj {α : Type} {code : α → List Char}
    (hi : ∀ c d x y, code c ++ x = code d ++ y → c = d ∧ x = y) (hs : ∀ c, ∃ d t, code c = d :: t ∧ d ≠ '"')
    (l m : List α) (x y : List Char) (h : l.flatMap code ++ '"' :: x = m.flatMap code ++ '"' :: y) : l = m ∧ x = y := by
  induction l generalizing m with
  | nil =>
    cases m with
    | nil => exact ⟨rfl, (List.cons.inj h).2⟩
    | cons d m =>
      obtain ⟨e, t, he, hn⟩ := hs d
      rw [List.flatMap_cons, he] at h
      exact absurd (List.cons.inj h).1.symm hn
  | cons c l ih =>
    cases m with
    | nil =>
      obtain ⟨e, t, he, hn⟩ := hs c
      rw [List.flatMap_cons, he] at h
      exact absurd (List.cons.inj h).1 hn
    | cons d m =>
      rw [List.flatMap_cons, List.flatMap_cons, List.append_assoc, List.append_assoc] at h
      obtain ⟨rfl, h1⟩ := hi _ _ _ _ h
      obtain ⟨rfl, h2⟩ := ih m h1
      exact ⟨rfl, h2⟩

theorem Clean.str (esc : Char → Bool) : Clean (fmtStr esc) where
  inj a b x y _ _ e := by
    simp only [fmtStr, String.toList_ofList, List.cons_append, List.append_assoc, List.nil_append] at e
    obtain ⟨h1, h2⟩ := quoted_inj (escChar_inj esc) (escChar_start esc) _ _ _ _ (List.cons.inj e).2
    exact ⟨String.toList_inj.1 h1, h2⟩
  start a := ⟨'"', _, String.toList_ofList, by decide⟩

/-! ### bytes -/
/-- the bytes printed as a backslash and one character -/
def byteTable : List (UInt8 × Char) := [(10, 'n'), (13, 'r'), (9, 't'), (92, '\\'), (34, '"'), (0, '0')]

theorem escByte_cases (b : UInt8) :
    (∃ k, escByte b = ['\\', k] ∧ (b, k) ∈ byteTable)
    ∨ (escByte b = [Char.ofNat b.toNat] ∧ b.toNat < 127 ∧ b ≠ 92 ∧ b ≠ 34)
    ∨ escByte b = ['\\', 'x', Nat.digitChar (b.toNat / 16), Nat.digitChar (b.toNat % 16)] := by
  unfold escByte byteTable
  by_cases h1 : b = 10
  · rw [if_pos h1]; exact .inl ⟨_, rfl, by simp [h1]⟩
  rw [if_neg h1]
  by_cases h2 : b = 13
  · rw [if_pos h2]; exact .inl ⟨_, rfl, by simp [h2]⟩
  rw [if_neg h2]
  by_cases h3 : b = 9
  · rw [if_pos h3]; exact .inl ⟨_, rfl, by simp [h3]⟩
  rw [if_neg h3]
  by_cases h4 : b = 92
  · rw [if_pos (.inl h4), h4]; exact .inl ⟨'\\', by decide, by simp⟩
  by_cases h5 : b = 34
  · rw [if_pos (.inr h5), h5]; exact .inl ⟨'"', by decide, by simp⟩
  rw [if_neg (not_or.2 ⟨h4, h5⟩)]
  by_cases h6 : b = 0
  · rw [if_pos h6]; exact .inl ⟨_, rfl, by simp [h6]⟩
  rw [if_neg h6]
  split
  · rename_i h
    exact .inr (.inl ⟨rfl, UInt8.lt_iff_toNat_lt.1 h.2, h4, h5⟩)
  · exact .inr (.inr rfl)

theorem ofNat_small {m n : Nat} (hm : m < 127) (hn : n < 127) (h : Char.ofNat m = Char.ofNat n) : m = n := by
  have e : ∀ k : Fin 127, (Char.ofNat k.val).toNat = k.val := by decide
  have := congrArg Char.toNat h
  rwa [e ⟨m, hm⟩, e ⟨n, hn⟩] at this

theorem byteTable_inj {c d : UInt8} {k : Char} (hc : (c, k) ∈ byteTable) (hd : (d, k) ∈ byteTable) : c = d := by
  simp only [byteTable, List.mem_cons, Prod.mk.injEq, List.not_mem_nil, or_false] at hc hd
  rcases hc with ⟨rfl, rfl⟩ | ⟨rfl, rfl⟩ | ⟨rfl, rfl⟩ | ⟨rfl, rfl⟩ | ⟨rfl, rfl⟩ | ⟨rfl, rfl⟩ <;>
    rcases hd with ⟨rfl, hd⟩ | ⟨rfl, hd⟩ | ⟨rfl, hd⟩ | ⟨rfl, hd⟩ | ⟨rfl, hd⟩ | ⟨rfl, hd⟩ <;>
    first | rfl | exact absurd hd (by decide)
theorem byteTable_not_x {c : UInt8} (hc : (c, 'x') ∈ byteTable) : False := by simp [byteTable] at hc

theorem plain_byte {b : UInt8} (h : b.toNat < 127) (h1 : b ≠ 92) (h2 : b ≠ 34) :
    Char.ofNat b.toNat ≠ '\\' ∧ Char.ofNat b.toNat ≠ '"' := by
  refine ⟨fun e => h1 ?_, fun e => h2 ?_⟩
  · exact UInt8.toNat_inj.1 (ofNat_small (n := 92) h (by decide) e)
  · exact UInt8.toNat_inj.1 (ofNat_small (n := 34) h (by decide) e)

theorem escByte_inj (c d : UInt8) (x y : List Char) (h : escByte c ++ x = escByte d ++ y) : c = d ∧ x = y := by
  rcases escByte_cases c with ⟨k, e1, m1⟩ | ⟨e1, l1, a1, b1⟩ | e1 <;>
    rcases escByte_cases d with ⟨k', e2, m2⟩ | ⟨e2, l2, a2, b2⟩ | e2 <;> rw [e1, e2] at h <;>
    simp only [List.cons_append, List.nil_append, List.cons.injEq, List.append_assoc, true_and] at h
  · obtain ⟨rfl, h⟩ := h
    exact ⟨byteTable_inj m1 m2, h⟩
  · exact absurd h.1.symm (plain_byte l2 a2 b2).1
  · obtain ⟨rfl, h⟩ := h; exact (byteTable_not_x m1).elim
  · exact absurd h.1 (plain_byte l1 a1 b1).1
  · exact ⟨UInt8.toNat_inj.1 (ofNat_small l1 l2 h.1), h.2⟩
  · exact absurd h.1 (plain_byte l1 a1 b1).1
  · obtain ⟨rfl, h⟩ := h; exact (byteTable_not_x m2).elim
  · exact absurd h.1.symm (plain_byte l2 a2 b2).1
  · have hc := c.toNat_lt
    have hd := d.toNat_lt
    have h1 := digitChar_inj (by omega) (by omega) h.1
    have h2 := digitChar_inj (Nat.mod_lt _ (by decide)) (Nat.mod_lt _ (by decide)) h.2.1
    exact ⟨UInt8.toNat_inj.1 (by omega), h.2.2⟩

theorem escByte_start (c : UInt8) : ∃ d t, escByte c = d :: t ∧ d ≠ '"' := by
  rcases escByte_cases c with ⟨k, e1, m1⟩ | ⟨e1, l1, a1, b1⟩ | e1
  · exact ⟨_, _, e1, by decide⟩
  · exact ⟨_, _, e1, (plain_byte l1 a1 b1).2⟩
  · exact ⟨_, _, e1, by decide⟩

theorem Clean.bytes : Clean fmtBytes where
  inj a b x y _ _ e := by
    simp only [fmtBytes, String.toList_ofList, List.cons_append, List.append_assoc, List.nil_append] at e
    exact quoted_inj escByte_inj escByte_start _ _ _ _ (List.cons.inj (List.cons.inj e).2).2
  start a := ⟨'b', _, String.toList_ofList, by decide⟩

theorem Protocol.clean : Clean Protocol.debug :=
  .word (by intro a; cases a <;> decide) fun a b => by cases a <;> cases b <;> first | exact fun _ => rfl | decide
theorem FixedHeader.clean : Clean (FixedHeader.debug) := by
  refine ⟨fun a b x y hx hy e => ?_, fun a => struct_start _ _ (by decide +kernel)⟩
  obtain ⟨h1, h2⟩ := struct_inj (.cons (Clean.u8.compat _ _) <| .cons (Clean.nat.compat _ _) <| .cons (Clean.nat.compat _ _) <| .nil) e
  simp only [List.cons.injEq, Prod.mk.injEq, true_and, and_true] at h1
  refine ⟨?_, h2⟩
  cases a; cases b
  simp only [FixedHeader.mk.injEq]
  exact ⟨Clean.u8.eq h1.1, Clean.nat.eq h1.2.1, Clean.nat.eq h1.2.2⟩
namespace V4
theorem ConnectReturnCode.clean : Clean ConnectReturnCode.debug :=
  .word (by intro a; cases a <;> decide) fun a b => by cases a <;> cases b <;> first | exact fun _ => rfl | decide
theorem ConnAck.clean : Clean (ConnAck.debug) := by
  refine ⟨fun a b x y hx hy e => ?_, fun a => struct_start _ _ (by decide +kernel)⟩
  obtain ⟨h1, h2⟩ := struct_inj (.cons (Clean.bool.compat _ _) <| .cons (ConnectReturnCode.clean.compat _ _) <| .nil) e
  simp only [List.cons.injEq, Prod.mk.injEq, true_and, and_true] at h1
  refine ⟨?_, h2⟩
  cases a; cases b
  simp only [ConnAck.mk.injEq]
  exact ⟨Clean.bool.eq h1.1, ConnectReturnCode.clean.eq h1.2⟩
theorem LastWill.clean (esc : Char → Bool) : Clean (LastWill.debug esc) := by
  refine ⟨fun a b x y hx hy e => ?_, fun a => struct_start _ _ (by decide +kernel)⟩
  obtain ⟨h1, h2⟩ := struct_inj (.cons ((Clean.str esc).compat _ _) <| .cons (Clean.bytes.compat _ _) <| .cons (Clean.qos.compat _ _) <| .cons (Clean.bool.compat _ _) <| .nil) e
  simp only [List.cons.injEq, Prod.mk.injEq, true_and, and_true] at h1
  refine ⟨?_, h2⟩
  cases a; cases b
  simp only [LastWill.mk.injEq]
  exact ⟨(Clean.str esc).eq h1.1, Clean.bytes.eq h1.2.1, Clean.qos.eq h1.2.2.1, Clean.bool.eq h1.2.2.2⟩
theorem Login.clean (esc : Char → Bool) : Clean (Login.debug esc) := by
  refine ⟨fun a b x y hx hy e => ?_, fun a => struct_start _ _ (by decide +kernel)⟩
  obtain ⟨h1, h2⟩ := struct_inj (.cons ((Clean.str esc).compat _ _) <| .cons ((Clean.str esc).compat _ _) <| .nil) e
  simp only [List.cons.injEq, Prod.mk.injEq, true_and, and_true] at h1
  refine ⟨?_, h2⟩
  cases a; cases b
  simp only [Login.mk.injEq]
  exact ⟨(Clean.str esc).eq h1.1, (Clean.str esc).eq h1.2⟩
theorem Connect.clean (esc : Char → Bool) : Clean (Connect.debug esc) := by
  refine ⟨fun a b x y hx hy e => ?_, fun a => struct_start _ _ (by decide +kernel)⟩
  obtain ⟨h1, h2⟩ := struct_inj (.cons (Protocol.clean.compat _ _) <| .cons (Clean.u16.compat _ _) <| .cons ((Clean.str esc).compat _ _) <| .cons (Clean.bool.compat _ _) <| .cons ((Clean.option (LastWill.clean esc)).compat _ _) <| .cons ((Clean.option (Login.clean esc)).compat _ _) <| .nil) e
  simp only [List.cons.injEq, Prod.mk.injEq, true_and, and_true] at h1
  refine ⟨?_, h2⟩
  cases a; cases b
  simp only [Connect.mk.injEq]
  exact ⟨Protocol.clean.eq h1.1, Clean.u16.eq h1.2.1, (Clean.str esc).eq h1.2.2.1, Clean.bool.eq h1.2.2.2.1, (Clean.option (LastWill.clean esc)).eq h1.2.2.2.2.1, (Clean.option (Login.clean esc)).eq h1.2.2.2.2.2⟩
theorem PubAck.clean : Clean (PubAck.debug) := by
  refine ⟨fun a b x y hx hy e => ?_, fun a => struct_start _ _ (by decide +kernel)⟩
  obtain ⟨h1, h2⟩ := struct_inj (.cons (Clean.u16.compat _ _) <| .nil) e
  simp only [List.cons.injEq, Prod.mk.injEq, true_and, and_true] at h1
  refine ⟨?_, h2⟩
  cases a; cases b
  simp only [PubAck.mk.injEq]
  exact Clean.u16.eq h1
theorem PubComp.clean : Clean (PubComp.debug) := by
  refine ⟨fun a b x y hx hy e => ?_, fun a => struct_start _ _ (by decide +kernel)⟩
  obtain ⟨h1, h2⟩ := struct_inj (.cons (Clean.u16.compat _ _) <| .nil) e
  simp only [List.cons.injEq, Prod.mk.injEq, true_and, and_true] at h1
  refine ⟨?_, h2⟩
  cases a; cases b
  simp only [PubComp.mk.injEq]
  exact Clean.u16.eq h1
theorem PubRec.clean : Clean (PubRec.debug) := by
  refine ⟨fun a b x y hx hy e => ?_, fun a => struct_start _ _ (by decide +kernel)⟩
  obtain ⟨h1, h2⟩ := struct_inj (.cons (Clean.u16.compat _ _) <| .nil) e
  simp only [List.cons.injEq, Prod.mk.injEq, true_and, and_true] at h1
  refine ⟨?_, h2⟩
  cases a; cases b
  simp only [PubRec.mk.injEq]
  exact Clean.u16.eq h1
theorem PubRel.clean : Clean (PubRel.debug) := by
  refine ⟨fun a b x y hx hy e => ?_, fun a => struct_start _ _ (by decide +kernel)⟩
  obtain ⟨h1, h2⟩ := struct_inj (.cons (Clean.u16.compat _ _) <| .nil) e
  simp only [List.cons.injEq, Prod.mk.injEq, true_and, and_true] at h1
  refine ⟨?_, h2⟩
  cases a; cases b
  simp only [PubRel.mk.injEq]
  exact Clean.u16.eq h1
theorem SubscribeReasonCode.clean : Clean SubscribeReasonCode.debug where
  inj a b x y hx hy e := by
    cases a with
    | Success q =>
      cases b with
      | Success r =>
        unfold SubscribeReasonCode.debug at e
        simp only [tuple_toList] at e
        obtain ⟨h1, h2⟩ := Clean.qos.inj q r _ _ (.paren _) (.paren _) (List.cons.inj (List.append_cancel_left e)).2
        exact ⟨by rw [h1], (List.cons.inj h2).2⟩
      | Failure => unfold SubscribeReasonCode.debug at e; simp [tuple_toList] at e
    | Failure =>
      cases b with
      | Success r => unfold SubscribeReasonCode.debug at e; simp [tuple_toList] at e
      | Failure => exact ⟨rfl, List.append_cancel_left e⟩
  start a := by
    cases a with
    | Success q => exact ⟨'S', "uccess(".toList ++ q.debug.toList ++ [')'], by simp [SubscribeReasonCode.debug, fmtTuple], by decide⟩
    | Failure => exact ⟨'F', "ailure".toList, by simp [SubscribeReasonCode.debug], by decide⟩
theorem SubAck.clean : Clean (SubAck.debug) := by
  refine ⟨fun a b x y hx hy e => ?_, fun a => struct_start _ _ (by decide +kernel)⟩
  obtain ⟨h1, h2⟩ := struct_inj (.cons (Clean.u16.compat _ _) <| .cons ((Clean.vec SubscribeReasonCode.clean).compat _ _) <| .nil) e
  simp only [List.cons.injEq, Prod.mk.injEq, true_and, and_true] at h1
  refine ⟨?_, h2⟩
  cases a; cases b
  simp only [SubAck.mk.injEq]
  exact ⟨Clean.u16.eq h1.1, (Clean.vec SubscribeReasonCode.clean).eq h1.2⟩
theorem UnsubAck.clean : Clean (UnsubAck.debug) := by
  refine ⟨fun a b x y hx hy e => ?_, fun a => struct_start _ _ (by decide +kernel)⟩
  obtain ⟨h1, h2⟩ := struct_inj (.cons (Clean.u16.compat _ _) <| .nil) e
  simp only [List.cons.injEq, Prod.mk.injEq, true_and, and_true] at h1
  refine ⟨?_, h2⟩
  cases a; cases b
  simp only [UnsubAck.mk.injEq]
  exact Clean.u16.eq h1
theorem Unsubscribe.clean (esc : Char → Bool) : Clean (Unsubscribe.debug esc) := by
  refine ⟨fun a b x y hx hy e => ?_, fun a => struct_start _ _ (by decide +kernel)⟩
  obtain ⟨h1, h2⟩ := struct_inj (.cons (Clean.u16.compat _ _) <| .cons ((Clean.vec (Clean.str esc)).compat _ _) <| .nil) e
  simp only [List.cons.injEq, Prod.mk.injEq, true_and, and_true] at h1
  refine ⟨?_, h2⟩
  cases a; cases b
  simp only [Unsubscribe.mk.injEq]
  exact ⟨Clean.u16.eq h1.1, (Clean.vec (Clean.str esc)).eq h1.2⟩
end V4

namespace V5
theorem ReasonProps.clean (esc : Char → Bool) (name : String)
    (h : name.toList.head?.isSome = true ∧ name.toList.head? ≠ some ']') : Clean (ReasonProps.debug esc name) := by
  refine ⟨fun a b x y hx hy e => ?_, fun a => struct_start _ _ h⟩
  obtain ⟨h1, h2⟩ := struct_inj (.cons ((Clean.option (Clean.str esc)).compat _ _) <| .cons ((Clean.vec (Clean.pair (Clean.str esc) (Clean.str esc))).compat _ _) <| .nil) e
  simp only [List.cons.injEq, Prod.mk.injEq, true_and, and_true] at h1
  refine ⟨?_, h2⟩
  cases a; cases b
  simp only [ReasonProps.mk.injEq]
  exact ⟨(Clean.option (Clean.str esc)).eq h1.1, (Clean.vec (Clean.pair (Clean.str esc) (Clean.str esc))).eq h1.2⟩
theorem ConnectReturnCode.clean : Clean ConnectReturnCode.debug :=
  .word (by intro a; cases a <;> decide) fun a b => by cases a <;> cases b <;> first | exact fun _ => rfl | decide
theorem ConnAckProperties.clean (esc : Char → Bool) : Clean (ConnAckProperties.debug esc) := by
  refine ⟨fun a b x y hx hy e => ?_, fun a => struct_start _ _ (by decide +kernel)⟩
  obtain ⟨h1, h2⟩ := struct_inj (.cons ((Clean.option Clean.u32).compat _ _) <| .cons ((Clean.option Clean.u16).compat _ _) <| .cons ((Clean.option Clean.u8).compat _ _) <| .cons ((Clean.option Clean.u8).compat _ _) <| .cons ((Clean.option Clean.u32).compat _ _) <| .cons ((Clean.option (Clean.str esc)).compat _ _) <| .cons ((Clean.option Clean.u16).compat _ _) <| .cons ((Clean.option (Clean.str esc)).compat _ _) <| .cons ((Clean.vec (Clean.pair (Clean.str esc) (Clean.str esc))).compat _ _) <| .cons ((Clean.option Clean.u8).compat _ _) <| .cons ((Clean.option Clean.u8).compat _ _) <| .cons ((Clean.option Clean.u8).compat _ _) <| .cons ((Clean.option Clean.u16).compat _ _) <| .cons ((Clean.option (Clean.str esc)).compat _ _) <| .cons ((Clean.option (Clean.str esc)).compat _ _) <| .cons ((Clean.option (Clean.str esc)).compat _ _) <| .cons ((Clean.option Clean.bytes).compat _ _) <| .nil) e
  simp only [List.cons.injEq, Prod.mk.injEq, true_and, and_true] at h1
  refine ⟨?_, h2⟩
  cases a; cases b
  simp only [ConnAckProperties.mk.injEq]
  exact ⟨(Clean.option Clean.u32).eq h1.1, (Clean.option Clean.u16).eq h1.2.1, (Clean.option Clean.u8).eq h1.2.2.1, (Clean.option Clean.u8).eq h1.2.2.2.1, (Clean.option Clean.u32).eq h1.2.2.2.2.1, (Clean.option (Clean.str esc)).eq h1.2.2.2.2.2.1, (Clean.option Clean.u16).eq h1.2.2.2.2.2.2.1, (Clean.option (Clean.str esc)).eq h1.2.2.2.2.2.2.2.1, (Clean.vec (Clean.pair (Clean.str esc) (Clean.str esc))).eq h1.2.2.2.2.2.2.2.2.1, (Clean.option Clean.u8).eq h1.2.2.2.2.2.2.2.2.2.1, (Clean.option Clean.u8).eq h1.2.2.2.2.2.2.2.2.2.2.1, (Clean.option Clean.u8).eq h1.2.2.2.2.2.2.2.2.2.2.2.1, (Clean.option Clean.u16).eq h1.2.2.2.2.2.2.2.2.2.2.2.2.1, (Clean.option (Clean.str esc)).eq h1.2.2.2.2.2.2.2.2.2.2.2.2.2.1, (Clean.option (Clean.str esc)).eq h1.2.2.2.2.2.2.2.2.2.2.2.2.2.2.1, (Clean.option (Clean.str esc)).eq h1.2.2.2.2.2.2.2.2.2.2.2.2.2.2.2.1, (Clean.option Clean.bytes).eq h1.2.2.2.2.2.2.2.2.2.2.2.2.2.2.2.2⟩
theorem ConnAck.clean (esc : Char → Bool) : Clean (ConnAck.debug esc) := by
  refine ⟨fun a b x y hx hy e => ?_, fun a => struct_start _ _ (by decide +kernel)⟩
  obtain ⟨h1, h2⟩ := struct_inj (.cons (Clean.bool.compat _ _) <| .cons (ConnectReturnCode.clean.compat _ _) <| .cons ((Clean.option (ConnAckProperties.clean esc)).compat _ _) <| .nil) e
  simp only [List.cons.injEq, Prod.mk.injEq, true_and, and_true] at h1
  refine ⟨?_, h2⟩
  cases a; cases b
  simp only [ConnAck.mk.injEq]
  exact ⟨Clean.bool.eq h1.1, ConnectReturnCode.clean.eq h1.2.1, (Clean.option (ConnAckProperties.clean esc)).eq h1.2.2⟩
theorem WillProperties.clean (esc : Char → Bool) : Clean (WillProperties.debug esc) := by
  refine ⟨fun a b x y hx hy e => ?_, fun a => struct_start _ _ (by decide +kernel)⟩
  obtain ⟨h1, h2⟩ := struct_inj (.cons ((Clean.option Clean.u32).compat _ _) <| .cons ((Clean.option Clean.u8).compat _ _) <| .cons ((Clean.option Clean.u32).compat _ _) <| .cons ((Clean.option (Clean.str esc)).compat _ _) <| .cons ((Clean.option (Clean.str esc)).compat _ _) <| .cons ((Clean.option Clean.bytes).compat _ _) <| .cons ((Clean.vec (Clean.pair (Clean.str esc) (Clean.str esc))).compat _ _) <| .nil) e
  simp only [List.cons.injEq, Prod.mk.injEq, true_and, and_true] at h1
  refine ⟨?_, h2⟩
  cases a; cases b
  simp only [WillProperties.mk.injEq]
  exact ⟨(Clean.option Clean.u32).eq h1.1, (Clean.option Clean.u8).eq h1.2.1, (Clean.option Clean.u32).eq h1.2.2.1, (Clean.option (Clean.str esc)).eq h1.2.2.2.1, (Clean.option (Clean.str esc)).eq h1.2.2.2.2.1, (Clean.option Clean.bytes).eq h1.2.2.2.2.2.1, (Clean.vec (Clean.pair (Clean.str esc) (Clean.str esc))).eq h1.2.2.2.2.2.2⟩
theorem LastWill.clean (esc : Char → Bool) : Clean (LastWill.debug esc) := by
  refine ⟨fun a b x y hx hy e => ?_, fun a => struct_start _ _ (by decide +kernel)⟩
  obtain ⟨h1, h2⟩ := struct_inj (.cons ((Clean.str esc).compat _ _) <| .cons (Clean.bytes.compat _ _) <| .cons (Clean.qos.compat _ _) <| .cons (Clean.bool.compat _ _) <| .cons ((Clean.option (WillProperties.clean esc)).compat _ _) <| .nil) e
  simp only [List.cons.injEq, Prod.mk.injEq, true_and, and_true] at h1
  refine ⟨?_, h2⟩
  cases a; cases b
  simp only [LastWill.mk.injEq]
  exact ⟨(Clean.str esc).eq h1.1, Clean.bytes.eq h1.2.1, Clean.qos.eq h1.2.2.1, Clean.bool.eq h1.2.2.2.1, (Clean.option (WillProperties.clean esc)).eq h1.2.2.2.2⟩
theorem Login.clean (esc : Char → Bool) : Clean (Login.debug esc) := by
  refine ⟨fun a b x y hx hy e => ?_, fun a => struct_start _ _ (by decide +kernel)⟩
  obtain ⟨h1, h2⟩ := struct_inj (.cons ((Clean.str esc).compat _ _) <| .cons ((Clean.str esc).compat _ _) <| .nil) e
  simp only [List.cons.injEq, Prod.mk.injEq, true_and, and_true] at h1
  refine ⟨?_, h2⟩
  cases a; cases b
  simp only [Login.mk.injEq]
  exact ⟨(Clean.str esc).eq h1.1, (Clean.str esc).eq h1.2⟩
theorem ConnectProperties.clean (esc : Char → Bool) : Clean (ConnectProperties.debug esc) := by
  refine ⟨fun a b x y hx hy e => ?_, fun a => struct_start _ _ (by decide +kernel)⟩
  obtain ⟨h1, h2⟩ := struct_inj (.cons ((Clean.option Clean.u32).compat _ _) <| .cons ((Clean.option Clean.u16).compat _ _) <| .cons ((Clean.option Clean.u32).compat _ _) <| .cons ((Clean.option Clean.u16).compat _ _) <| .cons ((Clean.option Clean.u8).compat _ _) <| .cons ((Clean.option Clean.u8).compat _ _) <| .cons ((Clean.vec (Clean.pair (Clean.str esc) (Clean.str esc))).compat _ _) <| .cons ((Clean.option (Clean.str esc)).compat _ _) <| .cons ((Clean.option Clean.bytes).compat _ _) <| .nil) e
  simp only [List.cons.injEq, Prod.mk.injEq, true_and, and_true] at h1
  refine ⟨?_, h2⟩
  cases a; cases b
  simp only [ConnectProperties.mk.injEq]
  exact ⟨(Clean.option Clean.u32).eq h1.1, (Clean.option Clean.u16).eq h1.2.1, (Clean.option Clean.u32).eq h1.2.2.1, (Clean.option Clean.u16).eq h1.2.2.2.1, (Clean.option Clean.u8).eq h1.2.2.2.2.1, (Clean.option Clean.u8).eq h1.2.2.2.2.2.1, (Clean.vec (Clean.pair (Clean.str esc) (Clean.str esc))).eq h1.2.2.2.2.2.2.1, (Clean.option (Clean.str esc)).eq h1.2.2.2.2.2.2.2.1, (Clean.option Clean.bytes).eq h1.2.2.2.2.2.2.2.2⟩
theorem Connect.clean (esc : Char → Bool) : Clean (Connect.debug esc) := by
  refine ⟨fun a b x y hx hy e => ?_, fun a => struct_start _ _ (by decide +kernel)⟩
  obtain ⟨h1, h2⟩ := struct_inj (.cons (Protocol.clean.compat _ _) <| .cons (Clean.u16.compat _ _) <| .cons ((Clean.str esc).compat _ _) <| .cons (Clean.bool.compat _ _) <| .cons ((Clean.option (LastWill.clean esc)).compat _ _) <| .cons ((Clean.option (Login.clean esc)).compat _ _) <| .cons ((Clean.option (ConnectProperties.clean esc)).compat _ _) <| .nil) e
  simp only [List.cons.injEq, Prod.mk.injEq, true_and, and_true] at h1
  refine ⟨?_, h2⟩
  cases a; cases b
  simp only [Connect.mk.injEq]
  exact ⟨Protocol.clean.eq h1.1, Clean.u16.eq h1.2.1, (Clean.str esc).eq h1.2.2.1, Clean.bool.eq h1.2.2.2.1, (Clean.option (LastWill.clean esc)).eq h1.2.2.2.2.1, (Clean.option (Login.clean esc)).eq h1.2.2.2.2.2.1, (Clean.option (ConnectProperties.clean esc)).eq h1.2.2.2.2.2.2⟩
theorem DisconnectReasonCode.clean : Clean DisconnectReasonCode.debug :=
  .word (by intro a; cases a <;> decide) fun a b => by cases a <;> cases b <;> first | exact fun _ => rfl | decide
theorem DisconnectProperties.clean (esc : Char → Bool) : Clean (DisconnectProperties.debug esc) := by
  refine ⟨fun a b x y hx hy e => ?_, fun a => struct_start _ _ (by decide +kernel)⟩
  obtain ⟨h1, h2⟩ := struct_inj (.cons ((Clean.option Clean.u32).compat _ _) <| .cons ((Clean.option (Clean.str esc)).compat _ _) <| .cons ((Clean.vec (Clean.pair (Clean.str esc) (Clean.str esc))).compat _ _) <| .cons ((Clean.option (Clean.str esc)).compat _ _) <| .nil) e
  simp only [List.cons.injEq, Prod.mk.injEq, true_and, and_true] at h1
  refine ⟨?_, h2⟩
  cases a; cases b
  simp only [DisconnectProperties.mk.injEq]
  exact ⟨(Clean.option Clean.u32).eq h1.1, (Clean.option (Clean.str esc)).eq h1.2.1, (Clean.vec (Clean.pair (Clean.str esc) (Clean.str esc))).eq h1.2.2.1, (Clean.option (Clean.str esc)).eq h1.2.2.2⟩
theorem Disconnect.clean (esc : Char → Bool) : Clean (Disconnect.debug esc) := by
  refine ⟨fun a b x y hx hy e => ?_, fun a => struct_start _ _ (by decide +kernel)⟩
  obtain ⟨h1, h2⟩ := struct_inj (.cons (DisconnectReasonCode.clean.compat _ _) <| .cons ((Clean.option (DisconnectProperties.clean esc)).compat _ _) <| .nil) e
  simp only [List.cons.injEq, Prod.mk.injEq, true_and, and_true] at h1
  refine ⟨?_, h2⟩
  cases a; cases b
  simp only [Disconnect.mk.injEq]
  exact ⟨DisconnectReasonCode.clean.eq h1.1, (Clean.option (DisconnectProperties.clean esc)).eq h1.2⟩
theorem PubAckReason.clean : Clean PubAckReason.debug :=
  .word (by intro a; cases a <;> decide) fun a b => by cases a <;> cases b <;> first | exact fun _ => rfl | decide
theorem PubAck.clean (esc : Char → Bool) : Clean (PubAck.debug esc) := by
  refine ⟨fun a b x y hx hy e => ?_, fun a => struct_start _ _ (by decide +kernel)⟩
  obtain ⟨h1, h2⟩ := struct_inj (.cons (Clean.u16.compat _ _) <| .cons (PubAckReason.clean.compat _ _) <| .cons ((Clean.option (ReasonProps.clean esc "PubAckProperties" (by decide +kernel))).compat _ _) <| .nil) e
  simp only [List.cons.injEq, Prod.mk.injEq, true_and, and_true] at h1
  refine ⟨?_, h2⟩
  cases a; cases b
  simp only [Ack.mk.injEq]
  exact ⟨Clean.u16.eq h1.1, PubAckReason.clean.eq h1.2.1, (Clean.option (ReasonProps.clean esc "PubAckProperties" (by decide +kernel))).eq h1.2.2⟩
theorem PubCompReason.clean : Clean PubCompReason.debug :=
  .word (by intro a; cases a <;> decide) fun a b => by cases a <;> cases b <;> first | exact fun _ => rfl | decide
theorem PubComp.clean (esc : Char → Bool) : Clean (PubComp.debug esc) := by
  refine ⟨fun a b x y hx hy e => ?_, fun a => struct_start _ _ (by decide +kernel)⟩
  obtain ⟨h1, h2⟩ := struct_inj (.cons (Clean.u16.compat _ _) <| .cons (PubCompReason.clean.compat _ _) <| .cons ((Clean.option (ReasonProps.clean esc "PubCompProperties" (by decide +kernel))).compat _ _) <| .nil) e
  simp only [List.cons.injEq, Prod.mk.injEq, true_and, and_true] at h1
  refine ⟨?_, h2⟩
  cases a; cases b
  simp only [Ack.mk.injEq]
  exact ⟨Clean.u16.eq h1.1, PubCompReason.clean.eq h1.2.1, (Clean.option (ReasonProps.clean esc "PubCompProperties" (by decide +kernel))).eq h1.2.2⟩
theorem PublishProperties.clean (esc : Char → Bool) : Clean (PublishProperties.debug esc) := by
  refine ⟨fun a b x y hx hy e => ?_, fun a => struct_start _ _ (by decide +kernel)⟩
  obtain ⟨h1, h2⟩ := struct_inj (.cons ((Clean.option Clean.u8).compat _ _) <| .cons ((Clean.option Clean.u32).compat _ _) <| .cons ((Clean.option Clean.u16).compat _ _) <| .cons ((Clean.option (Clean.str esc)).compat _ _) <| .cons ((Clean.option Clean.bytes).compat _ _) <| .cons ((Clean.vec (Clean.pair (Clean.str esc) (Clean.str esc))).compat _ _) <| .cons ((Clean.vec Clean.nat).compat _ _) <| .cons ((Clean.option (Clean.str esc)).compat _ _) <| .nil) e
  simp only [List.cons.injEq, Prod.mk.injEq, true_and, and_true] at h1
  refine ⟨?_, h2⟩
  cases a; cases b
  simp only [PublishProperties.mk.injEq]
  exact ⟨(Clean.option Clean.u8).eq h1.1, (Clean.option Clean.u32).eq h1.2.1, (Clean.option Clean.u16).eq h1.2.2.1, (Clean.option (Clean.str esc)).eq h1.2.2.2.1, (Clean.option Clean.bytes).eq h1.2.2.2.2.1, (Clean.vec (Clean.pair (Clean.str esc) (Clean.str esc))).eq h1.2.2.2.2.2.1, (Clean.vec Clean.nat).eq h1.2.2.2.2.2.2.1, (Clean.option (Clean.str esc)).eq h1.2.2.2.2.2.2.2⟩
theorem PubRecReason.clean : Clean PubRecReason.debug :=
  .word (by intro a; cases a <;> decide) fun a b => by cases a <;> cases b <;> first | exact fun _ => rfl | decide
theorem PubRec.clean (esc : Char → Bool) : Clean (PubRec.debug esc) := by
  refine ⟨fun a b x y hx hy e => ?_, fun a => struct_start _ _ (by decide +kernel)⟩
  obtain ⟨h1, h2⟩ := struct_inj (.cons (Clean.u16.compat _ _) <| .cons (PubRecReason.clean.compat _ _) <| .cons ((Clean.option (ReasonProps.clean esc "PubRecProperties" (by decide +kernel))).compat _ _) <| .nil) e
  simp only [List.cons.injEq, Prod.mk.injEq, true_and, and_true] at h1
  refine ⟨?_, h2⟩
  cases a; cases b
  simp only [Ack.mk.injEq]
  exact ⟨Clean.u16.eq h1.1, PubRecReason.clean.eq h1.2.1, (Clean.option (ReasonProps.clean esc "PubRecProperties" (by decide +kernel))).eq h1.2.2⟩
theorem PubRelReason.clean : Clean PubRelReason.debug :=
  .word (by intro a; cases a <;> decide) fun a b => by cases a <;> cases b <;> first | exact fun _ => rfl | decide
theorem PubRel.clean (esc : Char → Bool) : Clean (PubRel.debug esc) := by
  refine ⟨fun a b x y hx hy e => ?_, fun a => struct_start _ _ (by decide +kernel)⟩
  obtain ⟨h1, h2⟩ := struct_inj (.cons (Clean.u16.compat _ _) <| .cons (PubRelReason.clean.compat _ _) <| .cons ((Clean.option (ReasonProps.clean esc "PubRelProperties" (by decide +kernel))).compat _ _) <| .nil) e
  simp only [List.cons.injEq, Prod.mk.injEq, true_and, and_true] at h1
  refine ⟨?_, h2⟩
  cases a; cases b
  simp only [Ack.mk.injEq]
  exact ⟨Clean.u16.eq h1.1, PubRelReason.clean.eq h1.2.1, (Clean.option (ReasonProps.clean esc "PubRelProperties" (by decide +kernel))).eq h1.2.2⟩
theorem SubscribeReasonCode.clean : Clean SubscribeReasonCode.debug :=
  .word (by intro a; cases a <;> decide) fun a b => by cases a <;> cases b <;> first | exact fun _ => rfl | decide
theorem SubAck.clean (esc : Char → Bool) : Clean (SubAck.debug esc) := by
  refine ⟨fun a b x y hx hy e => ?_, fun a => struct_start _ _ (by decide +kernel)⟩
  obtain ⟨h1, h2⟩ := struct_inj (.cons (Clean.u16.compat _ _) <| .cons ((Clean.vec SubscribeReasonCode.clean).compat _ _) <| .cons ((Clean.option (ReasonProps.clean esc "SubAckProperties" (by decide +kernel))).compat _ _) <| .nil) e
  simp only [List.cons.injEq, Prod.mk.injEq, true_and, and_true] at h1
  refine ⟨?_, h2⟩
  cases a; cases b
  simp only [SubAck.mk.injEq]
  exact ⟨Clean.u16.eq h1.1, (Clean.vec SubscribeReasonCode.clean).eq h1.2.1, (Clean.option (ReasonProps.clean esc "SubAckProperties" (by decide +kernel))).eq h1.2.2⟩
theorem SubscribeProperties.clean (esc : Char → Bool) : Clean (SubscribeProperties.debug esc) := by
  refine ⟨fun a b x y hx hy e => ?_, fun a => struct_start _ _ (by decide +kernel)⟩
  obtain ⟨h1, h2⟩ := struct_inj (.cons ((Clean.option Clean.nat).compat _ _) <| .cons ((Clean.vec (Clean.pair (Clean.str esc) (Clean.str esc))).compat _ _) <| .nil) e
  simp only [List.cons.injEq, Prod.mk.injEq, true_and, and_true] at h1
  refine ⟨?_, h2⟩
  cases a; cases b
  simp only [SubscribeProperties.mk.injEq]
  exact ⟨(Clean.option Clean.nat).eq h1.1, (Clean.vec (Clean.pair (Clean.str esc) (Clean.str esc))).eq h1.2⟩
theorem UnsubAckReason.clean : Clean UnsubAckReason.debug :=
  .word (by intro a; cases a <;> decide) fun a b => by cases a <;> cases b <;> first | exact fun _ => rfl | decide
theorem UnsubAck.clean (esc : Char → Bool) : Clean (UnsubAck.debug esc) := by
  refine ⟨fun a b x y hx hy e => ?_, fun a => struct_start _ _ (by decide +kernel)⟩
  obtain ⟨h1, h2⟩ := struct_inj (.cons (Clean.u16.compat _ _) <| .cons ((Clean.vec UnsubAckReason.clean).compat _ _) <| .cons ((Clean.option (ReasonProps.clean esc "UnsubAckProperties" (by decide +kernel))).compat _ _) <| .nil) e
  simp only [List.cons.injEq, Prod.mk.injEq, true_and, and_true] at h1
  refine ⟨?_, h2⟩
  cases a; cases b
  simp only [UnsubAck.mk.injEq]
  exact ⟨Clean.u16.eq h1.1, (Clean.vec UnsubAckReason.clean).eq h1.2.1, (Clean.option (ReasonProps.clean esc "UnsubAckProperties" (by decide +kernel))).eq h1.2.2⟩
theorem UnsubscribeProperties.clean (esc : Char → Bool) : Clean (UnsubscribeProperties.debug esc) := by
  refine ⟨fun a b x y hx hy e => ?_, fun a => struct_start _ _ (by decide +kernel)⟩
  obtain ⟨h1, h2⟩ := struct_inj (.cons ((Clean.vec (Clean.pair (Clean.str esc) (Clean.str esc))).compat _ _) <| .nil) e
  simp only [List.cons.injEq, Prod.mk.injEq, true_and, and_true] at h1
  refine ⟨?_, h2⟩
  cases a; cases b
  simp only [UnsubscribeProperties.mk.injEq]
  exact (Clean.vec (Clean.pair (Clean.str esc) (Clean.str esc))).eq h1
theorem Unsubscribe.clean (esc : Char → Bool) : Clean (Unsubscribe.debug esc) := by
  refine ⟨fun a b x y hx hy e => ?_, fun a => struct_start _ _ (by decide +kernel)⟩
  obtain ⟨h1, h2⟩ := struct_inj (.cons (Clean.u16.compat _ _) <| .cons ((Clean.vec (Clean.str esc)).compat _ _) <| .cons ((Clean.option (UnsubscribeProperties.clean esc)).compat _ _) <| .nil) e
  simp only [List.cons.injEq, Prod.mk.injEq, true_and, and_true] at h1
  refine ⟨?_, h2⟩
  cases a; cases b
  simp only [Unsubscribe.mk.injEq]
  exact ⟨Clean.u16.eq h1.1, (Clean.vec (Clean.str esc)).eq h1.2.1, (Clean.option (UnsubscribeProperties.clean esc)).eq h1.2.2⟩
end V5
end Mqtt
