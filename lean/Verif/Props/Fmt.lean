import Verif.Model.Fmt
import Verif.Spec.V4
import Std.Data.String.ToNat
/-! C75-C77: texts and order. -/
namespace Props
open Mqtt Spec

/-- if the last blank of two texts is at the marked place, the texts agree before and after it -/
theorem split_last {a b x y : List Char} {c : Char} (hx : c ∉ x) (hy : c ∉ y)
    (h : a ++ c :: x = b ++ c :: y) : a = b ∧ x = y := by
  have key : ∀ (u v p q : List Char), c ∉ u → c ∉ v → u ++ c :: p = v ++ c :: q → u = v ∧ p = q := by
    intro u
    induction u with
    | nil =>
      intro v p q _ hv h
      cases v with
      | nil => simpa using h
      | cons d v => simp at h hv; exact absurd h.1 hv.1
    | cons e u ih =>
      intro v p q hu hv h
      cases v with
      | nil => simp at h hu; exact absurd h.1.symm hu.1
      | cons d v =>
        simp only [List.cons_append, List.cons.injEq, List.mem_cons, not_or] at h hu hv
        obtain ⟨rfl, h⟩ := h
        obtain ⟨rfl, rfl⟩ := ih v p q hu.2 hv.2 h
        exact ⟨rfl, rfl⟩
  have h' := congrArg List.reverse h
  simp only [List.reverse_append, List.reverse_cons, List.append_assoc, List.singleton_append] at h'
  obtain ⟨h1, h2⟩ := key _ _ _ _ (by simpa using hx) (by simpa using hy) h'
  exact ⟨List.reverse_inj.1 h2, List.reverse_inj.1 h1⟩

theorem split_first {a b x y : List Char} {c : Char} (hx : c ∉ a) (hy : c ∉ b)
    (h : a ++ c :: x = b ++ c :: y) : a = b ∧ x = y := by
  have h' := congrArg List.reverse h
  simp only [List.reverse_append, List.reverse_cons, List.append_assoc, List.singleton_append] at h'
  obtain ⟨h1, h2⟩ := split_last (by simpa using hx) (by simpa using hy) h'
  exact ⟨List.reverse_inj.1 h2, List.reverse_inj.1 h1⟩

theorem nat_digits (n : Nat) : ∀ c ∈ (fmtNat n).toList, c.isDigit = true := by
  intro c hc
  simp only [fmtNat, Nat.repr, String.toList_ofList] at hc
  exact Nat.isDigit_of_mem_toDigits (by decide) (by decide) hc

theorem nat_no_space (n : Nat) : ' ' ∉ (fmtNat n).toList := fun h => by
  have := nat_digits n _ h; revert this; decide

theorem nat_inj {m n : Nat} (h : (fmtNat m).toList = (fmtNat n).toList) : m = n :=
  Nat.repr_injective (String.toList_inj.1 h)

/-- `pre ++ sep ++ text` determines `pre` and `text` when the text has no blank and the separator ends with one -/
theorem field {p q x y : String} (sep : List Char) (hx : ' ' ∉ x.toList) (hy : ' ' ∉ y.toList)
    (h : p.toList ++ (sep ++ ' ' :: x.toList) = q.toList ++ (sep ++ ' ' :: y.toList)) : p = q ∧ x.toList = y.toList := by
  rw [← List.append_assoc, ← List.append_assoc] at h
  obtain ⟨h1, h2⟩ := split_last hx hy h
  exact ⟨String.toList_inj.1 (List.append_cancel_right h1), h2⟩

theorem qos_text {a b : QoS} (h : a.debug.toList = b.debug.toList) : a = b := by
  revert h; cases a <;> cases b <;> decide
theorem qos_no_space (a : QoS) : ' ' ∉ a.debug.toList := by cases a <;> decide
theorem bool_text {a b : Bool} (h : (fmtBool a).toList = (fmtBool b).toList) : a = b := by
  revert h; cases a <;> cases b <;> decide
theorem bool_no_space (a : Bool) : ' ' ∉ (fmtBool a).toList := by cases a <;> decide

theorem app_field {p q x y : String} (sep : String) (pre : List Char) (hs : sep.toList = pre ++ [' '])
    (hx : ' ' ∉ x.toList) (hy : ' ' ∉ y.toList) (h : p ++ sep ++ x = q ++ sep ++ y) :
    p = q ∧ x.toList = y.toList := by
  apply field pre hx hy
  have := congrArg String.toList h
  simpa [hs] using this

theorem publish_text {t t' : String} {q q' : QoS} {r r' : Bool} {k k' n n' : Nat}
    (h : "Topic = " ++ t ++ ", Qos = " ++ q.debug ++ ", Retain = " ++ fmtBool r ++ ", Pkid = " ++ fmtNat k
        ++ ", Payload Size = " ++ fmtNat n =
      "Topic = " ++ t' ++ ", Qos = " ++ q'.debug ++ ", Retain = " ++ fmtBool r' ++ ", Pkid = " ++ fmtNat k'
        ++ ", Payload Size = " ++ fmtNat n') : t = t' ∧ q = q' ∧ r = r' ∧ k = k' ∧ n = n' := by
  obtain ⟨h, h5⟩ := app_field ", Payload Size = " ", Payload Size =".toList (by decide) (nat_no_space _) (nat_no_space _) h
  obtain ⟨h, h4⟩ := app_field ", Pkid = " ", Pkid =".toList (by decide) (nat_no_space _) (nat_no_space _) h
  obtain ⟨h, h3⟩ := app_field ", Retain = " ", Retain =".toList (by decide) (bool_no_space _) (bool_no_space _) h
  obtain ⟨h, h2⟩ := app_field ", Qos = " ", Qos =".toList (by decide) (qos_no_space _) (qos_no_space _) h
  have h1 := congrArg String.toList h
  rw [String.toList_append, String.toList_append] at h1
  exact ⟨String.toList_inj.1 (List.append_cancel_left h1), qos_text h2, bool_text h3, nat_inj h4, nat_inj h5⟩

/-- C76: what the `Debug` text of a PUBLISH tells and what it does not: it is the same for two packets exactly
when topic, QoS, retain flag and packet id are the same and the payloads have the same *size*.  The contents
of the payload, the dup flag and (v5) the properties never show. -/
theorem C76_publish_debug :
    (∀ p q : V4.Publish, p.debug = q.debug ↔ p.topic = q.topic ∧ p.qos = q.qos ∧ p.retain = q.retain
      ∧ p.pkid = q.pkid ∧ p.payload.length = q.payload.length) ∧
    (∀ p q : V5.Publish, p.debug = q.debug ↔ p.topic = q.topic ∧ p.qos = q.qos ∧ p.retain = q.retain
      ∧ p.pkid = q.pkid ∧ p.payload.length = q.payload.length) := by
  refine ⟨fun p q => ⟨fun h => ?_, ?_⟩, fun p q => ⟨fun h => ?_, ?_⟩⟩
  · obtain ⟨h1, h2, h3, h4, h5⟩ := publish_text h
    exact ⟨h1, h2, h3, UInt16.toNat_inj.1 h4, h5⟩
  · rintro ⟨h1, h2, h3, h4, h5⟩; unfold V4.Publish.debug; rw [h1, h2, h3, h4, h5]
  · obtain ⟨h1, h2, h3, h4, h5⟩ := publish_text h
    exact ⟨h1, h2, h3, UInt16.toNat_inj.1 h4, h5⟩
  · rintro ⟨h1, h2, h3, h4, h5⟩; unfold V5.Publish.debug; rw [h1, h2, h3, h4, h5]

example : V4.Publish.debug ⟨true, .AtLeastOnce, false, "a/b", 42, [1, 2, 3]⟩
    = "Topic = a/b, Qos = AtLeastOnce, Retain = false, Pkid = 42, Payload Size = 3" := by decide +kernel

/-- C76: the `Debug` text of a subscription filter determines it. -/
theorem C76_filter_debug :
    (∀ f g : V4.SubscribeFilter, f.debug = g.debug ↔ f = g) ∧
    (∀ f g : V5.SubscribeFilter, f.debug = g.debug ↔ f = g) := by
  refine ⟨fun f g => ⟨fun h => ?_, fun h => h ▸ rfl⟩, fun f g => ⟨fun h => ?_, fun h => h ▸ rfl⟩⟩
  · obtain ⟨h, h2⟩ := app_field ", Qos = " ", Qos =".toList (by decide) (qos_no_space _) (qos_no_space _) h
    have h1 := congrArg String.toList h
    rw [String.toList_append, String.toList_append] at h1
    cases f; cases g
    simp only [V4.SubscribeFilter.mk.injEq]
    exact ⟨String.toList_inj.1 (List.append_cancel_left h1), qos_text h2⟩
  · have rule_no : ∀ r : V5.RetainForwardRule, ' ' ∉ r.debug.toList := by intro r; cases r <;> decide
    obtain ⟨h, h5⟩ := app_field ", Forward rule = " ", Forward rule =".toList (by decide) (rule_no _) (rule_no _) h
    obtain ⟨h, h4⟩ := app_field ", Preserve retain = " ", Preserve retain =".toList (by decide) (bool_no_space _) (bool_no_space _) h
    obtain ⟨h, h3⟩ := app_field ", Nolocal = " ", Nolocal =".toList (by decide) (bool_no_space _) (bool_no_space _) h
    obtain ⟨h, h2⟩ := app_field ", Qos = " ", Qos =".toList (by decide) (qos_no_space _) (qos_no_space _) h
    have h1 := congrArg String.toList h
    rw [String.toList_append, String.toList_append] at h1
    clear h
    obtain ⟨_, _, _, _, r⟩ := f
    obtain ⟨_, _, _, _, r'⟩ := g
    simp only [V5.SubscribeFilter.mk.injEq]
    refine ⟨String.toList_inj.1 (List.append_cancel_left h1), qos_text h2, bool_text h3, bool_text h4, ?_⟩
    simp only at h5
    revert h5; cases r <;> cases r' <;> decide

/-- C76, limit: the text of a whole SUBSCRIBE does not determine it (a path may contain the separator). -/
theorem C76_subscribe_debug_ambiguous :
    (∃ s t : V4.Subscribe, s.filters.length ≠ t.filters.length ∧ s.debug = t.debug) ∧
    (∃ s t : V5.Subscribe, s.filters.length ≠ t.filters.length ∧ s.properties = t.properties ∧ s.debug = t.debug) :=
  ⟨⟨⟨1, [⟨"a", .AtMostOnce⟩, ⟨"b", .AtMostOnce⟩]⟩,
   ⟨1, [⟨"a, Qos = AtMostOnce, Filter = b", .AtMostOnce⟩]⟩, by decide, by decide +kernel⟩,
   ⟨⟨1, [⟨"a", .AtMostOnce, false, false, .OnEverySubscribe⟩, ⟨"b", .AtMostOnce, false, false, .OnEverySubscribe⟩], none⟩,
   ⟨1, [⟨"a, Qos = AtMostOnce, Nolocal = false, Preserve retain = false, Forward rule = OnEverySubscribe, Filter = b", .AtMostOnce, false, false, .OnEverySubscribe⟩], none⟩,
   by decide, rfl, by decide +kernel⟩⟩

/-- a text for single elements from which the element can be read off, whatever follows -/
def Decodable {α : Type} (ok : α → Prop) (text : α → String) : Prop :=
  ∀ x y, ok x → ok y → ∀ u v : List Char, (text x).toList ++ u = (text y).toList ++ v → x = y ∧ u = v

theorem list_text {α : Type} {ok : α → Prop} {text : α → String} (hd : Decodable ok text)
    (hne : ∀ x, ∃ c cs, (text x).toList = c :: cs ∧ c ≠ ']')
    (l m : List α) (hl : ∀ x ∈ l, ok x) (hm : ∀ x ∈ m, ok x) (u v : List Char)
    (h : (", ".intercalate (l.map text)).toList ++ ']' :: u = (", ".intercalate (m.map text)).toList ++ ']' :: v) :
    l = m ∧ u = v := by
  have start : ∀ (x : α) (l : List α) (w : List Char), ∃ c cs,
      (", ".intercalate ((x :: l).map text)).toList ++ w = c :: cs ∧ c ≠ ']' := by
    intro x l w
    obtain ⟨c, cs, hc, hn⟩ := hne x
    cases l with
    | nil => exact ⟨c, cs ++ w, by simp [hc], hn⟩
    | cons y l =>
      refine ⟨c, cs ++ ", ".toList ++ (", ".intercalate ((y :: l).map text)).toList ++ w, ?_, hn⟩
      simp only [List.map_cons, String.intercalate_cons_cons, String.toList_append, hc, List.cons_append]
  induction l generalizing m with
  | nil =>
    cases m with
    | nil => exact ⟨rfl, by simpa using h⟩
    | cons y m =>
      obtain ⟨c, cs, hc, hn⟩ := start y m (']' :: v)
      rw [hc] at h
      simp at h
      exact absurd h.1.symm hn
  | cons x l ih =>
    cases m with
    | nil =>
      obtain ⟨c, cs, hc, hn⟩ := start x l (']' :: u)
      rw [hc] at h
      simp at h
      exact absurd h.1 hn
    | cons y m =>
      have ih := fun h => ih m (fun z hz => hl z (.tail _ hz)) (fun z hz => hm z (.tail _ hz)) h
      have hx := hl x (.head _)
      have hy := hm y (.head _)
      cases l with
      | nil =>
        cases m with
        | nil =>
          simp only [List.map_cons, List.map_nil, String.intercalate_singleton] at h
          obtain ⟨h1, h2⟩ := hd x y hx hy _ _ h
          exact ⟨by rw [h1], by simpa using h2⟩
        | cons z m =>
          simp only [List.map_cons, List.map_nil, String.intercalate_singleton, String.intercalate_cons_cons,
            String.toList_append, List.append_assoc] at h
          have h' := (hd x y hx hy _ _ h).2
          exact absurd (List.cons.inj h').1 (by decide)
      | cons w l =>
        cases m with
        | nil =>
          simp only [List.map_cons, List.map_nil, String.intercalate_singleton, String.intercalate_cons_cons,
            String.toList_append, List.append_assoc] at h
          have h' := (hd x y hx hy _ _ h).2
          exact absurd (List.cons.inj h').1 (by decide)
        | cons z m =>
          rw [List.map_cons, List.map_cons, String.intercalate_cons_cons, ← List.map_cons,
            List.map_cons (l := z :: m), List.map_cons (l := m), String.intercalate_cons_cons, ← List.map_cons] at h
          simp only [String.toList_append, List.append_assoc] at h
          obtain ⟨h0, h'⟩ := hd x y hx hy _ _ h
          obtain ⟨h1, h2⟩ := ih (List.append_cancel_left h')
          exact ⟨by rw [h0, h1], h2⟩

theorem qos_prefix {a b : QoS} {u v : List Char} (h : a.debug.toList ++ u = b.debug.toList ++ v) : a = b ∧ u = v := by
  revert h; cases a <;> cases b <;> simp [QoS.debug]

theorem bool_prefix {a b : Bool} {u v : List Char} (h : (fmtBool a).toList ++ u = (fmtBool b).toList ++ v) :
    a = b ∧ u = v := by
  revert h; cases a <;> cases b <;> simp [fmtBool]

theorem rule_prefix {a b : V5.RetainForwardRule} {u v : List Char}
    (h : a.debug.toList ++ u = b.debug.toList ++ v) : a = b ∧ u = v := by
  revert h; cases a <;> cases b <;> simp [V5.RetainForwardRule.debug]

theorem path_prefix {p q : String} (hp : ',' ∉ p.toList) (hq : ',' ∉ q.toList) {u v : List Char}
    (h : "Filter = ".toList ++ (p.toList ++ (", Qos = ".toList ++ u)) =
      "Filter = ".toList ++ (q.toList ++ (", Qos = ".toList ++ v))) : p = q ∧ u = v := by
  have h := List.append_cancel_left h
  obtain ⟨h1, h2⟩ := split_first (c := ',') hp hq h
  exact ⟨String.toList_inj.1 h1, List.append_cancel_left (as := " Qos = ".toList) h2⟩

theorem v4_filter_prefix : Decodable (fun f : V4.SubscribeFilter => ',' ∉ f.path.toList) V4.SubscribeFilter.debug := by
  rintro ⟨p, a⟩ ⟨q, b⟩ hp hq u v h0
  simp only [V4.SubscribeFilter.debug, String.toList_append, List.append_assoc] at h0
  obtain ⟨e0, g1⟩ := path_prefix hp hq h0
  obtain ⟨h1, g2⟩ := qos_prefix g1
  subst e0 h1
  exact ⟨rfl, g2⟩

theorem v5_filter_prefix : Decodable (fun f : V5.SubscribeFilter => ',' ∉ f.path.toList) V5.SubscribeFilter.debug := by
  rintro ⟨p, a, n, r, w⟩ ⟨q, b, n', r', w'⟩ hp hq u v h0
  simp only [V5.SubscribeFilter.debug, String.toList_append, List.append_assoc] at h0
  obtain ⟨e0, g1⟩ := path_prefix hp hq h0
  obtain ⟨h1, g2⟩ := qos_prefix g1
  obtain ⟨h2, g3⟩ := bool_prefix (List.append_cancel_left g2)
  obtain ⟨h3, g4⟩ := bool_prefix (List.append_cancel_left g3)
  obtain ⟨h4, g5⟩ := rule_prefix (List.append_cancel_left g4)
  subst e0 h1 h2 h3 h4
  exact ⟨rfl, g5⟩

theorem subscribe_text {α : Type} {ok : α → Prop} {text : α → String} (hd : Decodable ok text)
    (hne : ∀ x, ∃ c cs, (text x).toList = c :: cs ∧ c ≠ ']')
    (l m : List α) (hl : ∀ x ∈ l, ok x) (hm : ∀ x ∈ m, ok x) (j k : UInt16)
    (h : "Filters = " ++ fmtList (l.map text) ++ ", Packet id = " ++ fmtNat j.toNat =
      "Filters = " ++ fmtList (m.map text) ++ ", Packet id = " ++ fmtNat k.toNat) : l = m := by
  have h := congrArg String.toList h
  simp only [fmtList, String.toList_append, List.append_assoc] at h
  have h := List.append_cancel_left (List.append_cancel_left h)
  exact (list_text hd hne l m hl hm (", Packet id = ".toList ++ (fmtNat j.toNat).toList)
    (", Packet id = ".toList ++ (fmtNat k.toNat).toList) h).1

theorem pkid_text {p q : String} {j k : UInt16}
    (h : p ++ ", Packet id = " ++ fmtNat j.toNat = q ++ ", Packet id = " ++ fmtNat k.toNat) : j = k := by
  obtain ⟨-, h⟩ := app_field ", Packet id = " ", Packet id =".toList (by decide) (nat_no_space _) (nat_no_space _) h
  exact UInt16.toNat_inj.1 (nat_inj h)

/-- C76 (SUBSCRIBE): the text always shows the packet id; it determines the filters, in order, if no path contains a
comma; v5 properties are never shown. -/
theorem C76_subscribe_debug :
    (∀ s t : V4.Subscribe, s.debug = t.debug → s.pkid = t.pkid) ∧
    (∀ s t : V5.Subscribe, s.debug = t.debug → s.pkid = t.pkid) ∧
    (∀ s t : V4.Subscribe, (∀ f ∈ s.filters ++ t.filters, ',' ∉ f.path.toList) → (s.debug = t.debug ↔ s = t)) ∧
    (∀ s t : V5.Subscribe, (∀ f ∈ s.filters ++ t.filters, ',' ∉ f.path.toList) →
      (s.debug = t.debug ↔ s.pkid = t.pkid ∧ s.filters = t.filters)) := by
  refine ⟨fun s t h => pkid_text h, fun s t h => pkid_text h, fun s t hf => ⟨fun h => ?_, fun h => h ▸ rfl⟩,
    fun s t hf => ⟨fun h => ⟨pkid_text h, ?_⟩, fun h => ?_⟩⟩
  · have h1 := pkid_text h
    have h2 := subscribe_text v4_filter_prefix (fun x => ⟨'F', _, by
      simp only [V4.SubscribeFilter.debug, String.toList_append, List.append_assoc]; rfl, by decide⟩) s.filters t.filters
      (fun f hm => hf f (List.mem_append_left _ hm)) (fun f hm => hf f (List.mem_append_right _ hm)) _ _ h
    cases s; cases t
    simp only at h1 h2
    rw [h1, h2]
  · exact subscribe_text v5_filter_prefix (fun x => ⟨'F', _, by
      simp only [V5.SubscribeFilter.debug, String.toList_append, List.append_assoc]; rfl, by decide⟩) s.filters t.filters
      (fun f hm => hf f (List.mem_append_left _ hm)) (fun f hm => hf f (List.mem_append_right _ hm)) _ _ h
  · unfold V5.Subscribe.debug
    rw [h.1, h.2]

example : (V4.Subscribe.mk 7 [⟨"a/b", .AtLeastOnce⟩, ⟨"#", .AtMostOnce⟩]).debug =
    "Filters = [Filter = a/b, Qos = AtLeastOnce, Filter = #, Qos = AtMostOnce], Packet id = 7" := by decide +kernel
example : ∀ f ∈ [V4.SubscribeFilter.mk "a/b" .AtLeastOnce, ⟨"#", .AtMostOnce⟩], ',' ∉ f.path.toList := by decide

/-! ### errors -/

/-- the name of an error and its argument, if any -/
def errorParts : Error → String × Option String
  | .NotConnect t => ("NotConnect", some t.debug)
  | .UnexpectedConnect => ("UnexpectedConnect", none)
  | .InvalidConnectReturnCode n => ("InvalidConnectReturnCode", some (fmtNat n.toNat))
  | .InvalidReason n => ("InvalidReason", some (fmtNat n.toNat))
  | .InvalidProtocol => ("InvalidProtocol", none)
  | .InvalidProtocolLevel n => ("InvalidProtocolLevel", some (fmtNat n.toNat))
  | .IncorrectPacketFormat => ("IncorrectPacketFormat", none)
  | .InvalidPacketType n => ("InvalidPacketType", some (fmtNat n.toNat))
  | .InvalidPropertyType n => ("InvalidPropertyType", some (fmtNat n.toNat))
  | .InvalidRetainForwardRule n => ("InvalidRetainForwardRule", some (fmtNat n.toNat))
  | .InvalidQoS n => ("InvalidQoS", some (fmtNat n.toNat))
  | .InvalidSubscribeReasonCode n => ("InvalidSubscribeReasonCode", some (fmtNat n.toNat))
  | .PacketIdZero => ("PacketIdZero", none)
  | .SubscriptionIdZero => ("SubscriptionIdZero", none)
  | .PayloadSizeIncorrect => ("PayloadSizeIncorrect", none)
  | .PayloadTooLong => ("PayloadTooLong", none)
  | .PayloadSizeLimitExceeded n => ("PayloadSizeLimitExceeded", some (fmtNat n))
  | .PayloadRequired => ("PayloadRequired", none)
  | .TopicNotUtf8 => ("TopicNotUtf8", none)
  | .BoundaryCrossed n => ("BoundaryCrossed", some (fmtNat n))
  | .MalformedPacket => ("MalformedPacket", none)
  | .MalformedRemainingLength => ("MalformedRemainingLength", none)
  | .EmptySubscription => ("EmptySubscription", none)
  | .InsufficientBytes n => ("InsufficientBytes", some (fmtNat n))

theorem error_debug_parts (e : Error) : e.debug.toList = (errorParts e).1.toList ++
    (match (errorParts e).2 with | none => [] | some a => '(' :: (a.toList ++ [')'])) := by
  cases e <;> simp [Error.debug, errorParts, fmtTuple]

theorem error_name_no_paren (e : Error) : '(' ∉ (errorParts e).1.toList := by
  cases e <;> simp only [errorParts] <;> decide

theorem error_parts_inj {e f : Error} (h : errorParts e = errorParts f) : e = f := by
  have hn : ∀ {m n : Nat}, fmtNat m = fmtNat n → m = n := fun h => Nat.repr_injective h
  have hu : ∀ {m n : UInt8}, fmtNat m.toNat = fmtNat n.toNat → m = n := fun h => UInt8.toNat_inj.1 (hn h)
  have ht : ∀ {m n : PacketType}, m.debug = n.debug → m = n := by
    intro m n; cases m <;> cases n <;> decide
  cases e <;> cases f <;>
    first
      | rfl
      | (simp only [errorParts, Prod.mk.injEq, Option.some.injEq, true_and] at h
         first
           | exact congrArg _ (hu h)
           | exact congrArg _ (hn h)
           | exact congrArg _ (ht h)
           | exact absurd h.1 (by decide))

/-- C75: different errors have different texts, with `{:?}` and with `{}`. -/
theorem C75_error_text :
    (∀ e f : Error, e.debug = f.debug ↔ e = f) ∧ (∀ e f : Error, e.display = f.display ↔ e = f) := by
  have key : ∀ e f : Error, e.debug = f.debug → e = f := by
    intro e f h
    have h := congrArg String.toList h
    rw [error_debug_parts, error_debug_parts] at h
    apply error_parts_inj
    have he := error_name_no_paren e
    have hf := error_name_no_paren f
    generalize errorParts e = a at h he
    generalize errorParts f = b at h hf
    obtain ⟨n, o⟩ := a
    obtain ⟨m, o'⟩ := b
    simp only at h he hf
    cases o with
    | none =>
      cases o' with
      | none => simp only [List.append_nil] at h; rw [String.toList_inj.1 h]
      | some c =>
        simp only [List.append_nil] at h
        exact absurd (show '(' ∈ n.toList by rw [h]; simp) he
    | some c =>
      cases o' with
      | none =>
        simp only [List.append_nil] at h
        exact absurd (show '(' ∈ m.toList by rw [← h]; simp) hf
      | some d =>
        obtain ⟨h1, h2⟩ := split_first he hf h
        rw [String.toList_inj.1 h1, String.toList_inj.1 (List.append_cancel_right h2)]
  refine ⟨fun e f => ⟨key e f, fun h => h ▸ rfl⟩, fun e f => ⟨fun h => key e f ?_, fun h => h ▸ rfl⟩⟩
  have h := congrArg String.toList h
  unfold Error.display at h
  rw [String.toList_append, String.toList_append] at h
  exact String.toList_inj.1 (List.append_cancel_left h)

example : (Error.InsufficientBytes 12).display = "Error = InsufficientBytes(12)" := by decide +kernel
example : (Error.NotConnect .PubAck).display = "Error = NotConnect(PubAck)" := by decide +kernel

/-- **C77** QoS values compare like their numbers on the wire: as an ordering, and with each of the operators. -/
theorem C77_qos_order (a b : QoS) :
    a.partial_cmp b = some (compare (Spec.V4.qosNum a) (Spec.V4.qosNum b))
    ∧ (a.lt b = true ↔ Spec.V4.qosNum a < Spec.V4.qosNum b) ∧ (a.le b = true ↔ Spec.V4.qosNum a ≤ Spec.V4.qosNum b)
    ∧ (a.gt b = true ↔ Spec.V4.qosNum a > Spec.V4.qosNum b) ∧ (a.ge b = true ↔ Spec.V4.qosNum a ≥ Spec.V4.qosNum b)
    ∧ (a.le b = true ∧ b.le a = true ↔ a = b) := by
  cases a <;> cases b <;> decide

example : QoS.le .AtMostOnce .ExactlyOnce = true ∧ QoS.partial_cmp .ExactlyOnce .AtLeastOnce = some .gt := ⟨rfl, rfl⟩

end Props
