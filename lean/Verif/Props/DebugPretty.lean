import Verif.Proof.DebugPretty
import Verif.Props.Debug
/-! C102: the derived `Debug` texts in the pretty form `{:#?}`. -/
namespace Mqtt
open Props

/-- a word, or a word and an entry in parentheses -/
def wordTextP (name : String) : Option String → String
  | none => name
  | some s => fmtTupleP name s

theorem wordTextP_inj {n m : String} {a b : Option String} (hn : '(' ∉ n.toList) (hm : '(' ∉ m.toList)
    (h : wordTextP n a = wordTextP m b) : n = m ∧ a = b := by
  have key : ∀ n s : String, (fmtTupleP n s).toList = n.toList ++ '(' :: ('\n' :: padList true (body [s]) ++ [')']) := by
    intro n s
    have := tupleP_toList n s []
    simpa using this
  have h := congrArg String.toList h
  cases a with
  | none =>
    cases b with
    | none => exact ⟨String.toList_inj.1 h, rfl⟩
    | some t =>
      rw [show (wordTextP m (some t)).toList = _ from key m t] at h
      exact absurd (show '(' ∈ n.toList by rw [show n.toList = _ from h]; simp) hn
  | some s =>
    cases b with
    | none =>
      rw [show (wordTextP n (some s)).toList = _ from key n s] at h
      exact absurd (show '(' ∈ m.toList by rw [show m.toList = _ from h.symm]; simp) hm
    | some t =>
      rw [show (wordTextP n (some s)).toList = _ from key n s, show (wordTextP m (some t)).toList = _ from key m t] at h
      obtain ⟨h1, h2⟩ := split_first hn hm h
      have h2 := (List.cons.inj h2).2
      obtain ⟨h3, _⟩ := unpad (c := ')') (by decide) true _ _ [] [] (body_lines _) (body_lines _) h2
      exact ⟨String.toList_inj.1 h1, by rw [body_one h3]⟩

theorem Error.pretty_eq (e : Error) :
    e.pretty = wordTextP (errorParts e).1 (errorParts e).2 := by
  cases e <;> simp [Error.pretty, errorParts, wordTextP]

namespace V4
/-- the pretty text of the contents of a packet -/
def Packet.argP (esc : Char → Bool) : Packet → Option String
  | .Connect x => some (x.pretty esc)
  | .ConnAck x => some (x.pretty)
  | .Publish x => some x.debug
  | .PubAck x => some (x.pretty)
  | .PubRec x => some (x.pretty)
  | .PubRel x => some (x.pretty)
  | .PubComp x => some (x.pretty)
  | .Subscribe x => some x.debug
  | .SubAck x => some (x.pretty)
  | .Unsubscribe x => some (x.pretty esc)
  | .UnsubAck x => some (x.pretty)
  | .PingReq => none
  | .PingResp => none
  | .Disconnect => none
theorem Packet.pretty_eq (esc : Char → Bool) (p : Packet) : p.pretty esc = wordTextP p.word (p.argP esc) := by
  cases p <;> rfl
end V4

namespace V5
/-- the pretty text of the contents of a packet -/
def Packet.argP (esc : Char → Bool) : Packet → Option String
  | .Connect x => some (x.pretty esc)
  | .ConnAck x => some (x.pretty esc)
  | .Publish x => some x.debug
  | .PubAck x => some (x.pretty esc)
  | .PubRec x => some (x.pretty esc)
  | .PubRel x => some (x.pretty esc)
  | .PubComp x => some (x.pretty esc)
  | .Subscribe x => some x.debug
  | .SubAck x => some (x.pretty esc)
  | .Unsubscribe x => some (x.pretty esc)
  | .UnsubAck x => some (x.pretty esc)
  | .PingReq => none
  | .PingResp => none
  | .Disconnect x => some (x.pretty esc)
theorem Packet.pretty_eq (esc : Char → Bool) (p : Packet) : p.pretty esc = wordTextP p.word (p.argP esc) := by
  cases p <;> rfl
end V5

end Mqtt

namespace Props
open Mqtt

/-- **C102** Different errors have different pretty texts. -/
theorem C102_error (e f : Error) : e.pretty = f.pretty ↔ e = f := by
  refine ⟨fun h => ?_, fun h => h ▸ rfl⟩
  rw [Error.pretty_eq, Error.pretty_eq] at h
  obtain ⟨h1, h2⟩ := wordTextP_inj (error_name_no_paren e) (error_name_no_paren f) h
  exact error_parts_inj (Prod.ext h1 h2)

/-- **C102** (v4) The pretty `Debug` text of a packet (other than PUBLISH and SUBSCRIBE) determines the packet. -/
theorem C102_v4 (esc : Char → Bool) :
    (∀ p q : V4.Connect, p.pretty esc = q.pretty esc ↔ p = q)
    ∧ (∀ p q : V4.ConnAck, p.pretty = q.pretty ↔ p = q)
    ∧ (∀ p q : V4.PubAck, p.pretty = q.pretty ↔ p = q)
    ∧ (∀ p q : V4.PubRec, p.pretty = q.pretty ↔ p = q)
    ∧ (∀ p q : V4.PubRel, p.pretty = q.pretty ↔ p = q)
    ∧ (∀ p q : V4.PubComp, p.pretty = q.pretty ↔ p = q)
    ∧ (∀ p q : V4.SubAck, p.pretty = q.pretty ↔ p = q)
    ∧ (∀ p q : V4.Unsubscribe, p.pretty esc = q.pretty esc ↔ p = q)
    ∧ (∀ p q : V4.UnsubAck, p.pretty = q.pretty ↔ p = q) :=
  ⟨fun _ _ => ⟨fun h => (V4.Connect.neat esc).eq h, fun h => h ▸ rfl⟩,
    fun _ _ => ⟨fun h => (V4.ConnAck.neat).eq h, fun h => h ▸ rfl⟩,
    fun _ _ => ⟨fun h => (V4.PubAck.neat).eq h, fun h => h ▸ rfl⟩,
    fun _ _ => ⟨fun h => (V4.PubRec.neat).eq h, fun h => h ▸ rfl⟩,
    fun _ _ => ⟨fun h => (V4.PubRel.neat).eq h, fun h => h ▸ rfl⟩,
    fun _ _ => ⟨fun h => (V4.PubComp.neat).eq h, fun h => h ▸ rfl⟩,
    fun _ _ => ⟨fun h => (V4.SubAck.neat).eq h, fun h => h ▸ rfl⟩,
    fun _ _ => ⟨fun h => (V4.Unsubscribe.neat esc).eq h, fun h => h ▸ rfl⟩,
    fun _ _ => ⟨fun h => (V4.UnsubAck.neat).eq h, fun h => h ▸ rfl⟩⟩

/-- **C102** (v5) The same for the packets of MQTT 5, properties included. -/
theorem C102_v5 (esc : Char → Bool) :
    (∀ p q : V5.Connect, p.pretty esc = q.pretty esc ↔ p = q)
    ∧ (∀ p q : V5.ConnAck, p.pretty esc = q.pretty esc ↔ p = q)
    ∧ (∀ p q : V5.PubAck, p.pretty esc = q.pretty esc ↔ p = q)
    ∧ (∀ p q : V5.PubRec, p.pretty esc = q.pretty esc ↔ p = q)
    ∧ (∀ p q : V5.PubRel, p.pretty esc = q.pretty esc ↔ p = q)
    ∧ (∀ p q : V5.PubComp, p.pretty esc = q.pretty esc ↔ p = q)
    ∧ (∀ p q : V5.SubAck, p.pretty esc = q.pretty esc ↔ p = q)
    ∧ (∀ p q : V5.Unsubscribe, p.pretty esc = q.pretty esc ↔ p = q)
    ∧ (∀ p q : V5.UnsubAck, p.pretty esc = q.pretty esc ↔ p = q)
    ∧ (∀ p q : V5.Disconnect, p.pretty esc = q.pretty esc ↔ p = q) :=
  ⟨fun _ _ => ⟨fun h => (V5.Connect.neat esc).eq h, fun h => h ▸ rfl⟩,
    fun _ _ => ⟨fun h => (V5.ConnAck.neat esc).eq h, fun h => h ▸ rfl⟩,
    fun _ _ => ⟨fun h => (V5.PubAck.neat esc).eq h, fun h => h ▸ rfl⟩,
    fun _ _ => ⟨fun h => (V5.PubRec.neat esc).eq h, fun h => h ▸ rfl⟩,
    fun _ _ => ⟨fun h => (V5.PubRel.neat esc).eq h, fun h => h ▸ rfl⟩,
    fun _ _ => ⟨fun h => (V5.PubComp.neat esc).eq h, fun h => h ▸ rfl⟩,
    fun _ _ => ⟨fun h => (V5.SubAck.neat esc).eq h, fun h => h ▸ rfl⟩,
    fun _ _ => ⟨fun h => (V5.Unsubscribe.neat esc).eq h, fun h => h ▸ rfl⟩,
    fun _ _ => ⟨fun h => (V5.UnsubAck.neat esc).eq h, fun h => h ▸ rfl⟩,
    fun _ _ => ⟨fun h => (V5.Disconnect.neat esc).eq h, fun h => h ▸ rfl⟩⟩

/-- **C102** (v4) The pretty texts of two packets are equal exactly if their plain texts are (C100). -/
theorem C102_v4_packet (esc : Char → Bool) (p q : V4.Packet) :
    p.pretty esc = q.pretty esc ↔ p.debug esc = q.debug esc := by
  rw [C100_v4_packet]
  constructor
  · intro h
    rw [V4.Packet.pretty_eq, V4.Packet.pretty_eq] at h
    obtain ⟨h1, h2⟩ := wordTextP_inj p.word_ok q.word_ok h
    cases p with
    | Connect a => cases q with
      | Connect b => exact .inl (congrArg _ ((V4.Connect.neat esc).eq (Option.some.inj h2)))
      | _ => exact absurd h1 (by simp [V4.Packet.word])
    | ConnAck a => cases q with
      | ConnAck b => exact .inl (congrArg _ ((V4.ConnAck.neat).eq (Option.some.inj h2)))
      | _ => exact absurd h1 (by simp [V4.Packet.word])
    | Publish a => cases q with
      | Publish b => exact .inr (.inl ⟨a, b, rfl, rfl, Option.some.inj h2⟩)
      | _ => exact absurd h1 (by simp [V4.Packet.word])
    | PubAck a => cases q with
      | PubAck b => exact .inl (congrArg _ ((V4.PubAck.neat).eq (Option.some.inj h2)))
      | _ => exact absurd h1 (by simp [V4.Packet.word])
    | PubRec a => cases q with
      | PubRec b => exact .inl (congrArg _ ((V4.PubRec.neat).eq (Option.some.inj h2)))
      | _ => exact absurd h1 (by simp [V4.Packet.word])
    | PubRel a => cases q with
      | PubRel b => exact .inl (congrArg _ ((V4.PubRel.neat).eq (Option.some.inj h2)))
      | _ => exact absurd h1 (by simp [V4.Packet.word])
    | PubComp a => cases q with
      | PubComp b => exact .inl (congrArg _ ((V4.PubComp.neat).eq (Option.some.inj h2)))
      | _ => exact absurd h1 (by simp [V4.Packet.word])
    | Subscribe a => cases q with
      | Subscribe b => exact .inr (.inr ⟨a, b, rfl, rfl, Option.some.inj h2⟩)
      | _ => exact absurd h1 (by simp [V4.Packet.word])
    | SubAck a => cases q with
      | SubAck b => exact .inl (congrArg _ ((V4.SubAck.neat).eq (Option.some.inj h2)))
      | _ => exact absurd h1 (by simp [V4.Packet.word])
    | Unsubscribe a => cases q with
      | Unsubscribe b => exact .inl (congrArg _ ((V4.Unsubscribe.neat esc).eq (Option.some.inj h2)))
      | _ => exact absurd h1 (by simp [V4.Packet.word])
    | UnsubAck a => cases q with
      | UnsubAck b => exact .inl (congrArg _ ((V4.UnsubAck.neat).eq (Option.some.inj h2)))
      | _ => exact absurd h1 (by simp [V4.Packet.word])
    | PingReq => cases q with
      | PingReq => exact .inl rfl
      | _ => exact absurd h1 (by simp [V4.Packet.word])
    | PingResp => cases q with
      | PingResp => exact .inl rfl
      | _ => exact absurd h1 (by simp [V4.Packet.word])
    | Disconnect => cases q with
      | Disconnect => exact .inl rfl
      | _ => exact absurd h1 (by simp [V4.Packet.word])
  · rintro (rfl | ⟨a, b, rfl, rfl, h⟩ | ⟨a, b, rfl, rfl, h⟩)
    · rfl
    · show fmtTupleP _ _ = fmtTupleP _ _; rw [h]
    · show fmtTupleP _ _ = fmtTupleP _ _; rw [h]

/-- **C102** (v5) The pretty texts of two packets are equal exactly if their plain texts are (C100). -/
theorem C102_v5_packet (esc : Char → Bool) (p q : V5.Packet) :
    p.pretty esc = q.pretty esc ↔ p.debug esc = q.debug esc := by
  rw [C100_v5_packet]
  constructor
  · intro h
    rw [V5.Packet.pretty_eq, V5.Packet.pretty_eq] at h
    obtain ⟨h1, h2⟩ := wordTextP_inj p.word_ok q.word_ok h
    cases p with
    | Connect a => cases q with
      | Connect b => exact .inl (congrArg _ ((V5.Connect.neat esc).eq (Option.some.inj h2)))
      | _ => exact absurd h1 (by simp [V5.Packet.word])
    | ConnAck a => cases q with
      | ConnAck b => exact .inl (congrArg _ ((V5.ConnAck.neat esc).eq (Option.some.inj h2)))
      | _ => exact absurd h1 (by simp [V5.Packet.word])
    | Publish a => cases q with
      | Publish b => exact .inr (.inl ⟨a, b, rfl, rfl, Option.some.inj h2⟩)
      | _ => exact absurd h1 (by simp [V5.Packet.word])
    | PubAck a => cases q with
      | PubAck b => exact .inl (congrArg _ ((V5.PubAck.neat esc).eq (Option.some.inj h2)))
      | _ => exact absurd h1 (by simp [V5.Packet.word])
    | PubRec a => cases q with
      | PubRec b => exact .inl (congrArg _ ((V5.PubRec.neat esc).eq (Option.some.inj h2)))
      | _ => exact absurd h1 (by simp [V5.Packet.word])
    | PubRel a => cases q with
      | PubRel b => exact .inl (congrArg _ ((V5.PubRel.neat esc).eq (Option.some.inj h2)))
      | _ => exact absurd h1 (by simp [V5.Packet.word])
    | PubComp a => cases q with
      | PubComp b => exact .inl (congrArg _ ((V5.PubComp.neat esc).eq (Option.some.inj h2)))
      | _ => exact absurd h1 (by simp [V5.Packet.word])
    | Subscribe a => cases q with
      | Subscribe b => exact .inr (.inr ⟨a, b, rfl, rfl, Option.some.inj h2⟩)
      | _ => exact absurd h1 (by simp [V5.Packet.word])
    | SubAck a => cases q with
      | SubAck b => exact .inl (congrArg _ ((V5.SubAck.neat esc).eq (Option.some.inj h2)))
      | _ => exact absurd h1 (by simp [V5.Packet.word])
    | Unsubscribe a => cases q with
      | Unsubscribe b => exact .inl (congrArg _ ((V5.Unsubscribe.neat esc).eq (Option.some.inj h2)))
      | _ => exact absurd h1 (by simp [V5.Packet.word])
    | UnsubAck a => cases q with
      | UnsubAck b => exact .inl (congrArg _ ((V5.UnsubAck.neat esc).eq (Option.some.inj h2)))
      | _ => exact absurd h1 (by simp [V5.Packet.word])
    | PingReq => cases q with
      | PingReq => exact .inl rfl
      | _ => exact absurd h1 (by simp [V5.Packet.word])
    | PingResp => cases q with
      | PingResp => exact .inl rfl
      | _ => exact absurd h1 (by simp [V5.Packet.word])
    | Disconnect a => cases q with
      | Disconnect b => exact .inl (congrArg _ ((V5.Disconnect.neat esc).eq (Option.some.inj h2)))
      | _ => exact absurd h1 (by simp [V5.Packet.word])
  · rintro (rfl | ⟨a, b, rfl, rfl, h⟩ | ⟨a, b, rfl, rfl, h⟩)
    · rfl
    · show fmtTupleP _ _ = fmtTupleP _ _; rw [h]
    · show fmtTupleP _ _ = fmtTupleP _ _; rw [h]

/-- **C102** The property structs of v5 and the fixed header. -/
theorem C102_properties (esc : Char → Bool) :
    (∀ p q : V5.ConnectProperties, p.pretty esc = q.pretty esc ↔ p = q)
    ∧ (∀ p q : V5.WillProperties, p.pretty esc = q.pretty esc ↔ p = q)
    ∧ (∀ p q : V5.ConnAckProperties, p.pretty esc = q.pretty esc ↔ p = q)
    ∧ (∀ p q : V5.PublishProperties, p.pretty esc = q.pretty esc ↔ p = q)
    ∧ (∀ p q : V5.SubscribeProperties, p.pretty esc = q.pretty esc ↔ p = q)
    ∧ (∀ p q : V5.UnsubscribeProperties, p.pretty esc = q.pretty esc ↔ p = q)
    ∧ (∀ p q : V5.DisconnectProperties, p.pretty esc = q.pretty esc ↔ p = q)
    ∧ (∀ p q : FixedHeader, p.pretty = q.pretty ↔ p = q) :=
  ⟨fun _ _ => ⟨fun h => (V5.ConnectProperties.neat esc).eq h, fun h => h ▸ rfl⟩,
    fun _ _ => ⟨fun h => (V5.WillProperties.neat esc).eq h, fun h => h ▸ rfl⟩,
    fun _ _ => ⟨fun h => (V5.ConnAckProperties.neat esc).eq h, fun h => h ▸ rfl⟩,
    fun _ _ => ⟨fun h => (V5.PublishProperties.neat esc).eq h, fun h => h ▸ rfl⟩,
    fun _ _ => ⟨fun h => (V5.SubscribeProperties.neat esc).eq h, fun h => h ▸ rfl⟩,
    fun _ _ => ⟨fun h => (V5.UnsubscribeProperties.neat esc).eq h, fun h => h ▸ rfl⟩,
    fun _ _ => ⟨fun h => (V5.DisconnectProperties.neat esc).eq h, fun h => h ▸ rfl⟩,
    fun _ _ => ⟨fun h => FixedHeader.neat.eq h, fun h => h ▸ rfl⟩⟩

theorem padList_one_line {s : List Char} (h : '\n' ∉ s) : padList false s = s := by
  induction s with
  | nil => rfl
  | cons c s ih =>
    have hc : (c == '\n') = false := by
      rw [beq_eq_false_iff_ne]; exact fun e => h (e ▸ .head _)
    rw [padList, hc, ih fun hs => h (.tail _ hs)]

theorem padList_occurs (nl : Bool) {s : List Char} (h : '\n' ∉ s) : ∃ u, padList nl s = u ++ s := by
  cases nl with
  | false => exact ⟨[], padList_one_line h⟩
  | true =>
    cases s with
    | nil => exact ⟨[], rfl⟩
    | cons c s => exact ⟨[' ', ' ', ' ', ' '], congrArg (fun t => ' ' :: ' ' :: ' ' :: ' ' :: t) (padList_one_line h)⟩

theorem Occurs.entry {s t : String} (hs : '\n' ∉ s.toList) (h : Occurs s t) : Occurs s (entry t) := by
  obtain ⟨pre, post, rfl⟩ := h
  obtain ⟨u, hu⟩ := padList_occurs (endsLine true pre.toList) hs
  refine ⟨String.ofList (padList true pre.toList ++ u),
    String.ofList (padList (endsLine true (pre.toList ++ s.toList)) (post.toList ++ [',', '\n'])), String.toList_inj.1 ?_⟩
  rw [Mqtt.entry]
  simp only [String.toList_append, String.toList_ofList, List.append_assoc]
  rw [padList_append, padList_append, hu]
  have : endsLine (endsLine true pre.toList) s.toList = endsLine true (pre.toList ++ s.toList) := by
    generalize pre.toList = l
    generalize true = b
    induction l generalizing b with
    | nil => rfl
    | cons c l ih => exact ih _
  rw [this]
  simp

theorem Occurs.join {s t : String} {l : List String} (hm : t ∈ l) (h : Occurs s t) : Occurs s (String.join l) := by
  have key : ∀ (l : List String) (acc : String), (Occurs s acc ∨ ∃ t ∈ l, Occurs s t) →
      Occurs s (l.foldl (fun r s => r ++ s) acc) := by
    intro l
    induction l with
    | nil =>
      rintro acc (h | ⟨_, h, _⟩)
      · exact h
      · cases h
    | cons a l ih =>
      rintro acc (h | ⟨t, hm, h⟩)
      · exact ih _ (.inl (h.trans ⟨"", a, by simp⟩))
      · cases hm with
        | head => exact ih _ (.inl (h.trans ⟨acc, "", by simp⟩))
        | tail _ hm => exact ih _ (.inr ⟨t, hm, h⟩)
  exact key l "" (.inr ⟨t, hm, h⟩)

theorem Occurs.block {s t op cl : String} {l : List String} (hs : '\n' ∉ s.toList) (hm : t ∈ l) (h : Occurs s t) :
    Occurs s (block op l cl) :=
  (Occurs.join (List.mem_map.2 ⟨t, hm, rfl⟩) (Occurs.entry hs h)).trans ⟨op ++ "\n", cl, rfl⟩

theorem Occurs.fieldP {name n s t : String} {fs : List (String × String)} (hs : '\n' ∉ s.toList) (hm : (n, t) ∈ fs)
    (h : Occurs s t) : Occurs s (fmtStructP name fs) :=
  Occurs.block hs (List.mem_map.2 ⟨(n, t), hm, rfl⟩) (h.trans ⟨n ++ ": ", "", by simp⟩)

theorem fmtStr_one_line (esc : Char → Bool) (s : String) : '\n' ∉ (fmtStr esc s).toList := by
  have hex : ∀ n, '\n' ∉ hexDigits n := by
    intro m
    induction m using Nat.strongRecOn with
    | _ m ih =>
      unfold hexDigits at *
      rw [Nat.toDigits_eq_if (by decide)]
      have d : ∀ k < 16, '\n' ≠ Nat.digitChar k := by decide
      by_cases hm : m < 16
      · rw [if_pos hm]
        simp only [List.mem_singleton]
        exact d m hm
      · rw [if_neg hm, List.mem_append, not_or]
        refine ⟨ih _ (by omega), ?_⟩
        simp only [List.mem_singleton]
        exact d _ (Nat.mod_lt _ (by decide))
  have one : ∀ c, '\n' ∉ escChar esc c := by
    intro c
    by_cases hc : c = '\n'
    · subst hc; simp [escChar]
    rcases escChar_cases esc c with ⟨k, hk, hm⟩ | h | ⟨h, _⟩
    · rw [hk]
      simp at hm
      rcases hm with ⟨_, rfl⟩ | ⟨_, rfl⟩ | ⟨_, rfl⟩ | ⟨_, rfl⟩ | ⟨_, rfl⟩ | ⟨_, rfl⟩ <;> decide
    · rw [h]; simp [hex]
    · rw [h]; simpa using fun e : '\n' = c => hc e.symm
  simp [fmtStr, one]

/-- **C102** The pretty text of a CONNECT with a login shows the password too. -/
theorem C102_password (esc : Char → Bool) :
    (∀ (c : V4.Connect) (l : V4.Login), c.login = some l →
      Occurs (fmtStr esc l.password) ((V4.Packet.Connect c).pretty esc)
      ∧ (PlainText esc l.password → Occurs l.password ((V4.Packet.Connect c).pretty esc)))
    ∧ (∀ (c : V5.Connect) (l : V5.Login), c.login = some l →
      Occurs (fmtStr esc l.password) ((V5.Packet.Connect c).pretty esc)
      ∧ (PlainText esc l.password → Occurs l.password ((V5.Packet.Connect c).pretty esc))) := by
  have k4 : ∀ (c : V4.Connect) (l : V4.Login), c.login = some l →
      Occurs (fmtStr esc l.password) ((V4.Packet.Connect c).pretty esc) := by
    intro c l h
    have n := fmtStr_one_line esc l.password
    have h1 : Occurs (fmtStr esc l.password) (l.pretty esc) := Occurs.fieldP n (n := "password") (by simp) (.refl _)
    have h2 : Occurs (fmtStr esc l.password) (c.pretty esc) := by
      refine Occurs.fieldP n (n := "login") (t := fmtTupleP "Some" (l.pretty esc)) ?_ (Occurs.block n (.head _) h1)
      simp [h, fmtOptionP]
    exact Occurs.block n (.head _) h2
  have k5 : ∀ (c : V5.Connect) (l : V5.Login), c.login = some l →
      Occurs (fmtStr esc l.password) ((V5.Packet.Connect c).pretty esc) := by
    intro c l h
    have n := fmtStr_one_line esc l.password
    have h1 : Occurs (fmtStr esc l.password) (l.pretty esc) := Occurs.fieldP n (n := "password") (by simp) (.refl _)
    have h2 : Occurs (fmtStr esc l.password) (c.pretty esc) := by
      refine Occurs.fieldP n (n := "login") (t := fmtTupleP "Some" (l.pretty esc)) ?_ (Occurs.block n (.head _) h1)
      simp [h, fmtOptionP]
    exact Occurs.block n (.head _) h2
  exact ⟨fun c l h => ⟨k4 c l h, fun hp => (Occurs.plain hp).trans (k4 c l h)⟩,
    fun c l h => ⟨k5 c l h, fun hp => (Occurs.plain hp).trans (k5 c l h)⟩⟩

example : (V4.Packet.SubAck ⟨1, [.Success .ExactlyOnce, .Failure]⟩).pretty asciiTable
    = "SubAck(\n    SubAck {\n        pkid: 1,\n        return_codes: [\n            Success(\n                ExactlyOnce,\n            ),\n            Failure,\n        ],\n    },\n)" := by
  decide +kernel
example : (V5.Packet.PubAck ⟨7, .Success, some ⟨none, [("k", "v\n")]⟩⟩).pretty asciiTable
    = "PubAck(\n    PubAck {\n        pkid: 7,\n        reason: Success,\n        properties: Some(\n            PubAckProperties {\n                reason_string: None,\n                user_properties: [\n                    (\n                        \"k\",\n                        \"v\\n\",\n                    ),\n                ],\n            },\n        ),\n    },\n)" := by
  decide +kernel
example : (V4.Packet.Publish ⟨false, .AtMostOnce, false, "a\nb", 0, []⟩).pretty asciiTable
    = "Publish(\n    Topic = a\n    b, Qos = AtMostOnce, Retain = false, Pkid = 0, Payload Size = 0,\n)" := by
  decide +kernel
end Props
