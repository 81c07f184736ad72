import Verif.Spec.Terms
import Verif.Proof.Debug
/-! C100, C101: the derived `Debug` texts. -/
namespace Mqtt
open Props

/-- a word, or a word and something in parentheses -/
def wordText (name : String) : Option String → String
  | none => name
  | some s => fmtTuple name s

theorem wordText_inj {n m : String} {a b : Option String} (hn : '(' ∉ n.toList) (hm : '(' ∉ m.toList)
    (h : wordText n a = wordText m b) : n = m ∧ a = b := by
  cases a with
  | none =>
    cases b with
    | none => exact ⟨h, rfl⟩
    | some t =>
      refine absurd ?_ hn
      rw [show n = fmtTuple m t from h]
      simp [fmtTuple]
  | some s =>
    cases b with
    | none =>
      refine absurd ?_ hm
      rw [show m = fmtTuple n s from h.symm]
      simp [fmtTuple]
    | some t =>
      have e := congrArg (fun s => s.toList ++ []) h
      simp only [wordText, tuple_toList] at e
      obtain ⟨h1, h2⟩ := split_first hn hm e
      obtain ⟨h2, _⟩ := List.append_inj' h2 rfl
      exact ⟨String.toList_inj.1 h1, by rw [String.toList_inj.1 h2]⟩

namespace V4
/-- the variant of a packet -/
def Packet.word : Packet → String
  | .Connect _ => "Connect"
  | .ConnAck _ => "ConnAck"
  | .Publish _ => "Publish"
  | .PubAck _ => "PubAck"
  | .PubRec _ => "PubRec"
  | .PubRel _ => "PubRel"
  | .PubComp _ => "PubComp"
  | .Subscribe _ => "Subscribe"
  | .SubAck _ => "SubAck"
  | .Unsubscribe _ => "Unsubscribe"
  | .UnsubAck _ => "UnsubAck"
  | .PingReq => "PingReq"
  | .PingResp => "PingResp"
  | .Disconnect => "Disconnect"
/-- the text of its contents -/
def Packet.arg (esc : Char → Bool) : Packet → Option String
  | .Connect x => some (x.debug esc)
  | .ConnAck x => some (x.debug)
  | .Publish x => some (x.debug)
  | .PubAck x => some (x.debug)
  | .PubRec x => some (x.debug)
  | .PubRel x => some (x.debug)
  | .PubComp x => some (x.debug)
  | .Subscribe x => some (x.debug)
  | .SubAck x => some (x.debug)
  | .Unsubscribe x => some (x.debug esc)
  | .UnsubAck x => some (x.debug)
  | .PingReq => none
  | .PingResp => none
  | .Disconnect => none
theorem Packet.debug_eq (esc : Char → Bool) (p : Packet) : p.debug esc = wordText p.word (p.arg esc) := by
  cases p <;> rfl
theorem Packet.word_ok (p : Packet) : '(' ∉ p.word.toList := by cases p <;> simp [Packet.word]
end V4

namespace V5
/-- the variant of a packet -/
def Packet.word : Packet → String
  | .Connect _ => "Connect"
  | .ConnAck _ => "ConnAck"
  | .Publish _ => "Publish"
  | .PubAck _ => "PubAck"
  | .PubRec _ => "PubRec"
  | .PubRel _ => "PubRel"
  | .PubComp _ => "PubComp"
  | .Subscribe _ => "Subscribe"
  | .SubAck _ => "SubAck"
  | .Unsubscribe _ => "Unsubscribe"
  | .UnsubAck _ => "UnsubAck"
  | .PingReq => "PingReq"
  | .PingResp => "PingResp"
  | .Disconnect _ => "Disconnect"
/-- the text of its contents -/
def Packet.arg (esc : Char → Bool) : Packet → Option String
  | .Connect x => some (x.debug esc)
  | .ConnAck x => some (x.debug esc)
  | .Publish x => some (x.debug)
  | .PubAck x => some (x.debug esc)
  | .PubRec x => some (x.debug esc)
  | .PubRel x => some (x.debug esc)
  | .PubComp x => some (x.debug esc)
  | .Subscribe x => some (x.debug)
  | .SubAck x => some (x.debug esc)
  | .Unsubscribe x => some (x.debug esc)
  | .UnsubAck x => some (x.debug esc)
  | .PingReq => none
  | .PingResp => none
  | .Disconnect x => some (x.debug esc)
theorem Packet.debug_eq (esc : Char → Bool) (p : Packet) : p.debug esc = wordText p.word (p.arg esc) := by
  cases p <;> rfl
theorem Packet.word_ok (p : Packet) : '(' ∉ p.word.toList := by cases p <;> simp [Packet.word]
end V5

end Mqtt

namespace Props
open Mqtt

/-- **C100** (v4) Whatever the table of escaped characters is: the `Debug` text of a packet (other than PUBLISH and SUBSCRIBE,
C76) determines the packet. -/
theorem C100_v4 (esc : Char → Bool) :
    (∀ p q : V4.Connect, p.debug esc = q.debug esc ↔ p = q)
    ∧ (∀ p q : V4.ConnAck, p.debug = q.debug ↔ p = q)
    ∧ (∀ p q : V4.PubAck, p.debug = q.debug ↔ p = q)
    ∧ (∀ p q : V4.PubRec, p.debug = q.debug ↔ p = q)
    ∧ (∀ p q : V4.PubRel, p.debug = q.debug ↔ p = q)
    ∧ (∀ p q : V4.PubComp, p.debug = q.debug ↔ p = q)
    ∧ (∀ p q : V4.SubAck, p.debug = q.debug ↔ p = q)
    ∧ (∀ p q : V4.Unsubscribe, p.debug esc = q.debug esc ↔ p = q)
    ∧ (∀ p q : V4.UnsubAck, p.debug = q.debug ↔ p = q) :=
  ⟨fun _ _ => ⟨fun h => (V4.Connect.clean esc).eq h, fun h => h ▸ rfl⟩,
    fun _ _ => ⟨fun h => (V4.ConnAck.clean).eq h, fun h => h ▸ rfl⟩,
    fun _ _ => ⟨fun h => (V4.PubAck.clean).eq h, fun h => h ▸ rfl⟩,
    fun _ _ => ⟨fun h => (V4.PubRec.clean).eq h, fun h => h ▸ rfl⟩,
    fun _ _ => ⟨fun h => (V4.PubRel.clean).eq h, fun h => h ▸ rfl⟩,
    fun _ _ => ⟨fun h => (V4.PubComp.clean).eq h, fun h => h ▸ rfl⟩,
    fun _ _ => ⟨fun h => (V4.SubAck.clean).eq h, fun h => h ▸ rfl⟩,
    fun _ _ => ⟨fun h => (V4.Unsubscribe.clean esc).eq h, fun h => h ▸ rfl⟩,
    fun _ _ => ⟨fun h => (V4.UnsubAck.clean).eq h, fun h => h ▸ rfl⟩⟩

/-- **C100** (v5) The same for the packets of MQTT 5, properties included. -/
theorem C100_v5 (esc : Char → Bool) :
    (∀ p q : V5.Connect, p.debug esc = q.debug esc ↔ p = q)
    ∧ (∀ p q : V5.ConnAck, p.debug esc = q.debug esc ↔ p = q)
    ∧ (∀ p q : V5.PubAck, p.debug esc = q.debug esc ↔ p = q)
    ∧ (∀ p q : V5.PubRec, p.debug esc = q.debug esc ↔ p = q)
    ∧ (∀ p q : V5.PubRel, p.debug esc = q.debug esc ↔ p = q)
    ∧ (∀ p q : V5.PubComp, p.debug esc = q.debug esc ↔ p = q)
    ∧ (∀ p q : V5.SubAck, p.debug esc = q.debug esc ↔ p = q)
    ∧ (∀ p q : V5.Unsubscribe, p.debug esc = q.debug esc ↔ p = q)
    ∧ (∀ p q : V5.UnsubAck, p.debug esc = q.debug esc ↔ p = q)
    ∧ (∀ p q : V5.Disconnect, p.debug esc = q.debug esc ↔ p = q) :=
  ⟨fun _ _ => ⟨fun h => (V5.Connect.clean esc).eq h, fun h => h ▸ rfl⟩,
    fun _ _ => ⟨fun h => (V5.ConnAck.clean esc).eq h, fun h => h ▸ rfl⟩,
    fun _ _ => ⟨fun h => (V5.PubAck.clean esc).eq h, fun h => h ▸ rfl⟩,
    fun _ _ => ⟨fun h => (V5.PubRec.clean esc).eq h, fun h => h ▸ rfl⟩,
    fun _ _ => ⟨fun h => (V5.PubRel.clean esc).eq h, fun h => h ▸ rfl⟩,
    fun _ _ => ⟨fun h => (V5.PubComp.clean esc).eq h, fun h => h ▸ rfl⟩,
    fun _ _ => ⟨fun h => (V5.SubAck.clean esc).eq h, fun h => h ▸ rfl⟩,
    fun _ _ => ⟨fun h => (V5.Unsubscribe.clean esc).eq h, fun h => h ▸ rfl⟩,
    fun _ _ => ⟨fun h => (V5.UnsubAck.clean esc).eq h, fun h => h ▸ rfl⟩,
    fun _ _ => ⟨fun h => (V5.Disconnect.clean esc).eq h, fun h => h ▸ rfl⟩⟩

/-- **C100** (v4) The text of a `Packet` determines it, except for what the texts of PUBLISH and SUBSCRIBE leave open (C76). -/
theorem C100_v4_packet (esc : Char → Bool) (p q : V4.Packet) :
    p.debug esc = q.debug esc ↔ p = q
      ∨ (∃ a b, p = .Publish a ∧ q = .Publish b ∧ a.debug = b.debug)
      ∨ (∃ a b, p = .Subscribe a ∧ q = .Subscribe b ∧ a.debug = b.debug) := by
  constructor
  · intro h
    rw [V4.Packet.debug_eq, V4.Packet.debug_eq] at h
    obtain ⟨h1, h2⟩ := wordText_inj p.word_ok q.word_ok h
    cases p with
    | Connect a => cases q with
      | Connect b => exact .inl (congrArg _ ((V4.Connect.clean esc).eq (Option.some.inj h2)))
      | _ => exact absurd h1 (by simp [V4.Packet.word])
    | ConnAck a => cases q with
      | ConnAck b => exact .inl (congrArg _ ((V4.ConnAck.clean).eq (Option.some.inj h2)))
      | _ => exact absurd h1 (by simp [V4.Packet.word])
    | Publish a => cases q with
      | Publish b => exact .inr (.inl ⟨a, b, rfl, rfl, Option.some.inj h2⟩)
      | _ => exact absurd h1 (by simp [V4.Packet.word])
    | PubAck a => cases q with
      | PubAck b => exact .inl (congrArg _ ((V4.PubAck.clean).eq (Option.some.inj h2)))
      | _ => exact absurd h1 (by simp [V4.Packet.word])
    | PubRec a => cases q with
      | PubRec b => exact .inl (congrArg _ ((V4.PubRec.clean).eq (Option.some.inj h2)))
      | _ => exact absurd h1 (by simp [V4.Packet.word])
    | PubRel a => cases q with
      | PubRel b => exact .inl (congrArg _ ((V4.PubRel.clean).eq (Option.some.inj h2)))
      | _ => exact absurd h1 (by simp [V4.Packet.word])
    | PubComp a => cases q with
      | PubComp b => exact .inl (congrArg _ ((V4.PubComp.clean).eq (Option.some.inj h2)))
      | _ => exact absurd h1 (by simp [V4.Packet.word])
    | Subscribe a => cases q with
      | Subscribe b => exact .inr (.inr ⟨a, b, rfl, rfl, Option.some.inj h2⟩)
      | _ => exact absurd h1 (by simp [V4.Packet.word])
    | SubAck a => cases q with
      | SubAck b => exact .inl (congrArg _ ((V4.SubAck.clean).eq (Option.some.inj h2)))
      | _ => exact absurd h1 (by simp [V4.Packet.word])
    | Unsubscribe a => cases q with
      | Unsubscribe b => exact .inl (congrArg _ ((V4.Unsubscribe.clean esc).eq (Option.some.inj h2)))
      | _ => exact absurd h1 (by simp [V4.Packet.word])
    | UnsubAck a => cases q with
      | UnsubAck b => exact .inl (congrArg _ ((V4.UnsubAck.clean).eq (Option.some.inj h2)))
      | _ => exact absurd h1 (by simp [V4.Packet.word])
    | PingReq => cases q with
      | PingReq => exact .inl rfl
      | _ => exact absurd h1 (by simp [V4.Packet.word])
    | PingResp => cases q with
      | PingResp => exact .inl rfl
      | _ => exact absurd h1 (by simp [V4.Packet.word])
    | Disconnect => cases q with
      | Disconnect => exact .inl rfl
      | _ => exact absurd h1 (by simp [V4.Packet.word])
  · rintro (rfl | ⟨a, b, rfl, rfl, h⟩ | ⟨a, b, rfl, rfl, h⟩)
    · rfl
    · show fmtTuple _ _ = fmtTuple _ _; rw [h]
    · show fmtTuple _ _ = fmtTuple _ _; rw [h]

/-- **C100** (v5) The text of a `Packet` determines it, except for what the texts of PUBLISH and SUBSCRIBE leave open (C76). -/
theorem C100_v5_packet (esc : Char → Bool) (p q : V5.Packet) :
    p.debug esc = q.debug esc ↔ p = q
      ∨ (∃ a b, p = .Publish a ∧ q = .Publish b ∧ a.debug = b.debug)
      ∨ (∃ a b, p = .Subscribe a ∧ q = .Subscribe b ∧ a.debug = b.debug) := by
  constructor
  · intro h
    rw [V5.Packet.debug_eq, V5.Packet.debug_eq] at h
    obtain ⟨h1, h2⟩ := wordText_inj p.word_ok q.word_ok h
    cases p with
    | Connect a => cases q with
      | Connect b => exact .inl (congrArg _ ((V5.Connect.clean esc).eq (Option.some.inj h2)))
      | _ => exact absurd h1 (by simp [V5.Packet.word])
    | ConnAck a => cases q with
      | ConnAck b => exact .inl (congrArg _ ((V5.ConnAck.clean esc).eq (Option.some.inj h2)))
      | _ => exact absurd h1 (by simp [V5.Packet.word])
    | Publish a => cases q with
      | Publish b => exact .inr (.inl ⟨a, b, rfl, rfl, Option.some.inj h2⟩)
      | _ => exact absurd h1 (by simp [V5.Packet.word])
    | PubAck a => cases q with
      | PubAck b => exact .inl (congrArg _ ((V5.PubAck.clean esc).eq (Option.some.inj h2)))
      | _ => exact absurd h1 (by simp [V5.Packet.word])
    | PubRec a => cases q with
      | PubRec b => exact .inl (congrArg _ ((V5.PubRec.clean esc).eq (Option.some.inj h2)))
      | _ => exact absurd h1 (by simp [V5.Packet.word])
    | PubRel a => cases q with
      | PubRel b => exact .inl (congrArg _ ((V5.PubRel.clean esc).eq (Option.some.inj h2)))
      | _ => exact absurd h1 (by simp [V5.Packet.word])
    | PubComp a => cases q with
      | PubComp b => exact .inl (congrArg _ ((V5.PubComp.clean esc).eq (Option.some.inj h2)))
      | _ => exact absurd h1 (by simp [V5.Packet.word])
    | Subscribe a => cases q with
      | Subscribe b => exact .inr (.inr ⟨a, b, rfl, rfl, Option.some.inj h2⟩)
      | _ => exact absurd h1 (by simp [V5.Packet.word])
    | SubAck a => cases q with
      | SubAck b => exact .inl (congrArg _ ((V5.SubAck.clean esc).eq (Option.some.inj h2)))
      | _ => exact absurd h1 (by simp [V5.Packet.word])
    | Unsubscribe a => cases q with
      | Unsubscribe b => exact .inl (congrArg _ ((V5.Unsubscribe.clean esc).eq (Option.some.inj h2)))
      | _ => exact absurd h1 (by simp [V5.Packet.word])
    | UnsubAck a => cases q with
      | UnsubAck b => exact .inl (congrArg _ ((V5.UnsubAck.clean esc).eq (Option.some.inj h2)))
      | _ => exact absurd h1 (by simp [V5.Packet.word])
    | PingReq => cases q with
      | PingReq => exact .inl rfl
      | _ => exact absurd h1 (by simp [V5.Packet.word])
    | PingResp => cases q with
      | PingResp => exact .inl rfl
      | _ => exact absurd h1 (by simp [V5.Packet.word])
    | Disconnect a => cases q with
      | Disconnect b => exact .inl (congrArg _ ((V5.Disconnect.clean esc).eq (Option.some.inj h2)))
      | _ => exact absurd h1 (by simp [V5.Packet.word])
  · rintro (rfl | ⟨a, b, rfl, rfl, h⟩ | ⟨a, b, rfl, rfl, h⟩)
    · rfl
    · show fmtTuple _ _ = fmtTuple _ _; rw [h]
    · show fmtTuple _ _ = fmtTuple _ _; rw [h]

/-- **C100** The property structs of v5, which users hold by themselves, and the fixed header. -/
theorem C100_properties (esc : Char → Bool) :
    (∀ p q : V5.ConnectProperties, p.debug esc = q.debug esc ↔ p = q)
    ∧ (∀ p q : V5.WillProperties, p.debug esc = q.debug esc ↔ p = q)
    ∧ (∀ p q : V5.ConnAckProperties, p.debug esc = q.debug esc ↔ p = q)
    ∧ (∀ p q : V5.PublishProperties, p.debug esc = q.debug esc ↔ p = q)
    ∧ (∀ p q : V5.SubscribeProperties, p.debug esc = q.debug esc ↔ p = q)
    ∧ (∀ p q : V5.UnsubscribeProperties, p.debug esc = q.debug esc ↔ p = q)
    ∧ (∀ p q : V5.DisconnectProperties, p.debug esc = q.debug esc ↔ p = q)
    ∧ (∀ p q : FixedHeader, p.debug = q.debug ↔ p = q) :=
  ⟨fun _ _ => ⟨fun h => (V5.ConnectProperties.clean esc).eq h, fun h => h ▸ rfl⟩,
    fun _ _ => ⟨fun h => (V5.WillProperties.clean esc).eq h, fun h => h ▸ rfl⟩,
    fun _ _ => ⟨fun h => (V5.ConnAckProperties.clean esc).eq h, fun h => h ▸ rfl⟩,
    fun _ _ => ⟨fun h => (V5.PublishProperties.clean esc).eq h, fun h => h ▸ rfl⟩,
    fun _ _ => ⟨fun h => (V5.SubscribeProperties.clean esc).eq h, fun h => h ▸ rfl⟩,
    fun _ _ => ⟨fun h => (V5.UnsubscribeProperties.clean esc).eq h, fun h => h ▸ rfl⟩,
    fun _ _ => ⟨fun h => (V5.DisconnectProperties.clean esc).eq h, fun h => h ▸ rfl⟩,
    fun _ _ => ⟨fun h => FixedHeader.clean.eq h, fun h => h ▸ rfl⟩⟩

theorem Occurs.refl (s : String) : Occurs s s := ⟨"", "", by simp⟩
theorem Occurs.trans {a b c : String} (h : Occurs a b) (g : Occurs b c) : Occurs a c := by
  obtain ⟨p, q, rfl⟩ := h
  obtain ⟨r, s, rfl⟩ := g
  exact ⟨r ++ p, q ++ s, by simp only [String.append_assoc]⟩
theorem Occurs.tuple (n s : String) : Occurs s (fmtTuple n s) := ⟨n ++ "(", ")", rfl⟩
theorem Occurs.field (name : String) {fs : List (String × String)} {n s : String} (h : (n, s) ∈ fs) :
    Occurs s (fmtStruct name fs) := by
  have key : Occurs s (", ".intercalate (fs.map fun f => f.1 ++ ": " ++ f.2)) := by
    induction fs with
    | nil => cases h
    | cons f fs ih =>
      have hd : Occurs f.2 (", ".intercalate ((f :: fs).map fun f => f.1 ++ ": " ++ f.2)) := by
        cases fs with
        | nil => exact ⟨f.1 ++ ": ", "", by simp⟩
        | cons g fs => exact ⟨f.1 ++ ": ", ", " ++ ", ".intercalate ((g :: fs).map fun f => f.1 ++ ": " ++ f.2), by
            simp only [List.map_cons, String.intercalate_cons_cons, String.append_assoc]⟩
      cases h with
      | head => exact hd
      | tail _ h =>
        cases fs with
        | nil => cases h
        | cons g fs =>
          refine (ih h).trans ⟨f.1 ++ ": " ++ f.2 ++ ", ", "", ?_⟩
          simp only [List.map_cons, String.intercalate_cons_cons, String.append_assoc, String.append_empty]
  exact key.trans ⟨name ++ " { ", " }", by simp only [fmtStruct, String.append_assoc]⟩

theorem fmtStr_plain {esc : Char → Bool} {s : String} (h : PlainText esc s) : fmtStr esc s = "\"" ++ s ++ "\"" := by
  apply String.toList_inj.1
  have : s.toList.flatMap (escChar esc) = s.toList := by
    unfold PlainText at h
    revert h
    generalize s.toList = l
    intro h
    induction l with
    | nil => rfl
    | cons c l ih =>
      have hc := h c (.head _)
      rw [List.flatMap_cons, ih fun d hd => h d (.tail _ hd)]
      simp [escChar, hc]
  simp [fmtStr, this]

theorem Occurs.plain {esc : Char → Bool} {s : String} (h : PlainText esc s) : Occurs s (fmtStr esc s) :=
  ⟨"\"", "\"", fmtStr_plain h⟩

/-- **C101** (v4) The `Debug` text of a CONNECT with a login shows the password: its quoted form always, and the password
itself, letter by letter, if it consists of printable characters other than `"` and `\`. -/
theorem C101_v4 (esc : Char → Bool) (c : V4.Connect) (l : V4.Login) (h : c.login = some l) :
    Occurs (fmtStr esc l.password) ((V4.Packet.Connect c).debug esc)
    ∧ (PlainText esc l.password → Occurs l.password ((V4.Packet.Connect c).debug esc)) := by
  have key : Occurs (fmtStr esc l.password) ((V4.Packet.Connect c).debug esc) := by
    have h1 : Occurs (fmtStr esc l.password) (l.debug esc) := Occurs.field _ (n := "password") (by simp)
    have h2 : Occurs (l.debug esc) (c.debug esc) := by
      refine Occurs.trans (Occurs.tuple "Some" _) (Occurs.field _ (n := "login") ?_)
      simp [h, fmtOption]
    exact h1.trans (h2.trans (Occurs.tuple _ _))
  exact ⟨key, fun hp => (Occurs.plain hp).trans key⟩

/-- hypotheses met: the password of `set_login("u", "secret")` stands in the debug output, whatever the table of the
printable characters above ASCII -/
example (esc : Char → Bool) (h : PlainText esc "secret") :
    Occurs "secret" ((V4.Packet.Connect ((V4.Connect.new "id").set_login "u" "secret")).debug esc) :=
  (C101_v4 esc _ ⟨"u", "secret"⟩ rfl).2 h


/-- **C101** (v5) -/
theorem C101_v5 (esc : Char → Bool) (c : V5.Connect) (l : V5.Login) (h : c.login = some l) :
    Occurs (fmtStr esc l.password) ((V5.Packet.Connect c).debug esc)
    ∧ (PlainText esc l.password → Occurs l.password ((V5.Packet.Connect c).debug esc)) := by
  have key : Occurs (fmtStr esc l.password) ((V5.Packet.Connect c).debug esc) := by
    have h1 : Occurs (fmtStr esc l.password) (l.debug esc) := Occurs.field _ (n := "password") (by simp)
    have h2 : Occurs (l.debug esc) (c.debug esc) := by
      refine Occurs.trans (Occurs.tuple "Some" _) (Occurs.field _ (n := "login") ?_)
      simp [h, fmtOption]
    exact h1.trans (h2.trans (Occurs.tuple _ _))
  exact ⟨key, fun hp => (Occurs.plain hp).trans key⟩

/-- hypotheses met -/
example (esc : Char → Bool) (h : PlainText esc "secret") :
    Occurs "secret" ((V5.Packet.Connect ((V5.Connect.new "id").set_login "u" "secret")).debug esc) :=
  (C101_v5 esc _ ⟨"u", "secret"⟩ rfl).2 h


/-- **C101** Two CONNECT packets whose logins differ never print the same. -/
theorem C101_login_shown (esc : Char → Bool) (c d : V4.Connect) (h : c.login ≠ d.login) :
    (V4.Packet.Connect c).debug esc ≠ (V4.Packet.Connect d).debug esc := fun e => by
  rcases (C100_v4_packet esc _ _).1 e with h1 | ⟨_, _, h1, _⟩ | ⟨_, _, h1, _⟩
  · exact h (congrArg V4.Connect.login (V4.Packet.Connect.inj h1))
  · cases h1
  · cases h1

example (esc : Char → Bool) : (V4.Packet.Connect ((V4.Connect.new "id").set_login "u" "p")).debug esc
    ≠ (V4.Packet.Connect ((V4.Connect.new "id").set_login "up" "")).debug esc :=
  C101_login_shown esc _ _ (by decide)


/-- the table for ASCII text -/
def asciiTable (c : Char) : Bool := c.toNat < 32 || 127 ≤ c.toNat

example : (V4.Packet.Connect ⟨.V4, 10, "te\"st", true, some ⟨"a/b", [104, 105, 0, 200], .AtLeastOnce, false⟩,
      some ⟨"user", "secret"⟩⟩).debug asciiTable
    = "Connect(Connect { protocol: V4, keep_alive: 10, client_id: \"te\\\"st\", clean_session: true, last_will: Some(LastWill { topic: \"a/b\", message: b\"hi\\0\\xc8\", qos: AtLeastOnce, retain: false }), login: Some(Login { username: \"user\", password: \"secret\" }) })" := by
  decide +kernel
example : PlainText asciiTable "secret" := by unfold PlainText; decide +kernel
example : (V5.Packet.PubAck ⟨7, .Success, some ⟨none, [("k", "é")]⟩⟩).debug asciiTable
    = "PubAck(PubAck { pkid: 7, reason: Success, properties: Some(PubAckProperties { reason_string: None, user_properties: [(\"k\", \"\\u{e9}\")] }) })" := by
  decide +kernel
example : (V4.Packet.SubAck ⟨1, [.Success .ExactlyOnce, .Failure]⟩).debug asciiTable
    = "SubAck(SubAck { pkid: 1, return_codes: [Success(ExactlyOnce), Failure] })" := by decide +kernel
end Props
