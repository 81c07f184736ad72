import Verif.Proof.Essence5
import Verif.Props.WriteExact
/-! C115: exactly which packets share their bytes. -/
set_option linter.unusedSimpArgs false
namespace Props
open Mqtt Spec

theorem v4_bytes_ok {p : V4.Packet} {n : Nat} (h : (p.write []).1 = .ok n) :
    (p.write []).2 = Spec.V4.encode p ∧ (Spec.V4.body p).length ≤ maxRemaining := by
  have e : p.write [] = Spec.V4.written p := by
    by_cases hc : ∃ c, p = .Connect c
    · obtain ⟨c, rfl⟩ := hc; exact C91_v4_connect_exact c
    · rw [C91_v4_write_exact p (fun c h => hc ⟨c, h⟩)]; simp
  rw [e] at h ⊢
  unfold Spec.V4.written at h ⊢
  by_cases h0 : maxRemaining < Spec.V4.announced p
  · simp [h0] at h
  · simp only [h0, if_false] at h ⊢
    simp only [Spec.V4.announced] at h0
    cases p <;> simp only [Spec.V4.pkidMissing] at h h0 ⊢ <;> first | exact ⟨trivial, by simpa using h0⟩ | exact ⟨rfl, by simpa using h0⟩ | skip
    rename_i p
    by_cases h1 : decide (p.qos ≠ .AtMostOnce ∧ p.pkid = 0) = true
    · simp only [h1, if_true] at h; simp at h
    · simp only [h1] at h0 ⊢
      exact ⟨by simp, by simpa using h0⟩

theorem v5_bytes_ok {p : V5.Packet} {n : Nat} (h : (p.write []).1 = .ok n) :
    (p.write []).2 = frame (Spec.V5.byte1 p) (Spec.V5.wireBody p) ∧ (Spec.V5.wireBody p).length ≤ maxRemaining := by
  have e : p.write [] = Spec.V5.written p := by
    by_cases hc : ∃ c, p = .Connect c
    · obtain ⟨c, rfl⟩ := hc; exact C91_v5_connect_exact c
    · rw [C91_v5_write_exact p (fun c h => hc ⟨c, h⟩)]; simp
  rw [e] at h ⊢
  unfold Spec.V5.written at h ⊢
  by_cases h0 : maxRemaining < Spec.V5.announced p
  · simp [h0] at h
  · simp only [h0, if_false] at h ⊢
    simp only [Spec.V5.announced] at h0
    cases p <;> simp only [Spec.V5.pkidMissing] at h h0 ⊢ <;> first | exact ⟨trivial, by simpa using h0⟩ | exact ⟨rfl, by simpa using h0⟩ | skip
    · rename_i p
      by_cases h1 : decide (p.qos ≠ .AtMostOnce ∧ p.pkid = 0) = true
      · simp only [h1, if_true] at h; simp at h
      · simp only [h1] at h h0 ⊢
        cases h2 : p.properties.bind fun ps => Spec.V5.tornSec (Spec.V5.publishProps ps) with
        | some t => simp [h2] at h
        | none => exact ⟨by simp [Spec.V5.encode, Spec.V5.wireBody], by simpa using h0⟩
    · rename_i p
      cases h2 : p.properties.bind fun ps => Spec.V5.tornSec (Spec.V5.subscribeProps ps) with
      | some t => simp [h2] at h
      | none => exact ⟨by simp [Spec.V5.encode, Spec.V5.wireBody], by simpa using h0⟩

/-- **C115** (3.1.1).  Of two packets that are written successfully and whose fields fit, the bytes of one are the start
of the same stream as the bytes of the other exactly if they have the same essence: the only things the bytes do not tell
are an entirely empty login and the packet identifier of a QoS 0 PUBLISH. -/
theorem C115_v4_same_bytes (p q : V4.Packet) (m n : Nat) (hp : (p.write []).1 = .ok m) (hq : (q.write []).1 = .ok n)
    (fp : Spec.V4.FieldsFit p) (fq : Spec.V4.FieldsFit q) (a b : Bytes) :
    (p.write []).2 ++ a = (q.write []).2 ++ b ↔ Spec.V4.essence p = Spec.V4.essence q ∧ a = b := by
  obtain ⟨e1, l1⟩ := v4_bytes_ok hp
  obtain ⟨e2, l2⟩ := v4_bytes_ok hq
  rw [e1, e2]
  exact V4.Ess.encode_cancel p q fp fq l1 l2 a b

/-- **C115** (5.0). -/
theorem C115_v5_same_bytes (p q : V5.Packet) (m n : Nat) (hp : (p.write []).1 = .ok m) (hq : (q.write []).1 = .ok n)
    (fp : Spec.V5.FieldsFit p) (fq : Spec.V5.FieldsFit q) (a b : Bytes) :
    (p.write []).2 ++ a = (q.write []).2 ++ b ↔ Spec.V5.essence p = Spec.V5.essence q ∧ a = b := by
  obtain ⟨e1, l1⟩ := v5_bytes_ok hp
  obtain ⟨e2, l2⟩ := v5_bytes_ok hq
  rw [e1, e2]
  exact V5.Ess.encode_cancel p q fp fq l1 l2 a b

/-- **C115**: a field that does not fit breaks this: the tail of a topic may move to the payload unnoticed (3.1.1). -/
theorem C115_v4_overlong_collides (p : V4.Publish) (t v : String) (ht : p.topic = t ++ v)
    (hv : (utf8 v).length % 65536 = 0) (hq : p.qos = .AtMostOnce) :
    (V4.Packet.Publish p).write []
      = (V4.Packet.Publish { p with topic := t, payload := utf8 v ++ p.payload }).write [] := by
  have hu : utf8 (t ++ v) = utf8 t ++ utf8 v := by simp [utf8, String.toByteArray_append]
  have hs : str (t ++ v) = str t ++ utf8 v := by
    rw [C91_overlong, C91_overlong, hu]
    simp only [List.length_append, List.append_assoc]
    rw [show ((utf8 t).length + (utf8 v).length) % 65536 = (utf8 t).length % 65536 by omega,
      show ((utf8 t).length + (utf8 v).length) % 256 = (utf8 t).length % 256 by omega]
  have hb : Spec.V4.body (.Publish p) = Spec.V4.body (.Publish { p with topic := t, payload := utf8 v ++ p.payload }) := by
    simp [Spec.V4.body, ht, hs, hq]
  have h1 : Spec.V4.byte1 (.Publish p) = Spec.V4.byte1 (.Publish { p with topic := t, payload := utf8 v ++ p.payload }) := rfl
  rw [C91_v4_write_exact _ (by simp), C91_v4_write_exact _ (by simp)]
  have : Spec.V4.written (.Publish p) = Spec.V4.written (.Publish { p with topic := t, payload := utf8 v ++ p.payload }) := by
    unfold Spec.V4.written
    simp only [Spec.V4.announced, Spec.V4.pkidMissing, Spec.V4.encode, hb, h1, hq]
    simp
  rw [this]

theorem torn_none : ∀ {ps : List Spec.V5.Property}, (∀ q ∈ ps, Spec.V5.tooBig q.val = false) → Spec.V5.torn ps = none
  | [], _ => rfl
  | q :: l, h => by
    have := torn_none (ps := l) (fun r hr => h r (by simp [hr]))
    simp [Spec.V5.torn, h q (by simp), this]

theorem publish_not_torn (r : V5.Publish) (hr : Spec.V5.IdsOk (.Publish r)) :
    (r.properties.bind fun ps => Spec.V5.tornSec (Spec.V5.publishProps ps)) = none := by
  cases h : r.properties with
  | none => rfl
  | some ps =>
    have hr := hr ps h
    simp only [Option.bind_some, Spec.V5.tornSec]
    rw [torn_none]; rfl
    intro q hq
    have hk := V5.publish_kinds ps q hq
    by_cases h11 : q.id = 11
    · simp only [Spec.V5.publishProps, List.mem_append, List.mem_map, V5.mem_opt, V5.mem_users] at hq
      rcases hq with ((((((hq | hq) | hq) | hq) | hq) | hq) | hq) | hq
      all_goals
        obtain ⟨v, hv, rfl⟩ := hq
        first | simp [Spec.V5.tooBig]; done | skip
      have := hr v hv
      simp [Spec.V5.tooBig]; omega
    · cases hv : q.val with
      | vbi n =>
        exfalso
        rw [hv] at hk
        have hk := hk.2
        simp only [Spec.V5.publishKind, Spec.V5.Val.kind] at hk
        split at hk <;> simp_all
      | _ => rfl

/-- **C115** (5.0): the same for 5.0, where the properties may lie between topic and payload: the tail of the topic then
takes the place of the property section. -/
theorem C115_v5_overlong_collides (p q : V5.Publish) (t v : String) (ht : p.topic = t ++ v) (hv : (utf8 v).length % 65536 = 0)
    (hp : p.qos = .AtMostOnce) (hq : q.topic = t ∧ q.qos = .AtMostOnce ∧ q.dup = p.dup ∧ q.retain = p.retain)
    (hb : utf8 v ++ Spec.V5.optSec Spec.V5.publishProps p.properties ++ p.payload
      = Spec.V5.optSec Spec.V5.publishProps q.properties ++ q.payload)
    (fp : Spec.V5.IdsOk (.Publish p)) (fq : Spec.V5.IdsOk (.Publish q)) :
    (V5.Packet.Publish p).write [] = (V5.Packet.Publish q).write [] := by
  obtain ⟨q1, q2, q3, q4⟩ := hq
  have hu : utf8 (t ++ v) = utf8 t ++ utf8 v := by simp [utf8, String.toByteArray_append]
  have hs : str (t ++ v) = str t ++ utf8 v := by
    rw [C91_overlong, C91_overlong, hu]
    simp only [List.length_append, List.append_assoc]
    rw [show ((utf8 t).length + (utf8 v).length) % 65536 = (utf8 t).length % 65536 by omega,
      show ((utf8 t).length + (utf8 v).length) % 256 = (utf8 t).length % 256 by omega]
  have hb' : Spec.V5.body (.Publish p) = Spec.V5.body (.Publish q) := by
    simp only [Spec.V5.body, ht, hs, hp, q1, q2, if_true, List.append_assoc, List.nil_append] at hb ⊢
    rw [hb]
  have hw : ∀ r : V5.Publish, Spec.V5.wireBody (.Publish r) = Spec.V5.body (.Publish r) := fun _ => rfl
  have h1 : Spec.V5.byte1 (.Publish p) = Spec.V5.byte1 (.Publish q) := by simp [Spec.V5.byte1, hp, q2, q3, q4]
  have torn : ∀ r : V5.Publish, Spec.V5.IdsOk (.Publish r) →
      (r.properties.bind fun ps => Spec.V5.tornSec (Spec.V5.publishProps ps)) = none := by
    intro r hr
    exact publish_not_torn r hr
  rw [C91_v5_write_exact _ (by simp), C91_v5_write_exact _ (by simp)]
  have : Spec.V5.written (.Publish p) = Spec.V5.written (.Publish q) := by
    unfold Spec.V5.written
    simp only [Spec.V5.announced, Spec.V5.pkidMissing, Spec.V5.encode, torn p fp, torn q fq, hw, hb', h1, hp, q2]
    simp
  rw [this]

theorem v4_essence_fits {p : V4.Packet} (h : Spec.V4.FieldsFit p) : Spec.V4.FieldsFit (Spec.V4.essence p) := by
  cases p <;> try exact h
  rename_i c
  refine ⟨h.1, h.2.1, fun l hl => ?_⟩
  simp only at hl
  split at hl
  · simp at hl
  · exact h.2.2 l hl

/-- **C115** (3.1.1): and the essence is what a receiver gets, whenever it is a packet of the standard. -/
theorem C115_v4_read_essence (p : V4.Packet) (m : Nat) (hp : (p.write []).1 = .ok m) (fp : Spec.V4.FieldsFit p)
    (hm : Spec.V4.Meaningful (Spec.V4.essence p)) (max : Nat) (hmax : (Spec.V4.body p).length ≤ max) (rest : Bytes) :
    V4.read max ((p.write []).2 ++ rest) = (.ok (Spec.V4.essence p), rest) := by
  obtain ⟨e1, l1⟩ := v4_bytes_ok hp
  have hb := V4.Ess.essence_body p
  have := V4.read_encode (Spec.V4.essence p) ⟨v4_essence_fits fp, hm, by rw [hb]; exact l1⟩ max (by rw [hb]; exact hmax) rest
  rw [e1]
  unfold Spec.V4.encode at this ⊢
  rwa [V4.Ess.essence_byte1, hb] at this

theorem told_fits {π : Type} {props : π → List Spec.V5.Property} {o : Option π} (h : Spec.V5.PropsFit props o) :
    Spec.V5.PropsFit props (Spec.V5.told props o) := by
  cases o with
  | none => exact h
  | some p =>
    intro q hq
    simp only [Spec.V5.told] at hq
    split at hq
    · simp at hq
    · exact h q hq

theorem v5_essence_fits {p : V5.Packet} (h : Spec.V5.FieldsFit p) : Spec.V5.FieldsFit (Spec.V5.essence p) := by
  cases p <;> try exact h
  case Connect c =>
    obtain ⟨h1, h2, h3, h4⟩ := h
    refine ⟨h1, told_fits h2, fun w hw => ?_, fun l hl => ?_⟩
    · simp only [Option.map_eq_some_iff] at hw
      obtain ⟨v, hv, rfl⟩ := hw
      obtain ⟨a, b, d⟩ := h3 v hv
      exact ⟨a, b, told_fits d⟩
    · simp only at hl
      split at hl
      · simp at hl
      · exact h4 l hl
  case Publish p => exact ⟨h.1, told_fits h.2⟩
  case Subscribe p => exact ⟨told_fits h.1, h.2⟩
  case SubAck p => exact told_fits (props := Spec.V5.reasonProps) h
  case Unsubscribe p => exact ⟨told_fits h.1, h.2⟩
  case UnsubAck p => exact told_fits (props := Spec.V5.reasonProps) h
  case Disconnect d =>
    simp only [Spec.V5.essence]
    split
    · intro q hq; simp at hq
    · exact h

/-- **C115** (5.0): and the essence is what a receiver gets, whenever it is a packet of the standard that this decoder
reads (level 5, CONNACK and DISCONNECT with properties, no overrunning subscription identifiers). -/
theorem C115_v5_read_essence (p : V5.Packet) (m : Nat) (hp : (p.write []).1 = .ok m) (fp : Spec.V5.FieldsFit p)
    (hm : Spec.V5.Meaningful (Spec.V5.essence p)) (hr : Spec.V5.ReadsBack (Spec.V5.essence p)) (max : Nat)
    (hmax : (Spec.V5.wireBody p).length ≤ max) (rest : Bytes) :
    V5.read max ((p.write []).2 ++ rest) = (.ok (Spec.V5.essence p), rest) := by
  obtain ⟨e1, l1⟩ := v5_bytes_ok hp
  have hb := V5.Ess.essence_body p
  have hw : Spec.V5.wireBody (Spec.V5.essence p) = Spec.V5.body (Spec.V5.essence p) := by
    generalize Spec.V5.essence p = e at hm hr
    cases e <;> try rfl
    case ConnAck c =>
      cases hc : c.properties with
      | none => exact absurd hc hr
      | some q => simp [Spec.V5.wireBody, Spec.V5.body, hc, Spec.V5.optSec]
    case Disconnect d =>
      cases hc : d.properties with
      | none => exact absurd hc hr
      | some q =>
        have := hm q hc
        simp [Spec.V5.wireBody, Spec.V5.body, hc, this]
  have := V5.read_encode (Spec.V5.essence p) ⟨v5_essence_fits fp, hm, by rw [← hw, hb]; exact l1⟩ hr max
    (by rw [← hw, hb]; exact hmax) rest
  rw [e1]
  unfold Spec.V5.encode at this
  rwa [V5.Ess.essence_byte1, ← hw, hb] at this

/-! concrete cases -/

/-- an empty login and no login; a QoS 0 PUBLISH with and without packet identifier -/
example : (V4.Packet.write (.Connect ⟨.V4, 5, "c", true, none, some ⟨"", ""⟩⟩) []).2
      = (V4.Packet.write (.Connect ⟨.V4, 5, "c", true, none, none⟩) []).2 := by
  have := (C115_v4_same_bytes (.Connect ⟨.V4, 5, "c", true, none, some ⟨"", ""⟩⟩) (.Connect ⟨.V4, 5, "c", true, none, none⟩)
    13 13 (by decide +kernel) (by decide +kernel) ⟨by decide, by simp, by simp; decide⟩ ⟨by decide, by simp, by simp⟩ [] []).2
    ⟨by decide, rfl⟩
  simpa using this
example : (V4.Packet.write (.Publish ⟨false, .AtMostOnce, true, "a/b", 7, [1, 2]⟩) []).2
      = (V4.Packet.write (.Publish ⟨false, .AtMostOnce, true, "a/b", 0, [1, 2]⟩) []).2 := by
  have := (C115_v4_same_bytes (.Publish ⟨false, .AtMostOnce, true, "a/b", 7, [1, 2]⟩)
    (.Publish ⟨false, .AtMostOnce, true, "a/b", 0, [1, 2]⟩) 9 9 (by decide +kernel) (by decide +kernel)
    (by simp only [Spec.V4.FieldsFit]; decide) (by simp only [Spec.V4.FieldsFit]; decide) [] []).2 ⟨by decide, rfl⟩
  simpa using this
/-- … but with QoS 1 the identifiers are told apart, whatever follows -/
example (a b : Bytes) : (V4.Packet.write (.Publish ⟨false, .AtLeastOnce, true, "a/b", 7, [1, 2]⟩) []).2 ++ a
      ≠ (V4.Packet.write (.Publish ⟨false, .AtLeastOnce, true, "a/b", 8, [1, 2]⟩) []).2 ++ b := by
  intro h
  have := (C115_v4_same_bytes _ _ 11 11 (by decide +kernel) (by decide +kernel)
    (by simp only [Spec.V4.FieldsFit]; decide) (by simp only [Spec.V4.FieldsFit]; decide) a b).1 h
  exact absurd this.1 (by decide)
/-- a DISCONNECT "server busy" with an empty property set is a normal one … -/
example : (V5.Packet.write (.Disconnect ⟨.ServerBusy, some .new⟩) []).2
      = (V5.Packet.write (.Disconnect ⟨.NormalDisconnection, none⟩) []).2 := by
  have := (C115_v5_same_bytes (.Disconnect ⟨.ServerBusy, some .new⟩) (.Disconnect ⟨.NormalDisconnection, none⟩) 2 2
    (by decide +kernel) (by decide +kernel)
    (by intro p hp q hq; simp only [Option.some.injEq] at hp; subst hp; simp [Spec.V5.disconnectProps, V5.DisconnectProperties.new, Spec.V5.opt, Spec.V5.users] at hq)
    (by intro p hp; simp at hp) [] []).2 ⟨by decide, rfl⟩
  simpa using this
/-- … whereas PUBACKs with an empty and with no property set are told apart -/
example (a b : Bytes) : (V5.Packet.write (.PubAck ⟨7, .Success, some ⟨none, []⟩⟩) []).2 ++ a
      ≠ (V5.Packet.write (.PubAck ⟨7, .Success, none⟩) []).2 ++ b := by
  intro h
  have := (C115_v5_same_bytes (.PubAck ⟨7, .Success, some ⟨none, []⟩⟩) (.PubAck ⟨7, .Success, none⟩) 6 4
    (by decide +kernel) (by decide +kernel)
    (by intro p hp q hq; simp only [Option.some.injEq] at hp; subst hp; simp [Spec.V5.reasonProps, Spec.V5.opt, Spec.V5.users] at hq)
    (by intro p hp; simp at hp) a b).1 h
  exact absurd this.1 (by decide)
/-- the receiver gets the essence -/
example : V4.read 99 ((V4.Packet.write (.Publish ⟨false, .AtMostOnce, true, "a/b", 7, [1, 2]⟩) []).2 ++ [0xC0, 0])
      = (.ok (.Publish ⟨false, .AtMostOnce, true, "a/b", 0, [1, 2]⟩), [0xC0, 0]) :=
  C115_v4_read_essence (.Publish ⟨false, .AtMostOnce, true, "a/b", 7, [1, 2]⟩) 9 (by decide +kernel)
    (by simp only [Spec.V4.FieldsFit]; decide) (by simp [Spec.V4.Meaningful, Spec.V4.essence]) 99 (by decide) _
example : V5.read 99 ((V5.Packet.write (.Unsubscribe ⟨7, ["a/b"], some ⟨[]⟩⟩) []).2 ++ [0xC0, 0])
      = (.ok (.Unsubscribe ⟨7, ["a/b"], none⟩), [0xC0, 0]) :=
  C115_v5_read_essence (.Unsubscribe ⟨7, ["a/b"], some ⟨[]⟩⟩) 10 (by decide +kernel)
    ⟨by intro p hp q hq; simp only [Option.some.injEq] at hp; subst hp; simp [Spec.V5.unsubscribeProps, Spec.V5.users] at hq,
      by simp; decide⟩ (by intro p hp; simp [Spec.V5.told, Spec.V5.unsubscribeProps, Spec.V5.users] at hp) trivial 99 (by decide) _

/-- a string of `n` letters `a` -/
theorem utf8_replicate (n : Nat) : (utf8 (String.ofList (List.replicate n 'a'))).length = n := by
  induction n with
  | zero => decide
  | succ n ih =>
    have : String.ofList (List.replicate (n + 1) 'a') = "a" ++ String.ofList (List.replicate n 'a') := by
      rw [List.replicate_succ, show ('a' :: List.replicate n 'a') = ['a'] ++ List.replicate n 'a' from rfl, String.ofList_append]
    rw [this]
    have hu : ∀ t v : String, utf8 (t ++ v) = utf8 t ++ utf8 v := fun t v => by simp [utf8, String.toByteArray_append]
    rw [hu, List.length_append, ih]
    have : (utf8 "a").length = 1 := by decide
    omega
/-- the topic "secret/" followed by 65536 letters is written like the topic "secret/" with these letters before the
payload -/
example (payload : Bytes) : (V4.Packet.Publish ⟨false, .AtMostOnce, false,
        "secret/" ++ String.ofList (List.replicate 65536 'a'), 0, payload⟩).write []
      = (V4.Packet.Publish ⟨false, .AtMostOnce, false, "secret/", 0,
          utf8 (String.ofList (List.replicate 65536 'a')) ++ payload⟩).write [] :=
  C115_v4_overlong_collides _ "secret/" _ rfl (by rw [utf8_replicate]) rfl

/-- in 5.0, likewise, with a topic that goes on with the character U+0000: it is taken for the empty property section -/
example (as : String) (has : (utf8 as).length = 65535) (payload : Bytes) :
    (V5.Packet.Publish ⟨false, .AtMostOnce, false, "secret/" ++ ("\x00" ++ as), 0, none, payload⟩).write []
      = (V5.Packet.Publish ⟨false, .AtMostOnce, false, "secret/", 0, none, utf8 as ++ [0] ++ payload⟩).write [] := by
  have hu : utf8 ("\x00" ++ as) = [0] ++ utf8 as := by
    have h1 : utf8 ("\x00" ++ as) = utf8 "\x00" ++ utf8 as := by simp [utf8, String.toByteArray_append]
    rw [h1, show utf8 "\x00" = [0] by decide]
  have h0 : Spec.V5.optSec Spec.V5.publishProps none = [0] := by decide
  refine C115_v5_overlong_collides _ _ "secret/" _ rfl ?_ rfl ⟨rfl, rfl, rfl, rfl⟩ ?_ (by intro q hq; simp at hq)
    (by intro q hq; simp at hq)
  · rw [hu, List.length_append, has]; rfl
  · rw [hu, h0]; simp
example : (utf8 (String.ofList (List.replicate 65535 'a'))).length = 65535 := utf8_replicate _

end Props
