import Verif.Spec.Split
import Verif.Props.Answer
/-! C133: subscription requests and their answers can be split and merged. -/
set_option linter.unusedSimpArgs false
namespace Props
open Mqtt Spec

theorem flatMap_sublist_length {α : Type} (f : α → Bytes) {a b : List α} (h : a.Sublist b) :
    (a.flatMap f).length ≤ (b.flatMap f).length := by
  induction h with
  | slnil => exact Nat.le_refl _
  | cons x h ih => simp only [List.flatMap_cons, List.length_append]; omega
  | cons_cons x h ih => simp only [List.flatMap_cons, List.length_append]; omega

/-- C133 (v4): each part of a SUBSCRIBE, SUBACK or UNSUBSCRIBE that can be written can be written too, is not longer, and is
read back as it is -/
theorem C133_v4_part (k : UInt16) (p q : V4.Packet) (hp : Spec.V4.WF p) (h : Spec.V4.Part k p q) :
    ∃ n bytes, q.write [] = (.ok n, bytes) ∧ bytes.length ≤ (Spec.V4.encode p).length ∧
      ∀ max, (Spec.V4.body p).length ≤ max → ∀ more, V4.read max (bytes ++ more) = (.ok q, more) := by
  have key : Spec.V4.FieldsFit q ∧ Spec.V4.Meaningful q ∧ (Spec.V4.body q).length ≤ (Spec.V4.body p).length := by
    obtain ⟨f, m, -⟩ := hp
    cases p <;> cases q <;> try exact h.elim
    case Subscribe.Subscribe s t =>
      obtain ⟨-, h2, h3⟩ := h
      refine ⟨fun x hx => f x (h3.subset hx), h2, ?_⟩
      simp only [Spec.V4.body, List.length_append, u16_len]
      have := flatMap_sublist_length (fun f => str f.path ++ u8 (Spec.V4.qosNum f.qos)) h3
      omega
    case SubAck.SubAck s t =>
      obtain ⟨-, h2, h3⟩ := h
      refine ⟨trivial, h2, ?_⟩
      simp only [Spec.V4.body, List.length_append, u16_len]
      have := flatMap_sublist_length (fun c => u8 (Spec.V4.subCode c)) h3
      omega
    case Unsubscribe.Unsubscribe s t =>
      obtain ⟨-, h2, h3⟩ := h
      refine ⟨fun x hx => f x (h3.subset hx), trivial, ?_⟩
      simp only [Spec.V4.body, List.length_append, u16_len]
      have := flatMap_sublist_length str h3
      omega
  obtain ⟨h1, h2, h3⟩ := key
  have hq : Spec.V4.WF q := ⟨h1, h2, Nat.le_trans h3 hp.2.2⟩
  obtain ⟨n, hn⟩ := V4.write_empty q hq
  refine ⟨n, _, hn, ?_, fun max hm more => V4.read_encode q hq max (by omega) more⟩
  have := Mqtt.V5.vbi_length_mono h3
  simp only [Spec.V4.encode, frame, List.length_append, List.length_cons, u8_len]
  omega

/-- C133 (v4): two that can be written, merged, can be written unless the body becomes too long,
and are read back as they are -/
theorem C133_v4_merged (k : UInt16) (p q m : V4.Packet) (hp : Spec.V4.WF p) (hq : Spec.V4.WF q) (h : Spec.V4.Merged k p q m)
    (hl : (Spec.V4.body p).length + (Spec.V4.body q).length ≤ 268435455 + 2) :
    ∃ n bytes, m.write [] = (.ok n, bytes) ∧
      ∀ max, (Spec.V4.body p).length + (Spec.V4.body q).length ≤ max + 2 →
        ∀ more, V4.read max (bytes ++ more) = (.ok m, more) := by
  have key : Spec.V4.FieldsFit m ∧ Spec.V4.Meaningful m ∧
      (Spec.V4.body m).length + 2 = (Spec.V4.body p).length + (Spec.V4.body q).length := by
    obtain ⟨f, m, -⟩ := hp
    obtain ⟨f', m', -⟩ := hq
    cases p <;> cases q <;> try exact h.elim
    case Subscribe.Subscribe s t =>
      obtain rfl := h
      refine ⟨fun x hx => (List.mem_append.1 hx).elim (f x) (f' x), fun h0 => m (List.append_eq_nil_iff.1 h0).1, ?_⟩
      simp only [Spec.V4.body, List.length_append, u16_len, List.flatMap_append]
      omega
    case SubAck.SubAck s t =>
      obtain rfl := h
      refine ⟨trivial, fun h0 => m (List.append_eq_nil_iff.1 h0).1, ?_⟩
      simp only [Spec.V4.body, List.length_append, u16_len, List.flatMap_append]
      omega
    case Unsubscribe.Unsubscribe s t =>
      obtain rfl := h
      refine ⟨fun x hx => (List.mem_append.1 hx).elim (f x) (f' x), trivial, ?_⟩
      simp only [Spec.V4.body, List.length_append, u16_len, List.flatMap_append]
      omega
    case UnsubAck.UnsubAck s t =>
      obtain rfl := h
      refine ⟨trivial, trivial, ?_⟩
      simp only [Spec.V4.body, u16_len]
  obtain ⟨h1, h2, h3⟩ := key
  have hm : Spec.V4.WF m := ⟨h1, h2, by unfold maxRemaining; omega⟩
  obtain ⟨n, hn⟩ := V4.write_empty m hm
  exact ⟨n, _, hn, fun max hx more => V4.read_encode m hm max (by omega) more⟩

/-- C133 (v4): the merged answers answer the merged requests -/
theorem C133_v4_answers (k : UInt16) (p q m a b c : V4.Packet) (hp : Spec.V4.Answers p a) (hq : Spec.V4.Answers q b)
    (h : Spec.V4.Merged k p q m) (h' : Spec.V4.Merged k a b c) : Spec.V4.Answers m c := by
  cases p <;> cases q <;> try exact h.elim
  all_goals cases a <;> try exact hp.elim
  all_goals cases b <;> try exact hq.elim
  all_goals obtain rfl := h
  all_goals obtain rfl := h'
  · exact ⟨rfl, by simp only [List.length_append, hp.2, hq.2]⟩
  · exact rfl

/-- C133 (v5): each part of a SUBSCRIBE, SUBACK, UNSUBSCRIBE or UNSUBACK that can be written can be written too, is not longer,
and is read back as it is -/
theorem C133_v5_part (k : UInt16) (p q : V5.Packet) (hp : Spec.V5.WF p) (h : Spec.V5.Part k p q) :
    ∃ n bytes, q.write [] = (.ok n, bytes) ∧ bytes.length ≤ (Spec.V5.encode p).length ∧
      ∀ max, (Spec.V5.body p).length ≤ max → ∀ more, V5.read max (bytes ++ more) = (.ok q, more) := by
  have key : Spec.V5.FieldsFit q ∧ Spec.V5.Meaningful q ∧ Spec.V5.ReadsBack q ∧ (∀ c, q ≠ .ConnAck c) ∧ (∀ c, q ≠ .Connect c) ∧
      (Spec.V5.body q).length ≤ (Spec.V5.body p).length := by
    obtain ⟨f, m, -⟩ := hp
    cases p <;> cases q <;> try exact h.elim
    case Subscribe.Subscribe s t =>
      obtain ⟨-, h2, h3, h4⟩ := h
      refine ⟨⟨h4 ▸ f.1, fun x hx => f.2 x (h3.subset hx)⟩, ?_, by simp [Spec.V5.ReadsBack], by simp, by simp, ?_⟩
      · show Spec.V5.NonEmpty _ t.properties
        rw [h4]; exact m
      simp only [Spec.V5.body, List.length_append, u16_len, h4]
      have := flatMap_sublist_length (fun f => str f.path ++ u8 (Spec.V5.subOptions f)) h3
      omega
    case SubAck.SubAck s t =>
      obtain ⟨-, h2, h3, h4⟩ := h
      refine ⟨?_, ⟨?_, h2⟩, by simp [Spec.V5.ReadsBack], by simp, by simp, ?_⟩
      · show Spec.V5.PropsFit _ t.properties
        rw [h4]; exact f
      · rw [h4]; exact m.1
      simp only [Spec.V5.body, List.length_append, u16_len, h4]
      have := flatMap_sublist_length (fun c => u8 (Spec.V5.subCode c)) h3
      omega
    case Unsubscribe.Unsubscribe s t =>
      obtain ⟨-, h2, h3, h4⟩ := h
      refine ⟨⟨h4 ▸ f.1, fun x hx => f.2 x (h3.subset hx)⟩, ?_, by simp [Spec.V5.ReadsBack], by simp, by simp, ?_⟩
      · show Spec.V5.NonEmpty _ t.properties
        rw [h4]; exact m
      simp only [Spec.V5.body, List.length_append, u16_len, h4]
      have := flatMap_sublist_length str h3
      omega
    case UnsubAck.UnsubAck s t =>
      obtain ⟨-, h2, h3, h4⟩ := h
      refine ⟨?_, ⟨?_, h2⟩, by simp [Spec.V5.ReadsBack], by simp, by simp, ?_⟩
      · show Spec.V5.PropsFit _ t.properties
        rw [h4]; exact f
      · rw [h4]; exact m.1
      simp only [Spec.V5.body, List.length_append, u16_len, h4]
      have := flatMap_sublist_length (fun c => u8 (Spec.V5.unsubCode c)) h3
      omega
  obtain ⟨h1, h2, hr, -, hc, h3⟩ := key
  have hq : Spec.V5.WF q := ⟨h1, h2, Nat.le_trans h3 hp.2.2⟩
  obtain ⟨n, hn⟩ := V5.write_empty q hq (by rintro c rfl; exact hr)
  refine ⟨n, _, hn, ?_, fun max hm more => V5.read_encode q hq hr max (by omega) more⟩
  have := Mqtt.V5.vbi_length_mono h3
  simp only [Spec.V5.encode, frame, List.length_append, List.length_cons, u8_len]
  omega

/-- C133 (v5): two that can be written, merged, can be written unless the body becomes too long, and are read back as they are -/
theorem C133_v5_merged (k : UInt16) (p q m : V5.Packet) (hp : Spec.V5.WF p) (hq : Spec.V5.WF q) (h : Spec.V5.Merged k p q m)
    (hl : (Spec.V5.body p).length + (Spec.V5.body q).length ≤ 268435455 + 3) :
    ∃ n bytes, m.write [] = (.ok n, bytes) ∧
      ∀ max, (Spec.V5.body p).length + (Spec.V5.body q).length ≤ max + 3 →
        ∀ more, V5.read max (bytes ++ more) = (.ok m, more) := by
  have key : Spec.V5.FieldsFit m ∧ Spec.V5.Meaningful m ∧ Spec.V5.ReadsBack m ∧
      (Spec.V5.body m).length + 3 ≤ (Spec.V5.body p).length + (Spec.V5.body q).length := by
    obtain ⟨f, m, -⟩ := hp
    obtain ⟨f', m', -⟩ := hq
    cases p <;> cases q <;> try exact h.elim
    case Subscribe.Subscribe s t =>
      obtain rfl := h
      refine ⟨⟨f.1, fun x hx => (List.mem_append.1 hx).elim (f.2 x) (f'.2 x)⟩, m, by simp [Spec.V5.ReadsBack], ?_⟩
      have := optSec_pos Spec.V5.subscribeProps t.properties
      simp only [Spec.V5.body, List.length_append, u16_len, List.flatMap_append]
      omega
    case SubAck.SubAck s t =>
      obtain rfl := h
      refine ⟨f, ⟨m.1, fun h0 => m.2 (List.append_eq_nil_iff.1 h0).1⟩, by simp [Spec.V5.ReadsBack], ?_⟩
      have := optSec_pos Spec.V5.reasonProps t.properties
      simp only [Spec.V5.body, List.length_append, u16_len, List.flatMap_append]
      omega
    case Unsubscribe.Unsubscribe s t =>
      obtain rfl := h
      refine ⟨⟨f.1, fun x hx => (List.mem_append.1 hx).elim (f.2 x) (f'.2 x)⟩, m, by simp [Spec.V5.ReadsBack], ?_⟩
      have := optSec_pos Spec.V5.unsubscribeProps t.properties
      simp only [Spec.V5.body, List.length_append, u16_len, List.flatMap_append]
      omega
    case UnsubAck.UnsubAck s t =>
      obtain rfl := h
      refine ⟨f, ⟨m.1, fun h0 => m.2 (List.append_eq_nil_iff.1 h0).1⟩, by simp [Spec.V5.ReadsBack], ?_⟩
      have := optSec_pos Spec.V5.reasonProps t.properties
      simp only [Spec.V5.body, List.length_append, u16_len, List.flatMap_append]
      omega
  obtain ⟨h1, h2, hr, h3⟩ := key
  have hm : Spec.V5.WF m := ⟨h1, h2, by unfold maxRemaining; omega⟩
  obtain ⟨n, hn⟩ := V5.write_empty m hm (by rintro c rfl; exact hr)
  exact ⟨n, _, hn, fun max hx more => V5.read_encode m hm hr max (by omega) more⟩
where
  optSec_pos {π : Type} (props : π → List Spec.V5.Property) (o : Option π) : 1 ≤ (Spec.V5.optSec props o).length := by
    cases o with
    | none => exact Nat.le_refl _
    | some q =>
      simp only [Spec.V5.optSec, Spec.V5.sec, List.length_append]
      have := vbi_length_pos (Spec.V5.encAll (props q)).length
      omega

/-- C133 (v5): the merged answers answer the merged requests -/
theorem C133_v5_answers (k : UInt16) (p q m a b c : V5.Packet) (hp : Spec.V5.Answers p a) (hq : Spec.V5.Answers q b)
    (h : Spec.V5.Merged k p q m) (h' : Spec.V5.Merged k a b c) : Spec.V5.Answers m c := by
  cases p <;> cases q <;> try exact h.elim
  all_goals cases a <;> try exact hp.elim
  all_goals cases b <;> try exact hq.elim
  all_goals obtain rfl := h
  all_goals obtain rfl := h'
  · exact ⟨rfl, by simp only [List.length_append, hp.2.1, hq.2.1], fun h0 => hp.2.2.1 (List.append_eq_nil_iff.1 h0).1, hp.2.2.2⟩
  · exact ⟨rfl, by simp only [List.length_append, hp.2.1, hq.2.1], fun h0 => hp.2.2.1 (List.append_eq_nil_iff.1 h0).1, hp.2.2.2⟩

/-- one of two filters; two requests in one, and one answer to both -/
example : ∃ n bytes, (V4.Packet.Subscribe ⟨9, [⟨"b", .ExactlyOnce⟩]⟩).write [] = (.ok n, bytes) ∧ bytes.length ≤ 12 ∧
    ∀ max, 10 ≤ max → ∀ more, V4.read max (bytes ++ more) = (.ok (.Subscribe ⟨9, [⟨"b", .ExactlyOnce⟩]⟩), more) :=
  C133_v4_part 9 (.Subscribe ⟨7, [⟨"a", .AtMostOnce⟩, ⟨"b", .ExactlyOnce⟩]⟩) (.Subscribe ⟨9, [⟨"b", .ExactlyOnce⟩]⟩)
    ⟨by simp [Spec.V4.FieldsFit]; decide, by simp [Spec.V4.Meaningful], by decide⟩ ⟨rfl, by simp, by decide⟩
example : ∃ n bytes, (V5.Packet.Unsubscribe ⟨9, ["a", "b"], none⟩).write [] = (.ok n, bytes) ∧
    ∀ max, 6 + 6 ≤ max + 3 → ∀ more, V5.read max (bytes ++ more) = (.ok (.Unsubscribe ⟨9, ["a", "b"], none⟩), more) :=
  C133_v5_merged 9 (.Unsubscribe ⟨7, ["a"], none⟩) (.Unsubscribe ⟨8, ["b"], none⟩) _
    ⟨⟨fun p hp => (by cases hp), by decide⟩, fun p hp => (by cases hp), by decide⟩
    ⟨⟨fun p hp => (by cases hp), by decide⟩, fun p hp => (by cases hp), by decide⟩ rfl (by decide)
example : Spec.V5.Answers (.Unsubscribe ⟨9, ["a", "b"], none⟩) (.UnsubAck ⟨9, [.Success, .NotAuthorized], none⟩) :=
  C133_v5_answers 9 (.Unsubscribe ⟨7, ["a"], none⟩) (.Unsubscribe ⟨8, ["b"], none⟩) _ (.UnsubAck ⟨7, [.Success], none⟩)
    (.UnsubAck ⟨8, [.NotAuthorized], none⟩) _ ⟨rfl, rfl, by simp, rfl⟩ ⟨rfl, rfl, by simp, rfl⟩ rfl rfl

end Props
