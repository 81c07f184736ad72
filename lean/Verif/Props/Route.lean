import Verif.Spec.Route
import Verif.Props.TopicAny
import Verif.Props.Grow
import Verif.Props.V4Read
import Verif.Props.V5Sections
import Verif.Props.InStep
/-! C116: a broker that routes what it reads with `matches` and passes it on with `write`. -/
set_option linter.unusedSimpArgs false
namespace Props
open Mqtt Spec Mqtt.Topic Spec.Topic Spec.Route

/-- **C116**: the routing decision, for all topics and lists of filters: a panic exactly if there is a filter at all and
the topic starts with a character outside ASCII; else whether one of the filters matches, topics starting with `$` never
being matched. -/
theorem C116_wanted (t : String) (fs : List String) :
    (wanted t fs = .panic ↔ fs ≠ [] ∧ ∃ c cs, t.toList = c :: cs ∧ 128 ≤ c.toNat) ∧
    (wanted t fs = .ok true ↔ (∀ c cs, t.toList = c :: cs → c ≠ '$' ∧ c.toNat < 128) ∧
      ∃ f ∈ fs, ∃ fl tl, Levels f fl ∧ Levels t tl ∧ MatchAny fl tl) ∧
    (wanted t fs = .panic ∨ wanted t fs = .ok true ∨ wanted t fs = .ok false) := by
  by_cases hp : ∃ c cs, t.toList = c :: cs ∧ 128 ≤ c.toNat
  · have hm : ∀ f, «matches» t f = .panic := fun f => (C47_matches_panic_iff t f).1.2 hp
    have hno : ¬ ∀ c cs, t.toList = c :: cs → c ≠ '$' ∧ c.toNat < 128 := by
      obtain ⟨c, cs, e, h⟩ := hp
      intro h'; have := (h' c cs e).2; omega
    cases fs with
    | nil => simp [wanted]
    | cons f fs =>
      have : wanted t (f :: fs) = .panic := by simp [wanted, hm f]
      rw [this]
      exact ⟨⟨fun _ => ⟨by simp, hp⟩, fun _ => rfl⟩, ⟨fun h => by simp at h, fun h => absurd h.1 hno⟩, .inl rfl⟩
  · have hm : ∀ f, ∃ b, «matches» t f = .ok b := fun f => (C47_matches_panic_iff t f).2 hp
    have key : (∃ b, wanted t fs = .ok b) ∧ (wanted t fs = .ok true ↔ ∃ f ∈ fs, «matches» t f = .ok true) := by
      induction fs with
      | nil => simp [wanted]
      | cons f fs ih =>
        obtain ⟨b, hb⟩ := hm f
        cases b
        · have : wanted t (f :: fs) = wanted t fs := by simp [wanted, hb]
          rw [this]
          refine ⟨ih.1, ih.2.trans ?_⟩
          constructor
          · rintro ⟨g, hg, h⟩; exact ⟨g, by simp [hg], h⟩
          · rintro ⟨g, hg, h⟩
            rcases List.mem_cons.1 hg with rfl | hg
            · rw [hb] at h; simp at h
            · exact ⟨g, hg, h⟩
        · have : wanted t (f :: fs) = .ok true := by simp [wanted, hb]
          rw [this]
          exact ⟨⟨true, rfl⟩, ⟨fun _ => ⟨f, by simp, hb⟩, fun _ => rfl⟩⟩
    obtain ⟨⟨b, hb⟩, h2⟩ := key
    refine ⟨⟨fun h => (by rw [hb] at h; simp at h), fun h => absurd h.2 hp⟩, ?_, ?_⟩
    · rw [h2]
      constructor
      · rintro ⟨f, hf, h⟩
        obtain ⟨h3, h4⟩ := (C89_matches_exact t f _ _ (split_levels t) (split_levels f)).1 h
        exact ⟨h3, f, hf, _, _, split_levels f, split_levels t, h4⟩
      · rintro ⟨h3, f, hf, fl, tl, h4, h5, h6⟩
        exact ⟨f, hf, (C89_matches_exact t f tl fl h5 h4).2 ⟨h3, h6⟩⟩
    · rw [hb]; cases b <;> simp

theorem granted_qos {o g : QoS} {n : UInt16} (h : Granted o g n) (hg : g ≠ .AtMostOnce) : o ≠ .AtMostOnce := by
  have := h.2
  rintro rfl
  cases g
  · exact hg rfl
  · exact absurd this (by decide)
  · exact absurd this (by decide)

theorem body_shrinks {o g : QoS} {n m : UInt16} (h : Granted o g n) :
    (if g = .AtMostOnce then ([] : Bytes) else u16 n.toNat).length ≤ (if o = .AtMostOnce then [] else u16 m.toNat).length := by
  by_cases hg : g = .AtMostOnce
  · simp [hg]
  · simp [hg, granted_qos h hg, Spec.u16]

/-- **C116** (3.1.1).  Every SUBSCRIBE that was read and every PUBLISH that was read: the decision panics exactly if the
topic starts with a character outside ASCII, it is positive exactly if one of the filters matches, and every copy sent on is
written and read by a subscriber with the same size limit, with the same topic and payload. -/
theorem C116_v4_route (max : Nat) (s s' b b' : Bytes) (q : V4.Subscribe) (p : V4.Publish)
    (hq : V4.read max s = (.ok (.Subscribe q), s')) (hp : V4.read max b = (.ok (.Publish p), b')) :
    (wanted p.topic (q.filters.map (·.path)) = .panic ↔ ∃ c cs, p.topic.toList = c :: cs ∧ 128 ≤ c.toNat) ∧
    (wanted p.topic (q.filters.map (·.path)) = .ok true ↔ (∀ c cs, p.topic.toList = c :: cs → c ≠ '$' ∧ c.toNat < 128) ∧
      ∃ f ∈ q.filters, ∃ fl tl, Levels f.path fl ∧ Levels p.topic tl ∧ MatchAny fl tl) ∧
    ∀ g n r, Granted p.qos g n → ∃ k bytes, (V4.Packet.Publish (copy4 p g n r)).write [] = (.ok k, bytes) ∧
      ∀ M rest, max ≤ M → V4.read M (bytes ++ rest) = (.ok (.Publish (copy4 p g n r)), rest) := by
  have hne : q.filters ≠ [] := (C29_v4_reencode max s s' _ hq).1.2.1
  obtain ⟨h1, h2, _⟩ := C116_wanted p.topic (q.filters.map (·.path))
  refine ⟨by rw [h1]; simp [hne], by rw [h2]; simp, ?_⟩
  intro g n r hg
  obtain ⟨b1, bs, bd, rfl, hv, hl, hm, hd⟩ := (V4.read_ok_iff max _ _ _).1 hp
  obtain ⟨_, hbd, hf, hqp⟩ := hd
  have hlen : bd.length ≤ maxRemaining := by rw [← hl]; exact vbiValue_le hv
  have hb : (Spec.V4.body (.Publish (copy4 p g n r))).length ≤ bd.length := by
    have := body_shrinks (m := p.pkid) hg
    rw [hbd]
    simp only [Spec.V4.body, copy4, List.length_append]
    exact Nat.add_le_add_right (Nat.add_le_add_left this _) _
  have wf : Spec.V4.WF (.Publish (copy4 p g n r)) := ⟨hf, hg.1, Nat.le_trans hb hlen⟩
  obtain ⟨k, hk⟩ := V4.write_empty _ wf
  exact ⟨k, _, hk, fun M rest hM => V4.read_encode _ wf M (by omega) rest⟩

/-- **C116** (5.0).  The same; a SUBSCRIBE may be read that has no filter.  The copy carries the properties too; it is
always written, and arrives, at subscribers whose limit is at least four bytes larger, exactly if its subscription
identifiers are counted right (`C98_v5_publish_counted_iff`; so always with at most two of them). -/
theorem C116_v5_route (max : Nat) (hmax : max ≤ 268435451) (s s' b b' : Bytes) (q : V5.Subscribe) (p : V5.Publish)
    (_hq : V5.read max s = (.ok (.Subscribe q), s')) (hp : V5.read max b = (.ok (.Publish p), b')) :
    (wanted p.topic (q.filters.map (·.path)) = .panic ↔
      q.filters ≠ [] ∧ ∃ c cs, p.topic.toList = c :: cs ∧ 128 ≤ c.toNat) ∧
    (wanted p.topic (q.filters.map (·.path)) = .ok true ↔ (∀ c cs, p.topic.toList = c :: cs → c ≠ '$' ∧ c.toNat < 128) ∧
      ∃ f ∈ q.filters, ∃ fl tl, Levels f.path fl ∧ Levels p.topic tl ∧ MatchAny fl tl) ∧
    ∀ g n r, Granted p.qos g n →
      ∃ k bytes, (V5.Packet.Publish (copy5 p g n r)).write [] = (.ok k, bytes) ∧
        ∀ M rest, max + 4 ≤ M →
          (V5.read M (bytes ++ rest) = (.ok (.Publish (copy5 p g n r)), rest) ↔ Spec.V5.ReadsBack (.Publish p)) := by
  obtain ⟨h1, h2, _⟩ := C116_wanted p.topic (q.filters.map (·.path))
  refine ⟨by rw [h1]; simp, by rw [h2]; simp, ?_⟩
  intro g n r hg
  obtain ⟨hdr, bd, _, _, _, hm, hl⟩ := C65_v5_growth_bounded max b b' _ hp
  obtain ⟨⟨ff1, ff2⟩, ⟨m1, _⟩, _⟩ := C57_v5_decoded_wellformed max b b' _ hp
  have hb : (Spec.V5.body (.Publish (copy5 p g n r))).length ≤ bd.length + 4 := by
    refine Nat.le_trans ?_ hl
    have := body_shrinks (m := p.pkid) hg
    simp only [Spec.V5.body, copy5, List.length_append]
    exact Nat.add_le_add_right (Nat.add_le_add_right (Nat.add_le_add_left this _) _) _
  have hM : maxRemaining = 268435455 := rfl
  have wf : Spec.V5.WF (.Publish (copy5 p g n r)) := ⟨⟨ff1, ff2⟩, ⟨m1, hg.1⟩, by omega⟩
  have rb : Spec.V5.ReadsBack (.Publish (copy5 p g n r)) ↔ Spec.V5.ReadsBack (.Publish p) := Iff.rfl
  obtain ⟨k, hk⟩ := V5.write_empty _ wf (by simp)
  exact ⟨k, _, hk, fun M rest hM => ⟨fun h => rb.1 ((C98_v5_survives_iff _).2 k _ M rest rest hk h).2,
    fun h => V5.read_encode _ wf (rb.2 h) M (by omega) rest⟩⟩

/-- hypotheses met: a SUBSCRIBE to `a/#` and a PUBLISH to `a/b` -/
example : wanted "a/b" ["a/#"] = .ok true ↔ (∀ c cs, "a/b".toList = c :: cs → c ≠ '$' ∧ c.toNat < 128) ∧
    ∃ f ∈ [(⟨"a/#", .AtLeastOnce, false, false, .OnEverySubscribe⟩ : V5.SubscribeFilter)],
      ∃ fl tl, Levels f.path fl ∧ Levels "a/b" tl ∧ MatchAny fl tl :=
  (C116_v5_route 99 (by decide) [0x82, 9, 0, 1, 0, 0, 3, 97, 47, 35, 1] [] [0x30, 6, 0, 3, 97, 47, 98, 0] []
    ⟨1, [⟨"a/#", .AtLeastOnce, false, false, .OnEverySubscribe⟩], none⟩ ⟨false, .AtMostOnce, false, "a/b", 0, none, []⟩
    (by decide +kernel) (by decide +kernel)).2.1


/-- **C116**: a 3.1.1 PUBLISH passed on to a 5.0 subscriber needs one byte more. -/
theorem C116_v4_to_v5 (max : Nat) (hmax : max ≤ 268435454) (b b' : Bytes) (p : V4.Publish)
    (hp : V4.read max b = (.ok (.Publish p), b')) (g : QoS) (n : UInt16) (r : Bool) (hg : Granted p.qos g n) :
    ∃ k bytes, (V5.Packet.Publish (copy45 p g n r)).write [] = (.ok k, bytes) ∧
      ∀ M rest, max + 1 ≤ M → V5.read M (bytes ++ rest) = (.ok (.Publish (copy45 p g n r)), rest) := by
  obtain ⟨b1, bs, bd, rfl, hv, hl, hm, hd⟩ := (V4.read_ok_iff max _ _ _).1 hp
  obtain ⟨_, hbd, hf, hqp⟩ := hd
  have hb : (Spec.V5.body (.Publish (copy45 p g n r))).length ≤ bd.length + 1 := by
    have := body_shrinks (m := p.pkid) hg
    rw [hbd]
    have h1 : (Spec.V5.optSec Spec.V5.publishProps none).length = 1 := by decide
    simp only [Spec.V4.body, Spec.V5.body, copy45, List.length_append, h1]
    rw [Nat.add_right_comm]
    exact Nat.add_le_add_right (Nat.add_le_add_right (Nat.add_le_add_left this _) _) _
  have hM : maxRemaining = 268435455 := rfl
  have wf : Spec.V5.WF (.Publish (copy45 p g n r)) :=
    ⟨⟨hf, by intro ps h; simp [copy45] at h⟩, ⟨by intro ps h; simp [copy45] at h, hg.1⟩, by omega⟩
  have rb : Spec.V5.ReadsBack (.Publish (copy45 p g n r)) := by intro ps hps; simp [copy45] at hps
  obtain ⟨k, hk⟩ := V5.write_empty _ wf (by simp)
  exact ⟨k, _, hk, fun M rest hM => V5.read_encode _ wf rb M (by omega) rest⟩

/-- hypotheses met: a 3.1.1 PUBLISH of QoS 2, granted QoS 1 with identifier 7 -/
example : ∃ k bytes, (V5.Packet.Publish ⟨false, .AtLeastOnce, false, "a", 7, none, [5]⟩).write [] = (.ok k, bytes) ∧
    ∀ M rest, 100 ≤ M → V5.read M (bytes ++ rest) = (.ok (.Publish ⟨false, .AtLeastOnce, false, "a", 7, none, [5]⟩), rest) :=
  C116_v4_to_v5 99 (by decide) [0x34, 6, 0, 1, 97, 0, 3, 5] [] ⟨false, .ExactlyOnce, false, "a", 3, [5]⟩
    (by decide +kernel) .AtLeastOnce 7 false ⟨by decide, by decide⟩


/-- **C116**: a 5.0 PUBLISH passed on to a 3.1.1 subscriber loses its properties and nothing else. -/
theorem C116_v5_to_v4 (max : Nat) (b b' : Bytes) (p : V5.Publish)
    (hp : V5.read max b = (.ok (.Publish p), b')) (g : QoS) (n : UInt16) (r : Bool) (hg : Granted p.qos g n) :
    ∃ k bytes, (V4.Packet.Publish (copy54 p g n r)).write [] = (.ok k, bytes) ∧
      ∀ M rest, max ≤ M → V4.read M (bytes ++ rest) = (.ok (.Publish (copy54 p g n r)), rest) := by
  obtain ⟨b1, bs, bd, rfl, hv, hl, hm, hd⟩ := (V5.read_ok_iff max _ _ _).1 hp
  obtain ⟨_, props, hbd, hf, hqp, _⟩ := hd
  have hlen : bd.length ≤ maxRemaining := by rw [← hl]; exact vbiValue_le hv
  have hb : (Spec.V4.body (.Publish (copy54 p g n r))).length ≤ bd.length := by
    have := body_shrinks (m := p.pkid) hg
    rw [hbd]
    simp only [Spec.V4.body, copy54, List.length_append]
    exact Nat.add_le_add_right (Nat.le_trans (Nat.add_le_add_left this _) (Nat.le_add_right _ _)) _
  have wf : Spec.V4.WF (.Publish (copy54 p g n r)) := ⟨hf, hg.1, Nat.le_trans hb hlen⟩
  obtain ⟨k, hk⟩ := V4.write_empty _ wf
  exact ⟨k, _, hk, fun M rest hM => V4.read_encode _ wf M (by omega) rest⟩

/-- **C116**: so a publisher can make such a broker panic as soon as there is one subscriber: every PUBLISH whose topic
starts with a character outside ASCII is written, is read, and its routing panics. -/
theorem C116_crash (p : V4.Publish) (c : Char) (cs : List Char) (ht : p.topic.toList = c :: cs) (hc : 128 ≤ c.toNat)
    (wf : Spec.V4.WF (.Publish p)) (max : Nat) (hm : (Spec.V4.body (.Publish p)).length ≤ max) :
    ∃ k bytes, (V4.Packet.Publish p).write [] = (.ok k, bytes) ∧ ∀ rest, V4.read max (bytes ++ rest) = (.ok (.Publish p), rest) ∧
      ∀ f fs, wanted p.topic (f :: fs) = .panic := by
  obtain ⟨k, hk⟩ := V4.write_empty _ wf
  exact ⟨k, _, hk, fun rest => ⟨V4.read_encode _ wf max hm rest, fun f fs =>
    (C116_wanted p.topic (f :: fs)).1.2 ⟨by simp, c, cs, ht, hc⟩⟩⟩

/-- hypotheses met: topic `é`, any non-empty list of filters -/
example (f : String) (fs : List String) : wanted "é" (f :: fs) = .panic := by
  obtain ⟨_, _, _, h⟩ := C116_crash ⟨false, .AtMostOnce, false, "é", 0, [5]⟩ 'é' [] (by decide) (by decide)
    ⟨by simp only [Spec.V4.FieldsFit]; decide +kernel, by simp [Spec.V4.Meaningful], by decide +kernel⟩ 99 (by decide +kernel)
  exact (h []).2 f fs


/-! concrete cases -/

/-- SUBSCRIBE "a/+" (QoS 1) and PUBLISH "a/b" (QoS 2): wanted, and the copy (QoS 1, packet identifier 9) arrives -/
example : V4.read 99 [0x82, 8, 0, 1, 0, 3, 97, 47, 43, 1] = (.ok (.Subscribe ⟨1, [⟨"a/+", .AtLeastOnce⟩]⟩), []) ∧
    V4.read 99 [0x34, 8, 0, 3, 97, 47, 98, 0, 7, 5] = (.ok (.Publish ⟨false, .ExactlyOnce, false, "a/b", 7, [5]⟩), []) ∧
    wanted "a/b" ["a/+"] = .ok true ∧ Granted .ExactlyOnce .AtLeastOnce 9 ∧
    (V4.Packet.Publish (copy4 ⟨false, .ExactlyOnce, false, "a/b", 7, [5]⟩ .AtLeastOnce 9 false)).write []
      = (.ok 10, [0x32, 8, 0, 3, 97, 47, 98, 0, 9, 5]) := by
  refine ⟨by decide +kernel, by decide +kernel, by decide +kernel, ⟨by decide, by decide⟩, by decide +kernel⟩

/-- the same with 5.0 -/
example : V5.read 99 [0x82, 9, 0, 1, 0, 0, 3, 97, 47, 43, 1]
      = (.ok (.Subscribe ⟨1, [⟨"a/+", .AtLeastOnce, false, false, .OnEverySubscribe⟩], none⟩), []) ∧
    V5.read 99 [0x30, 9, 0, 3, 97, 47, 98, 2, 1, 1, 5]
      = (.ok (.Publish ⟨false, .AtMostOnce, false, "a/b", 0, some { V5.PublishProperties.empty with payload_format_indicator := some 1 }, [5]⟩), []) := by
  constructor <;> decide +kernel

/-- a topic that crashes the broker -/
example : wanted "été" ["#"] = .panic := by decide +kernel

end Props
