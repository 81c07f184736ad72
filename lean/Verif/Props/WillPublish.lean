import Verif.Spec.WillPublish
import Verif.Proof.V4Spec
import Verif.Proof.V5Spec
import Verif.Props.Grow
/-! C130: the will of every client can be published. -/
set_option linter.unusedSimpArgs false
namespace Props
open Mqtt Spec

theorem pkid_len (q : QoS) (k : UInt16) : (if q = .AtMostOnce then [] else u16 k.toNat).length ≤ 2 := by
  split
  · exact Nat.zero_le _
  · simp only [u16_len]; omega

/-- C130 (v4): the will of every CONNECT that `v4::read` returns can be published, in fewer bytes than the CONNECT took -/
theorem C130_v4 (max : Nat) (s rest : Bytes) (c : V4.Connect) (h : V4.read max s = (.ok (.Connect c), rest)) (w : V4.LastWill)
    (hw : c.last_will = some w) (k : UInt16) (hk : w.qos = .AtMostOnce ↔ k = 0) :
    ∃ n bytes, (V4.Packet.Publish (Spec.V4.willPublish w k)).write [] = (.ok n, bytes) ∧
      bytes.length + rest.length < s.length ∧
      ∀ more, V4.read max (bytes ++ more) = (.ok (.Publish (Spec.V4.willPublish w k)), more) := by
  obtain ⟨b1, bs, bd, rfl, hv, hl, hmax, hd⟩ := (V4.read_ok_iff max s rest _).1 h
  obtain ⟨hf, -, h1⟩ := V4.denotes_wf hd
  have hlt : vbiValue bs ≤ maxRemaining := vbiValue_le hv
  have h3 : (Spec.V4.body (.Publish (Spec.V4.willPublish w k))).length < bd.length := by
    refine Nat.lt_of_lt_of_le ?_ h1
    have := pkid_len w.qos k
    have e : (Spec.V4.body (.Publish (Spec.V4.willPublish w k))).length = (str w.topic).length
        + (if w.qos = .AtMostOnce then [] else u16 k.toNat).length + w.message.length := by
      rw [← List.length_append, ← List.length_append]; rfl
    rw [e]
    simp only [Spec.V4.body, hw, Spec.V4.willFields, List.length_append, u8_len, u16_len, bin, V4.mqtt_len]
    omega
  have hwf : Spec.V4.WF (.Publish (Spec.V4.willPublish w k)) := ⟨(hf.2.1 w hw).1, hk, by omega⟩
  obtain ⟨n, hn⟩ := V4.write_empty _ hwf
  refine ⟨n, _, hn, ?_, fun more => V4.read_encode _ hwf max (by omega) more⟩
  have h4 : (vbi (Spec.V4.body (.Publish (Spec.V4.willPublish w k))).length).length ≤ bs.length :=
    Nat.le_trans (Mqtt.V5.vbi_length_mono (Nat.le_of_lt h3)) (vbi_minimal hv hl)
  simp only [Spec.V4.encode, frame, List.length_append, List.length_cons, u8_len]
  omega

theorem messageProps_mem (w : V5.WillProperties) : ∀ q ∈ Spec.V5.publishProps (Spec.V5.messageProps w), q ∈ Spec.V5.willProps w := by
  intro q hq
  simp only [Spec.V5.publishProps, Spec.V5.messageProps, Spec.V5.willProps, List.mem_append, Spec.V5.opt, List.map_nil,
    List.not_mem_nil, or_false] at hq ⊢
  tauto

theorem messageProps_len (w : V5.WillProperties) :
    (Spec.V5.encAll (Spec.V5.publishProps (Spec.V5.messageProps w))).length ≤ (Spec.V5.encAll (Spec.V5.willProps w)).length := by
  simp only [Spec.V5.publishProps, Spec.V5.messageProps, Spec.V5.willProps, Spec.V5.encAll, List.flatMap_append,
    List.length_append, Spec.V5.opt, List.map_nil, List.flatMap_nil, List.length_nil]
  omega

theorem messageProps_none (w : V5.WillProperties) (h : Spec.V5.publishProps (Spec.V5.messageProps w) = []) :
    Spec.V5.messageProps w = Spec.V5.noMessageProps := by
  obtain ⟨a, b, c, d, e, f, g⟩ := w
  cases b <;> cases c <;> cases d <;> cases e <;> cases f <;> cases g <;>
    simp [Spec.V5.publishProps, Spec.V5.messageProps, Spec.V5.opt, Spec.V5.users, Spec.V5.noMessageProps] at h ⊢

/-- C130 (v5): the will of every CONNECT that `v5::read` returns can be published, in fewer bytes than the CONNECT took -/
theorem C130_v5 (max : Nat) (s rest : Bytes) (c : V5.Connect) (h : V5.read max s = (.ok (.Connect c), rest)) (w : V5.LastWill)
    (hw : c.last_will = some w) (k : UInt16) (hk : w.qos = .AtMostOnce ↔ k = 0) :
    ∃ n bytes, (V5.Packet.Publish (Spec.V5.willPublish w k)).write [] = (.ok n, bytes) ∧
      bytes.length + rest.length < s.length ∧
      ∀ more, V5.read max (bytes ++ more) = (.ok (.Publish (Spec.V5.willPublish w k)), more) := by
  obtain ⟨b1, bs, bd, rfl, hv, hl, hmax, hd⟩ := (V5.read_ok_iff max s rest _).1 h
  have hlt : vbiValue bs ≤ maxRemaining := vbiValue_le hv
  obtain ⟨_, f, pb, wb, lb, junk, rfl, hp, hid, _, hwd, hld⟩ := hd
  rw [hw] at hwd
  obtain ⟨_, _, _, f1, f2, ps, rfl, hs⟩ := hwd
  obtain ⟨g1, g2, g3⟩ := hs.wf V5.will_set
  have hprops : Spec.V5.PropsFit Spec.V5.publishProps (Spec.V5.willPublish w k).properties ∧
      Spec.V5.NonEmpty Spec.V5.publishProps (Spec.V5.willPublish w k).properties ∧
      (∀ q, (Spec.V5.willPublish w k).properties = some q → Spec.V5.Readable (Spec.V5.publishProps q)) ∧
      (Spec.V5.optSec Spec.V5.publishProps (Spec.V5.willPublish w k).properties).length ≤ ps.length + 3 := by
    unfold Spec.V5.willPublish
    cases hc : w.properties with
    | none =>
      rw [hc] at g3
      exact ⟨(by intro p hp; cases hp), (by intro p hp; cases hp), (by intro p hp; cases hp), g3⟩
    | some p =>
      rw [hc] at g1 g3
      simp only
      split
      · refine ⟨(by intro p hp; cases hp), (by intro p hp; cases hp), (by intro p hp; cases hp), ?_⟩
        refine Nat.le_trans ?_ g3
        have := vbi_length_pos (Spec.V5.encAll (Spec.V5.willProps p)).length
        have e : (Spec.V5.optSec Spec.V5.publishProps none).length = 1 := rfl
        rw [e]
        simp only [Spec.V5.optSec, Spec.V5.sec, List.length_append]; omega
      · rename_i hne
        refine ⟨?_, ?_, ?_, ?_⟩
        · intro q hq r hr
          cases hq
          exact g1 p rfl r (messageProps_mem p r hr)
        · intro q hq h0
          cases hq
          exact hne (messageProps_none p h0)
        · intro q hq
          cases hq
          exact V5.readable_of_kinds V5.no_vbi_will fun r hr => V5.will_kinds p r (messageProps_mem p r hr)
        · refine Nat.le_trans ?_ g3
          have h1 := messageProps_len p
          have h2 := Mqtt.V5.vbi_length_mono h1
          simp only [Spec.V5.optSec, Spec.V5.sec, List.length_append]
          omega
  obtain ⟨p1, p2, p3, p4⟩ := hprops
  generalize hP : Spec.V5.willPublish w k = P at p1 p2 p3 p4 ⊢
  have e1 : P.topic = w.topic := by rw [← hP]; rfl
  have e2 : P.payload = w.message := by rw [← hP]; rfl
  have e3 : P.qos = w.qos := by rw [← hP]; rfl
  have e4 : P.pkid = k := by rw [← hP]; rfl
  simp only [List.length_append, u8_len, u16_len, List.length_cons, List.length_nil, bin, V4.mqtt_len] at hl hmax
  have h3 : (Spec.V5.body (.Publish P)).length < vbiValue bs := by
    have := pkid_len w.qos P.pkid
    simp only [Spec.V5.body, e1, e2, e3, List.length_append]
    omega
  have hwf : Spec.V5.WF (.Publish P) :=
    ⟨⟨by rw [e1]; exact f1, p1⟩, ⟨p2, by rw [e3, e4]; exact hk⟩, by omega⟩
  obtain ⟨n, hn⟩ := V5.write_empty _ hwf (by intro c hc; cases hc)
  refine ⟨n, _, hn, ?_, fun more => V5.read_encode _ hwf p3 max (by omega) more⟩
  have h4 : (vbi (Spec.V5.body (.Publish P)).length).length ≤ bs.length :=
    Nat.le_trans (Mqtt.V5.vbi_length_mono (Nat.le_of_lt h3)) (vbi_minimal hv rfl)
  simp only [Spec.V5.encode, frame, List.length_append, List.length_cons, u8_len, u16_len, bin, V4.mqtt_len, List.length_nil]
  omega

example : ∃ n bytes, (V4.Packet.Publish ⟨false, .AtLeastOnce, false, "t", 3, [109]⟩).write [] = (.ok n, bytes) ∧
    bytes.length + 0 < 21 ∧
    ∀ more, V4.read 99 (bytes ++ more) = (.ok (.Publish ⟨false, .AtLeastOnce, false, "t", 3, [109]⟩), more) :=
  C130_v4 99 [0x10, 19, 0, 4, 77, 81, 84, 84, 4, 0x0E, 0, 9, 0, 1, 65, 0, 1, 116, 0, 1, 109] []
    ⟨.V4, 9, "A", true, some ⟨"t", [109], .AtLeastOnce, false⟩, none⟩ (by decide +kernel) ⟨"t", [109], .AtLeastOnce, false⟩ rfl 3
    (by decide)

/-- a will with nothing but a delay interval is published without properties -/
example : ∃ n bytes, (V5.Packet.Publish ⟨false, .AtLeastOnce, false, "t", 3, none, [109]⟩).write [] = (.ok n, bytes) ∧
    bytes.length + 0 < 28 ∧
    ∀ more, V5.read 99 (bytes ++ more) = (.ok (.Publish ⟨false, .AtLeastOnce, false, "t", 3, none, [109]⟩), more) :=
  C130_v5 99 [0x10, 26, 0, 4, 77, 81, 84, 84, 5, 0x0E, 0, 9, 0, 0, 1, 65, 5, 24, 0, 0, 0, 7, 0, 1, 116, 0, 1, 109] []
    ⟨.V5, 9, "A", true, some ⟨"t", [109], .AtLeastOnce, false, some ⟨some 7, none, none, none, none, none, []⟩⟩, none, none⟩
    (by decide +kernel) ⟨"t", [109], .AtLeastOnce, false, some ⟨some 7, none, none, none, none, none, []⟩⟩ rfl 3 (by decide)

end Props
