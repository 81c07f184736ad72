import Verif.Spec.Answer
import Verif.Props.Gateway
/-! C131: every request can be answered. -/
set_option linter.unusedSimpArgs false
namespace Props
open Mqtt Spec

theorem v4_filters_long {bd : Bytes} {l : List V4.SubscribeFilter} (h : Spec.V4.FiltersDenote bd l) : l.length ≤ bd.length := by
  induction h with
  | nil => exact Nat.le_refl _
  | cons path q opt bd fs hp ho h ih => simp only [List.length_append, List.length_cons, List.length_nil]; omega

theorem v5_filters_long {bd : Bytes} {l : List V5.SubscribeFilter} (h : Spec.V5.FiltersDenote bd l) : l.length ≤ bd.length := by
  induction h with
  | nil => exact Nat.le_refl _
  | cons f opt bd fs hp ho h ih => simp only [List.length_append, List.length_cons, List.length_nil]; omega

theorem strs_long (l : List String) : l.length ≤ (l.flatMap str).length := by
  induction l with
  | nil => exact Nat.le_refl _
  | cons a l ih => simp only [List.flatMap_cons, List.length_append, List.length_cons, str, bin, u16_len]; omega

/-- the answer is well-formed, and its body not longer than the request's -/
theorem v4_answer_wf {b1 : UInt8} {bd : Bytes} {p : V4.Packet} (h : Spec.V4.Denotes b1 bd p) (a : V4.Packet)
    (ha : Spec.V4.Answers p a) : Spec.V4.FieldsFit a ∧ Spec.V4.Meaningful a ∧ (Spec.V4.body a).length ≤ bd.length := by
  have hm := (V4.denotes_wf h).2
  cases p <;> cases a <;> try exact ha.elim
  case Connect.ConnAck c a =>
    refine ⟨trivial, trivial, Nat.le_trans ?_ hm.2⟩
    simp only [Spec.V4.body, List.length_append, u8_len, V4.mqtt_len]; omega
  case Publish.PubAck p a =>
    refine ⟨trivial, trivial, Nat.le_trans ?_ hm.2⟩
    simp only [Spec.V4.body, List.length_append, u16_len, str, bin]; omega
  case Publish.PubRec p a =>
    refine ⟨trivial, trivial, Nat.le_trans ?_ hm.2⟩
    simp only [Spec.V4.body, List.length_append, u16_len, str, bin]; omega
  case PubRec.PubRel p a => exact ⟨trivial, trivial, hm.2⟩
  case PubRel.PubComp p a => exact ⟨trivial, trivial, hm.2⟩
  case Subscribe.SubAck s a =>
    obtain ⟨-, h2⟩ := ha
    refine ⟨trivial, ?_, ?_⟩
    · intro h0
      rw [h0] at h2
      exact hm.1 (List.eq_nil_of_length_eq_zero h2.symm)
    · obtain ⟨-, fs, rfl, hf, -⟩ := h
      have := v4_filters_long hf
      simp only [Spec.V4.body, List.length_append, u16_len, codes_len]; omega
  case Unsubscribe.UnsubAck u a =>
    refine ⟨trivial, trivial, Nat.le_trans ?_ hm.2⟩
    simp only [Spec.V4.body, List.length_append, u16_len]; omega
  case PingReq.PingResp => exact ⟨trivial, trivial, Nat.zero_le _⟩

/-- C131 (v4): every answer to a packet that `v4::read` returns can be written, is never longer than the request was, and is
read back as it is -/
theorem C131_v4 (max : Nat) (s rest : Bytes) (p a : V4.Packet) (h : V4.read max s = (.ok p, rest)) (ha : Spec.V4.Answers p a) :
    ∃ n bytes, a.write [] = (.ok n, bytes) ∧ bytes.length + rest.length ≤ s.length ∧
      ∀ more, V4.read max (bytes ++ more) = (.ok a, more) := by
  obtain ⟨b1, bs, bd, rfl, hv, hl, hmax, hd⟩ := (V4.read_ok_iff max s rest p).1 h
  obtain ⟨h1, h2, h3⟩ := v4_answer_wf hd a ha
  have hlt : vbiValue bs ≤ maxRemaining := vbiValue_le hv
  have hwf : Spec.V4.WF a := ⟨h1, h2, by omega⟩
  obtain ⟨n, hn⟩ := V4.write_empty a hwf
  refine ⟨n, _, hn, ?_, fun more => V4.read_encode a hwf max (by omega) more⟩
  have h4 : (vbi (Spec.V4.body a).length).length ≤ bs.length :=
    Nat.le_trans (Mqtt.V5.vbi_length_mono h3) (vbi_minimal hv hl)
  simp only [Spec.V4.encode, frame, List.length_append, List.length_cons, u8_len]
  omega

/-- the answer is well-formed, read back, and its body is not longer than the request's or three bytes -/
theorem v5_answer_wf {b1 : UInt8} {bd : Bytes} {p : V5.Packet} (h : Spec.V5.Denotes b1 bd p) (a : V5.Packet)
    (ha : Spec.V5.Answers p a) : Spec.V5.FieldsFit a ∧ Spec.V5.Meaningful a ∧ Spec.V5.ReadsBack a ∧
      ((Spec.V5.body a).length ≤ bd.length ∨ (Spec.V5.body a).length ≤ 3) := by
  cases p <;> cases a <;> try exact ha.elim
  case Connect.ConnAck c a =>
    obtain ⟨r, h1, h2⟩ := ha
    refine ⟨(fit_one _ h1 h2).1, (fit_one _ h1 h2).2, by simp [Spec.V5.ReadsBack, h1], .inl ?_⟩
    have e : (Spec.V5.body (.ConnAck a)).length = 6 := by
      simp only [Spec.V5.body, h1, Spec.V5.optSec, h2, List.length_append, u8_len]; rfl
    obtain ⟨_, f, pb, wb, lb, junk, rfl, _⟩ := h
    rw [e]
    simp only [List.length_append, V4.mqtt_len]; omega
  case Publish.PubAck p a => exact ack _ a ha.2.2
  case Publish.PubRec p a => exact ack _ a ha.2.2
  case PubRec.PubRel p a => exact ack _ a ha.2
  case PubRel.PubComp p a => exact ack _ a ha.2
  case Subscribe.SubAck s a =>
    obtain ⟨-, h2, h3, h4⟩ := ha
    refine ⟨(fit_none _ h4).1, ⟨(fit_none _ h4).2, ?_⟩, trivial, .inl ?_⟩
    · intro h0
      rw [h0] at h2
      exact h3 (List.eq_nil_of_length_eq_zero h2.symm)
    · obtain ⟨_, ps, fs, rfl, hs, hf⟩ := h
      have := v5_filters_long hf
      have := V5.SetDenotes_pos hs
      simp only [Spec.V5.body, h4, optSec_none, List.length_append, u16_len, codes_len, List.length_cons, List.length_nil]
      omega
  case Unsubscribe.UnsubAck u a =>
    obtain ⟨-, h2, h3, h4⟩ := ha
    refine ⟨(fit_none _ h4).1, ⟨(fit_none _ h4).2, ?_⟩, trivial, .inl ?_⟩
    · intro h0
      rw [h0] at h2
      exact h3 (List.eq_nil_of_length_eq_zero h2.symm)
    · obtain ⟨_, ps, rfl, hs, hf⟩ := h
      have := strs_long u.filters
      have := V5.SetDenotes_pos hs
      simp only [Spec.V5.body, h4, optSec_none, List.length_append, u16_len, codes_len, List.length_cons, List.length_nil]
      omega
  case PingReq.PingResp => exact ⟨trivial, trivial, trivial, .inl (Nat.zero_le _)⟩
where
  ack {R : Type} (code : R → Nat) (a : V5.Ack R) (hb : a.properties = none) {n : Nat} :
      Spec.V5.PropsFit Spec.V5.reasonProps a.properties ∧ Spec.V5.NonEmpty Spec.V5.reasonProps a.properties ∧ True ∧
        ((Spec.V5.ackBody code a).length ≤ n ∨ (Spec.V5.ackBody code a).length ≤ 3) := by
    refine ⟨(fit_none _ hb).1, (fit_none _ hb).2, trivial, .inr ?_⟩
    simp only [Spec.V5.ackBody, hb, List.length_append, u16_len]
    split
    · simp only [List.length_nil]; omega
    · simp only [u8_len]; omega

/-- C131 (v5): every answer without properties to a packet that `v5::read` returns can be written, is not longer than the request
was or takes at most five bytes, and is read back as it is -/
theorem C131_v5 (max : Nat) (s rest : Bytes) (p a : V5.Packet) (h : V5.read max s = (.ok p, rest)) (ha : Spec.V5.Answers p a) :
    ∃ n bytes, a.write [] = (.ok n, bytes) ∧ (bytes.length + rest.length ≤ s.length ∨ bytes.length ≤ 5) ∧
      ∀ max' more, max ≤ max' → 3 ≤ max' → V5.read max' (bytes ++ more) = (.ok a, more) := by
  obtain ⟨b1, bs, bd, rfl, hv, hl, hmax, hd⟩ := (V5.read_ok_iff max s rest p).1 h
  obtain ⟨h1, h2, hb, h3⟩ := v5_answer_wf hd a ha
  have hlt : vbiValue bs ≤ maxRemaining := vbiValue_le hv
  have hwf : Spec.V5.WF a := by
    refine ⟨h1, h2, ?_⟩
    unfold maxRemaining at hlt ⊢; omega
  obtain ⟨n, hn⟩ := V5.write_empty a hwf (by rintro c rfl; exact hb)
  refine ⟨n, _, hn, ?_, fun max' more h4 h5 => V5.read_encode a hwf hb max' (by omega) more⟩
  rcases h3 with h3 | h3
  · have h4 : (vbi (Spec.V5.body a).length).length ≤ bs.length :=
      Nat.le_trans (Mqtt.V5.vbi_length_mono h3) (vbi_minimal hv hl)
    refine .inl ?_
    simp only [Spec.V5.encode, frame, List.length_append, List.length_cons, u8_len]
    omega
  · have h4 : (vbi (Spec.V5.body a).length).length ≤ 1 := Mqtt.V5.vbi_length_mono (b := 3) h3
    refine .inr ?_
    simp only [Spec.V5.encode, frame, List.length_append, List.length_cons, u8_len]
    omega

/-- a SUBSCRIBE and its answers -/
example : ∃ n bytes, (V4.Packet.SubAck ⟨7, [.Failure]⟩).write [] = (.ok n, bytes) ∧ bytes.length + 0 ≤ 8 ∧
    ∀ more, V4.read 99 (bytes ++ more) = (.ok (.SubAck ⟨7, [.Failure]⟩), more) :=
  C131_v4 99 [0x82, 6, 0, 7, 0, 1, 97, 2] [] (.Subscribe ⟨7, [⟨"a", .ExactlyOnce⟩]⟩) _ (by decide +kernel) ⟨rfl, rfl⟩
example : ∃ n bytes, (V5.Packet.SubAck ⟨7, [.NotAuthorized], none⟩).write [] = (.ok n, bytes) ∧
    (bytes.length + 0 ≤ 9 ∨ bytes.length ≤ 5) ∧
    ∀ max' more, 99 ≤ max' → 3 ≤ max' → V5.read max' (bytes ++ more) = (.ok (.SubAck ⟨7, [.NotAuthorized], none⟩), more) :=
  C131_v5 99 [0x82, 7, 0, 7, 0, 0, 1, 97, 2] [] (.Subscribe ⟨7, [⟨"a", .ExactlyOnce, false, false, .OnEverySubscribe⟩], none⟩) _
    (by decide +kernel) ⟨rfl, rfl, by simp, rfl⟩

/-- the exception: this UNSUBSCRIBE without filters is read, its answer is written, and not read -/
example : V5.read 99 [0xA2, 3, 0, 7, 0] = (.ok (.Unsubscribe ⟨7, [], none⟩), []) ∧
    (V5.Packet.UnsubAck ⟨7, [], none⟩).write [] = (.ok 5, [0xB0, 3, 0, 7, 0]) ∧
    (V5.read 99 [0xB0, 3, 0, 7, 0]).1 ≠ .ok (.UnsubAck ⟨7, [], none⟩) := by decide +kernel

end Props
