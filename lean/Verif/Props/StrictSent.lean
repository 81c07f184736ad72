import Verif.Props.Strict
import Verif.Props.Received
import Verif.Props.Cross2
/-! C126: the strict frames are those of the writer (3.1.1). -/
set_option linter.unusedSimpArgs false
namespace Props
open Mqtt Mqtt.V4 Spec Spec.V4

/-- C126: the frames that say the packet and nothing else are those some packet value (its length-prefixed fields fit) is
written as. -/
theorem C126_v4_of_the_writer (max : Nat) (f : RawFrame) (hf : f.Valid max) (rest : Bytes) (p : Packet)
    (h : V4.read max (f.bytes ++ rest) = (.ok p, rest)) :
    Strict f p ↔ ∃ q n, FieldsFit q ∧ q.write [] = (.ok n, f.bytes) := by
  rw [← C126_v4_same_bytes max f hf rest p h]
  constructor
  · rintro ⟨n, hn⟩
    obtain ⟨o, h1, hg, -⟩ := v4_outcome max f hf
    rw [h1] at h
    have ho : o = .ok p := by cases o <;> simp at h; rw [h]
    exact ⟨p, n, (denotes_wf ((hg p).2 ho)).1, hn⟩
  · rintro ⟨q, n, hq, hn⟩
    obtain ⟨hl, -, hb⟩ := v4_written_bytes q n _ hn
    have e : frame (byte1 q) (body q) ++ [] = f.byte1 :: (f.len ++ (f.body ++ [])) := by
      rw [← hb]; simp [RawFrame.bytes]
    obtain ⟨-, e2, -⟩ := frame_det hl hf.1 hf.2.1 e
    have hr := C121_v4_received q n (by rw [hn]) hq max (by rw [← e2]; exact hf.2.2) rest
    rw [hn] at hr
    simp only at hr
    rw [h] at hr
    have hp : p = essence q := by
      unfold received at hr
      cases q <;> simp only at hr <;> try split at hr
      all_goals first | exact (Res.ok.inj (Prod.mk.inj hr).1) | exact absurd (Prod.mk.inj hr).1 (by simp [asRes])
    refine ⟨n, ?_⟩
    rw [hp, C121_v4_essence_write, hn]

/-- a CONNECT with an entirely empty login is written as a strict frame of the CONNECT without login -/
example : Strict ⟨0x10, [13], [0, 4, 77, 81, 84, 84, 4, 2, 0, 9, 0, 1, 65]⟩ (.Connect ⟨.V4, 9, "A", true, none, none⟩) :=
  (C126_v4_of_the_writer 99 _ ⟨(isVbi_singleton 13).2 (by decide), rfl, by decide⟩ [] _ (by decide +kernel)).2
    ⟨.Connect ⟨.V4, 9, "A", true, none, some ⟨"", ""⟩⟩, 13, by simp [FieldsFit]; decide +kernel, by decide +kernel⟩

end Props
