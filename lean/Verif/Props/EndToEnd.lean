import Verif.Proof.Prefix
import Verif.Props.V4RoundTrip
import Verif.Props.V5RoundTrip
/-! C70: sender to receiver over a network that splits and delays.  C71: how much a receiver buffers. -/
namespace Props
open Mqtt Spec

/-! ### C70 -/

/-- C70 (v4): a sender writes well-formed packets `ps`, each to its own buffer; the network has so far
delivered some of the bytes (all but `missing`), split into chunks in any way.  Then the client has got
exactly the packets whose bytes have all arrived (`got`), in order and without error; the bytes of the
others (`due`) that have arrived are in its buffer, less than one packet. -/
theorem C70_v4_end_to_end (max : Nat) (ps : List V4.Packet)
    (h : ∀ p ∈ ps, Spec.V4.WF p ∧ (Spec.V4.body p).length ≤ max) (chunks : List Bytes) (missing : Bytes)
    (hs : chunks.flatten ++ missing = (ps.map fun p => (p.write []).2).flatten) :
    ∃ got due buf, ps = got ++ due ∧ Feed (V4.read max) retryInsufficient [] chunks got none buf
      ∧ buf ++ missing = (due.map fun p => (p.write []).2).flatten ∧ (due = [] → buf = [])
      ∧ ∀ p more, due = p :: more → buf.length < (p.write []).2.length := by
  rw [← List.flatMap_def] at hs
  obtain ⟨got, due, r, h1, h2, h3, h4, h5⟩ := pump_prefix V4.readFrame max (retry := retryInsufficient)
    (fun n _ => ⟨n, rfl⟩) (fun p => (p.write []).2) ps (fun p hp rest => by
      obtain ⟨n, hn⟩ := V4.write_empty p (h p hp).1
      rw [hn, ← v4_read_eq]
      exact V4.read_encode p (h p hp).1 max (h p hp).2 rest) chunks.flatten missing hs
  refine ⟨got, due, r, h1, ?_, ?_, h4, h5⟩
  · exact (feed_chunks (v4_streaming max) (v4_pump_nil max) _ _ _ _).2 (by rw [v4_read_eq]; exact h2)
  · rw [h3, List.flatMap_def]

/-- C70 (v4): in particular, when everything has arrived, the client has got exactly `ps`, and nothing else
can happen. -/
theorem C70_v4_all_delivered (max : Nat) (ps : List V4.Packet)
    (h : ∀ p ∈ ps, Spec.V4.WF p ∧ (Spec.V4.body p).length ≤ max) (chunks : List Bytes)
    (hs : chunks.flatten = (ps.map fun p => (p.write []).2).flatten) (got : List V4.Packet) (e : Option Error) (buf : Bytes) :
    Feed (V4.read max) retryInsufficient [] chunks got e buf ↔ got = ps ∧ e = none ∧ buf = [] := by
  have hp := C15_v4_sequence max ps h
  rw [feed_chunks (v4_streaming max) (v4_pump_nil max), hs]
  constructor
  · exact fun hf => pump_unique hf hp
  · rintro ⟨rfl, rfl, rfl⟩; exact hp

/-- hypotheses met: two packets in three pieces -/
example (got : List V4.Packet) (e : Option Error) (buf : Bytes) :
    Feed (V4.read 9) retryInsufficient [] [[0x40, 2], [0, 7, 0xC0], [0]] got e buf ↔ got = [.PubAck ⟨7⟩, .PingReq] ∧ e = none ∧ buf = [] :=
  C70_v4_all_delivered 9 [.PubAck ⟨7⟩, .PingReq] (by
    intro p hp
    simp only [List.mem_cons, List.not_mem_nil, or_false] at hp
    rcases hp with rfl | rfl
    · exact ⟨⟨trivial, trivial, by decide +kernel⟩, by decide +kernel⟩
    · exact ⟨⟨trivial, trivial, by decide +kernel⟩, by decide +kernel⟩) _ (by decide +kernel) got e buf


/-- C70 (v5): for packets that read back (`Spec.V5.ReadsBack`, see C16) and the client that waits only when
`InsufficientBytes` left its buffer unchanged. -/
theorem C70_v5_end_to_end (max : Nat) (ps : List V5.Packet)
    (h : ∀ p ∈ ps, Spec.V5.WF p ∧ Spec.V5.ReadsBack p ∧ (Spec.V5.body p).length ≤ max) (chunks : List Bytes) (missing : Bytes)
    (hs : chunks.flatten ++ missing = (ps.map fun p => (p.write []).2).flatten) :
    ∃ got due buf, ps = got ++ due ∧ Feed (V5.read max) retryUnconsumed [] chunks got none buf
      ∧ buf ++ missing = (due.map fun p => (p.write []).2).flatten ∧ (due = [] → buf = [])
      ∧ ∀ p more, due = p :: more → buf.length < (p.write []).2.length := by
  rw [← List.flatMap_def] at hs
  obtain ⟨got, due, r, h1, h2, h3, h4, h5⟩ := pump_prefix V5.readFrame max (retry := retryUnconsumed)
    (fun n _ => ⟨⟨n, rfl⟩, rfl⟩) (fun p => (p.write []).2) ps (fun p hp rest => by
      obtain ⟨n, hn⟩ := V5.write_empty p (h p hp).1 (by rintro c rfl; exact (h _ hp).2.1)
      rw [hn, ← v5_read_eq]
      exact V5.read_encode p (h p hp).1 (h p hp).2.1 max (h p hp).2.2 rest) chunks.flatten missing hs
  refine ⟨got, due, r, h1, ?_, ?_, h4, h5⟩
  · exact (feed_chunks (v5_streaming max) (v5_pump_nil max) _ _ _ _).2 (by rw [v5_read_eq]; exact h2)
  · rw [h3, List.flatMap_def]

example : ∃ got due buf, [V5.Packet.PubAck ⟨7, .Success, none⟩, .PubRec ⟨8, .NotAuthorized, none⟩] = got ++ due
      ∧ Feed (V5.read 9) retryUnconsumed [] [[0x40], [2, 0, 7, 0x50, 3], [0]] got none buf
      ∧ buf ++ [8, 0x87] = (due.map fun p => (p.write []).2).flatten ∧ (due = [] → buf = [])
      ∧ ∀ p more, due = p :: more → buf.length < (p.write []).2.length :=
  C70_v5_end_to_end 9 _ (by
    intro p hp
    simp only [List.mem_cons, List.not_mem_nil, or_false] at hp
    rcases hp with rfl | rfl
    · exact ⟨by simp [Spec.V5.WF, Spec.V5.FieldsFit, Spec.V5.Meaningful, Spec.V5.PropsFit, Spec.V5.NonEmpty]; decide, trivial, by decide +kernel⟩
    · exact ⟨by simp [Spec.V5.WF, Spec.V5.FieldsFit, Spec.V5.Meaningful, Spec.V5.PropsFit, Spec.V5.NonEmpty]; decide, trivial, by decide +kernel⟩) [[0x40], [2, 0, 7, 0x50, 3], [0]] [8, 0x87] (by decide +kernel)


/-- C70 (v5) -/
theorem C70_v5_all_delivered (max : Nat) (ps : List V5.Packet)
    (h : ∀ p ∈ ps, Spec.V5.WF p ∧ Spec.V5.ReadsBack p ∧ (Spec.V5.body p).length ≤ max) (chunks : List Bytes)
    (hs : chunks.flatten = (ps.map fun p => (p.write []).2).flatten) (got : List V5.Packet) (e : Option Error) (buf : Bytes) :
    Feed (V5.read max) retryUnconsumed [] chunks got e buf ↔ got = ps ∧ e = none ∧ buf = [] := by
  have hp := C16_v5_sequence max ps h
  rw [feed_chunks (v5_streaming max) (v5_pump_nil max), hs]
  constructor
  · exact fun hf => pump_unique hf hp
  · rintro ⟨rfl, rfl, rfl⟩; exact hp

/-- two packets, five of eight bytes arrived in three chunks: one delivered, one byte buffered -/
example : ∃ got due buf, [V4.Packet.PubAck ⟨7⟩, .PubRec ⟨8⟩] = got ++ due
    ∧ Feed (V4.read 9) retryInsufficient [] [[0x40, 2], [], [0, 7, 0x50]] got none buf
    ∧ buf ++ [2, 0, 8] = (due.map fun p => (p.write []).2).flatten ∧ (due = [] → buf = [])
    ∧ ∀ p more, due = p :: more → buf.length < (p.write []).2.length := by
  apply C70_v4_end_to_end
  · intro p hp
    simp only [List.mem_cons, List.not_mem_nil, or_false] at hp
    rcases hp with rfl | rfl <;> exact ⟨⟨trivial, trivial, by decide⟩, by decide⟩
  · decide +kernel

/-! ### C71 -/

/-- C71 (v4): a client that reads with size limit `max` and gets no error never has more than `max + 4` bytes left in
its buffer after reading, whatever the peer sends and however it is split; and `InsufficientBytes(n)` never
asks it to hold more than `max + 5`. -/
theorem C71_v4_bounded_buffer (max : Nat) :
    (∀ chunks ps buf, Feed (V4.read max) retryInsufficient [] chunks ps none buf → buf.length ≤ max + 4)
    ∧ ∀ s s' n, V4.read max s = (.err (.InsufficientBytes n), s') → s' = s ∧ s.length + n ≤ max + 5 := by
  have key : ∀ s s' n, V4.read max s = (.err (.InsufficientBytes n), s') → s' = s ∧ s.length + n ≤ max + 5 ∧ 1 ≤ n := by
    intro s s' n h
    obtain rfl := (v4_streaming max).wait_same _ _ _ h ⟨n, rfl⟩
    rw [v4_read_eq] at h
    exact ⟨rfl, check_wait_bound max (readG_wait_bound _ max h)⟩
  refine ⟨fun chunks ps buf h => ?_, fun s s' n h => ⟨(key s s' n h).1, (key s s' n h).2.1⟩⟩
  rw [feed_chunks (v4_streaming max) (v4_pump_nil max)] at h
  cases pump_rest (v4_streaming max) h rfl with
  | wait h hr =>
    obtain ⟨n, rfl⟩ := hr
    have := key _ _ _ h
    omega

/-- C71 (v5): the same for the client that waits only when its buffer was left unchanged. -/
theorem C71_v5_bounded_buffer (max : Nat) :
    (∀ chunks ps buf, Feed (V5.read max) retryUnconsumed [] chunks ps none buf → buf.length ≤ max + 4)
    ∧ ∀ s n, V5.read max s = (.err (.InsufficientBytes n), s) → s.length + n ≤ max + 5 := by
  have key : ∀ s n, V5.read max s = (.err (.InsufficientBytes n), s) → s.length + n ≤ max + 5 ∧ 1 ≤ n := by
    intro s n h
    rw [v5_read_eq] at h
    exact check_wait_bound max (readG_wait_bound _ max h)
  refine ⟨fun chunks ps buf h => ?_, fun s n h => (key s n h).1⟩
  rw [feed_chunks (v5_streaming max) (v5_pump_nil max)] at h
  cases pump_rest (v5_streaming max) h rfl with
  | wait h hr =>
    obtain ⟨n, rfl⟩ := hr.1
    have := key _ _ h
    omega

/-- the bound is reached: limit 128, 132 bytes buffered, one missing -/
example : V4.read 128 ([0x30, 0x80, 0x81, 0x80, 0x00] ++ List.replicate 127 0)
    = (.err (.InsufficientBytes 1), [0x30, 0x80, 0x81, 0x80, 0x00] ++ List.replicate 127 0) := by decide +kernel

end Props
