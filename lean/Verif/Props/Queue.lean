import Verif.Spec.Queue
import Verif.Props.V4RoundTrip
import Verif.Props.V5RoundTrip
import Verif.Props.V4Write
import Verif.Props.V5Write
/-! C86: a buffer shared by a producer and a consumer is a first-in-first-out queue of packets. -/
namespace Props
open Mqtt Spec

open Classical in
theorem fifo {P : Type} (write : P → M Nat) (read : M P) (accepts special proper : P → Prop) (enc : P → Bytes)
    (hacc : ∀ p b, proper p → accepts p → (special p → b = []) → ∃ n, write p b = (.ok n, b ++ enc p))
    (href : ∀ p b, ¬ accepts p → ∃ e t, write p b = (.err e, b ++ t))
    (hread : ∀ p r, proper p → accepts p → read (enc p ++ r) = (.ok p, r))
    (hempty : ∃ n, read [] = (.err (.InsufficientBytes n), []))
    (ops : List (BufOp P)) (q : List P) (hq : ∀ p ∈ q, proper p ∧ accepts p)
    (hops : ∀ p, .send p ∈ ops → accepts p → proper p) (hs : OnlyWhenEmpty accepts special ops q) :
    useBuffer write read ops (q.flatMap enc) = ((useQueue accepts ops q).1, (useQueue accepts ops q).2.flatMap enc) := by
  induction ops generalizing q with
  | nil => rfl
  | cons op ops ih =>
    have hops' : ∀ p, .send p ∈ ops → accepts p → proper p := fun p hp => hops p (by simp [hp])
    cases op with
    | send p =>
      obtain ⟨h1, h2⟩ := hs
      by_cases ha : accepts p
      · have hp := hops p (by simp) ha
        obtain ⟨n, hn⟩ := hacc p (q.flatMap enc) hp ha fun h => by rw [h1 h]; rfl
        rw [if_pos ha] at h2
        have := ih (q ++ [p]) (by
          intro r hr
          rcases List.mem_append.1 hr with hr | hr
          · exact hq r hr
          · rw [List.mem_singleton.1 hr]; exact ⟨hp, ha⟩) hops' h2
        rw [List.flatMap_append, List.flatMap_singleton] at this
        simp only [useBuffer, useQueue, if_pos ha, hn, this]
      · obtain ⟨e, t, hn⟩ := href p (q.flatMap enc) ha
        rw [if_neg ha] at h2
        have := ih q hq hops' h2
        simp only [useBuffer, useQueue, if_neg ha, hn, List.take_left, this]
    | recv =>
      cases q with
      | nil =>
        obtain ⟨n, hn⟩ := hempty
        have := ih [] (by simp) hops' hs
        simp only [List.flatMap_nil] at this
        simp only [List.flatMap_nil, useBuffer, useQueue, hn, this]
      | cons p q =>
        have := ih q (fun r hr => hq r (by simp [hr])) hops' hs
        have hp := hq p (by simp)
        simp only [List.flatMap_cons, useBuffer, useQueue, hread p _ hp.1 hp.2, this]

/-- first packets first: whatever the schedule, the packets received so far and then those still queued are the
packets accepted, in order -/
theorem queue_order {P : Type} (accepts : P → Prop) [DecidablePred accepts] (ops : List (BufOp P)) (q : List P) :
    q ++ ops.filterMap (BufOp.accepted? accepts)
      = (useQueue accepts ops q).1.filterMap Seen.got? ++ (useQueue accepts ops q).2 := by
  induction ops generalizing q with
  | nil => simp [useQueue]
  | cons op ops ih =>
    cases op with
    | send p =>
      by_cases ha : accepts p
      · have := ih (q ++ [p])
        simpa [useQueue, ha, BufOp.accepted?, Seen.got?, List.filterMap_cons] using this
      · simpa [useQueue, ha, BufOp.accepted?, Seen.got?, List.filterMap_cons] using ih q
    | recv =>
      cases q with
      | nil => simpa [useQueue, BufOp.accepted?, Seen.got?, List.filterMap_cons] using ih []
      | cons p q => simpa [useQueue, BufOp.accepted?, Seen.got?, List.filterMap_cons] using ih q

open Classical in
/-- C86 (MQTT 3.1.1): a buffer used by any interleaving of writes and reads, with the buffer cut back after a refused
write, behaves like a first-in-first-out queue of packets: the same answers, and what is in the buffer is always the
encodings of the packets in the queue.  CONNECT is only written when the buffer is empty (C26). -/
theorem C86_v4_fifo (max : Nat) (ops : List (BufOp V4.Packet))
    (hops : ∀ p, .send p ∈ ops → Spec.V4.Accepts p → Spec.V4.WF p ∧ (Spec.V4.body p).length ≤ max)
    (hs : OnlyWhenEmpty Spec.V4.Accepts (fun p => ∃ c, p = .Connect c) ops []) :
    useBuffer V4.Packet.write (V4.read max) ops [] =
      ((useQueue Spec.V4.Accepts ops []).1, (useQueue Spec.V4.Accepts ops []).2.flatMap fun p => (p.write []).2) := by
  have := fifo V4.Packet.write (V4.read max) Spec.V4.Accepts (fun p => ∃ c, p = .Connect c)
    (fun p => Spec.V4.WF p ∧ (Spec.V4.body p).length ≤ max) (fun p => (p.write []).2) ?_ ?_ ?_ ?_ ops [] (by simp)
    hops hs
  · exact this
  · intro p b hp _ hc
    by_cases h : ∃ c, p = .Connect c
    · rw [hc h]
      obtain ⟨n, hn⟩ := V4.write_empty p hp.1
      exact ⟨n, by rw [hn]; rfl⟩
    · have e := V4.write_encode p hp.1 (fun c hc => h ⟨c, hc⟩)
      exact ⟨_, by rw [e b, e []]; rfl⟩
  · intro p b ha
    have : ∀ n s', p.write b ≠ (.ok n, s') := by
      intro n s' h
      apply ha
      refine ⟨?_, ?_⟩
      · by_cases hl : 268435455 < (Spec.V4.body p).length
        · rcases (C02_v4_too_long p b).2 hl with h' | ⟨h', -⟩ <;> rw [h] at h' <;> simp at h'
        · omega
      · rintro q rfl
        exact C28_v4_write_pkid q b s' n h
    rcases C58_v4_write_total p b with ⟨n, s', h⟩ | ⟨e, s', h⟩
    · exact absurd h (this n s')
    · obtain ⟨t, rfl, -⟩ := C27_v4_failed_write_leaves_bytes p b s' e h
      exact ⟨e, t, h⟩
  · intro p r hp _
    obtain ⟨n, hn⟩ := V4.write_empty p hp.1
    rw [hn]
    exact V4.read_encode p hp.1 max hp.2 r
  · exact ⟨2, rfl⟩

open Classical in
/-- C86 (MQTT 5): the same, for packets that read back (C32-C39). -/
theorem C86_v5_fifo (max : Nat) (ops : List (BufOp V5.Packet))
    (hops : ∀ p, .send p ∈ ops → Spec.V5.Accepts p →
      Spec.V5.WF p ∧ Spec.V5.ReadsBack p ∧ (Spec.V5.body p).length ≤ max)
    (hs : OnlyWhenEmpty Spec.V5.Accepts (fun p => ∃ c, p = .Connect c) ops []) :
    useBuffer V5.Packet.write (V5.read max) ops [] =
      ((useQueue Spec.V5.Accepts ops []).1, (useQueue Spec.V5.Accepts ops []).2.flatMap fun p => (p.write []).2) := by
  have := fifo V5.Packet.write (V5.read max) Spec.V5.Accepts (fun p => ∃ c, p = .Connect c)
    (fun p => Spec.V5.WF p ∧ Spec.V5.ReadsBack p ∧ (Spec.V5.body p).length ≤ max) (fun p => (p.write []).2)
    ?_ ?_ ?_ ?_ ops [] (by simp) hops hs
  · exact this
  · intro p b hp _ hc
    have hk : ∀ c, p = .ConnAck c → c.properties ≠ none := by rintro c rfl; exact hp.2.1
    by_cases h : ∃ c, p = .Connect c
    · rw [hc h]
      obtain ⟨n, hn⟩ := V5.write_empty p hp.1 hk
      exact ⟨n, by rw [hn]; rfl⟩
    · have e := V5.write_encode p hp.1 (fun c hc => h ⟨c, hc⟩) hk
      exact ⟨_, by rw [e b, e []]; rfl⟩
  · intro p b ha
    have : ∀ n s', p.write b ≠ (.ok n, s') := by
      intro n s' h
      apply ha
      by_cases hl : 268435455 < (Spec.V5.wireBody p).length ∨ ¬ Spec.V5.IdsOk p
      · rcases (C02_v5_too_long p b).2 hl with h' | ⟨h', -⟩ <;> rw [h] at h' <;> simp at h'
      · refine ⟨by omega, Classical.not_not.1 fun h => hl (.inr h), ?_⟩
        rintro q rfl
        exact C28_v5_write_pkid q b s' n h
    rcases C58_v5_write_total p b with ⟨n, s', h⟩ | ⟨e, s', h⟩
    · exact absurd h (this n s')
    · obtain ⟨t, rfl, -⟩ := C27_v5_failed_write_leaves_bytes p b s' e h
      exact ⟨e, t, h⟩
  · intro p r hp _
    obtain ⟨n, hn⟩ := V5.write_empty p hp.1 (by rintro c rfl; exact hp.2.1)
    rw [hn]
    exact V5.read_encode p hp.1 hp.2.1 max hp.2.2 r
  · exact ⟨2, rfl⟩

open Classical in
/-- C86: hence nothing is lost, duplicated or reordered: the packets received so far, followed by those whose encodings
are in the buffer, are the accepted packets in the order in which they were written. -/
theorem C86_v4_order (max : Nat) (ops : List (BufOp V4.Packet))
    (hops : ∀ p, .send p ∈ ops → Spec.V4.Accepts p → Spec.V4.WF p ∧ (Spec.V4.body p).length ≤ max)
    (hs : OnlyWhenEmpty Spec.V4.Accepts (fun p => ∃ c, p = .Connect c) ops []) :
    ∃ waiting : List V4.Packet,
      (useBuffer V4.Packet.write (V4.read max) ops []).2 = waiting.flatMap (fun p => (p.write []).2) ∧
      ops.filterMap (BufOp.accepted? Spec.V4.Accepts) =
        (useBuffer V4.Packet.write (V4.read max) ops []).1.filterMap Seen.got? ++ waiting := by
  rw [C86_v4_fifo max ops hops hs]
  exact ⟨_, rfl, queue_order Spec.V4.Accepts ops []⟩

open Classical in
/-- C86 (MQTT 5) -/
theorem C86_v5_order (max : Nat) (ops : List (BufOp V5.Packet))
    (hops : ∀ p, .send p ∈ ops → Spec.V5.Accepts p →
      Spec.V5.WF p ∧ Spec.V5.ReadsBack p ∧ (Spec.V5.body p).length ≤ max)
    (hs : OnlyWhenEmpty Spec.V5.Accepts (fun p => ∃ c, p = .Connect c) ops []) :
    ∃ waiting : List V5.Packet,
      (useBuffer V5.Packet.write (V5.read max) ops []).2 = waiting.flatMap (fun p => (p.write []).2) ∧
      ops.filterMap (BufOp.accepted? Spec.V5.Accepts) =
        (useBuffer V5.Packet.write (V5.read max) ops []).1.filterMap Seen.got? ++ waiting := by
  rw [C86_v5_fifo max ops hops hs]
  exact ⟨_, rfl, queue_order Spec.V5.Accepts ops []⟩

/-- a schedule with a refused write between two others, and one read too many -/
example : (useBuffer V4.Packet.write (V4.read 100)
    [.recv, .send (.Publish ⟨false, .AtMostOnce, false, "a", 0, [1]⟩),
     .send (.Publish ⟨false, .AtLeastOnce, false, "b", 0, [2]⟩), .send .PingReq, .recv, .recv, .recv] []).1 =
    [.nothing, .sent, .refused, .sent, .got (.Publish ⟨false, .AtMostOnce, false, "a", 0, [1]⟩), .got .PingReq,
     .nothing] := by decide +kernel

open Classical in
/-- the hypotheses hold of a schedule that starts with CONNECT and contains a refused PUBLISH -/
example : let ops : List (BufOp V4.Packet) := [.send (.Connect (V4.Connect.new "id")), .recv,
      .send (.Publish ⟨false, .AtLeastOnce, false, "b", 0, [2]⟩), .send .PingReq]
    (∀ p, .send p ∈ ops → Spec.V4.Accepts p → Spec.V4.WF p ∧ (Spec.V4.body p).length ≤ 100) ∧
    OnlyWhenEmpty Spec.V4.Accepts (fun p => ∃ c, p = .Connect c) ops [] := by
  constructor
  · intro p hp ha
    simp only [List.mem_cons, BufOp.send.injEq, reduceCtorEq, List.not_mem_nil, or_false, false_or] at hp
    rcases hp with rfl | rfl | rfl
    · exact ⟨⟨⟨by decide +kernel, by simp [V4.Connect.new], by simp [V4.Connect.new]⟩,
        by simp [Spec.V4.Meaningful, V4.Connect.new], by decide +kernel⟩, by decide +kernel⟩
    · exact absurd rfl (ha.2 _ rfl (by simp))
    · exact ⟨⟨trivial, trivial, by decide⟩, by decide⟩
  · simp [OnlyWhenEmpty]

/-- without the cut the refused packet's bytes are taken for a packet -/
example : V4.read 100 ((V4.Packet.write .PingReq (V4.Packet.write (.Publish ⟨false, .AtLeastOnce, false, "b", 0, [2, 2]⟩) []).2)).2
    = (.ok (.Publish ⟨false, .AtLeastOnce, false, "b", 0xC000, []⟩), []) := by decide +kernel

end Props
