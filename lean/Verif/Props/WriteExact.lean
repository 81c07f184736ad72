import Verif.Proof.WriteAll
/-! C91: what `write` does to the buffer and what it returns, for *every* packet: well-formed, refused, or with fields
longer than their two-byte length can say. -/
namespace Props
open Mqtt Spec

/-- C91 (v4): result and appended bytes of every packet other than CONNECT, into every buffer. -/
theorem C91_v4_write_exact (p : V4.Packet) (hc : ∀ c, p ≠ .Connect c) (s : Bytes) :
    p.write s = ((Spec.V4.written p).1, s ++ (Spec.V4.written p).2) :=
  V4.write_all p hc s

/-- C91 (v5): result and appended bytes of every packet other than CONNECT, into every buffer. -/
theorem C91_v5_write_exact (p : V5.Packet) (hc : ∀ c, p ≠ .Connect c) (s : Bytes) :
    p.write s = ((Spec.V5.written p).1, s ++ (Spec.V5.written p).2) :=
  V5.write_all p hc s

/-- C91 (v4): CONNECT into an empty buffer, whatever its fields. -/
theorem C91_v4_connect_exact (c : V4.Connect) :
    (V4.Packet.Connect c).write [] = Spec.V4.written (.Connect c) :=
  V4.Connect.write_all_empty c

/-- C91 (v5): CONNECT into an empty buffer, whatever its fields. -/
theorem C91_v5_connect_exact (c : V5.Connect) :
    (V5.Packet.Connect c).write [] = Spec.V5.written (.Connect c) :=
  V5.Connect.write_all_empty c

/-- C91 (v4): CONNECT into any buffer: the frame is appended with only the clean-session bit in its flags byte, and the
byte at the *absolute* position of the flags in a fresh frame is overwritten with the flags (finding 1).  One that is
too long leaves its first byte. -/
theorem C91_v4_connect_into (c : V4.Connect) (s : Bytes) :
    (268435455 < (Spec.V4.body (.Connect c)).length →
      (V4.Packet.Connect c).write s = (.err .PayloadTooLong, s ++ [0x10])) ∧
    ((Spec.V4.body (.Connect c)).length ≤ 268435455 →
      ∀ i, i = 8 + (vbi (Spec.V4.body (.Connect c)).length).length →
      ∃ f, (Spec.V4.encode (.Connect c))[i]? = some f ∧
      (V4.Packet.Connect c).write s = (.ok (Spec.V4.body (.Connect c)).length,
        (s ++ (Spec.V4.encode (.Connect c)).set i (if c.clean_session then 2 else 0)).set i f)) := by
  refine ⟨fun h => ?_, fun h i hi => V4.Connect.write_exact c h s i hi⟩
  rcases V4.Connect.write_cases c s with ⟨_, e⟩ | ⟨h', _⟩
  · exact e
  · exact absurd h (by unfold maxRemaining at h'; omega)

/-- C91 (v5): CONNECT into any buffer; see the v4 theorem. -/
theorem C91_v5_connect_into (c : V5.Connect) (s : Bytes) :
    (268435455 < (Spec.V5.body (.Connect c)).length →
      (V5.Packet.Connect c).write s = (.err .PayloadTooLong, s ++ [0x10])) ∧
    ((Spec.V5.body (.Connect c)).length ≤ 268435455 →
      ∀ i, i = 8 + (vbi (Spec.V5.body (.Connect c)).length).length →
      ∃ f, (Spec.V5.encode (.Connect c))[i]? = some f ∧
      (V5.Packet.Connect c).write s = (.ok (Spec.V5.body (.Connect c)).length,
        (s ++ (Spec.V5.encode (.Connect c)).set i (if c.clean_session then 2 else 0)).set i f)) := by
  refine ⟨fun h => ?_, fun h i hi => V5.Connect.write_exact c h s i hi⟩
  rcases V5.Connect.write_cases c s with ⟨_, e⟩ | ⟨h', _⟩
  · exact e
  · exact absurd h (by unfold maxRemaining at h'; omega)

/-! ### which error, exactly -/

/-- C91 (v4): the length is checked first, then the packet identifier; no other error exists. -/
theorem C91_v4_which_error (p : V4.Packet) (s : Bytes) (e : Error) :
    (p.write s).1 = .err e ↔
      (268435455 < Spec.V4.announced p ∧ e = .PayloadTooLong) ∨
      (Spec.V4.announced p ≤ 268435455 ∧ e = .PacketIdZero ∧
        ∃ q, p = .Publish q ∧ q.qos ≠ .AtMostOnce ∧ q.pkid = 0) := by
  have hM : maxRemaining = 268435455 := rfl
  have key : (p.write s).1 = (Spec.V4.written p).1 := by
    by_cases hc : ∃ c, p = .Connect c
    · obtain ⟨c, rfl⟩ := hc
      have ha := V4.announced_eq (.Connect c) rfl
      unfold Spec.V4.written
      rcases V4.Connect.write_cases c s with ⟨h, e⟩ | ⟨h, t, f, _, e⟩
      · rw [if_pos (by omega)]; exact (congrArg Prod.fst e :)
      · rw [if_neg (by omega)]; exact (congrArg Prod.fst e :)
    · rw [C91_v4_write_exact p (fun c h => hc ⟨c, h⟩) s]
  rw [key]
  unfold Spec.V4.written
  split
  · rename_i h
    constructor
    · intro h'; cases h'; exact .inl ⟨by omega, rfl⟩
    · rintro (⟨_, rfl⟩ | ⟨h', _⟩)
      · rfl
      · omega
  · rename_i h
    have h1 : Spec.V4.announced p ≤ 268435455 := by omega
    have h2 : ¬ 268435455 < Spec.V4.announced p := by omega
    cases p with
    | Publish q =>
      by_cases hq : q.qos ≠ .AtMostOnce ∧ q.pkid = 0
      · simp only [Spec.V4.pkidMissing, hq, h1, h2]
        simp only [ne_eq, hq.1, hq.2, V4.Packet.Publish.injEq]
        simp [hq.1, hq.2, eq_comm (a := Error.PacketIdZero)]
      · simp [Spec.V4.pkidMissing, hq, h2]
    | _ => simp [h2]

theorem torn_isSome (ps : List Spec.V5.Property) :
    (Spec.V5.torn ps).isSome ↔ ∃ q ∈ ps, Spec.V5.tooBig q.val = true := by
  induction ps with
  | nil => simp [Spec.V5.torn]
  | cons q l ih =>
    simp only [Spec.V5.torn]
    split
    · rename_i h; simp [h]
    · rename_i h; simp [h, ih]

theorem mem_opt {α : Type} {id : Nat} {f : α → Spec.V5.Val} {o : Option α} {q : Spec.V5.Property} :
    q ∈ Spec.V5.opt id f o ↔ ∃ v, o = some v ∧ ⟨id, f v⟩ = q := by
  cases o <;> simp [Spec.V5.opt, eq_comm]

theorem publish_torn (ps : V5.PublishProperties) :
    (Spec.V5.tornSec (Spec.V5.publishProps ps)).isSome ↔ ∃ n ∈ ps.subscription_identifiers, 268435455 < n := by
  rw [Spec.V5.tornSec, Option.isSome_map, torn_isSome]
  simp only [Spec.V5.publishProps, List.mem_append]
  constructor
  · rintro ⟨q, h, hb⟩
    simp only [mem_opt, Spec.V5.users, List.mem_map] at h
    rcases h with (((((((⟨_, _, rfl⟩ | ⟨_, _, rfl⟩) | ⟨_, _, rfl⟩) | ⟨_, _, rfl⟩) | ⟨_, _, rfl⟩) | ⟨_, _, rfl⟩) | ⟨n, h, rfl⟩) | ⟨_, _, rfl⟩)
    all_goals first
      | exact ⟨n, h, of_decide_eq_true hb⟩
      | exact absurd hb (by simp [Spec.V5.tooBig])
  · rintro ⟨n, h, hb⟩
    exact ⟨⟨11, .vbi n⟩, .inl (.inr (List.mem_map.2 ⟨n, h, rfl⟩)), decide_eq_true hb⟩

theorem subscribe_torn (ps : V5.SubscribeProperties) :
    (Spec.V5.tornSec (Spec.V5.subscribeProps ps)).isSome ↔ ∃ n, ps.id = some n ∧ 268435455 < n := by
  rw [Spec.V5.tornSec, Option.isSome_map, torn_isSome]
  simp only [Spec.V5.subscribeProps, List.mem_append]
  constructor
  · rintro ⟨q, h, hb⟩
    simp only [mem_opt, Spec.V5.users, List.mem_map] at h
    rcases h with (⟨n, h, rfl⟩ | ⟨_, _, rfl⟩)
    · exact ⟨n, h, of_decide_eq_true hb⟩
    · exact absurd hb (by simp [Spec.V5.tooBig])
  · rintro ⟨n, h, hb⟩
    exact ⟨⟨11, .vbi n⟩, .inl (by simp [Spec.V5.opt, h]), decide_eq_true hb⟩

/-- C91 (v5): the length is checked first, then the packet identifier, then subscription identifiers. -/
theorem C91_v5_which_error (p : V5.Packet) (s : Bytes) (e : Error) :
    (p.write s).1 = .err e ↔
      (268435455 < Spec.V5.announced p ∧ e = .PayloadTooLong) ∨
      (Spec.V5.announced p ≤ 268435455 ∧ e = .PacketIdZero ∧
        ∃ q, p = .Publish q ∧ q.qos ≠ .AtMostOnce ∧ q.pkid = 0) ∨
      (Spec.V5.announced p ≤ 268435455 ∧ e = .PayloadTooLong ∧
        ((∃ q ps n, p = .Publish q ∧ ¬ (q.qos ≠ .AtMostOnce ∧ q.pkid = 0) ∧ q.properties = some ps
            ∧ n ∈ ps.subscription_identifiers ∧ 268435455 < n) ∨
         (∃ q ps n, p = .Subscribe q ∧ q.properties = some ps ∧ ps.id = some n ∧ 268435455 < n))) := by
  have hM : maxRemaining = 268435455 := rfl
  have key : (p.write s).1 = (Spec.V5.written p).1 := by
    by_cases hc : ∃ c, p = .Connect c
    · obtain ⟨c, rfl⟩ := hc
      have ha : Spec.V5.announced (.Connect c) = (Spec.V5.body (.Connect c)).length := V5.announced_eq (.Connect c) rfl
      unfold Spec.V5.written
      rcases V5.Connect.write_cases c s with ⟨h, e⟩ | ⟨h, t, f, _, e⟩
      · rw [if_pos (by omega)]; exact (congrArg Prod.fst e :)
      · rw [if_neg (by omega)]; exact (congrArg Prod.fst e :)
    · rw [C91_v5_write_exact p (fun c h => hc ⟨c, h⟩) s]
  rw [key]
  unfold Spec.V5.written
  split
  · rename_i h
    constructor
    · intro h'; cases h'; exact .inl ⟨by omega, rfl⟩
    · rintro (⟨_, rfl⟩ | ⟨h', _⟩ | ⟨h', _⟩)
      · rfl
      · omega
      · omega
  · rename_i h
    have h1 : Spec.V5.announced p ≤ 268435455 := by omega
    have h2 : ¬ 268435455 < Spec.V5.announced p := by omega
    cases p with
    | Publish q =>
      by_cases hq : q.qos ≠ .AtMostOnce ∧ q.pkid = 0
      · simp only [Spec.V5.pkidMissing, hq, h1, h2]
        simp only [ne_eq, hq.1, hq.2, V5.Packet.Publish.injEq]
        simp [hq.1, hq.2, eq_comm (a := Error.PacketIdZero)]
      · have hm : Spec.V5.pkidMissing (.Publish q) = false := by simp only [Spec.V5.pkidMissing, hq]; rfl
        simp only [hm, Bool.false_eq_true, if_false]
        cases hp : q.properties with
        | none => simp [h2, hq, hp]
        | some ps =>
          have ht := publish_torn ps
          simp only [Option.bind_some]
          cases hs : Spec.V5.tornSec (Spec.V5.publishProps ps) with
          | none =>
            rw [hs] at ht
            have ht : ∀ n ∈ ps.subscription_identifiers, ¬ 268435455 < n := fun n hn hb => by
              simpa using ht.2 ⟨n, hn, hb⟩
            constructor
            · intro h'; cases h'
            · rintro (⟨h', _⟩ | ⟨_, _, q', e, h'⟩ | ⟨_, _, ⟨q', ps', n, e, _, e2, hn, hb⟩ | ⟨q', ps', n, e, _⟩⟩)
              · omega
              · cases e; exact absurd h' hq
              · cases e; rw [hp] at e2; cases e2; exact absurd hb (ht n hn)
              · cases e
          | some t =>
            rw [hs] at ht
            obtain ⟨n, hn, hb⟩ := ht.1 rfl
            constructor
            · intro h'; cases h'
              exact .inr (.inr ⟨h1, rfl, .inl ⟨q, ps, n, rfl, hq, hp, hn, hb⟩⟩)
            · rintro (⟨_, rfl⟩ | ⟨_, _, q', e, h'⟩ | ⟨_, rfl, _⟩)
              · rfl
              · cases e; exact absurd h' hq
              · rfl
    | Subscribe q =>
      cases hp : q.properties with
      | none => simp [h2, hp]
      | some ps =>
        have ht := subscribe_torn ps
        simp only [hp, Option.bind_some]
        cases hs : Spec.V5.tornSec (Spec.V5.subscribeProps ps) with
        | none =>
          rw [hs] at ht
          constructor
          · intro h'; cases h'
          · rintro (⟨h', _⟩ | ⟨_, _, q', e, h'⟩ | ⟨_, _, ⟨q', ps', n, e, _⟩ | ⟨q', ps', n, e, e2, hn, hb⟩⟩)
            · omega
            · cases e
            · cases e
            · cases e; rw [hp] at e2; cases e2; simpa using ht.2 ⟨n, hn, hb⟩
        | some t =>
          rw [hs] at ht
          obtain ⟨n, hn, hb⟩ := ht.1 rfl
          constructor
          · intro h'; cases h'
            exact .inr (.inr ⟨h1, rfl, .inr ⟨q, ps, n, rfl, hp, hn, hb⟩⟩)
          · rintro (⟨_, rfl⟩ | ⟨_, _, q', e, h'⟩ | ⟨_, rfl, _⟩)
            · rfl
            · cases e
            · rfl
    | _ => simp [h2]

/-- C91: a length over 65535 is written modulo 65536, and then all the bytes: this is what `str` and hence `written`
say about over-long fields. -/
theorem C91_overlong (t : String) :
    str t = [UInt8.ofNat ((utf8 t).length % 65536 / 256), UInt8.ofNat ((utf8 t).length % 256)] ++ utf8 t := by
  show Spec.u16 _ ++ _ = _
  rw [← u16_mod]
  simp [Spec.u16]


/-! ### concrete cases -/

/-- the packet identifier is missing: header, announced length without identifier, topic -/
example : V5.Packet.write (.Publish ⟨false, .AtLeastOnce, true, "ab", 0, none, [1, 2, 3]⟩) [9]
    = (.err .PacketIdZero, [9, 0x33, 8, 0, 2, 97, 98]) := by
  rw [C91_v5_write_exact _ (by simp)]; decide +kernel

example : V4.Packet.write (.Publish ⟨false, .AtLeastOnce, true, "ab", 0, [1, 2, 3]⟩) [9]
    = (.err .PacketIdZero, [9, 0x33, 7, 0, 2, 97, 98]) := by
  rw [C91_v4_write_exact _ (by simp)]; decide +kernel

/-- two identifiers, the second without encoding: the first and the id of the second are left behind -/
example : V5.Packet.write (.Publish ⟨false, .ExactlyOnce, false, "t", 7,
      some { V5.PublishProperties.empty with topic_alias := some 3, subscription_identifiers := [5, 268435456] }, []⟩) []
    = (.err .PayloadTooLong, [0x34, 16, 0, 1, 116, 0, 7, 10, 35, 0, 3, 11, 5, 11]) := by
  rw [C91_v5_write_exact _ (by simp)]; decide +kernel

example : V5.Packet.write (.Subscribe ⟨7, [], some ⟨some 300000000, []⟩⟩) [1]
    = (.err .PayloadTooLong, [1, 0x82, 8, 0, 7, 5, 11]) := by
  rw [C91_v5_write_exact _ (by simp)]; decide +kernel

/-- refused before anything but the first byte is written -/
example (q : V4.Publish) (h : 268435455 < q.payload.length) (s : Bytes) :
    (V4.Packet.Publish q).write s = (.err .PayloadTooLong, s ++ [UInt8.ofNat (Spec.V4.byte1 (.Publish q))]) := by
  rw [C91_v4_write_exact _ (by simp)]
  have : maxRemaining < Spec.V4.announced (.Publish q) := by
    simp only [Spec.V4.announced, Spec.V4.pkidMissing, Spec.V4.body, List.length_append, str_len]
    unfold maxRemaining
    by_cases hq : q.qos = .AtMostOnce <;> simp [hq, u16_len] <;> try split
    all_goals omega
  simp [Spec.V4.written, this, Spec.u8]

/-- an over-long topic: the length wraps to 0, all 65536 bytes follow -/
example (q : V4.Publish) (h0 : q.qos = .AtMostOnce) (hq : (utf8 q.topic).length = 65536) (hp : q.payload = []) (s : Bytes) :
    ((V4.Packet.Publish q).write s).2 = s ++ [UInt8.ofNat (Spec.V4.byte1 (.Publish q)), 0x82, 0x80, 4] ++ [0, 0] ++ utf8 q.topic := by
  rw [C91_v4_write_exact _ (by simp)]
  have hb : (Spec.V4.body (.Publish q)).length = 65538 := by
    simp [Spec.V4.body, h0, hp, str_len, hq]
  have ha : Spec.V4.announced (.Publish q) = 65538 := by simp [Spec.V4.announced, Spec.V4.pkidMissing, h0, hb]
  simp [Spec.V4.written, ha, maxRemaining, Spec.V4.pkidMissing, h0, Spec.V4.encode, frame, hb, Spec.u8,
    show vbi 65538 = [0x82, 0x80, 4] by decide +kernel]
  simp [Spec.V4.body, h0, hp, str, bin, Spec.u16, hq]

/-- a CONNECT appended to a buffer holding nine bytes: position 9 is its own first byte, which becomes the flags -/
example : ((V4.Packet.Connect ⟨.V4, 60, "c", true, none, none⟩).write [1, 2, 3, 4, 5, 6, 7, 8, 9]).2.take 11
    = [1, 2, 3, 4, 5, 6, 7, 8, 9, 2, 13] := by decide +kernel

end Props
