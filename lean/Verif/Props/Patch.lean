import Verif.Spec.Patch
import Verif.Props.WriteExact
/-! C106: retransmission: the duplicate and retain flags and the packet identifier can be changed in the encoded packet. -/
namespace Props
open Mqtt Spec

/-- C106 (v4): the duplicate and retain flags affect two bits of the first byte, nothing else -/
theorem C106_v4_flags (p : V4.Publish) :
    ∃ r tail, ∀ (dup retain : Bool) (s : Bytes), V4.Publish.write { p with dup := dup, retain := retain } s
      = (r, s ++ (UInt8.ofNat (48 + flag dup 8 + 2 * Spec.V4.qosNum p.qos + flag retain 1) :: tail)) := by
  refine ⟨(Spec.V4.written (.Publish p)).1, (Spec.V4.written (.Publish p)).2.tail, ?_⟩
  intro dup retain s
  have h := C91_v4_write_exact (.Publish { p with dup := dup, retain := retain }) (by simp) s
  refine Eq.trans h ?_
  suffices hs : Spec.V4.written (.Publish { p with dup := dup, retain := retain }) = ((Spec.V4.written (.Publish p)).1,
      UInt8.ofNat (48 + flag dup 8 + 2 * Spec.V4.qosNum p.qos + flag retain 1) :: (Spec.V4.written (.Publish p)).2.tail) by
    rw [hs]
  by_cases h1 : maxRemaining < Spec.V4.announced (.Publish p)
  · have e : ∀ q : V4.Packet, maxRemaining < Spec.V4.announced q → Spec.V4.written q = (.err .PayloadTooLong, u8 (Spec.V4.byte1 q)) := by
      intro q hq; unfold Spec.V4.written; rw [if_pos hq]
    rw [e _ h1, e (.Publish { p with dup := dup, retain := retain }) h1]; rfl
  · unfold Spec.V4.written
    rw [if_neg h1, if_neg (show ¬ _ < Spec.V4.announced (.Publish { p with dup := dup, retain := retain }) from h1)]
    by_cases h2 : Spec.V4.pkidMissing (.Publish p) = true
    · simp only [if_pos h2, if_pos (show Spec.V4.pkidMissing (.Publish { p with dup := dup, retain := retain }) = true from h2)]
      rfl
    · simp only [if_neg h2, if_neg (show ¬ Spec.V4.pkidMissing (.Publish { p with dup := dup, retain := retain }) = true from h2)]
      simp [Spec.V4.encode, frame, Spec.V4.byte1, Spec.V4.body, u8]

/-- C106 (v5) -/
theorem C106_v5_flags (p : V5.Publish) :
    ∃ r tail, ∀ (dup retain : Bool) (s : Bytes), V5.Publish.write { p with dup := dup, retain := retain } s
      = (r, s ++ (UInt8.ofNat (48 + flag dup 8 + 2 * Spec.V4.qosNum p.qos + flag retain 1) :: tail)) := by
  refine ⟨(Spec.V5.written (.Publish p)).1, (Spec.V5.written (.Publish p)).2.tail, ?_⟩
  intro dup retain s
  have h := C91_v5_write_exact (.Publish { p with dup := dup, retain := retain }) (by simp) s
  refine Eq.trans h ?_
  suffices hs : Spec.V5.written (.Publish { p with dup := dup, retain := retain }) = ((Spec.V5.written (.Publish p)).1,
      UInt8.ofNat (48 + flag dup 8 + 2 * Spec.V4.qosNum p.qos + flag retain 1) :: (Spec.V5.written (.Publish p)).2.tail) by
    rw [hs]
  by_cases h1 : maxRemaining < Spec.V5.announced (.Publish p)
  · have e : ∀ q : V5.Packet, maxRemaining < Spec.V5.announced q → Spec.V5.written q = (.err .PayloadTooLong, u8 (Spec.V5.byte1 q)) := by
      intro q hq; unfold Spec.V5.written; rw [if_pos hq]
    rw [e _ h1, e (.Publish { p with dup := dup, retain := retain }) h1]; rfl
  · unfold Spec.V5.written
    rw [if_neg h1, if_neg (show ¬ _ < Spec.V5.announced (.Publish { p with dup := dup, retain := retain }) from h1)]
    by_cases h2 : Spec.V5.pkidMissing (.Publish p) = true
    · simp only [if_pos h2, if_pos (show Spec.V5.pkidMissing (.Publish { p with dup := dup, retain := retain }) = true from h2)]
      rfl
    · simp only [if_neg h2, if_neg (show ¬ Spec.V5.pkidMissing (.Publish { p with dup := dup, retain := retain }) = true from h2)]
      cases p.properties.bind fun ps => Spec.V5.tornSec (Spec.V5.publishProps ps) with
      | none => simp [Spec.V5.encode, frame, Spec.V5.byte1, Spec.V5.body, u8]
      | some t => simp [Spec.V5.byte1, Spec.V5.announced, Spec.V5.wireBody, Spec.V5.body, Spec.V5.pkidMissing, u8]

/-- an accepted packet is written as its encoding -/
theorem v4_written_ok (p : V4.Packet) (hc : ∀ c, p ≠ .Connect c) (hl : (Spec.V4.body p).length ≤ maxRemaining)
    (hp : Spec.V4.pkidMissing p = false) : Spec.V4.written p = (.ok (Spec.V4.encode p).length, Spec.V4.encode p) := by
  have ha : ¬ maxRemaining < Spec.V4.announced p := by simp [Spec.V4.announced, hp]; omega
  unfold Spec.V4.written; rw [if_neg ha]
  cases p with
  | Connect c => exact absurd rfl (hc c)
  | Publish q => simp [hp]
  | _ => rfl

theorem v4_written_inv (p : V4.Packet) (hc : ∀ c, p ≠ .Connect c) (n : Nat) (h : (Spec.V4.written p).1 = .ok n) :
    (Spec.V4.body p).length ≤ maxRemaining ∧ Spec.V4.pkidMissing p = false ∧ n = (Spec.V4.encode p).length := by
  have hp : Spec.V4.pkidMissing p = false := by
    cases hm : Spec.V4.pkidMissing p with
    | false => rfl
    | true =>
      cases p with
      | Publish q =>
        unfold Spec.V4.written at h
        split at h
        · cases h
        · simp [hm] at h
      | _ => simp [Spec.V4.pkidMissing] at hm
  have hl : (Spec.V4.body p).length ≤ maxRemaining := by
    refine Nat.le_of_not_lt fun hl => ?_
    have ha : maxRemaining < Spec.V4.announced p := by simpa [Spec.V4.announced, hp] using hl
    unfold Spec.V4.written at h; rw [if_pos ha] at h; cases h
  rw [v4_written_ok p hc hl hp] at h
  exact ⟨hl, hp, by cases h; rfl⟩

/-- C106 (v4): if the packet is accepted, the packet identifier affects two bytes, nothing else -/
theorem C106_v4_pkid (p : V4.Packet) (h : Spec.V4.CarriesPkid p) (n : Nat) (s' : Bytes) (hw : p.write [] = (.ok n, s')) :
    ∃ pre post, ∀ (k : UInt16) (s : Bytes), k ≠ 0 →
      (Spec.V4.withPkid k p).write s = (.ok n, s ++ pre ++ u16 k.toNat ++ post) := by
  have hc : ∀ k, ∀ c, Spec.V4.withPkid k p ≠ .Connect c := by
    intro k c; cases p <;> simp [Spec.V4.withPkid, Spec.V4.CarriesPkid] at h ⊢
  have hc0 : ∀ c, p ≠ .Connect c := by rintro c rfl; exact h
  rw [C91_v4_write_exact p hc0] at hw
  simp only [C91_v4_write_exact _ (hc _)]
  have hb : ∃ a b, ∀ k, k ≠ 0 → Spec.V4.body (Spec.V4.withPkid k p) = a ++ u16 k.toNat ++ b := by
    cases p with
    | Publish q =>
      refine ⟨str q.topic, q.payload, fun k hk => ?_⟩
      simp [Spec.V4.CarriesPkid] at h
      simp [Spec.V4.withPkid, Spec.V4.body, h]
    | Subscribe q => exact ⟨[], q.filters.flatMap fun f => str f.path ++ u8 (Spec.V4.qosNum f.qos), fun k hk => by simp [Spec.V4.withPkid, Spec.V4.body]⟩
    | SubAck q => exact ⟨[], q.return_codes.flatMap fun c => u8 (Spec.V4.subCode c), fun k hk => by simp [Spec.V4.withPkid, Spec.V4.body]⟩
    | Unsubscribe q => exact ⟨[], q.topics.flatMap str, fun k hk => by simp [Spec.V4.withPkid, Spec.V4.body]⟩
    | PubAck q => exact ⟨[], [], fun k hk => by simp [Spec.V4.withPkid, Spec.V4.body]⟩
    | PubRec q => exact ⟨[], [], fun k hk => by simp [Spec.V4.withPkid, Spec.V4.body]⟩
    | PubRel q => exact ⟨[], [], fun k hk => by simp [Spec.V4.withPkid, Spec.V4.body]⟩
    | PubComp q => exact ⟨[], [], fun k hk => by simp [Spec.V4.withPkid, Spec.V4.body]⟩
    | UnsubAck q => exact ⟨[], [], fun k hk => by simp [Spec.V4.withPkid, Spec.V4.body]⟩
    | Connect _ => exact h.elim
    | ConnAck _ => exact h.elim
    | PingReq => exact h.elim
    | PingResp => exact h.elim
    | Disconnect => exact h.elim
  obtain ⟨a, b, hb⟩ := hb
  obtain ⟨h1, h2, h3⟩ := v4_written_inv p hc0 n (by rw [Prod.mk.injEq] at hw; exact hw.1)
  have hlen : ∀ k, k ≠ 0 → (Spec.V4.body (Spec.V4.withPkid k p)).length = (Spec.V4.body p).length := by
    intro k _
    cases p with
    | Publish q => simp [Spec.V4.CarriesPkid] at h; simp [Spec.V4.withPkid, Spec.V4.body, h, u16]
    | _ => simp [Spec.V4.withPkid, Spec.V4.body, u16]
  have h1b : ∀ k, Spec.V4.byte1 (Spec.V4.withPkid k p) = Spec.V4.byte1 p := by intro k; cases p <;> rfl
  have hpk : ∀ k, k ≠ 0 → Spec.V4.pkidMissing (Spec.V4.withPkid k p) = false := by
    intro k hk; cases p <;> simp [Spec.V4.withPkid, Spec.V4.pkidMissing, hk]
  refine ⟨u8 (Spec.V4.byte1 p) ++ vbi (Spec.V4.body p).length ++ a, b, fun k s hk => ?_⟩
  rw [v4_written_ok _ (hc k) (by rw [hlen k hk]; exact h1) (hpk k hk)]
  simp only [h3, Spec.V4.encode, frame, hlen k hk, h1b, List.length_append]
  rw [hb k hk]; simp

example : ∃ pre post, ∀ (k : UInt16) (s : Bytes), k ≠ 0 →
    V4.Packet.write (.Publish ⟨false, .AtLeastOnce, false, "a", k, [1]⟩) s = (.ok 8, s ++ pre ++ u16 k.toNat ++ post) :=
  C106_v4_pkid (.Publish ⟨false, .AtLeastOnce, false, "a", 7, [1]⟩) (by simp [Spec.V4.CarriesPkid]) 8 [0x32, 6, 0, 1, 97, 0, 7, 1] (by decide +kernel)

/-- an accepted packet is written as its frame -/
theorem v5_written_ok (p : V5.Packet) (hc : ∀ c, p ≠ .Connect c) (hl : (Spec.V5.wireBody p).length ≤ maxRemaining)
    (hp : Spec.V5.pkidMissing p = false)
    (h1 : ∀ q, p = .Publish q → (q.properties.bind fun ps => Spec.V5.tornSec (Spec.V5.publishProps ps)) = none)
    (h2 : ∀ q, p = .Subscribe q → (q.properties.bind fun ps => Spec.V5.tornSec (Spec.V5.subscribeProps ps)) = none) :
    Spec.V5.written p = (.ok (frame (Spec.V5.byte1 p) (Spec.V5.wireBody p)).length,
      frame (Spec.V5.byte1 p) (Spec.V5.wireBody p)) := by
  have ha : ¬ maxRemaining < Spec.V5.announced p := by simp [Spec.V5.announced, hp]; omega
  unfold Spec.V5.written; rw [if_neg ha]
  cases p with
  | Connect c => exact absurd rfl (hc c)
  | Publish q => simp only [hp, h1 q rfl]; rfl
  | Subscribe q => simp only [h2 q rfl]; rfl
  | _ => rfl

theorem v5_written_inv (p : V5.Packet) (hc : ∀ c, p ≠ .Connect c) (n : Nat) (h : (Spec.V5.written p).1 = .ok n) :
    (Spec.V5.wireBody p).length ≤ maxRemaining ∧ Spec.V5.pkidMissing p = false
    ∧ (∀ q, p = .Publish q → (q.properties.bind fun ps => Spec.V5.tornSec (Spec.V5.publishProps ps)) = none)
    ∧ (∀ q, p = .Subscribe q → (q.properties.bind fun ps => Spec.V5.tornSec (Spec.V5.subscribeProps ps)) = none)
    ∧ n = (frame (Spec.V5.byte1 p) (Spec.V5.wireBody p)).length := by
  have hp : Spec.V5.pkidMissing p = false := by
    cases hm : Spec.V5.pkidMissing p with
    | false => rfl
    | true =>
      cases p with
      | Publish q =>
        unfold Spec.V5.written at h
        split at h
        · cases h
        · simp [hm] at h
      | _ => simp [Spec.V5.pkidMissing] at hm
  have hl : (Spec.V5.wireBody p).length ≤ maxRemaining := by
    refine Nat.le_of_not_lt fun hl => ?_
    have ha : maxRemaining < Spec.V5.announced p := by simpa [Spec.V5.announced, hp] using hl
    unfold Spec.V5.written at h; rw [if_pos ha] at h; cases h
  have ha : ¬ maxRemaining < Spec.V5.announced p := by simp [Spec.V5.announced, hp]; omega
  have h1 : ∀ q, p = .Publish q → (q.properties.bind fun ps => Spec.V5.tornSec (Spec.V5.publishProps ps)) = none := by
    rintro q rfl
    cases ht : q.properties.bind fun ps => Spec.V5.tornSec (Spec.V5.publishProps ps) with
    | none => rfl
    | some t => unfold Spec.V5.written at h; rw [if_neg ha] at h; simp [hp, ht] at h
  have h2 : ∀ q, p = .Subscribe q → (q.properties.bind fun ps => Spec.V5.tornSec (Spec.V5.subscribeProps ps)) = none := by
    rintro q rfl
    cases ht : q.properties.bind fun ps => Spec.V5.tornSec (Spec.V5.subscribeProps ps) with
    | none => rfl
    | some t => unfold Spec.V5.written at h; rw [if_neg ha] at h; simp [ht] at h
  rw [v5_written_ok p hc hl hp h1 h2] at h
  exact ⟨hl, hp, h1, h2, by cases h; rfl⟩

theorem ackBody_split {R : Type} (code : R → Nat) (a : V5.Ack R) :
    ∃ b, ∀ k : UInt16, Spec.V5.ackBody code { a with pkid := k } = [] ++ u16 k.toNat ++ b :=
  ⟨match a.properties with
      | some p => u8 (code a.reason) ++ Spec.V5.sec (Spec.V5.reasonProps p)
      | none => if code a.reason = 0 then [] else u8 (code a.reason), fun _ => rfl⟩

/-- C106 (v5) -/
theorem C106_v5_pkid (p : V5.Packet) (h : Spec.V5.CarriesPkid p) (n : Nat) (s' : Bytes) (hw : p.write [] = (.ok n, s')) :
    ∃ pre post, ∀ (k : UInt16) (s : Bytes), k ≠ 0 →
      (Spec.V5.withPkid k p).write s = (.ok n, s ++ pre ++ u16 k.toNat ++ post) := by
  have hc : ∀ k, ∀ c, Spec.V5.withPkid k p ≠ .Connect c := by
    intro k c; cases p <;> simp [Spec.V5.withPkid, Spec.V5.CarriesPkid] at h ⊢
  have hc0 : ∀ c, p ≠ .Connect c := by rintro c rfl; exact h
  rw [C91_v5_write_exact p hc0] at hw
  simp only [C91_v5_write_exact _ (hc _)]
  have hb : ∃ a b, ∀ k, Spec.V5.wireBody (Spec.V5.withPkid k p) = a ++ u16 k.toNat ++ b := by
    cases p with
    | Publish q =>
      refine ⟨str q.topic, Spec.V5.optSec Spec.V5.publishProps q.properties ++ q.payload, fun k => ?_⟩
      simp [Spec.V5.CarriesPkid] at h
      simp [Spec.V5.withPkid, Spec.V5.wireBody, Spec.V5.body, h]
    | Subscribe q => exact ⟨[], Spec.V5.optSec Spec.V5.subscribeProps q.properties
        ++ q.filters.flatMap fun f => str f.path ++ u8 (Spec.V5.subOptions f), fun k => by simp [Spec.V5.withPkid, Spec.V5.wireBody, Spec.V5.body]⟩
    | SubAck q => exact ⟨[], Spec.V5.optSec Spec.V5.reasonProps q.properties
        ++ q.return_codes.flatMap fun c => u8 (Spec.V5.subCode c), fun k => by simp [Spec.V5.withPkid, Spec.V5.wireBody, Spec.V5.body]⟩
    | Unsubscribe q => exact ⟨[], Spec.V5.optSec Spec.V5.unsubscribeProps q.properties
        ++ q.filters.flatMap str, fun k => by simp [Spec.V5.withPkid, Spec.V5.wireBody, Spec.V5.body]⟩
    | UnsubAck q => exact ⟨[], Spec.V5.optSec Spec.V5.reasonProps q.properties
        ++ q.reasons.flatMap fun c => u8 (Spec.V5.unsubCode c), fun k => by simp [Spec.V5.withPkid, Spec.V5.wireBody, Spec.V5.body]⟩
    | PubAck q => exact ⟨[], ackBody_split Spec.V5.pubackCode q⟩
    | PubRec q => exact ⟨[], ackBody_split Spec.V5.pubrecCode q⟩
    | PubRel q => exact ⟨[], ackBody_split Spec.V5.pubrelCode q⟩
    | PubComp q => exact ⟨[], ackBody_split Spec.V5.pubcompCode q⟩
    | Connect _ => exact h.elim
    | ConnAck _ => exact h.elim
    | PingReq => exact h.elim
    | PingResp => exact h.elim
    | Disconnect _ => exact h.elim
  obtain ⟨a, b, hb⟩ := hb
  obtain ⟨h1, h2, h3, h4, h5⟩ := v5_written_inv p hc0 n (by rw [Prod.mk.injEq] at hw; exact hw.1)
  have hself : ∃ k, p = Spec.V5.withPkid k p := by
    cases p with
    | Connect _ => exact h.elim
    | ConnAck _ => exact h.elim
    | PingReq => exact h.elim
    | PingResp => exact h.elim
    | Disconnect _ => exact h.elim
    | _ q => exact ⟨q.pkid, rfl⟩
  obtain ⟨k0, hself⟩ := hself
  have hlen : ∀ k, (Spec.V5.wireBody (Spec.V5.withPkid k p)).length = (Spec.V5.wireBody p).length := by
    intro k
    have : Spec.V5.wireBody p = a ++ u16 k0.toNat ++ b := by rw [← hb k0, ← hself]
    rw [hb k, this]; simp [u16]
  have h1b : ∀ k, Spec.V5.byte1 (Spec.V5.withPkid k p) = Spec.V5.byte1 p := by intro k; cases p <;> rfl
  have hpk : ∀ k, k ≠ 0 → Spec.V5.pkidMissing (Spec.V5.withPkid k p) = false := by
    intro k hk; cases p <;> simp [Spec.V5.withPkid, Spec.V5.pkidMissing, hk]
  refine ⟨u8 (Spec.V5.byte1 p) ++ vbi (Spec.V5.wireBody p).length ++ a, b, fun k s hk => ?_⟩
  rw [v5_written_ok _ (hc k) (by rw [hlen k]; exact h1) (hpk k hk)
    (by intro q hq; cases p <;> simp [Spec.V5.withPkid] at hq; rename_i p; subst hq; exact h3 p rfl)
    (by intro q hq; cases p <;> simp [Spec.V5.withPkid] at hq; rename_i p; subst hq; exact h4 p rfl)]
  simp only [h5, frame, hlen k, h1b, List.length_append]
  rw [hb k]; simp

/-! cases that meet the hypotheses -/
example : (V4.Packet.Publish ⟨false, .AtLeastOnce, false, "a", 7, [1]⟩).write [] = (.ok 8, [0x32, 6, 0, 1, 97, 0, 7, 1]) := by
  decide +kernel
example : (V5.Packet.PubRec ⟨7, .QuotaExceeded, some ⟨some "x", []⟩⟩).write []
    = (.ok 10, [0x50, 8, 0, 7, 0x97, 4, 31, 0, 1, 120]) := by decide +kernel
end Props
