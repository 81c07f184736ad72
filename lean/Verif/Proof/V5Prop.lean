import Verif.Spec.V5
import Verif.Proof.Good
import Verif.Proof.Dispatch
/-! The v5 property section decoder, generically in the property set. -/
set_option linter.unusedSimpArgs false
namespace Mqtt.V5
open Mqtt Spec
open Spec.V5 (Kind Val Property PropSeq SecDenotes SetDenotes counted encAll vbis Readable)

/-- the reader for a kind of value, with the amount added to the cursor -/
def readVal : Kind → M (Val × Nat)
  | .u8 => do let v ← read_u8; pure (.u8 v, 1)
  | .u16 => do let v ← read_u16; pure (.u16 v, 2)
  | .u32 => do let v ← read_u32; pure (.u32 v, 4)
  | .vbi => do
    let (id_len, id) ← peek_length
    advance id_len
    pure (.vbi id, 1 + id_len)
  | .str => do let v ← read_mqtt_string; pure (.str v, 2 + strLen v)
  | .bin => do let v ← read_mqtt_bytes; pure (.bin v, 2 + v.length)
  | .pair => do
    let k ← read_mqtt_string
    let v ← read_mqtt_string
    pure (.pair k v, 2 + strLen k + 2 + strLen v)

theorem peek_length_run (bs t : Bytes) (h : IsVbi bs) :
    peek_length (bs ++ t) = (.ok (bs.length, vbiValue bs), bs ++ t) := by
  unfold peek_length
  mrun
  rw [(length_ok_iff _ _ _).2 ⟨bs, t, rfl, h, rfl, rfl⟩]

theorem peek_length_iff (s s' : Bytes) (k n : Nat) :
    peek_length s = (.ok (k, n), s') ↔
      s' = s ∧ ∃ bs t, s = bs ++ t ∧ IsVbi bs ∧ bs.length = k ∧ vbiValue bs = n := by
  unfold peek_length
  mrun
  simp only [Prod.mk.injEq, length_ok_iff]
  constructor
  · rintro ⟨h, rfl⟩; exact ⟨rfl, h⟩
  · rintro ⟨rfl, h⟩; exact ⟨h, rfl⟩

/-- peek the length, then skip it -/
theorem peek_advance_iff {α : Type} (f : Nat → Nat → M α) (s s' : Bytes) (a : α) :
    (do let (k, n) ← peek_length; advance k; f k n : M α) s = (.ok a, s') ↔
      ∃ bs t, s = bs ++ t ∧ IsVbi bs ∧ f bs.length (vbiValue bs) t = (.ok a, s') := by
  rw [bind_run, andThen_eq_ok]
  constructor
  · rintro ⟨⟨k, n⟩, s1, h1, h2⟩
    obtain ⟨rfl, bs, t, rfl, hv, rfl, rfl⟩ := (peek_length_iff _ _ _ _).1 h1
    simp only [bind_run, advance_run bs t _ rfl, andThen_ok] at h2
    exact ⟨bs, t, rfl, hv, h2⟩
  · rintro ⟨bs, t, rfl, hv, h2⟩
    refine ⟨_, _, peek_length_run bs t hv, ?_⟩
    simp only [bind_run, advance_run bs t _ rfl, andThen_ok]
    exact h2

theorem vbi_kind_ne {v : Val} (h : v.kind ≠ .vbi) (bs : Bytes) :
    v.Denotes bs ↔ v.Fits ∧ bs = v.enc := by
  cases v <;> first | exact Iff.rfl | exact absurd rfl h

/-- exact acceptance of a value reader -/
theorem readVal_iff (k : Kind) (s s' : Bytes) (v : Val) (n : Nat) :
    readVal k s = (.ok (v, n), s') ↔
      v.kind = k ∧ ∃ vb, s = vb ++ s' ∧ v.Denotes vb ∧ 1 + n = counted v vb := by
  cases k
  case vbi =>
    unfold readVal
    rw [peek_advance_iff (fun k n => pure (Val.vbi n, 1 + k))]
    simp only [pure_run, Res.ok.injEq, Prod.mk.injEq]
    constructor
    · rintro ⟨bs, t, rfl, hv, ⟨rfl, rfl⟩, rfl⟩
      exact ⟨rfl, bs, rfl, ⟨hv, rfl⟩, by simp [counted, Val.kind]; omega⟩
    · rintro ⟨hk, vb, rfl, hv, hc⟩
      cases v <;> simp only [Val.kind, reduceCtorEq] at hk
      obtain ⟨hv, rfl⟩ := hv
      exact ⟨vb, s', rfl, hv, ⟨rfl, by simp [counted, Val.kind] at hc; omega⟩, rfl⟩
  all_goals
    simp only [readVal]
    minv
    constructor
  · rintro ⟨b, s1, rfl, ⟨rfl, rfl⟩, rfl⟩
    exact ⟨rfl, [b], rfl, ⟨trivial, by simp [Val.enc, u8_toNat]⟩, rfl⟩
  · rintro ⟨hk, vb, rfl, hv, hc⟩
    cases v <;> simp only [Val.kind, reduceCtorEq] at hk
    obtain ⟨_, rfl⟩ := hv
    refine ⟨_, s', by simp [Val.enc, u8_toNat], ⟨rfl, ?_⟩, rfl⟩
    simp [counted, Val.kind, Val.enc, u8_len] at hc; omega
  · rintro ⟨b, s1, rfl, ⟨rfl, rfl⟩, rfl⟩
    exact ⟨rfl, _, rfl, ⟨trivial, rfl⟩, rfl⟩
  · rintro ⟨hk, vb, rfl, hv, hc⟩
    cases v <;> simp only [Val.kind, reduceCtorEq] at hk
    obtain ⟨_, rfl⟩ := hv
    refine ⟨_, s', rfl, ⟨rfl, ?_⟩, rfl⟩
    simp [counted, Val.kind, Val.enc, u16_len] at hc; omega
  · rintro ⟨b, s1, rfl, ⟨rfl, rfl⟩, rfl⟩
    exact ⟨rfl, _, rfl, ⟨trivial, rfl⟩, rfl⟩
  · rintro ⟨hk, vb, rfl, hv, hc⟩
    cases v <;> simp only [Val.kind, reduceCtorEq] at hk
    obtain ⟨_, rfl⟩ := hv
    refine ⟨_, s', rfl, ⟨rfl, ?_⟩, rfl⟩
    simp [counted, Val.kind, Val.enc, u32_len] at hc; omega
  · rintro ⟨b, s1, ⟨hf, rfl⟩, ⟨rfl, rfl⟩, rfl⟩
    refine ⟨rfl, _, rfl, ⟨hf, rfl⟩, ?_⟩
    simp [counted, Val.kind, str_len, strLen, utf8_eq]
  · rintro ⟨hk, vb, rfl, hv, hc⟩
    cases v <;> simp only [Val.kind, reduceCtorEq] at hk
    obtain ⟨hf, rfl⟩ := hv
    refine ⟨_, s', ⟨hf, rfl⟩, ⟨rfl, ?_⟩, rfl⟩
    simp [counted, Val.kind, Val.enc, str_len, strLen, utf8_eq] at hc ⊢; omega
  · rintro ⟨b, s1, ⟨hf, rfl⟩, ⟨rfl, rfl⟩, rfl⟩
    refine ⟨rfl, _, rfl, ⟨hf, rfl⟩, ?_⟩
    simp [counted, Val.kind, bin_len]
  · rintro ⟨hk, vb, rfl, hv, hc⟩
    cases v <;> simp only [Val.kind, reduceCtorEq] at hk
    obtain ⟨hf, rfl⟩ := hv
    refine ⟨_, s', ⟨hf, rfl⟩, ⟨rfl, ?_⟩, rfl⟩
    simp [counted, Val.kind, Val.enc, bin_len] at hc ⊢; omega
  · rintro ⟨b, s1, ⟨hf, rfl⟩, b2, s2, ⟨hf2, rfl⟩, ⟨rfl, rfl⟩, rfl⟩
    refine ⟨rfl, str b ++ str b2, by simp, ⟨⟨hf, hf2⟩, rfl⟩, ?_⟩
    simp [counted, Val.kind, str_len, strLen, utf8_eq]; omega
  · rintro ⟨hk, vb, rfl, hv, hc⟩
    cases v <;> simp only [Val.kind, reduceCtorEq] at hk
    obtain ⟨hf, rfl⟩ := hv
    refine ⟨_, _, ⟨hf.1, by simp [Val.enc]⟩, _, s', ⟨hf.2, rfl⟩, ⟨rfl, ?_⟩, rfl⟩
    simp [counted, Val.kind, Val.enc, str_len, strLen, utf8_eq] at hc ⊢; omega

/-- errors of a v5 body decoder: only `InsufficientBytes 1` asks for more bytes -/
def One (e : Error) : Prop := ∀ n, e = .InsufficientBytes n → n = 1

theorem One.of_notMore {e : Error} (h : NotMore e) : One e := fun n hn => absurd hn (h n)

theorem peek_length_good (s : Bytes) : Good One 0 peek_length s := by
  unfold Good peek_length
  mrun
  rcases length_cases s with ⟨k, n, h⟩ | h | h
  · exact .inl ⟨_, s, by rw [h], by omega⟩
  · exact .inr ⟨_, s, by rw [h], by intro n hn; simpa using hn.symm⟩
  · exact .inr ⟨_, s, by rw [h], by intro n hn; simp at hn⟩

theorem peek_advance_good {α : Type} {f : Nat → Nat → M α} {s : Bytes} {j : Nat}
    (hf : ∀ bs t, s = bs ++ t → IsVbi bs → Good One j (f bs.length (vbiValue bs)) t) :
    Good One (1 + j) (do let (k, n) ← peek_length; advance k; f k n : M α) s := by
  rcases peek_length_good s with ⟨⟨k, n⟩, s1, h1, _⟩ | ⟨e, s1, h1, he⟩
  · obtain ⟨rfl, bs, t, rfl, hv, rfl, rfl⟩ := (peek_length_iff _ _ _ _).1 h1
    have hpos : 1 ≤ bs.length := by
      have := isVbi_ne_nil hv
      cases bs with
      | nil => exact absurd rfl this
      | cons _ _ => simp
    have e : (do let (k, n) ← peek_length; advance k; f k n : M α) (bs ++ t)
        = f bs.length (vbiValue bs) t := by
      rw [bind_run, h1, andThen_ok]
      simp only [bind_run, advance_run bs t _ rfl, andThen_ok]
    rcases hf bs t rfl hv with ⟨a, s2, h2, hl⟩ | ⟨e', s2, h2, he⟩
    · exact .inl ⟨a, s2, by rw [e, h2], by simp; omega⟩
    · exact .inr ⟨e', s2, by rw [e, h2], he⟩
  · exact .inr ⟨e, s1, by rw [bind_run, h1, andThen_err], he⟩

theorem _root_.Mqtt.Good.one {α : Type} {m : M α} {k : Nat} {s : Bytes} (h : Good NotMore k m s) :
    Good One k m s := h.mono (fun _ => One.of_notMore) (Nat.le_refl _)

theorem readVal_good (k : Kind) (s : Bytes) : Good One 1 (readVal k) s := by
  cases k
  case vbi => exact peek_advance_good (j := 0) (f := fun k n => pure (Val.vbi n, 1 + k)) fun bs t _ _ => .pure _
  case u8 => exact (Good.bind (j := 0) (read_u8_good s).one fun _ _ _ _ => .pure _)
  case u16 => exact (Good.bind (j := 0) (read_u16_good s).one fun _ _ _ _ => .pure _).mono (fun _ h => h) (by omega)
  case u32 => exact (Good.bind (j := 0) (read_u32_good s).one fun _ _ _ _ => .pure _).mono (fun _ h => h) (by omega)
  case str => exact (Good.bind (j := 0) (read_mqtt_string_good s).one fun _ _ _ _ => .pure _).mono (fun _ h => h) (by omega)
  case bin => exact (Good.bind (j := 0) (read_mqtt_bytes_good s).one fun _ _ _ _ => .pure _).mono (fun _ h => h) (by omega)
  case pair =>
    refine (Good.bind (j := 2) (read_mqtt_string_good s).one fun _ s1 _ _ => ?_).mono (fun _ h => h) (by omega)
    exact (Good.bind (j := 0) (read_mqtt_string_good s1).one fun _ _ _ _ => .pure _)

/-- `step` is the generic property decoder for `kind`, with the local variables `dec ps` after the
properties `ps` -/
structure GenStep {σ : Type} (kind : Nat → Option Kind) (step : PropStep σ)
    (dec : List Property → σ) : Prop where
  known : ∀ (b : UInt8) k, kind b.toNat = some k → ∃ ty, property b = .ok ty
  run : ∀ (b : UInt8) ty ps, property b = .ok ty → step ty b (dec ps) =
    match kind b.toNat with
    | none => M.fail (.InvalidPropertyType b)
    | some k => do
      let (v, n) ← readVal k
      pure (dec (ps ++ [⟨b.toNat, v⟩]), n)

theorem property_toU8 (b : UInt8) (ty : PropertyType) : property b = .ok ty ↔ b = ty.toU8 := by
  revert b; cases ty <;> exact forall_u8 (by decide +kernel)

theorem property_cases (b : UInt8) :
    (∃ ty, property b = .ok ty) ∨ property b = .err (.InvalidPropertyType b) := by
  unfold property; split <;> simp

theorem uadd_run (a b : Nat) (s : Bytes) (h : a + b < 2 ^ 32) : uadd a b s = (.ok (a + b), s) := by
  unfold uadd; rw [if_pos h]; rfl

section
variable {σ : Type} {kind : Nat → Option Kind} {step : PropStep σ} {dec : List Property → σ}
  (hg : GenStep kind step dec)
include hg

/-- one turn of the loop -/
theorem turn (fuel n c : Nat) (ps : List Property) (b : UInt8) (s : Bytes) (hc : c < n)
    (hb : c + 1 < 2 ^ 32) :
    propLoop step (fuel + 1) n c (dec ps) (b :: s) =
      match kind b.toNat with
      | none => (.err (.InvalidPropertyType b), s)
      | some k => M.andThen (readVal k s) fun vm =>
          uadd (c + 1) vm.2 >>= fun c => propLoop step fuel n c (dec (ps ++ [⟨b.toNat, vm.1⟩])) := by
  rw [propLoop, if_pos hc]
  mrun [read_u8_cons, uadd_run c 1 s hb]
  rcases property_cases b with ⟨ty, ht⟩ | ht
  · rw [ht, andThen_ok, hg.run b ty ps ht]
    cases kind b.toNat with
    | none => rfl
    | some k =>
      simp only [bind_run]
      cases readVal k s with
      | mk r s' => cases r <;> rfl
  · rw [ht, andThen_err]
    cases hk : kind b.toNat with
    | none => rfl
    | some k =>
      obtain ⟨ty, ht'⟩ := hg.known b k hk
      rw [ht] at ht'; cases ht'

theorem counted_le {k : Kind} {s s' : Bytes} {v : Val} {m : Nat}
    (h : readVal k s = (.ok (v, m), s')) : 1 + m + 2 * s'.length ≤ 2 * (1 + s.length) ∧
      s'.length < s.length := by
  clear hg
  obtain ⟨_, vb, rfl, hd, hm⟩ := (readVal_iff _ _ _ _ _).1 h
  have : 1 ≤ vb.length := by
    have := readVal_good k (vb ++ s')
    rcases this with ⟨a, s2, h2, hl⟩ | ⟨e, s2, h2, _⟩
    · rw [h] at h2; obtain ⟨_, rfl⟩ := ok_inj.1 h2; simp at hl; omega
    · rw [h] at h2; simp at h2
  simp only [List.length_append]
  unfold counted at hm
  split at hm <;> omega

/-- exact acceptance of the property loop -/
theorem propLoop_iff (fuel n c : Nat) (ps0 : List Property) (s s' : Bytes) (st : σ)
    (hf : s.length < fuel) (hb : c + 2 * s.length < 2 ^ 32) :
    propLoop step fuel n c (dec ps0) s = (.ok st, s') ↔
      ∃ bs ps, s = bs ++ s' ∧ PropSeq kind n c bs ps ∧ st = dec (ps0 ++ ps) := by
  induction fuel generalizing c ps0 s with
  | zero => omega
  | succ fuel ih =>
    by_cases hc : c < n
    · cases s with
      | nil =>
        rw [propLoop, if_pos hc, bind_run]
        constructor
        · intro h; simp [read_u8, bind_run, look_run, andThen_ok, andThen_err, fail_run] at h
        · rintro ⟨bs, ps, h, hp, _⟩
          cases hp with
          | done h' => omega
          | more => simp at h
      | cons b s =>
        simp only [List.length_cons] at hf hb
        rw [turn hg _ _ _ _ _ _ hc (by omega)]
        cases hk : kind b.toNat with
        | none =>
          simp only [Prod.mk.injEq, reduceCtorEq, false_and, false_iff]
          rintro ⟨bs, ps, h, hp, _⟩
          cases hp with
          | done h' => omega
          | more h' id v vb bs ps hk' =>
            simp only [List.cons_append, List.nil_append, List.cons.injEq] at h
            rw [← h.1, hk] at hk'; cases hk'
        | some k =>
          simp only [andThen_eq_ok]
          constructor
          · rintro ⟨⟨v, m⟩, s1, hr, h⟩
            have hle := counted_le hg hr
            obtain ⟨hvk, vb, rfl, hd, hm⟩ := (readVal_iff _ _ _ _ _).1 hr
            simp only [bind_run] at h
            rw [uadd_run _ _ _ (by omega), andThen_ok] at h
            rw [ih _ _ _ (by omega) (by omega)] at h
            obtain ⟨bs, ps, rfl, hp, rfl⟩ := h
            refine ⟨[b] ++ vb ++ bs, ⟨b.toNat, v⟩ :: ps, by simp, ?_, by simp⟩
            refine .more hc b v vb bs ps (by rw [hk, hvk]) hd ?_
            rw [← hm]
            rw [show c + (1 + m) = c + 1 + m by omega]; exact hp
          · rintro ⟨bs, ps, h, hp, rfl⟩
            cases hp with
            | done h' => omega
            | more h' id v vb bs ps hk' hd hp =>
              simp only [List.cons_append, List.nil_append, List.cons.injEq, List.append_assoc] at h
              obtain ⟨rfl, rfl⟩ := h
              rw [hk] at hk'
              obtain ⟨rfl⟩ := hk'
              have hm : 1 + (counted v vb - 1) = counted v vb := by unfold counted; omega
              have hr : readVal v.kind (vb ++ (bs ++ s')) = (.ok (v, counted v vb - 1), bs ++ s') :=
                (readVal_iff _ _ _ _ _).2 ⟨rfl, vb, rfl, hd, hm⟩
              have hle := counted_le hg hr
              refine ⟨_, _, hr, ?_⟩
              simp only [bind_run]
              rw [uadd_run _ _ _ (by omega), andThen_ok]
              rw [ih _ _ _ (by omega) (by omega)]
              refine ⟨bs, ps, rfl, ?_, by simp⟩
              rw [show c + 1 + (counted v vb - 1) = c + counted v vb by omega]
              exact hp
    · rw [propLoop, if_neg hc]
      simp only [pure_run, ok_inj]
      constructor
      · rintro ⟨rfl, rfl⟩; exact ⟨[], [], rfl, .done (by omega), by simp⟩
      · rintro ⟨bs, ps, rfl, hp, rfl⟩
        cases hp with
        | done h' => simp
        | more h' => omega

/-- a single property value moves the cursor by less than 2^18 -/
theorem counted_small {k : Kind} {s s' : Bytes} {v : Val} {m : Nat}
    (h : readVal k s = (.ok (v, m), s')) : m < 2 ^ 18 := by
  clear hg
  obtain ⟨_, vb, rfl, hd, hm⟩ := (readVal_iff _ _ _ _ _).1 h
  have : vb.length < 2 ^ 17 + 2 ^ 16 := by
    cases v with
    | vbi n => have := hd.1.1; omega
    | str t =>
      obtain ⟨h1, rfl⟩ := hd
      simp only [Val.Fits, fits] at h1
      simp only [Val.enc, str_len]; omega
    | bin t =>
      obtain ⟨h1, rfl⟩ := hd
      simp only [Val.Fits, fits] at h1
      simp only [Val.enc, bin_len]; omega
    | pair a b =>
      obtain ⟨h1, rfl⟩ := hd
      simp only [Val.Fits, fits] at h1
      simp only [Val.enc, List.length_append, str_len]; omega
    | _ => obtain ⟨h1, rfl⟩ := hd; simp [Val.enc, u8_len, u16_len, u32_len]
  unfold counted at hm
  split at hm <;> omega

theorem propLoop_good (fuel n c : Nat) (ps0 : List Property) (s : Bytes)
    (hf : s.length < fuel) (hb : n ≤ maxRemaining) :
    Good One 0 (propLoop step fuel n c (dec ps0)) s := by
  induction fuel generalizing c ps0 s with
  | zero => omega
  | succ fuel ih =>
    by_cases hc : c < n
    · cases s with
      | nil =>
        refine .inr ⟨.MalformedPacket, [], ?_, by intro n h; simp at h⟩
        rw [propLoop, if_pos hc, bind_run]; rfl
      | cons b s =>
        simp only [List.length_cons] at hf
        have hb' := hb
        unfold maxRemaining at hb'
        unfold Good
        rw [turn hg _ _ _ _ _ _ hc (by omega)]
        cases hk : kind b.toNat with
        | none => exact .inr ⟨_, _, rfl, by intro n h; simp at h⟩
        | some k =>
          rcases readVal_good k s with ⟨⟨v, m⟩, s1, hr, _⟩ | ⟨e, s1, hr, he⟩
          · have hle := counted_le hg hr
            have hsm := counted_small hg hr
            simp only [hr, andThen_ok, bind_run]
            rw [uadd_run _ _ _ (by omega), andThen_ok]
            rcases ih (c + 1 + m) (ps0 ++ [⟨b.toNat, v⟩]) s1 (by omega) with
              ⟨a, s2, h2, hl⟩ | ⟨e, s2, h2, he⟩
            · exact .inl ⟨a, s2, h2, by simp; omega⟩
            · exact .inr ⟨e, s2, h2, he⟩
          · simp only [hr, andThen_err]
            exact .inr ⟨e, s1, rfl, he⟩
    · rw [propLoop, if_neg hc]; exact .pure _

/-- **exact acceptance of a property section** -/
theorem extractProps_iff (s s' : Bytes) (r : Option σ) (hb : s.length ≤ maxRemaining) :
    extractProps step (dec []) s = (.ok r, s') ↔
      ∃ sec, s = sec ++ s' ∧ SetDenotes kind dec sec r := by
  unfold extractProps
  rw [peek_advance_iff (fun k n => if n = 0 then pure none else do
    let bytes ← M.look
    let st ← propLoop step (bytes.length + 1) n 0 (dec [])
    pure (some st))]
  have hbound : ∀ t : Bytes, t.length ≤ s.length → 0 + 2 * t.length < 2 ^ 32 := by
    intro t ht; unfold maxRemaining at hb; omega
  constructor
  · rintro ⟨len, t, rfl, hv, h⟩
    split at h
    · rename_i h0
      obtain ⟨rfl, rfl⟩ := ok_inj.1 h
      exact ⟨len, rfl, none, ⟨hv, h0⟩, rfl⟩
    · rename_i h0
      minv at h
      obtain ⟨_, _, ⟨rfl, rfl⟩, st, s1, h, rfl, rfl⟩ := h
      rw [propLoop_iff hg _ _ _ _ _ _ _ (Nat.lt_succ_self _) (hbound t (by simp))] at h
      obtain ⟨bs, ps, rfl, hp, rfl⟩ := h
      exact ⟨len ++ bs, by simp, some ps, ⟨len, bs, rfl, hv, h0, hp⟩, by simp⟩
  · rintro ⟨sec, rfl, ps, hs, rfl⟩
    cases ps with
    | none =>
      obtain ⟨hv, h0⟩ := hs
      exact ⟨sec, s', rfl, hv, by rw [if_pos h0]; rfl⟩
    | some ps =>
      obtain ⟨len, bs, rfl, hv, h0, hp⟩ := hs
      refine ⟨len, bs ++ s', by simp, hv, ?_⟩
      rw [if_neg h0]
      minv
      refine ⟨_, _, ⟨rfl, rfl⟩, dec ps, s', ?_, by simp, rfl⟩
      rw [propLoop_iff hg _ _ _ _ _ _ _ (Nat.lt_succ_self _) (hbound _ (by simp))]
      exact ⟨bs, ps, rfl, hp, by simp⟩

/-- a property section, of any size, is decoded or rejected -/
theorem extractProps_good (s : Bytes) :
    Good One 1 (extractProps step (dec [])) s := by
  unfold extractProps
  refine peek_advance_good (j := 0) (f := fun k n => if n = 0 then pure none else do
    let bytes ← M.look
    let st ← propLoop step (bytes.length + 1) n 0 (dec [])
    pure (some st)) fun len t hs hv => ?_
  refine .ite (fun _ => .pure _) fun _ => ?_
  refine .bind0 .look fun b s' h1 _ => ?_
  obtain ⟨rfl, rfl⟩ := ok_inj.1 h1
  exact .bind0 (propLoop_good hg _ _ _ _ _ (Nat.lt_succ_self _) (vbiValue_le hv)) fun _ _ _ _ => .pure _
end

end Mqtt.V5
