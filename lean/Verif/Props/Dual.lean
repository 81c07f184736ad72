import Verif.Spec.Dual
import Verif.Props.Std
import Verif.Props.V5RoundTrip
import Verif.Props.V4RoundTrip
import Verif.Props.V4Read
import Verif.Props.V5Read
/-! C120: a server for both versions. -/
namespace Props
open Mqtt Spec Spec.Dual

theorem skipLength_vbi {bs t : Bytes} (h : IsVbi bs) : skipLength (bs ++ t) = t := by
  obtain ⟨-, ini, last, rfl, hl, hi⟩ := h
  induction ini with
  | nil => simp [skipLength, hl]
  | cons b ini ih =>
    have hb : ¬ b.toNat < 128 := by have := hi b List.mem_cons_self; omega
    rw [List.cons_append, List.cons_append, skipLength, if_neg hb]
    exact ih (fun x hx => hi x (List.mem_cons_of_mem _ hx))

/-- **C120** The level is the seventh byte after the fixed header, wherever the remaining length ends; it is known as soon
as that byte has arrived. -/
theorem C120_version_place (b1 : UInt8) (bs t : Bytes) (h : IsVbi bs) : version (b1 :: (bs ++ t)) = t[6]? := by
  rw [version, skipLength_vbi h]

/-- hypotheses met: a length of two bytes -/
example : version ([0x10, 0x80, 1] ++ [0, 4, 77, 81, 84, 84, 5, 2]) = some 5 :=
  C120_version_place 0x10 [0x80, 1] [0, 4, 77, 81, 84, 84, 5, 2] ⟨by decide, [0x80], 1, rfl, by decide, by decide⟩

/-- **C120** Once the level is known, bytes that arrive later do not change it. -/
theorem C120_version_stable (s t : Bytes) (v : UInt8) (h : version s = some v) : version (s ++ t) = some v := by
  cases s with
  | nil => cases h
  | cons b s =>
    have key : ∀ s : Bytes, (skipLength s)[6]? = some v → (skipLength (s ++ t))[6]? = some v := by
      intro s
      induction s with
      | nil => intro h; cases h
      | cons b s ih =>
        intro h
        rw [List.cons_append, skipLength]
        rw [skipLength] at h
        split
        · rename_i hb
          rw [if_pos hb] at h
          obtain ⟨hl, -⟩ := List.getElem?_eq_some_iff.1 h
          rw [List.getElem?_append_left hl, h]
        · rename_i hb
          rw [if_neg hb] at h
          exact ih h
    exact key s h

/-- hypotheses met -/
example : version ([0x10, 12, 0, 4, 77, 81, 84, 84, 4] ++ [2, 0]) = some 4 :=
  C120_version_stable [0x10, 12, 0, 4, 77, 81, 84, 84, 4] _ _ (by decide)

theorem version_connect {s s' : Bytes} {b1 : UInt8} {bs bd : Bytes} {l : Nat} {x : Bytes} (hv : IsVbi bs)
    (e : s = b1 :: (bs ++ (bd ++ s'))) (hb : bd = str "MQTT" ++ u8 l ++ x) : version s = some (UInt8.ofNat l) := by
  subst e hb
  rw [C120_version_place _ _ _ hv]
  have : str "MQTT" = [0, 4, 77, 81, 84, 84] := by decide +kernel
  simp [this, u8]

/-- **C120** In every buffer from which one of the decoders takes a CONNECT, the level so found is the CONNECT's
protocol. -/
theorem C120_version_sound (max : Nat) (s s' : Bytes) :
    (∀ c, V4.read max s = (.ok (.Connect c), s') → version s = some (UInt8.ofNat (Spec.V4.level c.protocol)))
    ∧ (∀ c, V5.read max s = (.ok (.Connect c), s') → version s = some (UInt8.ofNat (Spec.V4.level c.protocol))) := by
  constructor
  · intro c h
    obtain ⟨b1, bs, bd, e, hv, -, -, hd⟩ := (C31_v4_read_iff max s _ s').1 h
    obtain ⟨-, flags, will, login, junk, hb, -⟩ := hd
    exact version_connect hv e (by rw [hb]; simp only [List.append_assoc]; rfl)
  · intro c h
    obtain ⟨b1, bs, bd, e, hv, -, -, hd⟩ := (C60_v5_read_iff max s _ s').1 h
    obtain ⟨-, flags, props, will, login, junk, hb, -⟩ := hd
    exact version_connect hv e (by rw [hb]; simp only [List.append_assoc]; rfl)

/-- hypotheses met, by both decoders -/
example : version [0x10, 12, 0, 4, 77, 81, 84, 84, 4, 2, 0, 10, 0, 0] = some 4
    ∧ version [0x10, 13, 0, 4, 77, 81, 84, 84, 5, 2, 0, 10, 0, 0, 0] = some 5 :=
  ⟨(C120_version_sound 99 _ []).1 ⟨.V4, 10, "", true, none, none⟩ (by decide +kernel),
   (C120_version_sound 99 _ []).2 ⟨.V5, 10, "", true, none, none, none⟩ (by decide +kernel)⟩

/-- **C120** A CONNECT the server gets from either decoder is one of that decoder's version. -/
theorem C120_never_mixed (max : Nat) (s s' : Bytes) :
    (∀ c, first max s = .v4 (.ok (.Connect c), s') → c.protocol = .V4)
    ∧ (∀ c, first max s = .v5 (.ok (.Connect c), s') → c.protocol = .V5) := by
  constructor
  · intro c h
    unfold first at h
    split at h
    · split at h <;> cases h
    · rename_i v hv
      split at h
      · rename_i h4
        injection h with h
        have := (C120_version_sound max s s').1 c h
        rw [hv, h4] at this
        cases hp : c.protocol
        · rfl
        · rw [hp] at this; exact absurd this (by decide)
      · split at h <;> cases h
  · intro c h
    unfold first at h
    split at h
    · split at h <;> cases h
    · rename_i v hv
      split at h
      · cases h
      · split at h
        · rename_i h5
          injection h with h
          have := (C120_version_sound max s s').2 c h
          rw [hv, h5] at this
          cases hp : c.protocol
          · rw [hp] at this; exact absurd this (by decide)
          · rfl
        · cases h

/-- hypotheses met -/
example : first 99 [0x10, 12, 0, 4, 77, 81, 84, 84, 4, 2, 0, 10, 0, 0] = .v4 (.ok (.Connect ⟨.V4, 10, "", true, none, none⟩), [])
    ∧ first 99 [0x10, 13, 0, 4, 77, 81, 84, 84, 5, 2, 0, 10, 0, 0, 0]
      = .v5 (.ok (.Connect ⟨.V5, 10, "", true, none, none, none⟩), []) := by
  constructor
  · exact congrArg Answer.v4 (show V4.read 99 _ = _ by decide +kernel)
  · exact congrArg Answer.v5 (show V5.read 99 _ = _ by decide +kernel)

theorem first_v4 {max : Nat} {s : Bytes} (h : version s = some 4) : first max s = .v4 (V4.read max s) := by
  unfold first; rw [h]; rfl
theorem first_v5 {max : Nat} {s : Bytes} (h : version s = some 5) : first max s = .v5 (V5.read max s) := by
  unfold first; rw [h]; rfl

theorem version_frame {n l : Nat} {bd x rest : Bytes} (hl : bd.length ≤ maxRemaining) (hb : bd = str "MQTT" ++ u8 l ++ x) :
    version (frame n bd ++ rest) = some (UInt8.ofNat l) :=
  version_connect (b1 := UInt8.ofNat n) (bs := vbi bd.length) (bd := bd) (s' := rest) (vbi_isVbi hl)
    (by simp [frame, u8]) hb

/-- **C120** The CONNECT of every conforming peer of either version goes to the right decoder, with the outcome C79 and
C80 give for it. -/
theorem C120_peers (max : Nat) (rest : Bytes) :
    (∀ cs ka id w u pw, Std4.Valid (.connect cs ka id w u pw) → (Std4.body (.connect cs ka id w u pw)).length ≤ max →
      first max (Std4.encode (.connect cs ka id w u pw) ++ rest) = .v4 (Std4.result (.connect cs ka id w u pw), rest))
    ∧ (∀ cs ka ps id w u pw, Std5.Valid (.connect cs ka ps id w u pw) → (Std5.body (.connect cs ka ps id w u pw)).length ≤ max →
      first max (Std5.encode (.connect cs ka ps id w u pw) ++ rest) = .v5 (Std5.result (.connect cs ka ps id w u pw), rest)) := by
  constructor
  · intro cs ka id w u pw hv hm
    rw [first_v4, C80_v4_conforming _ hv max hm rest]
    exact version_frame hv.1 (by simp only [Std4.body, List.append_assoc]; rfl)
  · intro cs ka ps id w u pw hv hm
    rw [first_v5, C79_v5_conforming _ hv trivial max hm rest]
    exact version_frame hv.1 (by simp only [Std5.body, List.append_assoc]; rfl)

/-- **C120** What the crate's own clients send goes to the right decoder and arrives unchanged. -/
theorem C120_own_clients (max : Nat) (rest : Bytes) :
    (∀ c : V4.Connect, c.protocol = .V4 → Spec.V4.WF (.Connect c) → (Spec.V4.body (.Connect c)).length ≤ max →
      first max ((c.write []).2 ++ rest) = .v4 (.ok (.Connect c), rest))
    ∧ (∀ c : V5.Connect, c.protocol = .V5 → Spec.V5.WF (.Connect c) → (Spec.V5.body (.Connect c)).length ≤ max →
      first max ((c.write []).2 ++ rest) = .v5 (.ok (.Connect c), rest)) := by
  constructor
  · intro c hp hw hm
    obtain ⟨n, hn⟩ := V4.write_empty (.Connect c) hw
    have e : (c.write []).2 = Spec.V4.encode (.Connect c) := congrArg Prod.snd hn
    rw [e, first_v4, V4.read_encode (.Connect c) hw max hm rest]
    exact (version_frame hw.2.2 (l := Spec.V4.level c.protocol) (by simp only [Spec.V4.body, List.append_assoc]; rfl)).trans
      (by rw [hp]; rfl)
  · intro c hp hw hm
    obtain ⟨n, hn⟩ := V5.write_empty (.Connect c) hw (by rintro d e; cases e)
    have e : (c.write []).2 = Spec.V5.encode (.Connect c) := congrArg Prod.snd hn
    rw [e, first_v5, V5.read_encode (.Connect c) hw (Or.inl hp) max hm rest]
    exact (version_frame hw.2.2 (l := Spec.V4.level c.protocol) (by simp only [Spec.V5.body, List.append_assoc]; rfl)).trans
      (by rw [hp]; rfl)

/-- hypotheses met -/
example : Std4.Valid (.connect true 10 "id" none none none) ∧ Std5.Valid (.connect true 10 [] "id" none none none) := by
  constructor
  · refine ⟨by decide +kernel, ?_⟩
    simp [fits]; decide +kernel
  · refine ⟨by decide +kernel, ?_⟩
    simp [fits, Std5.PropsOk]; decide +kernel

/-- hypotheses met -/
example : Spec.V4.WF (.Connect (V4.Connect.new "id")) ∧ Spec.V5.WF (.Connect (V5.Connect.new "id")) := by
  constructor
  · refine ⟨?_, ?_, by decide +kernel⟩
    · simp only [Spec.V4.FieldsFit]; decide +kernel
    · simp [Spec.V4.Meaningful, V4.Connect.new]
  · refine ⟨?_, ?_, by decide +kernel⟩
    · refine ⟨by decide +kernel, ?_, ?_, ?_⟩ <;> simp [V5.Connect.new, Spec.V5.PropsFit]
    · simp [Spec.V5.Meaningful, V5.Connect.new, Spec.V5.NonEmpty]

/-- **C120** The server waits only while it has fewer than twelve bytes and no complete packet: a peer that sends more
gets an answer. -/
theorem C120_waits_briefly (max : Nat) (s : Bytes) (h : first max s = .wait) :
    s.length ≤ 11 ∧ ∃ n, check s max = .err (.InsufficientBytes n) := by
  unfold first at h
  split at h
  · rename_i hv
    split at h
    · rename_i n hc
      refine ⟨?_, n, hc⟩
      rcases (C03_check_insufficient_iff s max n).1 hc with ⟨rfl, -⟩ | ⟨b1, t, rfl, ht, -⟩ | ⟨b1, bs, t, rfl, hb, -⟩
      · simp
      · simp; omega
      · rw [C120_version_place _ _ _ hb, List.getElem?_eq_none_iff] at hv
        have := hb.1
        simp; omega
    · cases h
  · split at h
    · cases h
    · split at h <;> cases h

/-- hypotheses met: eight bytes of a CONNECT -/
example : first 99 [0x10, 12, 0, 4, 77, 81, 84, 84] = .wait := rfl

end Props
