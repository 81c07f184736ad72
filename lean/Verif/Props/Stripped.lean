import Verif.Props.WriteExact
import Verif.Proof.V4Spec
import Verif.Proof.V5Spec
/-! C114: a CONNECT written behind other bytes loses its will and its credentials. -/
namespace Props
open Mqtt Spec

theorem set_mid {α : Type} (a b : List α) (x y : α) {i : Nat} (h : i = a.length) : (a ++ x :: b).set i y = a ++ y :: b := by
  subst h
  simp

theorem flags_only (b : Bool) (f : UInt8) (h : f = if b then 2 else 0) :
    (b = true ↔ Spec.V4.bit f 1) ∧ Spec.V4.WillDenotes f [] none ∧ Spec.V4.LoginDenotes f [] none := by
  subst h
  cases b
  · refine ⟨by decide, ⟨by decide, by decide, by decide, by decide, rfl⟩, "", "", by decide +kernel, by decide +kernel, ?_⟩
    simp [Spec.V4.bit]
  · refine ⟨by decide, ⟨by decide, by decide, by decide, by decide, rfl⟩, "", "", by decide +kernel, by decide +kernel, ?_⟩
    simp [Spec.V4.bit]

/-- C114, v4: written to a buffer that already reaches beyond the place of its flags, a CONNECT changes one byte of what
was there, and is read without error as a CONNECT without will, user name and password. -/
theorem C114_v4_stripped (c : V4.Connect) (hf : (utf8 c.client_id).length ≤ 65535)
    (hl : (Spec.V4.body (.Connect c)).length ≤ 268435455) (s : Bytes) (i : Nat)
    (hi : i = 8 + (vbi (Spec.V4.body (.Connect c)).length).length) (hs : i < s.length) :
    ∃ f t, (Spec.V4.encode (.Connect c))[i]? = some f ∧
      c.write s = (.ok (Spec.V4.body (.Connect c)).length, s.set i f ++ t) ∧
      ∀ max rest, (Spec.V4.body (.Connect c)).length ≤ max →
        V4.read max (t ++ rest) = (.ok (.Connect { c with last_will := none, login := none }), rest) := by
  obtain ⟨f, h1, h2⟩ := (C91_v4_connect_into c s).2 hl i hi
  refine ⟨f, (Spec.V4.encode (.Connect c)).set i (if c.clean_session then 2 else 0), h1, ?_, ?_⟩
  · rw [show c.write s = (V4.Packet.Connect c).write s from rfl, h2, List.set_append_left _ _ hs]
  · intro max rest hm
    rw [V4.read_ok_iff]
    have e : Spec.V4.encode (.Connect c) = (0x10 :: (vbi (Spec.V4.body (.Connect c)).length ++ (str "MQTT"
        ++ Spec.u8 (Spec.V4.level c.protocol)))) ++ UInt8.ofNat (Spec.V4.connectFlags c) :: (u16 c.keep_alive.toNat
        ++ str c.client_id ++ Spec.V4.willFields c.last_will ++ Spec.V4.loginFields c.login) := by
      simp [Spec.V4.encode, frame, Spec.V4.body, Spec.V4.byte1, Spec.u8]
    have e1 : (str "MQTT").length = 6 := by decide +kernel
    refine ⟨0x10, vbi (Spec.V4.body (.Connect c)).length, str "MQTT" ++ Spec.u8 (Spec.V4.level c.protocol)
      ++ [if c.clean_session then 2 else 0] ++ u16 c.keep_alive.toNat ++ str c.client_id
      ++ (Spec.V4.willFields c.last_will ++ Spec.V4.loginFields c.login), ?_, vbi_isVbi hl, ?_, ?_,
      rfl, if c.clean_session then 2 else 0, [], [], Spec.V4.willFields c.last_will ++ Spec.V4.loginFields c.login, ?_, hf,
      (flags_only _ _ rfl).1, (flags_only _ _ rfl).2.1, (flags_only _ _ rfl).2.2⟩
    · rw [e, set_mid]
      · simp
      · simp [e1, Spec.u8]; omega
    · rw [vbiValue_vbi hl]
      simp [Spec.V4.body, Spec.u8]
    · refine Nat.le_trans (Nat.le_of_eq ?_) hm
      simp [Spec.V4.body, Spec.u8]
    · simp

/-- hypotheses met: a CONNECT with login behind a PINGREQ and a PUBLISH: the server sees no login -/
example : ∃ f t, V4.Connect.write ((V4.Connect.new "id").set_login "u" "p") [0xC0, 0, 0x30, 7, 0, 1, 97, 1, 2, 3, 4]
      = (.ok 20, ([0xC0, 0, 0x30, 7, 0, 1, 97, 1, 2, 3, 4] : Bytes).set 9 f ++ t) ∧
    ∀ max rest, 20 ≤ max → V4.read max (t ++ rest) = (.ok (.Connect (V4.Connect.new "id")), rest) := by
  obtain ⟨f, t, _, h⟩ := C114_v4_stripped ((V4.Connect.new "id").set_login "u" "p") (by decide +kernel) (by decide +kernel)
    [0xC0, 0, 0x30, 7, 0, 1, 97, 1, 2, 3, 4] 9 (by decide +kernel) (by decide)
  have hl : (Spec.V4.body (.Connect ((V4.Connect.new "id").set_login "u" "p"))).length = 20 := by decide +kernel
  rw [hl] at h
  exact ⟨f, t, h⟩


/-- C114, v5: the same for version 5; the properties of the CONNECT itself arrive. -/
theorem C114_v5_stripped (c : V5.Connect) (hw : Spec.V5.WF (.Connect { c with last_will := none, login := none }))
    (hl : (Spec.V5.body (.Connect c)).length ≤ 268435455) (h5 : c.protocol = .V5) (s : Bytes) (i : Nat)
    (hi : i = 8 + (vbi (Spec.V5.body (.Connect c)).length).length) (hs : i < s.length) :
    ∃ f t, (Spec.V5.encode (.Connect c))[i]? = some f ∧
      c.write s = (.ok (Spec.V5.body (.Connect c)).length, s.set i f ++ t) ∧
      ∀ max rest, (Spec.V5.body (.Connect c)).length ≤ max →
        V5.read max (t ++ rest) = (.ok (.Connect { c with last_will := none, login := none }), rest) := by
  obtain ⟨hf, hme, _⟩ := hw
  have hf1 : fits (utf8 c.client_id).length := hf.1
  obtain ⟨f, h1, h2⟩ := (C91_v5_connect_into c s).2 hl i hi
  refine ⟨f, (Spec.V5.encode (.Connect c)).set i (if c.clean_session then 2 else 0), h1, ?_, ?_⟩
  · rw [show c.write s = (V5.Packet.Connect c).write s from rfl, h2, List.set_append_left _ _ hs]
  · intro max rest hm
    rw [V5.read_ok_iff]
    have e : Spec.V5.encode (.Connect c) = (0x10 :: (vbi (Spec.V5.body (.Connect c)).length ++ (str "MQTT"
        ++ Spec.u8 (Spec.V4.level c.protocol)))) ++ UInt8.ofNat (Spec.V5.connectFlags c) :: (u16 c.keep_alive.toNat
        ++ Spec.V5.optSec Spec.V5.connectProps c.properties
        ++ str c.client_id ++ Spec.V5.willFields c.last_will ++ Spec.V5.loginFields c.login) := by
      simp [Spec.V5.encode, frame, Spec.V5.body, Spec.V5.byte1, Spec.u8]
    have e1 : (str "MQTT").length = 6 := by decide +kernel
    have hps : Spec.V5.SetDenotesBy Spec.V5.SecDenotes Spec.V5.connectKind Spec.V5.connectOf
        (Spec.V5.optSec Spec.V5.connectProps c.properties) c.properties :=
      V5.optSec_denotes V5.connect_set _ hme.1 hf.2.1 (fun p _ => V5.readable_none V5.no_vbi_connect V5.connect_kinds p)
        (by simp only [Spec.V5.body, List.length_append] at hl; unfold maxRemaining; omega)
    refine ⟨0x10, vbi (Spec.V5.body (.Connect c)).length, str "MQTT" ++ Spec.u8 (Spec.V4.level c.protocol)
      ++ [if c.clean_session then 2 else 0] ++ u16 c.keep_alive.toNat
      ++ Spec.V5.optSec Spec.V5.connectProps c.properties ++ str c.client_id
      ++ (Spec.V5.willFields c.last_will ++ Spec.V5.loginFields c.login), ?_, vbi_isVbi hl, ?_, ?_,
      rfl, if c.clean_session then 2 else 0, Spec.V5.optSec Spec.V5.connectProps c.properties, [], [],
      Spec.V5.willFields c.last_will ++ Spec.V5.loginFields c.login, ?_, ?_, hf1,
      (flags_only _ _ rfl).1, ?_, ?_⟩
    · rw [e, set_mid]
      · simp
      · simp [e1, Spec.u8]; omega
    · rw [vbiValue_vbi hl]
      simp [Spec.V5.body, Spec.u8]
    · refine Nat.le_trans (Nat.le_of_eq ?_) hm
      simp [Spec.V5.body, Spec.u8]
    · simp
    · show match c.protocol with
        | .V5 => _
        | .V4 => _
      rw [h5]
      exact hps
    · have := (flags_only c.clean_session _ rfl).2.1
      exact this
    · have := (flags_only c.clean_session _ rfl).2.2
      obtain ⟨u, p, a1, a2, a3, a4, a5, a6⟩ := this
      refine ⟨u, p, a1, a2, a3, a4, a5, ?_⟩
      by_cases hup : u = "" ∧ p = ""
      · rw [if_pos hup]
      · rw [if_neg hup] at a6; cases a6

/-- hypotheses met: a login and a PINGREQ sent eight times before -/
example : let c : V4.Connect := ⟨.V4, 9, "a", true, none, some ⟨"user", "secret"⟩⟩
    let s : Bytes := List.replicate 8 [0xC0, 0] |>.flatten
    (utf8 c.client_id).length ≤ 65535 ∧ (Spec.V4.body (.Connect c)).length ≤ 268435455 ∧
    8 + (vbi (Spec.V4.body (.Connect c)).length).length < s.length ∧
    V4.read 99 ((c.write s).2.drop 16) = (.ok (.Connect ⟨.V4, 9, "a", true, none, none⟩), []) := by
  refine ⟨by decide +kernel, by decide +kernel, by decide +kernel, by decide +kernel⟩

/-- hypotheses met, version 5 -/
example : let c : V5.Connect := ⟨.V5, 9, "a", false, none, some ⟨"user", "secret"⟩, none⟩
    let s : Bytes := List.replicate 8 [0xC0, 0] |>.flatten
    Spec.V5.WF (.Connect { c with last_will := none, login := none }) ∧
    (Spec.V5.body (.Connect c)).length ≤ 268435455 ∧ 8 + (vbi (Spec.V5.body (.Connect c)).length).length < s.length ∧
    V5.read 99 ((c.write s).2.drop 16) = (.ok (.Connect ⟨.V5, 9, "a", false, none, none, none⟩), []) := by
  refine ⟨⟨⟨by show (utf8 "a").length ≤ 65535; decide +kernel, (by intro q hq; cases hq), (by intro w hw; cases hw),
    (by intro l hl; cases hl)⟩, ⟨(by intro q hq; cases hq), (by intro w hw; cases hw), (by intro l hl; cases hl)⟩,
    by decide +kernel⟩, by decide +kernel, by decide +kernel, by decide +kernel⟩

end Props
