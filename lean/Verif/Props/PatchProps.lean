import Verif.Props.Patch
import Verif.Props.InStep
/-! C129: the message expiry interval and the topic alias can be changed in the encoded PUBLISH. -/
set_option linter.unusedSimpArgs false
namespace Props
open Mqtt Spec

theorem torn_swap (A B : List Spec.V5.Property) (x x' : Spec.V5.Property) (hx : Spec.V5.tooBig x.val = false)
    (hx' : Spec.V5.tooBig x'.val = false) (h : Spec.V5.torn (A ++ x :: B) = none) : Spec.V5.torn (A ++ x' :: B) = none := by
  induction A with
  | nil => simpa [Spec.V5.torn, hx, hx'] using h
  | cons a A ih =>
    simp only [List.cons_append, Spec.V5.torn] at h ⊢
    split at h
    · cases h
    · rename_i hb
      rw [if_neg hb]
      simp only [Option.map_eq_none_iff] at h ⊢
      exact ih h

theorem encAll_swap (A B : List Spec.V5.Property) (x : Spec.V5.Property) :
    Spec.V5.encAll (A ++ x :: B) = Spec.V5.encAll A ++ (x.enc ++ Spec.V5.encAll B) := by
  simp [Spec.V5.encAll]

theorem readable_swap (A B : List Spec.V5.Property) (x x' : Spec.V5.Property) (hk : x.val.kind ≠ .vbi)
    (hk' : x'.val.kind ≠ .vbi) (hl : x'.enc.length = x.enc.length) :
    ∀ c, (∀ a b, A ++ x :: B = a ++ b → b ≠ [] → c + Spec.V5.vbis a < (Spec.V5.encAll b).length) →
      ∀ a b, A ++ x' :: B = a ++ b → b ≠ [] → c + Spec.V5.vbis a < (Spec.V5.encAll b).length := by
  induction A with
  | nil =>
    intro c h a b e hb
    cases a with
    | nil =>
      simp only [List.nil_append] at e
      subst e
      have := h [] (x :: B) rfl (by simp)
      simp only [Spec.V5.encAll, List.flatMap_cons, List.length_append, hl] at this ⊢
      exact this
    | cons y a =>
      simp only [List.nil_append, List.cons_append, List.cons.injEq] at e
      obtain ⟨rfl, rfl⟩ := e
      have := h (x :: a) b rfl hb
      have e1 : Spec.V5.vbis (x :: a) = Spec.V5.vbis a := by simp [Spec.V5.vbis, hk]
      have e2 : Spec.V5.vbis (x' :: a) = Spec.V5.vbis a := by simp [Spec.V5.vbis, hk']
      omega
  | cons z A ih =>
    intro c h a b e hb
    cases a with
    | nil =>
      simp only [List.nil_append] at e
      subst e
      have := h [] (z :: A ++ x :: B) rfl (by simp)
      have e2 : (Spec.V5.encAll (z :: A ++ x' :: B)).length = (Spec.V5.encAll (z :: A ++ x :: B)).length := by
        rw [encAll_swap, encAll_swap]
        simp only [List.length_append, hl]
      rw [e2]; exact this
    | cons y a =>
      simp only [List.cons_append, List.cons.injEq] at e
      obtain ⟨rfl, e⟩ := e
      have e1 : ∀ l, Spec.V5.vbis (z :: l) = Spec.V5.vbis [z] + Spec.V5.vbis l := by
        intro l
        show (List.filter _ ([z] ++ l)).length = _
        rw [List.filter_append, List.length_append]; rfl
      have := ih (c + Spec.V5.vbis [z]) (fun a' b' e' hb' => by
        have := h (z :: a') b' (by rw [List.cons_append, e', List.cons_append]) hb'
        rw [e1] at this; omega) a b e hb
      rw [e1]; omega

/-- two PUBLISH packets that differ in the value of one property of fixed size -/
theorem patch_property (p p' : V5.Publish) (q q' : V5.PublishProperties) (A B : List Spec.V5.Property) (x x' : Spec.V5.Property)
    (hp : p.properties = some q) (hp' : p' = { p with properties := some q' }) (hq : Spec.V5.publishProps q = A ++ x :: B)
    (hq' : Spec.V5.publishProps q' = A ++ x' :: B) (hk : x.val.kind ≠ .vbi) (hk' : x'.val.kind ≠ .vbi)
    (hf : x'.val.Fits) (hl : x'.enc.length = x.enc.length) (n : Nat) (s' : Bytes)
    (hw : (V5.Packet.Publish p).write [] = (.ok n, s')) :
    let pre := u8 (Spec.V5.byte1 (.Publish p)) ++ vbi (Spec.V5.body (.Publish p)).length ++ str p.topic
        ++ (if p.qos = .AtMostOnce then [] else u16 p.pkid.toNat) ++ vbi (Spec.V5.encAll (A ++ x :: B)).length ++ Spec.V5.encAll A
    let post := Spec.V5.encAll B ++ p.payload
    s' = pre ++ x.enc ++ post ∧
    (∀ s, (V5.Packet.Publish p').write s = (.ok n, s ++ pre ++ x'.enc ++ post)) ∧
    ∀ max rest, V5.read max (s' ++ rest) = (.ok (.Publish p), rest) →
      V5.read max (pre ++ x'.enc ++ post ++ rest) = (.ok (.Publish p'), rest) := by
  intro pre post
  have hcc : ∀ q : V5.Publish, ∀ c, V5.Packet.Publish q ≠ .Connect c := by intro q c h; cases h
  have hw0 := hw
  rw [C91_v5_write_exact _ (hcc p)] at hw
  obtain ⟨h1, h2, h3, -, h5⟩ := v5_written_inv _ (hcc p) n (by rw [Prod.mk.injEq] at hw; exact hw.1)
  have ht : Spec.V5.torn (A ++ x :: B) = none := by
    have := h3 p rfl
    rw [hp] at this
    simpa [Spec.V5.tornSec, hq] using this
  have hb : ∀ v : Spec.V5.Property, v.val.kind ≠ .vbi → Spec.V5.tooBig v.val = false := by
    intro v hv
    cases hc : v.val <;> simp [Spec.V5.tooBig]
    rw [hc] at hv; exact absurd rfl hv
  have ht' := torn_swap A B x x' (hb x hk) (hb x' hk') ht
  have elen : (Spec.V5.encAll (A ++ x' :: B)).length = (Spec.V5.encAll (A ++ x :: B)).length := by
    rw [encAll_swap, encAll_swap]; simp only [List.length_append, hl]
  have ebody : Spec.V5.body (.Publish p) = str p.topic ++ (if p.qos = .AtMostOnce then [] else u16 p.pkid.toNat)
      ++ (vbi (Spec.V5.encAll (A ++ x :: B)).length ++ Spec.V5.encAll (A ++ x :: B)) ++ p.payload := by
    simp only [Spec.V5.body, hp, Spec.V5.optSec, Spec.V5.sec, hq]
  have ebody' : Spec.V5.body (.Publish p') = str p.topic ++ (if p.qos = .AtMostOnce then [] else u16 p.pkid.toNat)
      ++ (vbi (Spec.V5.encAll (A ++ x :: B)).length ++ Spec.V5.encAll (A ++ x' :: B)) ++ p.payload := by
    simp only [Spec.V5.body, hp', Spec.V5.optSec, Spec.V5.sec, hq', elen]
  have eblen : (Spec.V5.body (.Publish p')).length = (Spec.V5.body (.Publish p)).length := by
    rw [ebody, ebody']; simp only [List.length_append, elen]
  have h1' : (Spec.V5.body (.Publish p')).length ≤ maxRemaining := by
    rw [eblen]; exact h1
  have hm' : Spec.V5.pkidMissing (.Publish p') = false := by rw [hp']; exact h2
  have hw' : Spec.V5.written (.Publish p') = _ := v5_written_ok (.Publish p') (hcc p') h1' hm'
    (by
      intro r hr
      cases hr
      rw [hp']
      simp [Spec.V5.tornSec, hq', ht'])
    (by intro r hr; cases hr)
  have hs' : s' = pre ++ x.enc ++ post := by
    have := v5_written_ok (.Publish p) (hcc p) h1 h2 h3 (by intro r hr; cases hr)
    rw [this] at hw
    have e := (Prod.mk.inj hw).2
    simp only [List.nil_append] at e
    rw [← e]
    show frame _ (Spec.V5.body (.Publish p)) = _
    simp only [pre, post, frame]
    generalize vbi (Spec.V5.body (.Publish p)).length = V
    rw [ebody, encAll_swap]
    simp only [List.append_assoc]
  have hbytes : frame (Spec.V5.byte1 (.Publish p')) (Spec.V5.body (.Publish p')) = pre ++ x'.enc ++ post := by
    rw [frame, eblen]
    conv => lhs; rw [ebody']
    rw [encAll_swap A B x']
    have : Spec.V5.byte1 (.Publish p') = Spec.V5.byte1 (.Publish p) := by rw [hp']; rfl
    rw [this]
    simp only [pre, post, List.append_assoc]
  refine ⟨hs', ?_, ?_⟩
  · intro s
    rw [C91_v5_write_exact _ (hcc p'), hw']
    show (Res.ok (frame _ (Spec.V5.body (.Publish p'))).length, s ++ frame _ (Spec.V5.body (.Publish p'))) = _
    rw [hbytes, h5]
    have : (pre ++ x'.enc ++ post).length = (frame (Spec.V5.byte1 (.Publish p)) (Spec.V5.wireBody (.Publish p))).length := by
      rw [← hbytes]
      show (frame _ _).length = (frame _ (Spec.V5.body (.Publish p))).length
      simp only [frame, List.length_append, u8_len, eblen]
    rw [this]
    simp only [List.append_assoc]
  · intro max rest hr
    obtain ⟨⟨g1, g2, g3⟩, g4⟩ := (C98_v5_survives_iff (.Publish p)).2 n s' max rest rest hw0 hr
    have hmax : (Spec.V5.body (.Publish p)).length ≤ max := by
      obtain ⟨b1, bs, bd, e, k1, k2, k3, k4⟩ := (V5.read_ok_iff max _ rest _).1 hr
      obtain ⟨m, hm⟩ := V5.write_empty (.Publish p) ⟨g1, g2, g3⟩ (by intro c hc; cases hc)
      rw [hm] at hw0
      rw [← (Prod.mk.inj hw0).2] at e
      simp only [Spec.V5.encode, frame, List.append_assoc] at e
      have e' : vbi (Spec.V5.body (.Publish p)).length ++ (Spec.V5.body (.Publish p) ++ rest) = bs ++ (bd ++ rest) := by
        simpa [u8] using (List.cons.inj e).2
      obtain ⟨e3, -⟩ := V5.vbi_prefix_det (vbi_isVbi g3) k1 e'
      have : vbiValue bs = (Spec.V5.body (.Publish p)).length := by rw [← e3, vbiValue_vbi g3]
      omega
    have hfit : ∀ r ∈ A ++ x :: B, r.val.Fits := by
      intro r hr'
      exact g1.2 q hp r (by rw [hq]; exact hr')
    have hwf : Spec.V5.WF (.Publish p') := by
      refine ⟨?_, ?_, h1'⟩
      · rw [hp']
        refine ⟨g1.1, ?_⟩
        intro r hr' y hy
        cases hr'
        rw [hq'] at hy
        rcases List.mem_append.1 hy with hy | hy
        · exact hfit y (List.mem_append_left _ hy)
        · rcases List.mem_cons.1 hy with rfl | hy
          · exact hf
          · exact hfit y (List.mem_append_right _ (List.mem_cons_of_mem _ hy))
      · rw [hp']
        refine ⟨?_, g2.2⟩
        intro r hr'
        cases hr'
        rw [hq']; simp
    have hrb : Spec.V5.ReadsBack (.Publish p') := by
      rw [hp']
      intro r hr'
      cases hr'
      rw [hq']
      intro a b e hb'
      have := readable_swap A B x x' hk hk' hl 0 (fun a b e hb => by
        have := g4 q hp a b (by rw [hq]; exact e) hb
        omega) a b e hb'
      omega
    have := V5.read_encode (.Publish p') hwf hrb max (by rw [eblen]; exact hmax) rest
    rw [Spec.V5.encode, hbytes] at this
    exact this

/-- C129: the message expiry interval of a PUBLISH that has one affects four bytes behind its identifier, nothing else; and if
the packet is read back, so is the one with another interval -/
theorem C129_expiry (p : V5.Publish) (q : V5.PublishProperties) (v : UInt32) (hp : p.properties = some q)
    (hv : q.message_expiry_interval = some v) (n : Nat) (bytes : Bytes) (hw : (V5.Packet.Publish p).write [] = (.ok n, bytes)) :
    ∃ pre post, bytes = pre ++ (u8 2 ++ u32 v.toNat) ++ post ∧ ∀ v' : UInt32,
      let p' : V5.Packet := .Publish { p with properties := some { q with message_expiry_interval := some v' } }
      (∀ s, p'.write s = (.ok n, s ++ pre ++ (u8 2 ++ u32 v'.toNat) ++ post)) ∧
      ∀ max rest, V5.read max (bytes ++ rest) = (.ok (.Publish p), rest) →
        V5.read max (pre ++ (u8 2 ++ u32 v'.toNat) ++ post ++ rest) = (.ok p', rest) := by
  have key := fun v' : UInt32 => patch_property p { p with properties := some { q with message_expiry_interval := some v' } } q
    { q with message_expiry_interval := some v' } (Spec.V5.opt 1 .u8 q.payload_format_indicator)
    (Spec.V5.opt 35 .u16 q.topic_alias ++ Spec.V5.opt 8 .str q.response_topic ++ Spec.V5.opt 9 .bin q.correlation_data
      ++ Spec.V5.users q.user_properties ++ q.subscription_identifiers.map (fun n => ⟨11, .vbi n⟩)
      ++ Spec.V5.opt 3 .str q.content_type)
    ⟨2, .u32 v⟩ ⟨2, .u32 v'⟩ hp rfl (by simp [Spec.V5.publishProps, hv, Spec.V5.opt]) (by simp [Spec.V5.publishProps, Spec.V5.opt])
    (by intro h; cases h) (by intro h; cases h) trivial (by simp [Spec.V5.Property.enc, Spec.V5.Val.enc, u32]) n bytes hw
  exact ⟨_, _, (key v).1, fun v' => (key v').2⟩

/-- C129: the topic alias of a PUBLISH that has one affects two bytes behind its identifier, nothing else; and if the packet is
read back, so is the one with another alias -/
theorem C129_alias (p : V5.Publish) (q : V5.PublishProperties) (v : UInt16) (hp : p.properties = some q)
    (hv : q.topic_alias = some v) (n : Nat) (bytes : Bytes) (hw : (V5.Packet.Publish p).write [] = (.ok n, bytes)) :
    ∃ pre post, bytes = pre ++ (u8 35 ++ u16 v.toNat) ++ post ∧ ∀ v' : UInt16,
      let p' : V5.Packet := .Publish { p with properties := some { q with topic_alias := some v' } }
      (∀ s, p'.write s = (.ok n, s ++ pre ++ (u8 35 ++ u16 v'.toNat) ++ post)) ∧
      ∀ max rest, V5.read max (bytes ++ rest) = (.ok (.Publish p), rest) →
        V5.read max (pre ++ (u8 35 ++ u16 v'.toNat) ++ post ++ rest) = (.ok p', rest) := by
  have key := fun v' : UInt16 => patch_property p { p with properties := some { q with topic_alias := some v' } } q
    { q with topic_alias := some v' }
    (Spec.V5.opt 1 .u8 q.payload_format_indicator ++ Spec.V5.opt 2 .u32 q.message_expiry_interval)
    (Spec.V5.opt 8 .str q.response_topic ++ Spec.V5.opt 9 .bin q.correlation_data
      ++ Spec.V5.users q.user_properties ++ q.subscription_identifiers.map (fun n => ⟨11, .vbi n⟩)
      ++ Spec.V5.opt 3 .str q.content_type)
    ⟨35, .u16 v⟩ ⟨35, .u16 v'⟩ hp rfl (by simp [Spec.V5.publishProps, hv, Spec.V5.opt]) (by simp [Spec.V5.publishProps, Spec.V5.opt])
    (by intro h; cases h) (by intro h; cases h) trivial (by simp [Spec.V5.Property.enc, Spec.V5.Val.enc, u16]) n bytes hw
  exact ⟨_, _, (key v).1, fun v' => (key v').2⟩

/-- a message that expires in 60 seconds, on its way with 45 left -/
example : ∃ pre post, [0x30, 9, 0, 1, 97, 5, 2, 0, 0, 0, 60] = pre ++ (u8 2 ++ u32 (60 : UInt32).toNat) ++ post ∧ ∀ v' : UInt32,
    let p' : V5.Packet := .Publish ⟨false, .AtMostOnce, false, "a", 0, some ⟨none, some v', none, none, none, [], [], none⟩, []⟩
    (∀ s, p'.write s = (.ok 11, s ++ pre ++ (u8 2 ++ u32 v'.toNat) ++ post)) ∧
    ∀ max rest, V5.read max ([0x30, 9, 0, 1, 97, 5, 2, 0, 0, 0, 60] ++ rest)
        = (.ok (.Publish ⟨false, .AtMostOnce, false, "a", 0, some ⟨none, some 60, none, none, none, [], [], none⟩, []⟩), rest) →
      V5.read max (pre ++ (u8 2 ++ u32 v'.toNat) ++ post ++ rest) = (.ok p', rest) :=
  C129_expiry ⟨false, .AtMostOnce, false, "a", 0, some ⟨none, some 60, none, none, none, [], [], none⟩, []⟩ _ 60 rfl rfl 11 _
    (by decide +kernel)

example : V5.read 99 [0x30, 9, 0, 1, 97, 5, 2, 0, 0, 0, 60]
    = (.ok (.Publish ⟨false, .AtMostOnce, false, "a", 0, some ⟨none, some 60, none, none, none, [], [], none⟩, []⟩), []) := by
  decide +kernel
example : ∃ pre post, [0x32, 13, 0, 0, 0, 3, 7, 1, 1, 35, 0, 8, 11, 5, 1] = pre ++ (u8 35 ++ u16 (8 : UInt16).toNat) ++ post ∧
    ∀ v' : UInt16, let p' : V5.Packet := .Publish ⟨false, .AtLeastOnce, false, "", 3, some ⟨some 1, none, some v', none, none, [], [5], none⟩, [1]⟩
    (∀ s, p'.write s = (.ok 15, s ++ pre ++ (u8 35 ++ u16 v'.toNat) ++ post)) ∧
    ∀ max rest, V5.read max ([0x32, 13, 0, 0, 0, 3, 7, 1, 1, 35, 0, 8, 11, 5, 1] ++ rest)
        = (.ok (.Publish ⟨false, .AtLeastOnce, false, "", 3, some ⟨some 1, none, some 8, none, none, [], [5], none⟩, [1]⟩), rest) →
      V5.read max (pre ++ (u8 35 ++ u16 v'.toNat) ++ post ++ rest) = (.ok p', rest) :=
  C129_alias ⟨false, .AtLeastOnce, false, "", 3, some ⟨some 1, none, some 8, none, none, [], [5], none⟩, [1]⟩ _ 8 rfl rfl 15 _
    (by decide +kernel)

end Props
