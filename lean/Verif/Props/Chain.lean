import Verif.Spec.Chain
import Verif.Proof.Grow
import Verif.Props.V4Read
import Verif.Props.V5RoundTrip
import Verif.Props.V5Sections
import Verif.Props.InStep
import Verif.Props.Client
/-! C112: packets sent along a chain of relays. -/
namespace Props
open Mqtt Mqtt.V5 Spec
open Spec.V5 (WF FieldsFit Meaningful NonEmpty ReadsBack Readable publishProps publishOf encAll vbis body
  encode opt users)

theorem hop_unique {P : Type} {write : P → M Nat} {read : M P} {p a b : P} (ha : Hop write read p a)
    (hb : Hop write read p b) : a = b := by
  obtain ⟨n, x, h1, h2⟩ := ha
  obtain ⟨m, y, h3, h4⟩ := hb
  rw [h1] at h3
  cases h3
  rw [h2] at h4
  cases h4
  rfl

theorem hops_fixed {P : Type} {write : P → M Nat} {read : Nat → M P} {p : P} : ∀ (maxs : List Nat),
    (∀ m ∈ maxs, Hop write (read m) p p) → ∀ p', Hops write read maxs p p' ↔ p' = p := by
  intro maxs
  induction maxs with
  | nil => intro _ p'; exact Iff.rfl
  | cons m ms ih =>
    intro h p'
    have hm := h m (by simp)
    have ih := ih (fun k hk => h k (by simp [hk])) p'
    constructor
    · rintro ⟨q, h1, h2⟩
      rw [hop_unique h1 hm] at h2
      exact ih.1 h2
    · intro e
      exact ⟨p, hm, ih.2 e⟩

theorem hops_cons {P : Type} {write : P → M Nat} {read : Nat → M P} {p q : P} {m : Nat} {ms : List Nat}
    (h : Hop write (read m) p q) (p' : P) : Hops write read (m :: ms) p p' ↔ Hops write read ms q p' := by
  constructor
  · rintro ⟨r, h1, h2⟩
    rw [hop_unique h1 h] at h2
    exact h2
  · intro h2
    exact ⟨q, h, h2⟩

theorem pre_cases {α : Type} {x y a b : List α} (h : x ++ y = a ++ b) :
    (∃ c, x = a ++ c) ∨ (∃ c, a = x ++ c ∧ y = c ++ b) := by
  rcases List.append_eq_append_iff.1 h with ⟨c, h1, h2⟩ | ⟨c, h1, h2⟩
  · exact .inr ⟨c, h1, h2⟩
  · exact .inl ⟨c, h1⟩

theorem opt_pre {α : Type} {i : Nat} {f : α → Spec.V5.Val} {o : Option α} {c b} (h : opt i f o = c ++ b) :
    ∃ o', c = opt i f o' := by
  cases o with
  | none => exact ⟨none, by simp [opt] at h ⊢; exact h.1⟩
  | some v =>
    cases c with
    | nil => exact ⟨none, rfl⟩
    | cons x xs => refine ⟨some v, ?_⟩; simp [opt] at h ⊢; exact ⟨h.1.symm, h.2.1⟩

/-- a beginning of the properties of a set is the properties of a set -/
theorem publish_prefix {q : PublishProperties} {a b} (h : publishProps q = a ++ b) : ∃ q', a = publishProps q' := by
  unfold publishProps at h
  rcases pre_cases h with ⟨c, h⟩ | ⟨c, h1, h2⟩
  swap
  · obtain ⟨o, rfl⟩ := opt_pre h2
    exact ⟨{ q with content_type := o }, h1⟩
  rcases pre_cases h with ⟨c, h⟩ | ⟨c, h1, h2⟩
  swap
  · obtain ⟨l1, l2, e, e1, e2⟩ := List.map_eq_append_iff.1 h2
    subst e1
    exact ⟨{ q with content_type := none, subscription_identifiers := l1 },
      by simpa [publishProps, opt] using h1⟩
  rcases pre_cases h with ⟨c, h⟩ | ⟨c, h1, h2⟩
  swap
  · unfold users at h2
    obtain ⟨l1, l2, e, e1, e2⟩ := List.map_eq_append_iff.1 h2
    subst e1
    exact ⟨{ q with content_type := none, subscription_identifiers := [], user_properties := l1 },
      by simpa [publishProps, opt, users] using h1⟩
  rcases pre_cases h with ⟨c, h⟩ | ⟨c, h1, h2⟩
  swap
  · obtain ⟨o, rfl⟩ := opt_pre h2
    exact ⟨{ q with content_type := none, subscription_identifiers := [], user_properties := [], correlation_data := o },
      by simpa [publishProps, opt, users] using h1⟩
  rcases pre_cases h with ⟨c, h⟩ | ⟨c, h1, h2⟩
  swap
  · obtain ⟨o, rfl⟩ := opt_pre h2
    exact ⟨{ q with content_type := none, subscription_identifiers := [], user_properties := [], correlation_data := none, response_topic := o },
      by simpa [publishProps, opt, users] using h1⟩
  rcases pre_cases h with ⟨c, h⟩ | ⟨c, h1, h2⟩
  swap
  · obtain ⟨o, rfl⟩ := opt_pre h2
    exact ⟨{ q with content_type := none, subscription_identifiers := [], user_properties := [], correlation_data := none, response_topic := none, topic_alias := o },
      by simpa [publishProps, opt, users] using h1⟩
  rcases pre_cases h with ⟨c, h⟩ | ⟨c, h1, h2⟩
  swap
  · obtain ⟨o, rfl⟩ := opt_pre h2
    exact ⟨{ q with content_type := none, subscription_identifiers := [], user_properties := [], correlation_data := none, response_topic := none, topic_alias := none, message_expiry_interval := o },
      by simpa [publishProps, opt, users] using h1⟩
  obtain ⟨o, rfl⟩ := opt_pre h
  exact ⟨{ q with content_type := none, subscription_identifiers := [], user_properties := [], correlation_data := none, response_topic := none, topic_alias := none, message_expiry_interval := none, payload_format_indicator := o }, by simp [publishProps, opt, users]⟩

theorem publish_canon {q : PublishProperties} {a b} (h : publishProps q = a ++ b) : publishProps (publishOf a) = a := by
  obtain ⟨q', rfl⟩ := publish_prefix h
  rw [publish_dec]

/-- one hop of a PUBLISH whose properties are miscounted, with all that is known of the split -/
theorem publish_hop {p : Publish} {q : PublishProperties} (hq : p.properties = some q) (hw : WF (.Publish p))
    (hr : ¬ Readable (publishProps q)) :
    ∃ a b, publishProps q = a ++ b ∧ b ≠ [] ∧ a ≠ [] ∧ (encAll b).length ≤ vbis a ∧
      WF (.Publish { p with properties := some (publishOf a), payload := encAll b ++ p.payload }) ∧
      (body (.Publish { p with properties := some (publishOf a), payload := encAll b ++ p.payload })).length
        ≤ (body (.Publish p)).length ∧
      ∀ max, (body (.Publish p)).length ≤ max → Hop V5.Packet.write (V5.read max) (.Publish p)
        (.Publish { p with properties := some (publishOf a), payload := encAll b ++ p.payload }) := by
  obtain ⟨hf, hm, hl⟩ := hw
  obtain ⟨a, b, hab, hb, h3, h4⟩ := not_readable hr
  have ha : a ≠ [] := by
    rintro rfl
    have := encAll_pos hb
    have h0 : vbis ([] : List Spec.V5.Property) = 0 := rfl
    omega
  have hlen : (body (.Publish { p with properties := some (publishOf a), payload := encAll b ++ p.payload })).length
      ≤ (body (.Publish p)).length := by
    have h1 : (vbi (encAll a).length).length ≤ (vbi (encAll a ++ encAll b).length).length :=
      vbi_length_mono (by simp)
    simp only [body, hq, Spec.V5.optSec, Spec.V5.sec, List.length_append, publish_canon hab, hab, encAll_append] at h1 ⊢
    omega
  have hread : ∀ max rest, (body (.Publish p)).length ≤ max → V5.read max (encode (.Publish p) ++ rest)
      = (.ok (.Publish { p with properties := some (publishOf a), payload := encAll b ++ p.payload }), rest) := by
    intro max rest hx
    rw [read_ok_iff]
    have hsec : (Spec.V5.sec (publishProps q)).length ≤ (body (.Publish p)).length := by
      simp only [body, hq, Spec.V5.optSec, List.length_append]; omega
    have hel : (encAll (publishProps q)).length ≤ maxRemaining := by
      simp only [Spec.V5.sec, List.length_append] at hsec
      omega
    refine ⟨UInt8.ofNat (Spec.V5.byte1 (.Publish p)), vbi (body (.Publish p)).length, body (.Publish p),
      by simp [encode, frame, Spec.u8], vbi_isVbi hl, vbiValue_vbi hl, hx, ?_⟩
    refine ⟨rfl, vbi (encAll (publishProps q)).length ++ encAll a, ?_, hf.1, hm.2, some a, ?_, rfl⟩
    · simp only [body, hq, Spec.V5.optSec, Spec.V5.sec]
      rw [show encAll (publishProps q) = encAll a ++ encAll b by rw [hab, encAll_append]]
      simp only [List.append_assoc]
    · refine ⟨_, encAll a, rfl, vbi_isVbi hel, ?_, ?_⟩
      · rw [vbiValue_vbi hel]
        have : 1 ≤ (encAll (publishProps q)).length :=
          encAll_pos (by rw [hab]; simp [hb])
        omega
      · rw [vbiValue_vbi hel]
        exact propSeq_overrun _ hab (publish_kinds q) (hf.2 q hq) h3 h4
  refine ⟨a, b, hab, hb, ha, h3, ?_, hlen, ?_⟩
  · have h := C57_v5_decoded_wellformed _ _ _ _ (hread _ [] (Nat.le_refl _))
    exact ⟨h.1, h.2.1, Nat.le_trans hlen hl⟩
  · intro max hx
    refine ⟨_, _, write_encode (.Publish p) ⟨hf, hm, hl⟩ (by simp) (by simp) [], ?_⟩
    have := hread max [] hx
    simpa using this

/-! ### C112 -/

/-- C112, v4: a received packet passes through any chain of relays unchanged, as soon as the relays' limits allow its
size. -/
theorem C112_v4_chain (max : Nat) (s s' : Bytes) (p : V4.Packet) (h : V4.read max s = (.ok p, s')) (maxs : List Nat)
    (hm : ∀ m ∈ maxs, (Spec.V4.body p).length ≤ m) (p' : V4.Packet) :
    Hops V4.Packet.write V4.read maxs p p' ↔ p' = p := by
  refine hops_fixed maxs (fun m hm' => ?_) p'
  obtain ⟨n, bytes, h1, h2⟩ := (C98_v4_survives_iff p).1 (C29_v4_reencode max s s' p h).1
  have := h2 m [] (hm m hm')
  exact ⟨n, bytes, h1, by simpa using this⟩

/-- hypotheses met: a PUBLISH received with a reserved bit of the length (`0x83 0x00` for 3) and passed on three times -/
example (p' : V4.Packet) : Hops V4.Packet.write V4.read [9, 5, 7] (.Publish ⟨false, .AtMostOnce, true, "a", 0, []⟩) p'
    ↔ p' = .Publish ⟨false, .AtMostOnce, true, "a", 0, []⟩ :=
  C112_v4_chain 9 [0x31, 0x83, 0, 0, 1, 97] [] _ (by decide +kernel) [9, 5, 7] (by decide +kernel) p'


/-- C112, v5: a packet that one hop leaves unchanged passes through any chain unchanged. -/
theorem C112_v5_chain (p : V5.Packet) (hw : WF p) (hr : ReadsBack p) (maxs : List Nat)
    (hm : ∀ m ∈ maxs, (body p).length ≤ m) (p' : V5.Packet) :
    Hops V5.Packet.write V5.read maxs p p' ↔ p' = p := by
  refine hops_fixed maxs (fun m hm' => ?_) p'
  obtain ⟨n, bytes, h1, h2⟩ := (C98_v5_survives_iff p).1 ⟨hw, hr⟩
  have := h2 m [] (hm m hm')
  exact ⟨n, bytes, h1, by simpa using this⟩

/-- C112, v5: CONNACK and DISCONNECT without properties do not get past the first relay, whatever its limit. -/
theorem C112_v5_stops (p : V5.Packet)
    (h : (∃ c, p = .ConnAck c ∧ c.properties = none) ∨ (∃ d, p = .Disconnect d ∧ d.properties = none))
    (m : Nat) (maxs : List Nat) (p' : V5.Packet) : ¬ Hops V5.Packet.write V5.read (m :: maxs) p p' := by
  rintro ⟨q, ⟨n, bytes, h1, h2⟩, -⟩
  rcases h with ⟨c, rfl, hc⟩ | ⟨d, rfl, hd⟩
  · obtain ⟨b, h3, h4⟩ := C34_v5_connack_none_unreadable c hc []
    rw [show V5.Packet.write (.ConnAck c) [] = _ from h3] at h1
    simp at h1
    obtain ⟨-, rfl⟩ := h1
    have := h4 (m + 2) [] (by omega)
    have h5 := (C66_v5_limit_monotone m (m + 2) (by omega) _ _ _ h2)
    simp at this
    rw [this] at h5
    cases h5
  · by_cases h0 : d.reason_code = .NormalDisconnection
    · obtain ⟨h3, h4⟩ := C39_v5_disconnect_normal_unreadable d (.inl ⟨h0, hd⟩) []
      rw [show V5.Packet.write (.Disconnect d) [] = _ from h3] at h1
      simp at h1
      obtain ⟨-, rfl⟩ := h1
      have := h4 m []
      simp at this
      rw [this] at h2
      cases h2
    · obtain ⟨b, h3, -, h4⟩ := C39_v5_disconnect_reason_unreadable d h0 hd []
      rw [show V5.Packet.write (.Disconnect d) [] = _ from h3] at h1
      simp at h1
      obtain ⟨-, rfl⟩ := h1
      have := h4 (m + 1) [] (by omega)
      have h5 := (C66_v5_limit_monotone m (m + 1) (by omega) _ _ _ h2)
      simp at this
      rw [this] at h5
      cases h5

/-- hypotheses met: `Disconnect::new()` -/
example (p' : V5.Packet) : ¬ Hops V5.Packet.write V5.read [9] (.Disconnect V5.Disconnect.new) p' :=
  C112_v5_stops _ (.inr ⟨_, rfl, rfl⟩) 9 [] p'


/-- C112, v5 PUBLISH: along any chain the packet changes in one way only: some of its last properties become the
beginning of the payload, so properties and payload together are conserved byte by byte.  What a relay counts right is
never lost; and after as many relays as there are properties (less one) the properties are exactly the longest beginning
that is counted right, so that nothing changes any more. -/
theorem C112_v5_publish_chain (p : Publish) (q : PublishProperties) (hq : p.properties = some q)
    (hw : WF (.Publish p)) (maxs : List Nat) (hm : ∀ m ∈ maxs, (body (.Publish p)).length ≤ m) :
    ∃ a b, publishProps q = a ++ b ∧ publishProps (publishOf a) = a ∧ a ≠ [] ∧
      (∀ p', Hops V5.Packet.write V5.read maxs (.Publish p) p' ↔
        p' = .Publish { p with properties := some (publishOf a), payload := encAll b ++ p.payload }) ∧
      (∀ c d, publishProps q = c ++ d → Readable c → c.length ≤ a.length) ∧
      ((publishProps q).length ≤ maxs.length + 1 → Readable a) := by
  induction maxs generalizing p q with
  | nil =>
    have hne : publishProps q ≠ [] := hw.2.1.1 q hq
    refine ⟨publishProps q, [], by simp, by rw [publish_dec], hne, fun p' => ?_, fun c d e _ => ?_, fun hl => ?_⟩
    · rw [publish_dec]
      show p' = _ ↔ p' = _
      cases p
      simp at hq
      subst hq
      simp [encAll]
    · rw [e]; simp
    · intro a b e hb
      have : a = [] := by
        rw [e] at hl
        have := List.length_pos_of_ne_nil hb
        simp at hl
        exact List.eq_nil_of_length_eq_zero (by omega)
      subst this
      exact encAll_pos hb
  | cons m ms ih =>
    by_cases hr : Readable (publishProps q)
    · have hne : publishProps q ≠ [] := hw.2.1.1 q hq
      refine ⟨publishProps q, [], by simp, by rw [publish_dec], hne, fun p' => ?_, fun c d e _ => ?_, fun _ => hr⟩
      · rw [C112_v5_chain (.Publish p) hw (fun q' hq' => by rw [hq] at hq'; cases hq'; exact hr) (m :: ms) hm p', publish_dec]
        cases p
        simp at hq
        subst hq
        simp [encAll]
      · rw [e]; simp
    · obtain ⟨a, b, hab, hb, ha, h3, hwf, hlen, hhop⟩ := publish_hop hq hw hr
      obtain ⟨a', b', e, hc, hne, h1, h2, h4⟩ := ih
        { p with properties := some (publishOf a), payload := encAll b ++ p.payload } (publishOf a) rfl hwf
        (fun k hk => Nat.le_trans hlen (hm k (by simp [hk])))
      rw [publish_canon hab] at e
      refine ⟨a', b' ++ b, by rw [hab, e]; simp, hc, hne, fun p' => ?_, fun c d ecd hcr => ?_, fun hl => h4 ?_⟩
      · rw [hops_cons (hhop m (hm m (by simp))) p', h1 p']
        simp [encAll_append]
      · rw [publish_canon hab] at h2
        rw [hab] at ecd
        rcases pre_cases ecd with ⟨x, hx⟩ | ⟨x, hx, hx'⟩
        · exact h2 c x hx hcr
        · by_cases hx0 : x = []
          · subst hx0
            simp at hx
            subst hx
            exact h2 _ [] (by simp) hcr
          · exfalso
            have := hcr a x hx hx0
            have h5 : (encAll b).length = (encAll x).length + (encAll d).length := by rw [hx', encAll_append]; simp
            omega
      · rw [publish_canon hab]
        rw [hab] at hl
        have := List.length_pos_of_ne_nil hb
        simp at hl
        omega

/-- hypotheses met: a received SUBACK, and three relays -/
example : V4.read 9 [0x90, 3, 0, 7, 1] = (.ok (.SubAck ⟨7, [.Success .AtLeastOnce]⟩), []) ∧
    ∀ m ∈ [9, 5, 3], (Spec.V4.body (.SubAck ⟨7, [.Success .AtLeastOnce]⟩)).length ≤ m :=
  ⟨by decide +kernel, by simp; decide +kernel⟩

/-- hypotheses met: a PINGREQ -/
example : WF .PingReq ∧ ReadsBack .PingReq ∧ ∀ m ∈ [0, 5], (body .PingReq).length ≤ m :=
  ⟨⟨trivial, trivial, by decide⟩, trivial, by simp; decide +kernel⟩

/-- a PUBLISH with subscription identifiers, as a broker forwards it to a client several of whose subscriptions match -/
def withIds (ids : List Nat) (payload : Bytes) : Publish :=
  ⟨false, .AtMostOnce, false, "a", 0, some ⟨none, none, none, none, none, [], ids, none⟩, payload⟩

/-- hypotheses met, and the chain takes three relays to settle: of five subscription identifiers two are left -/
example : WF (.Publish (withIds [1, 2, 3, 4, 5] [99])) ∧
    (∀ m ∈ [99, 99, 99, 99], (body (.Publish (withIds [1, 2, 3, 4, 5] [99]))).length ≤ m) ∧
    Hops V5.Packet.write V5.read [99] (.Publish (withIds [1, 2, 3, 4, 5] [99]))
      (.Publish (withIds [1, 2, 3, 4] [11, 5, 99])) ∧
    Hops V5.Packet.write V5.read [99, 99] (.Publish (withIds [1, 2, 3, 4, 5] [99]))
      (.Publish (withIds [1, 2, 3] [11, 4, 11, 5, 99])) ∧
    Hops V5.Packet.write V5.read [99, 99, 99] (.Publish (withIds [1, 2, 3, 4, 5] [99]))
      (.Publish (withIds [1, 2] [11, 3, 11, 4, 11, 5, 99])) ∧
    Hops V5.Packet.write V5.read [99, 99, 99, 99] (.Publish (withIds [1, 2, 3, 4, 5] [99]))
      (.Publish (withIds [1, 2] [11, 3, 11, 4, 11, 5, 99])) := by
  have hop : ∀ (p p' : Publish) (n : Nat), V5.read 99 (p.write []).2 = (.ok (.Publish p'), []) → (p.write []).1 = .ok n →
      Hop V5.Packet.write (V5.read 99) (.Publish p) (.Publish p') := fun p p' n h hn => ⟨n, _, Prod.ext hn rfl, h⟩
  have h1 := hop (withIds [1, 2, 3, 4, 5] [99]) (withIds [1, 2, 3, 4] [11, 5, 99]) 17 (by decide +kernel) (by decide +kernel)
  have h2 := hop (withIds [1, 2, 3, 4] [11, 5, 99]) (withIds [1, 2, 3] [11, 4, 11, 5, 99]) 17
    (by decide +kernel) (by decide +kernel)
  have h3 := hop (withIds [1, 2, 3] [11, 4, 11, 5, 99]) (withIds [1, 2] [11, 3, 11, 4, 11, 5, 99]) 17
    (by decide +kernel) (by decide +kernel)
  have h4 := hop (withIds [1, 2] [11, 3, 11, 4, 11, 5, 99]) (withIds [1, 2] [11, 3, 11, 4, 11, 5, 99]) 17
    (by decide +kernel) (by decide +kernel)
  refine ⟨⟨⟨?_, ?_⟩, ⟨?_, by decide⟩, by decide +kernel⟩, by simp; decide +kernel, ⟨_, h1, rfl⟩, ⟨_, h1, _, h2, rfl⟩,
    ⟨_, h1, _, h2, _, h3, rfl⟩, ⟨_, h1, _, h2, _, h3, _, h4, rfl⟩⟩
  · show (utf8 "a").length ≤ 65535; decide +kernel
  · intro q hq x hx
    cases hq
    simp [publishProps, opt, users] at hx
    rcases hx with rfl | rfl | rfl | rfl | rfl <;> show _ ≤ maxRemaining <;> decide
  · intro q hq
    cases hq
    simp [publishProps]

end Props
