import Verif.Spec.Tag
import Verif.Props.Grow
/-! C132: a user property can be added to every packet that was read. -/
set_option linter.unusedSimpArgs false
namespace Props
open Mqtt Spec Spec.V5

/-- inserting a property other than a subscription identifier before all subscription identifiers -/
theorem readable_insert (A B : List Property) (x : Property) (hA : vbis A = 0) (hx : vbis [x] = 0) (h : Readable (A ++ B)) :
    Readable (A ++ x :: B) := by
  intro a b e hb
  rcases List.append_eq_append_iff.1 e with ⟨c, rfl, e2⟩ | ⟨c, rfl, e2⟩
  · cases c with
    | nil =>
      simp only [List.nil_append] at e2
      subst e2
      simp only [List.append_nil, hA]
      exact V5.encAll_pos hb
    | cons y c =>
      simp only [List.cons_append, List.cons.injEq] at e2
      obtain ⟨rfl, rfl⟩ := e2
      have := h (A ++ c) b (by simp) hb
      have e3 : vbis (A ++ x :: c) = vbis (A ++ c) := by
        rw [show A ++ x :: c = A ++ ([x] ++ c) from rfl, V5.vbis_append, V5.vbis_append, V5.vbis_append, hx]; omega
      rw [e3]; exact this
  · have : vbis a = 0 := by rw [V5.vbis_append] at hA; omega
    rw [this]; exact V5.encAll_pos hb

theorem insert_set {π : Type} (props : π → List Property) (o : Option π) (q q' : π) (none' : π) (hn : props none' = [])
    (hq : q = o.getD none') (A B : List Property) (k v : String) (hA : props q = A ++ B)
    (hB : props q' = A ++ ⟨38, .pair k v⟩ :: B) (hf : PropsFit props o) (hk : fits (utf8 k).length) (hv : fits (utf8 v).length) :
    PropsFit props (some q') ∧ NonEmpty props (some q') ∧
      (optSec props (some q')).length ≤ (optSec props o).length + (8 + (utf8 k).length + (utf8 v).length) := by
  have hfit : ∀ r ∈ A ++ B, r.val.Fits := by
    intro r hr
    cases o with
    | none =>
      rw [Option.getD_none] at hq
      rw [← hA, hq, hn] at hr
      cases hr
    | some p =>
      rw [Option.getD_some] at hq
      exact hf p rfl r (by rw [← hq, hA]; exact hr)
  refine ⟨?_, ?_, ?_⟩
  · intro r hr y hy
    cases hr
    rw [hB] at hy
    rcases List.mem_append.1 hy with hy | hy
    · exact hfit y (List.mem_append_left _ hy)
    · rcases List.mem_cons.1 hy with rfl | hy
      · exact ⟨hk, hv⟩
      · exact hfit y (List.mem_append_right _ hy)
  · intro r hr
    cases hr
    rw [hB]; simp
  · have e : (optSec props o).length = (sec (A ++ B)).length := by
      cases o with
      | none => rw [Option.getD_none] at hq; rw [← hA, hq, hn]; rfl
      | some p => rw [Option.getD_some] at hq; rw [← hA, hq]; rfl
    rw [e]
    have h1 := vbi_length_pos (encAll (A ++ B)).length
    have h2 := vbi_length_le (encAll (A ++ ⟨38, .pair k v⟩ :: B)).length
    simp only [optSec, hB, sec, List.length_append]
    simp only [encAll, List.flatMap_append, List.flatMap_cons, List.length_append, Property.enc, Val.enc, u8_len, str, bin, u16_len]
      at h1 h2 ⊢
    omega

theorem users_plus (l : List (String × String)) (k v : String) : users (l ++ [(k, v)]) = users l ++ [⟨38, .pair k v⟩] := by
  simp [users]

theorem vbis_users (l : List (String × String)) : vbis (users l) = 0 :=
  V5.vbis_eq_zero (by
    intro q hq
    obtain ⟨kv, _, rfl⟩ := List.mem_map.1 hq
    simp [Val.kind])

theorem tag_wf (k v : String) (hk : fits (utf8 k).length) (hv : fits (utf8 v).length) (p : V5.Packet) (hf : FieldsFit p)
    (hm : Meaningful p) : FieldsFit (tag k v p) ∧ Meaningful (tag k v p) ∧ (TagReadsBack p → ReadsBack (tag k v p)) ∧
      (body (tag k v p)).length ≤ (body p).length + (10 + (utf8 k).length + (utf8 v).length) := by
  cases p with
  | Connect c =>
    obtain ⟨f1, f2, f3, f4⟩ := hf
    obtain ⟨m1, m2, m3⟩ := hm
    have key := insert_set connectProps c.properties _ { c.properties.getD (connectOf []) with
        user_properties := (c.properties.getD (connectOf [])).user_properties ++ [(k, v)] } (connectOf []) (by decide) rfl
      (opt 17 .u32 (c.properties.getD (connectOf [])).session_expiry_interval
        ++ opt 33 .u16 (c.properties.getD (connectOf [])).receive_maximum
        ++ opt 39 .u32 (c.properties.getD (connectOf [])).max_packet_size
        ++ opt 34 .u16 (c.properties.getD (connectOf [])).topic_alias_max
        ++ opt 25 .u8 (c.properties.getD (connectOf [])).request_response_info
        ++ opt 23 .u8 (c.properties.getD (connectOf [])).request_problem_info
        ++ users (c.properties.getD (connectOf [])).user_properties)
      (opt 21 .str (c.properties.getD (connectOf [])).authentication_method
        ++ opt 22 .bin (c.properties.getD (connectOf [])).authentication_data) k v (by simp [connectProps])
      (by simp [connectProps, users_plus]) f2 hk hv
    refine ⟨⟨f1, key.1, f3, f4⟩, ⟨key.2.1, m2, m3⟩, fun h => .inl h, ?_⟩
    have := key.2.2
    have e1 : (connectFlags { c with properties := some { c.properties.getD (connectOf []) with
        user_properties := (c.properties.getD (connectOf [])).user_properties ++ [(k, v)] } }) = connectFlags c := rfl
    simp only [tag, body, List.length_append, e1] at this ⊢
    omega
  | ConnAck c =>
    have key := insert_set connackProps c.properties _ { c.properties.getD (connackOf []) with
        user_properties := (c.properties.getD (connackOf [])).user_properties ++ [(k, v)] } (connackOf []) (by decide) rfl
      (opt 17 .u32 (c.properties.getD (connackOf [])).session_expiry_interval
        ++ opt 33 .u16 (c.properties.getD (connackOf [])).receive_max ++ opt 36 .u8 (c.properties.getD (connackOf [])).max_qos
        ++ opt 37 .u8 (c.properties.getD (connackOf [])).retain_available
        ++ opt 39 .u32 (c.properties.getD (connackOf [])).max_packet_size
        ++ opt 18 .str (c.properties.getD (connackOf [])).assigned_client_identifier
        ++ opt 34 .u16 (c.properties.getD (connackOf [])).topic_alias_max
        ++ opt 31 .str (c.properties.getD (connackOf [])).reason_string
        ++ users (c.properties.getD (connackOf [])).user_properties)
      (opt 40 .u8 (c.properties.getD (connackOf [])).wildcard_subscription_available
        ++ opt 41 .u8 (c.properties.getD (connackOf [])).subscription_identifiers_available
        ++ opt 42 .u8 (c.properties.getD (connackOf [])).shared_subscription_available
        ++ opt 19 .u16 (c.properties.getD (connackOf [])).server_keep_alive
        ++ opt 26 .str (c.properties.getD (connackOf [])).response_information
        ++ opt 28 .str (c.properties.getD (connackOf [])).server_reference
        ++ opt 21 .str (c.properties.getD (connackOf [])).authentication_method
        ++ opt 22 .bin (c.properties.getD (connackOf [])).authentication_data) k v (by simp [connackProps])
      (by simp [connackProps, users_plus]) hf hk hv
    refine ⟨key.1, key.2.1, fun _ => by simp [tag, ReadsBack], ?_⟩
    have := key.2.2
    simp only [tag, body, List.length_append, u8_len] at this ⊢
    omega
  | Publish p =>
    obtain ⟨f1, f2⟩ := hf
    obtain ⟨m1, m2⟩ := hm
    have hA : publishProps (p.properties.getD (publishOf [])) =
      (opt 1 .u8 (p.properties.getD (publishOf [])).payload_format_indicator
        ++ opt 2 .u32 (p.properties.getD (publishOf [])).message_expiry_interval
        ++ opt 35 .u16 (p.properties.getD (publishOf [])).topic_alias
        ++ opt 8 .str (p.properties.getD (publishOf [])).response_topic
        ++ opt 9 .bin (p.properties.getD (publishOf [])).correlation_data
        ++ users (p.properties.getD (publishOf [])).user_properties)
      ++ ((p.properties.getD (publishOf [])).subscription_identifiers.map (fun n => ⟨11, .vbi n⟩)
        ++ opt 3 .str (p.properties.getD (publishOf [])).content_type) := by simp [publishProps]
    have hB : publishProps { p.properties.getD (publishOf []) with
        user_properties := (p.properties.getD (publishOf [])).user_properties ++ [(k, v)] } =
      (opt 1 .u8 (p.properties.getD (publishOf [])).payload_format_indicator
        ++ opt 2 .u32 (p.properties.getD (publishOf [])).message_expiry_interval
        ++ opt 35 .u16 (p.properties.getD (publishOf [])).topic_alias
        ++ opt 8 .str (p.properties.getD (publishOf [])).response_topic
        ++ opt 9 .bin (p.properties.getD (publishOf [])).correlation_data
        ++ users (p.properties.getD (publishOf [])).user_properties)
      ++ ⟨38, .pair k v⟩ :: ((p.properties.getD (publishOf [])).subscription_identifiers.map (fun n => ⟨11, .vbi n⟩)
        ++ opt 3 .str (p.properties.getD (publishOf [])).content_type) := by simp [publishProps, users_plus]
    have key := insert_set publishProps p.properties _ { p.properties.getD (publishOf []) with
        user_properties := (p.properties.getD (publishOf [])).user_properties ++ [(k, v)] } (publishOf []) (by decide) rfl
      _ _ k v hA hB f2 hk hv
    refine ⟨⟨f1, key.1⟩, ⟨key.2.1, m2⟩, ?_, ?_⟩
    · intro hr q hq
      cases hq
      rw [hB]
      refine readable_insert _ _ _ ?_ (by simp [vbis, Val.kind]) ?_
      · simp only [V5.vbis_append, vbis_users]
        generalize p.properties.getD (publishOf []) = q
        cases q.payload_format_indicator <;> cases q.message_expiry_interval <;> cases q.topic_alias <;>
          cases q.response_topic <;> cases q.correlation_data <;> simp [opt, vbis, Val.kind]
      · rw [← hA]
        cases hp : p.properties with
        | none =>
          intro a b e hb
          have : publishProps ((none : Option V5.PublishProperties).getD (publishOf [])) = [] := by decide
          rw [this] at e
          exact absurd (List.append_eq_nil_iff.1 e.symm).2 hb
        | some r => exact hr r hp
    · have := key.2.2
      simp only [tag, body, List.length_append] at this ⊢
      omega
  | PubAck a => exact ack _ a hf
  | PubRec a => exact ack _ a hf
  | PubRel a => exact ack _ a hf
  | PubComp a => exact ack _ a hf
  | Subscribe s =>
    obtain ⟨f1, f2⟩ := hf
    have key := insert_set subscribeProps s.properties _ { s.properties.getD (subscribeOf []) with
        user_properties := (s.properties.getD (subscribeOf [])).user_properties ++ [(k, v)] } (subscribeOf []) (by decide) rfl
      (opt 11 .vbi (s.properties.getD (subscribeOf [])).id ++ users (s.properties.getD (subscribeOf [])).user_properties)
      [] k v (by simp [subscribeProps]) (by simp [subscribeProps, users_plus]) f1 hk hv
    refine ⟨⟨key.1, f2⟩, key.2.1, fun _ => trivial, ?_⟩
    have := key.2.2
    simp only [tag, body, List.length_append] at this ⊢
    omega
  | SubAck s =>
    have key := reason s.properties hf
    refine ⟨key.1, ⟨key.2.1, hm.2⟩, fun _ => trivial, ?_⟩
    have := key.2.2
    simp only [tag, body, List.length_append] at this ⊢
    omega
  | Unsubscribe u =>
    obtain ⟨f1, f2⟩ := hf
    have key := insert_set unsubscribeProps u.properties _ { u.properties.getD (unsubscribeOf []) with
        user_properties := (u.properties.getD (unsubscribeOf [])).user_properties ++ [(k, v)] } (unsubscribeOf []) (by decide) rfl
      (users (u.properties.getD (unsubscribeOf [])).user_properties)
      [] k v (by simp [unsubscribeProps]) (by simp [unsubscribeProps, users_plus]) f1 hk hv
    refine ⟨⟨key.1, f2⟩, key.2.1, fun _ => trivial, ?_⟩
    have := key.2.2
    simp only [tag, body, List.length_append] at this ⊢
    omega
  | UnsubAck u =>
    have key := reason u.properties hf
    refine ⟨key.1, ⟨key.2.1, hm.2⟩, fun _ => trivial, ?_⟩
    have := key.2.2
    simp only [tag, body, List.length_append] at this ⊢
    omega
  | PingReq => exact ⟨trivial, trivial, fun _ => trivial, by simp [tag, body]⟩
  | PingResp => exact ⟨trivial, trivial, fun _ => trivial, by simp [tag, body]⟩
  | Disconnect d =>
    have key := insert_set disconnectProps d.properties _ { d.properties.getD (disconnectOf []) with
        user_properties := (d.properties.getD (disconnectOf [])).user_properties ++ [(k, v)] } (disconnectOf []) (by decide) rfl
      (opt 17 .u32 (d.properties.getD (disconnectOf [])).session_expiry_interval
        ++ opt 31 .str (d.properties.getD (disconnectOf [])).reason_string
        ++ users (d.properties.getD (disconnectOf [])).user_properties)
      (opt 28 .str (d.properties.getD (disconnectOf [])).server_reference) k v (by simp [disconnectProps])
      (by simp [disconnectProps, users_plus]) hf hk hv
    refine ⟨key.1, key.2.1, fun _ => by simp [tag, ReadsBack], ?_⟩
    have := key.2.2
    have e2 : (optSec disconnectProps d.properties).length ≤ (body (.Disconnect d)).length + 1 := by
      unfold body
      cases hp : d.properties with
      | none =>
        have e : (optSec disconnectProps none).length = 1 := by decide
        rw [e]; omega
      | some r => simp only [hp, optSec, List.length_append, u8_len]; omega
    have e1 : ∀ r, (body (.Disconnect { d with properties := some r })).length = 1 + (optSec disconnectProps (some r)).length := by
      intro r
      simp only [body, optSec, List.length_append, u8_len]
    refine Nat.le_trans (Nat.le_of_eq (e1 _)) (Nat.le_trans (Nat.add_le_add_left key.2.2 1) ?_)
    omega
where
  reason (o : Option V5.ReasonProps) (hf : PropsFit reasonProps o) :
      PropsFit reasonProps (some { o.getD (reasonOf []) with user_properties := (o.getD (reasonOf [])).user_properties ++ [(k, v)] }) ∧
      NonEmpty reasonProps (some { o.getD (reasonOf []) with user_properties := (o.getD (reasonOf [])).user_properties ++ [(k, v)] }) ∧
      (optSec reasonProps (some { o.getD (reasonOf []) with user_properties := (o.getD (reasonOf [])).user_properties ++ [(k, v)] })).length
        ≤ (optSec reasonProps o).length + (8 + (utf8 k).length + (utf8 v).length) :=
    insert_set reasonProps o _ _ (reasonOf []) (by decide) rfl
      (opt 31 .str (o.getD (reasonOf [])).reason_string ++ users (o.getD (reasonOf [])).user_properties) [] k v
      (by simp [reasonProps]) (by simp [reasonProps, users_plus]) hf hk hv
  ack {R : Type} (code : R → Nat) (a : V5.Ack R) (hf : PropsFit reasonProps a.properties) :
      PropsFit reasonProps (some { a.properties.getD (reasonOf []) with
        user_properties := (a.properties.getD (reasonOf [])).user_properties ++ [(k, v)] }) ∧
      NonEmpty reasonProps (some { a.properties.getD (reasonOf []) with
        user_properties := (a.properties.getD (reasonOf [])).user_properties ++ [(k, v)] }) ∧ (True → True) ∧
      (ackBody code { a with properties := some { a.properties.getD (reasonOf []) with
        user_properties := (a.properties.getD (reasonOf [])).user_properties ++ [(k, v)] } }).length
        ≤ (ackBody code a).length + (10 + (utf8 k).length + (utf8 v).length) := by
    have key := reason a.properties hf
    refine ⟨key.1, key.2.1, id, ?_⟩
    have := key.2.2
    have e2 : 2 + (optSec reasonProps a.properties).length ≤ (ackBody code a).length + 1 := by
      unfold ackBody
      cases a.properties with
      | none =>
        have e : (optSec reasonProps none).length = 1 := by decide
        simp only [e, List.length_append, u16_len]; omega
      | some r => simp only [optSec, List.length_append, u16_len, u8_len]; omega
    have e1 : ∀ r, (ackBody code { a with properties := some r }).length = 3 + (optSec reasonProps (some r)).length := by
      intro r
      simp only [ackBody, optSec, List.length_append, u16_len, u8_len]; omega
    rw [e1]
    omega

/-- C132: a user property can be added to every packet whose fields fit (as all do that were read, C57), unless it becomes too
long for a frame (five bytes and the two texts, and at most five for a reason code and the property length): it is written, and
read back as it is, except a CONNECT of level 4 and a PUBLISH that does not come back without it either. -/
theorem C132_tag (k v : String) (hk : (utf8 k).length ≤ 65535) (hv : (utf8 v).length ≤ 65535) (p : V5.Packet) (hf : FieldsFit p)
    (hm : Meaningful p) (hl : (body p).length + (10 + (utf8 k).length + (utf8 v).length) ≤ 268435455) :
    ∃ n bytes, (tag k v p).write [] = (.ok n, bytes) ∧
      (TagReadsBack p → ∀ max, (body p).length + (10 + (utf8 k).length + (utf8 v).length) ≤ max →
        ∀ more, V5.read max (bytes ++ more) = (.ok (tag k v p), more)) := by
  obtain ⟨h1, h2, h3, h4⟩ := tag_wf k v (by exact hk) (by exact hv) p hf hm
  have hwf : WF (tag k v p) := ⟨h1, h2, by unfold maxRemaining; omega⟩
  obtain ⟨n, hn⟩ := V5.write_empty _ hwf (by cases p <;> simp [tag] <;> rintro c rfl <;> simp)
  exact ⟨n, _, hn, fun hr max hmax more => V5.read_encode _ hwf (h3 hr) max (by omega) more⟩

/-- adding a user property even makes a CONNACK readable that is not (C34) -/
example : ∃ n bytes, (V5.Packet.ConnAck ⟨true, .Success, some ⟨none, none, none, none, none, none, none, none, [("a", "b")],
      none, none, none, none, none, none, none, none⟩⟩).write [] = (.ok n, bytes) ∧ (True → ∀ max, 2 + 1 + 12 ≤ max →
    ∀ more, V5.read max (bytes ++ more) = (.ok (.ConnAck ⟨true, .Success, some ⟨none, none, none, none, none, none, none, none,
      [("a", "b")], none, none, none, none, none, none, none, none⟩⟩), more)) :=
  C132_tag "a" "b" (by decide) (by decide) (.ConnAck ⟨true, .Success, none⟩) (by intro p hp; cases hp) (by intro p hp; cases hp)
    (by decide)

/-- both exceptions are: a CONNECT of level 4, and a PUBLISH with three subscription identifiers at the end -/
example : (tag "a" "b" (.Connect ⟨.V4, 9, "A", true, none, none, none⟩)).write []
      = (.ok 21, [16, 21, 0, 4, 77, 81, 84, 84, 4, 2, 0, 9, 7, 38, 0, 1, 97, 0, 1, 98, 0, 1, 65]) ∧
    (V5.read 99 [16, 21, 0, 4, 77, 81, 84, 84, 4, 2, 0, 9, 7, 38, 0, 1, 97, 0, 1, 98, 0, 1, 65]).1
      ≠ .ok (tag "a" "b" (.Connect ⟨.V4, 9, "A", true, none, none, none⟩)) := by decide +kernel
example : (tag "a" "b" (.Publish ⟨false, .AtMostOnce, false, "", 0, some ⟨none, none, none, none, none, [], [1, 2, 3], none⟩, []⟩)).write []
      = (.ok 18, [48, 16, 0, 0, 13, 38, 0, 1, 97, 0, 1, 98, 11, 1, 11, 2, 11, 3]) ∧
    (V5.read 99 [48, 16, 0, 0, 13, 38, 0, 1, 97, 0, 1, 98, 11, 1, 11, 2, 11, 3]).1
      ≠ .ok (tag "a" "b" (.Publish ⟨false, .AtMostOnce, false, "", 0, some ⟨none, none, none, none, none, [], [1, 2, 3], none⟩, []⟩)) := by
  decide +kernel

end Props
