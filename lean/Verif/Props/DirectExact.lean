import Verif.Spec.Terms
import Verif.Props.Direct
import Verif.Proof.V4Errors
import Verif.Proof.V5Errors
/-! C73, C74: public parsing functions below `read`, called directly. -/
namespace Props
open Mqtt Spec

theorem fst_ok {α : Type} {x : Res α × Bytes} {a : α} : x.1 = .ok a ↔ ∃ r, x = (.ok a, r) := by
  obtain ⟨x, r⟩ := x; simp

/-- C73: `extract` of the property sets -/
theorem C73_extract :
    Extracts V5.PubAckProperties.extract Spec.V5.reasonKind Spec.V5.reasonOf ∧
    Extracts V5.PubRecProperties.extract Spec.V5.reasonKind Spec.V5.reasonOf ∧
    Extracts V5.PubRelProperties.extract Spec.V5.reasonKind Spec.V5.reasonOf ∧
    Extracts V5.PubCompProperties.extract Spec.V5.reasonKind Spec.V5.reasonOf ∧
    Extracts V5.SubAckProperties.extract Spec.V5.reasonKind Spec.V5.reasonOf ∧
    Extracts V5.UnsubAckProperties.extract Spec.V5.reasonKind Spec.V5.reasonOf ∧
    Extracts V5.WillProperties.read Spec.V5.willKind Spec.V5.willOf ∧
    Extracts V5.ConnectProperties.read Spec.V5.connectKind Spec.V5.connectOf ∧
    Extracts V5.ConnAckProperties.extract Spec.V5.connackKind Spec.V5.connackOf ∧
    Extracts V5.PublishProperties.extract Spec.V5.publishKind Spec.V5.publishOf ∧
    Extracts V5.SubscribeProperties.extract Spec.V5.subscribeKind Spec.V5.subscribeOf ∧
    Extracts V5.UnsubscribeProperties.extract Spec.V5.unsubscribeKind Spec.V5.unsubscribeOf ∧
    Extracts V5.DisconnectProperties.extract Spec.V5.disconnectKind Spec.V5.disconnectOf :=
  have hr : Extracts V5.ReasonProps.extract Spec.V5.reasonKind Spec.V5.reasonOf := fun s hb =>
    ⟨fun o s' => V5.reason_extract_iff s s' hb o, fun e => V5.extractProps_err V5.reason_gen s e hb⟩
  ⟨hr, hr, hr, hr, hr, hr,
   fun s hb => ⟨fun o s' => V5.will_extract_iff s s' hb o, fun e => V5.extractProps_err V5.will_gen s e hb⟩,
   fun s hb => ⟨fun o s' => V5.connect_extract_iff s s' hb o, fun e => V5.extractProps_err V5.connect_gen s e hb⟩,
   fun s hb => ⟨fun o s' => V5.connack_extract_iff s s' hb o, fun e => V5.extractProps_err V5.connack_gen s e hb⟩,
   fun s hb => ⟨fun o s' => V5.publish_extract_iff s s' hb o, fun e => V5.extractProps_err V5.publish_gen s e hb⟩,
   fun s hb => ⟨fun o s' => V5.subscribe_extract_iff s s' hb o, fun e => V5.extractProps_err V5.subscribe_gen s e hb⟩,
   fun s hb => ⟨fun o s' => V5.unsubscribe_extract_iff s s' hb o, fun e => V5.extractProps_err V5.unsubscribe_gen s e hb⟩,
   fun s hb => ⟨fun o s' => V5.disconnect_extract_iff s s' hb o, fun e => V5.extractProps_err V5.disconnect_gen s e hb⟩⟩

/-- a reason string, then two more bytes -/
example : V5.UnsubAckProperties.extract [4, 31, 0, 1, 97, 8, 9] = (.ok (some ⟨some "a", []⟩), [8, 9]) := by decide +kernel
/-- no identifier where one is due -/
example : (V5.PubRecProperties.extract [4]).1 = .err .MalformedPacket := by decide +kernel
example : [4, 31, 0, 1, 97, 8, 9].length ≤ maxRemaining := by decide

theorem publish_bits (b : UInt8) : (UInt8.ofNat (0x30 + b.toNat % 16)) &&& 6 = b &&& 6
    ∧ (UInt8.ofNat (0x30 + b.toNat % 16)) &&& 8 = b &&& 8 ∧ (UInt8.ofNat (0x30 + b.toNat % 16)) &&& 1 = b &&& 1
    ∧ (UInt8.ofNat (0x30 + b.toNat % 16)).toNat / 16 = 3 := by
  revert b; exact forall_u8 (by decide +kernel)

theorem v4_publish_direct (h : FixedHeader) (hd bd : Bytes) (hh : hd.length = h.fixed_header_len) (a : V4.Publish) :
    (∃ r, V4.Publish.readM h (hd ++ bd) = (.ok a, r)) ↔
      Spec.V4.Denotes (UInt8.ofNat (0x30 + h.byte1.toNat % 16)) bd (.Publish a) := by
  obtain ⟨h6, h8, h1, h3⟩ := publish_bits h.byte1
  refine Iff.trans ?_ (V4.Publish.read_iff
    ⟨UInt8.ofNat (0x30 + h.byte1.toNat % 16), h.fixed_header_len, h.remaining_len⟩ hd bd hh h3 a)
  unfold V4.Publish.readM
  simp only [h6, h8, h1]

theorem v5_publish_direct (h : FixedHeader) (hd bd : Bytes) (hh : hd.length = h.fixed_header_len)
    (hb : bd.length ≤ maxRemaining) (a : V5.Publish) :
    (∃ r, V5.Publish.readM h (hd ++ bd) = (.ok a, r)) ↔
      Spec.V5.Denotes (UInt8.ofNat (0x30 + h.byte1.toNat % 16)) bd (.Publish a) := by
  obtain ⟨h6, h8, h1, h3⟩ := publish_bits h.byte1
  refine Iff.trans ?_ (V5.Publish.read_iff
    ⟨UInt8.ofNat (0x30 + h.byte1.toNat % 16), h.fixed_header_len, h.remaining_len⟩ hd bd hh hb h3 a)
  unfold V5.Publish.readM
  simp only [h6, h8, h1]

/-- C74 (v4): the packets' own `read`.  Most ignore the type and the length in the header; PUBLISH takes its flags
from the first byte whatever the type. -/
theorem C74_v4_direct_read_exact :
    ReadsExactly V4.Connect.readM anyHeader (fun _ bd c => Spec.V4.Denotes 0x10 bd (.Connect c))
      (fun _ bd e => Spec.V4.ConnectFails bd e) ∧
    ReadsExactly V4.ConnAck.readM anyHeader (fun _ bd c => Spec.V4.Denotes 0x20 bd (.ConnAck c))
      (fun _ bd e => Spec.V4.ConnAckFails bd e) ∧
    ReadsExactly V4.Publish.readM anyHeader
      (fun b1 bd p => Spec.V4.Denotes (UInt8.ofNat (0x30 + b1.toNat % 16)) bd (.Publish p))
      (fun b1 bd e => Spec.V4.PublishFails b1 bd e) ∧
    ReadsExactly V4.PubAck.readM anyHeader (fun _ bd c => Spec.V4.Denotes 0x40 bd (.PubAck c))
      (fun _ bd e => Spec.U16Fails bd e) ∧
    ReadsExactly V4.PubRec.readM anyHeader (fun _ bd c => Spec.V4.Denotes 0x50 bd (.PubRec c))
      (fun _ bd e => Spec.U16Fails bd e) ∧
    ReadsExactly V4.PubRel.readM anyHeader (fun _ bd c => Spec.V4.Denotes 0x62 bd (.PubRel c))
      (fun _ bd e => Spec.U16Fails bd e) ∧
    ReadsExactly V4.PubComp.readM anyHeader (fun _ bd c => Spec.V4.Denotes 0x70 bd (.PubComp c))
      (fun _ bd e => Spec.U16Fails bd e) ∧
    ReadsExactly V4.Subscribe.readM anyHeader (fun _ bd c => Spec.V4.Denotes 0x82 bd (.Subscribe c))
      (fun _ bd e => Spec.V4.SubscribeFails bd e) ∧
    ReadsExactly V4.SubAck.readM anyHeader (fun _ bd c => Spec.V4.Denotes 0x90 bd (.SubAck c))
      (fun _ bd e => Spec.V4.SubAckFails bd e) ∧
    ReadsExactly V4.Unsubscribe.readM rightLength (fun _ bd c => Spec.V4.Denotes 0xA2 bd (.Unsubscribe c))
      (fun _ bd e => Spec.V4.UnsubscribeFails bd e) ∧
    ReadsExactly V4.UnsubAck.readM rightLength (fun _ bd c => Spec.V4.Denotes 0xB0 bd (.UnsubAck c))
      (fun _ bd e => bd.length ≠ 2 ∧ e = .PayloadSizeIncorrect) := by
  refine ⟨?_, ?_, ?_, ?_, ?_, ?_, ?_, ?_, ?_, ?_, ?_⟩ <;> intro h hd bd hh hb g <;> refine ⟨fun a => ?_, fun e => ?_⟩
  all_goals try rw [fst_ok]
  · exact (V4.Connect.read_iff h hd bd hh a).trans ⟨fun x => ⟨rfl, x⟩, fun x => x.2⟩
  · exact V4.Connect.read_err h hd bd hh e
  · exact (V4.ConnAck.read_iff h hd bd hh a).trans ⟨fun x => ⟨rfl, x⟩, fun x => x.2⟩
  · exact V4.ConnAck.read_err h hd bd hh e
  · exact v4_publish_direct h hd bd hh a
  · exact V4.Publish.read_err h hd bd hh e
  · exact (V4.PubAck.read_iff h hd bd hh a).trans ⟨fun x => ⟨rfl, x⟩, fun x => x.2⟩
  · exact V4.PubAck.read_err h hd bd hh e
  · exact (V4.PubRec.read_iff h hd bd hh a).trans ⟨fun x => ⟨rfl, x⟩, fun x => x.2⟩
  · exact V4.PubRec.read_err h hd bd hh e
  · exact (V4.PubRel.read_iff h hd bd hh a).trans ⟨fun x => ⟨rfl, x⟩, fun x => x.2⟩
  · exact V4.PubRel.read_err h hd bd hh e
  · exact (V4.PubComp.read_iff h hd bd hh a).trans ⟨fun x => ⟨rfl, x⟩, fun x => x.2⟩
  · exact V4.PubComp.read_err h hd bd hh e
  · exact (V4.Subscribe.read_iff h hd bd hh a).trans ⟨fun x => ⟨rfl, x⟩, fun x => x.2⟩
  · exact V4.Subscribe.read_err h hd bd hh e
  · exact (V4.SubAck.read_iff h hd bd hh a).trans ⟨fun x => ⟨rfl, x⟩, fun x => x.2⟩
  · exact V4.SubAck.read_err h hd bd hh e
  · exact (V4.Unsubscribe.read_iff h hd bd hh g a).trans ⟨fun x => ⟨rfl, x⟩, fun x => x.2⟩
  · exact V4.Unsubscribe.read_err h hd bd hh e g
  · exact (V4.UnsubAck.read_iff h hd bd hh g a).trans ⟨fun x => ⟨rfl, x⟩, fun x => x.2⟩
  · exact V4.UnsubAck.read_err h hd bd hh e g

/-- C74 (v5): the packets' own `read`.  The acknowledgements need the right length in the header; DISCONNECT checks
type and flags and takes a nonzero length. -/
theorem C74_v5_direct_read_exact :
    ReadsExactly V5.Connect.readM anyHeader (fun _ bd c => Spec.V5.Denotes 0x10 bd (.Connect c))
      (fun _ bd e => Spec.V5.ConnectFails bd e) ∧
    ReadsExactly V5.ConnAck.readM anyHeader (fun _ bd c => Spec.V5.Denotes 0x20 bd (.ConnAck c))
      (fun _ bd e => Spec.V5.ConnAckFails bd e) ∧
    ReadsExactly V5.Publish.readM anyHeader
      (fun b1 bd p => Spec.V5.Denotes (UInt8.ofNat (0x30 + b1.toNat % 16)) bd (.Publish p))
      (fun b1 bd e => Spec.V5.PublishFails b1 bd e) ∧
    ReadsExactly V5.PubAck.readM rightLength (fun _ bd c => Spec.V5.Denotes 0x40 bd (.PubAck c))
      (fun _ bd e => Spec.V5.AckFails Spec.V5.pubackCode bd e) ∧
    ReadsExactly V5.PubRec.readM rightLength (fun _ bd c => Spec.V5.Denotes 0x50 bd (.PubRec c))
      (fun _ bd e => Spec.V5.AckFails Spec.V5.pubrecCode bd e) ∧
    ReadsExactly V5.PubRel.readM rightLength (fun _ bd c => Spec.V5.Denotes 0x62 bd (.PubRel c))
      (fun _ bd e => Spec.V5.AckFails Spec.V5.pubrelCode bd e) ∧
    ReadsExactly V5.PubComp.readM rightLength (fun _ bd c => Spec.V5.Denotes 0x70 bd (.PubComp c))
      (fun _ bd e => Spec.V5.AckFails Spec.V5.pubcompCode bd e) ∧
    ReadsExactly V5.Subscribe.readM anyHeader (fun _ bd c => Spec.V5.Denotes 0x82 bd (.Subscribe c))
      (fun _ bd e => Spec.V5.SubscribeFails bd e) ∧
    ReadsExactly V5.SubAck.readM anyHeader (fun _ bd c => Spec.V5.Denotes 0x90 bd (.SubAck c))
      (fun _ bd e => Spec.V5.CodesFail Spec.V5.subCode bd e) ∧
    ReadsExactly V5.Unsubscribe.readM anyHeader (fun _ bd c => Spec.V5.Denotes 0xA2 bd (.Unsubscribe c))
      (fun _ bd e => Spec.V5.UnsubscribeFails bd e) ∧
    ReadsExactly V5.UnsubAck.readM anyHeader (fun _ bd c => Spec.V5.Denotes 0xB0 bd (.UnsubAck c))
      (fun _ bd e => Spec.V5.CodesFail Spec.V5.unsubCode bd e) ∧
    ReadsExactly V5.Disconnect.readM (fun h bd => rightLength h bd ∧ bd ≠ [] ∧ h.byte1.toNat / 16 = 14)
      (fun b1 bd c => Spec.V5.Denotes b1 bd (.Disconnect c))
      (fun b1 bd e => Spec.V5.DisconnectFails b1 bd e) := by
  refine ⟨?_, ?_, ?_, ?_, ?_, ?_, ?_, ?_, ?_, ?_, ?_, ?_⟩ <;> intro h hd bd hh hb g <;> refine ⟨fun a => ?_, fun e => ?_⟩
  all_goals try rw [fst_ok]
  · exact (V5.Connect.read_iff h hd bd hh hb a).trans
      (Iff.trans ⟨fun x => ⟨rfl, x⟩, fun x => x.2⟩ (V5.denotes_connect bd 0x10 a).symm)
  · exact V5.Connect.read_err h hd bd hh hb e
  · exact (V5.ConnAck.read_iff h hd bd hh hb a).trans ⟨fun x => ⟨rfl, x⟩, fun x => x.2⟩
  · exact V5.ConnAck.read_err h hd bd hh hb e
  · exact v5_publish_direct h hd bd hh hb a
  · exact V5.Publish.read_err h hd bd hh hb e
  · exact (V5.Ack.read_iff h hd bd hh hb V5.puback_reason_iff V5.puback_zero g a).trans ⟨fun x => ⟨rfl, x⟩, fun x => x.2⟩
  · exact V5.Ack.read_err h hd bd hh hb e V5.puback_reason_iff V5.puback_reason_err g
  · exact (V5.Ack.read_iff h hd bd hh hb V5.pubrec_reason_iff V5.pubrec_zero g a).trans ⟨fun x => ⟨rfl, x⟩, fun x => x.2⟩
  · exact V5.Ack.read_err h hd bd hh hb e V5.pubrec_reason_iff V5.pubrec_reason_err g
  · exact (V5.Ack.read_iff h hd bd hh hb V5.pubrel_reason_iff V5.pubrel_zero g a).trans ⟨fun x => ⟨rfl, x⟩, fun x => x.2⟩
  · exact V5.Ack.read_err h hd bd hh hb e V5.pubrel_reason_iff V5.pubrel_reason_err g
  · exact (V5.Ack.read_iff h hd bd hh hb V5.pubcomp_reason_iff V5.pubcomp_zero g a).trans ⟨fun x => ⟨rfl, x⟩, fun x => x.2⟩
  · exact V5.Ack.read_err h hd bd hh hb e V5.pubcomp_reason_iff V5.pubcomp_reason_err g
  · exact (V5.Subscribe.read_iff h hd bd hh hb a).trans ⟨fun x => ⟨rfl, x⟩, fun x => x.2⟩
  · exact V5.Subscribe.read_err h hd bd hh hb e
  · exact (V5.SubAck.read_iff h hd bd hh hb a).trans ⟨fun x => ⟨rfl, x⟩, fun x => x.2⟩
  · exact V5.SubAck.read_err h hd bd hh hb e
  · exact (V5.Unsubscribe.read_iff h hd bd hh hb a).trans ⟨fun x => ⟨rfl, x⟩, fun x => x.2⟩
  · exact V5.Unsubscribe.read_err h hd bd hh hb e
  · exact (V5.UnsubAck.read_iff h hd bd hh hb a).trans ⟨fun x => ⟨rfl, x⟩, fun x => x.2⟩
  · exact V5.UnsubAck.read_err h hd bd hh hb e
  · obtain ⟨g1, g2, g3⟩ := g
    exact V5.Disconnect.read_iff h hd bd hh hb g3 (by
      rw [show h.remaining_len = bd.length from g1]; exact fun x => g2 (List.eq_nil_of_length_eq_zero x)) a
  · obtain ⟨g1, g2, g3⟩ := g
    exact V5.Disconnect.read_err h hd bd hh hb e g3 g2 g1

/-- a PUBACK header (with a wrong length) in front of the body of a SUBACK: `SubAck::read` reads it -/
example : (V4.SubAck.readM ⟨0x40, 2, 77⟩ ([0x40, 77] ++ [0, 7, 1])).1 = .ok ⟨7, [.Success .AtLeastOnce]⟩ := by
  decide +kernel
example : anyHeader ⟨0x40, 2, 77⟩ [0, 7, 1] ∧ rightLength ⟨0xB0, 2, 2⟩ [0, 7] := ⟨trivial, rfl⟩

end Props
