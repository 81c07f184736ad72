import Verif.Model.V5Shared
/-! Each v5 acknowledgement file's functions are instances of the shared text. -/
namespace Mqtt.V5
open Mqtt

theorem PubAckProperties.len_eq : PubAckProperties.len = ReasonProps.len := rfl
theorem PubAckProperties.step_eq : PubAckProperties.step = ReasonProps.step := rfl
theorem PubAckProperties.extract_eq : PubAckProperties.extract = ReasonProps.extract := rfl
theorem PubAckProperties.write_eq : PubAckProperties.write = ReasonProps.write := rfl
theorem PubRecProperties.len_eq : PubRecProperties.len = ReasonProps.len := rfl
theorem PubRecProperties.step_eq : PubRecProperties.step = ReasonProps.step := rfl
theorem PubRecProperties.extract_eq : PubRecProperties.extract = ReasonProps.extract := rfl
theorem PubRecProperties.write_eq : PubRecProperties.write = ReasonProps.write := rfl
theorem PubRelProperties.len_eq : PubRelProperties.len = ReasonProps.len := rfl
theorem PubRelProperties.step_eq : PubRelProperties.step = ReasonProps.step := rfl
theorem PubRelProperties.extract_eq : PubRelProperties.extract = ReasonProps.extract := rfl
theorem PubRelProperties.write_eq : PubRelProperties.write = ReasonProps.write := rfl
theorem PubCompProperties.len_eq : PubCompProperties.len = ReasonProps.len := rfl
theorem PubCompProperties.step_eq : PubCompProperties.step = ReasonProps.step := rfl
theorem PubCompProperties.extract_eq : PubCompProperties.extract = ReasonProps.extract := rfl
theorem PubCompProperties.write_eq : PubCompProperties.write = ReasonProps.write := rfl
theorem SubAckProperties.len_eq : SubAckProperties.len = ReasonProps.len := rfl
theorem SubAckProperties.step_eq : SubAckProperties.step = ReasonProps.step := rfl
theorem SubAckProperties.extract_eq : SubAckProperties.extract = ReasonProps.extract := rfl
theorem SubAckProperties.write_eq : SubAckProperties.write = ReasonProps.write := rfl
theorem UnsubAckProperties.len_eq : UnsubAckProperties.len = ReasonProps.len := rfl
theorem UnsubAckProperties.step_eq : UnsubAckProperties.step = ReasonProps.step := rfl
theorem UnsubAckProperties.extract_eq : UnsubAckProperties.extract = ReasonProps.extract := rfl
theorem UnsubAckProperties.write_eq : UnsubAckProperties.write = ReasonProps.write := rfl
theorem PubAck.len_eq : PubAck.len = Ack.len .Success := rfl
theorem PubAck.readM_eq : PubAck.readM = Ack.readM .Success PubAckReason.reason := rfl
theorem PubAck.write_eq : PubAck.write = Ack.write 0x40 .Success PubAckReason.toU8 := rfl
theorem PubRec.len_eq : PubRec.len = Ack.len .Success := rfl
theorem PubRec.readM_eq : PubRec.readM = Ack.readM .Success PubRecReason.reason := rfl
theorem PubRec.write_eq : PubRec.write = Ack.write 0x50 .Success PubRecReason.toU8 := rfl
theorem PubRel.len_eq : PubRel.len = Ack.len .Success := rfl
theorem PubRel.readM_eq : PubRel.readM = Ack.readM .Success PubRelReason.reason := rfl
theorem PubRel.write_eq : PubRel.write = Ack.write 0x62 .Success PubRelReason.toU8 := rfl
theorem PubComp.len_eq : PubComp.len = Ack.len .Success := rfl
theorem PubComp.readM_eq : PubComp.readM = Ack.readM .Success PubCompReason.reason := rfl
theorem PubComp.write_eq : PubComp.write = Ack.write 0x70 .Success PubCompReason.toU8 := rfl

end Mqtt.V5
