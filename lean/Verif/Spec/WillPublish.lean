import Verif.Spec.V4
import Verif.Spec.V5
/-! The message a server publishes for a client's will (3.1.1: 3.1.2.5, 5.0: 3.1.2.5 and 3.1.3.2). -/
namespace Spec
open Mqtt

/-- 3.1.1: the will as PUBLISH with a packet identifier -/
def V4.willPublish (w : Mqtt.V4.LastWill) (pkid : UInt16) : Mqtt.V4.Publish :=
  { dup := false, qos := w.qos, retain := w.retain, topic := w.topic, pkid := pkid, payload := w.message }

/-- 5.0: the properties of the message are those of the will without the delay interval -/
def V5.messageProps (w : Mqtt.V5.WillProperties) : Mqtt.V5.PublishProperties :=
  { payload_format_indicator := w.payload_format_indicator, message_expiry_interval := w.message_expiry_interval,
    topic_alias := none, response_topic := w.response_topic, correlation_data := w.correlation_data,
    user_properties := w.user_properties, subscription_identifiers := [], content_type := w.content_type }

/-- no property is set -/
def V5.noMessageProps : Mqtt.V5.PublishProperties :=
  { payload_format_indicator := none, message_expiry_interval := none, topic_alias := none, response_topic := none,
    correlation_data := none, user_properties := [], subscription_identifiers := [], content_type := none }

/-- 5.0: the will as PUBLISH with a packet identifier; without properties if there is nothing but a delay interval -/
def V5.willPublish (w : Mqtt.V5.LastWill) (pkid : UInt16) : Mqtt.V5.Publish :=
  { dup := false, qos := w.qos, retain := w.retain, topic := w.topic, pkid := pkid, payload := w.message,
    properties := match w.properties with
      | none => none
      | some p => if V5.messageProps p = V5.noMessageProps then none else some (V5.messageProps p) }

end Spec
