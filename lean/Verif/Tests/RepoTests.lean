import Verif.Model.V4
import Verif.Model.V5Packets
import Verif.Model.Topic
/-! Conformance of the model: the unit tests of /repo, transcribed.  These are tests of the model
(does it compute what the repository's own tests say the code computes), not proofs of any property.
Each `example` names the test it transcribes. -/
namespace Tests
open Mqtt

/-- the bytes of an ASCII string literal `b'..'` -/
def a (s : String) : Bytes := s.toUTF8.data.toList

/-- `parse_fixed_header(stream.iter())`, `stream.split_to(frame_length)`, `X::read(header, frame)`
as the unit tests do; the result and what is left in the stream -/
def parse {α : Type} (readM : FixedHeader → M α) (s : Bytes) : Res α × Bytes :=
  match parse_fixed_header s with
  | .ok h => ((readM h (s.take h.frame_length)).1, s.drop h.frame_length)
  | _ => (.panic, s)

/-- `p.write(&mut BytesMut::new()).unwrap()`: the buffer -/
def enc (w : M Nat) : Option Bytes :=
  match w [] with
  | (.ok _, b) => some b
  | _ => none

/-! ### src/v4 -/

def c4 (u : String) : V4.Connect :=
  { protocol := .V4, keep_alive := 10, client_id := "test", clean_session := true,
    last_will := some (V4.LastWill.new "/a" (a "offline") .AtLeastOnce false),
    login := some (V4.Login.new u "mq") }
def c4b (u : String) : Bytes :=
  [0x10, 39, 0, 4] ++ a "MQTT" ++ [4, 0b11001110, 0, 10, 0, 4] ++ a "test" ++ [0, 2] ++ a "/a" ++
  [0, 7] ++ a "offline" ++ [0, 4] ++ a u ++ [0, 2] ++ a "mq"
/-- v4/connect.rs connect_parsing_works -/
example : parse V4.Connect.readM (c4b "rumq" ++ [0xDE, 0xAD, 0xBE, 0xEF]) =
    (.ok (c4 "rumq"), [0xDE, 0xAD, 0xBE, 0xEF]) := by decide +kernel
/-- v4/connect.rs connect_encoding_works -/
example : enc (c4 "rust").write = some (c4b "rust") := by decide +kernel

/-- v4/connack.rs connack_parsing_works -/
example : parse V4.ConnAck.readM [0b00100000, 2, 1, 0, 0xDE, 0xAD, 0xBE, 0xEF] =
    (.ok { session_present := true, code := .Success }, [0xDE, 0xAD, 0xBE, 0xEF]) := by decide +kernel
/-- v4/connack.rs connack_encoding_works -/
example : enc (V4.ConnAck.write { session_present := true, code := .Success }) =
    some [0b00100000, 2, 1, 0] := by decide +kernel

/-- v4/publish.rs qos1_publish_parsing_works -/
example : parse V4.Publish.readM ([0b00110010, 11, 0, 3] ++ a "a/b" ++
      [0, 10, 0xF1, 0xF2, 0xF3, 0xF4, 0xDE, 0xAD, 0xBE, 0xEF]) =
    (.ok { dup := false, qos := .AtLeastOnce, retain := false, topic := "a/b", pkid := 10,
           payload := [0xF1, 0xF2, 0xF3, 0xF4] }, [0xDE, 0xAD, 0xBE, 0xEF]) := by decide +kernel
/-- v4/publish.rs qos0_publish_parsing_works -/
example : parse V4.Publish.readM ([0b00110000, 7, 0, 3] ++ a "a/b" ++
      [1, 2, 0xDE, 0xAD, 0xBE, 0xEF]) =
    (.ok { dup := false, qos := .AtMostOnce, retain := false, topic := "a/b", pkid := 0,
           payload := [1, 2] }, [0xDE, 0xAD, 0xBE, 0xEF]) := by decide +kernel
/-- v4/publish.rs qos1_publish_encoding_works -/
example : enc (V4.Publish.write ⟨false, .AtLeastOnce, false, "a/b", 10, [0xF1, 0xF2, 0xF3, 0xF4]⟩) =
    some ([0b00110010, 11, 0, 3] ++ a "a/b" ++ [0, 10, 0xF1, 0xF2, 0xF3, 0xF4]) := by decide +kernel
/-- v4/publish.rs qos0_publish_encoding_works -/
example : enc (V4.Publish.write ⟨false, .AtMostOnce, false, "a/b", 0, [0xE1, 0xE2, 0xE3, 0xE4]⟩) =
    some ([0b00110000, 9, 0, 3] ++ a "a/b" ++ [0xE1, 0xE2, 0xE3, 0xE4]) := by decide +kernel
/-- v4/puback.rs puback_encoding_works -/
example : parse V4.PubAck.readM [0b01000000, 2, 0, 10, 0xDE, 0xAD, 0xBE, 0xEF] =
    (.ok { pkid := 10 }, [0xDE, 0xAD, 0xBE, 0xEF]) := by decide +kernel
/-- v4/suback.rs suback_parsing_works -/
example : parse V4.SubAck.readM [0x90, 4, 0, 0x0F, 1, 0x80, 0xDE, 0xAD, 0xBE, 0xEF] =
    (.ok { pkid := 15, return_codes := [.Success .AtLeastOnce, .Failure] },
      [0xDE, 0xAD, 0xBE, 0xEF]) := by decide +kernel

def s4 : V4.Subscribe :=
  { pkid := 260, filters := [V4.SubscribeFilter.new "a/+" .AtMostOnce,
      V4.SubscribeFilter.new "#" .AtLeastOnce, V4.SubscribeFilter.new "a/b/c" .ExactlyOnce] }
def s4b : Bytes := [0b10000010, 20, 1, 4, 0, 3] ++ a "a/+" ++ [0, 0, 1] ++ a "#" ++ [1, 0, 5] ++
  a "a/b/c" ++ [2]
/-- v4/subscribe.rs subscribe_parsing_works -/
example : parse V4.Subscribe.readM (s4b ++ [0xDE, 0xAD, 0xBE, 0xEF]) =
    (.ok s4, [0xDE, 0xAD, 0xBE, 0xEF]) := by decide +kernel
/-- v4/subscribe.rs subscribe_encoding_works -/
example : enc s4.write = some s4b := by decide +kernel

/-! ### src/v5 -/

def cp : V5.ConnectProperties :=
  { session_expiry_interval := some 1234, receive_maximum := some 432, max_packet_size := some 100,
    topic_alias_max := some 456, request_response_info := some 1, request_problem_info := some 1,
    user_properties := [("test", "test")], authentication_method := some "test",
    authentication_data := some [1, 2, 3, 4] }
def wp : V5.WillProperties :=
  { delay_interval := some 1234, payload_format_indicator := some 0,
    message_expiry_interval := some 4321, content_type := some "test",
    response_topic := some "topic", correlation_data := some [1, 2, 3, 4],
    user_properties := [("test", "test")] }
def c5 (w : Option V5.WillProperties) : V5.Connect :=
  { protocol := .V5, keep_alive := 0, properties := some cp, client_id := "my-device",
    clean_session := true,
    last_will := some { topic := "mydevice/status", message := a "dead", qos := .AtMostOnce,
                        retain := false, properties := w },
    login := some { username := "matteo", password := "collina" } }
def c5b : Bytes :=
  [0x10, 0x9d, 0x01, 0x00, 0x04, 0x4d, 0x51, 0x54, 0x54, 0x05, 0xc6, 0x00, 0x00, 0x2f,
   0x11, 0x00, 0x00, 0x04, 0xd2, 0x21, 0x01, 0xb0, 0x27, 0x00, 0x00, 0x00, 0x64, 0x22, 0x01, 0xc8,
   0x19, 0x01, 0x17, 0x01,
   0x26, 0x00, 0x04, 0x74, 0x65, 0x73, 0x74, 0x00, 0x04, 0x74, 0x65, 0x73, 0x74,
   0x15, 0x00, 0x04, 0x74, 0x65, 0x73, 0x74, 0x16, 0x00, 0x04, 0x01, 0x02, 0x03, 0x04,
   0x00, 0x09, 0x6d, 0x79, 0x2d, 0x64, 0x65, 0x76, 0x69, 0x63, 0x65, 0x2f,
   0x18, 0x00, 0x00, 0x04, 0xd2, 0x01, 0x00, 0x02, 0x00, 0x00, 0x10, 0xe1,
   0x03, 0x00, 0x04, 0x74, 0x65, 0x73, 0x74, 0x08, 0x00, 0x05, 0x74, 0x6f, 0x70, 0x69, 0x63,
   0x09, 0x00, 0x04, 0x01, 0x02, 0x03, 0x04,
   0x26, 0x00, 0x04, 0x74, 0x65, 0x73, 0x74, 0x00, 0x04, 0x74, 0x65, 0x73, 0x74,
   0x00, 0x0f, 0x6d, 0x79, 0x64, 0x65, 0x76, 0x69, 0x63, 0x65, 0x2f, 0x73, 0x74, 0x61, 0x74, 0x75,
   0x73, 0x00, 0x04, 0x64, 0x65, 0x61, 0x64, 0x00, 0x06, 0x6d, 0x61, 0x74, 0x74, 0x65, 0x6f,
   0x00, 0x07, 0x63, 0x6f, 0x6c, 0x6c, 0x69, 0x6e, 0x61]
/-- v5/connect.rs connect1_parsing_works -/
example : parse V5.Connect.readM c5b = (.ok (c5 (some wp)), []) := by decide +kernel
/-- v5/connect.rs connect1_encoding_works -/
example : enc (c5 (some wp)).write = some c5b := by decide +kernel

def c52 : V5.Connect :=
  { protocol := .V5, keep_alive := 10, properties := none, client_id := "hackathonmqtt5test",
    clean_session := true, last_will := none, login := none }
def c52b : Bytes :=
  [0x10, 0x1f, 0x00, 0x04, 0x4d, 0x51, 0x54, 0x54, 0x05, 0x02, 0x00, 0x0a, 0x00, 0x00, 0x12, 0x68,
   0x61, 0x63, 0x6b, 0x61, 0x74, 0x68, 0x6f, 0x6e, 0x6d, 0x71, 0x74, 0x74, 0x35, 0x74, 0x65, 0x73,
   0x74]
/-- v5/connect.rs connect2_parsing_works -/
example : parse V5.Connect.readM (c52b ++ [0x10, 0x11, 0x12]) =
    (.ok c52, [0x10, 0x11, 0x12]) := by decide +kernel
/-- v5/connect.rs connect2_encoding_works -/
example : enc c52.write = some c52b := by decide +kernel

def c53b : Bytes :=
  [0x10, 0x6e, 0x00, 0x04, 0x4d, 0x51, 0x54, 0x54, 0x05, 0xc6, 0x00, 0x00, 0x2f, 0x11,
   0x00, 0x00, 0x04, 0xd2, 0x21, 0x01, 0xb0, 0x27, 0x00, 0x00, 0x00, 0x64, 0x22, 0x01,
   0xc8, 0x19, 0x01, 0x17, 0x01, 0x26, 0x00, 0x04, 0x74, 0x65, 0x73, 0x74, 0x00, 0x04,
   0x74, 0x65, 0x73, 0x74, 0x15, 0x00, 0x04, 0x74, 0x65, 0x73, 0x74, 0x16, 0x00, 0x04,
   0x01, 0x02, 0x03, 0x04, 0x00, 0x09, 0x6d, 0x79, 0x2d, 0x64, 0x65, 0x76, 0x69, 0x63,
   0x65, 0x00, 0x00, 0x0f, 0x6d, 0x79, 0x64, 0x65, 0x76, 0x69, 0x63, 0x65, 0x2f, 0x73,
   0x74, 0x61, 0x74, 0x75, 0x73, 0x00, 0x04, 0x64, 0x65, 0x61, 0x64, 0x00, 0x06, 0x6d,
   0x61, 0x74, 0x74, 0x65, 0x6f, 0x00, 0x07, 0x63, 0x6f, 0x6c, 0x6c, 0x69, 0x6e, 0x61]
/-- v5/connect.rs connect3_parsing_works -/
example : parse V5.Connect.readM c53b = (.ok (c5 none), []) := by decide +kernel
/-- v5/connect.rs connect3_encoding_works -/
example : enc (c5 none).write = some c53b := by decide +kernel

def ca : V5.ConnAck :=
  { session_present := false, code := .Success,
    properties := some {
      session_expiry_interval := some 1234, receive_max := some 432, max_qos := some 2,
      retain_available := some 1, max_packet_size := some 100,
      assigned_client_identifier := some "test", topic_alias_max := some 456,
      reason_string := some "test", user_properties := [("test", "test")],
      wildcard_subscription_available := some 1, subscription_identifiers_available := some 1,
      shared_subscription_available := some 0, server_keep_alive := some 1234,
      response_information := some "test", server_reference := some "test",
      authentication_method := some "test", authentication_data := some [1, 2, 3, 4] } }
def cab : Bytes :=
  [0x20, 0x57, 0x00, 0x00, 0x54, 0x11, 0x00, 0x00, 0x04, 0xd2, 0x21, 0x01, 0xb0, 0x24, 0x02,
   0x25, 0x01, 0x27, 0x00, 0x00, 0x00, 0x64, 0x12, 0x00, 0x04, 0x74, 0x65, 0x73, 0x74,
   0x22, 0x01, 0xc8, 0x1f, 0x00, 0x04, 0x74, 0x65, 0x73, 0x74,
   0x26, 0x00, 0x04, 0x74, 0x65, 0x73, 0x74, 0x00, 0x04, 0x74, 0x65, 0x73, 0x74,
   0x28, 0x01, 0x29, 0x01, 0x2a, 0x00, 0x13, 0x04, 0xd2, 0x1a, 0x00, 0x04, 0x74, 0x65, 0x73, 0x74,
   0x1c, 0x00, 0x04, 0x74, 0x65, 0x73, 0x74, 0x15, 0x00, 0x04, 0x74, 0x65, 0x73, 0x74,
   0x16, 0x00, 0x04, 0x01, 0x02, 0x03, 0x04]
/-- v5/connack.rs connack_parsing_works -/
example : parse V5.ConnAck.readM cab = (.ok ca, []) := by decide +kernel
/-- v5/connack.rs connack_encoding_works -/
example : enc ca.write = some cab := by decide +kernel

def p5 : V5.Publish :=
  { dup := false, qos := .ExactlyOnce, retain := false, topic := "test", pkid := 42,
    properties := some {
      payload_format_indicator := some 1, message_expiry_interval := some 4321,
      topic_alias := some 100, response_topic := some "topic",
      correlation_data := some [1, 2, 3, 4], user_properties := [("test", "test")],
      subscription_identifiers := [120, 121], content_type := some "test" },
    payload := a "test" }
def p5b : Bytes :=
  [0x34, 0x3e, 0x00, 0x04, 0x74, 0x65, 0x73, 0x74, 0x00, 0x2a, 0x31, 0x01, 0x01,
   0x02, 0x00, 0x00, 0x10, 0xe1, 0x23, 0x00, 0x64, 0x08, 0x00, 0x05, 0x74, 0x6f, 0x70, 0x69, 0x63,
   0x09, 0x00, 0x04, 0x01, 0x02, 0x03, 0x04,
   0x26, 0x00, 0x04, 0x74, 0x65, 0x73, 0x74, 0x00, 0x04, 0x74, 0x65, 0x73, 0x74,
   0x0b, 0x78, 0x0b, 0x79, 0x03, 0x00, 0x04, 0x74, 0x65, 0x73, 0x74, 0x74, 0x65, 0x73, 0x74]
/-- v5/publish.rs publish_parsing_works -/
example : parse V5.Publish.readM p5b = (.ok p5, []) := by decide +kernel
/-- v5/publish.rs publish_encoding_works -/
example : enc p5.write = some p5b := by decide +kernel

def rp : V5.ReasonProps := { reason_string := some "test", user_properties := [("test", "test")] }
def rpb : Bytes :=
  [0x14, 0x1f, 0x00, 0x04, 0x74, 0x65, 0x73, 0x74, 0x26, 0x00, 0x04, 0x74, 0x65, 0x73, 0x74, 0x00,
   0x04, 0x74, 0x65, 0x73, 0x74]
def pa : V5.PubAck := { pkid := 42, reason := .NoMatchingSubscribers, properties := some rp }
/-- v5/puback.rs puback_parsing_works -/
example : parse V5.PubAck.readM ([0x40, 0x18, 0, 0x2a, 0x10] ++ rpb) = (.ok pa, []) := by decide +kernel
/-- v5/puback.rs puback_encoding_works -/
example : enc (V5.PubAck.write pa) = some ([0x40, 0x18, 0, 0x2a, 0x10] ++ rpb) := by decide +kernel
def pa2 : V5.PubAck := { pkid := 42, reason := .NoMatchingSubscribers, properties := none }
/-- v5/puback.rs puback2_parsing_works -/
example : parse V5.PubAck.readM [0x40, 3, 0, 0x2a, 0x10] = (.ok pa2, []) := by decide +kernel
/-- v5/puback.rs puback2_encoding_works -/
example : enc (V5.PubAck.write pa2) = some [0x40, 3, 0, 0x2a, 0x10] := by decide +kernel
def pa3 : V5.PubAck := { pkid := 42, reason := .Success, properties := none }
/-- v5/puback.rs puback3_parsing_works -/
example : parse V5.PubAck.readM [0x40, 2, 0, 0x2a] = (.ok pa3, []) := by decide +kernel
/-- v5/puback.rs puback3_encoding_works -/
example : enc (V5.PubAck.write pa3) = some [0x40, 2, 0, 0x2a] := by decide +kernel
def prec : V5.PubRec := { pkid := 42, reason := .NoMatchingSubscribers, properties := some rp }
/-- v5/pubrec.rs pubrec_parsing_works -/
example : parse V5.PubRec.readM ([0x50, 0x18, 0, 0x2a, 0x10] ++ rpb) = (.ok prec, []) := by decide +kernel
/-- v5/pubrec.rs pubrec_encoding_works -/
example : enc (V5.PubRec.write prec) = some ([0x50, 0x18, 0, 0x2a, 0x10] ++ rpb) := by decide +kernel
def prel : V5.PubRel := { pkid := 42, reason := .PacketIdentifierNotFound, properties := some rp }
/-- v5/pubrel.rs pubrel_parsing_works -/
example : parse V5.PubRel.readM ([0x62, 0x18, 0, 0x2a, 0x92] ++ rpb) = (.ok prel, []) := by decide +kernel
/-- v5/pubrel.rs pubrel_encoding_works -/
example : enc (V5.PubRel.write prel) = some ([0x62, 0x18, 0, 0x2a, 0x92] ++ rpb) := by decide +kernel
def pcomp : V5.PubComp := { pkid := 42, reason := .PacketIdentifierNotFound, properties := some rp }
/-- v5/pubcomp.rs pubcomp_parsing_works_correctly -/
example : parse V5.PubComp.readM ([0x70, 0x18, 0, 0x2a, 0x92] ++ rpb) = (.ok pcomp, []) := by decide +kernel
/-- v5/pubcomp.rs pubcomp_encoding_works_correctly -/
example : enc (V5.PubComp.write pcomp) = some ([0x70, 0x18, 0, 0x2a, 0x92] ++ rpb) := by decide +kernel

def up : Bytes := [0x26, 0x00, 0x04, 0x74, 0x65, 0x73, 0x74, 0x00, 0x04, 0x74, 0x65, 0x73, 0x74]
def s5 : V5.Subscribe :=
  { pkid := 42,
    filters := [(((V5.SubscribeFilter.new "hello" .AtLeastOnce).set_nolocal true).set_preserve_retain
      true).set_retain_forward_rule .Never],
    properties := some { id := some 100, user_properties := [("test", "test")] } }
def s5b : Bytes := [0x82, 0x1a, 0, 0x2a, 0x0f, 0x0b, 0x64] ++ up ++
  [0x00, 0x05, 0x68, 0x65, 0x6c, 0x6c, 0x6f, 0x2d]
/-- v5/subscribe.rs subscribe_parsing_works -/
example : parse V5.Subscribe.readM s5b = (.ok s5, []) := by decide +kernel
/-- v5/subscribe.rs subscribe_encoding_works -/
example : enc s5.write = some s5b := by decide +kernel
def s52 : V5.Subscribe :=
  { pkid := 42, filters := [V5.SubscribeFilter.new "hello/world" .AtLeastOnce], properties := none }
def s52b : Bytes := [0x82, 0x11, 0, 0x2a, 0, 0, 0x0b] ++ a "hello/world" ++ [1]
/-- v5/subscribe.rs subscribe2_parsing_works -/
example : parse V5.Subscribe.readM s52b = (.ok s52, []) := by decide +kernel
/-- v5/subscribe.rs subscribe2_encoding_works -/
example : enc s52.write = some s52b := by decide +kernel

def sa : V5.SubAck :=
  { pkid := 42, return_codes := [.QoS0, .QoS1, .QoS2, .Unspecified], properties := some rp }
/-- v5/suback.rs suback_parsing_works -/
example : parse V5.SubAck.readM ([0x90, 0x1b, 0, 0x2a] ++ rpb ++ [0, 1, 2, 0x80]) =
    (.ok sa, []) := by decide +kernel
/-- v5/suback.rs suback_encoding_works -/
example : enc sa.write = some ([0x90, 0x1b, 0, 0x2a] ++ rpb ++ [0, 1, 2, 0x80]) := by decide +kernel

def un : V5.Unsubscribe :=
  { pkid := 10, filters := ["hello", "world"],
    properties := some { user_properties := [("test", "test")] } }
def unb : Bytes := [0xa2, 0x1e, 0, 0x0a, 0x0d] ++ up ++ [0, 5] ++ a "hello" ++ [0, 5] ++ a "world"
/-- v5/unsubscribe.rs unsubscribe_parsing_works -/
example : parse V5.Unsubscribe.readM unb = (.ok un, []) := by decide +kernel
/-- v5/unsubscribe.rs subscribe_encoding_works -/
example : enc un.write = some unb := by decide +kernel
def un2 : V5.Unsubscribe := { pkid := 10, filters := ["hello"], properties := none }
/-- v5/unsubscribe.rs subscribe2_parsing_works -/
example : parse V5.Unsubscribe.readM ([0xa2, 0x0a, 0, 0x0a, 0, 0, 5] ++ a "hello") =
    (.ok un2, []) := by decide +kernel
/-- v5/unsubscribe.rs subscribe2_encoding_works -/
example : enc un2.write = some ([0xa2, 0x0a, 0, 0x0a, 0, 0, 5] ++ a "hello") := by decide +kernel

def ua : V5.UnsubAck :=
  { pkid := 10, reasons := [.NotAuthorized, .TopicFilterInvalid], properties := some rp }
/-- v5/unsuback.rs unsuback_parsing_works -/
example : parse V5.UnsubAck.readM ([0xb0, 0x19, 0, 0x0a] ++ rpb ++ [0x87, 0x8f]) =
    (.ok ua, []) := by decide +kernel
/-- v5/unsuback.rs unsuback_encoding_works -/
example : enc ua.write = some ([0xb0, 0x19, 0, 0x0a] ++ rpb ++ [0x87, 0x8f]) := by decide +kernel

/-- v5/disconnect.rs disconnect1_parsing_works -/
example : parse V5.Disconnect.readM [0xE0, 0] = (.ok V5.Disconnect.new, []) := by decide +kernel
/-- v5/disconnect.rs disconnect1_encoding_works -/
example : enc V5.Disconnect.new.write = some [0xE0, 0] := by decide +kernel
def di : V5.Disconnect :=
  { reason_code := .UnspecifiedError,
    properties := some { session_expiry_interval := some 1234, reason_string := some "test",
                         user_properties := [("test", "test")], server_reference := some "test" } }
def dib : Bytes :=
  [0xE0, 0x22, 0x80, 0x20, 0x11, 0x00, 0x00, 0x04, 0xd2, 0x1F, 0x00, 0x04, 0x74, 0x65, 0x73, 0x74] ++
  up ++ [0x1C, 0x00, 0x04, 0x74, 0x65, 0x73, 0x74]
/-- v5/disconnect.rs disconnect2_parsing_works -/
example : parse V5.Disconnect.readM dib = (.ok di, []) := by decide +kernel
/-- v5/disconnect.rs disconnect2_encoding_works -/
example : enc di.write = some dib := by decide +kernel

/-! ### src/topic.rs -/
open Topic in
/-- wildcards_are_detected_correctly -/
example : has_wildcards "a/b/c" = false ∧ has_wildcards "a/+/c" = true ∧
    has_wildcards "a/b/#" = true := by decide +kernel
open Topic in
/-- topics_are_validated_correctly -/
example : valid_topic "+wrong" = false ∧ valid_topic "wro#ng" = false ∧
    valid_topic "w/r/o/n/g+" = false ∧ valid_topic "wrong/#/path" = false := by decide +kernel
open Topic in
/-- filters_are_validated_correctly, zero_len_subscriptions_are_not_allowed -/
example : valid_filter "wrong/#/filter" = false ∧ valid_filter "wrong/wr#ng/filter" = false ∧
    valid_filter "wrong/filter#" = false ∧ valid_filter "correct/filter/#" = true ∧
    valid_filter "" = false := by decide +kernel
open Topic in
/-- dollar_subscriptions_doesnt_match_dollar_topic -/
example : «matches» "sy$tem/metrics" "sy$tem/+" = .ok true ∧
    «matches» "$system/metrics" "$system/+" = .ok false ∧
    «matches» "$system/metrics" "+/+" = .ok false := by decide +kernel
open Topic in
/-- topics_match_with_filters_as_expected -/
example :
    «matches» "a/b/c" "a/b/c" = .ok true ∧ «matches» "a/b/c" "d/b/c" = .ok false ∧
    «matches» "a/b/c" "a/b/e" = .ok false ∧ «matches» "a/b/c" "a/b/c/d" = .ok false ∧
    «matches» "a/b/c" "#" = .ok true ∧ «matches» "a/b/c" "a/b/c/#" = .ok true ∧
    «matches» "a/b/c/d" "a/b/c" = .ok false ∧ «matches» "a/b/c/d" "a/b/c/#" = .ok true ∧
    «matches» "a/b/c/d/e/f" "a/b/c/#" = .ok true ∧ «matches» "a/b/c" "a/+/c" = .ok true ∧
    «matches» "a/b/c/d/e" "a/+/c/+/e" = .ok true ∧ «matches» "a/b" "a/b/+" = .ok false ∧
    «matches» "a/b/+" "a/b/#" = .ok true ∧ «matches» "a/b/#" "a/b/+" = .ok false ∧
    «matches» "a/b/+" "#" = .ok true ∧ «matches» "a/+/c/d" "a/+/+/d" = .ok true ∧
    «matches» "a/+/+/d" "a/+/c/d" = .ok false := by decide +kernel

end Tests
