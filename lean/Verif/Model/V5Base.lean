import Verif.Model.Lib
/-! Model of the shared part of src/v5: property identifiers (src/v5/mod.rs) and the property
section loop that every `*Properties::read` / `*Properties::extract` repeats. -/
namespace Mqtt.V5
open Mqtt

/-- src/v5/mod.rs 50-80 `enum PropertyType` -/
inductive PropertyType where
  | PayloadFormatIndicator | MessageExpiryInterval | ContentType | ResponseTopic
  | CorrelationData | SubscriptionIdentifier | SessionExpiryInterval | AssignedClientIdentifier
  | ServerKeepAlive | AuthenticationMethod | AuthenticationData | RequestProblemInformation
  | WillDelayInterval | RequestResponseInformation | ResponseInformation | ServerReference
  | ReasonString | ReceiveMaximum | TopicAliasMaximum | TopicAlias | MaximumQos
  | RetainAvailable | UserProperty | MaximumPacketSize | WildcardSubscriptionAvailable
  | SubscriptionIdentifierAvailable | SharedSubscriptionAvailable
  deriving DecidableEq, Repr

/-- src/v5/mod.rs 52-80: the explicit discriminants (`PropertyType::X as u8`) -/
def PropertyType.toU8 : PropertyType → UInt8
  | .PayloadFormatIndicator => 1
  | .MessageExpiryInterval => 2
  | .ContentType => 3
  | .ResponseTopic => 8
  | .CorrelationData => 9
  | .SubscriptionIdentifier => 11
  | .SessionExpiryInterval => 17
  | .AssignedClientIdentifier => 18
  | .ServerKeepAlive => 19
  | .AuthenticationMethod => 21
  | .AuthenticationData => 22
  | .RequestProblemInformation => 23
  | .WillDelayInterval => 24
  | .RequestResponseInformation => 25
  | .ResponseInformation => 26
  | .ServerReference => 28
  | .ReasonString => 31
  | .ReceiveMaximum => 33
  | .TopicAliasMaximum => 34
  | .TopicAlias => 35
  | .MaximumQos => 36
  | .RetainAvailable => 37
  | .UserProperty => 38
  | .MaximumPacketSize => 39
  | .WildcardSubscriptionAvailable => 40
  | .SubscriptionIdentifierAvailable => 41
  | .SharedSubscriptionAvailable => 42

/-- src/v5/mod.rs 82-115 `property` -/
def property (num : UInt8) : Res PropertyType :=
  match num with
  | 1 => .ok .PayloadFormatIndicator
  | 2 => .ok .MessageExpiryInterval
  | 3 => .ok .ContentType
  | 8 => .ok .ResponseTopic
  | 9 => .ok .CorrelationData
  | 11 => .ok .SubscriptionIdentifier
  | 17 => .ok .SessionExpiryInterval
  | 18 => .ok .AssignedClientIdentifier
  | 19 => .ok .ServerKeepAlive
  | 21 => .ok .AuthenticationMethod
  | 22 => .ok .AuthenticationData
  | 23 => .ok .RequestProblemInformation
  | 24 => .ok .WillDelayInterval
  | 25 => .ok .RequestResponseInformation
  | 26 => .ok .ResponseInformation
  | 28 => .ok .ServerReference
  | 31 => .ok .ReasonString
  | 33 => .ok .ReceiveMaximum
  | 34 => .ok .TopicAliasMaximum
  | 35 => .ok .TopicAlias
  | 36 => .ok .MaximumQos
  | 37 => .ok .RetainAvailable
  | 38 => .ok .UserProperty
  | 39 => .ok .MaximumPacketSize
  | 40 => .ok .WildcardSubscriptionAvailable
  | 41 => .ok .SubscriptionIdentifierAvailable
  | 42 => .ok .SharedSubscriptionAvailable
  | num => .err (.InvalidPropertyType num)

/-- `length(bytes.iter())?` on a `&mut Bytes` (does not move the cursor); e.g. src/v5/publish.rs 193 -/
def peek_length : M (Nat × Nat) := do
  let bytes ← M.look
  M.lift (length bytes)

/-- One arm of the `match property(prop)?` in a property loop: given the property type, the raw
identifier (for the error) and the local variables so far, read the value; return the updated
local variables and the amount added to `cursor`; e.g. src/v5/publish.rs 205-246. -/
abbrev PropStep (σ : Type) := PropertyType → UInt8 → σ → M (σ × Nat)

/-- The loop `while cursor < properties_len { ... }`, identical in src/v5/connect.rs 322-364 and
535-583, connack.rs 241-326, publish.rs 199-247, puback.rs 141-161, pubrec.rs 137-157,
pubrel.rs 128-148, pubcomp.rs 129-149, subscribe.rs 185-207, suback.rs 118-138,
unsubscribe.rs 114-129, unsuback.rs 129-149, disconnect.rs 183-213; the arms are `step`.
The local variables are the argument `st`.
Simplification: `cursor += n` happens after the value is read; in the code it sometimes precedes
`bytes.advance` / the assignment, which has no observable effect. -/
def propLoop {σ : Type} (step : PropStep σ) : (fuel properties_len cursor : Nat) → σ → M σ
  | 0, _, _, _ => M.diverge
  | fuel + 1, properties_len, cursor, st =>
    if cursor < properties_len then do
      let prop ← read_u8
      let cursor ← uadd cursor 1
      let ty ← M.lift (property prop)
      let (st, n) ← step ty prop st
      let cursor ← uadd cursor n
      propLoop step fuel properties_len cursor st
    else pure st

/-- The frame of `extract`/`read` of all property structs: read the property length, return
`None` when it is 0, otherwise run the loop.  Same files as `propLoop` (e.g. puback.rs 131-167). -/
def extractProps {σ : Type} (step : PropStep σ) (init : σ) : M (Option σ) := do
  let (properties_len_len, properties_len) ← peek_length
  advance properties_len_len
  if properties_len = 0 then pure none
  else do
    let bytes ← M.look
    let st ← propLoop step (bytes.length + 1) properties_len 0 init
    pure (some st)

/-- `if let Some(x) = &self.field { f(x)? }`; e.g. src/v5/publish.rs 265-268 -/
def ifSome {α : Type} (o : Option α) (f : α → M Unit) : M Unit :=
  match o with
  | some a => f a
  | none => pure ()

/-- `buffer.put_u8(PropertyType::T as u8); buffer.put_u8(v)`; e.g. src/v5/publish.rs 266-267 -/
def putPropU8 (t : PropertyType) (v : UInt8) : M Unit := do putU8 t.toU8; putU8 v
/-- `buffer.put_u8(PropertyType::T as u8); buffer.put_u16(v)`; e.g. src/v5/publish.rs 276-277 -/
def putPropU16 (t : PropertyType) (v : UInt16) : M Unit := do putU8 t.toU8; putU16 v
/-- `buffer.put_u8(PropertyType::T as u8); buffer.put_u32(v)`; e.g. src/v5/publish.rs 271-272 -/
def putPropU32 (t : PropertyType) (v : UInt32) : M Unit := do putU8 t.toU8; putU32 v
/-- `buffer.put_u8(PropertyType::T as u8); write_mqtt_string(buffer, v)`; e.g. src/v5/publish.rs 281-282 -/
def putPropStr (t : PropertyType) (v : String) : M Unit := do putU8 t.toU8; write_mqtt_string v
/-- `buffer.put_u8(PropertyType::T as u8); write_mqtt_bytes(buffer, v)`; e.g. src/v5/publish.rs 286-287 -/
def putPropBytes (t : PropertyType) (v : Bytes) : M Unit := do putU8 t.toU8; write_mqtt_bytes v
/-- `buffer.put_u8(PropertyType::SubscriptionIdentifier as u8); write_remaining_length(buffer, id)?`; e.g. src/v5/publish.rs 297-298 -/
def putPropVbi (t : PropertyType) (v : Nat) : M Unit := do
  putU8 t.toU8
  let _ ← write_remaining_length v
  pure ()
/-- `buffer.put_u8(PropertyType::UserProperty as u8); write_mqtt_string(key); write_mqtt_string(value)`; e.g. src/v5/publish.rs 291-293 -/
def putPropPair (t : PropertyType) (kv : String × String) : M Unit := do
  putU8 t.toU8
  write_mqtt_string kv.1
  write_mqtt_string kv.2

/-- reading arm for a string property: value and `2 + len`; e.g. src/v5/publish.rs 218-222 -/
def armStr {σ : Type} (set : String → σ) : M (σ × Nat) := do
  let v ← read_mqtt_string
  pure (set v, 2 + strLen v)
/-- reading arm for a binary property: value and `2 + len`; e.g. src/v5/publish.rs 223-227 -/
def armBytes {σ : Type} (set : Bytes → σ) : M (σ × Nat) := do
  let v ← read_mqtt_bytes
  pure (set v, 2 + v.length)
/-- reading arm for a one byte property; e.g. src/v5/publish.rs 206-209 -/
def armU8 {σ : Type} (set : UInt8 → σ) : M (σ × Nat) := do
  let v ← read_u8
  pure (set v, 1)
/-- reading arm for a two byte property; e.g. src/v5/publish.rs 214-217 -/
def armU16 {σ : Type} (set : UInt16 → σ) : M (σ × Nat) := do
  let v ← read_u16
  pure (set v, 2)
/-- reading arm for a four byte property; e.g. src/v5/publish.rs 210-213 -/
def armU32 {σ : Type} (set : UInt32 → σ) : M (σ × Nat) := do
  let v ← read_u32
  pure (set v, 4)
/-- reading arm for a user property; e.g. src/v5/publish.rs 228-233 -/
def armPair {σ : Type} (set : String × String → σ) : M (σ × Nat) := do
  let key ← read_mqtt_string
  let value ← read_mqtt_string
  pure (set (key, value), 2 + strLen key + 2 + strLen value)
/-- reading arm for a subscription identifier, publish.rs 234-239, subscribe.rs 192-198:
`cursor += 1 + id_len` (although the identifier byte was already counted) -/
def armVbi {σ : Type} (set : Nat → σ) : M (σ × Nat) := do
  let (id_len, id) ← peek_length
  advance id_len
  pure (set id, 1 + id_len)

/-- `for (key, value) in self.user_properties.iter() { len += 1 + 2 + key.len() + 2 + value.len() }`,
starting from `len`; e.g. src/v5/publish.rs 168-170 -/
def addUserPropsLen (ups : List (String × String)) (len : Nat) : Nat :=
  ups.foldl (fun len kv => len + (1 + 2 + strLen kv.1 + 2 + strLen kv.2)) len

/-- `if let Some(x) = &self.field { len += f(x) }`, starting from `len`; e.g. src/v5/publish.rs 160-162 -/
def addSome {α : Type} (o : Option α) (f : α → Nat) (len : Nat) : Nat :=
  match o with
  | some x => len + f x
  | none => len

/-- `properties_len_len + properties_len` for a property section of `properties_len` bytes
(`len()` of every v5 packet with properties); e.g. src/v5/publish.rs 52-54 -/
def propSectionLen (properties_len : Nat) : Nat := len_len properties_len + properties_len

/-- `match &self.properties { Some(p) => { len += properties_len_len + properties_len }, None =>
{ len += 1 } }`, starting from `n`; e.g. src/v5/publish.rs 50-60 -/
def lenPropsOrOne {π : Type} (len : π → Nat) (o : Option π) (n : Nat) : Nat :=
  match o with
  | some properties => n + propSectionLen (len properties)
  | none => n + 1

/-! ### The property struct shared by six acknowledgement packets -/

/-- `PubAckProperties` (src/v5/puback.rs 110-114), `PubRecProperties` (pubrec.rs 106-110),
`PubRelProperties` (pubrel.rs 97-101), `PubCompProperties` (pubcomp.rs 98-102),
`SubAckProperties` (suback.rs 87-91), `UnsubAckProperties` (unsuback.rs 98-102): six structs with
the same two fields, modelled by one type.  Their functions are modelled file by file in
Model/V5Packets. -/
structure ReasonProps where
  reason_string : Option String
  user_properties : List (String × String)
  deriving DecidableEq

end Mqtt.V5
