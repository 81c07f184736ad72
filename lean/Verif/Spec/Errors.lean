import Verif.Spec.V4
/-! When and why a byte stream is rejected: the error reported for every stream that does not start
with an acceptable packet.  One clause per reason. -/
namespace Spec
open Mqtt

/-! ### Fields

`...Fails s e`: a field of this kind cannot be taken from the front of `s`, and the reason
is `e`. -/

/-- a byte: there is none -/
def U8Fails (s : Bytes) (e : Error) : Prop := s = [] ∧ e = .MalformedPacket

/-- a two byte integer: fewer than two bytes -/
def U16Fails (s : Bytes) (e : Error) : Prop := s.length < 2 ∧ e = .MalformedPacket

/-- a four byte integer: fewer than four bytes -/
def U32Fails (s : Bytes) (e : Error) : Prop := s.length < 4 ∧ e = .MalformedPacket

/-- binary data: no length, or a length greater than what is left -/
def BinFails (s : Bytes) (e : Error) : Prop :=
  U16Fails s e ∨ ∃ n t, n < 65536 ∧ s = u16 n ++ t ∧ t.length < n ∧ e = .BoundaryCrossed n

/-- a string: as binary data, or the bytes are not UTF-8 -/
def StrFails (s : Bytes) (e : Error) : Prop :=
  BinFails s e ∨
  ∃ b t, fits b.length ∧ s = bin b ++ t ∧ (∀ v, utf8 v ≠ b) ∧ e = .TopicNotUtf8

/-- a variable byte integer: it does not end within the bytes there are, or within four bytes -/
def VbiFails (s : Bytes) (e : Error) : Prop :=
  (s.length < 4 ∧ (∀ b ∈ s, 128 ≤ b.toNat) ∧ e = .InsufficientBytes 1) ∨
  ∃ a t, s = a ++ t ∧ a.length = 4 ∧ (∀ b ∈ a, 128 ≤ b.toNat) ∧ e = .MalformedRemainingLength

/-- why a stream does not start with a complete frame within the size limit -/
inductive FramingFails (max : Nat) : Bytes → Error → Prop where
  /-- nothing there: two more bytes needed -/
  | empty : FramingFails max [] (.InsufficientBytes 2)
  /-- the remaining length is incomplete or too long -/
  | length {b1 t e} : VbiFails t e → FramingFails max (b1 :: t) e
  /-- the remaining length is over the limit -/
  | limit {b1 bs t} : IsVbi bs → max < vbiValue bs →
      FramingFails max (b1 :: (bs ++ t)) (.PayloadSizeLimitExceeded (vbiValue bs))
  /-- the body is incomplete -/
  | body {b1 bs t} : IsVbi bs → vbiValue bs ≤ max → t.length < vbiValue bs →
      FramingFails max (b1 :: (bs ++ t)) (.InsufficientBytes (vbiValue bs - t.length))

namespace V4
open Mqtt.V4

/-- the will fields of CONNECT -/
inductive WillFails (flags : UInt8) : Bytes → Error → Prop where
  /-- will QoS or retain bits without the will flag -/
  | stray {t} : ¬ bit flags 2 → (bit flags 3 ∨ bit flags 4 ∨ bit flags 5) →
      WillFails flags t .IncorrectPacketFormat
  | topic {t e} : bit flags 2 → StrFails t e → WillFails flags t e
  | message {v t e} : bit flags 2 → fits (utf8 v).length → BinFails t e →
      WillFails flags (str v ++ t) e
  | qos {v m t} : bit flags 2 → fits (utf8 v).length → fits m.length →
      flags.toNat / 8 % 4 = 3 → WillFails flags (str v ++ bin m ++ t) (.InvalidQoS 3)

/-- the login fields of CONNECT -/
inductive LoginFails (flags : UInt8) : Bytes → Error → Prop where
  | username {t e} : bit flags 7 → StrFails t e → LoginFails flags t e
  | password {t e} : ¬ bit flags 7 → bit flags 6 → StrFails t e → LoginFails flags t e
  | password' {u t e} : bit flags 7 → fits (utf8 u).length → bit flags 6 → StrFails t e →
      LoginFails flags (str u ++ t) e

/-- CONNECT, body -/
inductive ConnectFails : Bytes → Error → Prop where
  | name {t e} : StrFails t e → ConnectFails t e
  | level {nm t e} : fits (utf8 nm).length → U8Fails t e → ConnectFails (str nm ++ t) e
  | protocol {nm lv t} : fits (utf8 nm).length → nm ≠ "MQTT" →
      ConnectFails (str nm ++ [lv] ++ t) .InvalidProtocol
  | badLevel {lv t} : lv ≠ 4 → lv ≠ 5 →
      ConnectFails (str "MQTT" ++ [lv] ++ t) (.InvalidProtocolLevel lv)
  | flags {lv t e} : (lv = 4 ∨ lv = 5) → U8Fails t e →
      ConnectFails (str "MQTT" ++ [lv] ++ t) e
  | keepAlive {lv f t e} : (lv = 4 ∨ lv = 5) → U16Fails t e →
      ConnectFails (str "MQTT" ++ [lv] ++ [f] ++ t) e
  | clientId {lv f k t e} : (lv = 4 ∨ lv = 5) → k < 65536 → StrFails t e →
      ConnectFails (str "MQTT" ++ [lv] ++ [f] ++ u16 k ++ t) e
  | will {lv f k id t e} : (lv = 4 ∨ lv = 5) → k < 65536 → fits (utf8 id).length →
      WillFails f t e → ConnectFails (str "MQTT" ++ [lv] ++ [f] ++ u16 k ++ str id ++ t) e
  | login {lv f k id wb w t e} : (lv = 4 ∨ lv = 5) → k < 65536 → fits (utf8 id).length →
      WillDenotes f wb w → LoginFails f t e →
      ConnectFails (str "MQTT" ++ [lv] ++ [f] ++ u16 k ++ str id ++ wb ++ t) e

/-- CONNACK, body -/
inductive ConnAckFails : Bytes → Error → Prop where
  | flags {t e} : U8Fails t e → ConnAckFails t e
  | code {f t e} : U8Fails t e → ConnAckFails ([f] ++ t) e
  | badCode {f c t} : (∀ r, c.toNat ≠ returnCode r) →
      ConnAckFails ([f] ++ [c] ++ t) (.InvalidConnectReturnCode c)

/-- PUBLISH, first byte and body -/
inductive PublishFails (b1 : UInt8) : Bytes → Error → Prop where
  | qos {t} : b1.toNat / 2 % 4 = 3 → PublishFails b1 t (.InvalidQoS 3)
  | topic {t e} : b1.toNat / 2 % 4 ≠ 3 → StrFails t e → PublishFails b1 t e
  | pkid {v t e} : b1.toNat / 2 % 4 = 1 ∨ b1.toNat / 2 % 4 = 2 → fits (utf8 v).length →
      U16Fails t e → PublishFails b1 (str v ++ t) e
  | pkidZero {v t} : b1.toNat / 2 % 4 = 1 ∨ b1.toNat / 2 % 4 = 2 → fits (utf8 v).length →
      PublishFails b1 (str v ++ u16 0 ++ t) .PacketIdZero

/-- SUBSCRIBE, body -/
inductive SubscribeFails : Bytes → Error → Prop where
  | pkid {t e} : U16Fails t e → SubscribeFails t e
  | none {k} : k < 65536 → SubscribeFails (u16 k) .EmptySubscription
  | path {k good fs t e} : k < 65536 → FiltersDenote good fs → t ≠ [] → StrFails t e →
      SubscribeFails (u16 k ++ good ++ t) e
  | options {k good fs v t e} : k < 65536 → FiltersDenote good fs → fits (utf8 v).length →
      U8Fails t e → SubscribeFails (u16 k ++ good ++ str v ++ t) e
  | qos {k good fs v o t} : k < 65536 → FiltersDenote good fs → fits (utf8 v).length →
      o.toNat % 4 = 3 → SubscribeFails (u16 k ++ good ++ str v ++ [o] ++ t) (.InvalidQoS 3)

/-- SUBACK, body -/
inductive SubAckFails : Bytes → Error → Prop where
  | pkid {t e} : U16Fails t e → SubAckFails t e
  | none {k} : k < 65536 → SubAckFails (u16 k) .MalformedPacket
  | badCode {k cs c t} : k < 65536 → (∀ r, c.toNat ≠ subCode r) →
      SubAckFails (u16 k ++ List.flatMap (fun r => u8 (subCode r)) cs ++ [c] ++ t)
        (.InvalidSubscribeReasonCode c)

/-- UNSUBSCRIBE, body -/
inductive UnsubscribeFails : Bytes → Error → Prop where
  | pkid {t e} : U16Fails t e → UnsubscribeFails t e
  | topic {k ts t e} : k < 65536 → (∀ v ∈ ts, fits (utf8 v).length) → t ≠ [] → StrFails t e →
      UnsubscribeFails (u16 k ++ List.flatMap str ts ++ t) e

/-- a complete frame with first byte `b1` and body `bd` is rejected for the reason `e` -/
def Rejects (b1 : UInt8) (bd : Bytes) (e : Error) : Prop :=
  match typeNum b1 with
  | 1 => if bd = [] then e = .PayloadRequired else ConnectFails bd e
  | 2 => if bd = [] then e = .PayloadRequired else ConnAckFails bd e
  | 3 => if bd = [] then e = .PayloadRequired else PublishFails b1 bd e
  | 4 | 5 | 6 | 7 => if bd = [] then e = .PayloadRequired else U16Fails bd e
  | 8 => if bd = [] then e = .PayloadRequired else SubscribeFails bd e
  | 9 => if bd = [] then e = .PayloadRequired else SubAckFails bd e
  | 10 => if bd = [] then e = .PayloadRequired else UnsubscribeFails bd e
  | 11 => if bd = [] then e = .PayloadRequired
      else bd.length ≠ 2 ∧ e = .PayloadSizeIncorrect
  | 12 | 13 | 14 => False
  | n => e = .InvalidPacketType (UInt8.ofNat n)

end V4
end Spec
