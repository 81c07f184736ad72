import Verif.Spec.Errors
import Verif.Spec.V5
/-! When and why `v5` rejects a frame.  One clause per reason. -/
namespace Spec.V5
open Mqtt Mqtt.V5 Spec
open Spec.V4 (bit typeNum)

/-! ### Property sections -/

/-- a property value of this kind cannot be taken from the front of the bytes -/
inductive ValFails : Kind → Bytes → Error → Prop where
  | u8 {s e} : U8Fails s e → ValFails .u8 s e
  | u16 {s e} : U16Fails s e → ValFails .u16 s e
  | u32 {s e} : U32Fails s e → ValFails .u32 s e
  | vbi {s e} : VbiFails s e → ValFails .vbi s e
  | str {s e} : StrFails s e → ValFails .str s e
  | bin {s e} : BinFails s e → ValFails .bin s e
  | name {s e} : StrFails s e → ValFails .pair s e
  | value {n s e} : fits (utf8 n).length → StrFails s e → ValFails .pair (Spec.str n ++ s) e

/-- a property of the table `kind` cannot be taken from the front of the bytes: there is no identifier,
the identifier is not allowed here, or the value cannot be taken -/
inductive PropFails (kind : Nat → Option Kind) : Bytes → Error → Prop where
  | none : PropFails kind [] .MalformedPacket
  | id {b t} : kind b.toNat = none → PropFails kind (b :: t) (.InvalidPropertyType b)
  | value {b k t e} : kind b.toNat = some k → ValFails k t e → PropFails kind (b :: t) e

/-- a property section cannot be taken from the front of the bytes: no property length, or a property
that is still due (the size counted so far, one too many for each subscription identifier, is less than
the declared length) cannot be taken -/
inductive SecFails (kind : Nat → Option Kind) : Bytes → Error → Prop where
  | length {s e} : VbiFails s e → SecFails kind s e
  | prop {len good ps t e} : IsVbi len → Props kind good ps → good.length + vbis ps < vbiValue len →
      PropFails kind t e → SecFails kind (len ++ good ++ t) e

/-! ### Packets -/

/-- the will fields of CONNECT -/
inductive WillFails (flags : UInt8) : Bytes → Error → Prop where
  /-- will QoS or retain bits without the will flag -/
  | stray {t} : ¬ bit flags 2 → (bit flags 3 ∨ bit flags 4 ∨ bit flags 5) →
      WillFails flags t .IncorrectPacketFormat
  | props {t e} : bit flags 2 → SecFails willKind t e → WillFails flags t e
  | topic {sec ps t e} : bit flags 2 → SecDenotes willKind sec ps → StrFails t e →
      WillFails flags (sec ++ t) e
  | message {sec ps v t e} : bit flags 2 → SecDenotes willKind sec ps → fits (utf8 v).length →
      BinFails t e → WillFails flags (sec ++ str v ++ t) e
  | qos {sec ps v m t} : bit flags 2 → SecDenotes willKind sec ps → fits (utf8 v).length →
      fits m.length → flags.toNat / 8 % 4 = 3 →
      WillFails flags (sec ++ str v ++ bin m ++ t) (.InvalidQoS 3)

/-- the connect property section: present with protocol level 5 only -/
def ConnSec (lv : UInt8) (sec : Bytes) : Prop :=
  if lv = 5 then ∃ ps, SecDenotes connectKind sec ps else sec = []

/-- CONNECT, body -/
inductive ConnectFails : Bytes → Error → Prop where
  | name {t e} : StrFails t e → ConnectFails t e
  | level {nm t e} : fits (utf8 nm).length → U8Fails t e → ConnectFails (str nm ++ t) e
  | protocol {nm lv t} : fits (utf8 nm).length → nm ≠ "MQTT" →
      ConnectFails (str nm ++ [lv] ++ t) .InvalidProtocol
  | badLevel {lv t} : lv ≠ 4 → lv ≠ 5 →
      ConnectFails (str "MQTT" ++ [lv] ++ t) (.InvalidProtocolLevel lv)
  | flags {lv t e} : (lv = 4 ∨ lv = 5) → U8Fails t e →
      ConnectFails (str "MQTT" ++ [lv] ++ t) e
  | keepAlive {lv f t e} : (lv = 4 ∨ lv = 5) → U16Fails t e →
      ConnectFails (str "MQTT" ++ [lv] ++ [f] ++ t) e
  | props {f k t e} : k < 65536 → SecFails connectKind t e →
      ConnectFails (str "MQTT" ++ [5] ++ [f] ++ u16 k ++ t) e
  | clientId {lv f k sec t e} : (lv = 4 ∨ lv = 5) → k < 65536 → ConnSec lv sec → StrFails t e →
      ConnectFails (str "MQTT" ++ [lv] ++ [f] ++ u16 k ++ sec ++ t) e
  | will {lv f k sec id t e} : (lv = 4 ∨ lv = 5) → k < 65536 → ConnSec lv sec →
      fits (utf8 id).length → WillFails f t e →
      ConnectFails (str "MQTT" ++ [lv] ++ [f] ++ u16 k ++ sec ++ str id ++ t) e
  | login {lv f k sec id wb w t e} : (lv = 4 ∨ lv = 5) → k < 65536 → ConnSec lv sec →
      fits (utf8 id).length → WillDenotes f wb w → Spec.V4.LoginFails f t e →
      ConnectFails (str "MQTT" ++ [lv] ++ [f] ++ u16 k ++ sec ++ str id ++ wb ++ t) e

/-- CONNACK, body -/
inductive ConnAckFails : Bytes → Error → Prop where
  | flags {t e} : U8Fails t e → ConnAckFails t e
  | code {f t e} : U8Fails t e → ConnAckFails ([f] ++ t) e
  | badCode {f c t} : (∀ r, c.toNat ≠ connectCode r) →
      ConnAckFails ([f] ++ [c] ++ t) (.InvalidConnectReturnCode c)
  | props {f r t e} : SecFails connackKind t e → ConnAckFails ([f] ++ u8 (connectCode r) ++ t) e

/-- PUBLISH, first byte and body -/
inductive PublishFails (b1 : UInt8) : Bytes → Error → Prop where
  | qos {t} : b1.toNat / 2 % 4 = 3 → PublishFails b1 t (.InvalidQoS 3)
  | topic {t e} : b1.toNat / 2 % 4 ≠ 3 → StrFails t e → PublishFails b1 t e
  | pkid {v t e} : b1.toNat / 2 % 4 = 1 ∨ b1.toNat / 2 % 4 = 2 → fits (utf8 v).length →
      U16Fails t e → PublishFails b1 (str v ++ t) e
  | pkidZero {v t} : b1.toNat / 2 % 4 = 1 ∨ b1.toNat / 2 % 4 = 2 → fits (utf8 v).length →
      PublishFails b1 (str v ++ u16 0 ++ t) .PacketIdZero
  | props0 {v t e} : b1.toNat / 2 % 4 = 0 → fits (utf8 v).length → SecFails publishKind t e →
      PublishFails b1 (str v ++ t) e
  | props {v k t e} : b1.toNat / 2 % 4 = 1 ∨ b1.toNat / 2 % 4 = 2 → fits (utf8 v).length →
      k ≠ 0 → k < 65536 → SecFails publishKind t e → PublishFails b1 (str v ++ u16 k ++ t) e

/-- PUBACK, PUBREC, PUBREL, PUBCOMP, body.  An unknown reason code is reported as an invalid *connect*
return code. -/
inductive AckFails {R : Type} (code : R → Nat) : Bytes → Error → Prop where
  | pkid {t e} : U16Fails t e → AckFails code t e
  | badCode {k c t} : k < 65536 → (∀ r, c.toNat ≠ code r) →
      AckFails code (u16 k ++ [c] ++ t) (.InvalidConnectReturnCode c)
  | props {k r t e} : k < 65536 → t ≠ [] → SecFails reasonKind t e →
      AckFails code (u16 k ++ u8 (code r) ++ t) e

/-- SUBSCRIBE, body -/
inductive SubscribeFails : Bytes → Error → Prop where
  | pkid {t e} : U16Fails t e → SubscribeFails t e
  | props {k t e} : k < 65536 → SecFails subscribeKind t e → SubscribeFails (u16 k ++ t) e
  | path {k sec ps good fs t e} : k < 65536 → SecDenotes subscribeKind sec ps →
      FiltersDenote good fs → t ≠ [] → StrFails t e → SubscribeFails (u16 k ++ sec ++ good ++ t) e
  | options {k sec ps good fs v t e} : k < 65536 → SecDenotes subscribeKind sec ps →
      FiltersDenote good fs → fits (utf8 v).length → U8Fails t e →
      SubscribeFails (u16 k ++ sec ++ good ++ str v ++ t) e
  | rule {k sec ps good fs v o t} : k < 65536 → SecDenotes subscribeKind sec ps →
      FiltersDenote good fs → fits (utf8 v).length → o.toNat / 16 % 4 = 3 →
      SubscribeFails (u16 k ++ sec ++ good ++ str v ++ [o] ++ t) (.InvalidRetainForwardRule 3)
  | qos {k sec ps good fs v o t} : k < 65536 → SecDenotes subscribeKind sec ps →
      FiltersDenote good fs → fits (utf8 v).length → o.toNat / 16 % 4 ≠ 3 → o.toNat % 4 = 3 →
      SubscribeFails (u16 k ++ sec ++ good ++ str v ++ [o] ++ t) (.InvalidQoS 3)

/-- SUBACK, UNSUBACK, body -/
inductive CodesFail {C : Type} (code : C → Nat) : Bytes → Error → Prop where
  | pkid {t e} : U16Fails t e → CodesFail code t e
  | props {k t e} : k < 65536 → SecFails reasonKind t e → CodesFail code (u16 k ++ t) e
  | none {k sec ps} : k < 65536 → SecDenotes reasonKind sec ps →
      CodesFail code (u16 k ++ sec) .MalformedPacket
  | badCode {k sec ps cs c t} : k < 65536 → SecDenotes reasonKind sec ps →
      (∀ r, c.toNat ≠ code r) →
      CodesFail code (u16 k ++ sec ++ List.flatMap (fun r => u8 (code r)) cs ++ [c] ++ t)
        (.InvalidSubscribeReasonCode c)

/-- UNSUBSCRIBE, body -/
inductive UnsubscribeFails : Bytes → Error → Prop where
  | pkid {t e} : U16Fails t e → UnsubscribeFails t e
  | props {k t e} : k < 65536 → SecFails unsubscribeKind t e → UnsubscribeFails (u16 k ++ t) e
  | topic {k sec ps ts t e} : k < 65536 → SecDenotes unsubscribeKind sec ps →
      (∀ v ∈ ts, fits (utf8 v).length) → t ≠ [] → StrFails t e →
      UnsubscribeFails (u16 k ++ sec ++ List.flatMap str ts ++ t) e

/-- DISCONNECT, first byte and non-empty body.  An unknown reason code is reported as an invalid
*connect* return code. -/
inductive DisconnectFails (b1 : UInt8) : Bytes → Error → Prop where
  | reserved {t} : b1 ≠ 0xE0 → DisconnectFails b1 t .MalformedPacket
  | badCode {c t} : b1 = 0xE0 → (∀ r, c.toNat ≠ disconnectCode r) →
      DisconnectFails b1 ([c] ++ t) (.InvalidConnectReturnCode c)
  | props {r t e} : b1 = 0xE0 → SecFails disconnectKind t e →
      DisconnectFails b1 (u8 (disconnectCode r) ++ t) e

/-- a complete frame with first byte `b1` and body `bd` is rejected for the reason `e` -/
def Rejects (b1 : UInt8) (bd : Bytes) (e : Error) : Prop :=
  match typeNum b1 with
  | 1 => if bd = [] then e = .PayloadRequired else ConnectFails bd e
  | 2 => if bd = [] then e = .PayloadRequired else ConnAckFails bd e
  | 3 => if bd = [] then e = .PayloadRequired else PublishFails b1 bd e
  | 4 => if bd = [] then e = .PayloadRequired else AckFails pubackCode bd e
  | 5 => if bd = [] then e = .PayloadRequired else AckFails pubrecCode bd e
  | 6 => if bd = [] then e = .PayloadRequired else AckFails pubrelCode bd e
  | 7 => if bd = [] then e = .PayloadRequired else AckFails pubcompCode bd e
  | 8 => if bd = [] then e = .PayloadRequired else SubscribeFails bd e
  | 9 => if bd = [] then e = .PayloadRequired else CodesFail subCode bd e
  | 10 => if bd = [] then e = .PayloadRequired else UnsubscribeFails bd e
  | 11 => if bd = [] then e = .PayloadRequired else CodesFail unsubCode bd e
  | 12 | 13 => False
  | 14 => if bd = [] then e = .PayloadRequired else DisconnectFails b1 bd e
  | n => e = .InvalidPacketType (UInt8.ofNat n)

end Spec.V5
