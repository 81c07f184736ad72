import Verif.Spec.Direct
import Verif.Spec.Errors
import Verif.Spec.ErrorsV5
/-! The packets whose own `read` looks at the length `n` in the header it is given: what they return and how they
fail when that header announces any length, not only the length of the body `bd`. -/
namespace Spec
open Mqtt

/-- Calling the reader with any header of `fixed_header_len` bytes `hd` before any body `bd`: it returns `a`
exactly when `good` says so, and fails with `e` exactly when `bad` says so.  Both see the header's first byte, the
length it announces and the body. -/
def ReadsExactlyAs {α : Type} (m : FixedHeader → M α) (good : UInt8 → Nat → Bytes → α → Prop)
    (bad : UInt8 → Nat → Bytes → Error → Prop) : Prop :=
  ∀ (h : FixedHeader) (hd bd : Bytes), hd.length = h.fixed_header_len → bd.length ≤ maxRemaining →
    (∀ a, (m h (hd ++ bd)).1 = .ok a ↔ good h.byte1 h.remaining_len bd a)
    ∧ (∀ e, (m h (hd ++ bd)).1 = .err e ↔ bad h.byte1 h.remaining_len bd e)

namespace V5
/-- PUBACK, PUBREC, PUBREL, PUBCOMP: two announced bytes are a packet identifier, any other number makes the
reader want a reason code, four or more a property section too -/
inductive AckAs {R : Type} (code : R → Nat) : Nat → Bytes → Mqtt.V5.Ack R → Prop where
  | short {k : UInt16} {r t} : code r = 0 → AckAs code 2 (u16 k.toNat ++ t) ⟨k, r, none⟩
  | reason {n} {k : UInt16} {r t} : n ≠ 2 → n < 4 → AckAs code n (u16 k.toNat ++ u8 (code r) ++ t) ⟨k, r, none⟩
  | full {n} {k : UInt16} {r props o t} : 4 ≤ n → SetDenotes reasonKind reasonOf props o →
      AckAs code n (u16 k.toNat ++ u8 (code r) ++ props ++ t) ⟨k, r, o⟩

/-- … and their errors -/
inductive AckFailsAs {R : Type} (code : R → Nat) : Nat → Bytes → Error → Prop where
  | pkid {n t e} : U16Fails t e → AckFailsAs code n t e
  | missing {n k t e} : n ≠ 2 → k < 65536 → U8Fails t e → AckFailsAs code n (u16 k ++ t) e
  | badCode {n k c t} : n ≠ 2 → k < 65536 → (∀ r, c.toNat ≠ code r) →
      AckFailsAs code n (u16 k ++ [c] ++ t) (.InvalidConnectReturnCode c)
  | props {n k r t e} : 4 ≤ n → k < 65536 → SecFails reasonKind t e →
      AckFailsAs code n (u16 k ++ u8 (code r) ++ t) e

/-- DISCONNECT: first byte, announced length and body -/
inductive DisconnectAs : UInt8 → Nat → Bytes → Mqtt.V5.Disconnect → Prop where
  | empty {t} : DisconnectAs 0xE0 0 t ⟨.NormalDisconnection, none⟩
  | full {n r props o t} : n ≠ 0 → SetDenotes disconnectKind disconnectOf props o →
      DisconnectAs 0xE0 n (u8 (disconnectCode r) ++ props ++ t) ⟨r, o⟩

/-- … and its errors -/
inductive DisconnectFailsAs : UInt8 → Nat → Bytes → Error → Prop where
  | type {b n t} : b.toNat / 16 ≠ 14 → DisconnectFailsAs b n t (.InvalidPacketType (UInt8.ofNat (b.toNat / 16)))
  | reserved {b n t} : b.toNat / 16 = 14 → b.toNat % 16 ≠ 0 → DisconnectFailsAs b n t .MalformedPacket
  | missing {n t e} : n ≠ 0 → U8Fails t e → DisconnectFailsAs 0xE0 n t e
  | badCode {n c t} : n ≠ 0 → (∀ r, c.toNat ≠ disconnectCode r) →
      DisconnectFailsAs 0xE0 n ([c] ++ t) (.InvalidConnectReturnCode c)
  | props {n r t e} : n ≠ 0 → SecFails disconnectKind t e → DisconnectFailsAs 0xE0 n (u8 (disconnectCode r) ++ t) e
end V5

namespace V4
/-- UNSUBSCRIBE: the announced length has to be met exactly by the packet identifier and the topics at the start of
the body; what follows is ignored -/
inductive UnsubscribeAs : Nat → Bytes → Mqtt.V4.Unsubscribe → Prop where
  | mk {k : UInt16} {ts t} : (∀ v ∈ ts, fits (utf8 v).length) →
      UnsubscribeAs (2 + (ts.flatMap str).length) (u16 k.toNat ++ ts.flatMap str ++ t) ⟨k, ts⟩

/-- … and its errors: a malformed string where the topics so far do not yet make up the announced length -/
inductive UnsubscribeFailsAs : Nat → Bytes → Error → Prop where
  | pkid {n t e} : U16Fails t e → UnsubscribeFailsAs n t e
  | topic {n k ts t e} : k < 65536 → (∀ v ∈ ts, fits (utf8 v).length) → 2 + (List.flatMap str ts).length < n →
      StrFails t e → UnsubscribeFailsAs n (u16 k ++ List.flatMap str ts ++ t) e

/-- UNSUBACK: exactly two announced bytes -/
inductive UnsubAckAs : Nat → Bytes → Mqtt.V4.UnsubAck → Prop where
  | mk {k : UInt16} {t} : UnsubAckAs 2 (u16 k.toNat ++ t) ⟨k⟩

/-- … and its errors -/
inductive UnsubAckFailsAs : Nat → Bytes → Error → Prop where
  | length {n t} : n ≠ 2 → UnsubAckFailsAs n t .PayloadSizeIncorrect
  | pkid {t e} : U16Fails t e → UnsubAckFailsAs 2 t e
end V4
end Spec
