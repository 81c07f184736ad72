import Verif.Model.V5Packets
/-! The text shared by files of src/v5 that are copies of each other, written once.  These are not
further functions of the crate: `V5Packets` models every file's functions on their own, and
Proof/V5Shared proves that each of them is an instance of the shared one, so that a proof about the
shared text holds for each copy (and fails when a copy changes). -/
namespace Mqtt.V5
open Mqtt

/-- puback.rs 117-129, pubrec.rs 113-125, pubrel.rs 104-116, pubcomp.rs 105-117, suback.rs 94-106,
unsuback.rs 105-117 `len` -/
def ReasonProps.len (p : ReasonProps) : Nat :=
  let len := 0
  let len := addSome p.reason_string (fun r => 1 + 2 + strLen r) len
  addUserPropsLen p.user_properties len

/-- puback.rs 147-160, pubrec.rs 143-156, pubrel.rs 134-147, pubcomp.rs 135-148,
suback.rs 124-137, unsuback.rs 135-148: the arms -/
def ReasonProps.step : PropStep ReasonProps := fun ty prop st =>
  match ty with
  | .ReasonString => armStr fun v => { st with reason_string := some v }
  | .UserProperty => armPair fun kv => { st with user_properties := st.user_properties ++ [kv] }
  | _ => M.fail (.InvalidPropertyType prop)

/-- puback.rs 131-167, pubrec.rs 127-163, pubrel.rs 118-154, pubcomp.rs 119-155,
suback.rs 108-144, unsuback.rs 119-155 `extract` -/
def ReasonProps.extract : M (Option ReasonProps) :=
  extractProps ReasonProps.step { reason_string := none, user_properties := [] }

/-- puback.rs 169-185, pubrec.rs 165-181, pubrel.rs 156-172, pubcomp.rs 157-173,
suback.rs 146-162, unsuback.rs 157-173 `write` -/
def ReasonProps.write (p : ReasonProps) : M Unit := do
  let len := p.len
  let _ ← write_remaining_length len
  ifSome p.reason_string (putPropStr .ReasonString)
  forEach p.user_properties (putPropPair .UserProperty)

/-- `len` of puback.rs 36-54, pubrec.rs 36-53, pubrel.rs 29-44, pubcomp.rs 29-44 (textually the
same); `success` is the `Success` variant -/
def Ack.len {R : Type} [DecidableEq R] (success : R) (a : Ack R) : Nat :=
  let len := 2 + 1
  if a.reason = success ∧ a.properties = none then 2
  else match a.properties with
    | some properties => len + propSectionLen properties.len
    | none => len

/-- `read` of puback.rs 56-87, pubrec.rs 55-83, pubrel.rs 46-74, pubcomp.rs 46-75 (textually the
same); `reason` is that file's function `reason` -/
def Ack.readM {R : Type} (success : R) (reason : UInt8 → Res R) (h : FixedHeader) :
    M (Ack R) := do
  advance h.fixed_header_len
  let pkid ← read_u16
  if h.remaining_len = 2 then pure { pkid := pkid, reason := success, properties := none } else
  let ack_reason ← read_u8
  if h.remaining_len < 4 then do
    let r ← M.lift (reason ack_reason)
    pure { pkid := pkid, reason := r, properties := none }
  else
  let r ← M.lift (reason ack_reason)
  let properties ← ReasonProps.extract
  pure { pkid := pkid, reason := r, properties := properties }

/-- `write` of puback.rs 89-107, pubrec.rs 85-103, pubrel.rs 76-94, pubcomp.rs 77-95 (the same up
to the first byte) -/
def Ack.write {R : Type} [DecidableEq R] (byte1 : UInt8) (success : R) (toU8 : R → UInt8)
    (a : Ack R) : M Nat := do
  let len := a.len success
  putU8 byte1
  let count ← write_remaining_length len
  putU16 a.pkid
  if a.reason = success ∧ a.properties = none then pure 4 else
  putU8 (toU8 a.reason)
  ifSome a.properties ReasonProps.write
  pure (1 + count + len)

end Mqtt.V5
