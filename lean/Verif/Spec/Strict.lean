import Verif.Spec.Skim
import Verif.Spec.V4
/-! MQTT 3.1.1 frames without any of the liberties the reader tolerates. -/
namespace Spec.V4
open Mqtt Mqtt.V4 Spec

/-- 2.2.2: the low four bits of the first byte: 0010 for PUBREL, SUBSCRIBE and UNSUBSCRIBE, the flags of PUBLISH, else 0 -/
def LowBitsOk (b1 : UInt8) : Prop :=
  typeNum b1 = 3 ∨ b1.toNat % 16 = if typeNum b1 = 6 ∨ typeNum b1 = 8 ∨ typeNum b1 = 10 then 2 else 0

/-- the remaining length is encoded with as few bytes as possible -/
def Shortest (bs : Bytes) : Prop := ∀ cs, IsVbi cs → vbiValue cs = vbiValue bs → bs.length ≤ cs.length

/-- subscription filters whose option bytes have only the two QoS bits -/
inductive PlainOptions : Bytes → List SubscribeFilter → Prop where
  | nil : PlainOptions [] []
  | cons (path : String) (q : QoS) (opt : UInt8) (bd : Bytes) (fs : List SubscribeFilter)
      (ho : opt.toNat < 4) (h : PlainOptions bd fs) : PlainOptions (str path ++ [opt] ++ bd) (⟨path, q⟩ :: fs)

/-- bytes of a length-prefixed text, nothing if it is empty -/
def textLen (s : String) : Nat := if s = "" then 0 else 2 + (utf8 s).length

/-- bytes of a will -/
def willLen : Option LastWill → Nat
  | some w => 4 + (utf8 w.topic).length + w.message.length
  | none => 0

/-- bytes of a user name and a password -/
def loginLen : Option Login → Nat
  | some l => textLen l.username + textLen l.password
  | none => 0

/-- the body of a frame that the reader takes for the packet has no reserved bit set and no bytes that contribute nothing -/
def NothingElse (bd : Bytes) : Packet → Prop
  | .Connect c => (∃ flags, bd[7]? = some flags ∧ ¬ bit flags 0) ∧
      bd.length = 12 + (utf8 c.client_id).length
        + willLen c.last_will + loginLen c.login
  | .ConnAck _ => bd.length = 2 ∧ ∃ flags, bd[0]? = some flags ∧ flags.toNat ≤ 1
  | .PubAck _ => bd.length = 2
  | .PubRec _ => bd.length = 2
  | .PubRel _ => bd.length = 2
  | .PubComp _ => bd.length = 2
  | .Subscribe s => PlainOptions (bd.drop 2) s.filters
  | .PingReq => bd = []
  | .PingResp => bd = []
  | .Disconnect => bd = []
  | _ => True

/-- a frame that says the packet and nothing else -/
def Strict (f : RawFrame) (p : Packet) : Prop := LowBitsOk f.byte1 ∧ Shortest f.len ∧ NothingElse f.body p

end Spec.V4
