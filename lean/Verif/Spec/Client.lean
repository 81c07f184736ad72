import Verif.Model.Base
/-! A client of the decoder: it keeps a buffer, appends every chunk that arrives from the network
and then calls `read` until it has to wait. Written as relations, so no fuel is involved. -/
namespace Spec
open Mqtt (Bytes Res M Error)

section
variable {P : Type} (rd : M P) (retry : Error → Bytes → Bytes → Prop)

/-- `Pump rd retry s ps e r`: calling `rd` repeatedly on buffer `s` returns the packets `ps`, and
then either asks to wait (`e = none`) or fails with `e`; `r` is the buffer afterwards.
`retry e before after` says which errors the client answers by waiting for more bytes. -/
inductive Pump : Bytes → List P → Option Error → Bytes → Prop where
  | wait {s s' : Bytes} {e : Error} (h : rd s = (.err e, s')) (hr : retry e s s') :
      Pump s [] none s'
  | fail {s s' : Bytes} {e : Error} (h : rd s = (.err e, s')) (hr : ¬ retry e s s') :
      Pump s [] (some e) s'
  | step {s s' : Bytes} {p : P} {ps : List P} {e : Option Error} {r : Bytes}
      (h : rd s = (.ok p, s')) (ht : Pump s' ps e r) : Pump s (p :: ps) e r

/-- `Feed rd retry buf chunks ps e r`: with `buf` buffered, the chunks arrive one by one, each is
appended and the buffer pumped; after a fatal error the remaining bytes stay unread. -/
inductive Feed : Bytes → List Bytes → List P → Option Error → Bytes → Prop where
  | nil {buf : Bytes} : Feed buf [] [] none buf
  | more {buf c r : Bytes} {cs : List Bytes} {ps qs : List P} {e : Option Error} {r' : Bytes}
      (h : Pump rd retry (buf ++ c) ps none r) (ht : Feed r cs qs e r') :
      Feed buf (c :: cs) (ps ++ qs) e r'
  | dead {buf c r : Bytes} {cs : List Bytes} {ps : List P} {e : Error}
      (h : Pump rd retry (buf ++ c) ps (some e) r) : Feed buf (c :: cs) ps (some e) (r ++ cs.flatten)
end

/-- wait on every `InsufficientBytes` -/
def retryInsufficient (e : Error) (_ _ : Bytes) : Prop := ∃ n, e = .InsufficientBytes n
/-- wait on `InsufficientBytes` only if the buffer was left as it was -/
def retryUnconsumed (e : Error) (before after : Bytes) : Prop :=
  (∃ n, e = .InsufficientBytes n) ∧ after = before

end Spec
