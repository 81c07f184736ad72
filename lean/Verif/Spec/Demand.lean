import Verif.Model.Base
/-! A blocking client: it calls the decoder; when told `InsufficientBytes(n)` with its buffer
untouched it fetches exactly `n` bytes from the network and calls again. -/
namespace Spec
open Mqtt (Bytes Res M Error)

/-- `Demand rd buf net k r buf' net'`: starting with `buf` buffered and `net` still to come from the
network, the client ends after exactly `k` calls of `rd`, the last of which returned `r`; then `buf'`
is buffered and `net'` is still to come. -/
inductive Demand {P : Type} (rd : M P) : Bytes → Bytes → Nat → Res P → Bytes → Bytes → Prop where
  /-- the call does not ask for more bytes: finished -/
  | done {buf net buf' : Bytes} {r : Res P} (h : rd buf = (r, buf'))
      (hr : ¬ ((∃ n, r = .err (.InsufficientBytes n)) ∧ buf' = buf)) :
      Demand rd buf net 1 r buf' net
  /-- the call asks for `n` bytes: fetch exactly those and call again -/
  | fetch {buf got net buf' net' : Bytes} {n k : Nat} {r : Res P}
      (h : rd buf = (.err (.InsufficientBytes n), buf)) (hn : got.length = n)
      (ht : Demand rd (buf ++ got) net k r buf' net') :
      Demand rd buf (got ++ net) (k + 1) r buf' net'

end Spec
