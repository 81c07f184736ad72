import Verif.Proof.Demand
import Verif.Proof.V4Spec
import Verif.Proof.V5Spec
/-! Clients of the decoder: C66 (size limit), C67 (blocking client). -/
namespace Props
open Mqtt Spec

/-! ### C66 -/

theorem limit_gates_generic {P : Type} (rf : FixedHeader → Bytes → Res P) (m m' : Nat) (hm : m ≤ m') (s : Bytes) :
    readG rf m s = readG rf m' s
    ∨ ∃ b1 bs rest, s = b1 :: (bs ++ rest) ∧ IsVbi bs ∧ m < vbiValue bs
        ∧ readG rf m s = (.err (.PayloadSizeLimitExceeded (vbiValue bs)), s) := by
  rcases check_total s m with ⟨h, hc⟩ | ⟨e, hc⟩
  · left
    obtain ⟨b1, bs, rest, rfl, hv, hx, hr, rfl⟩ := (check_ok_iff _ _ _).1 hc
    rw [readG_ok rf m hc, readG_ok rf m' (check_frame b1 bs rest m' hv (by omega) hr)]
  · rcases check_err_cases m hc with ⟨n, rfl⟩ | rfl | ⟨n, rfl⟩
    · left
      rw [readG_err rf m hc, readG_err rf m' (e := .InsufficientBytes n)]
      rcases (check_insufficient_iff m s n).1 hc with h | h | ⟨b1, bs, t, h1, h2, h3, h4⟩
      · exact (check_insufficient_iff m' s n).2 (.inl h)
      · exact (check_insufficient_iff m' s n).2 (.inr (.inl h))
      · exact (check_insufficient_iff m' s n).2 (.inr (.inr ⟨b1, bs, t, h1, h2, by omega, h4⟩))
    · left
      rw [readG_err rf m hc, readG_err rf m' ((check_malformed_iff m' s).2 ((check_malformed_iff m s).1 hc))]
    · right
      obtain ⟨b1, bs, t, rfl, hv, rfl, hx⟩ := (check_limit_iff m s n).1 hc
      exact ⟨b1, bs, t, rfl, hv, hx, readG_err rf m hc⟩

/-- C66 (v4): the size limit only gates: raising it from `m` to `m'` changes the outcome of `read` (its
result or what it leaves in the stream) only for a stream whose header announces more than `m`
bytes, and there the outcome with limit `m` is `PayloadSizeLimitExceeded` with the stream untouched. -/
theorem C66_v4_limit_only_gates (m m' : Nat) (hm : m ≤ m') (s : Bytes) :
    V4.read m s = V4.read m' s
    ∨ ∃ b1 bs rest, s = b1 :: (bs ++ rest) ∧ IsVbi bs ∧ m < vbiValue bs
        ∧ V4.read m s = (.err (.PayloadSizeLimitExceeded (vbiValue bs)), s) := by
  rw [v4_read_eq, v4_read_eq]; exact limit_gates_generic _ m m' hm s

/-- C66 (v5) -/
theorem C66_v5_limit_only_gates (m m' : Nat) (hm : m ≤ m') (s : Bytes) :
    V5.read m s = V5.read m' s
    ∨ ∃ b1 bs rest, s = b1 :: (bs ++ rest) ∧ IsVbi bs ∧ m < vbiValue bs
        ∧ V5.read m s = (.err (.PayloadSizeLimitExceeded (vbiValue bs)), s) := by
  rw [v5_read_eq, v5_read_eq]; exact limit_gates_generic _ m m' hm s

/-- C66: so a packet accepted with limit `m` is accepted, as the same packet, with every larger limit. -/
theorem C66_v4_limit_monotone (m m' : Nat) (hm : m ≤ m') (s s' : Bytes) (p : V4.Packet)
    (h : V4.read m s = (.ok p, s')) : V4.read m' s = (.ok p, s') := by
  rcases C66_v4_limit_only_gates m m' hm s with e | ⟨_, _, _, _, _, _, e⟩
  · rw [← e, h]
  · rw [h] at e; cases e

/-- hypotheses met -/
example : V4.read 1000 [0x40, 2, 0, 7, 9] = (.ok (.PubAck ⟨7⟩), [9]) :=
  C66_v4_limit_monotone 2 1000 (by decide) [0x40, 2, 0, 7, 9] [9] _ (by decide +kernel)


/-- C66 (v5) -/
theorem C66_v5_limit_monotone (m m' : Nat) (hm : m ≤ m') (s s' : Bytes) (p : V5.Packet)
    (h : V5.read m s = (.ok p, s')) : V5.read m' s = (.ok p, s') := by
  rcases C66_v5_limit_only_gates m m' hm s with e | ⟨_, _, _, _, _, _, e⟩
  · rw [← e, h]
  · rw [h] at e; cases e

/-- both alternatives happen -/
example : V4.read 2 [0x40, 2, 0, 7] = V4.read 9 [0x40, 2, 0, 7]
    ∧ V4.read 1 [0x40, 2, 0, 7] = (.err (.PayloadSizeLimitExceeded 2), [0x40, 2, 0, 7])
    ∧ V4.read 2 [0x40, 2, 0, 7] = (.ok (.PubAck ⟨7⟩), []) := by decide +kernel
example : V5.read 1 [0x40, 2, 0, 7] = (.err (.PayloadSizeLimitExceeded 2), [0x40, 2, 0, 7])
    ∧ V5.read 2 [0x40, 2, 0, 7] = (.ok (.PubAck ⟨7, .Success, none⟩), []) := by decide +kernel

/-! ### C67 -/

/-- C67 (v4): a client that starts with an empty buffer and fetches exactly the number of bytes each
`InsufficientBytes(n)` asks for reads a frame without fetching a byte beyond it, ends with an empty
buffer and the result that `read` gives on that frame, and calls `read` exactly `bs.length + 1` times,
plus once if the body is not empty (`bs` are the length bytes; so at most six times).  A frame over the
limit, or with a malformed length, is reported after fetching only the header.  No other run of that
client exists. -/
theorem C67_v4_blocking_client (max : Nat) (b1 : UInt8) (rest : Bytes) :
    (∀ bs bd, IsVbi bs → vbiValue bs = bd.length → bd.length ≤ max →
      ∃ r, V4.read max (b1 :: (bs ++ bd)) = (r, []) ∧
        Demand (V4.read max) [] (b1 :: (bs ++ (bd ++ rest)))
          (bs.length + 1 + (if bd = [] then 0 else 1)) r [] rest)
    ∧ (∀ bs, IsVbi bs → max < vbiValue bs →
        Demand (V4.read max) [] (b1 :: (bs ++ rest)) (bs.length + 1)
          (.err (.PayloadSizeLimitExceeded (vbiValue bs))) (b1 :: bs) rest)
    ∧ (∀ a, a.length = 4 → (∀ b ∈ a, 128 ≤ b.toNat) →
        Demand (V4.read max) [] (b1 :: (a ++ rest)) 5 (.err .MalformedRemainingLength) (b1 :: a) rest) := by
  rw [v4_read_eq]
  refine ⟨fun bs bd hv hl hm => ?_, fun bs hv hm => demand_limit _ max b1 bs rest hv hm,
    fun a hl ha => demand_malformed _ max b1 a rest hl ha⟩
  have hc := check_frame b1 bs bd max hv (by omega) (by omega)
  have hr := readG_ok V4.readFrame max hc
  have he : List.drop (FixedHeader.frame_length ⟨b1, bs.length + 1, vbiValue bs⟩) (b1 :: (bs ++ bd)) = [] := by
    apply List.drop_eq_nil_of_le; simp [FixedHeader.frame_length]; omega
  rw [he] at hr
  exact ⟨_, hr, demand_frame _ max b1 bs bd rest hv hl hm _ hr⟩

/-- C67 (v5) -/
theorem C67_v5_blocking_client (max : Nat) (b1 : UInt8) (rest : Bytes) :
    (∀ bs bd, IsVbi bs → vbiValue bs = bd.length → bd.length ≤ max →
      ∃ r, V5.read max (b1 :: (bs ++ bd)) = (r, []) ∧
        Demand (V5.read max) [] (b1 :: (bs ++ (bd ++ rest)))
          (bs.length + 1 + (if bd = [] then 0 else 1)) r [] rest)
    ∧ (∀ bs, IsVbi bs → max < vbiValue bs →
        Demand (V5.read max) [] (b1 :: (bs ++ rest)) (bs.length + 1)
          (.err (.PayloadSizeLimitExceeded (vbiValue bs))) (b1 :: bs) rest)
    ∧ (∀ a, a.length = 4 → (∀ b ∈ a, 128 ≤ b.toNat) →
        Demand (V5.read max) [] (b1 :: (a ++ rest)) 5 (.err .MalformedRemainingLength) (b1 :: a) rest) := by
  rw [v5_read_eq]
  refine ⟨fun bs bd hv hl hm => ?_, fun bs hv hm => demand_limit _ max b1 bs rest hv hm,
    fun a hl ha => demand_malformed _ max b1 a rest hl ha⟩
  have hc := check_frame b1 bs bd max hv (by omega) (by omega)
  have hr := readG_ok V5.readFrame max hc
  have he : List.drop (FixedHeader.frame_length ⟨b1, bs.length + 1, vbiValue bs⟩) (b1 :: (bs ++ bd)) = [] := by
    apply List.drop_eq_nil_of_le; simp [FixedHeader.frame_length]; omega
  rw [he] at hr
  exact ⟨_, hr, demand_frame _ max b1 bs bd rest hv hl hm _ hr⟩

/-- C67: the client is deterministic: these are its only runs (for every reader and network). -/
theorem C67_client_deterministic {P : Type} (rd : M P) (buf net b n b' n' : Bytes) (k k' : Nat) (r r' : Res P)
    (h : Demand rd buf net k r b n) (h' : Demand rd buf net k' r' b' n') :
    k' = k ∧ r' = r ∧ b' = b ∧ n' = n := demand_unique h h'

/-- a PUBACK followed by the start of another packet, fetched 2 + 2 bytes, three calls -/
example : Demand (V4.read 9) [] [0x40, 2, 0, 7, 0x40] 3 (.ok (.PubAck ⟨7⟩)) [] [0x40] := by
  obtain ⟨r, hr, hd⟩ := (C67_v4_blocking_client 9 0x40 [0x40]).1 [2] [0, 7]
    ((isVbi_singleton 2).2 (by decide)) rfl (by decide)
  have e : V4.read 9 (0x40 :: ([2] ++ [0, 7])) = (.ok (.PubAck ⟨7⟩), []) := by decide +kernel
  rw [e] at hr; cases hr
  exact hd
example : Demand (V5.read 9) [] [0x40, 2, 0, 7, 0x40] 3 (.ok (.PubAck ⟨7, .Success, none⟩)) [] [0x40] := by
  obtain ⟨r, hr, hd⟩ := (C67_v5_blocking_client 9 0x40 [0x40]).1 [2] [0, 7]
    ((isVbi_singleton 2).2 (by decide)) rfl (by decide)
  have e : V5.read 9 (0x40 :: ([2] ++ [0, 7])) = (.ok (.PubAck ⟨7, .Success, none⟩), []) := by decide +kernel
  rw [e] at hr; cases hr
  exact hd

end Props
