import Verif.Proof.Vocabulary
import Verif.Props.WriteExact
/-! C93: the errors each entry point can report, exactly. -/
namespace Props
open Mqtt Spec

theorem framing_voc {e : Error} (h : checkError e) : ∃ max s, FramingFails max s e := by
  cases e with
  | InsufficientBytes n =>
    have hn : n ≤ maxRemaining := h.2
    refine ⟨n, 0x30 :: (vbi n ++ []), ?_⟩
    have := FramingFails.body (max := n) (b1 := 0x30) (t := []) (vbi_isVbi hn) (by rw [vbiValue_vbi hn]; exact Nat.le_refl _)
      (by rw [vbiValue_vbi hn]; exact h.1)
    rw [vbiValue_vbi hn] at this
    exact this
  | PayloadSizeLimitExceeded n =>
    have hn : n ≤ maxRemaining := h.2
    refine ⟨0, 0x30 :: (vbi n ++ []), ?_⟩
    have := FramingFails.limit (max := 0) (b1 := 0x30) (t := []) (vbi_isVbi hn) (by rw [vbiValue_vbi hn]; exact h.1)
    rw [vbiValue_vbi hn] at this
    exact this
  | MalformedRemainingLength =>
    exact ⟨0, [0x30, 255, 255, 255, 255], .length (.inr ⟨[255, 255, 255, 255], [], rfl, rfl, by decide, rfl⟩)⟩
  | _ => exact absurd h id

/-- C93: `check` reports exactly these errors. -/
theorem C93_check_errors (e : Error) : (∃ s max, check s max = .err e) ↔ checkError e := by
  constructor
  · rintro ⟨s, max, h⟩
    exact FramingFails.voc ((check_err_iff max s e).1 h)
  · intro h
    obtain ⟨max, s, h⟩ := framing_voc h
    exact ⟨s, max, (check_err_iff max s e).2 h⟩

theorem framing_at (max : Nat) (e : Error) : (∃ s, FramingFails max s e) ↔ checkErrorAt max e := by
  constructor
  · rintro ⟨s, h⟩
    have hv := FramingFails.voc h
    cases h with
    | empty => exact ⟨by decide, .inl (by decide)⟩
    | length hf =>
      rcases hf with ⟨_, _, h⟩ | ⟨_, _, _, _, _, h⟩
      · subst h; exact ⟨by decide, .inl (by decide)⟩
      · subst h; trivial
    | limit _ hm => exact ⟨hm, hv.2⟩
    | body _ hm hl => exact ⟨hv.1, .inr ⟨by omega, hv.2⟩⟩
  · intro h
    cases e with
    | InsufficientBytes n =>
      obtain ⟨h1, h⟩ := h
      by_cases h2 : n = 2
      · subst h2; exact ⟨[], .empty⟩
      by_cases h3 : n = 1
      · subst h3; exact ⟨[0], (check_err_iff max [0] _).1 rfl⟩
      have hn : n ≤ maxRemaining := by unfold maxRemaining; omega
      refine ⟨0x30 :: (vbi n ++ []), ?_⟩
      have := FramingFails.body (max := max) (b1 := 0x30) (t := []) (vbi_isVbi hn) (by rw [vbiValue_vbi hn]; omega)
        (by rw [vbiValue_vbi hn]; exact h1)
      rw [vbiValue_vbi hn] at this
      exact this
    | PayloadSizeLimitExceeded n =>
      have hn : n ≤ maxRemaining := h.2
      refine ⟨0x30 :: (vbi n ++ []), ?_⟩
      have := FramingFails.limit (max := max) (b1 := 0x30) (t := []) (vbi_isVbi hn) (by rw [vbiValue_vbi hn]; exact h.1)
      rw [vbiValue_vbi hn] at this
      exact this
    | MalformedRemainingLength =>
      exact ⟨[0x30, 255, 255, 255, 255], .length (.inr ⟨[255, 255, 255, 255], [], rfl, rfl, by decide, rfl⟩)⟩
    | _ => exact absurd h id

/-- C93: and with a given limit exactly these; for `v4::read` and `v5::read` they are the errors that leave the buffer as it
was. -/
theorem C93_framing_errors_at (max : Nat) (e : Error) :
    ((∃ s, check s max = .err e) ↔ checkErrorAt max e)
    ∧ ((∃ s, V4.read max s = (.err e, s)) ↔ checkErrorAt max e)
    ∧ ((∃ s, V5.read max s = (.err e, s)) ↔ checkErrorAt max e) := by
  rw [← framing_at max e]
  refine ⟨exists_congr fun s => check_err_iff max s e, exists_congr fun s => ?_, exists_congr fun s => ?_⟩
  · rw [V4.read_err_iff]
    constructor
    · rintro (⟨h, _⟩ | ⟨b1, bs, bd, h, _⟩)
      · exact h
      · have := congrArg List.length h
        simp at this; omega
    · exact fun h => .inl ⟨h, rfl⟩
  · rw [V5.read_err_iff]
    constructor
    · rintro (⟨h, _⟩ | ⟨b1, bs, bd, h, _⟩)
      · exact h
      · have := congrArg List.length h
        simp at this; omega
    · exact fun h => .inl ⟨h, rfl⟩

/-- limit 5: a body of 6 is refused by its size, never waited for -/
example : checkErrorAt 5 (.PayloadSizeLimitExceeded 6) ∧ ¬ checkErrorAt 5 (.InsufficientBytes 6)
    ∧ checkErrorAt 5 (.InsufficientBytes 5) ∧ checkErrorAt 0 (.InsufficientBytes 2) := by
  simp [checkErrorAt]

theorem v4_of_framing {e : Error} (h : checkError e) : ∃ max s, (V4.read max s).1 = .err e := by
  obtain ⟨max, s, h⟩ := framing_voc h
  exact ⟨max, s, by rw [(V4.read_err_iff e max s s).2 (.inl ⟨h, rfl⟩)]⟩

theorem v5_of_framing {e : Error} (h : checkError e) : ∃ max s, (V5.read max s).1 = .err e := by
  obtain ⟨max, s, h⟩ := framing_voc h
  exact ⟨max, s, by rw [(V5.read_err_iff e max s s).2 (.inl ⟨h, rfl⟩)]⟩

/-- C93: `v4::read` reports exactly these errors. -/
theorem C93_v4_read_errors (e : Error) : (∃ max s, (V4.read max s).1 = .err e) ↔ Spec.V4.readError e := by
  constructor
  · rintro ⟨max, s, h⟩
    have h : V4.read max s = (.err e, (V4.read max s).2) := by rw [← h]
    rcases (V4.read_err_iff e max s _).1 h with ⟨h, _⟩ | ⟨b1, bs, bd, _, _, _, _, h⟩
    · exact checkError.v4 (FramingFails.voc h)
    · exact V4.Rejects.voc h
  · intro h
    cases e with
    | InsufficientBytes n => exact v4_of_framing h
    | MalformedRemainingLength => exact v4_of_framing h
    | PayloadSizeLimitExceeded n => exact v4_of_framing h
    | InvalidPacketType n =>
      rcases h with rfl | rfl
      · exact ⟨9, [0x00, 0], by decide +kernel⟩
      · exact ⟨9, [0xF0, 0], by decide +kernel⟩
    | PayloadRequired => exact ⟨9, [0x10, 0], by decide +kernel⟩
    | MalformedPacket => exact ⟨9, [0x40, 1, 0], by decide +kernel⟩
    | BoundaryCrossed n =>
      obtain ⟨h1, h2⟩ := h
      refine V4.voc_of_rejects (b1 := 0x30) (bd := u16 n) ?_ (by rw [u16_len]; decide)
      simp only [Spec.V4.Rejects, show Spec.V4.typeNum 0x30 = 3 by decide]
      rw [if_neg (by simp [u16])]
      refine .topic (by decide) (.inl (.inr ⟨n, [], by omega, by simp, h1, rfl⟩))
    | TopicNotUtf8 => exact ⟨9, [0x30, 3, 0, 1, 255], by decide +kernel⟩
    | InvalidProtocol => exact ⟨9, [0x10, 4, 0, 1, 97, 4], by decide +kernel⟩
    | InvalidProtocolLevel n =>
      refine V4.voc_of_rejects (b1 := 0x10) (bd := str "MQTT" ++ [n] ++ []) (by
        simp only [Spec.V4.Rejects, show Spec.V4.typeNum 0x10 = 1 by decide]
        rw [if_neg (by simp [u16])]
        exact .badLevel h.1 h.2) (by simp [str_len]; decide +kernel)
    | IncorrectPacketFormat => exact ⟨99, [0x10, 12, 0, 4, 77, 81, 84, 84, 4, 8, 0, 0, 0, 0], by decide +kernel⟩
    | InvalidQoS n => subst h; exact ⟨9, [0x36, 1, 0], by decide +kernel⟩
    | InvalidConnectReturnCode n =>
      refine V4.voc_of_rejects (b1 := 0x20) (bd := [0] ++ [n] ++ []) ?_ (by simp; decide)
      simp only [Spec.V4.Rejects, show Spec.V4.typeNum 0x20 = 2 by decide]
      rw [if_neg (by simp [u16])]
      refine .badCode fun r => ?_
      have h : 6 ≤ n.toNat := h
      cases r <;> simp only [Spec.V4.returnCode] <;> omega
    | PacketIdZero => exact ⟨9, [0x32, 5, 0, 1, 97, 0, 0], by decide +kernel⟩
    | EmptySubscription => exact ⟨9, [0x82, 2, 0, 1], by decide +kernel⟩
    | InvalidSubscribeReasonCode n =>
      refine V4.voc_of_rejects (b1 := 0x90) (bd := u16 1 ++ List.flatMap (fun r => u8 (Spec.V4.subCode r)) [] ++ [n] ++ []) ?_ (by simp [u16_len]; decide)
      simp only [Spec.V4.Rejects, show Spec.V4.typeNum 0x90 = 9 by decide]
      rw [if_neg (by simp [u16])]
      refine .badCode (by decide) fun r hr => ?_
      have e : n = UInt8.ofNat (Spec.V4.subCode r) := by rw [← hr]; simp
      obtain ⟨h0, h1, h2, h3⟩ := h
      rcases r with (q | _)
      · cases q
        · exact h0 e
        · exact h1 e
        · exact h2 e
      · exact h3 e
    | PayloadSizeIncorrect => exact ⟨9, [0xB0, 1, 0], by decide +kernel⟩
    | _ => exact absurd h id

/-- C93: `v5::read` reports exactly these errors. -/
theorem C93_v5_read_errors (e : Error) : (∃ max s, (V5.read max s).1 = .err e) ↔ Spec.V5.readError e := by
  constructor
  · rintro ⟨max, s, h⟩
    have h : V5.read max s = (.err e, (V5.read max s).2) := by rw [← h]
    rcases (V5.read_err_iff e max s _).1 h with ⟨h, _⟩ | ⟨b1, bs, bd, _, _, _, _, h⟩
    · exact checkError.v5 (FramingFails.voc h)
    · exact V5.Rejects.voc h
  · intro h
    cases e with
    | InsufficientBytes n => exact v5_of_framing h
    | MalformedRemainingLength => exact v5_of_framing h
    | PayloadSizeLimitExceeded n => exact v5_of_framing h
    | InvalidPacketType n =>
      rcases h with rfl | rfl
      · exact ⟨9, [0x00, 0], by decide +kernel⟩
      · exact ⟨9, [0xF0, 0], by decide +kernel⟩
    | PayloadRequired => exact ⟨9, [0x10, 0], by decide +kernel⟩
    | MalformedPacket => exact ⟨9, [0x40, 1, 0], by decide +kernel⟩
    | BoundaryCrossed n =>
      obtain ⟨h1, h2⟩ := h
      refine V5.voc_of_rejects (b1 := 0x30) (bd := u16 n) ?_ (by rw [u16_len]; decide)
      simp only [Spec.V5.Rejects, show Spec.V4.typeNum 0x30 = 3 by decide]
      rw [if_neg (by simp [u16])]
      refine .topic (by decide) (.inl (.inr ⟨n, [], by omega, by simp, h1, rfl⟩))
    | TopicNotUtf8 => exact ⟨9, [0x30, 3, 0, 1, 255], by decide +kernel⟩
    | InvalidProtocol => exact ⟨9, [0x10, 4, 0, 1, 97, 4], by decide +kernel⟩
    | InvalidProtocolLevel n =>
      refine V5.voc_of_rejects (b1 := 0x10) (bd := str "MQTT" ++ [n] ++ []) (by
        simp only [Spec.V5.Rejects, show Spec.V4.typeNum 0x10 = 1 by decide]
        rw [if_neg (by simp [u16])]
        exact .badLevel h.1 h.2) (by simp [str_len]; decide +kernel)
    | IncorrectPacketFormat => exact ⟨99, [0x10, 13, 0, 4, 77, 81, 84, 84, 5, 8, 0, 0, 0, 0, 0], by decide +kernel⟩
    | InvalidQoS n => subst h; exact ⟨9, [0x36, 1, 0], by decide +kernel⟩
    | InvalidConnectReturnCode n =>
      by_cases h146 : n = 146
      · subst h146; exact ⟨9, [0x20, 2, 0, 146], by decide +kernel⟩
      refine V5.voc_of_rejects (b1 := 0x62) (bd := u16 1 ++ [n] ++ []) ?_ (by simp [u16_len]; decide)
      simp only [Spec.V5.Rejects, show Spec.V4.typeNum 0x62 = 6 by decide]
      rw [if_neg (by simp [u16])]
      refine .badCode (by decide) fun r hr => ?_
      have e : n = UInt8.ofNat (Spec.V5.pubrelCode r) := by rw [← hr]; simp
      cases r
      · exact h e
      · exact h146 e
    | PacketIdZero => exact ⟨9, [0x32, 5, 0, 1, 97, 0, 0], by decide +kernel⟩
    | InvalidSubscribeReasonCode n =>
      by_cases h17 : n = 17
      · subst h17; exact ⟨9, [0x90, 4, 0, 1, 0, 17], by decide +kernel⟩
      refine V5.voc_of_rejects (b1 := 0xB0) (bd := u16 1 ++ [0] ++ List.flatMap (fun r => u8 (Spec.V5.unsubCode r)) [] ++ [n] ++ []) ?_ (by simp [u16_len]; decide)
      simp only [Spec.V5.Rejects, show Spec.V4.typeNum 0xB0 = 11 by decide]
      rw [if_neg (by simp [u16])]
      refine .badCode (by decide) (ps := none) ⟨⟨by decide, [], 0, rfl, by decide, by simp⟩, by decide⟩ fun r hr => ?_
      have e : n = UInt8.ofNat (Spec.V5.unsubCode r) := by rw [← hr]; simp
      refine h ?_
      cases r <;> first | exact absurd e h17 | (rw [e]; decide)
    | InvalidPropertyType n =>
      refine V5.voc_of_rejects (b1 := 0xA2) (bd := u16 1 ++ ([2] ++ [] ++ (n :: []))) ?_ (by simp [u16_len]; decide)
      simp only [Spec.V5.Rejects, show Spec.V4.typeNum 0xA2 = 10 by decide]
      rw [if_neg (by simp [u16])]
      refine .props (by decide) (.prop ⟨by decide, [], 2, rfl, by decide, by simp⟩ .nil (by decide) (.id ?_))
      have h : n ≠ 38 := h
      have h : n.toNat ≠ 38 := fun e => h (UInt8.toNat.inj e)
      unfold Spec.V5.unsubscribeKind
      split
      · contradiction
      · rfl
    | InvalidRetainForwardRule n => subst h; exact ⟨9, [0x82, 7, 0, 1, 0, 0, 1, 97, 0x30], by decide +kernel⟩
    | _ => exact absurd h id

/-- C93: writers report exactly these errors: v4 -/
theorem C93_v4_write_errors (e : Error) :
    (∃ (p : V4.Packet) (s : Bytes), (p.write s).1 = .err e) ↔ writeError e := by
  constructor
  · rintro ⟨p, s, h⟩
    rcases (C91_v4_which_error p s e).1 h with ⟨_, rfl⟩ | ⟨_, rfl, _⟩ <;> trivial
  · intro h
    cases e with
    | PayloadTooLong =>
      obtain ⟨big, hb⟩ : ∃ b : Bytes, 268435455 < b.length :=
        ⟨List.replicate (268435455 + 1) 0, by rw [List.length_replicate]; omega⟩
      refine ⟨.Publish ⟨false, .AtMostOnce, false, "", 0, big⟩, [], ?_⟩
      refine (C91_v4_which_error _ _ _).2 (.inl ⟨?_, rfl⟩)
      simp [Spec.V4.announced, Spec.V4.pkidMissing, Spec.V4.body, str_len]; omega
    | PacketIdZero => exact ⟨.Publish ⟨false, .AtLeastOnce, false, "a", 0, []⟩, [], by decide +kernel⟩
    | _ => exact absurd h id

/-- C93: writers report exactly these errors: v5 -/
theorem C93_v5_write_errors (e : Error) :
    (∃ (p : V5.Packet) (s : Bytes), (p.write s).1 = .err e) ↔ writeError e := by
  constructor
  · rintro ⟨p, s, h⟩
    rcases (C91_v5_which_error p s e).1 h with ⟨_, rfl⟩ | ⟨_, rfl, _⟩ | ⟨_, rfl, _⟩ <;> trivial
  · intro h
    cases e with
    | PayloadTooLong => exact ⟨.Subscribe ⟨7, [], some ⟨some 300000000, []⟩⟩, [], by decide +kernel⟩
    | PacketIdZero => exact ⟨.Publish ⟨false, .AtLeastOnce, false, "a", 0, none, []⟩, [], by decide +kernel⟩
    | _ => exact absurd h id

end Props
