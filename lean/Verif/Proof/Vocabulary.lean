import Verif.Spec.Vocabulary
import Verif.Proof.Errors
import Verif.Proof.V4Errors
import Verif.Proof.V5Errors
/-! which errors can occur (C93) -/
namespace Mqtt
open Spec

/-- errors of fields -/
def fieldError : Error → Prop
  | .MalformedPacket => True
  | .BoundaryCrossed n => 1 ≤ n ∧ n ≤ 65535
  | .TopicNotUtf8 => True
  | .InsufficientBytes n => n = 1
  | .MalformedRemainingLength => True
  | _ => False

theorem U8Fails.voc {s e} (h : U8Fails s e) : fieldError e := by rw [h.2]; trivial
theorem U16Fails.voc {s e} (h : U16Fails s e) : fieldError e := by rw [h.2]; trivial
theorem U32Fails.voc {s e} (h : U32Fails s e) : fieldError e := by rw [h.2]; trivial
theorem BinFails.voc {s e} (h : BinFails s e) : fieldError e := by
  rcases h with h | ⟨n, t, hn, _, ht, rfl⟩
  · exact U16Fails.voc h
  · simp only [fieldError]; omega
theorem StrFails.voc {s e} (h : StrFails s e) : fieldError e := by
  rcases h with h | ⟨_, _, _, _, _, rfl⟩
  · exact BinFails.voc h
  · trivial
theorem VbiFails.voc {s e} (h : VbiFails s e) : fieldError e := by
  rcases h with ⟨_, _, rfl⟩ | ⟨_, _, _, _, _, rfl⟩
  · rfl
  · trivial

theorem fieldError.v4 {e} (h : fieldError e) : Spec.V4.readError e := by
  cases e <;> simp only [fieldError, Spec.V4.readError] at h ⊢ <;> first | exact h | trivial | omega
theorem fieldError.v5 {e} (h : fieldError e) : Spec.V5.readError e := by
  cases e <;> simp only [fieldError, Spec.V5.readError] at h ⊢ <;> first | exact h | trivial | omega

theorem FramingFails.voc {max s e} (h : FramingFails max s e) : checkError e := by
  cases h with
  | empty => simp [checkError]
  | length h =>
    rcases h with ⟨_, _, rfl⟩ | ⟨_, _, _, _, _, rfl⟩
    · simp [checkError]
    · trivial
  | limit h1 h2 =>
    have := vbiValue_le h1
    unfold maxRemaining at this
    simp only [checkError]; omega
  | body h1 h2 h3 =>
    have := vbiValue_le h1
    unfold maxRemaining at this
    simp only [checkError]; omega

theorem checkError.v4 {e} (h : checkError e) : Spec.V4.readError e := by
  cases e <;> simp only [checkError] at h <;> exact h
theorem checkError.v5 {e} (h : checkError e) : Spec.V5.readError e := by
  cases e <;> simp only [checkError] at h <;> exact h

theorem typeNum_left (b1 : UInt8) (h1 : Spec.V4.typeNum b1 ≠ 1) (h2 : Spec.V4.typeNum b1 ≠ 2)
    (h3 : Spec.V4.typeNum b1 ≠ 3) (h4 : Spec.V4.typeNum b1 ≠ 4) (h5 : Spec.V4.typeNum b1 ≠ 5)
    (h6 : Spec.V4.typeNum b1 ≠ 6) (h7 : Spec.V4.typeNum b1 ≠ 7) (h8 : Spec.V4.typeNum b1 ≠ 8)
    (h9 : Spec.V4.typeNum b1 ≠ 9) (h10 : Spec.V4.typeNum b1 ≠ 10)
    (h11 : Spec.V4.typeNum b1 ≠ 11) (h12 : Spec.V4.typeNum b1 ≠ 12)
    (h13 : Spec.V4.typeNum b1 ≠ 13) (h14 : Spec.V4.typeNum b1 ≠ 14) :
    UInt8.ofNat (Spec.V4.typeNum b1) = 0 ∨ UInt8.ofNat (Spec.V4.typeNum b1) = 15 := by
  have h : Spec.V4.typeNum b1 < 16 := by have := b1.toNat_lt; unfold Spec.V4.typeNum; omega
  have : Spec.V4.typeNum b1 = 0 ∨ Spec.V4.typeNum b1 = 15 := by omega
  rcases this with h | h <;> rw [h]
  · exact .inl rfl
  · exact .inr rfl

namespace V4
open Spec.V4

theorem WillFails.voc {f s e} (h : WillFails f s e) : readError e := by
  cases h with
  | stray => trivial
  | topic _ h => exact (StrFails.voc h).v4
  | message _ _ h => exact (BinFails.voc h).v4
  | qos => rfl

theorem LoginFails.voc {f s e} (h : LoginFails f s e) : fieldError e := by
  cases h with
  | username _ h => exact StrFails.voc h
  | password _ _ h => exact StrFails.voc h
  | password' _ _ _ h => exact StrFails.voc h

theorem ConnectFails.voc {s e} (h : ConnectFails s e) : readError e := by
  cases h with
  | name h => exact (StrFails.voc h).v4
  | level _ h => exact (U8Fails.voc h).v4
  | protocol => trivial
  | badLevel h1 h2 => exact ⟨h1, h2⟩
  | flags _ h => exact (U8Fails.voc h).v4
  | keepAlive _ h => exact (U16Fails.voc h).v4
  | clientId _ _ h => exact (StrFails.voc h).v4
  | will _ _ _ h => exact WillFails.voc h
  | login _ _ _ _ h => exact (LoginFails.voc h).v4

theorem Rejects.voc {b1 bd e} (h : Rejects b1 bd e) : readError e := by
  unfold Rejects at h
  split at h
  · split at h
    · subst h; trivial
    · exact ConnectFails.voc h
  · split at h
    · subst h; trivial
    · cases h with
      | flags h => exact (U8Fails.voc h).v4
      | code h => exact (U8Fails.voc h).v4
      | @badCode f c t h =>
        show 6 ≤ c.toNat
        have h0 := h .Success
        have h1 := h .RefusedProtocolVersion
        have h2 := h .BadClientId
        have h3 := h .ServiceUnavailable
        have h4 := h .BadUserNamePassword
        have h5 := h .NotAuthorized
        simp only [returnCode] at h0 h1 h2 h3 h4 h5
        omega
  · split at h
    · subst h; trivial
    · cases h with
      | qos => rfl
      | topic _ h => exact (StrFails.voc h).v4
      | pkid _ _ h => exact (U16Fails.voc h).v4
      | pkidZero => trivial
  all_goals first
    | (split at h
       · subst h; trivial
       · exact (U16Fails.voc h).v4)
    | skip
  · split at h
    · subst h; trivial
    · cases h with
      | pkid h => exact (U16Fails.voc h).v4
      | none => trivial
      | path _ _ _ h => exact (StrFails.voc h).v4
      | options _ _ _ h => exact (U8Fails.voc h).v4
      | qos => rfl
  · split at h
    · subst h; trivial
    · cases h with
      | pkid h => exact (U16Fails.voc h).v4
      | none => trivial
      | @badCode k cs c t _ h =>
        show c ≠ 0 ∧ c ≠ 1 ∧ c ≠ 2 ∧ c ≠ 128
        have h0 := h (.Success .AtMostOnce)
        have h1 := h (.Success .AtLeastOnce)
        have h2 := h (.Success .ExactlyOnce)
        have h3 := h .Failure
        refine ⟨?_, ?_, ?_, ?_⟩ <;> rintro rfl
        · exact h0 rfl
        · exact h1 rfl
        · exact h2 rfl
        · exact h3 rfl
  · split at h
    · subst h; trivial
    · cases h with
      | pkid h => exact (U16Fails.voc h).v4
      | topic _ _ _ h => exact (StrFails.voc h).v4
  · split at h
    · subst h; trivial
    · rw [h.2]; trivial
  all_goals try exact absurd h id
  subst h
  exact typeNum_left b1 ‹_› ‹_› ‹_› ‹_› ‹_› ‹_› ‹_› ‹_› ‹_› ‹_› ‹_› ‹_› ‹_› ‹_›

theorem voc_of_rejects {b1 bd e} (h : Rejects b1 bd e) (hl : bd.length ≤ maxRemaining) :
    ∃ max s, (V4.read max s).1 = .err e := by
  refine ⟨bd.length, b1 :: (vbi bd.length ++ (bd ++ [])), ?_⟩
  rw [(V4.read_err_iff e bd.length _ []).2 (.inr ⟨b1, vbi bd.length, bd, rfl, vbi_isVbi hl, vbiValue_vbi hl,
    Nat.le_refl _, h⟩)]

end V4

namespace V5
open Spec.V5

/-- errors of property sections -/
def secError : Error → Prop
  | .InvalidPropertyType n => n ≠ 38
  | e => fieldError e

theorem fieldError.sec {e} (h : fieldError e) : secError e := by
  cases e <;> first | exact h | exact absurd h id

theorem secError.v5 {e} (h : secError e) : readError e := by
  cases e <;> first | exact h | exact Mqtt.fieldError.v5 h

theorem ValFails.voc {k s e} (h : ValFails k s e) : fieldError e := by
  cases h with
  | u8 h => exact U8Fails.voc h
  | u16 h => exact U16Fails.voc h
  | u32 h => exact U32Fails.voc h
  | vbi h => exact VbiFails.voc h
  | str h => exact StrFails.voc h
  | bin h => exact BinFails.voc h
  | name h => exact StrFails.voc h
  | value _ h => exact StrFails.voc h

theorem SecFails.voc {kind s e} (h : SecFails kind s e) (hk : kind 38 ≠ none) : secError e := by
  cases h with
  | length h => exact fieldError.sec (VbiFails.voc h)
  | prop _ _ _ h =>
    cases h with
    | none => trivial
    | id h =>
      show _ ≠ (38 : UInt8)
      rintro rfl
      exact hk h
    | value _ h => exact fieldError.sec (ValFails.voc h)

theorem WillFails.voc {f s e} (h : WillFails f s e) : readError e := by
  cases h with
  | stray => trivial
  | props _ h => exact (SecFails.voc h (by simp [willKind])).v5
  | topic _ _ h => exact (StrFails.voc h).v5
  | message _ _ _ h => exact (BinFails.voc h).v5
  | qos => rfl

theorem ConnectFails.voc {s e} (h : ConnectFails s e) : readError e := by
  cases h with
  | name h => exact (StrFails.voc h).v5
  | level _ h => exact (U8Fails.voc h).v5
  | protocol => trivial
  | badLevel h1 h2 => exact ⟨h1, h2⟩
  | flags _ h => exact (U8Fails.voc h).v5
  | keepAlive _ h => exact (U16Fails.voc h).v5
  | props _ h => exact (SecFails.voc h (by simp [connectKind])).v5
  | clientId _ _ _ h => exact (StrFails.voc h).v5
  | will _ _ _ _ h => exact WillFails.voc h
  | login _ _ _ _ _ h => exact (V4.LoginFails.voc h).v5

theorem AckFails.voc {R : Type} {code : R → Nat} {s e} (h : AckFails code s e) (r0 : R) (h0 : code r0 = 0) :
    readError e := by
  cases h with
  | pkid h => exact (U16Fails.voc h).v5
  | badCode _ h =>
    show _ ≠ (0 : UInt8)
    rintro rfl
    exact h r0 h0.symm
  | props _ _ h => exact (SecFails.voc h (by simp [reasonKind])).v5

theorem CodesFail.voc {C : Type} {code : C → Nat} {s e} (h : CodesFail code s e)
    (hc : ∀ n ∈ ([0, 128, 131, 135, 143, 145] : List UInt8), ∃ r, n.toNat = code r) : readError e := by
  cases h with
  | pkid h => exact (U16Fails.voc h).v5
  | props _ h => exact (SecFails.voc h (by simp [reasonKind])).v5
  | none => trivial
  | badCode _ _ h =>
    intro hm
    obtain ⟨r, hr⟩ := hc _ hm
    exact h r hr

theorem Rejects.voc {b1 bd e} (h : Rejects b1 bd e) : readError e := by
  unfold Rejects at h
  split at h
  · split at h
    · subst h; trivial
    · exact ConnectFails.voc h
  · split at h
    · subst h; trivial
    · cases h with
      | flags h => exact (U8Fails.voc h).v5
      | code h => exact (U8Fails.voc h).v5
      | badCode h =>
        show _ ≠ (0 : UInt8)
        rintro rfl
        exact h .Success rfl
      | props h => exact (SecFails.voc h (by simp [connackKind])).v5
  · split at h
    · subst h; trivial
    · cases h with
      | qos => rfl
      | topic _ h => exact (StrFails.voc h).v5
      | pkid _ _ h => exact (U16Fails.voc h).v5
      | pkidZero => trivial
      | props0 _ _ h => exact (SecFails.voc h (by simp [publishKind])).v5
      | props _ _ _ _ h => exact (SecFails.voc h (by simp [publishKind])).v5
  · split at h
    · subst h; trivial
    · exact AckFails.voc h .Success rfl
  · split at h
    · subst h; trivial
    · exact AckFails.voc h .Success rfl
  · split at h
    · subst h; trivial
    · exact AckFails.voc h .Success rfl
  · split at h
    · subst h; trivial
    · exact AckFails.voc h .Success rfl
  · split at h
    · subst h; trivial
    · cases h with
      | pkid h => exact (U16Fails.voc h).v5
      | props _ h => exact (SecFails.voc h (by simp [subscribeKind])).v5
      | path _ _ _ _ h => exact (StrFails.voc h).v5
      | options _ _ _ _ h => exact (U8Fails.voc h).v5
      | rule => rfl
      | qos => rfl
  · split at h
    · subst h; trivial
    · refine CodesFail.voc h ?_
      intro n hn
      simp only [List.mem_cons, List.not_mem_nil, or_false] at hn
      rcases hn with rfl | rfl | rfl | rfl | rfl | rfl
      exacts [⟨.QoS0, rfl⟩, ⟨.Unspecified, rfl⟩, ⟨.ImplementationSpecific, rfl⟩, ⟨.NotAuthorized, rfl⟩,
        ⟨.TopicFilterInvalid, rfl⟩, ⟨.PkidInUse, rfl⟩]
  · split at h
    · subst h; trivial
    · cases h with
      | pkid h => exact (U16Fails.voc h).v5
      | props _ h => exact (SecFails.voc h (by simp [unsubscribeKind])).v5
      | topic _ _ _ _ h => exact (StrFails.voc h).v5
  · split at h
    · subst h; trivial
    · refine CodesFail.voc h ?_
      intro n hn
      simp only [List.mem_cons, List.not_mem_nil, or_false] at hn
      rcases hn with rfl | rfl | rfl | rfl | rfl | rfl
      exacts [⟨.Success, rfl⟩, ⟨.UnspecifiedError, rfl⟩, ⟨.ImplementationSpecificError, rfl⟩, ⟨.NotAuthorized, rfl⟩,
        ⟨.TopicFilterInvalid, rfl⟩, ⟨.PacketIdentifierInUse, rfl⟩]
  · exact absurd h id
  · exact absurd h id
  · split at h
    · subst h; trivial
    · cases h with
      | reserved => trivial
      | badCode _ h =>
        show _ ≠ (0 : UInt8)
        rintro rfl
        exact h .NormalDisconnection rfl
      | props _ h => exact (SecFails.voc h (by simp [disconnectKind])).v5
  · subst h
    exact typeNum_left b1 ‹_› ‹_› ‹_› ‹_› ‹_› ‹_› ‹_› ‹_› ‹_› ‹_› ‹_› ‹_› ‹_› ‹_›

theorem voc_of_rejects {b1 bd e} (h : Rejects b1 bd e) (hl : bd.length ≤ maxRemaining) :
    ∃ max s, (V5.read max s).1 = .err e := by
  refine ⟨bd.length, b1 :: (vbi bd.length ++ (bd ++ [])), ?_⟩
  rw [(V5.read_err_iff e bd.length _ []).2 (.inr ⟨b1, vbi bd.length, bd, rfl, vbi_isVbi hl, vbiValue_vbi hl,
    Nat.le_refl _, h⟩)]

end V5
end Mqtt
