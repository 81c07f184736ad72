import Verif.Spec.Received
import Verif.Props.SameBytes
import Verif.Props.Skim
import Verif.Props.Patch
import Verif.Proof.V5Readable
/-! C121: what comes back of every packet that was written. -/
namespace Props
open Mqtt Spec

/-! ### 3.1.1 -/

theorem v4_write_pkid {p : V4.Publish} {n : Nat} (h : ((V4.Packet.Publish p).write []).1 = .ok n) :
    p.qos ≠ .AtMostOnce → p.pkid ≠ 0 := by
  rw [C91_v4_write_exact _ (by simp)] at h
  have := (v4_written_inv (.Publish p) (by simp) n h).2.1
  simp only [Spec.V4.pkidMissing, decide_eq_false_iff_not, not_and] at this
  exact this

/-- a frame on the wire -/
theorem frame_wire (b1 : Nat) (bd rest : Bytes) :
    frame b1 bd ++ rest = UInt8.ofNat b1 :: (vbi bd.length ++ (bd ++ rest)) := by
  simp [frame, Spec.u8]

/-- **C121** (3.1.1): whatever packet was written successfully, if its fields fit, reading its bytes gives exactly
`Spec.V4.received` and leaves exactly what follows. -/
theorem C121_v4_received (p : V4.Packet) (m : Nat) (hp : (p.write []).1 = .ok m) (fp : Spec.V4.FieldsFit p) (max : Nat)
    (hmax : (Spec.V4.body p).length ≤ max) (rest : Bytes) :
    V4.read max ((p.write []).2 ++ rest) = (asRes (Spec.V4.received p), rest) := by
  have good : Spec.V4.Meaningful (Spec.V4.essence p) → V4.read max ((p.write []).2 ++ rest) = (.ok (Spec.V4.essence p), rest) :=
    fun hm => C115_v4_read_essence p m hp fp hm max hmax rest
  obtain ⟨e1, l1⟩ := v4_bytes_ok hp
  have bad : ∀ e, Spec.V4.Rejects (UInt8.ofNat (Spec.V4.byte1 p)) (Spec.V4.body p) e →
      V4.read max ((p.write []).2 ++ rest) = (.err e, rest) := fun e he =>
    (V4.read_err_iff e max _ _).2 (.inr ⟨_, _, _, by rw [e1]; exact frame_wire _ _ _, vbi_isVbi l1, vbiValue_vbi l1, hmax, he⟩)
  cases p with
  | Connect c =>
    refine good fun l hl => ?_
    simp only at hl
    split at hl
    · simp at hl
    · rename_i hne
      by_cases hu : l.username = ""
      · right; intro hp; exact hne (by rw [hl]; cases l; simp_all)
      · exact .inl hu
  | Publish q =>
    refine good ?_
    have := v4_write_pkid hp
    simp only [Spec.V4.essence, Spec.V4.Meaningful]
    by_cases hq : q.qos = .AtMostOnce
    · simp [hq]
    · simp [hq, this hq]
  | Subscribe s =>
    simp only [Spec.V4.received]
    split
    · rename_i h0
      refine bad _ ?_
      have := Spec.V4.SubscribeFails.none (k := s.pkid.toNat) s.pkid.toNat_lt
      simpa [Spec.V4.Rejects, Spec.V4.byte1, Spec.V4.typeNum, Spec.V4.body, h0, Spec.u16] using this
    · exact good (by simpa [Spec.V4.essence, Spec.V4.Meaningful])
  | SubAck s =>
    simp only [Spec.V4.received]
    split
    · rename_i h0
      refine bad _ ?_
      have := Spec.V4.SubAckFails.none (k := s.pkid.toNat) s.pkid.toNat_lt
      simpa [Spec.V4.Rejects, Spec.V4.byte1, Spec.V4.typeNum, Spec.V4.body, h0, Spec.u16] using this
    · exact good (by simpa [Spec.V4.essence, Spec.V4.Meaningful])
  | _ => exact good trivial

/-! ### 5.0 -/

theorem v5_write_pkid {p : V5.Publish} {n : Nat} (h : ((V5.Packet.Publish p).write []).1 = .ok n) :
    p.qos ≠ .AtMostOnce → p.pkid ≠ 0 := by
  rw [C91_v5_write_exact _ (by simp)] at h
  have := (v5_written_inv (.Publish p) (by simp) n h).2.1
  simp only [Spec.V5.pkidMissing, decide_eq_false_iff_not, not_and] at this
  exact this

theorem told_nonempty {π : Type} (props : π → List Spec.V5.Property) (o : Option π) :
    Spec.V5.NonEmpty props (Spec.V5.told props o) := by
  cases o with
  | none => intro p h; simp [Spec.V5.told] at h
  | some q =>
    intro p h
    simp only [Spec.V5.told] at h
    split at h
    · simp at h
    · simp only [Option.some.injEq] at h; subst h; assumption

theorem vbis_cons (q : Spec.V5.Property) (ps : List Spec.V5.Property) :
    Spec.V5.vbis (q :: ps) = (if q.val.kind = .vbi then 1 else 0) + Spec.V5.vbis ps := by
  simp only [Spec.V5.vbis, List.filter_cons]
  split <;> simp_all <;> omega

theorem cut_eq : ∀ (v : Nat) (ps : List Spec.V5.Property), (Spec.V5.cut v ps).1 ++ (Spec.V5.cut v ps).2 = ps
  | _, [] => rfl
  | v, q :: ps => by
    unfold Spec.V5.cut
    split
    · simp only [List.cons_append, cut_eq _ ps]
    · rfl

/-- the taken part is what the decoder's counting takes -/
theorem cut_seq (kind : Nat → Option Spec.V5.Kind) (n : Nat) : ∀ (ps : List Spec.V5.Property) (v c : Nat),
    (∀ q ∈ ps, q.id < 256 ∧ kind q.id = some q.val.kind) → (∀ q ∈ ps, q.val.Fits) →
    c + (Spec.V5.encAll ps).length = n + v →
    Spec.V5.PropSeq kind n c (Spec.V5.encAll (Spec.V5.cut v ps).1) (Spec.V5.cut v ps).1
  | [], v, c, _, _, h => by
    refine .done ?_
    simp [Spec.V5.encAll] at h
    omega
  | q :: ps, v, c, hk, hf, h => by
    unfold Spec.V5.cut
    split
    · rename_i hv
      obtain ⟨i, x⟩ := q
      obtain ⟨h1, h2⟩ := hk _ (.head _)
      have h3 := hf _ (.head _)
      simp only at h1 h2 h3
      have hid : (UInt8.ofNat i).toNat = i := by simp; omega
      have hc : c < n := by omega
      have he : Spec.V5.encAll (⟨i, x⟩ :: ps) = [UInt8.ofNat i] ++ x.enc ++ Spec.V5.encAll ps := by
        simp [Spec.V5.encAll, Spec.V5.Property.enc, Spec.u8]
      have hd : x.Denotes x.enc := by
        cases x <;> try exact ⟨h3, rfl⟩
        rename_i m
        exact ⟨vbi_isVbi h3, vbiValue_vbi h3⟩
      have ih := cut_seq kind n ps (if x.kind = .vbi then v + 1 else v) (c + Spec.V5.counted x x.enc)
        (fun q hq => hk q (.tail _ hq)) (fun q hq => hf q (.tail _ hq)) (by
          rw [he] at h
          simp only [List.length_append, List.length_cons, List.length_nil] at h
          simp only [Spec.V5.counted]
          split <;> omega)
      have := Spec.V5.PropSeq.more hc (UInt8.ofNat i) x x.enc _ _ (by rw [hid]; exact h2) hd ih
      rw [hid] at this
      simpa [Spec.V5.encAll, Spec.V5.Property.enc, Spec.u8] using this
    · rename_i hv
      refine .done ?_
      omega

theorem secFails_nil (kind : Nat → Option Spec.V5.Kind) : Spec.V5.SecFails kind [] (.InsufficientBytes 1) :=
  .length (.inl ⟨by decide, by simp, rfl⟩)

/-- the section of an optional property set, whatever it contains, denotes it -/
theorem told_denotes {π : Type} {kind : Nat → Option Spec.V5.Kind} {props : π → List Spec.V5.Property}
    {dec : List Spec.V5.Property → π} {st : V5.PropStep π} {ln : π → Nat} {wr : π → M Unit}
    (S : V5.PropSet kind props dec st ln wr) (o : Option π) (hf : Spec.V5.PropsFit props o)
    (hr : ∀ p, Spec.V5.Readable (props p)) (hl : (Spec.V5.optSec props o).length ≤ maxRemaining) :
    Spec.V5.SetDenotes kind dec (Spec.V5.optSec props o) (Spec.V5.told props o) := by
  have := V5.optSec_denotes S (Spec.V5.told props o) (told_nonempty props o) (told_fits hf) (fun p _ => hr p)
    (by rw [V5.Ess.optSec_told]; exact hl)
  rwa [V5.Ess.optSec_told] at this

theorem ack_received {R : Type} (code : R → Nat) (a : V5.Ack R) (hf : Spec.V5.PropsFit Spec.V5.reasonProps a.properties)
    (hl : (Spec.V5.ackBody code a).length ≤ maxRemaining) :
    Spec.V5.AckDenotes code (Spec.V5.ackBody code a)
      { a with properties := Spec.V5.told Spec.V5.reasonProps a.properties } := by
  cases hp : a.properties with
  | none =>
    by_cases hc : code a.reason = 0
    · exact .inl ⟨by simp [Spec.V5.ackBody, hp, hc], hc, by simp [Spec.V5.told]⟩
    · exact .inr (.inl ⟨by simp [Spec.V5.ackBody, hp, hc], by simp [Spec.V5.told]⟩)
  | some p =>
    refine .inr (.inr ⟨Spec.V5.optSec Spec.V5.reasonProps a.properties, [], by simp [Spec.V5.ackBody, hp, Spec.V5.optSec], ?_⟩)
    rw [← hp]
    refine told_denotes V5.reason_set _ hf (fun p => V5.readable_none V5.no_vbi_reason V5.reason_kinds p) ?_
    simp only [Spec.V5.ackBody, hp, List.length_append] at hl
    simp only [hp, Spec.V5.optSec]; omega

theorem login_told {l : Option V5.Login} {x : V5.Login} (h : (if l = some ⟨"", ""⟩ then none else l) = some x) :
    x.username ≠ "" ∨ x.password ≠ "" := by
  split at h
  · simp at h
  · rename_i hne
    by_cases hu : x.username = ""
    · right; intro hp; exact hne (by rw [h]; cases x; simp_all)
    · exact .inl hu

/-- **C121** (5.0): whatever packet was written successfully, if its fields fit (and a CONNECT has protocol level 5),
reading its bytes gives exactly `Spec.V5.received` and leaves exactly what follows. -/
theorem C121_v5_received (p : V5.Packet) (m : Nat) (hp : (p.write []).1 = .ok m) (fp : Spec.V5.FieldsFit p)
    (hc : ∀ c, p = .Connect c → c.protocol = .V5) (max : Nat) (hmax : (Spec.V5.wireBody p).length ≤ max) (rest : Bytes) :
    V5.read max ((p.write []).2 ++ rest) = (asRes (Spec.V5.received p), rest) := by
  have ess : Spec.V5.Meaningful (Spec.V5.essence p) → Spec.V5.ReadsBack (Spec.V5.essence p) →
      V5.read max ((p.write []).2 ++ rest) = (.ok (Spec.V5.essence p), rest) :=
    fun hm hr => C115_v5_read_essence p m hp fp hm hr max hmax rest
  obtain ⟨e1, l1⟩ := v5_bytes_ok hp
  have good : ∀ q, Spec.V5.Denotes (UInt8.ofNat (Spec.V5.byte1 p)) (Spec.V5.wireBody p) q →
      V5.read max ((p.write []).2 ++ rest) = (.ok q, rest) := fun q hq =>
    (V5.read_ok_iff max _ _ q).2 ⟨_, _, _, by rw [e1]; exact frame_wire _ _ _, vbi_isVbi l1, vbiValue_vbi l1, hmax, hq⟩
  have bad : ∀ e, Spec.V5.Rejects (UInt8.ofNat (Spec.V5.byte1 p)) (Spec.V5.wireBody p) e →
      V5.read max ((p.write []).2 ++ rest) = (.err e, rest) := fun e he =>
    (V5.read_err_iff e max _ _).2 (.inr ⟨_, _, _, by rw [e1]; exact frame_wire _ _ _, vbi_isVbi l1, vbiValue_vbi l1, hmax, he⟩)
  cases p with
  | Connect c =>
    refine ess ⟨told_nonempty _ _, fun w hw => ?_, fun l hl => login_told hl⟩ (.inl (hc c rfl))
    simp only [Option.map_eq_some_iff] at hw
    obtain ⟨v, hv, rfl⟩ := hw
    exact told_nonempty _ _
  | ConnAck c =>
    simp only [Spec.V5.received]
    split
    · rename_i h0
      refine bad _ ?_
      have := Spec.V5.ConnAckFails.props (f := UInt8.ofNat (flag c.session_present 1)) (r := c.code) (secFails_nil Spec.V5.connackKind)
      simpa [Spec.V5.Rejects, Spec.V5.byte1, Spec.V4.typeNum, Spec.V5.wireBody, h0, Spec.u8] using this
    · rename_i h0
      obtain ⟨q, hq⟩ := Option.ne_none_iff_exists'.1 h0
      refine good _ ⟨by simp [Spec.V4.typeNum, Spec.V5.byte1], UInt8.ofNat (flag c.session_present 1),
        Spec.V5.optSec Spec.V5.connackProps c.properties, [], by simp [Spec.V5.wireBody, hq, Spec.V5.optSec, Spec.u8], ?_, ?_⟩
      · cases c.session_present <;> decide
      · refine told_denotes V5.connack_set _ fp (fun p => V5.readable_none V5.no_vbi_connack V5.connack_kinds p) ?_
        simp only [Spec.V5.wireBody, hq, List.length_append] at l1
        simp only [hq, Spec.V5.optSec]; omega
  | Publish q =>
    have hk := v5_write_pkid hp
    simp only [Spec.V5.received]
    cases hq : q.properties with
    | none =>
      simp only [Spec.V5.told, Option.map_none, List.nil_append]
      refine good _ ⟨rfl, Spec.V5.optSec Spec.V5.publishProps none, ?_, fp.1, ?_, none, ⟨vbi_isVbi (n := 0) (by decide), rfl⟩, rfl⟩
      · simp only [Spec.V5.wireBody, Spec.V5.body, hq]
        split <;> simp_all
      · by_cases h0 : q.qos = .AtMostOnce
        · simp [h0]
        · simp [h0, hk h0]
    | some ps =>
      have hl : (Spec.V5.encAll (Spec.V5.publishProps ps)).length ≤ maxRemaining := by
        simp only [Spec.V5.wireBody, Spec.V5.body, hq, Spec.V5.optSec, Spec.V5.sec, List.length_append] at l1; omega
      have hs : Spec.V5.cut 0 (Spec.V5.publishProps ps) = Spec.V5.cut 0 (Spec.V5.publishProps ps) := rfl
      have he := cut_eq 0 (Spec.V5.publishProps ps)
      have hseq := cut_seq Spec.V5.publishKind (Spec.V5.encAll (Spec.V5.publishProps ps)).length (Spec.V5.publishProps ps) 0 0
        (V5.publish_kinds ps) (fp.2 ps hq) (by omega)
      have hb : Spec.V5.encAll (Spec.V5.publishProps ps) = Spec.V5.encAll (Spec.V5.cut 0 (Spec.V5.publishProps ps)).1
          ++ Spec.V5.encAll (Spec.V5.cut 0 (Spec.V5.publishProps ps)).2 := by
        rw [← V5.encAll_append, he]
      refine good _ ⟨rfl, vbi (Spec.V5.encAll (Spec.V5.publishProps ps)).length
        ++ Spec.V5.encAll (Spec.V5.cut 0 (Spec.V5.publishProps ps)).1, ?_, fp.1, ?_, ?_⟩
      · simp only [Spec.V5.wireBody, Spec.V5.body, hq, Spec.V5.optSec, Spec.V5.sec]
        have : ∀ x y : Bytes, x = y → vbi (Spec.V5.encAll (Spec.V5.publishProps ps)).length ++ x
          = vbi (Spec.V5.encAll (Spec.V5.publishProps ps)).length ++ y := fun x y h => by rw [h]
        have h2 := this _ _ hb
        rw [h2]
        split <;> simp_all
      · by_cases h0 : q.qos = .AtMostOnce
        · simp [h0]
        · simp [h0, hk h0]
      · simp only [Spec.V5.told]
        by_cases hn : Spec.V5.publishProps ps = []
        · refine ⟨none, ?_, by simp [hn]⟩
          rw [hn]
          exact ⟨vbi_isVbi (n := 0) (by decide), rfl⟩
        · refine ⟨some (Spec.V5.cut 0 (Spec.V5.publishProps ps)).1, ⟨_, _, rfl, vbi_isVbi hl, ?_, ?_⟩, by simp [hn]⟩
          · rw [vbiValue_vbi hl]
            have := V5.encAll_pos hn
            omega
          · rw [vbiValue_vbi hl]; exact hseq
  | PubAck a => exact good _ ⟨by simp [Spec.V4.typeNum, Spec.V5.byte1], ack_received _ a fp l1⟩
  | PubRec a => exact good _ ⟨by simp [Spec.V4.typeNum, Spec.V5.byte1], ack_received _ a fp l1⟩
  | PubRel a => exact good _ ⟨by simp [Spec.V4.typeNum, Spec.V5.byte1], ack_received _ a fp l1⟩
  | PubComp a => exact good _ ⟨by simp [Spec.V4.typeNum, Spec.V5.byte1], ack_received _ a fp l1⟩
  | Subscribe s => exact ess (told_nonempty _ _) trivial
  | Unsubscribe u => exact ess (told_nonempty _ _) trivial
  | PingReq => exact ess trivial trivial
  | PingResp => exact ess trivial trivial
  | SubAck s =>
    simp only [Spec.V5.received]
    split
    · rename_i h0
      refine bad _ ?_
      have hl : (Spec.V5.optSec Spec.V5.reasonProps s.properties).length ≤ maxRemaining := by
        simp only [Spec.V5.wireBody, Spec.V5.body, List.length_append] at l1; omega
      obtain ⟨ps, hps, -⟩ := told_denotes V5.reason_set s.properties fp (fun p => V5.readable_none V5.no_vbi_reason V5.reason_kinds p) hl
      have := Spec.V5.CodesFail.none (code := Spec.V5.subCode) (k := s.pkid.toNat) s.pkid.toNat_lt hps
      simpa [Spec.V5.Rejects, Spec.V5.byte1, Spec.V4.typeNum, Spec.V5.wireBody, Spec.V5.body, h0, Spec.u16] using this
    · rename_i h0
      exact ess ⟨told_nonempty _ _, h0⟩ trivial
  | UnsubAck s =>
    simp only [Spec.V5.received]
    split
    · rename_i h0
      refine bad _ ?_
      have hl : (Spec.V5.optSec Spec.V5.reasonProps s.properties).length ≤ maxRemaining := by
        simp only [Spec.V5.wireBody, Spec.V5.body, List.length_append] at l1; omega
      obtain ⟨ps, hps, -⟩ := told_denotes V5.reason_set s.properties fp (fun p => V5.readable_none V5.no_vbi_reason V5.reason_kinds p) hl
      have := Spec.V5.CodesFail.none (code := Spec.V5.unsubCode) (k := s.pkid.toNat) s.pkid.toNat_lt hps
      simpa [Spec.V5.Rejects, Spec.V5.byte1, Spec.V4.typeNum, Spec.V5.wireBody, Spec.V5.body, h0, Spec.u16] using this
    · rename_i h0
      exact ess ⟨told_nonempty _ _, h0⟩ trivial
  | Disconnect d =>
    simp only [Spec.V5.received]
    split
    · rename_i h0
      obtain ⟨q, hq⟩ : ∃ q, d.properties = some q := by
        cases h : d.properties with
        | none => simp [h, Spec.V5.told] at h0
        | some q => exact ⟨q, rfl⟩
      have he : Spec.V5.essence (.Disconnect d) = .Disconnect d := by
        simp only [Spec.V5.essence]; rw [if_neg (fun h => h0 h.2)]
      rw [he] at ess
      refine ess (fun r hr => ?_) (by simp [Spec.V5.ReadsBack, hq])
      intro hn
      rw [hr] at h0
      simp [Spec.V5.told, hn] at h0
    · rename_i h0
      simp only [not_not] at h0
      split
      · rename_i h1
        refine bad _ ?_
        have : Spec.V5.wireBody (.Disconnect d) = [] := by
          simp only [Spec.V5.wireBody]
          cases h : d.properties with
          | none => simp [h] at h1; simp [h1]
          | some q =>
            rw [h] at h0
            simp only [Spec.V5.told] at h0
            split at h0
            · rename_i h2; simp [h2]
            · simp at h0
        simp [Spec.V5.Rejects, Spec.V5.byte1, Spec.V4.typeNum, this]
      · rename_i h1
        refine bad _ ?_
        have h2 : d.reason_code ≠ .NormalDisconnection := fun h => h1 (.inl h)
        have h3 : d.properties = none := Classical.byContradiction fun h => h1 (.inr h)
        have := Spec.V5.DisconnectFails.props (b1 := 0xE0) (r := d.reason_code) rfl (secFails_nil Spec.V5.disconnectKind)
        simpa [Spec.V5.Rejects, Spec.V5.byte1, Spec.V4.typeNum, Spec.V5.wireBody, h3, h2, Spec.u8] using this

/-- **C121**, the case left out: a v5 CONNECT whose protocol level is 4, without properties, will and login, and with a
client identifier of less than 256 bytes comes back with an empty client identifier (its property length, written for
level 4 too, is read as the first byte of the length of the client identifier). -/
theorem C121_v5_level4_loses_id (c : V5.Connect) (m : Nat) (hp : ((V5.Packet.Connect c).write []).1 = .ok m)
    (h4 : c.protocol = .V4) (hprops : c.properties = none) (hw : c.last_will = none) (hlog : c.login = none)
    (hid : (utf8 c.client_id).length < 256) (max : Nat) (hmax : (Spec.V5.wireBody (.Connect c)).length ≤ max) (rest : Bytes) :
    V5.read max (((V5.Packet.Connect c).write []).2 ++ rest) = (.ok (.Connect { c with client_id := "" }), rest) := by
  obtain ⟨e1, l1⟩ := v5_bytes_ok hp
  have hb : Spec.V5.wireBody (.Connect c) = str "MQTT" ++ u8 4 ++ [UInt8.ofNat (flag c.clean_session 2)]
      ++ u16 c.keep_alive.toNat ++ [] ++ str "" ++ [] ++ [] ++ (UInt8.ofNat (utf8 c.client_id).length :: utf8 c.client_id) := by
    have h0 : str "" = [0, 0] := by decide +kernel
    have h1 : str c.client_id = 0 :: UInt8.ofNat (utf8 c.client_id).length :: utf8 c.client_id := by
      rw [C91_overlong, show (utf8 c.client_id).length % 65536 / 256 = 0 by omega,
        show (utf8 c.client_id).length % 256 = (utf8 c.client_id).length by omega]
      rfl
    have h2 : Spec.V5.optSec Spec.V5.connectProps none = [0] := by decide
    simp [Spec.V5.wireBody, Spec.V5.body, h4, hprops, hw, hlog, h0, h1, h2, Spec.V5.connectFlags, Spec.V5.willFields,
      Spec.V5.loginFields, Spec.V4.level, Spec.u8]
  refine (V5.read_ok_iff max _ _ _).2 ⟨_, _, _, by rw [e1]; exact frame_wire _ _ _, vbi_isVbi l1, vbiValue_vbi l1, hmax, ?_⟩
  rw [hb]
  refine ⟨by simp [Spec.V4.typeNum, Spec.V5.byte1], UInt8.ofNat (flag c.clean_session 2), [], [], [],
    UInt8.ofNat (utf8 c.client_id).length :: utf8 c.client_id, ?_, ?_, show fits (utf8 "").length by decide +kernel, ?_, ?_, ?_⟩
  · simp [h4, Spec.V4.level]
  · simp [h4, hprops]
  · cases c.clean_session <;> decide
  · rw [show ({ c with client_id := "" } : V5.Connect).last_will = none from hw]
    cases c.clean_session <;> simp [Spec.V5.WillDenotesBy, Spec.V4.bit, flag]
  · refine ⟨"", "", by decide +kernel, by decide +kernel, by simp, by simp, ?_, by simp [hlog]⟩
    cases c.clean_session <;> simp [Spec.V4.bit, flag]

/-! ### Streams -/

theorem skim_words {Q P : Type} {rd : M P} (h0 : ∃ e, rd [] = (.err e, [])) (enc : Q → Bytes) (rcv : Q → Except Error P)
    (xs : List Q) (h : ∀ x ∈ xs, enc x ≠ [] ∧ ∀ rest, rd (enc x ++ rest) = (asRes (rcv x), rest))
    (os : List (Except Error P)) (r : Bytes) :
    Skim rd (xs.map enc).flatten os r ↔ os = xs.map rcv ∧ r = [] := by
  induction xs generalizing os with
  | nil =>
    obtain ⟨e, h0⟩ := h0
    simp only [List.map_nil, List.flatten_nil]
    constructor
    · intro h
      cases h with
      | wait h => exact ⟨rfl, rfl⟩
      | packet h _ => rw [h0] at h; simp at h
      | skip h hne _ => rw [h0] at h; simp at h; exact absurd h.2.symm hne.symm
    · rintro ⟨rfl, rfl⟩; exact .wait h0
  | cons x xs ih =>
    have ih := ih (fun g hg => h g (.tail _ hg))
    obtain ⟨hne0, h1⟩ := h x (.head _)
    have h1 := h1 (xs.map enc).flatten
    simp only [List.map_cons, List.flatten_cons]
    have hne : (xs.map enc).flatten ≠ enc x ++ (xs.map enc).flatten := by
      intro h
      have := congrArg List.length h
      have hp := List.length_pos_iff.2 hne0
      rw [List.length_append] at this
      omega
    constructor
    · intro h
      cases hx : rcv x with
      | ok p =>
        rw [hx] at h1
        cases h with
        | wait h => rw [h1] at h; simp at h
        | packet h t =>
          rw [h1] at h
          simp only [asRes, Prod.mk.injEq, Res.ok.injEq] at h
          obtain ⟨rfl, rfl⟩ := h
          obtain ⟨rfl, rfl⟩ := (ih _).1 t
          exact ⟨rfl, rfl⟩
        | skip h _ _ => rw [h1] at h; simp at h
      | error e =>
        rw [hx] at h1
        cases h with
        | wait h => rw [h1] at h; simp only [Prod.mk.injEq] at h; exact absurd h.2 hne
        | packet h t => rw [h1] at h; simp at h
        | skip h hn t =>
          rw [h1] at h
          simp only [asRes, Prod.mk.injEq, Res.err.injEq] at h
          obtain ⟨rfl, rfl⟩ := h
          obtain ⟨rfl, rfl⟩ := (ih _).1 t
          exact ⟨rfl, rfl⟩
    · rintro ⟨rfl, rfl⟩
      have t := (ih _).2 ⟨rfl, rfl⟩
      cases hx : rcv x with
      | ok p => rw [hx] at h1; exact .packet h1 t
      | error e => rw [hx] at h1; exact .skip h1 hne t

theorem pump_words {Q P : Type} {rd : M P} {retry : Error → Bytes → Bytes → Prop} (h0 : Pump rd retry [] [] none [])
    (enc : Q → Bytes) (rcv : Q → Except Error P) (xs : List Q)
    (h : ∀ x ∈ xs, (∀ rest, rd (enc x ++ rest) = (asRes (rcv x), rest))
      ∧ ∀ e, rcv x = .error e → ∀ rest, ¬ retry e (enc x ++ rest) rest) :
    Pump rd retry (xs.map enc).flatten (upTo rcv xs).1 (upTo rcv xs).2.1 ((upTo rcv xs).2.2.map enc).flatten := by
  induction xs with
  | nil => exact h0
  | cons x xs ih =>
    have ih := ih (fun g hg => h g (.tail _ hg))
    obtain ⟨h1, h2⟩ := h x (.head _)
    have h1 := h1 (xs.map enc).flatten
    simp only [List.map_cons, List.flatten_cons]
    unfold upTo
    cases hx : rcv x with
    | ok p => rw [hx] at h1; exact .step h1 ih
    | error e => rw [hx] at h1; exact .fail h1 (h2 e hx _)

theorem frame_ne (b1 : Nat) (bd : Bytes) : frame b1 bd ≠ [] := by simp [frame, Spec.u8]

/-- **C121** (3.1.1): of a stream of written packets a receiver that reads on after errors gets, one for one, what
`received` says, and nothing is left. -/
theorem C121_v4_stream (max : Nat) (ps : List V4.Packet) (h : ∀ p ∈ ps, (∃ m, (p.write []).1 = .ok m) ∧ Spec.V4.FieldsFit p
      ∧ (Spec.V4.body p).length ≤ max) (os : List (Except Error V4.Packet)) (r : Bytes) :
    Skim (V4.read max) (ps.map fun p => (p.write []).2).flatten os r ↔ os = ps.map Spec.V4.received ∧ r = [] := by
  refine skim_words ⟨_, readG_nil V4.readFrame max⟩ (fun p : V4.Packet => (p.write []).2) _ ps (fun p hp => ?_) os r
  obtain ⟨⟨m, hm⟩, hf, hl⟩ := h p hp
  exact ⟨by rw [(v4_bytes_ok hm).1]; exact frame_ne _ _, C121_v4_received p m hm hf max hl⟩

/-- **C121** (5.0) -/
theorem C121_v5_stream (max : Nat) (ps : List V5.Packet) (h : ∀ p ∈ ps, (∃ m, (p.write []).1 = .ok m) ∧ Spec.V5.FieldsFit p
      ∧ (∀ c, p = .Connect c → c.protocol = .V5) ∧ (Spec.V5.wireBody p).length ≤ max)
    (os : List (Except Error V5.Packet)) (r : Bytes) :
    Skim (V5.read max) (ps.map fun p => (p.write []).2).flatten os r ↔ os = ps.map Spec.V5.received ∧ r = [] := by
  refine skim_words ⟨_, readG_nil V5.readFrame max⟩ (fun p : V5.Packet => (p.write []).2) _ ps (fun p hp => ?_) os r
  obtain ⟨⟨m, hm⟩, hf, hc, hl⟩ := h p hp
  exact ⟨by rw [(v5_bytes_ok hm).1]; exact frame_ne _ _, C121_v5_received p m hm hf hc max hl⟩

/-- **C121** (3.1.1): a client that waits on `InsufficientBytes` and gives up on any other error gets, however the
network splits the stream, what `received` says, up to the first packet that cannot be read. -/
theorem C121_v4_client (max : Nat) (ps : List V4.Packet) (h : ∀ p ∈ ps, (∃ m, (p.write []).1 = .ok m) ∧ Spec.V4.FieldsFit p
      ∧ (Spec.V4.body p).length ≤ max) (chunks : List Bytes) (hs : chunks.flatten = (ps.map fun p => (p.write []).2).flatten)
    (got : List V4.Packet) (e : Option Error) (buf : Bytes) :
    Feed (V4.read max) retryInsufficient [] chunks got e buf ↔
      got = (upTo Spec.V4.received ps).1 ∧ e = (upTo Spec.V4.received ps).2.1
        ∧ buf = ((upTo Spec.V4.received ps).2.2.map fun p => (p.write []).2).flatten := by
  have hp := pump_words (v4_pump_nil max) (fun p : V4.Packet => (p.write []).2) Spec.V4.received ps (fun p hp => by
    obtain ⟨⟨m, hm⟩, hf, hl⟩ := h p hp
    refine ⟨C121_v4_received p m hm hf max hl, fun e he rest => ?_⟩
    rintro ⟨n, rfl⟩
    cases p <;> simp only [Spec.V4.received] at he
    all_goals first | (split at he <;> simp at he) | simp at he)
  rw [feed_chunks (v4_streaming max) (v4_pump_nil max), hs]
  constructor
  · exact fun hf => pump_unique hf hp
  · rintro ⟨rfl, rfl, rfl⟩; exact hp

/-- **C121** (5.0): likewise, for the client that waits only when `InsufficientBytes` left its buffer unchanged. -/
theorem C121_v5_client (max : Nat) (ps : List V5.Packet) (h : ∀ p ∈ ps, (∃ m, (p.write []).1 = .ok m) ∧ Spec.V5.FieldsFit p
      ∧ (∀ c, p = .Connect c → c.protocol = .V5) ∧ (Spec.V5.wireBody p).length ≤ max) (chunks : List Bytes)
    (hs : chunks.flatten = (ps.map fun p => (p.write []).2).flatten) (got : List V5.Packet) (e : Option Error) (buf : Bytes) :
    Feed (V5.read max) retryUnconsumed [] chunks got e buf ↔
      got = (upTo Spec.V5.received ps).1 ∧ e = (upTo Spec.V5.received ps).2.1
        ∧ buf = ((upTo Spec.V5.received ps).2.2.map fun p => (p.write []).2).flatten := by
  have hp := pump_words (v5_pump_nil max) (fun p : V5.Packet => (p.write []).2) Spec.V5.received ps (fun p hp => by
    obtain ⟨⟨m, hm⟩, hf, hc, hl⟩ := h p hp
    refine ⟨C121_v5_received p m hm hf hc max hl, fun e he rest => ?_⟩
    rintro ⟨-, h2⟩
    have := congrArg List.length h2
    have h3 := List.length_pos_iff.2 (frame_ne (Spec.V5.byte1 p) (Spec.V5.wireBody p))
    rw [← (v5_bytes_ok hm).1] at h3
    rw [List.length_append] at this
    omega)
  rw [feed_chunks (v5_streaming max) (v5_pump_nil max), hs]
  constructor
  · exact fun hf => pump_unique hf hp
  · rintro ⟨rfl, rfl, rfl⟩; exact hp

/-! ### What the bytes do not tell makes no difference to the writer -/

/-- **C121** (3.1.1): writing a packet and writing what the receiver will see of it is the same: same result, same bytes,
into every buffer, also when the packet is refused. -/
theorem C121_v4_essence_write (p : V4.Packet) (s : Bytes) : (Spec.V4.essence p).write s = p.write s := by
  have hb := V4.Ess.essence_body p
  have h1 := V4.Ess.essence_byte1 p
  have he : Spec.V4.encode (Spec.V4.essence p) = Spec.V4.encode p := by unfold Spec.V4.encode; rw [hb, h1]
  cases p <;> try rfl
  case Connect c =>
    simp only [Spec.V4.essence] at hb he ⊢
    obtain ⟨a1, a2⟩ := C91_v4_connect_into c s
    obtain ⟨b1, b2⟩ := C91_v4_connect_into { c with login := if c.login = some ⟨"", ""⟩ then none else c.login } s
    rw [hb] at b1 b2
    by_cases hl : 268435455 < (Spec.V4.body (.Connect c)).length
    · rw [a1 hl, b1 hl]
    · obtain ⟨f, x1, x2⟩ := a2 (by omega) _ rfl
      obtain ⟨g, y1, y2⟩ := b2 (by omega) _ rfl
      rw [he] at y1 y2
      rw [x1] at y1
      cases y1
      rw [x2, y2]
  case Publish q =>
    simp only [Spec.V4.essence] at hb he h1 ⊢
    rw [C91_v4_write_exact _ (by simp), C91_v4_write_exact _ (by simp)]
    have hk : Spec.V4.pkidMissing (.Publish { q with pkid := if q.qos = .AtMostOnce then 0 else q.pkid })
        = Spec.V4.pkidMissing (.Publish q) := by
      by_cases h : q.qos = .AtMostOnce <;> simp [Spec.V4.pkidMissing, h]
    have : Spec.V4.written (.Publish { q with pkid := if q.qos = .AtMostOnce then 0 else q.pkid })
        = Spec.V4.written (.Publish q) := by
      unfold Spec.V4.written
      simp only [Spec.V4.announced, hk, hb, he, h1]
      congr
    rw [this]

theorem tornSec_nil : Spec.V5.tornSec [] = none := rfl

theorem told_torn {π : Type} (props : π → List Spec.V5.Property) (o : Option π) :
    ((Spec.V5.told props o).bind fun ps => Spec.V5.tornSec (props ps)) = o.bind fun ps => Spec.V5.tornSec (props ps) := by
  cases o with
  | none => rfl
  | some p =>
    simp only [Spec.V5.told]
    split
    · rename_i h; simp [h, tornSec_nil]
    · rfl

/-- **C121** (5.0) -/
theorem C121_v5_essence_write (p : V5.Packet) (s : Bytes) : (Spec.V5.essence p).write s = p.write s := by
  have hb := V5.Ess.essence_body p
  have h1 := V5.Ess.essence_byte1 p
  cases p <;> try rfl
  case Connect c =>
    have hb : Spec.V5.body (Spec.V5.essence (.Connect c)) = Spec.V5.body (.Connect c) := hb
    have he : Spec.V5.encode (Spec.V5.essence (.Connect c)) = Spec.V5.encode (.Connect c) := by
      unfold Spec.V5.encode; rw [hb, h1]
    obtain ⟨a1, a2⟩ := C91_v5_connect_into c s
    simp only [Spec.V5.essence] at hb he ⊢
    obtain ⟨b1, b2⟩ := C91_v5_connect_into { c with
      login := if c.login = some ⟨"", ""⟩ then none else c.login
      last_will := c.last_will.map fun w => { w with properties := Spec.V5.told Spec.V5.willProps w.properties }
      properties := Spec.V5.told Spec.V5.connectProps c.properties } s
    rw [hb] at b1 b2
    by_cases hl : 268435455 < (Spec.V5.body (.Connect c)).length
    · rw [a1 hl, b1 hl]
    · obtain ⟨f, x1, x2⟩ := a2 (by omega) _ rfl
      obtain ⟨g, y1, y2⟩ := b2 (by omega) _ rfl
      rw [he] at y1 y2
      rw [x1] at y1
      cases y1
      rw [x2, y2]
  all_goals
    rw [C91_v5_write_exact _ (by simp [Spec.V5.essence]), C91_v5_write_exact _ (by simp)]
    suffices h : Spec.V5.written (Spec.V5.essence _) = Spec.V5.written _ by rw [h]
  case Publish q =>
    have hk : Spec.V5.pkidMissing (Spec.V5.essence (.Publish q)) = Spec.V5.pkidMissing (.Publish q) := by
      by_cases h : q.qos = .AtMostOnce <;> simp [Spec.V5.pkidMissing, Spec.V5.essence, h]
    have he : Spec.V5.encode (Spec.V5.essence (.Publish q)) = Spec.V5.encode (.Publish q) := by
      have hb : Spec.V5.body (Spec.V5.essence (.Publish q)) = Spec.V5.body (.Publish q) := hb
      unfold Spec.V5.encode; rw [hb, h1]
    have ht := told_torn Spec.V5.publishProps q.properties
    simp only [Spec.V5.essence] at hk he hb h1 ⊢
    unfold Spec.V5.written
    simp only [Spec.V5.announced, hk, hb, he, h1, ht]
    by_cases h : q.qos = .AtMostOnce <;> simp [h]
  case Subscribe q =>
    have he : Spec.V5.encode (Spec.V5.essence (.Subscribe q)) = Spec.V5.encode (.Subscribe q) := by
      have hb : Spec.V5.body (Spec.V5.essence (.Subscribe q)) = Spec.V5.body (.Subscribe q) := hb
      unfold Spec.V5.encode; rw [hb, h1]
    have ht := told_torn Spec.V5.subscribeProps q.properties
    simp only [Spec.V5.essence] at he hb h1 ⊢
    unfold Spec.V5.written
    simp only [Spec.V5.announced, Spec.V5.pkidMissing, hb, he, h1, ht]
    congr
  all_goals
    simp only [Spec.V5.essence] at hb h1 ⊢
    unfold Spec.V5.written
    simp only [Spec.V5.announced, Spec.V5.pkidMissing, hb, h1]
    try congr

/-! ### concrete cases -/

/-- a SUBSCRIBE without filters can be written, but is refused -/
example : V4.read 9 ((V4.Packet.write (.Subscribe ⟨7, []⟩) []).2 ++ [0xC0, 0]) = (.err .EmptySubscription, [0xC0, 0]) :=
  C121_v4_received (.Subscribe ⟨7, []⟩) 4 (by decide +kernel) (by simp [Spec.V4.FieldsFit]) 9 (by decide) _

/-- a PUBLISH with three subscription identifiers: the last one ends up in the payload -/
example : V5.read 99 ((V5.Packet.write
        (.Publish ⟨false, .AtMostOnce, false, "t", 0, some ⟨none, none, none, none, none, [], [1, 1, 1], none⟩, [42]⟩) []).2
        ++ [0xC0, 0])
      = (.ok (.Publish ⟨false, .AtMostOnce, false, "t", 0, some ⟨none, none, none, none, none, [], [1, 1], none⟩,
          [11, 1, 42]⟩), [0xC0, 0]) :=
  C121_v5_received (.Publish ⟨false, .AtMostOnce, false, "t", 0, some ⟨none, none, none, none, none, [], [1, 1, 1], none⟩, [42]⟩)
    13 (by decide +kernel)
    ⟨by decide, by
      intro q hq
      cases hq
      intro x hx
      simp [Spec.V5.publishProps, Spec.V5.opt, Spec.V5.users] at hx
      subst hx
      simp only [Spec.V5.Val.Fits]; decide +kernel⟩ (by simp) 99 (by decide +kernel) _

/-- `Disconnect::new()`, an UNSUBACK without codes and a CONNACK without a property set are refused, an empty property
set of a PUBACK becomes none -/
def sample : List V5.Packet :=
  [.Disconnect ⟨.NormalDisconnection, none⟩, .PubAck ⟨7, .Success, some ⟨none, []⟩⟩, .UnsubAck ⟨7, [], none⟩,
    .Disconnect ⟨.ServerBusy, none⟩, .ConnAck ⟨true, .Success, none⟩]

theorem sample_ok : ∀ p ∈ sample, (∃ m, (p.write []).1 = .ok m) ∧ Spec.V5.FieldsFit p
      ∧ (∀ c, p = .Connect c → c.protocol = .V5) ∧ (Spec.V5.wireBody p).length ≤ 9 := by
  intro p hp
  simp only [sample, List.mem_cons, List.not_mem_nil, or_false] at hp
  rcases hp with rfl | rfl | rfl | rfl | rfl
  · exact ⟨⟨2, by decide +kernel⟩, by intro q hq; simp at hq, by simp, by decide +kernel⟩
  · refine ⟨⟨6, by decide +kernel⟩, ?_, by simp, by decide +kernel⟩
    intro q hq
    cases hq
    intro x hx
    simp [Spec.V5.reasonProps, Spec.V5.opt, Spec.V5.users] at hx
  · exact ⟨⟨5, by decide +kernel⟩, by intro q hq; simp at hq, by simp, by decide +kernel⟩
  · exact ⟨⟨3, by decide +kernel⟩, by intro q hq; simp at hq, by simp, by decide +kernel⟩
  · exact ⟨⟨4, by decide +kernel⟩, by intro q hq; simp at hq, by simp, by decide +kernel⟩

example : Skim (V5.read 9) [0xE0, 0, 0x40, 4, 0, 7, 0, 0, 0xB0, 3, 0, 7, 0, 0xE0, 1, 0x89, 0x20, 2, 1, 0]
    [.error .PayloadRequired, .ok (.PubAck ⟨7, .Success, none⟩), .error .MalformedPacket, .error (.InsufficientBytes 1),
      .error (.InsufficientBytes 1)] [] := by
  have := (C121_v5_stream 9 sample sample_ok (sample.map Spec.V5.received) []).2 ⟨rfl, rfl⟩
  have e : (sample.map fun p => (p.write []).2).flatten
      = [0xE0, 0, 0x40, 4, 0, 7, 0, 0, 0xB0, 3, 0, 7, 0, 0xE0, 1, 0x89, 0x20, 2, 1, 0] := by decide +kernel
  rwa [e] at this

/-- the client stops at the first refusal: here the UNSUBACK, with seven bytes unread -/
example (got : List V5.Packet) (e : Option Error) (buf : Bytes) :
    Feed (V5.read 9) retryUnconsumed [] [[0x40, 4, 0], [7, 0, 0, 0xB0, 3, 0, 7, 0, 0xE0, 1], [0x89, 0x20, 2, 1, 0]] got e buf ↔
      got = [.PubAck ⟨7, .Success, none⟩] ∧ e = some .MalformedPacket ∧ buf = [0xE0, 1, 0x89, 0x20, 2, 1, 0] := by
  have := C121_v5_client 9 sample.tail (fun p hp => sample_ok p (List.mem_of_mem_tail hp))
    [[0x40, 4, 0], [7, 0, 0, 0xB0, 3, 0, 7, 0, 0xE0, 1], [0x89, 0x20, 2, 1, 0]] (by decide +kernel) got e buf
  have e1 : (upTo Spec.V5.received sample.tail).1 = [.PubAck ⟨7, .Success, none⟩] := by decide +kernel
  have e2 : (upTo Spec.V5.received sample.tail).2.1 = some .MalformedPacket := by decide +kernel
  have e3 : ((upTo Spec.V5.received sample.tail).2.2.map fun p => (p.write []).2).flatten = [0xE0, 1, 0x89, 0x20, 2, 1, 0] := by
    decide +kernel
  rwa [e1, e2, e3] at this

example : Skim (V4.read 9) [0xC0, 0, 0x90, 2, 0, 7, 0xD0, 0] [.ok .PingReq, .error .MalformedPacket, .ok .PingResp] [] :=
  (C121_v4_stream 9 [.PingReq, .SubAck ⟨7, []⟩, .PingResp] (by
    intro p hp
    simp only [List.mem_cons, List.not_mem_nil, or_false] at hp
    rcases hp with rfl | rfl | rfl
    · exact ⟨⟨2, by decide +kernel⟩, trivial, by decide⟩
    · exact ⟨⟨4, by decide +kernel⟩, trivial, by decide⟩
    · exact ⟨⟨2, by decide +kernel⟩, trivial, by decide⟩) _ _).2 ⟨rfl, rfl⟩

example (got : List V4.Packet) (e : Option Error) (buf : Bytes) :
    Feed (V4.read 9) retryInsufficient [] [[0xC0], [0, 0x90, 2, 0], [7, 0xD0, 0]] got e buf ↔
      got = [.PingReq] ∧ e = some .MalformedPacket ∧ buf = [0xD0, 0] :=
  C121_v4_client 9 [.PingReq, .SubAck ⟨7, []⟩, .PingResp] (by
    intro p hp
    simp only [List.mem_cons, List.not_mem_nil, or_false] at hp
    rcases hp with rfl | rfl | rfl
    · exact ⟨⟨2, by decide +kernel⟩, trivial, by decide⟩
    · exact ⟨⟨4, by decide +kernel⟩, trivial, by decide⟩
    · exact ⟨⟨2, by decide +kernel⟩, trivial, by decide⟩) _ (by decide +kernel) got e buf

/-- the client identifier "cam1" is lost -/
example : V5.read 99 ((V5.Packet.write (.Connect ⟨.V4, 10, "cam1", true, none, none, none⟩) []).2 ++ [0xC0, 0])
      = (.ok (.Connect ⟨.V4, 10, "", true, none, none, none⟩), [0xC0, 0]) :=
  C121_v5_level4_loses_id ⟨.V4, 10, "cam1", true, none, none, none⟩ 17 (by decide +kernel) rfl rfl rfl rfl (by decide) 99 (by decide +kernel) _

/-- into a buffer with other bytes in it, where CONNECT overwrites one of them -/
example : V4.Packet.write (.Connect ⟨.V4, 5, "c", true, none, none⟩) [1, 2, 3, 4, 5, 6, 7, 8, 9, 10]
      = V4.Packet.write (.Connect ⟨.V4, 5, "c", true, none, some ⟨"", ""⟩⟩) [1, 2, 3, 4, 5, 6, 7, 8, 9, 10] :=
  C121_v4_essence_write (.Connect ⟨.V4, 5, "c", true, none, some ⟨"", ""⟩⟩) _
example : V5.Packet.write (.Disconnect ⟨.NormalDisconnection, none⟩) [1] = V5.Packet.write (.Disconnect ⟨.ServerBusy, some .new⟩) [1] :=
  C121_v5_essence_write (.Disconnect ⟨.ServerBusy, some .new⟩) _

end Props
