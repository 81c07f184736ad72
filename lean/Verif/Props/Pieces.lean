import Verif.Spec.Pieces
import Verif.Props.Errors
import Verif.Proof.V5SetsSub
import Mathlib.Data.List.Flatten
import Mathlib.Data.List.Perm.Basic
/-! C122: the texts and byte strings of a decoded packet are pieces of its own frame. -/
namespace Props
open Mqtt Spec

theorem inside_append {xs ys : List Bytes} {a b : Bytes} (h1 : Inside xs a) (h2 : Inside ys b) :
    Inside (xs ++ ys) (a ++ b) := by
  induction h1 with
  | nil =>
    rename_i s
    cases h2 with
    | nil => exact .nil
    | cons h =>
      rename_i g x t l
      have := Inside.cons (gap := s ++ g) (x := x) h
      simpa using this
  | cons h ih =>
    rename_i g x t l
    have := Inside.cons (gap := g) (x := x) ih
    simpa using this

theorem inside_one (g x t : Bytes) : Inside [x] (g ++ x ++ t) := .cons .nil

theorem inside_sublist {xs ys : List Bytes} (h : xs.Sublist ys) {s : Bytes} (hy : Inside ys s) : Inside xs s := by
  induction hy generalizing xs with
  | nil => rw [List.sublist_nil.1 h]; exact .nil
  | cons hi ih =>
    rename_i g x t l
    cases h with
    | cons _ h =>
      have := inside_append (xs := []) (a := g ++ x) .nil (ih h)
      simpa using this
    | cons_cons _ h => exact .cons (ih h)

theorem among_of {xs : List Bytes} {s : Bytes} (h : Inside xs s) : Among xs s := ⟨xs, .refl _, h⟩

theorem among_append {xs ys : List Bytes} {a b : Bytes} (h1 : Among xs a) (h2 : Among ys b) :
    Among (xs ++ ys) (a ++ b) := by
  obtain ⟨p, h3, h4⟩ := h1
  obtain ⟨q, h5, h6⟩ := h2
  exact ⟨p ++ q, h3.append h5, inside_append h4 h6⟩

theorem among_nil (s : Bytes) : Among [] s := among_of .nil

/-- skip bytes in front -/
theorem among_after {xs : List Bytes} {s : Bytes} (g : Bytes) (h : Among xs s) : Among xs (g ++ s) := by
  have := among_append (among_nil g) h
  simpa using this

/-- skip bytes behind -/
theorem among_before {xs : List Bytes} {s : Bytes} (g : Bytes) (h : Among xs s) : Among xs (s ++ g) := by
  have := among_append h (among_nil g)
  simpa using this

theorem inside_str (s : String) : Inside [utf8 s] (str s) := by
  have := inside_one (u16 (utf8 s).length) (utf8 s) []
  simpa [str, bin] using this

theorem inside_bin (b : Bytes) : Inside [b] (bin b) := by
  have := inside_one (u16 b.length) b []
  simpa [bin] using this

theorem inside_strs (l : List String) : Inside (l.map utf8) (l.flatMap str) := by
  induction l with
  | nil => exact .nil
  | cons a l ih => simpa using inside_append (inside_str a) ih

/-! ### 3.1.1 -/

theorem v4_filters_inside {bd : Bytes} {fs : List V4.SubscribeFilter} (h : Spec.V4.FiltersDenote bd fs) :
    Inside (fs.map fun f => utf8 f.path) bd := by
  induction h with
  | nil => exact .nil
  | cons path q opt bd fs hp ho h ih =>
    have h1 := inside_append (inside_str path) (Inside.nil (s := [opt]))
    simpa using inside_append h1 ih

theorem v4_login_inside {flags : UInt8} {bd : Bytes} {l : Option V4.Login} (h : Spec.V4.LoginDenotes flags bd l) :
    Inside (piecesOf (fun l => [utf8 l.username, utf8 l.password]) l) bd := by
  obtain ⟨u, p, -, -, hu, hp, rfl, rfl⟩ := h
  split
  · exact .nil
  · simp only [piecesOf]
    have e : utf8 "" = [] := by decide
    have one : ∀ (b : Nat) (x : String), (¬ Spec.V4.bit flags b → x = "") →
        Inside [utf8 x] (if Spec.V4.bit flags b then str x else []) := by
      intro b x hx
      split
      · exact inside_str x
      · rename_i h
        rw [hx h, e]
        exact inside_one [] [] []
    exact inside_append (one 7 u hu) (one 6 p hp)

theorem v4_denotes_inside {b1 : UInt8} {bd : Bytes} {p : V4.Packet} (h : Spec.V4.Denotes b1 bd p) :
    Inside (Spec.V4.pieces p) bd := by
  cases p with
  | Connect c =>
    obtain ⟨-, flags, will, login, junk, rfl, -, -, hw, hl⟩ := h
    have h1 := inside_append (Inside.nil (s := str "MQTT" ++ u8 (Spec.V4.level c.protocol) ++ [flags] ++ u16 c.keep_alive.toNat))
      (inside_str c.client_id)
    have h2 : Inside (piecesOf (fun w : V4.LastWill => [utf8 w.topic, w.message]) c.last_will) will := by
      cases hc : c.last_will with
      | none => exact .nil
      | some w =>
        rw [hc] at hw
        obtain ⟨-, -, -, -, -, rfl⟩ := hw
        exact inside_append (inside_str _) (inside_bin _)
    have h3 := inside_append (inside_append h1 h2) (v4_login_inside hl)
    simpa [Spec.V4.pieces] using inside_append h3 (Inside.nil (s := junk))
  | Publish p =>
    obtain ⟨-, rfl, -, -⟩ := h
    have h1 := inside_append (inside_str p.topic) (Inside.nil (s := if p.qos = .AtMostOnce then [] else u16 p.pkid.toNat))
    have h2 := inside_append h1 (inside_one [] p.payload [])
    simpa [Spec.V4.pieces, Spec.V4.body] using h2
  | Subscribe s =>
    obtain ⟨-, fs, rfl, hf, -⟩ := h
    exact inside_append .nil (v4_filters_inside hf)
  | Unsubscribe u =>
    obtain ⟨-, rfl, -⟩ := h
    exact inside_append .nil (inside_strs _)
  | _ => exact .nil

/-- **C122** (3.1.1): the texts and byte strings of a decoded packet are pieces of its own frame, in the order of the
fields and without overlap. -/
theorem C122_v4_pieces (max : Nat) (s rest : Bytes) (p : V4.Packet) (h : V4.read max s = (.ok p, rest)) :
    ∃ frame, s = frame ++ rest ∧ Inside (Spec.V4.pieces p) frame := by
  obtain ⟨b1, bs, bd, rfl, -, -, -, hd⟩ := (V4.read_ok_iff max s rest p).1 h
  refine ⟨b1 :: (bs ++ bd), by simp, ?_⟩
  have := inside_append (Inside.nil (s := b1 :: bs)) (v4_denotes_inside hd)
  simpa using this

/-! ### 5.0 -/

theorem val_inside {v : Spec.V5.Val} {bs : Bytes} (h : v.Denotes bs) : Inside v.pieces bs := by
  cases v with
  | str s => obtain ⟨-, rfl⟩ := h; exact inside_str s
  | bin b => obtain ⟨-, rfl⟩ := h; exact inside_bin b
  | pair k v => obtain ⟨-, rfl⟩ := h; exact inside_append (inside_str k) (inside_str v)
  | _ => exact .nil

theorem seq_inside {kind : Nat → Option Spec.V5.Kind} {n c : Nat} {bs : Bytes} {ps : List Spec.V5.Property}
    (h : Spec.V5.PropSeq kind n c bs ps) : Inside (Spec.V5.propPieces ps) bs := by
  induction h with
  | done h => exact .nil
  | more h id v vb bs ps hk hv ht ih =>
    have h1 := inside_append (Inside.nil (s := [id])) (val_inside hv)
    have h2 := inside_append h1 ih
    simpa [Spec.V5.propPieces] using h2

theorem set_among {π : Type} {kind : Nat → Option Spec.V5.Kind} {props : π → List Spec.V5.Property}
    {dec : List Spec.V5.Property → π} {st : V5.PropStep π} {ln : π → Nat} {wr : π → M Unit}
    (S : V5.PropSet kind props dec st ln wr) {sec : Bytes} {o : Option π} (h : Spec.V5.SetDenotes kind dec sec o) :
    Among (piecesOf (fun p => Spec.V5.propPieces (props p)) o) sec := by
  obtain ⟨ps, hs, rfl⟩ := h
  cases ps with
  | none => exact among_nil _
  | some ps =>
    obtain ⟨len, bs, rfl, -, -, hseq⟩ := hs
    obtain ⟨l, hl, hsub⟩ := S.sub ps
    simp only [Option.map_some, piecesOf]
    refine among_after len ⟨Spec.V5.propPieces l, hl.flatMap_right _, ?_⟩
    exact inside_sublist (hsub.flatMap _) (seq_inside hseq)

theorem v5_filters_inside {bd : Bytes} {fs : List V5.SubscribeFilter} (h : Spec.V5.FiltersDenote bd fs) :
    Inside (fs.map fun f => utf8 f.path) bd := by
  induction h with
  | nil => exact .nil
  | cons f opt bd fs hp ho h ih =>
    have h1 := inside_append (inside_str f.path) (Inside.nil (s := [opt]))
    simpa using inside_append h1 ih

theorem v5_login_inside {flags : UInt8} {bd : Bytes} {l : Option V5.Login} (h : Spec.V5.LoginDenotes flags bd l) :
    Inside (piecesOf (fun l => [utf8 l.username, utf8 l.password]) l) bd := by
  obtain ⟨u, p, -, -, hu, hp, rfl, rfl⟩ := h
  split
  · exact .nil
  · simp only [piecesOf]
    have e : utf8 "" = [] := by decide
    have one : ∀ (b : Nat) (x : String), (¬ Spec.V4.bit flags b → x = "") →
        Inside [utf8 x] (if Spec.V4.bit flags b then str x else []) := by
      intro b x hx
      split
      · exact inside_str x
      · rename_i h
        rw [hx h, e]
        exact inside_one [] [] []
    exact inside_append (one 7 u hu) (one 6 p hp)

theorem ack_among {R : Type} {code : R → Nat} {bd : Bytes} {a : V5.Ack R} (h : Spec.V5.AckDenotes code bd a) :
    Among (piecesOf (fun p => Spec.V5.propPieces (Spec.V5.reasonProps p)) a.properties) bd := by
  rcases h with ⟨-, -, h⟩ | ⟨-, h⟩ | ⟨props, junk, rfl, h⟩
  · rw [h]; exact among_nil _
  · rw [h]; exact among_nil _
  · exact among_before junk (among_after _ (set_among V5.reason_set h))

theorem v5_denotes_among {b1 : UInt8} {bd : Bytes} {p : V5.Packet} (h : Spec.V5.Denotes b1 bd p) :
    Among (Spec.V5.pieces p) bd := by
  cases p with
  | Connect c =>
    obtain ⟨-, flags, props, will, login, junk, rfl, hp, -, -, hw, hl⟩ := h
    have h0 : Among (piecesOf (fun p => Spec.V5.propPieces (Spec.V5.connectProps p)) c.properties) props := by
      cases hc : c.protocol with
      | V4 => rw [hc] at hp; rw [hp.2]; exact among_nil _
      | V5 => rw [hc] at hp; exact set_among V5.connect_set hp
    have h2 : Among (piecesOf (fun w : V5.LastWill => piecesOf (fun p => Spec.V5.propPieces (Spec.V5.willProps p)) w.properties
        ++ [utf8 w.topic, w.message]) c.last_will) will := by
      cases hc : c.last_will with
      | none => exact among_nil _
      | some w =>
        rw [hc] at hw
        obtain ⟨-, -, -, -, -, wp, rfl, hwp⟩ := hw
        have := among_append (set_among V5.will_set hwp) (among_of (inside_append (inside_str w.topic) (inside_bin w.message)))
        simpa [piecesOf] using this
    have h3 := among_append (among_append (among_append h0 (among_of (inside_str c.client_id))) h2) (among_of (v5_login_inside hl))
    have h4 := among_before junk (among_after (str "MQTT" ++ u8 (Spec.V4.level c.protocol) ++ [flags] ++ u16 c.keep_alive.toNat) h3)
    simpa [Spec.V5.pieces] using h4
  | ConnAck c =>
    obtain ⟨-, flags, props, junk, rfl, -, hp⟩ := h
    exact among_before junk (among_after _ (set_among V5.connack_set hp))
  | Publish p =>
    obtain ⟨-, props, rfl, -, -, hp⟩ := h
    have h1 := among_append (among_append (among_of (inside_str p.topic))
      (among_after (if p.qos = .AtMostOnce then [] else u16 p.pkid.toNat) (set_among V5.publish_set hp)))
      (among_of (inside_one [] p.payload []))
    simpa [Spec.V5.pieces] using h1
  | PubAck a => exact ack_among h.2
  | PubRec a => exact ack_among h.2
  | PubRel a => exact ack_among h.2
  | PubComp a => exact ack_among h.2
  | Subscribe s =>
    obtain ⟨-, props, fs, rfl, hp, hf⟩ := h
    exact among_append (among_after _ (set_among V5.subscribe_set hp)) (among_of (v5_filters_inside hf))
  | SubAck s =>
    obtain ⟨-, props, rfl, hp, -⟩ := h
    exact among_before _ (among_after _ (set_among V5.reason_set hp))
  | Unsubscribe u =>
    obtain ⟨-, props, rfl, hp, -⟩ := h
    exact among_append (among_after _ (set_among V5.unsubscribe_set hp)) (among_of (inside_strs _))
  | UnsubAck u =>
    obtain ⟨-, props, rfl, hp, -⟩ := h
    exact among_before _ (among_after _ (set_among V5.reason_set hp))
  | PingReq => exact among_nil _
  | PingResp => exact among_nil _
  | Disconnect d =>
    obtain ⟨-, props, junk, rfl, hp⟩ := h
    exact among_before junk (among_after _ (set_among V5.disconnect_set hp))

/-- **C122** (5.0): likewise, those in properties included; the order of the properties may differ. -/
theorem C122_v5_pieces (max : Nat) (s rest : Bytes) (p : V5.Packet) (h : V5.read max s = (.ok p, rest)) :
    ∃ frame, s = frame ++ rest ∧ Among (Spec.V5.pieces p) frame := by
  obtain ⟨b1, bs, bd, rfl, -, -, -, hd⟩ := (V5.read_ok_iff max s rest p).1 h
  refine ⟨b1 :: (bs ++ bd), by simp, ?_⟩
  have := among_after (b1 :: bs) (v5_denotes_among hd)
  simpa using this

/-! ### consequences -/

theorem inside_infix {xs : List Bytes} {s : Bytes} (h : Inside xs s) : ∀ x ∈ xs, x <:+: s := by
  induction h with
  | nil => simp
  | cons h ih =>
    rename_i g y t l
    intro x hx
    rcases List.mem_cons.1 hx with rfl | hx
    · exact ⟨g, t, rfl⟩
    · obtain ⟨a, b, e⟩ := ih x hx
      exact ⟨g ++ y ++ a, b, by rw [← e]; simp⟩

theorem inside_length {xs : List Bytes} {s : Bytes} (h : Inside xs s) : (xs.map List.length).sum ≤ s.length := by
  induction h with
  | nil => simp
  | cons h ih =>
    rename_i g y t l
    simp only [List.map_cons, List.sum_cons, List.length_append]
    omega

/-- **C122** (3.1.1): so each text or byte string of the packet is a contiguous part of the bytes the call took from the
buffer, and together they are not longer than these. -/
theorem C122_v4_verbatim (max : Nat) (s rest : Bytes) (p : V4.Packet) (h : V4.read max s = (.ok p, rest)) :
    (∀ x ∈ Spec.V4.pieces p, ∃ a b, s = a ++ x ++ b ++ rest)
    ∧ ((Spec.V4.pieces p).map List.length).sum + rest.length ≤ s.length := by
  obtain ⟨frame, rfl, hi⟩ := C122_v4_pieces max s rest p h
  refine ⟨fun x hx => ?_, ?_⟩
  · obtain ⟨a, b, e⟩ := inside_infix hi x hx
    exact ⟨a, b, by rw [← e]⟩
  · have := inside_length hi
    rw [List.length_append]; omega

/-- **C122** (5.0) -/
theorem C122_v5_verbatim (max : Nat) (s rest : Bytes) (p : V5.Packet) (h : V5.read max s = (.ok p, rest)) :
    (∀ x ∈ Spec.V5.pieces p, ∃ a b, s = a ++ x ++ b ++ rest)
    ∧ ((Spec.V5.pieces p).map List.length).sum + rest.length ≤ s.length := by
  obtain ⟨frame, rfl, ys, hp, hi⟩ := C122_v5_pieces max s rest p h
  refine ⟨fun x hx => ?_, ?_⟩
  · obtain ⟨a, b, e⟩ := inside_infix hi x (hp.mem_iff.2 hx)
    exact ⟨a, b, by rw [← e]⟩
  · have := inside_length hi
    rw [(hp.map List.length).sum_nat] at this
    rw [List.length_append]; omega

/-! ### concrete cases -/

/-- CONNECT with will and login -/
example : ∃ frame, [16, 29, 0, 4, 77, 81, 84, 84, 4, 0xC6, 0, 10, 0, 1, 99, 0, 2, 116, 47, 0, 1, 7, 0, 1, 117, 0, 1, 112, 1, 2, 3, 0xC0, 0]
        = frame ++ [(0xC0 : UInt8), 0]
      ∧ Inside [[99], [116, 47], [7], [117], [112]] frame :=
  C122_v4_pieces 99 _ [0xC0, 0] (.Connect ⟨.V4, 10, "c", true, some ⟨"t/", [7], .AtMostOnce, false⟩, some ⟨"u", "p"⟩⟩) (by decide +kernel)
example : (∀ x ∈ [[(116 : UInt8), 47], [9, 8]], ∃ a b, [0x30, 6, 0, 2, 116, 47, 9, 8, 0xC0, 0] = a ++ x ++ b ++ [0xC0, 0])
      ∧ 4 + 2 ≤ 10 :=
  C122_v4_verbatim 9 [0x30, 6, 0, 2, 116, 47, 9, 8, 0xC0, 0] [0xC0, 0] (.Publish ⟨false, .AtMostOnce, false, "t/", 0, [9, 8]⟩) (by decide +kernel)

/-- PUBLISH whose user property comes before its content type on the wire, and after it in `pieces`; a first content type is
overridden -/
example : ∃ frame, [0x30, 22, 0, 1, 116, 16, 3, 0, 1, 120, 38, 0, 1, 107, 0, 1, 118, 3, 0, 2, 121, 122, 7, 9]
        = frame ++ ([] : Bytes)
      ∧ Among [[116], [107], [118], [121, 122], [7, 9]] frame :=
  C122_v5_pieces 99 _ [] (.Publish ⟨false, .AtMostOnce, false, "t", 0, some ⟨none, none, none, none, none, [("k", "v")], [], some "yz"⟩, [7, 9]⟩)
    (by decide +kernel)
example : (∀ x ∈ [[(111 : UInt8), 107]], ∃ a b, [0x40, 9, 0, 7, 0, 5, 31, 0, 2, 111, 107, 0xC0, 0] = a ++ x ++ b ++ [0xC0, 0])
      ∧ 2 + 2 ≤ 13 :=
  C122_v5_verbatim 99 [0x40, 9, 0, 7, 0, 5, 31, 0, 2, 111, 107, 0xC0, 0] [0xC0, 0] (.PubAck ⟨7, .Success, some ⟨some "ok", []⟩⟩) (by decide +kernel)

end Props
