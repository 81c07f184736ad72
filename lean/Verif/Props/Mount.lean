import Verif.Spec.Mount
import Verif.Props.TopicParts
import Verif.Props.Topic
import Verif.Props.Grow
/-! C134: mount points. -/
set_option linter.unusedSimpArgs false
namespace Props
open Mqtt Mqtt.Topic Spec Spec.Topic

theorem below_ordinary {m : String} (h : Ordinary m) (t : String) : Ordinary (below m t) := by
  intro c cs hc
  unfold below at hc
  cases hm : m.toList with
  | nil =>
    have : c = '/' := by simp [String.toList_append, hm] at hc; exact hc.1.symm
    subst this; decide
  | cons d ds =>
    have : c = d := by simp [String.toList_append, hm] at hc; exact hc.1.symm
    exact this ▸ h d ds hm

theorem below_split (m t : String) : split (below m t).toList = split m.toList ++ split t.toList := levels_slash m t

theorem plain_levels {m : String} (hm : valid_topic m = true) : ∀ l ∈ split m.toList, '+' ∉ l ∧ '#' ∉ l := by
  obtain ⟨h1, h2⟩ := (C46_valid_topic_iff m).1 hm
  exact fun l hl => ⟨fun h => h1 ((mem_split _ '+' (by decide)).1 ⟨l, hl, h⟩),
    fun h => h2 ((mem_split _ '#' (by decide)).1 ⟨l, hl, h⟩)⟩

theorem loop_prefix (M fl tl : List Level) (h : ∀ l ∈ M, '+' ∉ l ∧ '#' ∉ l) :
    matchesLoop (M ++ fl) (M ++ tl) = matchesLoop fl tl := by
  induction M with
  | nil => rfl
  | cons l M ih =>
    have hl := h l (by simp)
    have h1 : l ≠ ['#'] := by rintro rfl; exact hl.2 (by simp)
    have h2 : l ≠ ['+'] := by rintro rfl; exact hl.1 (by simp)
    rw [List.cons_append, List.cons_append, matchesLoop_cons, if_neg h1, if_neg h1, if_neg h2, if_neg (by simp),
      ih fun x hx => h x (by simp [hx])]

theorem loop_apart (M M' fl tl : List Level) (h : ∀ l ∈ M', '+' ∉ l ∧ '#' ∉ l) (h1 : ¬ M <+: M') (h2 : ¬ M' <+: M) :
    matchesLoop (M' ++ fl) (M ++ tl) = false := by
  induction M' generalizing M with
  | nil => exact absurd List.nil_prefix h2
  | cons l M' ih =>
    have hl := h l (by simp)
    have e1 : l ≠ ['#'] := by rintro rfl; exact hl.2 (by simp)
    have e2 : l ≠ ['+'] := by rintro rfl; exact hl.1 (by simp)
    cases M with
    | nil => exact absurd List.nil_prefix h1
    | cons k M =>
      rw [List.cons_append, List.cons_append, matchesLoop_cons, if_neg e1]
      by_cases hk : k = ['#']
      · rw [if_pos hk]
      rw [if_neg hk, if_neg e2]
      by_cases hlk : l = k
      · subst hlk
        rw [if_neg (by simp)]
        exact ih M (fun x hx => h x (by simp [hx])) (fun hp => h1 (List.cons_prefix_cons.2 ⟨rfl, hp⟩))
          (fun hp => h2 (List.cons_prefix_cons.2 ⟨rfl, hp⟩))
      · rw [if_pos hlk]

/-- C134: a name below a mount point (a topic name without wildcards) is a topic name or a filter as it was -/
theorem C134_names (m t : String) (hm : valid_topic m = true) :
    valid_topic (below m t) = valid_topic t ∧ (t ≠ "" → valid_filter (below m t) = valid_filter t) := by
  obtain ⟨h1, h2⟩ := (C46_valid_topic_iff m).1 hm
  refine ⟨?_, fun ht => ?_⟩
  · rw [Bool.eq_iff_iff, C46_valid_topic_iff, C46_valid_topic_iff]
    simp [below, String.toList_append, h1, h2]
  · have hpl := plain_levels hm
    rw [Bool.eq_iff_iff, C45_valid_filter_iff, C45_valid_filter_iff]
    constructor
    · rintro ⟨-, h⟩
      refine ⟨ht, fun ls hls a l b e hl => ?_⟩
      refine h (split m.toList ++ ls) ((levels_iff _ _).2 ?_) (split m.toList ++ a) l b (by rw [e]; simp) hl
      rw [below_split, (levels_iff _ _).1 hls]
    · rintro ⟨-, h⟩
      refine ⟨fun h0 => ?_, fun ls hls a l b e hl => ?_⟩
      · have := congrArg String.toList h0
        simp [below, String.toList_append] at this
      · rw [(levels_iff _ _).1 hls, below_split] at e
        rcases List.append_eq_append_iff.1 e with ⟨c, rfl, e2⟩ | ⟨c, e1, e2⟩
        · exact h _ (split_levels t) c l b e2 hl
        · cases c with
          | nil => exact h _ (split_levels t) [] l b (by simpa using e2.symm) hl
          | cons x c =>
            have : x = l := by simp at e2; exact e2.1.symm
            subst this
            exact absurd hl (hpl x (by rw [e1]; simp)).2

/-- C134: below one mount point, matching is what it was, but for topics that start with '$' or a non-ASCII character: they match
level by level there -/
theorem C134_inside (m t f : String) (hm : valid_topic m = true) (ho : Ordinary m) :
    (Ordinary t → «matches» (below m t) (below m f) = «matches» t f) ∧
      ∀ tl fl, Levels t tl → Levels f fl → («matches» (below m t) (below m f) = .ok true ↔ MatchAny fl tl) ∧
        «matches» (below m t) (below m f) ≠ .panic := by
  have e : «matches» (below m t) (below m f) = .ok (matchesLoop (split f.toList) (split t.toList)) := by
    rw [ordinary_run _ _ (below_ordinary ho t), below_split, below_split, loop_prefix _ _ _ (plain_levels hm)]
  refine ⟨fun ht => by rw [e, ordinary_run _ _ ht], fun tl fl ht hf => ⟨?_, by rw [e]; simp⟩⟩
  rw [e, (levels_iff _ _).1 ht, (levels_iff _ _).1 hf, ← matchesLoop_any]
  simp

/-- C134: no filter below one mount point matches a topic below another, if the levels of neither start with those of the other -/
theorem C134_apart (m m' t f : String) (ml ml' : List Level) (hl : Levels m ml) (hl' : Levels m' ml')
    (hm' : valid_topic m' = true) (ho : Ordinary m) (h1 : ¬ ml <+: ml') (h2 : ¬ ml' <+: ml) :
    «matches» (below m t) (below m' f) = .ok false := by
  rw [(levels_iff _ _).1 hl, (levels_iff _ _).1 hl'] at h1 h2
  rw [ordinary_run _ _ (below_ordinary ho t), below_split, below_split, loop_apart _ _ _ _ (plain_levels hm') h1 h2]

/-- C134: the filter '#' below a mount point selects the mount point and what is below it -/
theorem C134_whole (m s : String) (hm : valid_topic m = true) (ho : Ordinary m) :
    «matches» s (below m "#") = .ok true ↔ s = m ∨ ∃ t, s = below m t := by
  have hpl := plain_levels hm
  have inj : ∀ a b : String, split a.toList = split b.toList → a = b := fun a b h =>
    String.toList_injective (by rw [split_join a.toList, h, ← split_join])
  constructor
  · intro h
    have h2 := ((C89_matches_exact s (below m "#") _ _ (split_levels s) (split_levels _)).1 h).2
    rw [below_split, ← matchesLoop_any] at h2
    have key : ∀ M tl : List Level, (∀ l ∈ M, '+' ∉ l ∧ '#' ∉ l) → matchesLoop (M ++ [['#']]) tl = true → ∃ r, tl = M ++ r := by
      intro M
      induction M with
      | nil => exact fun tl _ _ => ⟨tl, rfl⟩
      | cons l M ih =>
        intro tl hM h
        have hl := hM l (by simp)
        have e1 : l ≠ ['#'] := by rintro rfl; exact hl.2 (by simp)
        have e2 : l ≠ ['+'] := by rintro rfl; exact hl.1 (by simp)
        cases tl with
        | nil => rw [List.cons_append, matchesLoop_nil_right] at h; exact absurd (of_decide_eq_true h) e1
        | cons k tl =>
          rw [List.cons_append, matchesLoop_cons, if_neg e1] at h
          by_cases hk : k = ['#']
          · rw [if_pos hk] at h; cases h
          rw [if_neg hk, if_neg e2] at h
          by_cases hlk : l = k
          · subst hlk
            rw [if_neg (by simp)] at h
            obtain ⟨r, rfl⟩ := ih tl (fun x hx => hM x (by simp [hx])) h
            exact ⟨r, rfl⟩
          · rw [if_pos hlk] at h; cases h
    obtain ⟨r, hr⟩ := key _ _ hpl h2
    by_cases h0 : r = []
    · exact .inl (inj _ _ (by rw [hr, h0, List.append_nil]))
    · refine .inr ⟨String.ofList (List.intercalate ['/'] r), inj _ _ ?_⟩
      have : Levels (String.ofList (List.intercalate ['/'] r)) r :=
        ⟨h0, fun l hl => split_no_slash s.toList l (by rw [hr]; simp [hl]), by simp⟩
      rw [below_split, ← (levels_iff _ _).1 this, hr]
  · rintro (rfl | ⟨t, rfl⟩)
    · rw [ordinary_run _ _ ho, below_split]
      have := loop_prefix (split s.toList) [['#']] [] hpl
      rw [List.append_nil] at this
      exact congrArg _ this
    · rw [ordinary_run _ _ (below_ordinary ho t), below_split, below_split, loop_prefix _ _ _ hpl]
      rfl

theorem below_len (m t : String) : (utf8 (below m t)).length = (utf8 t).length + ((utf8 m).length + 1) := by
  have hu : utf8 (below m t) = utf8 m ++ utf8 "/" ++ utf8 t := by simp [below, utf8, String.toByteArray_append]
  have h1 : (utf8 "/").length = 1 := by decide +kernel
  rw [hu, List.length_append, List.length_append, h1]; omega

theorem flatMap_grown {α β : Type} (f : α → Bytes) (g : β → Bytes) (h : β → α) (k : Nat) (l : List β)
    (hk : ∀ x, (f (h x)).length = (g x).length + k) : ((l.map h).flatMap f).length = (l.flatMap g).length + l.length * k := by
  induction l with
  | nil => simp
  | cons a l ih =>
    simp only [List.map_cons, List.flatMap_cons, List.length_append, hk, ih, List.length_cons, Nat.add_one_mul]; omega

theorem v4_mount_wf (m : String) (p : V4.Packet) (hf : Spec.V4.FieldsFit p) (hm : Spec.V4.Meaningful p)
    (hn : ∀ t ∈ Spec.V4.names p, (utf8 t).length + ((utf8 m).length + 1) ≤ 65535) :
    Spec.V4.FieldsFit (Spec.V4.mount m p) ∧ Spec.V4.Meaningful (Spec.V4.mount m p) ∧
      (Spec.V4.body (Spec.V4.mount m p)).length =
        (Spec.V4.body p).length + (Spec.V4.names p).length * ((utf8 m).length + 1) := by
  cases p with
  | Connect c =>
    obtain ⟨f1, f2, f3⟩ := hf
    obtain ⟨proto, ka, id, cs, will, login⟩ := c
    cases will with
    | none => exact ⟨⟨f1, f2, f3⟩, hm, by simp [Spec.V4.mount, Spec.V4.names]⟩
    | some w =>
      have e := below_len m w.topic
      have hw := hn w.topic (by simp [Spec.V4.names])
      refine ⟨⟨f1, fun w' hw' => ?_, f3⟩, hm, ?_⟩
      · cases hw'
        exact ⟨by show (utf8 (below m w.topic)).length ≤ 65535; omega, (f2 w rfl).2⟩
      · simp only [Spec.V4.mount, Spec.V4.names, Spec.V4.body, Option.map_some, Spec.V4.willFields, str, bin, List.length_append,
          u8_len, u16_len, e, Option.toList_some, List.map_cons, List.map_nil, List.length_cons, List.length_nil]
        omega
  | Publish p =>
    have e := below_len m p.topic
    have hw := hn p.topic (by simp [Spec.V4.names])
    refine ⟨by show (utf8 (below m p.topic)).length ≤ 65535; omega, hm, ?_⟩
    simp only [Spec.V4.mount, Spec.V4.names, Spec.V4.body, str, bin, List.length_append, u16_len, e, List.length_cons,
      List.length_nil]
    omega
  | Subscribe s =>
    refine ⟨fun f hf' => ?_, fun h0 => hm (List.map_eq_nil_iff.1 h0), ?_⟩
    · obtain ⟨g, hg, rfl⟩ := List.mem_map.1 hf'
      have e := below_len m g.path
      have hw := hn g.path (List.mem_map.2 ⟨g, hg, rfl⟩)
      show (utf8 (below m g.path)).length ≤ 65535
      omega
    · have := flatMap_grown (fun f : V4.SubscribeFilter => str f.path ++ u8 (Spec.V4.qosNum f.qos))
        (fun f : V4.SubscribeFilter => str f.path ++ u8 (Spec.V4.qosNum f.qos)) (fun f => { f with path := below m f.path })
        ((utf8 m).length + 1) s.filters (fun x => by
          simp only [str, bin, List.length_append, u16_len, u8_len, below_len]; omega)
      simp only [Spec.V4.mount, Spec.V4.names, Spec.V4.body, List.length_append, u16_len, List.length_map] at this ⊢
      omega
  | Unsubscribe u =>
    refine ⟨fun t ht => ?_, trivial, ?_⟩
    · obtain ⟨g, hg, rfl⟩ := List.mem_map.1 ht
      have e := below_len m g
      have hw := hn g hg
      show (utf8 (below m g)).length ≤ 65535
      omega
    · have := flatMap_grown str str (below m) ((utf8 m).length + 1) u.topics (fun x => by
          simp only [str, bin, List.length_append, u16_len, u8_len, below_len]; omega)
      simp only [Spec.V4.mount, Spec.V4.names, Spec.V4.body, List.length_append, u16_len, List.length_map] at this ⊢
      omega
  | _ => exact ⟨hf, hm, by simp [Spec.V4.mount, Spec.V4.names]⟩

/-- C134 (v4): a packet that can be written can be written with all its names below a mount point, and is read back as it is,
unless a name or the body becomes too long -/
theorem C134_v4_mount (m : String) (p : V4.Packet) (hp : Spec.V4.WF p)
    (hn : ∀ t ∈ Spec.V4.names p, (utf8 t).length + ((utf8 m).length + 1) ≤ 65535)
    (hl : (Spec.V4.body p).length + (Spec.V4.names p).length * ((utf8 m).length + 1) ≤ 268435455) :
    ∃ n bytes, (Spec.V4.mount m p).write [] = (.ok n, bytes) ∧
      ∀ max, (Spec.V4.body p).length + (Spec.V4.names p).length * ((utf8 m).length + 1) ≤ max →
        ∀ more, V4.read max (bytes ++ more) = (.ok (Spec.V4.mount m p), more) := by
  obtain ⟨h1, h2, h3⟩ := v4_mount_wf m p hp.1 hp.2.1 hn
  have hm : Spec.V4.WF (Spec.V4.mount m p) := ⟨h1, h2, by rw [h3]; exact hl⟩
  obtain ⟨n, e⟩ := V4.write_empty _ hm
  exact ⟨n, _, e, fun max hx more => V4.read_encode _ hm max (by rw [h3]; exact hx) more⟩

theorem v5_mount_wf (m : String) (p : V5.Packet) (hf : Spec.V5.FieldsFit p) (hm : Spec.V5.Meaningful p)
    (hn : ∀ t ∈ Spec.V5.names p, (utf8 t).length + ((utf8 m).length + 1) ≤ 65535) :
    Spec.V5.FieldsFit (Spec.V5.mount m p) ∧ Spec.V5.Meaningful (Spec.V5.mount m p) ∧
      (Spec.V5.body (Spec.V5.mount m p)).length =
        (Spec.V5.body p).length + (Spec.V5.names p).length * ((utf8 m).length + 1) := by
  cases p with
  | Connect c =>
    obtain ⟨f1, f2, f3, f4⟩ := hf
    obtain ⟨m1, m2, m3⟩ := hm
    obtain ⟨proto, ka, id, cs, will, login, props⟩ := c
    cases will with
    | none => exact ⟨⟨f1, f2, f3, f4⟩, ⟨m1, m2, m3⟩, by simp [Spec.V5.mount, Spec.V5.names]⟩
    | some w =>
      have e := below_len m w.topic
      have hw := hn w.topic (by simp [Spec.V5.names])
      refine ⟨⟨f1, f2, fun w' hw' => ?_, f4⟩, ⟨m1, fun w' hw' => ?_, m3⟩, ?_⟩
      · cases hw'
        exact ⟨by show (utf8 (below m w.topic)).length ≤ 65535; omega, (f3 w rfl).2⟩
      · cases hw'
        exact m2 w rfl
      · simp only [Spec.V5.mount, Spec.V5.names, Spec.V5.body, Option.map_some, Spec.V5.willFields, str, bin, List.length_append,
          u8_len, u16_len, e, Option.toList_some, List.map_cons, List.map_nil, List.length_cons, List.length_nil]
        omega
  | Publish p =>
    have e := below_len m p.topic
    have hw := hn p.topic (by simp [Spec.V5.names])
    refine ⟨⟨by show (utf8 (below m p.topic)).length ≤ 65535; omega, hf.2⟩, hm, ?_⟩
    simp only [Spec.V5.mount, Spec.V5.names, Spec.V5.body, str, bin, List.length_append, u16_len, e, List.length_cons,
      List.length_nil]
    omega
  | Subscribe s =>
    refine ⟨⟨hf.1, fun f hf' => ?_⟩, hm, ?_⟩
    · obtain ⟨g, hg, rfl⟩ := List.mem_map.1 hf'
      have e := below_len m g.path
      have hw := hn g.path (List.mem_map.2 ⟨g, hg, rfl⟩)
      show (utf8 (below m g.path)).length ≤ 65535
      omega
    · have := flatMap_grown (fun f : V5.SubscribeFilter => str f.path ++ u8 (Spec.V5.subOptions f))
        (fun f : V5.SubscribeFilter => str f.path ++ u8 (Spec.V5.subOptions f)) (fun f => { f with path := below m f.path })
        ((utf8 m).length + 1) s.filters (fun x => by
          simp only [str, bin, List.length_append, u16_len, u8_len, below_len]; omega)
      simp only [Spec.V5.mount, Spec.V5.names, Spec.V5.body, List.length_append, u16_len, List.length_map] at this ⊢
      omega
  | Unsubscribe u =>
    refine ⟨⟨hf.1, fun t ht => ?_⟩, hm, ?_⟩
    · obtain ⟨g, hg, rfl⟩ := List.mem_map.1 ht
      have e := below_len m g
      have hw := hn g hg
      show (utf8 (below m g)).length ≤ 65535
      omega
    · have := flatMap_grown str str (below m) ((utf8 m).length + 1) u.filters (fun x => by
          simp only [str, bin, List.length_append, u16_len, u8_len, below_len]; omega)
      simp only [Spec.V5.mount, Spec.V5.names, Spec.V5.body, List.length_append, u16_len, List.length_map] at this ⊢
      omega
  | _ => exact ⟨hf, hm, by simp [Spec.V5.mount, Spec.V5.names]⟩

/-- C134 (v5): the same for every packet that comes back as it is without the mount point (not a CONNECT of level 4) -/
theorem C134_v5_mount (m : String) (p : V5.Packet) (hp : Spec.V5.WF p) (hr : Spec.V5.ReadsBack p)
    (hc : ∀ c, p = .Connect c → c.protocol = .V5)
    (hn : ∀ t ∈ Spec.V5.names p, (utf8 t).length + ((utf8 m).length + 1) ≤ 65535)
    (hl : (Spec.V5.body p).length + (Spec.V5.names p).length * ((utf8 m).length + 1) ≤ 268435455) :
    ∃ n bytes, (Spec.V5.mount m p).write [] = (.ok n, bytes) ∧
      ∀ max, (Spec.V5.body p).length + (Spec.V5.names p).length * ((utf8 m).length + 1) ≤ max →
        ∀ more, V5.read max (bytes ++ more) = (.ok (Spec.V5.mount m p), more) := by
  obtain ⟨h1, h2, h3⟩ := v5_mount_wf m p hp.1 hp.2.1 hn
  have hm : Spec.V5.WF (Spec.V5.mount m p) := ⟨h1, h2, by rw [h3]; exact hl⟩
  have hr' : Spec.V5.ReadsBack (Spec.V5.mount m p) := by
    cases p with
    | Connect c => exact .inl (hc c rfl)
    | _ => exact hr
  obtain ⟨n, e⟩ := V5.write_empty _ hm (by intro c h; rw [h] at hr'; exact hr')
  exact ⟨n, _, e, fun max hx more => V5.read_encode _ hm hr' max (by rw [h3]; exact hx) more⟩

/-- a mount point, a topic and a filter below it, and below another; a topic that starts with '$' -/
example : «matches» (below "site/7" "a/b") (below "site/7" "a/+") = «matches» "a/b" "a/+" ∧ «matches» "a/b" "a/+" = .ok true :=
  ⟨(C134_inside "site/7" "a/b" "a/+" (by decide) (by
    intro c cs h
    have : c = 's' := by simp at h; exact h.1.symm
    subst this; decide)).1 (by
    intro c cs h
    have : c = 'a' := by simp at h; exact h.1.symm
    subst this; decide), by decide +kernel⟩
example : «matches» (below "site/7" "a") (below "site/8" "#") = .ok false ∧ «matches» (below "site/7" "$a") (below "site/7" "#") = .ok true
    ∧ «matches» "$a" "#" = .ok false ∧ «matches» (below "site/7" "a") (below "site" "#") = .ok true := by decide +kernel

/-- a SUBSCRIBE below a mount point -/
example : ∃ n bytes, (V4.Packet.Subscribe ⟨7, [⟨below "m" "a", .AtMostOnce⟩]⟩).write [] = (.ok n, bytes) ∧
    ∀ max, 6 + 1 * 2 ≤ max → ∀ more, V4.read max (bytes ++ more) = (.ok (.Subscribe ⟨7, [⟨below "m" "a", .AtMostOnce⟩]⟩), more) :=
  C134_v4_mount "m" (.Subscribe ⟨7, [⟨"a", .AtMostOnce⟩]⟩)
    ⟨by simp [Spec.V4.FieldsFit]; decide, by simp [Spec.V4.Meaningful], by decide⟩ (by decide +kernel) (by decide +kernel)

end Props
