import Verif.Spec.Compose
import Verif.Props.Same

/-!
# C55: a query can be a part of another query

What is accepted can be put into a larger query: as a table, in WITH, in EXISTS, in IN, and in a UNION.  The text
is the obvious one, and the tree has the given query in the right place.  Subqueries cannot have geometric constraints.
-/

namespace Adql

open Spec Fwd

variable {fmt : Str → Str} {S : Mode}

/-! ### Derivations -/

theorem whereT_plain {s : Str} {c : SC} (h : WhereT S true s (.mk Geom.dflt c)) : WhereT S false s (.mk Geom.dflt c) := by
  have h0 : ∀ {u g}, GeomT S u g → g ≠ Geom.dflt := by
    intro u g h e
    cases h with
    | left hx =>
      injection e with e _
      subst e
      exact absurd hx (by decide)
    | right => cases e
    | bare => cases e
  generalize e : Where.mk Geom.dflt c = w at h
  cases h with
  | none => exact .none
  | some h1 h2 h3 => exact .some h1 h2 h3
  | geom _ _ h3 => injection e with e _; exact absurd e.symm (h0 h3)
  | geomAnd _ _ h3 => injection e with e _; exact absurd e.symm (h0 h3)
  | geomParen _ _ _ h3 => injection e with e _; exact absurd e.symm (h0 h3)

theorem sfwT_plain {s : Str} {x : SFW} (h : SfwT S true s x) (hp : PlainSFW x) : SfwT S false s x := by
  cases h with
  | @mk _ _ _ _ _ _ _ _ _ _ _ _ _ w wh h1 h2 h3 h4 h5 h6 h7 h8 h9 =>
    cases wh with
    | mk g c =>
      cases (show g = Geom.dflt from hp)
      exact .mk h1 h2 h3 h4 h5 h6 h7 h8 (whereT_plain h9)

theorem addonsT_plain : ∀ {l : List Addon} {s : Str}, AddonsT S true s l → (∀ op y, Addon.mk op y ∈ l → PlainSFW y) → AddonsT S false s l
  | _, _, .nil, _ => .nil
  | _, _, .cons h1 h2 h3 h4, hp =>
    .cons h1 h2 (sfwT_plain h3 (hp _ _ List.mem_cons_self)) (addonsT_plain h4 fun op y h => hp op y (List.mem_cons_of_mem _ h))

theorem sfwsT_plain {x : SFW} {l : List Addon} {s : Str} (h : SfwsT S true s (.mk x l)) (h1 : PlainSFW x)
    (h2 : ∀ op y, Addon.mk op y ∈ l → PlainSFW y) : SfwsT S false s (.mk x l) := by
  cases h with
  | mk h3 h4 => exact .mk (sfwT_plain h3 h1) (addonsT_plain h4 h2)

/-- A query without geometric constraints is one of those that may be subqueries. -/
theorem queryT_plain {s : Str} {q : QuerySpec} (h : QueryT S true s q) (hp : PlainSelects q) : QueryT S false s q := by
  cases h with
  | @mk _ _ l _ _ _ _ _ _ h1 h2 h3 h4 =>
    cases l with
    | mk x l => exact .mk (sfwsT_plain h1 hp.1 hp.2) h2 h3 h4
  | @«with» _ _ _ _ _ _ _ _ _ _ _ _ l _ _ _ _ _ _ h1 h2 h3 h4 h5 h6 h7 h8 h9 h10 h11 h12 =>
    cases l with
    | mk x l => exact .with h1 h2 h3 h4 h5 h6 h7 h8 (sfwsT_plain h9 hp.1 hp.2) h10 h11 h12

/-- A subquery: the text in parentheses, with blanks before the closing one. -/
theorem subqT_of {s e : Str} {q : QuerySpec} (h : QueryT S false s q) (he : Blanks e) : SubqT S (cs!" (" ++ (s ++ (e ++ cs!")"))) (.qs q) :=
  .mk (tok_blank cs!"(") h ⟨e, he, rfl⟩

theorem starFromT {G : Bool} {u w : Str} {t : TR} {c : SC} {k : Bool} (hb : BlankFirst u) (ht : TabT S k u t)
    (hw : WhereT S G w (.mk Geom.dflt c)) :
    QueryT S G (cs!"SELECT *" ++ (cs!" FROM" ++ (u ++ w))) (starFrom With.dflt t c) := by
  have : SfwT S G (cs!"SELECT" ++ ([] ++ ([] ++ (cs!" *" ++ (cs!" FROM" ++ (u ++ w)))))) _ :=
    .mk (kw_self (t := cs!"SELECT") rfl) .none .none (blankFirst_cons cs!"*") (.star (tok_blank cs!"*"))
      (word_blank (t := cs!"FROM") rfl) hb (.one ht) hw
  have := QueryT.mk (.mk this .nil) .none .none .none
  simpa [starFrom] using this

/-- the derivation of a query as a table -/
theorem asTableT {G : Bool} {s e x : Str} {q : QuerySpec} (h : QueryT S false s q) (he : Blanks e) (hx : Part x) :
    QueryT S G (cs!"SELECT * FROM (" ++ (s ++ (e ++ (cs!") AS " ++ x)))) (asTable q x) := by
  have := starFromT (S := S) (G := G) (u := (cs!" (" ++ (s ++ (e ++ cs!")"))) ++ (cs!" AS" ++ (' ' :: x))) (w := []) (c := SC.dflt)
    (blankFirst_cons _) (.derived (subqT_of h he) (.as (word_blank (t := cs!"AS") rfl) (tok_blank x) (blankFirst_cons x) hx)) .none
  simpa [asTable] using this

/-- the derivation of a query in EXISTS -/
theorem asExistsT {G : Bool} {s e t : Str} {q : QuerySpec} (h : QueryT S false s q) (he : Blanks e) (ht : FromName t) :
    QueryT S G (cs!"SELECT * FROM " ++ (t ++ (cs!" WHERE EXISTS (" ++ (s ++ (e ++ cs!")"))))) (asExists q t) := by
  have := starFromT (S := S) (G := G) (u := (' ' :: t) ++ []) (w := cs!" WHERE" ++ (cs!" EXISTS" ++ (cs!" (" ++ (s ++ (e ++ cs!")")))))
    (blankFirst_cons _) (.tc (.mk (tok_blank t) ht .none))
    (.some (word_blank (t := cs!"WHERE") rfl) (blankFirst_cons _)
      (.factor (.plain (.pred (.exist (t := cs!" (" ++ (s ++ (e ++ cs!")"))) (word_blank (t := cs!"EXISTS") rfl).1 (blankFirst_cons _) (subqT_of h he)))
        fun _ => by rfl)))
  simpa [asExists] using this

/-- the derivation of a query as a set of values -/
theorem asSetT {G : Bool} {s e t c : Str} {q : QuerySpec} (h : QueryT S false s q) (he : Blanks e) (ht : FromName t)
    (hc : NameT c) (hn : prefixCI cs!"NOT" c = false) :
    QueryT S G (cs!"SELECT * FROM " ++ (t ++ (cs!" WHERE " ++ (c ++ (cs!" IN (" ++ (s ++ (e ++ cs!")"))))))) (asSet q t c) := by
  have := starFromT (S := S) (G := G) (u := (' ' :: t) ++ []) (w := cs!" WHERE" ++ ((' ' :: c) ++ (cs!" IN" ++ (cs!" (" ++ (s ++ (e ++ cs!")"))))))
    (blankFirst_cons _) (.tc (.mk (tok_blank t) ht .none))
    (.some (word_blank (t := cs!"WHERE") rfl) (blankFirst_cons _)
      (.factor (.plain (.pred (.inSub (exprT_prim (.col (.col (tok_blank c) hc))) (.plain (word_blank (t := cs!"IN") rfl)) (blankFirst_cons _) (subqT_of h he)))
        fun _ => hn)))
  simpa [asSet] using this

/-- the derivation of a query in a WITH clause -/
theorem asWithT {G : Bool} {s e x : Str} {q : QuerySpec} (h : QueryT S false s q) (he : Blanks e) (hx : Part x) (hu : x ≠ cs!"TAP_UPLOAD") :
    QueryT S G (cs!"WITH " ++ (x ++ (cs!" AS (" ++ (s ++ (e ++ (cs!") SELECT * FROM " ++ x)))))) (asWith q x) := by
  have h1 : SfwT S G (cs!" SELECT" ++ ([] ++ ([] ++ (cs!" *" ++ (cs!" FROM" ++ (((' ' :: x) ++ []) ++ []))))))
      (.mk (.mk [] (2 ^ 64 - 1) (.star cs!"*")) [.tc ⟨x, []⟩] Where.dflt) :=
    .mk (word_blank (t := cs!"SELECT") rfl).1 .none .none (blankFirst_cons cs!"*") (.star (tok_blank cs!"*"))
      (word_blank (t := cs!"FROM") rfl) (blankFirst_cons _) (.one (.tc (.mk (tok_blank x) (.one ⟨hx, hu⟩) .none))) .none
  have := QueryT.with (G := G) (kw_self (t := cs!"WITH") rfl) (tok_blank x) (blankFirst_cons x) hx .none
    (word_blank (t := cs!"AS") rfl) (blankFirst_cons _) (subqT_of h he) (.mk h1 .nil) .none .none .none
  simpa [asWith, starFrom, Where.dflt] using this

theorem addonsT_append {G : Bool} {t : Str} {l' : List Addon} (h' : AddonsT S G t l') : ∀ {l : List Addon} {s : Str},
    AddonsT S G s l → AddonsT S G (s ++ t) (l ++ l')
  | _, _, .nil => h'
  | _, _, .cons h1 h2 h3 h4 => by simpa using AddonsT.cons h1 h2 h3 (addonsT_append h' h4)

theorem noTail_text {g h o : Str} (h1 : GroupT S g []) (h2 : HavingT S h SC.dflt) (h3 : OrderT S o []) : g = [] ∧ h = [] ∧ o = [] := by
  refine ⟨?_, ?_, ?_⟩
  · cases h1 with
    | none => rfl
    | some _ _ _ h => cases h
  · generalize e : SC.dflt = c at h2
    cases h2 with
    | none => rfl
    | some _ _ h =>
      subst e
      exfalso
      unfold SC.dflt at h
      cases h with
      | factor h =>
        cases h with
        | plain h =>
          cases h with
          | pred h =>
            cases h with
            | cmp _ h => exact absurd h (by decide)
        | not h =>
          obtain ⟨_, _, _, h⟩ := h
          cases h
  · cases h3 with
    | none => rfl
    | some _ _ _ h => cases h

theorem sfwT_blank {G : Bool} {s b : Str} {x : SFW} (h : SfwT S G s x) (hb : Blanks b) : SfwT S G (b ++ s) x := by
  cases h with
  | mk h1 h2 h3 h4 h5 h6 h7 h8 h9 =>
    obtain ⟨b', hb', rfl, h⟩ := h1
    rw [← List.append_assoc]
    exact .mk ⟨b ++ b', blanks_app hb hb', by simp, h⟩ h2 h3 h4 h5 h6 h7 h8 h9

theorem part_nil : ¬ Part [] := by
  rintro (⟨h, -⟩ | h)
  · simp [IdentShape] at h
  · simp [Delimited] at h

/-- the derivation of two queries connected by UNION -/
theorem asUnionT {G : Bool} {s e u t : Str} {q q' : QuerySpec} (h : QueryT S G s q) (h' : QueryT S G t q') (he : Blanks e)
    (hu : UnionWord u) (hq : NoTail q) (hq' : NoWith q') :
    QueryT S G (s ++ (e ++ (' ' :: (u ++ (' ' :: t))))) (asUnion u q q') := by
  obtain ⟨op, hop, hu⟩ := hu
  cases h' with
  | «with» _ _ _ hx =>
    exfalso
    injection (show With.mk _ _ _ = With.dflt from hq') with e
    subst e
    exact part_nil hx
  | @mk _ s2 l2 g2 gs2 h2 c2 o2 os2 k1 k2 k3 k4 =>
    cases k1 with
    | @mk _ s3 x3 t3 l3 k5 k6 =>
      have hw : WordIn [cs!"UNION DISTINCT", cs!"UNION ALL", cs!"UNION"] (e ++ (' ' :: u)) u :=
        ⟨op, hop, ⟨e ++ [' '], blanks_app he bl1, by simp, hu⟩, by
          cases e with
          | nil => exact blankFirst_cons u
          | cons c e => exact ⟨c, _, rfl, he c (by simp)⟩⟩
      have ha : AddonsT S G ((e ++ (' ' :: u)) ++ ((' ' :: s3) ++ t3)) (.mk u x3 :: l3) :=
        .cons hw (blankFirst_cons s3) (sfwT_blank k5 bl1) k6
      cases h with
      | @mk _ s4 l4 g4 gs4 h4 c4 o4 os4 m1 m2 m3 m4 =>
        obtain ⟨rfl, rfl, rfl⟩ := (show gs4 = [] ∧ c4 = SC.dflt ∧ os4 = [] from hq)
        obtain ⟨rfl, rfl, rfl⟩ := noTail_text m2 m3 m4
        cases m1 with
        | mk m5 m6 =>
          have := QueryT.mk (.mk m5 (addonsT_append ha m6)) k2 k3 k4
          simpa [asUnion] using this
      | @«with» _ _ _ _ _ _ _ _ _ _ _ s4 l4 g4 gs4 h4 c4 o4 os4 n1 n2 n3 n4 n5 n6 n7 n8 m1 m2 m3 m4 =>
        obtain ⟨rfl, rfl, rfl⟩ := (show gs4 = [] ∧ c4 = SC.dflt ∧ os4 = [] from hq)
        obtain ⟨rfl, rfl, rfl⟩ := noTail_text m2 m3 m4
        cases m1 with
        | mk m5 m6 =>
          have := QueryT.with n1 n2 n3 n4 n5 n6 n7 n8 (.mk m5 (addonsT_append ha m6)) k2 k3 k4
          simpa [asUnion] using this

/-! ### The core language -/

/-- **C55**, core language: a query without geometric constraints can be a table, a set of values, or the argument of
EXISTS, and can stand in WITH.  The tree has the query in the right place. -/
theorem C55_core (cfg : Config) [Fits S cfg] {s e : Str} {q : QuerySpec} (h : QueryT S false s q) (he : Blanks e) :
    (∀ x, Part x → parseIt cfg (tableText (s ++ e) x) = .ok (asTable q x)) ∧
    (∀ x, Part x → x ≠ cs!"TAP_UPLOAD" → parseIt cfg (withText (s ++ e) x) = .ok (asWith q x)) ∧
    (∀ t, FromName t → parseIt cfg (existsText (s ++ e) t) = .ok (asExists q t)) ∧
    (∀ t c, FromName t → NameT c → prefixCI cs!"NOT" c = false → parseIt cfg (setText (s ++ e) t c) = .ok (asSet q t c)) := by
  have hn : Blanks [] := nofun
  refine ⟨fun x hx => ?_, fun x hx hu => ?_, fun t ht => ?_, fun t c ht hc h0 => ?_⟩
  · simpa [tableText] using C39_accepts cfg (asTableT (G := false) h he hx) hn
  · simpa [withText] using C39_accepts cfg (asWithT (G := false) h he hx hu) hn
  · simpa [existsText] using C39_accepts cfg (asExistsT (G := false) h he ht) hn
  · simpa [setText] using C39_accepts cfg (asSetT (G := false) h he ht hc h0) hn

/-- **C55**, core language: two queries can be connected by UNION, when the first one has no clause behind its SELECTs and
the second one no WITH. -/
theorem C55_union (cfg : Config) [Fits S cfg] {G : Bool} {s e t b u : Str} {q q' : QuerySpec} (h : QueryT S G s q) (h' : QueryT S G t q')
    (he : Blanks e) (hb : Blanks b) (hu : UnionWord u) (hq : NoTail q) (hq' : NoWith q') :
    parseIt cfg (unionText u (s ++ e) (t ++ b)) = .ok (asUnion u q q') := by
  have := C39_accepts cfg (asUnionT h h' he hu hq hq') hb
  simpa [unionText] using this

theorem nestT {G : Bool} : ∀ {l : List Str} {s : Str} {q : QuerySpec}, QueryT S G s q → (l ≠ [] → QueryT S false s q) →
    (∀ x ∈ l, Part x) → QueryT S G (nestText s l) (nestTree q l)
  | [], _, _, h, _, _ => h
  | x :: l, s, q, _, h, hl => by
    have h1 : ∀ {G}, QueryT S G (tableText s x) (asTable q x) := by
      intro G
      simpa [tableText] using asTableT (G := G) (e := []) (h (by simp)) nofun (hl x (by simp))
    exact nestT (l := l) (s := tableText s x) (q := asTable q x) h1 (fun _ => h1) fun y hy => hl y (by simp [hy])

/-- **C55**, any depth: a query can be the table of a query that is the table of a query, and so on. -/
theorem C55_nested (cfg : Config) [Fits S cfg] {s : Str} {q : QuerySpec} (h : QueryT S false s q) {l : List Str} (hl : ∀ x ∈ l, Part x) :
    parseIt cfg (nestText s l) = .ok (nestTree q l) := by
  simpa using C39_accepts cfg (b := []) (nestT h (fun _ => h) hl) nofun

/-- a list of words and queries with their texts -/
def UnionsT (S : Mode) (G : Bool) : List (Str × Str × QuerySpec) → Prop
  | [] => True
  | (u, t, q) :: l => UnionWord u ∧ QueryT S G t q ∧ NoWith q ∧ (l ≠ [] → NoTail q) ∧ UnionsT S G l

theorem asUnion_noTail {u : Str} : ∀ {q q' : QuerySpec}, NoTail q' → NoTail (asUnion u q q')
  | .mk _ (.mk _ _) _ _ _, .mk _ (.mk _ _) _ _ _, h => h

theorem unionsT {G : Bool} : ∀ {l : List (Str × Str × QuerySpec)} {s : Str} {q : QuerySpec}, QueryT S G s q → (l ≠ [] → NoTail q) →
    UnionsT S G l → QueryT S G (unionsText s (l.map fun a => (a.1, a.2.1))) (unionsTree q (l.map fun a => (a.1, a.2.2)))
  | [], _, _, h, _, _ => h
  | (u, t, q') :: l, s, q, h, hn, hl => by
    have h1 : QueryT S G (unionText u s t) (asUnion u q q') := by
      simpa [unionText] using asUnionT (e := []) h hl.2.1 nofun hl.1 (hn (by simp)) hl.2.2.1
    exact unionsT (l := l) (s := unionText u s t) (q := asUnion u q q') h1 (fun h => asUnion_noTail (hl.2.2.2.1 h)) hl.2.2.2.2

/-- **C55**, any number: queries connected by UNION, when only the last one has clauses behind its SELECTs and only the first
one has WITH. -/
theorem C55_unions (cfg : Config) [Fits S cfg] {G : Bool} {s : Str} {q : QuerySpec} (h : QueryT S G s q) {l : List (Str × Str × QuerySpec)}
    (hn : l ≠ [] → NoTail q) (hl : UnionsT S G l) :
    parseIt cfg (unionsText s (l.map fun a => (a.1, a.2.1))) = .ok (unionsTree q (l.map fun a => (a.1, a.2.2))) := by
  simpa using C39_accepts cfg (b := []) (unionsT h hn hl) nofun

/-! ### Accepted queries -/

theorem regular_text (cfg : Config) {nt : Bool} {s : Str} {q : QuerySpec} (h : construct cfg s = .ok q)
    (hr : All (Regular nt) (.query q)) : ∃ t, QueryT (anyUp nt) true t q := by
  obtain ⟨t, -, ht⟩ := sp_query (nt := nt) (M := cfg.Mapped) (q := q) fun m hm =>
    ⟨(construct_inv h m hm).1, (construct_inv h m hm).2.1, hr m hm⟩
  exact ⟨t, ht⟩

theorem usual_text (cfg cfg' : Config) (hm : MapsWell cfg.mapping) {s : Str} {q : QuerySpec} (h : construct cfg s = .ok q)
    (hu : All (Usual (!cfg.residue && !cfg'.residue)) (.query q)) : ∃ t, QueryT (anyUp (!cfg'.residue)) true t q :=
  regular_text cfg h (Reach.usual_regular hm
    (fun h => by simp only [Bool.and_eq_true, Bool.not_eq_true'] at h; exact h.1)
    (fun h => by simp only [Bool.and_eq_true] at h; exact h.2) (construct_came h) hu)

/-- **C55** for every accepted query, whatever its text: unless the tree has one of the things that `Usual` excludes, or a
geometric constraint, the formatted query can be a table, a set of values, or the argument of EXISTS, and can stand in
WITH.  What is read there is the same query. -/
theorem C55_accepted (hfmt : FmtNum fmt) (cfg cfg' : Config) (hm : MapsWell cfg.mapping) {s : Str} {q : QuerySpec}
    (h : construct cfg s = .ok q) (hu : All (Usual (!cfg.residue && !cfg'.residue)) (.query q)) (hg : PlainSelects q) :
    ∃ q', SameQuery fmt q q' ∧
      (∀ x, Part x → parseIt cfg' (tableText (q.print fmt) x) = .ok (asTable q' x)) ∧
      (∀ x, Part x → x ≠ cs!"TAP_UPLOAD" → parseIt cfg' (withText (q.print fmt) x) = .ok (asWith q' x)) ∧
      (∀ t, FromName t → parseIt cfg' (existsText (q.print fmt) t) = .ok (asExists q' t)) ∧
      (∀ t c, FromName t → NameT c → prefixCI cs!"NOT" c = false → parseIt cfg' (setText (q.print fmt) t c) = .ok (asSet q' t c)) := by
  obtain ⟨t, ht⟩ := usual_text cfg cfg' hm h hu
  obtain ⟨q', t, e, h1, h2, h3, -, h5⟩ := C52_core_language hfmt (queryT_plain ht hg)
  haveI : Fits (anyUp (!cfg'.residue)).out cfg' := ⟨nofun, by simp [anyUp, Mode.out]⟩
  exact ⟨q', h5, h1 ▸ C55_core cfg' h3 h2⟩

theorem printAddons_append (l l' : List Addon) : printAddons fmt (l ++ l') = printAddons fmt l ++ printAddons fmt l' := by
  induction l with
  | nil => simp [printAddons]
  | cons a l ih => simp [printAddons, ih]

theorem asUnion_print {u : Str} : ∀ {q q' : QuerySpec}, NoTail q → NoWith q' →
    (asUnion u q q').print fmt = unionText (upper u) (q.print fmt) (q'.print fmt)
  | .mk w (.mk x l) g h o, .mk w' (.mk y l') g' h' o', hq, hq' => by
    obtain ⟨rfl, rfl, rfl⟩ := (show g = [] ∧ h = SC.dflt ∧ o = [] from hq)
    cases (show w' = With.dflt from hq')
    have h1 : SC.dflt.isEmpty = true := rfl
    have h2 : With.dflt.isEmpty = true := rfl
    simp [asUnion, unionText, QuerySpec.print, SFWList.print, printAddons_append, printAddons, Addon.print, h1, h2]

/-- **C55** for every two accepted queries: their formatted texts can be connected by UNION, under the same conditions, also
with geometric constraints.  What is read is the same query as the union of the two. -/
theorem C55_accepted_union (hfmt : FmtNum fmt) (cfg cfg' : Config) (hm : MapsWell cfg.mapping) {s t u : Str} {q q' : QuerySpec}
    (h : construct cfg s = .ok q) (hu : All (Usual (!cfg.residue && !cfg'.residue)) (.query q))
    (h' : construct cfg t = .ok q') (hu' : All (Usual (!cfg.residue && !cfg'.residue)) (.query q'))
    (hw : UnionWord u) (hq : NoTail q) (hq' : NoWith q') :
    ∃ p, parseIt cfg' (unionText (upper u) (q.print fmt) (q'.print fmt)) = .ok p ∧ SameQuery fmt (asUnion u q q') p := by
  obtain ⟨t1, ht⟩ := usual_text cfg cfg' hm h hu
  obtain ⟨t2, ht'⟩ := usual_text cfg cfg' hm h' hu'
  obtain ⟨p, t, e, h1, h2, h3, -, h5⟩ := C52_core_language hfmt (asUnionT (e := []) ht ht' nofun hw hq hq')
  haveI : Fits (anyUp (!cfg'.residue)).out cfg' := ⟨nofun, by simp [anyUp, Mode.out]⟩
  rw [asUnion_print hq hq'] at h1
  exact ⟨p, h1 ▸ C39_accepts cfg' h3 h2, h5⟩

/-- The constructor reads such texts in the same way, when no geometric predicate follows an AND. -/
theorem C55_construct (cfg : Config) {s : Str} {q : QuerySpec} (h : parseIt cfg s = .ok q) (hg : ¬ HasGeometryAfterAnd s) :
    construct cfg s = .ok q := by
  unfold construct
  rw [C27_no_geometry_after_and _ hg]
  exact h

/-! ### Cases and limits -/

private def c0 : Config := ⟨fun _ => none, false⟩

/-- The example of C39 as a table, at depth two. -/
example (cfg : Config) : parseIt cfg (nestText
    cs!"select TOP 5 a.x, count(*) AS n FROM s.t AS a LEFT OUTER JOIN (SELECT y FROM u) b ON a.x= b.y WHERE Not ( a.x<3 or x IN (1,-2)) GROUP BY a.x"
    [cs!"x", cs!"y"]) = .ok (asTable (asTable coreTree cs!"x") cs!"y") :=
  C55_nested cfg coreText_query (by
    intro x hx
    rcases List.mem_cons.1 hx with rfl | hx
    · exact part_letter (by decide)
    · cases List.mem_singleton.1 hx
      exact part_letter (by decide))

/-- A text outside of the core language is formatted, and put into EXISTS. -/
example (hfmt : FmtNum fmt) : ∃ q', SameQuery fmt tightTree q' ∧
    parseIt c0 (existsText (tightTree.print fmt) cs!"u") = .ok (asExists q' cs!"u") := by
  obtain ⟨q', h1, -, -, h2, -⟩ := C55_accepted hfmt c0 c0 nofun
    (s := cs!"SELECT 'a'-b- -a AS b FROM t WHERE a<3AND not b IS NULL") (q := tightTree) (by kernel_rfl)
    (fun m hm => regular_usual (nt := true) (tightTree_regular m hm)) ⟨rfl, nofun⟩
  exact ⟨q', h1, h2 _ (.one (tab_letter (by decide)))⟩

/-- The same text twice in a UNION. -/
example (hfmt : FmtNum fmt) : ∃ p, parseIt c0 (unionText (upper cs!"Union All") (tightTree.print fmt) (tightTree.print fmt)) = .ok p ∧
    SameQuery fmt (asUnion cs!"Union All" tightTree tightTree) p := by
  have h : construct c0 cs!"SELECT 'a'-b- -a AS b FROM t WHERE a<3AND not b IS NULL" = .ok tightTree := by kernel_rfl
  have hu : All (Usual (!c0.residue && !c0.residue)) (.query tightTree) := fun m hm => regular_usual (nt := true) (tightTree_regular m hm)
  exact C55_accepted_union hfmt c0 c0 nofun h hu h hu ⟨cs!"UNION ALL", by decide, rfl⟩ ⟨rfl, rfl, rfl⟩ rfl

/-- **C55**, limits: a query with a geometric constraint is accepted, but not as a table, in WITH, in EXISTS or as a set. -/
theorem C55_geometry : ∃ s : Str, accepted (construct ⟨fun _ => none, false⟩ s) = true ∧
    accepted (construct ⟨fun _ => none, false⟩ (tableText s cs!"x")) = false ∧
    accepted (construct ⟨fun _ => none, false⟩ (withText s cs!"x")) = false ∧
    accepted (construct ⟨fun _ => none, false⟩ (existsText s cs!"u")) = false ∧
    accepted (construct ⟨fun _ => none, false⟩ (setText s cs!"u" cs!"a")) = false :=
  ⟨cs!"SELECT * FROM t WHERE CONTAINS(p,q)=1", by kernel_rfl, by kernel_rfl, by kernel_rfl, by kernel_rfl, by kernel_rfl⟩

/-- whether the constructor accepts a text -/
private def takes (s : Str) : Bool := accepted (construct c0 s)

/-- **C55**, limits: the conditions on the parts of a UNION are needed. -/
theorem C55_union_limits :
    (takes cs!"SELECT * FROM t ORDER BY a" = true ∧ takes (unionText cs!"UNION" cs!"SELECT * FROM t ORDER BY a" cs!"SELECT * FROM u") = false) ∧
    (takes cs!"SELECT * FROM t GROUP BY a" = true ∧ takes (unionText cs!"UNION" cs!"SELECT * FROM t GROUP BY a" cs!"SELECT * FROM u") = false) ∧
    (takes cs!"WITH x AS (SELECT * FROM t) SELECT * FROM x" = true ∧
      takes (unionText cs!"UNION" cs!"SELECT * FROM u" cs!"WITH x AS (SELECT * FROM t) SELECT * FROM x") = false) :=
  ⟨⟨by kernel_rfl, by kernel_rfl⟩, ⟨by kernel_rfl, by kernel_rfl⟩, by kernel_rfl, by kernel_rfl⟩

end Adql
