import Verif.Model.AcceptAll
import Verif.Props.Preprocess

/-!
# C39: every query of the core language is accepted, with the tree it spells

`Spec/Core.lean` says which tree a text spells, as a context-free grammar without ordered choice.  The
theorems of this file say that the code, which is an ordered-choice parser with exceptions, accepts
every such text and returns exactly that tree.
-/

namespace Adql

open P Spec Fwd

private theorem blanks_drop : ∀ {b : Str}, Blanks b → b.dropWhile isSpace = []
  | [], _ => rfl
  | c :: b, h => by
    rw [List.dropWhile_cons, if_pos (h c (by simp))]
    exact blanks_drop fun x hx => h x (by simp [hx])

/-- **C39.** Every text of the core language is accepted, and the tree is the one it spells.  Blanks
may follow. -/
theorem C39_accepts (cfg : Config) {S : Mode} [Fits S cfg] {G : Bool} {s b : Str} {q : QuerySpec} (h : QueryT S G s q) (hb : Blanks b) :
    parseIt cfg (s ++ b) = .ok q := by
  have he : EndsQ [] b := by
    have hn : next b = none := by
      unfold next
      rw [blanks_drop hb]; rfl
    refine ⟨.inl ⟨?_, by simp [hn]⟩, by simp [hn]⟩
    cases b with
    | nil => exact nofun
    | cons c b => exact blankFirst_notContinued ⟨c, b, rfl, hb c (by simp)⟩
  have e : parse cfg query true (s ++ b) = .ok q b := by
    exact (queryT_good (cfg := cfg) h).run b he whereClause whereClause_mem
  unfold parseIt
  rw [parseQuery_eq, e]
  simp only [blanks_drop hb]

/-- **C39** for the constructor, which rearranges the text when a geometric predicate follows an AND:
no geometric predicate follows an AND here. -/
theorem C39_construct (cfg : Config) {S : Mode} [Fits S cfg] {G : Bool} {s b : Str} {q : QuerySpec} (h : QueryT S G s q) (hb : Blanks b)
    (hw : ¬ HasGeometryAfterAnd (s ++ b)) : construct cfg (s ++ b) = .ok q := by
  unfold construct
  rw [C27_no_geometry_after_and _ hw]
  exact C39_accepts cfg h hb

/-- **C39**, unambiguity: a text of the core language spells one tree only, although the language is
given by a grammar that does not order its alternatives. -/
theorem C39_unambiguous (cfg : Config) {S S' : Mode} [Fits S cfg] [Fits S' cfg] {G G' : Bool} {s b s' b' : Str} {q q' : QuerySpec} (h : QueryT S G s q)
    (h' : QueryT S' G' s' q') (hb : Blanks b) (hb' : Blanks b') (e : s ++ b = s' ++ b') : q = q' := by
  have e1 := C39_accepts cfg h hb
  have e2 := C39_accepts cfg h' hb'
  rw [e, e2] at e1
  exact (Except.ok.inj e1).symm

/-- **C39** for expressions: the rule reads an expression up to where it ends. -/
theorem C39_expression (cfg : Config) {S : Mode} [Fits S cfg] {s r : Str} {v : VENB} (h : ExprT S s v) (hr : ExprEnd r) :
    parse cfg venb true (s ++ r) = .ok v r := (exprT_good h).run r hr

/-- **C39**, unambiguity of expressions. -/
theorem C39_expression_unambiguous (cfg : Config) {S S' : Mode} [Fits S cfg] [Fits S' cfg] {s : Str} {v v' : VENB} (h : ExprT S s v) (h' : ExprT S' s v') :
    v = v' := by
  have hr : ExprEnd [] := ⟨⟨⟨nofun, by simp [next]⟩, by simp [next]⟩, by simp [next]⟩
  have e1 := C39_expression cfg h hr
  rw [C39_expression cfg h' hr] at e1
  injection e1 with e1
  exact e1.symm

/-- **C39** for conditions that do not end with an expression standing alone. -/
theorem C39_condition (cfg : Config) {S : Mode} [Fits S cfg] {h : Head} {s r : Str} {c : SC} (hc : CondT S h false s c)
    (hr : ExprEnd r) (hl : LogEnd r) : parse cfg sc true (s ++ r) = .ok c r :=
  (condT_good hc).run r ⟨hr, nofun⟩ hl

/-! ### A query of the core language -/

section
/-- a token without blanks in front -/
theorem tok_self (w : Str) : Tok w w := ⟨[], nofun, rfl⟩
/-- a token with one blank in front -/
theorem tok_blank (w : Str) : Tok w (' ' :: w) := ⟨[' '], by unfold Blanks; decide, rfl⟩
theorem kw_self {w t : Str} (h : SameCI t w) : Kw w t t := ⟨[], nofun, rfl, h⟩
theorem word_blank {w t : Str} (h : SameCI t w) : Word w (' ' :: t) t := ⟨⟨[' '], by unfold Blanks; decide, rfl, h⟩, ' ', t, rfl, rfl⟩
theorem blankFirst_cons (s : Str) : BlankFirst (' ' :: s) := ⟨' ', s, rfl, rfl⟩

/-- one-letter names -/
theorem plainName_letter {x : Char} (h : x ∈ ['a', 'b', 's', 't', 'u', 'x', 'y', 'n']) : PlainName [x] := by
  have h1 : ∀ x ∈ ['a', 'b', 's', 't', 'u', 'x', 'y', 'n'], Letter x := by
    unfold Letter; decide
  have h2 : ∀ x ∈ ['a', 'b', 's', 't', 'u', 'x', 'y', 'n'], ¬ Reserved [x] := by
    unfold Reserved SameCI; decide +kernel
  have h3 : ∀ x ∈ ['a', 'b', 's', 't', 'u', 'x', 'y', 'n'], PlainWord [x] := by
    unfold PlainWord SameCI; decide +kernel
  exact ⟨⟨x, [], rfl, h1 x h, nofun⟩, fun e => absurd e (h2 x h), h3 x h, by simp⟩
theorem part_letter {x : Char} (h : x ∈ ['a', 'b', 's', 't', 'u', 'x', 'y', 'n']) : Part [x] :=
  .inl ⟨(plainName_letter h).1, (plainName_letter h).2.1⟩
theorem tab_letter {x : Char} (h : x ∈ ['a', 'b', 's', 't', 'u', 'x', 'y', 'n']) : Part [x] ∧ [x] ≠ cs!"TAP_UPLOAD" :=
  ⟨part_letter h, by simp⟩
/-- an operand without sign and indices is an expression -/
theorem exprT_prim {S : Mode} {s : Str} {p : Prim} (h : PrimT S s p) : ExprT S s (.mk (.mk [] (.vep (.mk p []))) []) := by
  have := ExprT.mk (.plain (.prim h .nil)) .nil
  simpa using this
theorem digits_one {d : Char} (h : Digit d) : Digits [d] := ⟨nofun, by simpa using h⟩
theorem colT_two {S : Mode} {x y : Char} (hx : x ∈ ['a', 'b', 's', 't', 'u', 'x', 'y', 'n'])
    (hy : y ∈ ['a', 'b', 's', 't', 'u', 'x', 'y', 'n']) : ColT S [' ', x, '.', y] (.qc [x] [y]) :=
  .qc (tok_blank [x]) (.inl (plainName_letter hx)) (tok_self cs!".") (tok_self [y]) (part_letter hy)
theorem numT {S : Mode} {d : Char} (h : Digit d) : PrimT S [d] (.str [d]) :=
  .num (tok_self _) (.exact (.int (digits_one h)))

/-- the tree of the query below -/
def coreTree : QuerySpec :=
  let num (d : Char) : Prim := .str [d]
  let e (p : Prim) : VENB := .mk (.mk [] (.vep (.mk p []))) []
  let inner : QuerySpec := .mk With.dflt
    (.mk (.mk (.mk [] (2 ^ 64 - 1) (.items [.nonAsVE (.nb (e (.col (.col cs!"y"))))])) [.tc ⟨cs!"u", []⟩] Where.dflt) [])
    [] SC.dflt []
  .mk With.dflt
    (.mk (.mk (.mk [] 5 (.items [.nonAsVE (.nb (e (.col (.qc cs!"a" cs!"x")))), .as (.nb (e (.countStar cs!"count(*)"))) cs!"n"]))
      [.jt (.qj (.mk (.tc ⟨cs!"s.t", cs!"a"⟩)
        [.mk false (.outer cs!"LEFT" true) (.derived (.qs inner) cs!"b")
          (.on (.factor (.mk [] (.pred (.cmp (e (.col (.qc cs!"a" cs!"x"))) cs!"=" (.nb (e (.col (.qc cs!"b" cs!"y")))))))))]))]
      (.mk Geom.dflt (.factor (.mk cs!"Not" (.sc
        (.term (.mk [] (.pred (.cmp (e (.col (.qc cs!"a" cs!"x"))) cs!"<" (.nb (e (num '3'))))))
          cs!"or" (.factor (.mk [] (.pred (.inList (e (.col (.col cs!"x"))) []
            [.nb (e (num '1')), .nb (.mk (.mk cs!"-" (.vep (.mk (num '2') []))) [])]))))))))))
      [])
    [.ve (.nb (e (.col (.qc cs!"a" cs!"x"))))] SC.dflt []

/-- **C39**, non-trivial case: a text of the core language, with letters of both cases, blanks in unusual places,
an outer join with a subquery, a negated condition in parentheses and grouping. -/
theorem coreText_query : QueryT .core false
    cs!"select TOP 5 a.x, count(*) AS n FROM s.t AS a LEFT OUTER JOIN (SELECT y FROM u) b ON a.x= b.y WHERE Not ( a.x<3 or x IN (1,-2)) GROUP BY a.x"
    coreTree := by
  have ci : ∀ {u v : Str}, u.map lowerC = v.map lowerC → SameCI u v := id
  have ax : PrimT .core cs!" a.x" (.col (.qc cs!"a" cs!"x")) := .col (colT_two (by decide) (by decide))
  have inner : SubqT .core cs!" (SELECT y FROM u)" _ :=
    .mk (tok_blank cs!"(")
      (.mk (.mk (.mk (kw_self (ci rfl)) .none .none (blankFirst_cons cs!"y")
        (.items (.one (.expr (.expr (exprT_prim (.col (.col (tok_blank cs!"y") (.inl (plainName_letter (by decide))))))))))
        (word_blank (t := cs!"FROM") (ci rfl)) (blankFirst_cons cs!"u")
        (.one (.tc (.mk (tok_blank cs!"u") (.one (tab_letter (by decide))) .none))) .none) .nil) .none .none .none)
      (tok_self cs!")")
  have on : SpecT .core false false cs!" ON a.x= b.y" _ :=
    .on (word_blank (t := cs!"ON") (ci rfl)) (blankFirst_cons cs!"a.x= b.y")
      (.factor (.plain (.pred (.cmp (exprT_prim ax) (op := cs!"=") (by decide) (tok_self _)
        (.expr (exprT_prim (.col (colT_two (x := 'b') (y := 'y') (by decide) (by decide))))))) (fun _ => by rfl)))
  have join : TabT .core false cs!" s.t AS a LEFT OUTER JOIN (SELECT y FROM u) b ON a.x= b.y" _ :=
    .join (.mk (.tc (.mk (tok_blank cs!"s.t") (.two (x := cs!"s") (y := cs!"t") (tab_letter (by decide)) (part_letter (by decide)))
        (.some (.as (word_blank (t := cs!"AS") (ci rfl)) (tok_blank cs!"a") (blankFirst_cons cs!"a") (part_letter (by decide))))))
      (.one (.mk .none (.outer ⟨cs!"LEFT", by decide, word_blank (t := cs!"LEFT") (ci rfl)⟩ (.some (word_blank (t := cs!"OUTER") (ci rfl))))
        (word_blank (t := cs!"JOIN") (ci rfl)) (blankFirst_cons cs!"(SELECT y FROM u) b")
        (.derived inner (.name (tok_blank cs!"b") (blankFirst_cons cs!"b") (part_letter (by decide)))) on (fun _ => rfl))))
  have cond : CondT .core _ _ cs!" a.x<3 or x IN (1,-2)" _ :=
    .term (.plain (.pred (.cmp (exprT_prim ax) (op := cs!"<") (by decide) (tok_self _) (.expr (exprT_prim (numT (d := '3') (by unfold Digit; decide)))))) (fun _ => by rfl))
      ⟨cs!"OR", by decide, word_blank (t := cs!"or") (ci rfl)⟩ (blankFirst_cons cs!"x IN (1,-2)")
      (.factor (.plain (.pred (.inList (exprT_prim (.col (.col (tok_blank cs!"x") (.inl (plainName_letter (by decide))))))
        (.plain (word_blank (t := cs!"IN") (ci rfl))) (blankFirst_cons cs!"(") (tok_blank cs!"(")
        (.cons (.expr (exprT_prim (numT (d := '1') (by unfold Digit; decide)))) (tok_self cs!",")
          (.one (.expr (.mk (.signed (.inr rfl) (tok_self cs!"-") (.prim (numT (d := '2') (by unfold Digit; decide)) .nil)) .nil))))
        (by rfl) (by rfl) (tok_self cs!")"))) (fun _ => by rfl)))
  have wh : WhereT .core false cs!" WHERE Not ( a.x<3 or x IN (1,-2))" _ :=
    .some (word_blank (t := cs!"WHERE") (ci rfl)) (blankFirst_cons cs!"Not ( a.x<3 or x IN (1,-2))")
      (.factor (.not (⟨cs!" ", by unfold Blanks; decide, rfl, ci rfl⟩ : Kw cs!"NOT" cs!" Not" cs!"Not") (blankFirst_cons cs!"( a.x<3 or x IN (1,-2))")
        (.paren (tok_blank cs!"(") cond (tok_self cs!")"))))
  have cols : ColumnsT .core cs!" a.x, count(*) AS n" _ :=
    .items (.cons (.expr (.expr (exprT_prim ax))) (tok_self cs!",")
      (.one (.as (.expr (exprT_prim (.countStar (⟨cs!" ", by unfold Blanks; decide, rfl, ci rfl⟩ : Kw cs!"COUNT" cs!" count" cs!"count")
        (tok_self cs!"(") (tok_self cs!"*") (tok_self cs!")")))) (word_blank (t := cs!"AS") (ci rfl)) (tok_blank cs!"n") (blankFirst_cons cs!"n") (part_letter (by decide)))))
  exact .mk (.mk (.mk (kw_self (t := cs!"select") (ci rfl)) .none
    (.some (word_blank (t := cs!"TOP") (ci rfl)) (tok_blank cs!"5") (blankFirst_cons cs!"5") (digits_one (by unfold Digit; decide)) (by decide))
    (blankFirst_cons cs!"a.x, count(*) AS n") cols (word_blank (t := cs!"FROM") (ci rfl)) (blankFirst_cons cs!"s.t AS a LEFT OUTER JOIN (SELECT y FROM u) b ON a.x= b.y")
    (.one join) wh) .nil)
    (.some (word_blank (t := cs!"GROUP") (ci rfl)) (word_blank (t := cs!"BY") (ci rfl)) (blankFirst_cons cs!"a.x") (.one (.expr (exprT_prim ax))))
    .none .none

/-- the tree of the expression below -/
def coreCase : VENB :=
  (.mk (.mk [] (.vep (.mk (.case (.searched
      [.mk (.term (.mk [] (.pred (.cmp (.mk (.mk [] (.vep (.mk (.col (.qc cs!"a" cs!"x")) []))) []) cs!"<"
          (.nb (.mk (.mk [] (.vep (.mk (.str cs!"3") []))) []))))) cs!"or"
          (.factor (.mk [] (.ve (.mk (.mk [] (.vep (.mk (.str cs!"TRUE") []))) [])))))
        (.ve (.nb (.mk (.mk [] (.nvf (.cast (.nb (.mk (.mk [] (.vep (.mk (.str cs!"1") []))) [])) cs!"char" cs!"5"))) [])))]
      (.ve (.nb (.mk (.mk [] (.vep (.mk (.str cs!"null::INT") []))) []))))) []))) [])

/-- **C39**, expressions, non-trivial case: a searched CASE, a cast with a length and a typed NULL. -/
theorem coreCase_expr : ExprT .core cs!"case when a.x<3 or TRUE then cast( 1 AS char(5)) ELSE null::INT END"
    coreCase := by
  have ci : ∀ {u v : Str}, u.map lowerC = v.map lowerC → SameCI u v := id
  have bl : Blanks cs!" " := by unfold Blanks; decide
  have cond : CondT .core _ _ cs!" a.x<3 or TRUE" _ :=
    .term (.plain (.pred (.cmp (exprT_prim (.col (colT_two (x := 'a') (y := 'x') (by decide) (by decide)))) (op := cs!"<") (by decide) (tok_self _)
        (.expr (exprT_prim (numT (d := '3') (by unfold Digit; decide)))))) (fun _ => by rfl))
      ⟨cs!"OR", by decide, word_blank (t := cs!"or") (ci rfl)⟩ (blankFirst_cons cs!"TRUE")
      (.factor (.plain (.bare (exprT_prim (.bool ⟨cs!"TRUE", by decide, ⟨cs!" ", bl, rfl, ci rfl⟩⟩)) (by decide) (by rfl)) (fun _ => by rfl)))
  have cast : FnT .core cs!" cast( 1 AS char(5))" _ :=
    .cast (⟨cs!" ", bl, rfl, ci rfl⟩ : Kw cs!"CAST" cs!" cast" cs!"cast") (tok_self cs!"(")
        (.expr (exprT_prim (.num (tok_blank cs!"1") (.exact (.int (digits_one (by unfold Digit; decide)))))))
        (word_blank (t := cs!"AS") (ci rfl)) (⟨cs!"CHAR", by decide, ⟨cs!" ", bl, rfl, ci rfl⟩⟩ : KwIn castTypes cs!" char" cs!"char") (blankFirst_cons cs!"char")
        (.some (tok_self cs!"(") (tok_self cs!"5") (digits_one (by unfold Digit; decide)) (tok_self cs!")")) (tok_self cs!")")
  have cast' := ExprT.mk (.plain (.fn cast)) .nil
  rw [List.append_nil] at cast'
  exact exprT_prim (.caseWhen (kw_self (t := cs!"case") (ci rfl))
    (.one (word_blank (t := cs!"when") (ci rfl)) (blankFirst_cons cs!"a.x<3 or TRUE") cond (word_blank (t := cs!"then") (ci rfl))
      (blankFirst_cons cs!"cast( 1 AS char(5))") (.expr cast'))
    (.some (word_blank (t := cs!"ELSE") (ci rfl)) (blankFirst_cons cs!"null::INT")
      (.expr (exprT_prim (.nullCast (⟨cs!"NULL::int", by decide, ⟨cs!" ", bl, rfl, ci rfl⟩⟩ : KwIn nullCasts cs!" null::INT" cs!"null::INT")))))
    (word_blank (t := cs!"END") (ci rfl)))
end

/-- **C39**, expressions: that text is read as a whole, with its tree. -/
example (cfg : Config) : ∃ v, parse cfg venb true (cs!"case when a.x<3 or TRUE then cast( 1 AS char(5)) ELSE null::INT END" ++ []) = .ok v [] :=
  ⟨_, C39_expression cfg coreCase_expr ⟨⟨⟨nofun, by decide⟩, by decide⟩, by decide⟩⟩

/-- **C39**, non-trivial case: that text is accepted, with its tree, for every table mapping. -/
example (cfg : Config) : parseIt cfg
    (cs!"select TOP 5 a.x, count(*) AS n FROM s.t AS a LEFT OUTER JOIN (SELECT y FROM u) b ON a.x= b.y WHERE Not ( a.x<3 or x IN (1,-2)) GROUP BY a.x"
      ++ cs!"  ") = .ok coreTree := C39_accepts cfg coreText_query (by unfold Blanks; decide)

/-- no word `w` in the text, by looking at all positions -/
def absent (w : Str) : Str → Bool
  | [] => !prefixCI w []
  | c :: t => !prefixCI w (c :: t) && absent w t

theorem absent_spec {w : Str} : ∀ {s u k z : Str}, absent w s = true → s = u ++ (k ++ z) → ¬ SameCI k w := by
  have h0 : ∀ {k z : Str}, SameCI k w → prefixCI w (k ++ z) = true := by
    intro k z hk
    unfold prefixCI
    rw [List.map_append, show k.map lowerC = w.map lowerC from hk, List.isPrefixOf_iff_prefix]
    exact List.prefix_append _ _
  intro s
  induction s with
  | nil =>
    rintro u k z h e hk
    have e' : k ++ z = [] := by
      cases u with
      | nil => exact e.symm
      | cons => cases e
    have := h0 (z := z) hk
    rw [e'] at this
    simp [absent, this] at h
  | cons c t ih =>
    rintro u k z h e hk
    simp only [absent, Bool.and_eq_true, Bool.not_eq_true'] at h
    cases u with
    | nil =>
      have := h0 (z := z) hk
      rw [e, List.nil_append] at h
      rw [h.1] at this; cases this
    | cons d u =>
      injection e with _ e
      exact ih h.2 e hk

/-- no geometric word after an AND, by looking at all positions -/
def absentAfterAnd : Str → Bool
  | [] => true
  | c :: t => (!prefixCI cs!"AND" (c :: t) || (absent cs!"CONTAINS" (c :: t) && absent cs!"INTERSECTS" (c :: t))) && absentAfterAnd t

theorem absentAfterAnd_spec {s : Str} (h : absentAfterAnd s = true) : ¬ HasGeometryAfterAnd s := by
  have key : ∀ {s u a z : Str}, absentAfterAnd s = true → s = u ++ (a ++ z) → SameCI a cs!"AND" →
      absent cs!"CONTAINS" (a ++ z) = true ∧ absent cs!"INTERSECTS" (a ++ z) = true := by
    intro s
    induction s with
    | nil =>
      intro u a z _ e ha
      have e := congrArg List.length e
      have ha := congrArg List.length (show a.map lowerC = _ from ha)
      simp only [List.length_append, List.length_map, List.length_nil, List.length_cons] at e ha
      omega
    | cons c t ih =>
      intro u a z h e ha
      simp only [absentAfterAnd, Bool.and_eq_true, Bool.or_eq_true, Bool.not_eq_true'] at h
      cases u with
      | nil =>
        rw [List.nil_append] at e
        rw [e] at h
        have : prefixCI cs!"AND" (a ++ z) = true := by
          unfold prefixCI
          rw [List.map_append, show a.map lowerC = _ from ha, List.isPrefixOf_iff_prefix]
          exact List.prefix_append _ _
        rw [this] at h
        simpa using h.1
      | cons d u =>
        injection e with _ e
        exact ih h.2 e ha
  rintro ⟨P, w, x, a, b, f, k, z, hs, -, ha, -, -, hk⟩
  obtain ⟨h1, h2⟩ := key (u := P ++ (w ++ x)) (a := a) (z := b ++ (f ++ (k ++ z))) h (by rw [hs]; simp) ha
  rcases hk with hk | hk
  · exact absent_spec (u := a ++ (b ++ f)) (z := z) h1 (by simp) hk
  · exact absent_spec (u := a ++ (b ++ f)) (z := z) h2 (by simp) hk

/-- **C39** for the constructor, the same text. -/
example (cfg : Config) : construct cfg
    (cs!"select TOP 5 a.x, count(*) AS n FROM s.t AS a LEFT OUTER JOIN (SELECT y FROM u) b ON a.x= b.y WHERE Not ( a.x<3 or x IN (1,-2)) GROUP BY a.x"
      ++ []) = .ok coreTree :=
  C39_construct cfg coreText_query nofun (absentAfterAnd_spec (by decide +kernel))

/-! ### A geometric query of the core language -/

/-- the text -/
def geomText : Str :=
  cs!"SELECT x FROM t WHERE contains(Point('j2000',a.x ,-2.5e1),CIRCLE( 3, 4+1 , .5))= 1 AND Distance(x,POINT('',1,y))<3"

/-- the tree it spells -/
def geomTree : QuerySpec :=
  let e (p : Prim) : VENB := .mk (.mk [] (.vep (.mk p []))) []
  .mk With.dflt
    (.mk (.mk (.mk [] (2 ^ 64 - 1) (.items [.nonAsVE (.nb (e (.col (.col cs!"x"))))])) [.tc ⟨cs!"t", []⟩]
      (.mk (.right (.contains (.shape (.point ⟨⟨.j2000, .geocenter⟩, ⟨.col (.qc cs!"a" cs!"x"), .num cs!"-2.5e1"⟩⟩))
          (.shape (.circle ⟨.icrs, .geocenter⟩ ⟨.num cs!"3", .bae cs!"4" '+' cs!"1"⟩ (.num cs!".5")))) '1')
        (.factor (.mk [] (.pred (.cmp (.mk (.mk [] (.nvf (.geo2 cs!"Distance" (.col (.col cs!"x"))
          (.point ⟨⟨.icrs, .geocenter⟩, ⟨.num cs!"1", .col (.col cs!"y")⟩⟩)))) []) cs!"<" (.nb (e (.str cs!"3"))))))))) [])
    [] SC.dflt []

/-- **C39**, non-trivial case with geometry. -/
theorem geomText_query : QueryT .core true geomText geomTree := by
  have ci : ∀ {u v : Str}, u.map lowerC = v.map lowerC → SameCI u v := id
  have bl : Blanks cs!" " := by unfold Blanks; decide
  have dig : ∀ d ∈ cs!"012345", Digit d := by unfold Digit; decide
  have nl : ∀ d ∈ cs!"012345.+-", ¬ Letter d := by unfold Letter; decide
  have nl1 : ∀ {v : Str} {d : Char}, d ∈ cs!"012345.+-" → ∀ c t, d :: v = c :: t → ¬ Letter c := by
    intro v d hd c t e
    cases e; exact nl _ hd
  have num1 : ∀ d ∈ cs!"012345", CoordNum [d] := fun d hd =>
    ⟨[], [d], by decide, by have := PlainMag.num (.int (digits_one (dig d hd))) (.inl rfl); exact .plain (by simpa using this), rfl⟩
  have co : ∀ {d s}, d ∈ cs!"012345" → Tok [d] s → CoordT .core s (.num [d]) := fun {d s} hd ht =>
    .num ht (num1 d hd) (nl1 ((show ∀ d ∈ cs!"012345", d ∈ cs!"012345.+-" by decide) d hd))
  have c1 : CoordT .core cs!"a.x" (.col (.qc cs!"a" cs!"x")) :=
    .col (.qc (tok_self cs!"a") (.inl (plainName_letter (by decide))) (tok_self cs!".") (tok_self cs!"x") (part_letter (by decide)))
  have c2 : CoordT .core cs!"-2.5e1" (.num cs!"-2.5e1") :=
    .num (tok_self _) ⟨cs!"-", cs!"2.5e1", by decide, .plain <| .num (m := cs!"2.5") (e := cs!"e1")
      (.dec (d := ['2']) (f := ['5']) (digits_one (dig '2' (by decide))) (digits_one (dig '5' (by decide))))
      (.inr (.mk (.inr rfl) (digits_one (dig '1' (by decide))))), rfl⟩ (nl1 (by decide))
  have c5 : CoordT .core cs!" .5" (.num cs!".5") :=
    .num (tok_blank cs!".5") ⟨[], cs!".5", by decide, .plain <| .num (m := cs!".5") (e := []) (.frac (digits_one (dig '5' (by decide)))) (.inl rfl), rfl⟩ (nl1 (by decide))
  have c4 : CoordT .core cs!" 4+1" (.bae cs!"4" '+' cs!"1") :=
    .op (tok_blank cs!"4") (num1 '4' (by decide)) (by decide) (tok_self cs!"+") (tok_self cs!"1") (num1 '1' (by decide))
  have pt : ShapeColT .core cs!"Point('j2000',a.x ,-2.5e1)" _ :=
    .shape (.point (.mk (.mk (kw_self (t := cs!"Point") (ci rfl)) (tok_self cs!"(")
      (.some (b := []) nofun (.mk (b₁ := []) (f := cs!"j2000") (b₂ := []) (p := []) (b₃ := []) nofun (.j2000 (ci rfl)) nofun .none nofun) (tok_self cs!",")))
      (.mk c1 (tok_blank cs!",") c2) (tok_self cs!")")))
  have cc : ShapeColT .core cs!"CIRCLE( 3, 4+1 , .5)" _ :=
    .shape (.circle (.mk (kw_self (t := cs!"CIRCLE") (ci rfl)) (tok_self cs!"(") .none)
      (.mk (co (d := '3') (by decide) (tok_blank cs!"3")) (tok_self cs!",") c4) (.mk (tok_blank cs!",") c5) (tok_self cs!")"))
  have pt' : PointColT .core cs!"POINT('',1,y)" _ :=
    .point (.mk (.mk (kw_self (t := cs!"POINT") (ci rfl)) (tok_self cs!"(")
      (.some (b := []) nofun (.mk (b₁ := []) (f := []) (b₂ := []) (p := []) (b₃ := []) nofun .none nofun .none nofun) (tok_self cs!",")))
      (.mk (co (d := '1') (by decide) (tok_self cs!"1")) (tok_self cs!",") (.col (.col (tok_self cs!"y") (.inl (plainName_letter (by decide)))))) (tok_self cs!")"))
  have dist := ExprT.mk (S := .core) (.plain (.fn (.distance (⟨cs!" ", bl, rfl, ci rfl⟩ : Kw cs!"DISTANCE" cs!" Distance" cs!"Distance") (tok_self cs!"(")
      (.col (.col (tok_self cs!"x") (.inl (plainName_letter (by decide))))) (tok_self cs!",") pt' (tok_self cs!")")))) .nil
  have cond : CondT .core _ _ cs!" Distance(x,POINT('',1,y))<3" _ :=
    .factor (.plain (.pred (.cmp dist (op := cs!"<") (by decide) (tok_self _) (.expr (exprT_prim (numT (d := '3') (dig '3' (by decide))))))) (fun _ => by rfl))
  have wh : WhereT .core true cs!" WHERE contains(Point('j2000',a.x ,-2.5e1),CIRCLE( 3, 4+1 , .5))= 1 AND Distance(x,POINT('',1,y))<3" _ :=
    .geomAnd (word_blank (t := cs!"WHERE") (ci rfl)) (blankFirst_cons cs!"contains(Point('j2000',a.x ,-2.5e1),CIRCLE( 3, 4+1 , .5))= 1")
      (.right (.contains (⟨cs!" ", bl, rfl, ci rfl⟩ : Kw cs!"CONTAINS" cs!" contains" cs!"contains") (tok_self cs!"(") pt (tok_self cs!",") cc (tok_self cs!")"))
        (tok_self cs!"=") (x := '1') (by decide) (tok_blank cs!"1"))
      (word_blank (t := cs!"AND") (ci rfl)) (blankFirst_cons cs!"Distance(x,POINT('',1,y))<3") cond
  exact .mk (.mk (.mk (kw_self (t := cs!"SELECT") (ci rfl)) .none .none (blankFirst_cons cs!"x")
        (.items (.one (.expr (.expr (exprT_prim (.col (.col (tok_blank cs!"x") (.inl (plainName_letter (by decide))))))))))
        (word_blank (t := cs!"FROM") (ci rfl)) (blankFirst_cons cs!"t")
        (.one (.tc (.mk (tok_blank cs!"t") (.one (tab_letter (by decide))) .none))) wh) .nil) .none .none .none

/-- **C39**, non-trivial case with geometry, for the constructor. -/
example (cfg : Config) : construct cfg (geomText ++ []) = .ok geomTree :=
  C39_construct cfg geomText_query nofun (absentAfterAnd_spec (by decide +kernel))

/-! ### Conditions as values -/

/-- the text -/
def condText : Str := cs!"SELECT (not a<3 AND x) As n FROM t WHERE x= Exists (SELECT y FROM u) OR NOT y"

/-- the tree it spells: what follows a condition as a value belongs to this condition -/
def condTree : QuerySpec :=
  let e (p : Prim) : VENB := .mk (.mk [] (.vep (.mk p []))) []
  let c (x : Str) : VENB := e (.col (.col x))
  let inner : QuerySpec := .mk With.dflt
    (.mk (.mk (.mk [] (2 ^ 64 - 1) (.items [.nonAsVE (.nb (c cs!"y"))])) [.tc ⟨cs!"u", []⟩] Where.dflt) []) [] SC.dflt []
  .mk With.dflt
    (.mk (.mk (.mk [] (2 ^ 64 - 1) (.items [.as (.nb (e (.sub (.sc
        (.term (.mk cs!"not" (.pred (.cmp (c cs!"a") cs!"<" (.nb (e (.str cs!"3")))))) cs!"AND" (.factor (.mk [] (.ve (c cs!"x")))))))))
        cs!"n"])) [.tc ⟨cs!"t", []⟩]
      (.mk Geom.dflt (.factor (.mk [] (.pred (.cmp (c cs!"x") cs!"="
        (.sc (.term (.mk [] (.pred (.exist (.qs inner)))) cs!"OR" (.factor (.mk cs!"NOT" (.ve (c cs!"y")))))))))))) [])
    [] SC.dflt []

/-- A subquery that is a join. -/
example : SubqT .core cs!" (a JOIN b)"
    (.jt (.qj (.mk (.tc ⟨cs!"a", []⟩) [.mk false (.str []) (.tc ⟨cs!"b", []⟩) (.named [])]))) :=
  .join (tok_blank cs!"(") (.mk (.tc (.mk (tok_self cs!"a") (.one (tab_letter (by decide))) .none))
    (.one (.mk .none .none (word_blank (t := cs!"JOIN") (by unfold SameCI; rfl)) (blankFirst_cons cs!"b")
      (.tc (.mk (tok_blank cs!"b") (.one (tab_letter (by decide))) .none)) .none (by decide))))
    (by rfl) (by rfl) (tok_self cs!")")

/-- **C39**, non-trivial case with conditions as values. -/
theorem condText_query : QueryT .core false condText condTree := by
  have ci : ∀ {u v : Str}, u.map lowerC = v.map lowerC → SameCI u v := id
  have bl : Blanks cs!" " := by unfold Blanks; decide
  have inner : SubqT .core cs!" (SELECT y FROM u)" _ :=
    .mk (tok_blank cs!"(")
      (.mk (.mk (.mk (kw_self (ci rfl)) .none .none (blankFirst_cons cs!"y")
        (.items (.one (.expr (.expr (exprT_prim (.col (.col (tok_blank cs!"y") (.inl (plainName_letter (by decide))))))))))
        (word_blank (t := cs!"FROM") (ci rfl)) (blankFirst_cons cs!"u")
        (.one (.tc (.mk (tok_blank cs!"u") (.one (tab_letter (by decide))) .none))) .none) .nil) .none .none .none)
      (tok_self cs!")")
  have c1 : CondT .core .none true cs!"not a<3 AND x" _ :=
    .term (.not (kw_self (t := cs!"not") (ci rfl)) (blankFirst_cons cs!"a<3") (.pred (.cmp
        (exprT_prim (.col (.col (tok_blank cs!"a") (.inl (plainName_letter (by decide)))))) (op := cs!"<") (by decide) (tok_self _)
        (.expr (exprT_prim (numT (d := '3') (by unfold Digit; decide)))))))
      ⟨cs!"AND", by decide, word_blank (t := cs!"AND") (ci rfl)⟩ (blankFirst_cons cs!"x")
      (.factor (.plain (.bare (exprT_prim (.col (.col (tok_blank cs!"x") (.inl (plainName_letter (by decide)))))) (by decide) (by rfl)) (fun _ => by rfl)))
  have c2 : CondT .core .none true cs!" Exists (SELECT y FROM u) OR NOT y" _ :=
    .term (.plain (.pred (.exist (⟨cs!" ", bl, rfl, ci rfl⟩ : Kw cs!"EXISTS" cs!" Exists" cs!"Exists") (blankFirst_cons cs!"(SELECT y FROM u)") inner)) (fun _ => by rfl))
      ⟨cs!"OR", by decide, word_blank (t := cs!"OR") (ci rfl)⟩ (blankFirst_cons cs!"NOT y")
      (.factor (.not (⟨cs!" ", bl, rfl, ci rfl⟩ : Kw cs!"NOT" cs!" NOT" cs!"NOT") (blankFirst_cons cs!"y")
        (.bare (exprT_prim (.col (.col (tok_blank cs!"y") (.inl (plainName_letter (by decide)))))) (by decide) (by rfl))))
  have item : ItemT .core cs!" (not a<3 AND x) As n" _ :=
    .as (.expr (exprT_prim (.sub (tok_blank cs!"(") (.cond c1) (tok_self cs!")")))) (word_blank (t := cs!"As") (ci rfl)) (tok_blank cs!"n")
      (blankFirst_cons cs!"n") (part_letter (by decide))
  have wh : WhereT .core false cs!" WHERE x= Exists (SELECT y FROM u) OR NOT y" _ :=
    .some (word_blank (t := cs!"WHERE") (ci rfl)) (blankFirst_cons cs!"x= Exists (SELECT y FROM u) OR NOT y")
      (.factor (.plain (.pred (.cmp (exprT_prim (.col (.col (tok_blank cs!"x") (.inl (plainName_letter (by decide)))))) (op := cs!"=") (by decide)
        (tok_self _) (.cond c2))) (fun _ => by rfl)))
  exact .mk (.mk (.mk (kw_self (t := cs!"SELECT") (ci rfl)) .none .none (blankFirst_cons cs!"(not a<3 AND x) As n")
        (.items (.one item))
        (word_blank (t := cs!"FROM") (ci rfl)) (blankFirst_cons cs!"t")
        (.one (.tc (.mk (tok_blank cs!"t") (.one (tab_letter (by decide))) .none))) wh) .nil) .none .none .none

/-- **C39**, non-trivial case with conditions as values, for the constructor. -/
example (cfg : Config) : construct cfg (condText ++ []) = .ok condTree :=
  C39_construct cfg condText_query nofun (absentAfterAnd_spec (by decide +kernel))

/-! ### Names that begin with a word -/

/-- the text; the name of the column begins with NOT, the one of the table with SELECT -/
def wordText : Str := cs!"SELECT a FROM select1 WHERE nota<3"

/-- **C39**, non-trivial case with names that begin with a word: without residue (see DESIGN.md) these are names. -/
theorem wordText_query {b : Bool} {m : Str → Option Str} : ∃ q, QueryT ⟨b, m, true⟩ false wordText q := by
  have ci : ∀ {u v : Str}, u.map lowerC = v.map lowerC → SameCI u v := id
  have n1 : PlainName cs!"nota" := ⟨⟨'n', cs!"ota", rfl, by unfold Letter; decide, by unfold IdChar Letter Digit; decide⟩,
    fun e => absurd e (by unfold Reserved SameCI; decide +kernel), by unfold PlainWord SameCI; decide +kernel, by simp⟩
  have n2 : Part cs!"select1" := .inl ⟨⟨'s', cs!"elect1", rfl, by unfold Letter; decide, by unfold IdChar Letter Digit; decide⟩,
    fun e => absurd e (by unfold Reserved SameCI; decide +kernel)⟩
  have wh : WhereT ⟨b, m, true⟩ false cs!" WHERE nota<3" _ :=
    .some (word_blank (t := cs!"WHERE") (ci rfl)) (blankFirst_cons cs!"nota<3")
      (.factor (.plain (.pred (.cmp (exprT_prim (.col (.col (tok_blank cs!"nota") (.inl n1)))) (op := cs!"<") (by decide)
        (tok_self _) (.expr (exprT_prim (numT (d := '3') (by unfold Digit; decide)))))) nofun))
  exact ⟨_, .mk (.mk (.mk (kw_self (t := cs!"SELECT") (ci rfl)) .none .none (blankFirst_cons cs!"a")
        (.items (.one (.expr (.expr (exprT_prim (.col (.col (tok_blank cs!"a") (.inl (plainName_letter (by decide))))))))))
        (word_blank (t := cs!"FROM") (ci rfl)) (blankFirst_cons cs!"select1")
        (.one (.tc (.mk (tok_blank cs!"select1") (.one ⟨n2, by decide⟩) .none))) wh) .nil) .none .none .none⟩

example (m : Str → Option Str) : ∃ q, construct ⟨m, false⟩ (wordText ++ []) = .ok q := by
  obtain ⟨q, hq⟩ := wordText_query (b := true) (m := m)
  exact ⟨q, C39_construct _ hq nofun (absentAfterAnd_spec (by decide +kernel))⟩

/-- With residue the condition is negated as well, so that the hypothesis is needed. -/
theorem wordText_residue : constructPrint ⟨fun _ => none, true⟩ id wordText = .ok cs!"SELECT a FROM select1 WHERE not nota < 3" := by
  kernel_rfl

/-! ### Uploaded tables and table functions -/

/-- **C39** with uploaded tables: in the language every uploaded table that the mapping knows stands for
the name the mapping gives. -/
theorem C39_uploads (cfg : Config) {S G : Bool} {s b : Str} {q : QuerySpec} (h : QueryT ⟨S, cfg.mapping, !cfg.residue⟩ G s q)
    (hb : Blanks b) : parseIt cfg (s ++ b) = .ok q := C39_accepts cfg h hb

/-- the text -/
def upText : Str := cs!"SELECT TAP_UPLOAD.u.x, TAP_UPLOAD.u.* FROM TAP_UPLOAD.u AS a, Table(b.x(' n',' y'))"

/-- the tree it spells when the uploaded table `u` is called `s.t` -/
def upTree : QuerySpec :=
  .mk With.dflt
    (.mk (.mk (.mk [] (2 ^ 64 - 1) (.items [.nonAsVE (.nb (.mk (.mk [] (.vep (.mk (.col (.qc cs!"s.t" cs!"x")) []))) [])),
      .nonAsStr cs!"s.t.*"])) [.tc ⟨cs!"s.t", cs!"a"⟩, .tvf cs!"b.x" [cs!"n", cs!"y"]] Where.dflt) []) [] SC.dflt []

/-- **C39**, non-trivial case with an uploaded table and a table function. -/
theorem upText_query {S : Mode} (hS : S.up cs!"u" = some cs!"s.t") : QueryT S false upText upTree := by
  have ci : ∀ {u v : Str}, u.map lowerC = v.map lowerC → SameCI u v := id
  have up : UpT S cs!"u" cs!"s.t" := ⟨part_letter (by decide), hS⟩
  have pq1 : ∀ x ∈ ['b', 'n', 'y'], PQName [x] := fun x hx =>
    ⟨x, [], rfl, (show ∀ x ∈ ['b', 'n', 'y'], Letter x by unfold Letter; decide) x hx, nofun⟩
  have pq2 : PQName cs!"b.x" := ⟨'b', cs!".x", rfl, by unfold Letter; decide, by unfold IdChar Letter Digit; decide⟩
  have c1 : ItemT S cs!" TAP_UPLOAD.u.x" _ :=
    .expr (.expr (exprT_prim (.col (.up (tok_blank cs!"TAP_UPLOAD.u") up (tok_self cs!".") (tok_self cs!"x") (part_letter (by decide))))))
  have c2 : ItemT S cs!" TAP_UPLOAD.u.*" _ := .upAll (tok_blank cs!"TAP_UPLOAD.u.*") up
  have t1 : TabT S false cs!" TAP_UPLOAD.u AS a" _ :=
    .tc (.up (tok_blank cs!"TAP_UPLOAD.u") up (.some (.as (word_blank (t := cs!"AS") (ci rfl)) (tok_blank cs!"a") (blankFirst_cons cs!"a") (part_letter (by decide)))))
  have t2 : TabT S false cs!" Table(b.x(' n',' y'))" _ :=
    .fn (⟨cs!" ", by unfold Blanks; decide, rfl, ci rfl⟩ : Kw cs!"table(" cs!" Table(" cs!"Table(") pq2
      (.cons (tok_blank cs!"n") (pq1 'n' (by decide)) (tok_self cs!"','") (.one (tok_blank cs!"y") (pq1 'y' (by decide)))) (tok_self cs!"')") (tok_self cs!")")
  exact .mk (.mk (.mk (kw_self (t := cs!"SELECT") (ci rfl)) .none .none (blankFirst_cons cs!"TAP_UPLOAD.u.x, TAP_UPLOAD.u.*")
      (.items (.cons c1 (tok_self cs!",") (.one c2)))
      (word_blank (t := cs!"FROM") (ci rfl)) (blankFirst_cons cs!"TAP_UPLOAD.u AS a, Table(b.x(' n',' y'))")
      (.cons t1 (tok_self cs!",") (.one t2)) .none) .nil) .none .none .none

/-- **C39**, that text is accepted with its tree by every configuration that calls the uploaded table `u` by the name `s.t`. -/
example (cfg : Config) (hm : cfg.mapping cs!"u" = some cs!"s.t") : parseIt cfg (upText ++ cs!" ") = .ok upTree :=
  C39_uploads (S := true) cfg (upText_query hm) (by unfold Blanks; decide)

end Adql
