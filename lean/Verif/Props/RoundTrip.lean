import Verif.Model.Spell
import Verif.Model.Reach
import Verif.Props.Accept
import Verif.Props.Tree

/-!
# C18: formatting and parsing again

The full statement of C18 — the formatted text of every accepted query is accepted and formatted to
itself — is false, see `C18_violated`.  `C18_core_partial` proves it for
every query of the core language of `Spec/Core.lean`: whatever the spelling of such a query (letter
case, blanks, optional `AS`, optional words), the text the library makes of it is again a text of the
core language, is accepted by the parser, and is formatted to the same characters.  What is missing
for the full statement is the part of the grammar outside the core language, which is listed in
DESIGN.md.
-/

namespace Adql

open Spec Fwd

variable {fmt : Str → Str}

/-- The full statement of C18 for one query and one configuration. -/
def Stable (cfg : Config) (fmt : Str → Str) (s : Str) : Prop :=
  ∀ q, construct cfg s = .ok q → ∃ q', construct cfg (q.print fmt) = .ok q' ∧ q'.print fmt = q.print fmt

/-- The formatted text of a query of the core language is a text of the core language (up to blanks at
the end), and spells a tree that is formatted to the same text. -/
theorem C18_core_language (hfmt : FmtNum fmt) {S : Mode} [Prints S] {G : Bool} {s : Str} {q : QuerySpec} (h : QueryT S G s q) :
    ∃ q' t e, q.print fmt = t ++ e ∧ Blanks e ∧ QueryT S.out G t q' ∧ q'.print fmt = q.print fmt := by
  obtain ⟨q', t, e, h1, h2, h3, h4⟩ := queryT_print hfmt h [] nofun
  exact ⟨q', t, e, h1, h2, h3, h4.1⟩

/-- **C18**, core language, at the level of the parser. -/
theorem C18_core_partial (hfmt : FmtNum fmt) (cfg : Config) {S : Mode} [Fits S cfg] [Prints S] {G : Bool} {s b : Str} {q : QuerySpec} (h : QueryT S G s q) (hb : Blanks b) :
    parseIt cfg (s ++ b) = .ok q ∧
      ∃ q', parseIt cfg (q.print fmt) = .ok q' ∧ q'.print fmt = q.print fmt := by
  refine ⟨C39_accepts cfg h hb, ?_⟩
  obtain ⟨q', t, e, h1, h2, h3, h4⟩ := C18_core_language hfmt h
  exact ⟨q', h1 ▸ C39_accepts cfg h3 h2, h4⟩

/-- **C18**, core language, for the constructor, when no geometric predicate follows an AND in either
text, so that the preprocessor leaves both alone. -/
theorem C18_construct_partial (hfmt : FmtNum fmt) (cfg : Config) {S : Mode} [Fits S cfg] [Prints S] {G : Bool} {s b : Str} {q : QuerySpec}
    (h : QueryT S G s q) (hb : Blanks b) (hw : ¬ HasGeometryAfterAnd (s ++ b)) (hw' : ¬ HasGeometryAfterAnd (q.print fmt)) :
    construct cfg (s ++ b) = .ok q ∧ Stable cfg fmt (s ++ b) := by
  have e := C39_construct cfg h hb hw
  refine ⟨e, fun q1 h1 => ?_⟩
  rw [e] at h1
  obtain rfl := Except.ok.inj h1
  obtain ⟨q', t, d, h1, h2, h3, h4⟩ := C18_core_language hfmt h
  exact ⟨q', h1 ▸ C39_construct cfg h3 h2 (h1 ▸ hw'), h4⟩

/-- **C18**, expressions of the core language: the formatted text is parsed into a tree that is
formatted to the same text. -/
theorem C18_expression_partial (hfmt : FmtNum fmt) (cfg : Config) {S : Mode} [Fits S cfg] [Prints S] {s r : Str} {v : VENB} (h : ExprT S s v) (hr : ExprEnd r) :
    ∃ v', parse cfg venb true (v.print fmt ++ r) = .ok v' r ∧ v'.print fmt = v.print fmt := by
  obtain ⟨v', h1, h2, -⟩ := exprT_print hfmt h [] nofun
  exact ⟨v', C39_expression cfg h1 hr, h2.1⟩

/-- **C18**, expressions, non-trivial case. -/
example (hfmt : FmtNum fmt) (cfg : Config) : ∃ v', parse cfg venb true
      (cs!"CASE WHEN a.x < 3 OR TRUE THEN CAST(1 AS char(5)) ELSE null::INT END" ++ []) = .ok v' [] ∧
    v'.print fmt = cs!"CASE WHEN a.x < 3 OR TRUE THEN CAST(1 AS char(5)) ELSE null::INT END" := by
  have e : coreCase.print fmt = cs!"CASE WHEN a.x < 3 OR TRUE THEN CAST(1 AS char(5)) ELSE null::INT END" := by kernel_rfl
  have := C18_expression_partial hfmt cfg coreCase_expr (r := []) ⟨⟨⟨nofun, by decide⟩, by decide⟩, by decide⟩
  rwa [e] at this

/-- The example of C39, formatted. -/
def corePrinted : Str :=
  cs!"SELECT TOP 5 a.x, count(*) AS n FROM s.t a LEFT OUTER JOIN (SELECT y FROM u) b ON a.x = b.y  WHERE Not (a.x < 3 OR x IN (1, -2)) GROUP BY a.x"

theorem coreTree_print : coreTree.print fmt = corePrinted := by kernel_rfl

example (hfmt : FmtNum fmt) (cfg : Config) : construct cfg
      (cs!"select TOP 5 a.x, count(*) AS n FROM s.t AS a LEFT OUTER JOIN (SELECT y FROM u) b ON a.x= b.y WHERE Not ( a.x<3 or x IN (1,-2)) GROUP BY a.x"
        ++ []) = .ok coreTree ∧ Stable cfg fmt
      (cs!"select TOP 5 a.x, count(*) AS n FROM s.t AS a LEFT OUTER JOIN (SELECT y FROM u) b ON a.x= b.y WHERE Not ( a.x<3 or x IN (1,-2)) GROUP BY a.x"
        ++ []) :=
  C18_construct_partial hfmt cfg coreText_query nofun (absentAfterAnd_spec (by decide +kernel))
    (coreTree_print ▸ absentAfterAnd_spec (by decide +kernel))

/-- Numbers as they were written, but not-a-number without its argument. -/
def asWritten (x : Str) : Str := x.takeWhile (· != '(')

theorem plainNum_open {x : Str} (h : PlainNum x) : ∀ c ∈ x, (c != '(') = true := by
  have dig : ∀ {d : Str}, Digits d → ∀ c ∈ d, c ≠ '(' := by
    rintro d ⟨-, hd⟩ c hc rfl
    exact absurd (isDigit_iff.2 (hd _ hc)) (by decide)
  have word : ∀ {m w : Str}, SameCI m w → '(' ∉ w.map lowerC → ∀ c ∈ m, c ≠ '(' := by
    rintro m w h hw c hc rfl
    refine hw ?_
    rw [← show m.map lowerC = w.map lowerC from h]
    exact List.mem_map.2 ⟨_, hc, rfl⟩
  have uns : ∀ {m : Str}, Unsigned m → ∀ c ∈ m, c ≠ '(' := by
    intro m h c hc
    cases h with
    | int h => exact dig h c hc
    | dot h =>
      rcases List.mem_append.1 hc with hc | hc
      · exact dig h c hc
      · cases List.mem_singleton.1 hc; decide
    | dec h h' =>
      rcases List.mem_append.1 hc with hc | hc
      · exact dig h c hc
      · rcases List.mem_cons.1 hc with rfl | hc
        · decide
        · exact dig h' c hc
    | frac h =>
      rcases List.mem_cons.1 hc with rfl | hc
      · decide
      · exact dig h c hc
  have expo : ∀ {e : Str}, Expo e → ∀ c ∈ e, c ≠ '(' := by
    intro e h c hc
    cases h with
    | mk h h' =>
      rcases List.mem_cons.1 hc with rfl | hc
      · rcases h with rfl | rfl <;> decide
      · exact dig h' c hc
    | signed h hg h' =>
      rcases List.mem_cons.1 hc with rfl | hc
      · rcases h with rfl | rfl <;> decide
      · rcases List.mem_cons.1 hc with rfl | hc
        · rcases hg with rfl | rfl <;> decide
        · exact dig h' c hc
  obtain ⟨g, m, hg, hm, rfl⟩ := h
  intro c hc
  rw [bne_iff_ne]
  rcases List.mem_append.1 hc with hc | hc
  · simp only [List.mem_cons, List.not_mem_nil, or_false] at hg
    rcases hg with rfl | rfl | rfl
    · cases hc
    · cases List.mem_singleton.1 hc; decide
    · cases List.mem_singleton.1 hc; decide
  · cases hm with
    | num h he =>
      rcases List.mem_append.1 hc with hc | hc
      · exact uns h c hc
      · rcases he with rfl | he
        · cases hc
        · exact expo he c hc
    | inf h => exact word h (by decide) c hc
    | infinity h => exact word h (by decide) c hc
    | nan h => exact word h (by decide) c hc

/-- The hypothesis on the formatting of numbers can be met. -/
theorem fmtNum_asWritten : FmtNum asWritten := by
  have plain : ∀ {x z}, PlainNum x → (∀ c t, z = c :: t → (c != '(') = false) → asWritten (x ++ z) = x :=
    fun h hz => (takeWhile_eq (plainNum_open h) hz).1
  have key : ∀ {x z}, PlainNum x → (∀ c t, z = c :: t → (c != '(') = false) →
      PlainNum (asWritten (x ++ z)) ∧ asWritten (asWritten (x ++ z)) = asWritten (x ++ z) := by
    intro x z h hz
    rw [plain h hz]
    have := plain (z := []) h nofun
    rw [List.append_nil] at this
    exact ⟨h, this⟩
  rintro x ⟨g, m, hg, hm, rfl⟩
  cases hm with
  | plain hm =>
    have := key (z := []) ⟨g, m, hg, hm, rfl⟩ nofun
    rwa [List.append_nil] at this
  | nanArg hm ha =>
    rw [← List.append_assoc]
    exact key ⟨g, _, hg, .nan hm, rfl⟩ (fun c t e => by cases e; decide)

example : asWritten cs!"-nan(a b)" = cs!"-nan" := rfl

/-- A number with an argument is a coordinate of the core language. -/
example : CoordT .core cs!" -nan(a b)" (.num cs!"-nan(a b)") :=
  .num (tok_blank cs!"-nan(a b)") ⟨cs!"-", cs!"nan(a b)", by decide, .nanArg (m := cs!"nan") (a := cs!"a b") rfl (by decide), rfl⟩
    (fun c t e => by cases e; exact fun h => absurd (isLetter_iff.2 h) (by decide))

/-- The geometric example of C39, formatted; here numbers are written as they were. -/
def geomPrinted : Str :=
  cs!"SELECT x FROM t WHERE CONTAINS(POINT('J2000 GEOCENTER',a.x,-2.5e1),CIRCLE('ICRS GEOCENTER',3,4+1,.5))=1 AND Distance(x,POINT('ICRS GEOCENTER',1,y)) < 3"

theorem geomTree_print : geomTree.print asWritten = geomPrinted := by kernel_rfl

example (cfg : Config) : construct cfg (geomText ++ []) = .ok geomTree ∧ Stable cfg asWritten (geomText ++ []) :=
  C18_construct_partial fmtNum_asWritten cfg geomText_query nofun (absentAfterAnd_spec (by decide +kernel))
    (geomTree_print ▸ absentAfterAnd_spec (by decide +kernel))

/-- The example of C39 with conditions as values, formatted. -/
def condPrinted : Str := cs!"SELECT (not a < 3 AND x) AS n FROM t WHERE x = EXISTS (SELECT y FROM u) OR NOT y"

theorem condTree_print : condTree.print fmt = condPrinted := by kernel_rfl

example (hfmt : FmtNum fmt) (cfg : Config) : construct cfg (condText ++ []) = .ok condTree ∧ Stable cfg fmt (condText ++ []) :=
  C18_construct_partial hfmt cfg condText_query nofun (absentAfterAnd_spec (by decide +kernel))
    (condTree_print ▸ absentAfterAnd_spec (by decide +kernel))

/-- How stability is refuted. -/
theorem not_stable {cfg : Config} {fmt : Str → Str} {s t : Str} (h1 : constructPrint cfg fmt s = .ok t)
    (h2 : accepted (construct cfg t) = false) : ¬ Stable cfg fmt s := by
  intro h
  unfold constructPrint at h1
  cases hq : construct cfg s with
  | error e => rw [hq] at h1; cases h1
  | ok q =>
    rw [hq] at h1
    obtain ⟨q', h3, -⟩ := h q hq
    rw [show q.print fmt = t from Except.ok.inj h1] at h3
    rw [accepted_iff.2 ⟨_, h3⟩] at h2
    cases h2

/-- **C18 is violated** by a table function without arguments: it is read from `table(f(''))` and
written `table(f())`, which is refused (Table_Valued_Function.hxx L17-L30, init_predicate.cxx
L28-L36). -/
theorem C18_violated : ¬ Stable ⟨fun _ => none, false⟩ id cs!"SELECT a FROM table(f(''))" :=
  not_stable (t := cs!"SELECT a FROM table(f())") (by kernel_rfl) (by kernel_rfl)

/-- **C18 is violated** by a minus sign before a negated operand: both signs are written without a blank
(Value_Expression_Non_Bool.hxx L13-L21, Factor.hxx L13-L15), and two minus signs after a string begin a comment
(init_literals.cxx L47-L55); here the comment ends inside a delimited name. -/
theorem C18_violated_comment : ¬ Stable ⟨fun _ => none, false⟩ id cs!"SELECT 'x' - -\"a\n'b'\" FROM t" :=
  not_stable (t := cs!"SELECT 'x'--\"a\n'b'\" FROM t") (by kernel_rfl) (by kernel_rfl)

/-! ### From the tree -/

/-- **C18** for every accepted query with a regular tree, whatever its text: the formatted text is parsed, with
any mapping, into a tree that is formatted to the same text. -/
theorem C18_regular_partial (hfmt : FmtNum fmt) (cfg cfg' : Config) {s : Str} {q : QuerySpec} (h : construct cfg s = .ok q)
    (hr : All (Regular (!cfg'.residue)) (.query q)) : ∃ q', parseIt cfg' (q.print fmt) = .ok q' ∧ q'.print fmt = q.print fmt := by
  obtain ⟨t, -, ht⟩ := sp_query (nt := !cfg'.residue) (M := cfg.Mapped) (q := q) fun m hm =>
    ⟨(construct_inv h m hm).1, (construct_inv h m hm).2.1, hr m hm⟩
  obtain ⟨q', t, e, h1, h2, h3, h4⟩ := C18_core_language hfmt ht
  haveI : Fits (anyUp (!cfg'.residue)).out cfg' := ⟨nofun, by simp [anyUp, Mode.out]⟩
  exact ⟨q', h1 ▸ C39_accepts cfg' h3 h2, h4⟩

/-- The same for the constructor, when no geometric predicate follows an AND in the formatted text. -/
theorem C18_stable_partial (hfmt : FmtNum fmt) (cfg : Config) {s : Str}
    (hr : ∀ q, construct cfg s = .ok q → All (Regular (!cfg.residue)) (.query q) ∧ ¬ HasGeometryAfterAnd (q.print fmt)) : Stable cfg fmt s := by
  intro q h
  obtain ⟨q', h1, h2⟩ := C18_regular_partial hfmt cfg cfg h (hr q h).1
  refine ⟨q', ?_, h2⟩
  unfold construct
  rw [C27_no_geometry_after_and _ (hr q h).2]
  exact h1

/-- its condition -/
def tightCond : SC := .term (.mk [] (.pred (.cmp (.mk (.mk [] (.vep (.mk (.col (.col cs!"a")) []))) []) cs!"<"
      (.nb (.mk (.mk [] (.vep (.mk (.str cs!"3") []))) []))))) cs!"AND" (.factor (.mk cs!"not" (.pred (.null (.mk (.mk [] (.vep (.mk (.col (.col cs!"b")) []))) []) []))))

/-- the tree of the example -/
def tightTree : QuerySpec :=
  .mk With.dflt (.mk (.mk (.mk [] (2 ^ 64 - 1) (.items [.as (.nb (.mk (.mk [] (.vep (.mk (.str cs!"'a'") [])))
      [.mk cs!"-" (.mk [] (.vep (.mk (.col (.col cs!"b")) []))), .mk cs!"-" (.mk cs!"-" (.vep (.mk (.col (.col cs!"a")) [])))])) cs!"b"]))
    [.tc ⟨cs!"t", []⟩] (.mk Geom.dflt tightCond)) []) [] SC.dflt []

section
variable {nt : Bool}

private theorem leaf0 {n} (h : Regular nt n) (h' : ∀ m, ¬ Node.child n m) : All (Regular nt) n :=
  all_iff.2 ⟨h, fun m hm => absurd hm (h' m)⟩
private theorem node1 {n c} (h : Regular nt n) (h' : ∀ m, Node.child n m → m = c) (hc : All (Regular nt) c) : All (Regular nt) n :=
  all_iff.2 ⟨h, fun m hm => h' m hm ▸ hc⟩
private theorem node2 {n c d} (h : Regular nt n) (h' : ∀ m, Node.child n m → m = c ∨ m = d) (hc : All (Regular nt) c) (hd : All (Regular nt) d) :
    All (Regular nt) n := all_iff.2 ⟨h, fun m hm => (h' m hm).elim (· ▸ hc) (· ▸ hd)⟩
private theorem node_factor {s p} (h : All (Regular nt) (.prim p)) : All (Regular nt) (.factor (.mk s (.vep (.mk p [])))) :=
  node1 trivial (fun _ h => h) (node1 trivial (fun _ h => h) (node1 trivial (fun _ h => h.resolve_right nofun) h))
private theorem node_expr {p} (h : All (Regular nt) (.prim p)) : All (Regular nt) (.venb (.mk (.mk [] (.vep (.mk p []))) [])) :=
  node1 trivial (fun _ h => h.resolve_right nofun) (node_factor h)
private theorem node_first : ∀ x ∈ ['a', 'b'], FirstName [x] := by
  unfold FirstName OtherName PlainWord SameCI; decide +kernel
private theorem node_col {x} (h : x ∈ ['a', 'b']) : All (Regular nt) (.prim (.col (.col [x]))) :=
  node1 trivial (fun _ h => h) (leaf0 (node_first x h) fun _ h => h)
private theorem node_lit (x) : All (Regular nt) (.prim (.str x)) := leaf0 trivial fun _ h => h

private theorem node_cond : All (Regular nt) (.sc tightCond) := by
  refine node2 rfl (fun _ h => h) (node1 (fun _ => rfl) (fun _ h => h) (node1 trivial (fun _ h => h) (node2 trivial (fun _ h => h) (node_expr (node_col (by decide)))
      (node1 trivial (fun _ h => h) (node_expr (node_lit cs!"3"))))))
    (node1 trivial (fun _ h => h) (node1 trivial (fun _ h => h) (node1 trivial (fun _ h => h) (node1 trivial (fun _ h => h) (node_expr (node_col (by decide)))))))

theorem tightTree_regular : All (Regular nt) (.query tightTree) := by
  refine all_iff.2 ⟨trivial, fun m h => ?_⟩
  rcases h with ⟨h, -⟩ | rfl | ⟨_, h, _⟩ | ⟨h, -⟩ | ⟨_, h, _⟩
  · exact absurd rfl h
  · refine node1 trivial (fun _ h => h.resolve_right nofun) (all_iff.2 ⟨trivial, fun m h => ?_⟩)
    rcases h with rfl | ⟨t, h, rfl⟩ | ⟨-, rfl⟩
    · refine node1 trivial (fun _ h => h) (all_iff.2 ⟨trivial, fun m h => ?_⟩)
      obtain ⟨i, h, rfl⟩ := h
      simp only [List.mem_singleton] at h
      subst h
      refine node1 (node_first 'b' (by simp)).1 (fun _ h => h) (node1 trivial (fun _ h => h)
        (all_iff.2 ⟨⟨by decide, nofun, trivial⟩, fun m h => ?_⟩))
      rcases h with rfl | ⟨t, h, rfl⟩
      · exact node_factor (node_lit _)
      · simp only [List.mem_cons, List.not_mem_nil, or_false] at h
        rcases h with rfl | rfl <;> exact node1 trivial (fun _ h => h) (node_factor (node_col (by decide)))
    · simp only [List.mem_singleton] at h
      subst h
      refine node1 trivial (fun _ h => h) (leaf0 ⟨.one (tab_letter (by decide)), ?_⟩ fun _ h => h)
      intro h; cases h
    · refine node1 trivial (fun m h => ?_) node_cond
      rcases h with ⟨h, -⟩ | ⟨-, h⟩
      · exact absurd rfl h
      · exact h
  · cases h
  · exact absurd rfl h
  · cases h
end

/-- **C18** from the tree, non-trivial case: the text is not one of the core language, and two minus signs come together
in the formatted one. -/
example (hfmt : FmtNum fmt) : ∃ q', parseIt ⟨fun _ => none, false⟩ (tightTree.print fmt) = .ok q' ∧ q'.print fmt = tightTree.print fmt :=
  C18_regular_partial hfmt ⟨fun _ => none, false⟩ _ (s := cs!"SELECT 'a'-b- -a AS b FROM t WHERE a<3AND not b IS NULL") (by kernel_rfl) tightTree_regular

/-! ### From any accepted text -/

theorem construct_came {cfg : Config} {s : Str} {q : QuerySpec} (h : construct cfg s = .ok q) : All (Came cfg) (.query q) := by
  unfold construct at h
  split at h
  · cases h
  · obtain ⟨r, hr, -⟩ := parseIt_ok.1 h
    exact came_query (by rw [parseQuery_eq]; exact hr)

/-- **C18** for every accepted query: the formatted text is parsed, with any mapping, into a tree that is formatted to
the same text, unless the tree has one of the things that `Usual` excludes.  Nothing else that the grammar would allow,
and for which the formatted text would be read differently, comes from a text. -/
theorem C18_accepted_partial (hfmt : FmtNum fmt) (cfg cfg' : Config) (hm : MapsWell cfg.mapping) {s : Str} {q : QuerySpec}
    (h : construct cfg s = .ok q) (hu : All (Usual (!cfg.residue && !cfg'.residue)) (.query q)) :
    ∃ q', parseIt cfg' (q.print fmt) = .ok q' ∧ q'.print fmt = q.print fmt := by
  refine C18_regular_partial hfmt cfg cfg' h (Reach.usual_regular hm ?_ ?_ (construct_came h) hu)
  · intro h; simp only [Bool.and_eq_true, Bool.not_eq_true'] at h; exact h.1
  · intro h; simp only [Bool.and_eq_true] at h; exact h.2

/-- The same for the constructor, when no geometric predicate follows an AND in the formatted text. -/
theorem C18_accepted_stable_partial (hfmt : FmtNum fmt) (cfg : Config) (hm : MapsWell cfg.mapping) {s : Str}
    (hr : ∀ q, construct cfg s = .ok q → All (Usual (!cfg.residue)) (.query q) ∧ ¬ HasGeometryAfterAnd (q.print fmt)) : Stable cfg fmt s := by
  intro q h
  obtain ⟨q', h1, h2⟩ := C18_accepted_partial hfmt cfg cfg hm h (by rw [Bool.and_self]; exact (hr q h).1)
  refine ⟨q', ?_, h2⟩
  unfold construct
  rw [C27_no_geometry_after_and _ (hr q h).2]
  exact h1

/-- `Usual` asks for less than `Regular`. -/
theorem regular_usual {nt : Bool} {n : Node} (h : Regular nt n) : Usual true n := by
  cases n with
  | bf f => cases f; exact nofun
  | bp p => cases p <;> first | exact h.1 | trivial
  | numFn f => cases f <;> first | exact h | trivial
  | spec x => cases x <;> first | exact h | trivial
  | tr x =>
    match x, h with
    | .derived (.qs _) _, h => exact h
    | .derived (.jt _) _, h => exact h.elim
    | .tvf .., h => exact h
    | .tc _, _ => trivial
    | .jt _, _ => trivial
  | item x => cases x <;> first | exact h | trivial
  | with_ x => cases x; exact h
  | venb x => cases x; exact h
  | colRef x => cases x <;> exact h
  | tcorr x => cases x; exact h
  | _ => trivial

/-- **C18** for accepted queries, non-trivial case. -/
example (hfmt : FmtNum fmt) : ∃ q', parseIt ⟨fun _ => none, false⟩ (tightTree.print fmt) = .ok q' ∧ q'.print fmt = tightTree.print fmt :=
  C18_accepted_partial hfmt ⟨fun _ => none, false⟩ _ nofun (s := cs!"SELECT 'a'-b- -a AS b FROM t WHERE a<3AND not b IS NULL") (by kernel_rfl)
    fun m hm => regular_usual (nt := true) (tightTree_regular m hm)

/-! ### Uploaded tables -/

/-- **C18**, core language with uploaded tables: the formatted text has the names the mapping gives, so that
it can be read with any other mapping as well.  The mapping must give names of tables. -/
theorem C18_uploads_partial (hfmt : FmtNum fmt) (cfg cfg' : Config) (hm : ∀ x y, cfg.mapping x = some y → TabName y)
    (hr : cfg'.residue = cfg.residue)
    {G : Bool} {s b : Str} {q : QuerySpec} (h : QueryT ⟨true, cfg.mapping, !cfg.residue⟩ G s q) (hb : Blanks b) :
    parseIt cfg (s ++ b) = .ok q ∧
      ∃ q', parseIt cfg (q.print fmt) = .ok q' ∧ parseIt cfg' (q.print fmt) = .ok q' ∧ q'.print fmt = q.print fmt := by
  haveI : Prints ⟨true, cfg.mapping, !cfg.residue⟩ := ⟨rfl, hm⟩
  haveI : Fits (Mode.out ⟨true, cfg.mapping, !cfg.residue⟩) cfg' := ⟨nofun, by simp [Mode.out, hr]⟩
  refine ⟨C39_uploads cfg h hb, ?_⟩
  obtain ⟨q', t, e, h1, h2, h3, h4⟩ := C18_core_language hfmt h
  exact ⟨q', h1 ▸ C39_accepts cfg h3 h2, h1 ▸ C39_accepts cfg' h3 h2, h4⟩

/-- a mapping with one uploaded table -/
def oneUpload (y : Str) : Config := ⟨fun x => if x = cs!"u" then some y else none, false⟩

theorem oneUpload_some {y x z : Str} (h : (oneUpload y).mapping x = some z) : z = y := by
  unfold oneUpload at h
  simp only at h
  split at h
  · exact (Option.some.inj h).symm
  · cases h

/-- **C18**, uploaded tables, non-trivial case: the tree of the formatted text is another one, since the
name has two parts now, but it is formatted to the same text. -/
example (hfmt : FmtNum fmt) : ∃ q', parseIt ⟨fun _ => none, false⟩
      cs!"SELECT s.t.x, s.t.* FROM s.t a, table(b.x('n','y'))" = .ok q' ∧
    q'.print fmt = cs!"SELECT s.t.x, s.t.* FROM s.t a, table(b.x('n','y'))" := by
  have e : upTree.print fmt = cs!"SELECT s.t.x, s.t.* FROM s.t a, table(b.x('n','y'))" := by kernel_rfl
  have ht : TabName cs!"s.t" := .two (x := cs!"s") (y := cs!"t") (.inl (plainName_letter (by decide))) (part_letter (by decide))
  obtain ⟨-, q', -, h1, h2⟩ := C18_uploads_partial hfmt (oneUpload cs!"s.t") ⟨fun _ => none, false⟩
    (fun x y h => oneUpload_some h ▸ ht) rfl (upText_query (by rfl)) (b := []) nofun
  rw [e] at h1 h2
  exact ⟨q', h1, h2⟩

/-- **C18 is violated** for a mapping that gives a reserved word: the formatted text is refused. -/
theorem C18_violated_mapping : ¬ Stable (oneUpload cs!"select") id cs!"SELECT a FROM TAP_UPLOAD.u" :=
  not_stable (t := cs!"SELECT a FROM select") (by kernel_rfl) (by kernel_rfl)

end Adql
