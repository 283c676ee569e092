import Verif.Peg.Comm
import Verif.Spec.Mapped
import Verif.Model.Exchange
import Verif.Model.Parsed

/-!
# Names of uploaded tables put in later, rule by rule
-/

namespace Adql

open Spec P

variable {m : Str → Option Str}

/-- what happens to the attributes of the rules -/
def putRule (m : Str → Option Str) : (n : Rule) → Attr n → Attr n
  | .ve => VE.exch (putNames m)
  | .venb => VENB.exch (putNames m)
  | .sc => SC.exch (putNames m)
  | .subq => Subquery.exch (putNames m)
  | .jt => JT.exch (putNames m)
  | .tr => TR.exch (putNames m)
  | .tap => putName m

/-- `Comm` for the rules of ADQL -/
abbrev CM (m : Str → Option Str) {α : Type} (p : G α) (h : α → α) : Prop := Comm (putRule m) p h

set_option linter.unusedSimpArgs false

/-- Equations between a constructor with exchanged names and the exchange in its parts. -/
macro "exch_eq" : tactic => `(tactic| (intros; first | rfl | simp only [VE.exch, VENB.exch, Term.exch, Factor.exch,
  NumPrim.exch, NumFn.exch, VEP.exch, Prim.exch, CaseE.exch, SimpleWhen.exch, SearchedWhen.exch, CaseResult.exch, SC.exch,
  BF.exch, BP.exch, Pred.exch, Subquery.exch, JT.exch, QJ.exch, QJHead.exch, JoinSuffix.exch, JoinSpec.exch, TR.exch,
  GPred.exch, Geom.exch, Where.exch, Item.exch, Columns.exch, Select.exch, SFW.exch, Addon.exch, SFWList.exch,
  GroupTerm.exch, With.exch, QuerySpec.exch, SortSpec.exch, CoordExpr.exch, Coord.exch, Point.exch, Shape.exch,
  PointOrCol.exch, ShapeOrCol.exch, exchTerms_eq, exchVEs_eq, exchWhens_eq, exchConds_eq, exchSuffixes_eq, exchItems_eq,
  exchTRs_eq, exchAddons_eq, exchGroup_eq, SC.exch_dflt, Geom.exch_dflt, id]))

theorem cm_ve : CM m ve (VE.exch (putNames m)) := .nt Rule.ve
theorem cm_venb : CM m venb (VENB.exch (putNames m)) := .nt Rule.venb
theorem cm_sc : CM m sc (SC.exch (putNames m)) := .nt Rule.sc
theorem cm_subq : CM m subq (Subquery.exch (putNames m)) := .nt Rule.subq
theorem cm_jt : CM m jt (JT.exch (putNames m)) := .nt Rule.jt
theorem cm_tr : CM m tr (TR.exch (putNames m)) := .nt Rule.tr
theorem cm_tap : CM m tap (putName m) := .nt Rule.tap

/-- an expression that calls no rule -/
macro "cl" : term => `(Comm.closed (by kernel_rfl))

/-! ### Names -/

/-- no mark in front -/
def Plain (x : Str) : Prop := ∃ c t, x = c :: t ∧ c ≠ mark

theorem putName_plain {x : Str} (h : Plain x) : putName m x = x := by
  obtain ⟨c, t, rfl, hc⟩ := h
  simp only [putName, if_neg hc]

theorem putStar_app (x : Str) : putStar m (x ++ cs!".*") = putName m x ++ cs!".*" := by
  cases x with
  | nil =>
    have : ('.' : Char) ≠ mark := by decide
    simp [putStar, putName, this]
  | cons c x =>
    simp only [List.cons_append, putStar, putName]
    split
    · congr 3
      rw [List.dropLast_append_of_ne_nil (by simp), List.dropLast_append_of_ne_nil (by simp)]
      simp
    · rfl

theorem plainIn_name {x : Str} (h : Name x) : Plain x := by
  rcases h with ⟨⟨c, t, rfl, hc, -⟩, -⟩ | ⟨b, rfl, -⟩
  · refine ⟨c, t, rfl, ?_⟩
    rintro rfl
    revert hc
    unfold Letter
    decide
  · exact ⟨'"', _, rfl, by decide⟩

theorem plainIn_append {x y : Str} (h : Plain x) : Plain (x ++ y) := by
  obtain ⟨c, t, rfl, hc⟩ := h
  exact ⟨c, _, rfl, hc⟩

theorem ap_plain (I : (n : Rule) → Bool → Str → Attr n → Str → Prop) : AP I identifier Plain :=
  ap_identifier.imp fun _ => plainIn_name

theorem ap_plainCat {I : (n : Rule) → Bool → Str → Attr n → Str → Prop} {q : G Str} : AP I (cat identifier q) Plain :=
  (ap_cat (ap_plain I) (.trivial q)).imp fun _ ⟨_, _, e, h, _⟩ => e ▸ plainIn_append h

theorem cm_identifier : CM m identifier id := cl

theorem cm_plain : CM m identifier (putName m) := .fixed (by kernel_rfl) ap_plain fun _ => putName_plain

theorem cm_tableName : CM m tableName (putName m) :=
  .lexeme (.alt cm_tap (.alt (.fixed (by kernel_rfl) (fun _ => ap_plainCat) fun _ => putName_plain)
    (.alt (.fixed (by kernel_rfl) (fun _ => ap_plainCat) fun _ => putName_plain) cm_plain)))

theorem cm_columnReference : CM m columnReference (ColRef.exch (putNames m)) :=
  .alt (.map (h := id) cl fun _ => rfl) (.alt (.map (h := id) cl fun _ => rfl)
    (.alt (.map (.seq (.alt cm_tap cm_plain) (Comm.closed (p := seqR (sym cs!".") identifier) (by kernel_rfl))) fun _ => rfl)
      (.map (h := id) cl fun _ => rfl)))

theorem matchLit_same : ∀ {w s t r : Str}, matchLit false w s = some (t, r) → t = w
  | [], s, t, r, h => by simp only [matchLit, Option.some.injEq, Prod.mk.injEq] at h; exact h.1.symm
  | c :: w, [], t, r, h => by simp [matchLit] at h
  | c :: w, d :: s, t, r, h => by
    simp only [matchLit, Bool.false_and, Bool.or_false, beq_iff_eq] at h
    split at h
    · next hc =>
      subst hc
      cases e : matchLit false w s with
      | none => simp [e] at h
      | some x =>
        obtain ⟨t', r'⟩ := x
        simp only [e, Option.some.injEq, Prod.mk.injEq] at h
        rw [← h.1, matchLit_same e]
    · simp at h

theorem step_catSym {rec : (n : Rule) → Bool → Str → Res (Attr n)} {p : G Str} {w : Str} (sk : Bool) (s : Str) :
    step rec (cat p (sym w)) sk s = step rec (.map (fun x => x.1 ++ w) (.seq p (sym w))) sk s := by
  simp only [cat, sym, step]
  cases step rec p sk s with
  | ok a r =>
    simp only
    cases e : matchLit false w (skip sk r) with
    | none => rfl
    | some x =>
      obtain ⟨t, r'⟩ := x
      simp only [matchLit_same e]
  | fail => rfl
  | err e => rfl
  | oof => rfl

theorem cm_qualifierStar : CM m qualifierStar (putStar m) :=
  .lexeme fun rec rec' hr sk s => by
    rw [step_catSym, step_catSym]
    exact Comm.map (f := fun x => x.1 ++ cs!".*") (.seq cm_tableName (Comm.closed (p := sym cs!".*") (by kernel_rfl)))
      (fun x => putStar_app x.1) rec rec' hr sk s

/-! ### Shapes and geometry -/

theorem cm_coordExpr : CM m coordExpr (CoordExpr.exch (putNames m)) :=
  .alt (.map (h := id) cl (by exch_eq)) (.alt (.map cm_columnReference (by exch_eq)) (.map (h := id) cl (by exch_eq)))

theorem cm_coord : CM m coord (Coord.exch (putNames m)) :=
  .map (.seq cm_coordExpr (.seqR (h := id) cl cm_coordExpr)) (by exch_eq)

theorem cm_xCoordExpr : CM m xCoordExpr (CoordExpr.exch (putNames m)) := .seqR (h := id) cl (.expect cm_coordExpr)

theorem cm_xClose : CM m xClose id := cl

theorem cm_shapeHead (w : Str) : CM m (shapeHead w) id := .closed rfl

theorem cm_point : CM m point (Point.exch (putNames m)) :=
  .map (.seq (cm_shapeHead _) (.seqL (.expect cm_coord) cm_xClose)) (by exch_eq)

theorem cm_circle : CM m circle (Shape.exch (putNames m)) :=
  .map (.seq (cm_shapeHead _) (.seq (.expect cm_coord) (.seqL cm_xCoordExpr cm_xClose))) (by exch_eq)

theorem cm_ellipse : CM m ellipse (Shape.exch (putNames m)) :=
  .map (.seq (cm_shapeHead _) (.seq (.expect cm_coord) (.seq cm_xCoordExpr (.seq cm_xCoordExpr
    (.seqL cm_xCoordExpr cm_xClose))))) (by exch_eq)

theorem cm_box : CM m box (Shape.exch (putNames m)) :=
  .map (.seq (cm_shapeHead _) (.seq (.expect cm_coord) (.seq cm_xCoordExpr (.seqL cm_xCoordExpr cm_xClose)))) (by exch_eq)

theorem cm_polygon : CM m polygon (Shape.exch (putNames m)) :=
  .map (.seq (cm_shapeHead _) (.seqL (.expect (.sepBy (k := id) cm_coord cl)) cm_xClose)) (by exch_eq)

theorem cm_shape : CM m shape (Shape.exch (putNames m)) :=
  .alt (.map cm_point (by exch_eq)) (.alt cm_circle (.alt cm_box (.alt cm_ellipse cm_polygon)))

theorem cm_pointOrColumn : CM m pointOrColumn (PointOrCol.exch (putNames m)) :=
  .alt (.map cm_point (by exch_eq)) (.map cm_columnReference (by exch_eq))

theorem cm_shapeOrColumn : CM m shapeOrColumn (ShapeOrCol.exch (putNames m)) :=
  .alt (.map cm_shape (by exch_eq)) (.map cm_columnReference (by exch_eq))

theorem cm_xShapeTail : CM m xShapeTail (ShapeOrCol.exch (putNames m)) :=
  .seqR (h := id) cl (.seqL (.expect cm_shapeOrColumn) cm_xClose)

theorem cm_contains : CM m contains (GPred.exch (putNames m)) :=
  .map (.seqR (h := id) cl (.seq (.expect cm_shapeOrColumn) cm_xShapeTail)) (by exch_eq)

theorem cm_intersects : CM m intersects (GPred.exch (putNames m)) :=
  .map (.seqR (h := id) cl (.seq (.expect cm_ve) cm_xShapeTail)) (by exch_eq)

theorem cm_geomPred : CM m geomPred (GPred.exch (putNames m)) := .alt cm_contains cm_intersects

theorem cm_geometry : CM m geometry (Geom.exch (putNames m)) :=
  .alt (.map (.seq (h := id) cl cm_geomPred) (by exch_eq)) (.map (.seq (k := id) cm_geomPred cl) (by exch_eq))

/-! ### Functions -/

theorem cm_xVe : CM m xVe (VE.exch (putNames m)) := .expect cm_ve

theorem cm_xComma : CM m xComma id := cl

theorem cm_trigFunction : CM m trigFunction (NumFn.exch (putNames m)) :=
  .alt (.map (.seq (h := id) cl (.seqL cm_xVe cm_xClose)) (by exch_eq))
    (.map (.seq (h := id) cl (.seq cm_xVe (.seqR cm_xComma (.seqL cm_xVe cm_xClose)))) (by exch_eq))

theorem cm_mathFunction : CM m mathFunction (NumFn.exch (putNames m)) :=
  .alt (.map (h := id) cl (by exch_eq)) (.alt (.map (.seq (h := id) cl (.seqL (k := id) cm_ve cl)) (by exch_eq))
    (.map (.seq (h := id) cl (.seq cm_ve (.seqR (h := id) cl (.seqL (k := id) cm_ve cl)))) (by exch_eq)))

theorem cm_geoFunction : CM m geoFunction (NumFn.exch (putNames m)) :=
  .alt (.map (.seq (h := id) cl (.seqL (.expect cm_pointOrColumn) cm_xClose)) (by exch_eq))
    (.map (.seq (h := id) cl (.seq (.expect cm_pointOrColumn) (.seqR cm_xComma (.seqL (.expect cm_pointOrColumn) cm_xClose))))
      (by exch_eq))

theorem cm_castFunction : CM m castFunction (NumFn.exch (putNames m)) :=
  .map (.seqR (h := id) cl (.seq (.seqL (k := id) cm_ve cl) (.seq (h := id) (k := id) cl cl))) (by exch_eq)

theorem cm_ves : CM m (sepBy ve (sym cs!",")) (List.map (VE.exch (putNames m))) := .sepBy (k := id) cm_ve cl

theorem cm_userDefinedFunction : CM m userDefinedFunction (NumFn.exch (putNames m)) :=
  .map (.seq (h := id) cl (.seqL (k := id) (.optD cm_ves rfl) cl)) (by exch_eq)

theorem cm_numericValueFunction : CM m numericValueFunction (NumFn.exch (putNames m)) :=
  .alt cm_trigFunction (.alt cm_mathFunction (.alt cm_castFunction (.alt cm_geoFunction
    (.alt cm_userDefinedFunction (.map (h := id) cl (by exch_eq))))))

/-! ### Expressions -/

theorem cm_generalSetFunction : CM m generalSetFunction (Prim.exch (putNames m)) :=
  .map (.seq (h := id) cl (.seqL (.expect (.seq (h := id) cl cm_ve)) cm_xClose)) (by exch_eq)

theorem cm_caseResult : CM m caseResult (CaseResult.exch (putNames m)) :=
  .alt (.map cm_ve (by exch_eq)) (.map (h := id) cl (by exch_eq))

theorem cm_simpleWhen : CM m simpleWhen (SimpleWhen.exch (putNames m)) :=
  .map (.seqR (h := id) cl (.seq (.expect (.seqL (k := id) cm_ve cl)) (.seqR (h := id) cl (.expect cm_caseResult)))) (by exch_eq)

theorem cm_elseClause : CM m elseClause (CaseResult.exch (putNames m)) := .seqR (h := id) cl cm_caseResult

theorem cm_simpleCase : CM m simpleCase (CaseE.exch (putNames m)) :=
  .map (.seqL (k := id) (.seq cm_ve (.seq (.plus cm_simpleWhen) (.optD cm_elseClause CaseResult.exch_dflt))) cl) (by exch_eq)

theorem cm_searchedWhen : CM m searchedWhen (SearchedWhen.exch (putNames m)) :=
  .map (.seqR (h := id) cl (.seq (.seqL (k := id) cm_sc cl) cm_caseResult)) (by exch_eq)

theorem cm_searchedCase : CM m searchedCase (CaseE.exch (putNames m)) :=
  .map (.seq (.plus cm_searchedWhen) (.seqL (k := id) (.optD cm_elseClause CaseResult.exch_dflt) cl)) (by exch_eq)

theorem cm_caseSpecification : CM m caseSpecification (CaseE.exch (putNames m)) :=
  .seqR (h := id) cl (.expect (.alt cm_simpleCase cm_searchedCase))

theorem cm_nullif : CM m nullif (CaseE.exch (putNames m)) :=
  .map (.seqR (h := id) cl (.seq cm_ve (.seqR (h := id) cl (.seqL (k := id) cm_ve cl)))) (by exch_eq)

theorem cm_coalesce : CM m coalesce (CaseE.exch (putNames m)) :=
  .map (.seqR (h := id) cl (.seqL (k := id) cm_ves cl)) (by exch_eq)

theorem cm_caseExpression : CM m caseExpression (CaseE.exch (putNames m)) :=
  .alt (.alt cm_nullif cm_coalesce) cm_caseSpecification

theorem cm_anyExpression : CM m anyExpression (Prim.exch (putNames m)) :=
  .map (.seqR (h := id) cl (.seqL cm_xVe cm_xClose)) (by exch_eq)

theorem cm_valueSubexpression : CM m valueSubexpression (Prim.exch (putNames m)) :=
  .map (.seqR (h := id) cl (.seqL (k := id) cm_ve cl)) (by exch_eq)

theorem cm_arrayIndex : CM m arrayIndex (VE.exch (putNames m)) := .seqR (h := id) cl (.seqL (k := id) cm_ve cl)

theorem cm_arrayConstructor : CM m arrayConstructor (Prim.exch (putNames m)) :=
  .map (.seqL (k := id) (.seqR (h := id) cl cm_ves) cl) (by exch_eq)

theorem cm_primary : CM m primary (Prim.exch (putNames m)) :=
  .alt cm_arrayConstructor (.alt (.map (h := id) cl (by exch_eq)) (.alt (.map cm_columnReference (by exch_eq))
    (.alt (.alt (.map (h := id) cl (by exch_eq)) cm_generalSetFunction) (.alt (.map cm_caseExpression (by exch_eq))
      (.alt cm_anyExpression (.alt (.map (h := id) cl (by exch_eq)) (.alt (.map (h := id) cl (by exch_eq))
        cm_valueSubexpression)))))))

theorem cm_valueExpressionPrimary : CM m valueExpressionPrimary (VEP.exch (putNames m)) :=
  .map (.seq cm_primary (.star cm_arrayIndex)) (by exch_eq)

theorem cm_numericPrimary : CM m numericPrimary (NumPrim.exch (putNames m)) :=
  .alt (.map cm_numericValueFunction (by exch_eq)) (.map cm_valueExpressionPrimary (by exch_eq))

theorem cm_factor : CM m factor (Factor.exch (putNames m)) := .map (.seq (h := id) cl cm_numericPrimary) (by exch_eq)

theorem cm_venbTerm : CM m venbTerm (Term.exch (putNames m)) := .map (.seq (h := id) cl cm_factor) (by exch_eq)

theorem cm_venbBody : CM m venbBody (VENB.exch (putNames m)) := .map (.seq cm_factor (.star cm_venbTerm)) (by exch_eq)

theorem cm_veBody : CM m veBody (VE.exch (putNames m)) := .alt (.map cm_venb (by exch_eq)) (.map cm_sc (by exch_eq))

/-! ### Conditions -/

theorem cm_comparisonPredicate : CM m comparisonPredicate (Pred.exch (putNames m)) :=
  .map (.seq cm_venb (.seq (h := id) cl cm_ve)) (by exch_eq)

theorem cm_betweenPredicate : CM m betweenPredicate (Pred.exch (putNames m)) :=
  .map (.seq cm_venb (.seq (h := id) cl (.seqR (h := id) cl (.seq cm_ve (.seqR (h := id) cl cm_ve))))) (by exch_eq)

/-- the right side of IN -/
def putIn (m : Str → Option Str) : Subquery ⊕ List VE → Subquery ⊕ List VE
  | .inl q => .inl (q.exch (putNames m))
  | .inr l => .inr (l.map (VE.exch (putNames m)))

theorem cm_inPredicate : CM m inPredicate (Pred.exch (putNames m)) :=
  .map (.seq cm_venb (.seq (h := id) cl (.seqR (h := id) (k := putIn m) cl
    (.alt (.map cm_subq fun _ => rfl) (.map (.seqR (h := id) cl (.seqL (k := id) cm_ves cl)) fun _ => rfl)))))
    (by rintro ⟨a, b, c | c⟩ <;> simp only [Pred.exch, putIn, exchVEs_eq, id])

theorem cm_nullPredicate : CM m nullPredicate (Pred.exch (putNames m)) :=
  .map (.seq cm_venb (.seqR (h := id) (k := id) cl cl)) (by exch_eq)

theorem cm_likePredicate : CM m likePredicate (Pred.exch (putNames m)) :=
  .map (.seq cm_venb (.seq (h := id) cl (.seqR (h := id) cl cm_venb))) (by exch_eq)

theorem cm_existsPredicate : CM m existsPredicate (Pred.exch (putNames m)) :=
  .map (.seqR (h := id) cl cm_subq) (by exch_eq)

theorem cm_predicate : CM m predicate (Pred.exch (putNames m)) :=
  .alt cm_comparisonPredicate (.alt cm_betweenPredicate (.alt cm_inPredicate (.alt cm_nullPredicate
    (.alt cm_likePredicate cm_existsPredicate))))

theorem cm_booleanPrimary : CM m booleanPrimary (BP.exch (putNames m)) :=
  .alt (.map cm_predicate (by exch_eq)) (.alt (.map (.seqR (h := id) cl (.seqL (k := id) cm_sc cl)) (by exch_eq))
    (.map cm_venb (by exch_eq)))

theorem cm_factorNot (b : Bool) : CM m (factorNot b) id := .closed (by cases b <;> rfl)

theorem cm_booleanFactor (b : Bool) : CM m (booleanFactor b) (BF.exch (putNames m)) :=
  .map (.seq (cm_factorNot b) cm_booleanPrimary) (by exch_eq)

theorem cm_scBody (b : Bool) : CM m (scBody b) (SC.exch (putNames m)) :=
  .alt (.map (.seq (cm_booleanFactor b) (.seq (h := id) cl cm_sc)) (by exch_eq)) (.map (cm_booleanFactor b) (by exch_eq))

/-! ### Tables -/

theorem putNames_tab (t : TableCorr) : t.exch (putNames m) = ⟨putName m t.name, t.as⟩ := by
  obtain ⟨n, a⟩ := t
  cases n <;> rfl

theorem cm_tableCorrelation : CM m tableCorrelation (TableCorr.exch (putNames m)) :=
  .map (.seq (k := id) cm_tableName cl) fun _ => putNames_tab _

theorem cm_joinSpecification : CM m joinSpecification (JoinSpec.exch (putNames m)) :=
  .alt (.map (.seqR (h := id) cl cm_sc) (by exch_eq)) (.map (h := id) cl (by exch_eq))

theorem cm_joinSuffix : CM m joinSuffix (JoinSuffix.exch (putNames m)) :=
  .map (.seq (h := id) cl (.seq (h := id) cl (.expect (.seq cm_tr (.optD cm_joinSpecification JoinSpec.exch_dflt))))) (by exch_eq)

theorem cm_parenJoined : CM m parenJoined (JT.exch (putNames m)) := .seqR (h := id) cl (.seqL (k := id) cm_jt cl)

theorem cm_qualifiedJoin : CM m qualifiedJoin (QJ.exch (putNames m)) :=
  .map (.seq (h := QJHead.exch (putNames m)) (.alt (.map cm_parenJoined (by exch_eq)) (.map cm_tableCorrelation (by exch_eq)))
    (.plus cm_joinSuffix)) (by exch_eq)

theorem cm_jtBody : CM m jtBody (JT.exch (putNames m)) :=
  .alt (.map cm_qualifiedJoin (by exch_eq)) (.map cm_parenJoined (by exch_eq))

theorem cm_derivedCorrelation : CM m derivedCorrelation (TR.exch (putNames m)) :=
  .map (.seq (k := id) cm_subq cl) (by exch_eq)

theorem cm_tableValuedFunction : CM m tableValuedFunction (TR.exch (putNames m)) := .map (h := id) cl (by exch_eq)

theorem cm_trBody : CM m trBody (TR.exch (putNames m)) :=
  .alt (.map cm_jt (by exch_eq)) (.alt (.map cm_tableCorrelation (by exch_eq)) (.alt cm_derivedCorrelation cm_tableValuedFunction))

theorem cm_fromClause : CM m fromClause (List.map (TR.exch (putNames m))) :=
  .seqR (h := id) cl (.expect (.sepBy (k := id) cm_tr cl))

/-! ### Queries -/

theorem cm_asItem : CM m asItem (Item.exch (putNames m)) :=
  .map (.seq (k := id) (.seqL (k := id) cm_ve cl) cl) (by exch_eq)

theorem cm_selectItem : CM m selectItem (Item.exch (putNames m)) :=
  .alt cm_asItem (.alt (.map cm_qualifierStar (by exch_eq)) (.map cm_ve (by exch_eq)))

theorem cm_columns : CM m columns (Columns.exch (putNames m)) :=
  .alt (.map (h := id) cl (by exch_eq)) (.map (.sepBy (k := id) cm_selectItem cl) (by exch_eq))

theorem cm_select : CM m select (Select.exch (putNames m)) :=
  .map (.seqR (h := id) cl (.seq (h := id) cl (.seq (h := id) cl (.expect cm_columns)))) (by exch_eq)

theorem cm_whereClause : CM m whereClause (Where.exch (putNames m)) :=
  .seqR (h := id) cl (.expect (.alt (.map (.seq cm_geometry (.optD (.seqR (h := id) cl (.expect cm_sc)) SC.exch_dflt)) (by exch_eq))
    (.alt (.map (.seqR (h := id) cl (.seqL cm_geometry cm_xClose)) (by exch_eq)) (.map cm_sc (by exch_eq)))))

theorem cm_whereNoGeometry : CM m whereNoGeometry (Where.exch (putNames m)) := .map (.seqR (h := id) cl cm_sc) (by exch_eq)

theorem cm_sfwWith {w : G Where} (hw : CM m w (Where.exch (putNames m))) : CM m (sfwWith w) (SFW.exch (putNames m)) :=
  .map (.seq cm_select (.expect (.seq cm_fromClause (.optD hw Where.exch_dflt)))) (by exch_eq)

theorem cm_sfwList {w : G Where} (hw : CM m w (Where.exch (putNames m))) : CM m (sfwList w) (SFWList.exch (putNames m)) :=
  .map (.seq (cm_sfwWith hw) (.star (h := Addon.exch (putNames m)) (.map (.seq (h := id) cl (cm_sfwWith hw)) (by exch_eq)))) (by exch_eq)

theorem cm_groupByTerm : CM m groupByTerm (GroupTerm.exch (putNames m)) :=
  .alt (.map cm_ve (by exch_eq)) (.map cm_columnReference (by exch_eq))

theorem cm_groupBy : CM m groupBy (List.map (GroupTerm.exch (putNames m))) :=
  .seqR (h := id) cl (.seqR (h := id) cl (.expect (.sepBy (k := id) cm_groupByTerm cl)))

theorem cm_having : CM m having (SC.exch (putNames m)) := .seqR (h := id) cl (.expect cm_sc)

/-- a sort key -/
def putKey (m : Str → Option Str) : Str ⊕ ColRef → Str ⊕ ColRef
  | .inl d => .inl d
  | .inr c => .inr (c.exch (putNames m))

theorem cm_sortSpecification : CM m sortSpecification (SortSpec.exch (putNames m)) :=
  .map (.seq (h := putKey m) (k := id) (.alt (.map cm_columnReference fun _ => rfl) (.map (h := id) cl fun _ => rfl)) cl)
    (by rintro ⟨a | a, b⟩ <;> rfl)

theorem cm_orderBy : CM m orderBy (List.map (SortSpec.exch (putNames m))) :=
  .seqR (h := id) cl (.seqR (h := id) cl (.sepBy (k := id) cm_sortSpecification cl))

theorem cm_withClause : CM m withClause (With.exch (putNames m)) :=
  .map (.seqR (h := id) cl (.seq (h := id) cl (.seq (h := id) cl (.expect cm_subq)))) (by exch_eq)

theorem cm_queryWith {w : G Where} (hw : CM m w (Where.exch (putNames m))) : CM m (queryWith w) (QuerySpec.exch (putNames m)) :=
  .map (.seq (.optD cm_withClause With.exch_dflt) (.seq (cm_sfwList hw) (.seq (.optD cm_groupBy rfl)
    (.seq (.optD cm_having SC.exch_dflt) (.optD cm_orderBy rfl))))) (by exch_eq)

theorem cm_query : CM m query (QuerySpec.exch (putNames m)) := cm_queryWith cm_whereClause

theorem cm_subqBody : CM m subqBody (Subquery.exch (putNames m)) :=
  .seqR (h := id) cl (.seqL (k := id) (.alt (.map (cm_queryWith cm_whereNoGeometry) (by exch_eq)) (.map cm_jt (by exch_eq))) cl)

/-! ### All rules -/

theorem tap_put {rec rec' : (n : Rule) → Bool → Str → Res (Attr n)} {r : Bool} (sk : Bool) (s : Str) :
    step rec' (tapUpload ⟨m, r⟩) sk s = (step rec (tapUpload ⟨marked m, r⟩) sk s).change (putName m) := by
  simp only [tapUpload, tapUploadIdentifier, seqR, step,
    step_closed (rec := rec') (rec' := rec) identifier (by kernel_rfl),
    step_closed (rec := rec') (rec' := rec) (sym cs!"TAP_UPLOAD.") (by kernel_rfl)]
  cases step rec (sym cs!"TAP_UPLOAD.") false (skip sk s) with
  | ok a t =>
    simp only
    cases step rec identifier false (skip false t) with
    | ok x u =>
      simp only [marked]
      cases e : m x with
      | none => rfl
      | some y => simp [Res.change, putName, e]
    | fail => rfl
    | err e => rfl
    | oof => rfl
  | fail => rfl
  | err e => rfl
  | oof => rfl

theorem run_put {r : Bool} : ∀ f n sk s, run (grammar ⟨m, r⟩) f n sk s = (run (grammar ⟨marked m, r⟩) f n sk s).change (putRule m n) :=
  Comm.run fun rec rec' hr n sk s => by
    cases n with
    | ve => exact cm_veBody rec rec' hr sk s
    | venb => exact cm_venbBody rec rec' hr sk s
    | sc => exact cm_scBody r rec rec' hr sk s
    | subq => exact cm_subqBody rec rec' hr sk s
    | jt => exact cm_jtBody rec rec' hr sk s
    | tr => exact cm_trBody rec rec' hr sk s
    | tap => exact tap_put sk s

theorem parseQuery_put {r : Bool} (s : Str) :
    parseQuery ⟨m, r⟩ s = (parseQuery ⟨marked m, r⟩ s).change (QuerySpec.exch (putNames m)) :=
  cm_query _ _ (run_put _) true s

end Adql
