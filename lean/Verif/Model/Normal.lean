import Verif.Spec.Same

/-!
# A query and its normal form are formatted to the same text

So queries that are the same up to spelling have the same text; the converse is false.
-/

namespace Adql

theorem normNot_isEmpty (n : Str) : (normNot n).isEmpty = n.isEmpty := by
  cases n <;> rfl

theorem upper_isEmpty (s : Str) : (upper s).isEmpty = s.isEmpty := by cases s <;> rfl

theorem ColRef.norm_isEmpty (c : ColRef) : c.norm.isEmpty = c.isEmpty := by cases c <;> rfl

theorem ColRef.norm_print (c : ColRef) : c.norm.print = c.print := by
  cases c <;> simp [ColRef.norm, ColRef.print]

variable {fmt : Str → Str}

theorem normVEs_isEmpty (l : List VE) : (normVEs fmt l).isEmpty = l.isEmpty := by cases l <;> simp [normVEs]
theorem normTRs_isEmpty (l : List TR) : (normTRs fmt l).isEmpty = l.isEmpty := by cases l <;> simp [normTRs]
theorem normGroup_isEmpty (l : List GroupTerm) : (normGroup fmt l).isEmpty = l.isEmpty := by cases l <;> simp [normGroup]
theorem normConds_isEmpty (l : List SearchedWhen) : (normConds fmt l).isEmpty = l.isEmpty := by
  match l with
  | [] => rfl
  | .mk c r :: l => simp [normConds]

theorem CoordExpr.norm_isEmpty (x : CoordExpr) : (x.norm fmt).isEmpty = x.isEmpty := by
  cases x <;> simp only [CoordExpr.norm] <;> first | rfl | (split <;> rfl)

theorem ShapeOrCol.norm_isEmpty (x : ShapeOrCol) : (x.norm fmt).isEmpty = x.isEmpty := by
  cases x with
  | col c => exact c.norm_isEmpty
  | shape s => cases s with
    | polygon s l => cases l <;> rfl
    | _ => exact CoordExpr.norm_isEmpty _

section
mutual

theorem VE.norm_isEmpty : ∀ v : VE, (v.norm fmt).isEmpty = v.isEmpty
  | .nb v => by simp [VE.norm, VE.isEmpty, v.norm_isEmpty]
  | .sc c => by simp [VE.norm, VE.isEmpty, c.norm_isEmpty]

theorem VENB.norm_isEmpty : ∀ v : VENB, (v.norm fmt).isEmpty = v.isEmpty
  | .mk f _ => by simp [VENB.norm, VENB.isEmpty, f.norm_isEmpty]

theorem Factor.norm_isEmpty : ∀ v : Factor, (v.norm fmt).isEmpty = v.isEmpty
  | .mk _ p => by simp [Factor.norm, Factor.isEmpty, p.norm_isEmpty]

theorem NumPrim.norm_isEmpty : ∀ v : NumPrim, (v.norm fmt).isEmpty = v.isEmpty
  | .vep (.mk p _) => by simp [NumPrim.norm, NumPrim.isEmpty, VEP.norm, VEP.isEmpty, p.norm_isEmpty]
  | .nvf f => by cases f <;> simp [NumPrim.norm, NumPrim.isEmpty, NumFn.norm, NumFn.isEmpty]

theorem Prim.norm_isEmpty : ∀ v : Prim, (v.norm fmt).isEmpty = v.isEmpty
  | .arr l => by simp [Prim.norm, Prim.isEmpty, normVEs_isEmpty]
  | .str _ => rfl
  | .col c => by simp [Prim.norm, Prim.isEmpty, c.norm_isEmpty]
  | .countStar _ => rfl
  | .setFn .. => by simp [Prim.norm, Prim.isEmpty]
  | .case c => by simp [Prim.norm, Prim.isEmpty, c.norm_isEmpty]
  | .any e => by simp [Prim.norm, Prim.isEmpty, e.norm_isEmpty]
  | .sub e => by simp [Prim.norm, Prim.isEmpty, e.norm_isEmpty]

theorem CaseE.norm_isEmpty : ∀ v : CaseE, (v.norm fmt).isEmpty = v.isEmpty
  | .nullif e _ => by simp [CaseE.norm, CaseE.isEmpty, e.norm_isEmpty]
  | .coalesce l => by simp [CaseE.norm, CaseE.isEmpty, normVEs_isEmpty]
  | .simple e _ _ => by simp [CaseE.norm, CaseE.isEmpty, e.norm_isEmpty]
  | .searched l _ => by simp [CaseE.norm, CaseE.isEmpty, normConds_isEmpty]

theorem SC.norm_isEmpty : ∀ v : SC, (v.norm fmt).isEmpty = v.isEmpty
  | .factor b => by simp [SC.norm, SC.isEmpty, b.norm_isEmpty]
  | .term _ op _ => by simp [SC.norm, SC.isEmpty, upper_isEmpty]

theorem BF.norm_isEmpty : ∀ v : BF, (v.norm fmt).isEmpty = v.isEmpty
  | .mk _ p => by simp [BF.norm, BF.isEmpty, p.norm_isEmpty]

theorem BP.norm_isEmpty : ∀ v : BP, (v.norm fmt).isEmpty = v.isEmpty
  | .pred p => by simp [BP.norm, BP.isEmpty, p.norm_isEmpty]
  | .sc c => by simp [BP.norm, BP.isEmpty, c.norm_isEmpty]
  | .ve v => by simp [BP.norm, BP.isEmpty, v.norm_isEmpty]

theorem Pred.norm_isEmpty : ∀ v : Pred, (v.norm fmt).isEmpty = v.isEmpty
  | .cmp .. => by simp [Pred.norm, Pred.isEmpty]
  | .between v .. => by simp [Pred.norm, Pred.isEmpty, v.norm_isEmpty]
  | .inSub v .. => by simp [Pred.norm, Pred.isEmpty, v.norm_isEmpty]
  | .inList v .. => by simp [Pred.norm, Pred.isEmpty, v.norm_isEmpty]
  | .null v .. => by simp [Pred.norm, Pred.isEmpty, v.norm_isEmpty]
  | .like v .. => by simp [Pred.norm, Pred.isEmpty, v.norm_isEmpty]
  | .exist q => by simp [Pred.norm, Pred.isEmpty, q.norm_isEmpty]

theorem Subquery.norm_isEmpty : ∀ v : Subquery, (v.norm fmt).isEmpty = v.isEmpty
  | .jt j => by simp [Subquery.norm, Subquery.isEmpty, j.norm_isEmpty]
  | .qs (.mk _ (.mk (.mk _ l _) _) _ _ _) => by
    simp [Subquery.norm, Subquery.isEmpty, QuerySpec.norm, QuerySpec.isEmpty, SFWList.norm, SFWList.isEmpty, SFW.norm, SFW.isEmpty,
      normTRs_isEmpty]

theorem JT.norm_isEmpty : ∀ v : JT, (v.norm fmt).isEmpty = v.isEmpty
  | .qj (.mk (.tc t) _) => by simp [JT.norm, JT.isEmpty, QJ.norm, QJ.isEmpty, QJHead.norm, QJHead.isEmpty]
  | .qj (.mk (.jt j) _) => by simp [JT.norm, JT.isEmpty, QJ.norm, QJ.isEmpty, QJHead.norm, QJHead.isEmpty, j.norm_isEmpty]
  | .wrap j => by simp [JT.norm, JT.isEmpty, j.norm_isEmpty]

end
end

theorem CaseResult.norm_isEmpty (v : CaseResult) : (v.norm fmt).isEmpty = v.isEmpty := by
  cases v <;> simp [CaseResult.norm, CaseResult.isEmpty, VE.norm_isEmpty]
theorem JoinSpec.norm_isEmpty (v : JoinSpec) : (v.norm fmt).isEmpty = v.isEmpty := by
  cases v <;> simp [JoinSpec.norm, JoinSpec.isEmpty, SC.norm_isEmpty]
theorem GPred.norm_isEmpty (v : GPred) : (v.norm fmt).isEmpty = v.isEmpty := by
  cases v <;> simp [GPred.norm, GPred.isEmpty, VE.norm_isEmpty, ShapeOrCol.norm_isEmpty]
theorem Geom.norm_isEmpty (v : Geom) : (v.norm fmt).isEmpty = v.isEmpty := by
  cases v <;> simp [Geom.norm, Geom.isEmpty, GPred.norm_isEmpty]
theorem Where.norm_isEmpty (v : Where) : (v.norm fmt).isEmpty = v.isEmpty := by
  cases v; simp [Where.norm, Where.isEmpty, Geom.norm_isEmpty, SC.norm_isEmpty]
theorem With.norm_isEmpty (v : With) : (v.norm fmt).isEmpty = v.isEmpty := by
  cases v; simp [With.norm, With.isEmpty, Subquery.norm_isEmpty]

theorem upperC_upperC (c : Char) : upperC (upperC c) = upperC c := by
  unfold upperC
  split
  · next h =>
    simp only [Bool.and_eq_true, decide_eq_true_eq] at h
    have hv : (c.toNat - 32).isValidChar := .inl (by omega)
    have : (Char.ofNat (c.toNat - 32)).toNat = c.toNat - 32 := by
      rw [Char.ofNat, dif_pos hv]; rfl
    rw [this, if_neg]
    simp only [Bool.and_eq_true, decide_eq_true_eq]
    omega
  · rfl

theorem upper_twice (s : Str) : upper (upper s) = upper s := by
  simp [upper, upperC_upperC]

theorem SortSpec.norm_print (x : SortSpec) : x.norm.print = x.print := by
  obtain ⟨k, o⟩ := x
  cases k <;> simp [SortSpec.norm, SortSpec.print, ColRef.norm_print]

/-- Formatting a number once is enough. -/
def FmtOnce (fmt : Str → Str) : Prop := ∀ x, fmt (fmt x) = fmt x

variable (hfmt : FmtOnce fmt)
include hfmt

theorem CoordExpr.norm_print (x : CoordExpr) : (x.norm fmt).print fmt = x.print fmt := by
  cases x with
  | bae a o b => simp [CoordExpr.norm, CoordExpr.print, hfmt a, hfmt b]
  | col c => exact c.norm_print
  | num x =>
    simp only [CoordExpr.norm]
    split
    · rfl
    · exact hfmt x

theorem Coord.norm_print (x : Coord) : (x.norm fmt).print fmt = x.print fmt := by
  simp [Coord.norm, Coord.print, CoordExpr.norm_print hfmt]

theorem Point.norm_print (x : Point) : (x.norm fmt).print fmt = x.print fmt := by
  simp [Point.norm, Point.print, Coord.norm_print hfmt]

theorem polyNorm_print (l : List Coord) : printPolyCoords fmt (l.map (Coord.norm fmt)) = printPolyCoords fmt l := by
  induction l with
  | nil => rfl
  | cons c l ih => simp [printPolyCoords, Coord.norm_print hfmt, ih]

theorem Shape.norm_print (x : Shape) : (x.norm fmt).print fmt = x.print fmt := by
  cases x <;> simp [Shape.norm, Shape.print, Point.norm_print hfmt, Coord.norm_print hfmt, CoordExpr.norm_print hfmt, polyNorm_print hfmt]

theorem PointOrCol.norm_print (x : PointOrCol) : (x.norm fmt).print fmt = x.print fmt := by
  cases x <;> simp [PointOrCol.norm, PointOrCol.print, Point.norm_print hfmt, ColRef.norm_print]

theorem ShapeOrCol.norm_print (x : ShapeOrCol) : (x.norm fmt).print fmt = x.print fmt := by
  cases x <;> simp [ShapeOrCol.norm, ShapeOrCol.print, Shape.norm_print hfmt, ColRef.norm_print]

section
mutual

theorem VE.norm_print : ∀ v : VE, (v.norm fmt).print fmt = v.print fmt
  | .nb v => by simp [VE.norm, VE.print, v.norm_print]
  | .sc c => by simp [VE.norm, VE.print, c.norm_print]

theorem VENB.norm_print : ∀ v : VENB, (v.norm fmt).print fmt = v.print fmt
  | .mk f ts => by simp [VENB.norm, VENB.print, f.norm_print, termsNorm_print ts]

theorem termsNorm_print : ∀ l : List Term, printTerms fmt (normTerms fmt l) = printTerms fmt l
  | [] => by simp [normTerms]
  | .mk _ f :: ts => by simp [normTerms, printTerms, Term.norm, Term.print, f.norm_print, termsNorm_print ts]

theorem Factor.norm_print : ∀ v : Factor, (v.norm fmt).print fmt = v.print fmt
  | .mk _ p => by simp [Factor.norm, Factor.print, p.norm_print]

theorem NumPrim.norm_print : ∀ v : NumPrim, (v.norm fmt).print fmt = v.print fmt
  | .vep (.mk p l) => by simp [NumPrim.norm, NumPrim.print, VEP.norm, VEP.print, p.norm_print, idxNorm_print l]
  | .nvf f => by simp [NumPrim.norm, NumPrim.print, f.norm_print]

theorem NumFn.norm_print : ∀ v : NumFn, (v.norm fmt).print fmt = v.print fmt
  | .trig1 _ a => by simp [NumFn.norm, NumFn.print, a.norm_print]
  | .trig2 _ a b => by simp [NumFn.norm, NumFn.print, a.norm_print, b.norm_print]
  | .math0 _ => by simp [NumFn.norm]
  | .math1 _ a => by simp [NumFn.norm, NumFn.print, a.norm_print]
  | .math2 _ a b => by simp [NumFn.norm, NumFn.print, a.norm_print, b.norm_print]
  | .cast a _ _ => by simp [NumFn.norm, NumFn.print, a.norm_print]
  | .geo1 _ _ => by simp [NumFn.norm, NumFn.print, PointOrCol.norm_print hfmt]
  | .geo2 _ _ _ => by simp [NumFn.norm, NumFn.print, PointOrCol.norm_print hfmt]
  | .udf _ l => by simp [NumFn.norm, NumFn.print, vesNorm_print l]
  | .str _ => by simp [NumFn.norm]

theorem vesNorm_print : ∀ l : List VE, printVEs fmt (normVEs fmt l) = printVEs fmt l
  | [] => by simp [normVEs]
  | e :: l => by simp [normVEs, printVEs, e.norm_print, vesNorm_print l]

theorem idxNorm_print : ∀ l : List VE, printIdx fmt (normVEs fmt l) = printIdx fmt l
  | [] => by simp [normVEs]
  | e :: l => by simp [normVEs, printIdx, e.norm_print, idxNorm_print l]

theorem Prim.norm_print : ∀ v : Prim, (v.norm fmt).print fmt = v.print fmt
  | .arr l => by simp [Prim.norm, Prim.print, vesNorm_print l]
  | .str _ => by simp [Prim.norm]
  | .col _ => by simp [Prim.norm, Prim.print, ColRef.norm_print]
  | .countStar _ => by simp [Prim.norm]
  | .setFn _ _ e => by simp [Prim.norm, Prim.print, e.norm_print]
  | .case c => by simp [Prim.norm, Prim.print, c.norm_print]
  | .any e => by simp [Prim.norm, Prim.print, e.norm_print]
  | .sub e => by simp [Prim.norm, Prim.print, e.norm_print]

theorem CaseE.norm_print : ∀ v : CaseE, (v.norm fmt).print fmt = v.print fmt
  | .nullif a b => by simp [CaseE.norm, CaseE.print, a.norm_print, b.norm_print]
  | .coalesce l => by simp [CaseE.norm, CaseE.print, vesNorm_print l]
  | .simple o ws r => by
    simp [CaseE.norm, CaseE.print, o.norm_print, whensNorm_print ws, r.norm_print, CaseResult.norm_isEmpty]
  | .searched ws r => by simp [CaseE.norm, CaseE.print, condsNorm_print ws, r.norm_print, CaseResult.norm_isEmpty]

theorem whensNorm_print : ∀ l : List SimpleWhen, printSimpleWhens fmt (normWhens fmt l) = printSimpleWhens fmt l
  | [] => by simp [normWhens]
  | .mk e r :: l => by simp [normWhens, printSimpleWhens, SimpleWhen.print, e.norm_print, r.norm_print, whensNorm_print l]

theorem condsNorm_print : ∀ l : List SearchedWhen, printSearchedWhens fmt (normConds fmt l) = printSearchedWhens fmt l
  | [] => by simp [normConds]
  | .mk e r :: l => by simp [normConds, printSearchedWhens, SearchedWhen.print, e.norm_print, r.norm_print, condsNorm_print l]

theorem CaseResult.norm_print : ∀ v : CaseResult, (v.norm fmt).print fmt = v.print fmt
  | .str _ => by simp [CaseResult.norm]
  | .ve e => by simp [CaseResult.norm, CaseResult.print, e.norm_print]

theorem SC.norm_print : ∀ v : SC, (v.norm fmt).print fmt = v.print fmt
  | .factor b => by
    have e : (SC.factor (b.norm fmt)).isEmpty = (SC.factor b).isEmpty := b.norm_isEmpty
    cases h : (SC.factor b).isEmpty <;> simp [SC.norm, SC.print, h, e.trans h, b.norm_print]
  | .term b op c => by simp [SC.norm, SC.print, SC.isEmpty, upper_isEmpty, upper_twice, b.norm_print, c.norm_print]

theorem BF.norm_print : ∀ v : BF, (v.norm fmt).print fmt = v.print fmt
  | .mk _ p => by simp [BF.norm, BF.print, p.norm_print]

theorem BP.norm_print : ∀ v : BP, (v.norm fmt).print fmt = v.print fmt
  | .pred p => by simp [BP.norm, BP.print, p.norm_print]
  | .sc c => by simp [BP.norm, BP.print, c.norm_print]
  | .ve v => by simp [BP.norm, BP.print, v.norm_print]

theorem Pred.norm_print : ∀ v : Pred, (v.norm fmt).print fmt = v.print fmt
  | .cmp l _ r => by simp [Pred.norm, Pred.print, l.norm_print, r.norm_print]
  | .between v _ lo hi => by simp [Pred.norm, Pred.print, v.norm_print, lo.norm_print, hi.norm_print]
  | .inSub v n q => by simp only [Pred.norm, Pred.print, v.norm_print, normNot_isEmpty, q.norm_print]
  | .inList v n l => by simp only [Pred.norm, Pred.print, v.norm_print, normNot_isEmpty, vesNorm_print l]
  | .null v n => by simp only [Pred.norm, Pred.print, v.norm_print, normNot_isEmpty]
  | .like v n p => by simp only [Pred.norm, Pred.print, v.norm_print, normNot_isEmpty, p.norm_print]
  | .exist q => by simp [Pred.norm, Pred.print, q.norm_print]

theorem Subquery.norm_print : ∀ v : Subquery, (v.norm fmt).print fmt = v.print fmt
  | .jt j => by simp [Subquery.norm, Subquery.print, j.norm_print]
  | .qs q => by simp [Subquery.norm, Subquery.print, q.norm_print]

theorem JT.norm_print : ∀ v : JT, (v.norm fmt).print fmt = v.print fmt
  | .qj (.mk h l) => by simp [JT.norm, JT.print, QJ.norm, QJ.print, h.norm_print, sufsNorm_print l]
  | .wrap j => by simp [JT.norm, JT.print, j.norm_print]

theorem QJHead.norm_print : ∀ v : QJHead, (v.norm fmt).print fmt = v.print fmt
  | .tc _ => by simp [QJHead.norm]
  | .jt j => by simp [QJHead.norm, QJHead.print, j.norm_print]

theorem sufsNorm_print : ∀ l : List JoinSuffix, printSuffixes fmt (normSuffixes fmt l) = printSuffixes fmt l
  | [] => by simp [normSuffixes]
  | .mk _ _ t sp :: l => by
    simp [normSuffixes, printSuffixes, JoinSuffix.norm, JoinSuffix.print, t.norm_print, sp.norm_isEmpty, sp.norm_print, sufsNorm_print l]

theorem JoinSpec.norm_print : ∀ v : JoinSpec, (v.norm fmt).print fmt = v.print fmt
  | .named _ => by simp [JoinSpec.norm]
  | .on c => by simp [JoinSpec.norm, JoinSpec.print, c.norm_print]

theorem TR.norm_print : ∀ v : TR, (v.norm fmt).print fmt = v.print fmt
  | .tc _ => by simp [TR.norm]
  | .jt j => by simp [TR.norm, TR.print, j.norm_print]
  | .derived q _ => by simp [TR.norm, TR.print, q.norm_print]
  | .tvf .. => by simp [TR.norm]

theorem GPred.norm_print : ∀ v : GPred, (v.norm fmt).print fmt = v.print fmt
  | .intersects e s => by simp [GPred.norm, GPred.print, e.norm_print, ShapeOrCol.norm_print hfmt]
  | .contains .. => by simp [GPred.norm, GPred.print, ShapeOrCol.norm_print hfmt]

theorem Geom.norm_print : ∀ v : Geom, (v.norm fmt).print fmt = v.print fmt
  | .left _ p => by simp [Geom.norm, Geom.print, Geom.isEmpty, p.norm_isEmpty, p.norm_print]
  | .right p _ => by simp [Geom.norm, Geom.print, Geom.isEmpty, p.norm_isEmpty, p.norm_print]

theorem Where.norm_print : ∀ v : Where, (v.norm fmt).print fmt = v.print fmt
  | .mk g c => by simp [Where.norm, Where.print, g.norm_isEmpty, c.norm_isEmpty, g.norm_print, c.norm_print]

theorem itemsNorm_print : ∀ l : List Item, printItems fmt (normItems fmt l) = printItems fmt l
  | [] => by simp [normItems]
  | .as e _ :: l => by simp [normItems, printItems, Item.norm, Item.print, e.norm_print, itemsNorm_print l]
  | .nonAsStr _ :: l => by simp [normItems, printItems, Item.norm, Item.print, itemsNorm_print l]
  | .nonAsVE e :: l => by simp [normItems, printItems, Item.norm, Item.print, e.norm_print, itemsNorm_print l]

theorem Select.norm_print : ∀ v : Select, (v.norm fmt).print fmt = v.print fmt
  | .mk _ _ (.star _) => by simp [Select.norm, Columns.norm]
  | .mk _ _ (.items l) => by simp [Select.norm, Select.print, Columns.norm, Columns.print, itemsNorm_print l]

theorem trsNorm_print : ∀ l : List TR, printTRs fmt (normTRs fmt l) = printTRs fmt l
  | [] => by simp [normTRs]
  | t :: l => by simp [normTRs, printTRs, t.norm_print, trsNorm_print l]

theorem SFW.norm_print : ∀ v : SFW, (v.norm fmt).print fmt = v.print fmt
  | .mk s ts w => by simp [SFW.norm, SFW.print, s.norm_print, trsNorm_print ts, w.norm_isEmpty, w.norm_print]

theorem addonsNorm_print : ∀ l : List Addon, printAddons fmt (normAddons fmt l) = printAddons fmt l
  | [] => by simp [normAddons]
  | .mk op x :: l => by simp [normAddons, printAddons, Addon.norm, Addon.print, upper_twice, x.norm_print, addonsNorm_print l]

theorem groupNorm_print : ∀ l : List GroupTerm, printGroup fmt (normGroup fmt l) = printGroup fmt l
  | [] => by simp [normGroup]
  | .col _ :: l => by simp [normGroup, printGroup, GroupTerm.norm, GroupTerm.print, ColRef.norm_print, groupNorm_print l]
  | .ve e :: l => by simp [normGroup, printGroup, GroupTerm.norm, GroupTerm.print, e.norm_print, groupNorm_print l]

theorem QuerySpec.norm_print : ∀ v : QuerySpec, (v.norm fmt).print fmt = v.print fmt
  | .mk (.mk n cs q) (.mk i as) g h o => by
    have e : (With.mk n cs (q.norm fmt)).isEmpty = (With.mk n cs q).isEmpty := With.norm_isEmpty (.mk n cs q)
    have e' : List.map SortSpec.print (List.map SortSpec.norm o) = List.map SortSpec.print o := by
      rw [List.map_map]; exact List.map_congr_left fun x _ => x.norm_print
    simp only [QuerySpec.norm, QuerySpec.print, With.norm, With.print, SFWList.norm, SFWList.print, e, e', q.norm_print, i.norm_print,
      addonsNorm_print as, normGroup_isEmpty, groupNorm_print g, h.norm_isEmpty, h.norm_print, List.isEmpty_map]

end
end

end Adql
