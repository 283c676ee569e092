import Verif.Spec.Uses
import Verif.Model.Normal

/-!
# Lemmas about the names that a query uses
-/

namespace Adql

open Spec

variable {fmt : Str → Str}

theorem ColRef.norm_uses (c : ColRef) : c.norm.uses = c.uses := by rw [ColRef.uses, ColRef.norm_print, ColRef.uses]

theorem sorts_norm (l : List SortSpec) : (l.map SortSpec.norm).flatMap SortSpec.uses = l.flatMap SortSpec.uses := by
  rw [List.flatMap_map]
  congr 1
  funext x
  obtain ⟨k | c, o⟩ := x
  · rfl
  · exact c.norm_uses

section
variable (hfmt : FmtOnce fmt)
include hfmt

theorem CoordExpr.norm_uses (x : CoordExpr) : (x.norm fmt).uses fmt = x.uses fmt := by
  cases x with
  | bae => rfl
  | col c => exact c.norm_uses
  | num x =>
    by_cases h : writtenAsWord (fmt x)
    · simp only [CoordExpr.norm, CoordExpr.uses, h, if_true, ColRef.uses, ColRef.print]
    · simp only [CoordExpr.norm, h, if_false, CoordExpr.uses, hfmt x]

theorem Coord.norm_uses (c : Coord) : (c.norm fmt).uses fmt = c.uses fmt := by
  simp only [Coord.norm, Coord.uses, CoordExpr.norm_uses hfmt]

theorem Point.norm_uses (p : Point) : (p.norm fmt).uses fmt = p.uses fmt := Coord.norm_uses hfmt p.coord

theorem Shape.norm_uses (s : Shape) : (s.norm fmt).uses fmt = s.uses fmt := by
  cases s with
  | polygon s cs =>
    simp only [Shape.norm, Shape.uses, List.flatMap_map]
    congr 1
    funext c
    exact Coord.norm_uses hfmt c
  | _ => simp only [Shape.norm, Shape.uses, Point.norm_uses hfmt, Coord.norm_uses hfmt, CoordExpr.norm_uses hfmt]

theorem PointOrCol.norm_uses (x : PointOrCol) : (x.norm fmt).uses fmt = x.uses fmt := by
  cases x <;> simp only [PointOrCol.norm, PointOrCol.uses, Point.norm_uses hfmt, ColRef.norm_uses]

theorem ShapeOrCol.norm_uses (x : ShapeOrCol) : (x.norm fmt).uses fmt = x.uses fmt := by
  cases x <;> simp only [ShapeOrCol.norm, ShapeOrCol.uses, Shape.norm_uses hfmt, ColRef.norm_uses]

mutual

theorem VE.norm_uses : ∀ v : VE, (v.norm fmt).uses fmt = v.uses fmt
  | .nb v => by simp only [VE.uses, VE.norm, v.norm_uses]
  | .sc s => by simp only [VE.uses, VE.norm, s.norm_uses]

theorem VENB.norm_uses : ∀ v : VENB, (v.norm fmt).uses fmt = v.uses fmt
  | .mk f ts => by simp only [VENB.uses, VENB.norm, f.norm_uses, usesTerms_norm ts]

theorem usesTerms_norm : ∀ l : List Term, usesTerms fmt (normTerms fmt l) = usesTerms fmt l
  | [] => by simp only [usesTerms, normTerms]
  | t :: ts => by simp only [usesTerms, normTerms, t.norm_uses, usesTerms_norm ts]

theorem Term.norm_uses : ∀ v : Term, (v.norm fmt).uses fmt = v.uses fmt
  | .mk _ f => by simp only [Term.uses, Term.norm, f.norm_uses]

theorem Factor.norm_uses : ∀ v : Factor, (v.norm fmt).uses fmt = v.uses fmt
  | .mk _ np => by simp only [Factor.uses, Factor.norm, np.norm_uses]

theorem NumPrim.norm_uses : ∀ v : NumPrim, (v.norm fmt).uses fmt = v.uses fmt
  | .vep v => by simp only [NumPrim.uses, NumPrim.norm, v.norm_uses]
  | .nvf f => by simp only [NumPrim.uses, NumPrim.norm, f.norm_uses]

theorem NumFn.norm_uses : ∀ v : NumFn, (v.norm fmt).uses fmt = v.uses fmt
  | .trig1 fn a => by simp only [NumFn.uses, NumFn.norm, a.norm_uses]
  | .trig2 fn a b => by simp only [NumFn.uses, NumFn.norm, a.norm_uses, b.norm_uses]
  | .math0 fn => by simp only [NumFn.uses, NumFn.norm]
  | .math1 fn a => by simp only [NumFn.uses, NumFn.norm, a.norm_uses]
  | .math2 fn a b => by simp only [NumFn.uses, NumFn.norm, a.norm_uses, b.norm_uses]
  | .cast e _ _ => by simp only [NumFn.uses, NumFn.norm, e.norm_uses]
  | .geo1 fn p => by simp only [NumFn.uses, NumFn.norm, PointOrCol.norm_uses hfmt]
  | .geo2 fn p q => by simp only [NumFn.uses, NumFn.norm, PointOrCol.norm_uses hfmt]
  | .udf fn args => by simp only [NumFn.uses, NumFn.norm, usesVEs_norm args]
  | .str s => by simp only [NumFn.uses, NumFn.norm]

theorem usesVEs_norm : ∀ l : List VE, usesVEs fmt (normVEs fmt l) = usesVEs fmt l
  | [] => by simp only [usesVEs, normVEs]
  | e :: es => by simp only [usesVEs, normVEs, e.norm_uses, usesVEs_norm es]

theorem VEP.norm_uses : ∀ v : VEP, (v.norm fmt).uses fmt = v.uses fmt
  | .mk v idx => by simp only [VEP.uses, VEP.norm, v.norm_uses, usesVEs_norm idx]

theorem Prim.norm_uses : ∀ v : Prim, (v.norm fmt).uses fmt = v.uses fmt
  | .arr vs => by simp only [Prim.uses, Prim.norm, usesVEs_norm vs]
  | .str _ => by simp only [Prim.uses, Prim.norm]
  | .col c => by simp only [Prim.uses, Prim.norm, ColRef.norm_uses]
  | .countStar _ => by simp only [Prim.uses, Prim.norm]
  | .setFn fn _ e => by simp only [Prim.uses, Prim.norm, e.norm_uses]
  | .case c => by simp only [Prim.uses, Prim.norm, c.norm_uses]
  | .any e => by simp only [Prim.uses, Prim.norm, e.norm_uses]
  | .sub e => by simp only [Prim.uses, Prim.norm, e.norm_uses]

theorem CaseE.norm_uses : ∀ v : CaseE, (v.norm fmt).uses fmt = v.uses fmt
  | .nullif a b => by simp only [CaseE.uses, CaseE.norm, a.norm_uses, b.norm_uses]
  | .coalesce l => by simp only [CaseE.uses, CaseE.norm, usesVEs_norm l]
  | .simple o ws els => by simp only [CaseE.uses, CaseE.norm, o.norm_uses, els.norm_uses, usesWhens_norm ws]
  | .searched ws els => by simp only [CaseE.uses, CaseE.norm, els.norm_uses, usesConds_norm ws]

theorem usesWhens_norm : ∀ l : List SimpleWhen, usesWhens fmt (normWhens fmt l) = usesWhens fmt l
  | [] => by simp only [usesWhens, normWhens]
  | .mk e r :: ws => by simp only [usesWhens, normWhens, e.norm_uses, r.norm_uses, usesWhens_norm ws]

theorem usesConds_norm : ∀ l : List SearchedWhen, usesConds fmt (normConds fmt l) = usesConds fmt l
  | [] => by simp only [usesConds, normConds]
  | .mk c r :: ws => by simp only [usesConds, normConds, c.norm_uses, r.norm_uses, usesConds_norm ws]

theorem CaseResult.norm_uses : ∀ v : CaseResult, (v.norm fmt).uses fmt = v.uses fmt
  | .str _ => by simp only [CaseResult.uses, CaseResult.norm]
  | .ve e => by simp only [CaseResult.uses, CaseResult.norm, e.norm_uses]

theorem SC.norm_uses : ∀ v : SC, (v.norm fmt).uses fmt = v.uses fmt
  | .factor b => by simp only [SC.uses, SC.norm, b.norm_uses]
  | .term b _ s => by simp only [SC.uses, SC.norm, b.norm_uses, s.norm_uses]

theorem BF.norm_uses : ∀ v : BF, (v.norm fmt).uses fmt = v.uses fmt
  | .mk _ p => by simp only [BF.uses, BF.norm, p.norm_uses]

theorem BP.norm_uses : ∀ v : BP, (v.norm fmt).uses fmt = v.uses fmt
  | .pred p => by simp only [BP.uses, BP.norm, p.norm_uses]
  | .sc s => by simp only [BP.uses, BP.norm, s.norm_uses]
  | .ve v => by simp only [BP.uses, BP.norm, v.norm_uses]

theorem Pred.norm_uses : ∀ v : Pred, (v.norm fmt).uses fmt = v.uses fmt
  | .cmp l _ r => by simp only [Pred.uses, Pred.norm, l.norm_uses, r.norm_uses]
  | .between v _ lo hi => by simp only [Pred.uses, Pred.norm, v.norm_uses, lo.norm_uses, hi.norm_uses]
  | .inSub v _ q => by simp only [Pred.uses, Pred.norm, v.norm_uses, q.norm_uses]
  | .inList v _ vs => by simp only [Pred.uses, Pred.norm, v.norm_uses, usesVEs_norm vs]
  | .null v _ => by simp only [Pred.uses, Pred.norm, v.norm_uses]
  | .like v _ p => by simp only [Pred.uses, Pred.norm, v.norm_uses, p.norm_uses]
  | .exist q => by simp only [Pred.uses, Pred.norm, q.norm_uses]

theorem Subquery.norm_uses : ∀ v : Subquery, (v.norm fmt).uses fmt = v.uses fmt
  | .jt j => by simp only [Subquery.uses, Subquery.norm, j.norm_uses]
  | .qs q => by simp only [Subquery.uses, Subquery.norm, q.norm_uses]

theorem JT.norm_uses : ∀ v : JT, (v.norm fmt).uses fmt = v.uses fmt
  | .qj q => by simp only [JT.uses, JT.norm, q.norm_uses]
  | .wrap j => by simp only [JT.uses, JT.norm, j.norm_uses]

theorem QJ.norm_uses : ∀ v : QJ, (v.norm fmt).uses fmt = v.uses fmt
  | .mk h ss => by simp only [QJ.uses, QJ.norm, h.norm_uses, usesSuffixes_norm ss]

theorem QJHead.norm_uses : ∀ v : QJHead, (v.norm fmt).uses fmt = v.uses fmt
  | .tc t => by simp only [QJHead.uses, QJHead.norm]
  | .jt j => by simp only [QJHead.uses, QJHead.norm, j.norm_uses]

theorem usesSuffixes_norm : ∀ l : List JoinSuffix, usesSuffixes fmt (normSuffixes fmt l) = usesSuffixes fmt l
  | [] => by simp only [usesSuffixes, normSuffixes]
  | s :: ss => by simp only [usesSuffixes, normSuffixes, s.norm_uses, usesSuffixes_norm ss]

theorem JoinSuffix.norm_uses : ∀ v : JoinSuffix, (v.norm fmt).uses fmt = v.uses fmt
  | .mk _ _ t sp => by simp only [JoinSuffix.uses, JoinSuffix.norm, t.norm_uses, sp.norm_uses]

theorem JoinSpec.norm_uses : ∀ v : JoinSpec, (v.norm fmt).uses fmt = v.uses fmt
  | .named l => by simp only [JoinSpec.uses, JoinSpec.norm]
  | .on s => by simp only [JoinSpec.uses, JoinSpec.norm, s.norm_uses]

theorem TR.norm_uses : ∀ v : TR, (v.norm fmt).uses fmt = v.uses fmt
  | .tc t => by simp only [TR.uses, TR.norm]
  | .jt j => by simp only [TR.uses, TR.norm, j.norm_uses]
  | .derived q _ => by simp only [TR.uses, TR.norm, q.norm_uses]
  | .tvf n _ => by simp only [TR.uses, TR.norm]

theorem GPred.norm_uses : ∀ v : GPred, (v.norm fmt).uses fmt = v.uses fmt
  | .intersects e s => by simp only [GPred.uses, GPred.norm, e.norm_uses, ShapeOrCol.norm_uses hfmt]
  | .contains l r => by simp only [GPred.uses, GPred.norm, ShapeOrCol.norm_uses hfmt]

theorem Geom.norm_uses : ∀ v : Geom, (v.norm fmt).uses fmt = v.uses fmt
  | .left _ p => by simp only [Geom.uses, Geom.norm, p.norm_uses]
  | .right p _ => by simp only [Geom.uses, Geom.norm, p.norm_uses]

theorem Where.norm_uses : ∀ v : Where, (v.norm fmt).uses fmt = v.uses fmt
  | .mk g s => by simp only [Where.uses, Where.norm, g.norm_uses, s.norm_uses]

theorem Item.norm_uses : ∀ v : Item, (v.norm fmt).uses fmt = v.uses fmt
  | .as e _ => by simp only [Item.uses, Item.norm, e.norm_uses]
  | .nonAsStr s => by simp only [Item.uses, Item.norm]
  | .nonAsVE e => by simp only [Item.uses, Item.norm, e.norm_uses]

theorem usesItems_norm : ∀ l : List Item, usesItems fmt (normItems fmt l) = usesItems fmt l
  | [] => by simp only [usesItems, normItems]
  | i :: is => by simp only [usesItems, normItems, i.norm_uses, usesItems_norm is]

theorem Columns.norm_uses : ∀ v : Columns, (v.norm fmt).uses fmt = v.uses fmt
  | .star s => by simp only [Columns.uses, Columns.norm]
  | .items l => by simp only [Columns.uses, Columns.norm, usesItems_norm l]

theorem Select.norm_uses : ∀ v : Select, (v.norm fmt).uses fmt = v.uses fmt
  | .mk _ _ c => by simp only [Select.uses, Select.norm, c.norm_uses]

theorem usesTRs_norm : ∀ l : List TR, usesTRs fmt (normTRs fmt l) = usesTRs fmt l
  | [] => by simp only [usesTRs, normTRs]
  | t :: ts => by simp only [usesTRs, normTRs, t.norm_uses, usesTRs_norm ts]

theorem SFW.norm_uses : ∀ v : SFW, (v.norm fmt).uses fmt = v.uses fmt
  | .mk s ts w => by simp only [SFW.uses, SFW.norm, s.norm_uses, w.norm_uses, usesTRs_norm ts]

theorem Addon.norm_uses : ∀ v : Addon, (v.norm fmt).uses fmt = v.uses fmt
  | .mk _ s => by simp only [Addon.uses, Addon.norm, s.norm_uses]

theorem usesAddons_norm : ∀ l : List Addon, usesAddons fmt (normAddons fmt l) = usesAddons fmt l
  | [] => by simp only [usesAddons, normAddons]
  | a :: as => by simp only [usesAddons, normAddons, a.norm_uses, usesAddons_norm as]

theorem SFWList.norm_uses : ∀ v : SFWList, (v.norm fmt).uses fmt = v.uses fmt
  | .mk i as => by simp only [SFWList.uses, SFWList.norm, i.norm_uses, usesAddons_norm as]

theorem GroupTerm.norm_uses : ∀ v : GroupTerm, (v.norm fmt).uses fmt = v.uses fmt
  | .col c => by simp only [GroupTerm.uses, GroupTerm.norm, ColRef.norm_uses]
  | .ve e => by simp only [GroupTerm.uses, GroupTerm.norm, e.norm_uses]

theorem usesGroup_norm : ∀ l : List GroupTerm, usesGroup fmt (normGroup fmt l) = usesGroup fmt l
  | [] => by simp only [usesGroup, normGroup]
  | g :: gs => by simp only [usesGroup, normGroup, g.norm_uses, usesGroup_norm gs]

theorem With.norm_uses : ∀ v : With, (v.norm fmt).uses fmt = v.uses fmt
  | .mk _ _ q => by simp only [With.uses, With.norm, q.norm_uses]

theorem QuerySpec.norm_uses : ∀ v : QuerySpec, (v.norm fmt).uses fmt = v.uses fmt
  | .mk w l g h o => by simp only [QuerySpec.uses, QuerySpec.norm, w.norm_uses, l.norm_uses, h.norm_uses, usesGroup_norm g, sorts_norm]
end

end

/-! ### What a query uses is what the nodes of its tree name -/

/-- The same for a whole tree. -/
def nodeUses (fmt : Str → Str) : Node → List Used
  | .ve x => x.uses fmt
  | .venb x => x.uses fmt
  | .term x => x.uses fmt
  | .factor x => x.uses fmt
  | .numPrim x => x.uses fmt
  | .numFn x => x.uses fmt
  | .vep x => x.uses fmt
  | .prim x => x.uses fmt
  | .caseE x => x.uses fmt
  | .simpleWhen (.mk e r) => e.uses fmt ++ r.uses fmt
  | .searchedWhen (.mk c r) => c.uses fmt ++ r.uses fmt
  | .result x => x.uses fmt
  | .sc x => x.uses fmt
  | .bf x => x.uses fmt
  | .bp x => x.uses fmt
  | .pred x => x.uses fmt
  | .subq x => x.uses fmt
  | .jt x => x.uses fmt
  | .qj x => x.uses fmt
  | .head x => x.uses fmt
  | .suffix x => x.uses fmt
  | .spec x => x.uses fmt
  | .tr x => x.uses fmt
  | .gpred x => x.uses fmt
  | .geom x => x.uses fmt
  | .where_ x => x.uses fmt
  | .item x => x.uses fmt
  | .columns x => x.uses fmt
  | .select x => x.uses fmt
  | .sfw x => x.uses fmt
  | .addon x => x.uses fmt
  | .sfwList x => x.uses fmt
  | .group x => x.uses fmt
  | .with_ x => x.uses fmt
  | .query x => x.uses fmt
  | .sort x => x.uses
  | .tcorr x => x.uses
  | .colRef x => x.uses
  | .coordExpr x => x.uses fmt
  | .coord x => x.uses fmt
  | .point x => x.uses fmt
  | .shape x => x.uses fmt
  | .pointOrCol x => x.uses fmt
  | .shapeOrCol x => x.uses fmt

variable {u : Used}

theorem Spec.Names.up {n c : Node} (hc : Node.child n c) : Names fmt u c → Names fmt u n
  | ⟨m, hm, h⟩ => ⟨m, .step hc hm, h⟩

theorem Spec.Names.own {n : Node} (h : u ∈ own fmt n) : Names fmt u n := ⟨n, .refl n, h⟩

set_option linter.unusedSimpArgs false

theorem ColRef.uses_names (c : ColRef) (h : u ∈ c.uses) : Names fmt u (.colRef c) := .own h

theorem SortSpec.uses_names : ∀ x : SortSpec, u ∈ x.uses → Names fmt u (.sort x)
  | ⟨.inl _, _⟩, h => by cases h
  | ⟨.inr c, _⟩, h => .up rfl (c.uses_names h)

theorem CoordExpr.uses_names : ∀ x : CoordExpr, u ∈ x.uses fmt → Names fmt u (.coordExpr x)
  | .bae _ _ _, h => by cases h
  | .col c, h => .up rfl (c.uses_names h)
  | .num _, h => .own h

theorem Coord.uses_names (c : Coord) (h : u ∈ c.uses fmt) : Names fmt u (.coord c) := by
  rcases List.mem_append.1 h with h | h
  · exact .up (.inl rfl) (CoordExpr.uses_names _ h)
  · exact .up (.inr rfl) (CoordExpr.uses_names _ h)

theorem Point.uses_names (p : Point) (h : u ∈ p.uses fmt) : Names fmt u (.point p) := .up rfl (Coord.uses_names _ h)

theorem Shape.uses_names : ∀ x : Shape, u ∈ x.uses fmt → Names fmt u (.shape x)
  | .point p, h => .up rfl (p.uses_names h)
  | .circle _ c r, h => by
    simp only [Shape.uses, List.mem_append] at h
    rcases h with h | h
    · exact .up (.inl rfl) (c.uses_names h)
    · exact .up (.inr rfl) (r.uses_names h)
  | .box _ c v w, h => by
    simp only [Shape.uses, List.mem_append, or_assoc] at h
    rcases h with h | h | h
    · exact .up (.inl rfl) (c.uses_names h)
    · exact .up (.inr (.inl rfl)) (v.uses_names h)
    · exact .up (.inr (.inr rfl)) (w.uses_names h)
  | .ellipse _ c a b r, h => by
    simp only [Shape.uses, List.mem_append, or_assoc] at h
    rcases h with h | h | h | h
    · exact .up (.inl rfl) (c.uses_names h)
    · exact .up (.inr (.inl rfl)) (a.uses_names h)
    · exact .up (.inr (.inr (.inl rfl))) (b.uses_names h)
    · exact .up (.inr (.inr (.inr rfl))) (r.uses_names h)
  | .polygon _ cs, h => by
    obtain ⟨c, hc, h⟩ := List.mem_flatMap.1 h
    exact .up ⟨c, hc, rfl⟩ (c.uses_names h)

theorem geom_uses_dflt {g : Geom} (h : u ∈ g.uses fmt) : g ≠ Geom.dflt := by
  rintro rfl
  simp [Geom.dflt, Geom.uses, GPred.uses, VE.dflt, VENB.dflt, VE.uses, VENB.uses, usesTerms, Factor.uses, NumPrim.uses, VEP.dflt, VEP.uses,
    Prim.uses, usesVEs, ShapeOrCol.uses, Shape.uses, Point.uses, Coord.uses, CoordExpr.uses] at h

theorem sc_uses_dflt {s : SC} (h : u ∈ s.uses fmt) : s ≠ SC.dflt := by
  rintro rfl
  simp [SC.dflt, SC.uses, BF.uses, BP.uses, Pred.uses, VE.dflt, VENB.dflt, VE.uses, VENB.uses, usesTerms, Factor.uses, NumPrim.uses, VEP.dflt,
    VEP.uses, Prim.uses, usesVEs] at h

theorem where_uses_dflt {w : Where} (h : u ∈ w.uses fmt) : w ≠ Where.dflt := by
  rintro rfl
  simp only [Where.dflt, Where.uses, List.mem_append] at h
  rcases h with h | h
  · exact geom_uses_dflt h rfl
  · exact sc_uses_dflt h rfl

theorem with_uses_dflt {w : With} (h : u ∈ w.uses fmt) : w ≠ With.dflt := by
  rintro rfl
  simp [With.dflt, With.uses, Subquery.dflt, Subquery.uses, JT.uses, QJ.uses, QJHead.uses, usesSuffixes, TableCorr.uses] at h

theorem result_uses_dflt {r : CaseResult} (h : u ∈ r.uses fmt) : r ≠ CaseResult.dflt := by
  rintro rfl
  simp [CaseResult.dflt, CaseResult.uses] at h

theorem spec_uses_dflt {s : JoinSpec} (h : u ∈ s.uses fmt) : s ≠ JoinSpec.dflt := by
  rintro rfl
  simp [JoinSpec.dflt, JoinSpec.uses] at h

theorem PointOrCol.uses_names : ∀ x : PointOrCol, u ∈ x.uses fmt → Names fmt u (.pointOrCol x)
  | .point p, h => .up rfl (p.uses_names h)
  | .col c, h => .up rfl (c.uses_names h)

theorem ShapeOrCol.uses_names : ∀ x : ShapeOrCol, u ∈ x.uses fmt → Names fmt u (.shapeOrCol x)
  | .shape s, h => .up rfl (s.uses_names h)
  | .col c, h => .up rfl (c.uses_names h)

mutual

theorem VE.uses_names : ∀ v : VE, u ∈ v.uses fmt → Names fmt u (.ve v)
  | .nb v, h => by
    simp only [VE.uses, List.mem_append, List.mem_cons, or_assoc] at h
    exact .up (by simp [Node.child]) (v.uses_names h)
  | .sc s, h => by
    simp only [VE.uses, List.mem_append, List.mem_cons, or_assoc] at h
    exact .up (by simp [Node.child]) (s.uses_names h)

theorem VENB.uses_names : ∀ v : VENB, u ∈ v.uses fmt → Names fmt u (.venb v)
  | .mk f ts, h => by
    simp only [VENB.uses, List.mem_append, List.mem_cons, or_assoc] at h
    rcases h with h | h
    · exact .up (by simp [Node.child]) (f.uses_names h)
    · obtain ⟨x, hx, h⟩ := usesTerms_names ts h
      exact .up (by simp [Node.child, hx]) h

theorem usesTerms_names : ∀ l : List Term, u ∈ usesTerms fmt l → ∃ x ∈ l, Names fmt u (.term x)
  | [], h => by simp only [usesTerms] at h; cases h
  | a :: l, h => by
    simp only [usesTerms, List.mem_append] at h
    rcases h with h | h
    · exact ⟨a, List.mem_cons_self, a.uses_names h⟩
    · obtain ⟨x, hx, h⟩ := usesTerms_names l h
      exact ⟨x, List.mem_cons_of_mem _ hx, h⟩

theorem Term.uses_names : ∀ v : Term, u ∈ v.uses fmt → Names fmt u (.term v)
  | .mk _ f, h => by
    simp only [Term.uses, List.mem_append, List.mem_cons, or_assoc] at h
    exact .up (by simp [Node.child]) (f.uses_names h)

theorem Factor.uses_names : ∀ v : Factor, u ∈ v.uses fmt → Names fmt u (.factor v)
  | .mk _ np, h => by
    simp only [Factor.uses, List.mem_append, List.mem_cons, or_assoc] at h
    exact .up (by simp [Node.child]) (np.uses_names h)

theorem NumPrim.uses_names : ∀ v : NumPrim, u ∈ v.uses fmt → Names fmt u (.numPrim v)
  | .vep v, h => by
    simp only [NumPrim.uses, List.mem_append, List.mem_cons, or_assoc] at h
    exact .up (by simp [Node.child]) (v.uses_names h)
  | .nvf f, h => by
    simp only [NumPrim.uses, List.mem_append, List.mem_cons, or_assoc] at h
    exact .up (by simp [Node.child]) (f.uses_names h)

theorem NumFn.uses_names : ∀ v : NumFn, u ∈ v.uses fmt → Names fmt u (.numFn v)
  | .trig1 fn a, h => by
    simp only [NumFn.uses, List.mem_append, List.mem_cons, or_assoc] at h
    rcases h with h | h
    · exact .own (by simp [own, h])
    · exact .up (by simp [Node.child]) (a.uses_names h)
  | .trig2 fn a b, h => by
    simp only [NumFn.uses, List.mem_append, List.mem_cons, or_assoc] at h
    rcases h with h | h | h
    · exact .own (by simp [own, h])
    · exact .up (by simp [Node.child]) (a.uses_names h)
    · exact .up (by simp [Node.child]) (b.uses_names h)
  | .math0 fn, h => by simp only [NumFn.uses] at h; exact .own h
  | .math1 fn a, h => by
    simp only [NumFn.uses, List.mem_append, List.mem_cons, or_assoc] at h
    rcases h with h | h
    · exact .own (by simp [own, h])
    · exact .up (by simp [Node.child]) (a.uses_names h)
  | .math2 fn a b, h => by
    simp only [NumFn.uses, List.mem_append, List.mem_cons, or_assoc] at h
    rcases h with h | h | h
    · exact .own (by simp [own, h])
    · exact .up (by simp [Node.child]) (a.uses_names h)
    · exact .up (by simp [Node.child]) (b.uses_names h)
  | .cast e _ _, h => by
    simp only [NumFn.uses, List.mem_append, List.mem_cons, or_assoc] at h
    rcases h with h | h
    · exact .own (by simp [own, h])
    · exact .up (by simp [Node.child]) (e.uses_names h)
  | .geo1 fn p, h => by
    simp only [NumFn.uses, List.mem_append, List.mem_cons, or_assoc] at h
    rcases h with h | h
    · exact .own (by simp [own, h])
    · exact .up (by simp [Node.child]) (p.uses_names h)
  | .geo2 fn p q, h => by
    simp only [NumFn.uses, List.mem_append, List.mem_cons, or_assoc] at h
    rcases h with h | h | h
    · exact .own (by simp [own, h])
    · exact .up (by simp [Node.child]) (p.uses_names h)
    · exact .up (by simp [Node.child]) (q.uses_names h)
  | .udf fn args, h => by
    simp only [NumFn.uses, List.mem_append, List.mem_cons, or_assoc] at h
    rcases h with h | h
    · exact .own (by simp [own, h])
    · obtain ⟨x, hx, h⟩ := usesVEs_names args h
      exact .up (by simp [Node.child, hx]) h
  | .str s, h => by simp only [NumFn.uses] at h; exact .own h

theorem usesVEs_names : ∀ l : List VE, u ∈ usesVEs fmt l → ∃ x ∈ l, Names fmt u (.ve x)
  | [], h => by simp only [usesVEs] at h; cases h
  | a :: l, h => by
    simp only [usesVEs, List.mem_append] at h
    rcases h with h | h
    · exact ⟨a, List.mem_cons_self, a.uses_names h⟩
    · obtain ⟨x, hx, h⟩ := usesVEs_names l h
      exact ⟨x, List.mem_cons_of_mem _ hx, h⟩

theorem VEP.uses_names : ∀ v : VEP, u ∈ v.uses fmt → Names fmt u (.vep v)
  | .mk v idx, h => by
    simp only [VEP.uses, List.mem_append, List.mem_cons, or_assoc] at h
    rcases h with h | h
    · exact .up (by simp [Node.child]) (v.uses_names h)
    · obtain ⟨x, hx, h⟩ := usesVEs_names idx h
      exact .up (by simp [Node.child, hx]) h

theorem Prim.uses_names : ∀ v : Prim, u ∈ v.uses fmt → Names fmt u (.prim v)
  | .arr vs, h => by
    simp only [Prim.uses, List.mem_append, List.mem_cons, or_assoc] at h
    obtain ⟨x, hx, h⟩ := usesVEs_names vs h
    exact .up (by simp [Node.child, hx]) h
  | .str _, h => by simp only [Prim.uses] at h; cases h
  | .col c, h => by
    simp only [Prim.uses, List.mem_append, List.mem_cons, or_assoc] at h
    exact .up (by simp [Node.child]) (c.uses_names h)
  | .countStar _, h => by simp only [Prim.uses] at h; exact .own h
  | .setFn fn _ e, h => by
    simp only [Prim.uses, List.mem_append, List.mem_cons, or_assoc] at h
    rcases h with h | h
    · exact .own (by simp [own, h])
    · exact .up (by simp [Node.child]) (e.uses_names h)
  | .case c, h => by
    simp only [Prim.uses, List.mem_append, List.mem_cons, or_assoc] at h
    exact .up (by simp [Node.child]) (c.uses_names h)
  | .any e, h => by
    simp only [Prim.uses, List.mem_append, List.mem_cons, or_assoc] at h
    exact .up (by simp [Node.child]) (e.uses_names h)
  | .sub e, h => by
    simp only [Prim.uses, List.mem_append, List.mem_cons, or_assoc] at h
    exact .up (by simp [Node.child]) (e.uses_names h)

theorem CaseE.uses_names : ∀ v : CaseE, u ∈ v.uses fmt → Names fmt u (.caseE v)
  | .nullif a b, h => by
    simp only [CaseE.uses, List.mem_append, List.mem_cons, or_assoc] at h
    rcases h with h | h
    · exact .up (by simp [Node.child]) (a.uses_names h)
    · exact .up (by simp [Node.child]) (b.uses_names h)
  | .coalesce l, h => by
    simp only [CaseE.uses, List.mem_append, List.mem_cons, or_assoc] at h
    obtain ⟨x, hx, h⟩ := usesVEs_names l h
    exact .up (by simp [Node.child, hx]) h
  | .simple o ws els, h => by
    simp only [CaseE.uses, List.mem_append, List.mem_cons, or_assoc] at h
    rcases h with h | h | h
    · exact .up (by simp [Node.child]) (o.uses_names h)
    · obtain ⟨x, hx, h⟩ := usesWhens_names ws h
      exact .up (by simp [Node.child, hx]) h
    · have hd := result_uses_dflt h
      exact .up (by simp [Node.child, hd]) (els.uses_names h)
  | .searched ws els, h => by
    simp only [CaseE.uses, List.mem_append, List.mem_cons, or_assoc] at h
    rcases h with h | h
    · obtain ⟨x, hx, h⟩ := usesConds_names ws h
      exact .up (by simp [Node.child, hx]) h
    · have hd := result_uses_dflt h
      exact .up (by simp [Node.child, hd]) (els.uses_names h)

theorem usesWhens_names : ∀ l : List SimpleWhen, u ∈ usesWhens fmt l → ∃ x ∈ l, Names fmt u (.simpleWhen x)
  | [], h => by simp only [usesWhens] at h; cases h
  | .mk e r :: ws, h => by
    simp only [usesWhens, List.mem_append, or_assoc] at h
    rcases h with h | h | h
    · exact ⟨_, List.mem_cons_self, .up (.inl rfl) (e.uses_names h)⟩
    · exact ⟨_, List.mem_cons_self, .up (.inr rfl) (r.uses_names h)⟩
    · obtain ⟨x, hx, h⟩ := usesWhens_names ws h
      exact ⟨x, List.mem_cons_of_mem _ hx, h⟩

theorem usesConds_names : ∀ l : List SearchedWhen, u ∈ usesConds fmt l → ∃ x ∈ l, Names fmt u (.searchedWhen x)
  | [], h => by simp only [usesConds] at h; cases h
  | .mk c r :: ws, h => by
    simp only [usesConds, List.mem_append, or_assoc] at h
    rcases h with h | h | h
    · exact ⟨_, List.mem_cons_self, .up (.inl rfl) (c.uses_names h)⟩
    · exact ⟨_, List.mem_cons_self, .up (.inr rfl) (r.uses_names h)⟩
    · obtain ⟨x, hx, h⟩ := usesConds_names ws h
      exact ⟨x, List.mem_cons_of_mem _ hx, h⟩

theorem CaseResult.uses_names : ∀ v : CaseResult, u ∈ v.uses fmt → Names fmt u (.result v)
  | .str _, h => by simp only [CaseResult.uses] at h; cases h
  | .ve e, h => by
    simp only [CaseResult.uses, List.mem_append, List.mem_cons, or_assoc] at h
    exact .up (by simp [Node.child]) (e.uses_names h)

theorem SC.uses_names : ∀ v : SC, u ∈ v.uses fmt → Names fmt u (.sc v)
  | .factor b, h => by
    simp only [SC.uses, List.mem_append, List.mem_cons, or_assoc] at h
    exact .up (by simp [Node.child]) (b.uses_names h)
  | .term b _ s, h => by
    simp only [SC.uses, List.mem_append, List.mem_cons, or_assoc] at h
    rcases h with h | h
    · exact .up (by simp [Node.child]) (b.uses_names h)
    · exact .up (by simp [Node.child]) (s.uses_names h)

theorem BF.uses_names : ∀ v : BF, u ∈ v.uses fmt → Names fmt u (.bf v)
  | .mk _ p, h => by
    simp only [BF.uses, List.mem_append, List.mem_cons, or_assoc] at h
    exact .up (by simp [Node.child]) (p.uses_names h)

theorem BP.uses_names : ∀ v : BP, u ∈ v.uses fmt → Names fmt u (.bp v)
  | .pred p, h => by
    simp only [BP.uses, List.mem_append, List.mem_cons, or_assoc] at h
    exact .up (by simp [Node.child]) (p.uses_names h)
  | .sc s, h => by
    simp only [BP.uses, List.mem_append, List.mem_cons, or_assoc] at h
    exact .up (by simp [Node.child]) (s.uses_names h)
  | .ve v, h => by
    simp only [BP.uses, List.mem_append, List.mem_cons, or_assoc] at h
    exact .up (by simp [Node.child]) (v.uses_names h)

theorem Pred.uses_names : ∀ v : Pred, u ∈ v.uses fmt → Names fmt u (.pred v)
  | .cmp l _ r, h => by
    simp only [Pred.uses, List.mem_append, List.mem_cons, or_assoc] at h
    rcases h with h | h
    · exact .up (by simp [Node.child]) (l.uses_names h)
    · exact .up (by simp [Node.child]) (r.uses_names h)
  | .between v _ lo hi, h => by
    simp only [Pred.uses, List.mem_append, List.mem_cons, or_assoc] at h
    rcases h with h | h | h
    · exact .up (by simp [Node.child]) (v.uses_names h)
    · exact .up (by simp [Node.child]) (lo.uses_names h)
    · exact .up (by simp [Node.child]) (hi.uses_names h)
  | .inSub v _ q, h => by
    simp only [Pred.uses, List.mem_append, List.mem_cons, or_assoc] at h
    rcases h with h | h
    · exact .up (by simp [Node.child]) (v.uses_names h)
    · exact .up (by simp [Node.child]) (q.uses_names h)
  | .inList v _ vs, h => by
    simp only [Pred.uses, List.mem_append, List.mem_cons, or_assoc] at h
    rcases h with h | h
    · exact .up (by simp [Node.child]) (v.uses_names h)
    · obtain ⟨x, hx, h⟩ := usesVEs_names vs h
      exact .up (by simp [Node.child, hx]) h
  | .null v _, h => by
    simp only [Pred.uses, List.mem_append, List.mem_cons, or_assoc] at h
    exact .up (by simp [Node.child]) (v.uses_names h)
  | .like v _ p, h => by
    simp only [Pred.uses, List.mem_append, List.mem_cons, or_assoc] at h
    rcases h with h | h
    · exact .up (by simp [Node.child]) (v.uses_names h)
    · exact .up (by simp [Node.child]) (p.uses_names h)
  | .exist q, h => by
    simp only [Pred.uses, List.mem_append, List.mem_cons, or_assoc] at h
    exact .up (by simp [Node.child]) (q.uses_names h)

theorem Subquery.uses_names : ∀ v : Subquery, u ∈ v.uses fmt → Names fmt u (.subq v)
  | .jt j, h => by
    simp only [Subquery.uses, List.mem_append, List.mem_cons, or_assoc] at h
    exact .up (by simp [Node.child]) (j.uses_names h)
  | .qs q, h => by
    simp only [Subquery.uses, List.mem_append, List.mem_cons, or_assoc] at h
    exact .up (by simp [Node.child]) (q.uses_names h)

theorem JT.uses_names : ∀ v : JT, u ∈ v.uses fmt → Names fmt u (.jt v)
  | .qj q, h => by
    simp only [JT.uses, List.mem_append, List.mem_cons, or_assoc] at h
    exact .up (by simp [Node.child]) (q.uses_names h)
  | .wrap j, h => by
    simp only [JT.uses, List.mem_append, List.mem_cons, or_assoc] at h
    exact .up (by simp [Node.child]) (j.uses_names h)

theorem QJ.uses_names : ∀ v : QJ, u ∈ v.uses fmt → Names fmt u (.qj v)
  | .mk hd ss, h => by
    simp only [QJ.uses, List.mem_append, List.mem_cons, or_assoc] at h
    rcases h with h | h
    · exact .up (by simp [Node.child]) (hd.uses_names h)
    · obtain ⟨x, hx, h⟩ := usesSuffixes_names ss h
      exact .up (by simp [Node.child, hx]) h

theorem QJHead.uses_names : ∀ v : QJHead, u ∈ v.uses fmt → Names fmt u (.head v)
  | .tc t, h => by
    simp only [QJHead.uses, List.mem_append, List.mem_cons, or_assoc] at h
    exact .up rfl (.own h)
  | .jt j, h => by
    simp only [QJHead.uses, List.mem_append, List.mem_cons, or_assoc] at h
    exact .up (by simp [Node.child]) (j.uses_names h)

theorem usesSuffixes_names : ∀ l : List JoinSuffix, u ∈ usesSuffixes fmt l → ∃ x ∈ l, Names fmt u (.suffix x)
  | [], h => by simp only [usesSuffixes] at h; cases h
  | a :: l, h => by
    simp only [usesSuffixes, List.mem_append] at h
    rcases h with h | h
    · exact ⟨a, List.mem_cons_self, a.uses_names h⟩
    · obtain ⟨x, hx, h⟩ := usesSuffixes_names l h
      exact ⟨x, List.mem_cons_of_mem _ hx, h⟩

theorem JoinSuffix.uses_names : ∀ v : JoinSuffix, u ∈ v.uses fmt → Names fmt u (.suffix v)
  | .mk _ _ t sp, h => by
    simp only [JoinSuffix.uses, List.mem_append, List.mem_cons, or_assoc] at h
    rcases h with h | h
    · exact .up (by simp [Node.child]) (t.uses_names h)
    · have hd := spec_uses_dflt h
      exact .up (by simp [Node.child, hd]) (sp.uses_names h)

theorem JoinSpec.uses_names : ∀ v : JoinSpec, u ∈ v.uses fmt → Names fmt u (.spec v)
  | .named l, h => by simp only [JoinSpec.uses] at h; exact .own h
  | .on s, h => by
    simp only [JoinSpec.uses, List.mem_append, List.mem_cons, or_assoc] at h
    exact .up (by simp [Node.child]) (s.uses_names h)

theorem TR.uses_names : ∀ v : TR, u ∈ v.uses fmt → Names fmt u (.tr v)
  | .tc t, h => by
    simp only [TR.uses, List.mem_append, List.mem_cons, or_assoc] at h
    exact .up rfl (.own h)
  | .jt j, h => by
    simp only [TR.uses, List.mem_append, List.mem_cons, or_assoc] at h
    exact .up (by simp [Node.child]) (j.uses_names h)
  | .derived q _, h => by
    simp only [TR.uses, List.mem_append, List.mem_cons, or_assoc] at h
    exact .up (by simp [Node.child]) (q.uses_names h)
  | .tvf n _, h => by simp only [TR.uses] at h; exact .own h

theorem GPred.uses_names : ∀ v : GPred, u ∈ v.uses fmt → Names fmt u (.gpred v)
  | .intersects e s, h => by
    simp only [GPred.uses, List.mem_append, List.mem_cons, or_assoc] at h
    rcases h with h | h
    · exact .up (by simp [Node.child]) (e.uses_names h)
    · exact .up (by simp [Node.child]) (s.uses_names h)
  | .contains l r, h => by
    simp only [GPred.uses, List.mem_append, List.mem_cons, or_assoc] at h
    rcases h with h | h
    · exact .up (by simp [Node.child]) (l.uses_names h)
    · exact .up (by simp [Node.child]) (r.uses_names h)

theorem Geom.uses_names : ∀ v : Geom, u ∈ v.uses fmt → Names fmt u (.geom v)
  | .left _ p, h => by
    simp only [Geom.uses, List.mem_append, List.mem_cons, or_assoc] at h
    exact .up (by simp [Node.child]) (p.uses_names h)
  | .right p _, h => by
    simp only [Geom.uses, List.mem_append, List.mem_cons, or_assoc] at h
    exact .up (by simp [Node.child]) (p.uses_names h)

theorem Where.uses_names : ∀ v : Where, u ∈ v.uses fmt → Names fmt u (.where_ v)
  | .mk g s, h => by
    simp only [Where.uses, List.mem_append, List.mem_cons, or_assoc] at h
    rcases h with h | h
    · have hd := geom_uses_dflt h
      exact .up (by simp [Node.child, hd]) (g.uses_names h)
    · have hd := sc_uses_dflt h
      exact .up (by simp [Node.child, hd]) (s.uses_names h)

theorem Item.uses_names : ∀ v : Item, u ∈ v.uses fmt → Names fmt u (.item v)
  | .as e _, h => by
    simp only [Item.uses, List.mem_append, List.mem_cons, or_assoc] at h
    exact .up (by simp [Node.child]) (e.uses_names h)
  | .nonAsStr s, h => by simp only [Item.uses] at h; exact .own h
  | .nonAsVE e, h => by
    simp only [Item.uses, List.mem_append, List.mem_cons, or_assoc] at h
    exact .up (by simp [Node.child]) (e.uses_names h)

theorem usesItems_names : ∀ l : List Item, u ∈ usesItems fmt l → ∃ x ∈ l, Names fmt u (.item x)
  | [], h => by simp only [usesItems] at h; cases h
  | a :: l, h => by
    simp only [usesItems, List.mem_append] at h
    rcases h with h | h
    · exact ⟨a, List.mem_cons_self, a.uses_names h⟩
    · obtain ⟨x, hx, h⟩ := usesItems_names l h
      exact ⟨x, List.mem_cons_of_mem _ hx, h⟩

theorem Columns.uses_names : ∀ v : Columns, u ∈ v.uses fmt → Names fmt u (.columns v)
  | .star s, h => by simp only [Columns.uses] at h; exact .own h
  | .items l, h => by
    simp only [Columns.uses, List.mem_append, List.mem_cons, or_assoc] at h
    obtain ⟨x, hx, h⟩ := usesItems_names l h
    exact .up (by simp [Node.child, hx]) h

theorem Select.uses_names : ∀ v : Select, u ∈ v.uses fmt → Names fmt u (.select v)
  | .mk _ _ c, h => by
    simp only [Select.uses, List.mem_append, List.mem_cons, or_assoc] at h
    exact .up (by simp [Node.child]) (c.uses_names h)

theorem usesTRs_names : ∀ l : List TR, u ∈ usesTRs fmt l → ∃ x ∈ l, Names fmt u (.tr x)
  | [], h => by simp only [usesTRs] at h; cases h
  | a :: l, h => by
    simp only [usesTRs, List.mem_append] at h
    rcases h with h | h
    · exact ⟨a, List.mem_cons_self, a.uses_names h⟩
    · obtain ⟨x, hx, h⟩ := usesTRs_names l h
      exact ⟨x, List.mem_cons_of_mem _ hx, h⟩

theorem SFW.uses_names : ∀ v : SFW, u ∈ v.uses fmt → Names fmt u (.sfw v)
  | .mk s ts w, h => by
    simp only [SFW.uses, List.mem_append, List.mem_cons, or_assoc] at h
    rcases h with h | h | h
    · exact .up (by simp [Node.child]) (s.uses_names h)
    · obtain ⟨x, hx, h⟩ := usesTRs_names ts h
      exact .up (by simp [Node.child, hx]) h
    · have hd := where_uses_dflt h
      exact .up (by simp [Node.child, hd]) (w.uses_names h)

theorem Addon.uses_names : ∀ v : Addon, u ∈ v.uses fmt → Names fmt u (.addon v)
  | .mk _ s, h => by
    simp only [Addon.uses, List.mem_append, List.mem_cons, or_assoc] at h
    exact .up (by simp [Node.child]) (s.uses_names h)

theorem usesAddons_names : ∀ l : List Addon, u ∈ usesAddons fmt l → ∃ x ∈ l, Names fmt u (.addon x)
  | [], h => by simp only [usesAddons] at h; cases h
  | a :: l, h => by
    simp only [usesAddons, List.mem_append] at h
    rcases h with h | h
    · exact ⟨a, List.mem_cons_self, a.uses_names h⟩
    · obtain ⟨x, hx, h⟩ := usesAddons_names l h
      exact ⟨x, List.mem_cons_of_mem _ hx, h⟩

theorem SFWList.uses_names : ∀ v : SFWList, u ∈ v.uses fmt → Names fmt u (.sfwList v)
  | .mk i as, h => by
    simp only [SFWList.uses, List.mem_append, List.mem_cons, or_assoc] at h
    rcases h with h | h
    · exact .up (by simp [Node.child]) (i.uses_names h)
    · obtain ⟨x, hx, h⟩ := usesAddons_names as h
      exact .up (by simp [Node.child, hx]) h

theorem GroupTerm.uses_names : ∀ v : GroupTerm, u ∈ v.uses fmt → Names fmt u (.group v)
  | .col c, h => by
    simp only [GroupTerm.uses, List.mem_append, List.mem_cons, or_assoc] at h
    exact .up (by simp [Node.child]) (c.uses_names h)
  | .ve e, h => by
    simp only [GroupTerm.uses, List.mem_append, List.mem_cons, or_assoc] at h
    exact .up (by simp [Node.child]) (e.uses_names h)

theorem usesGroup_names : ∀ l : List GroupTerm, u ∈ usesGroup fmt l → ∃ x ∈ l, Names fmt u (.group x)
  | [], h => by simp only [usesGroup] at h; cases h
  | a :: l, h => by
    simp only [usesGroup, List.mem_append] at h
    rcases h with h | h
    · exact ⟨a, List.mem_cons_self, a.uses_names h⟩
    · obtain ⟨x, hx, h⟩ := usesGroup_names l h
      exact ⟨x, List.mem_cons_of_mem _ hx, h⟩

theorem With.uses_names : ∀ v : With, u ∈ v.uses fmt → Names fmt u (.with_ v)
  | .mk _ _ q, h => by
    simp only [With.uses, List.mem_append, List.mem_cons, or_assoc] at h
    exact .up (by simp [Node.child]) (q.uses_names h)

theorem QuerySpec.uses_names : ∀ v : QuerySpec, u ∈ v.uses fmt → Names fmt u (.query v)
  | .mk w l g hv o, h => by
    simp only [QuerySpec.uses, List.mem_append, List.mem_cons, or_assoc] at h
    rcases h with h | h | h | h | h
    · have hd := with_uses_dflt h
      exact .up (by simp [Node.child, hd]) (w.uses_names h)
    · exact .up (by simp [Node.child]) (l.uses_names h)
    · obtain ⟨x, hx, h⟩ := usesGroup_names g h
      exact .up (by simp [Node.child, hx]) h
    · have hd := sc_uses_dflt h
      exact .up (by simp [Node.child, hd]) (hv.uses_names h)
    · obtain ⟨x, hx, h⟩ := List.mem_flatMap.1 h
      exact .up (by simp [Node.child, hx]) (x.uses_names h)

end

/-! ### The other direction -/

theorem usesTerms_mem : ∀ {l : List Term} {x : Term}, x ∈ l → u ∈ x.uses fmt → u ∈ usesTerms fmt l
  | a :: l, x, hx, h => by
    simp only [usesTerms, List.mem_append]
    rcases List.mem_cons.1 hx with rfl | hx
    · exact .inl h
    · exact .inr (usesTerms_mem hx h)

theorem usesVEs_mem : ∀ {l : List VE} {x : VE}, x ∈ l → u ∈ x.uses fmt → u ∈ usesVEs fmt l
  | a :: l, x, hx, h => by
    simp only [usesVEs, List.mem_append]
    rcases List.mem_cons.1 hx with rfl | hx
    · exact .inl h
    · exact .inr (usesVEs_mem hx h)

theorem usesSuffixes_mem : ∀ {l : List JoinSuffix} {x : JoinSuffix}, x ∈ l → u ∈ x.uses fmt → u ∈ usesSuffixes fmt l
  | a :: l, x, hx, h => by
    simp only [usesSuffixes, List.mem_append]
    rcases List.mem_cons.1 hx with rfl | hx
    · exact .inl h
    · exact .inr (usesSuffixes_mem hx h)

theorem usesItems_mem : ∀ {l : List Item} {x : Item}, x ∈ l → u ∈ x.uses fmt → u ∈ usesItems fmt l
  | a :: l, x, hx, h => by
    simp only [usesItems, List.mem_append]
    rcases List.mem_cons.1 hx with rfl | hx
    · exact .inl h
    · exact .inr (usesItems_mem hx h)

theorem usesTRs_mem : ∀ {l : List TR} {x : TR}, x ∈ l → u ∈ x.uses fmt → u ∈ usesTRs fmt l
  | a :: l, x, hx, h => by
    simp only [usesTRs, List.mem_append]
    rcases List.mem_cons.1 hx with rfl | hx
    · exact .inl h
    · exact .inr (usesTRs_mem hx h)

theorem usesAddons_mem : ∀ {l : List Addon} {x : Addon}, x ∈ l → u ∈ x.uses fmt → u ∈ usesAddons fmt l
  | a :: l, x, hx, h => by
    simp only [usesAddons, List.mem_append]
    rcases List.mem_cons.1 hx with rfl | hx
    · exact .inl h
    · exact .inr (usesAddons_mem hx h)

theorem usesGroup_mem : ∀ {l : List GroupTerm} {x : GroupTerm}, x ∈ l → u ∈ x.uses fmt → u ∈ usesGroup fmt l
  | a :: l, x, hx, h => by
    simp only [usesGroup, List.mem_append]
    rcases List.mem_cons.1 hx with rfl | hx
    · exact .inl h
    · exact .inr (usesGroup_mem hx h)

theorem usesWhens_mem : ∀ {l : List SimpleWhen} {x : SimpleWhen}, x ∈ l → u ∈ nodeUses fmt (.simpleWhen x) → u ∈ usesWhens fmt l
  | .mk a b :: l, x, hx, h => by
    simp only [usesWhens, List.mem_append]
    rcases List.mem_cons.1 hx with rfl | hx
    · exact .inl (List.mem_append.1 h)
    · exact .inr (usesWhens_mem hx h)

theorem usesConds_mem : ∀ {l : List SearchedWhen} {x : SearchedWhen}, x ∈ l → u ∈ nodeUses fmt (.searchedWhen x) → u ∈ usesConds fmt l
  | .mk a b :: l, x, hx, h => by
    simp only [usesConds, List.mem_append]
    rcases List.mem_cons.1 hx with rfl | hx
    · exact .inl (List.mem_append.1 h)
    · exact .inr (usesConds_mem hx h)

theorem child_uses : ∀ {n c : Node}, Node.child n c → u ∈ nodeUses fmt c → u ∈ nodeUses fmt n
  | .ve (.nb v), _, hc, h1 => by
    obtain rfl := hc
    try simp only [nodeUses] at h1
    simp only [nodeUses, VE.uses, List.mem_append, List.mem_cons, List.mem_flatMap, or_assoc]
    simp only [h1, true_or, or_true]
  | .ve (.sc s), _, hc, h1 => by
    obtain rfl := hc
    try simp only [nodeUses] at h1
    simp only [nodeUses, VE.uses, List.mem_append, List.mem_cons, List.mem_flatMap, or_assoc]
    simp only [h1, true_or, or_true]
  | .venb (.mk f ts), _, hc, h1 => by
    rcases hc with rfl | ⟨x, hx, rfl⟩
    · try simp only [nodeUses] at h1
      simp only [nodeUses, VENB.uses, List.mem_append, List.mem_cons, List.mem_flatMap, or_assoc]
      simp only [h1, true_or, or_true]
    · have h1 := usesTerms_mem hx h1
      try simp only [nodeUses] at h1
      simp only [nodeUses, VENB.uses, List.mem_append, List.mem_cons, List.mem_flatMap, or_assoc]
      simp only [h1, true_or, or_true]
  | .term (.mk _ f), _, hc, h1 => by
    obtain rfl := hc
    try simp only [nodeUses] at h1
    simp only [nodeUses, Term.uses, List.mem_append, List.mem_cons, List.mem_flatMap, or_assoc]
    simp only [h1, true_or, or_true]
  | .factor (.mk _ np), _, hc, h1 => by
    obtain rfl := hc
    try simp only [nodeUses] at h1
    simp only [nodeUses, Factor.uses, List.mem_append, List.mem_cons, List.mem_flatMap, or_assoc]
    simp only [h1, true_or, or_true]
  | .numPrim (.vep v), _, hc, h1 => by
    obtain rfl := hc
    try simp only [nodeUses] at h1
    simp only [nodeUses, NumPrim.uses, List.mem_append, List.mem_cons, List.mem_flatMap, or_assoc]
    simp only [h1, true_or, or_true]
  | .numPrim (.nvf f), _, hc, h1 => by
    obtain rfl := hc
    try simp only [nodeUses] at h1
    simp only [nodeUses, NumPrim.uses, List.mem_append, List.mem_cons, List.mem_flatMap, or_assoc]
    simp only [h1, true_or, or_true]
  | .numFn (.trig1 _ a), _, hc, h1 => by
    obtain rfl := hc
    try simp only [nodeUses] at h1
    simp only [nodeUses, NumFn.uses, List.mem_append, List.mem_cons, List.mem_flatMap, or_assoc]
    simp only [h1, true_or, or_true]
  | .numFn (.trig2 _ a b), _, hc, h1 => by
    rcases hc with rfl | rfl
    · try simp only [nodeUses] at h1
      simp only [nodeUses, NumFn.uses, List.mem_append, List.mem_cons, List.mem_flatMap, or_assoc]
      simp only [h1, true_or, or_true]
    · try simp only [nodeUses] at h1
      simp only [nodeUses, NumFn.uses, List.mem_append, List.mem_cons, List.mem_flatMap, or_assoc]
      simp only [h1, true_or, or_true]
  | .numFn (.math0 _), _, hc, _ => by cases hc
  | .numFn (.math1 _ a), _, hc, h1 => by
    obtain rfl := hc
    try simp only [nodeUses] at h1
    simp only [nodeUses, NumFn.uses, List.mem_append, List.mem_cons, List.mem_flatMap, or_assoc]
    simp only [h1, true_or, or_true]
  | .numFn (.math2 _ a b), _, hc, h1 => by
    rcases hc with rfl | rfl
    · try simp only [nodeUses] at h1
      simp only [nodeUses, NumFn.uses, List.mem_append, List.mem_cons, List.mem_flatMap, or_assoc]
      simp only [h1, true_or, or_true]
    · try simp only [nodeUses] at h1
      simp only [nodeUses, NumFn.uses, List.mem_append, List.mem_cons, List.mem_flatMap, or_assoc]
      simp only [h1, true_or, or_true]
  | .numFn (.cast e _ _), _, hc, h1 => by
    obtain rfl := hc
    try simp only [nodeUses] at h1
    simp only [nodeUses, NumFn.uses, List.mem_append, List.mem_cons, List.mem_flatMap, or_assoc]
    simp only [h1, true_or, or_true]
  | .numFn (.geo1 _ a), _, hc, h1 => by
    obtain rfl := hc
    try simp only [nodeUses] at h1
    simp only [nodeUses, NumFn.uses, List.mem_append, List.mem_cons, List.mem_flatMap, or_assoc]
    simp only [h1, true_or, or_true]
  | .numFn (.geo2 _ a b), _, hc, h1 => by
    rcases hc with rfl | rfl
    · try simp only [nodeUses] at h1
      simp only [nodeUses, NumFn.uses, List.mem_append, List.mem_cons, List.mem_flatMap, or_assoc]
      simp only [h1, true_or, or_true]
    · try simp only [nodeUses] at h1
      simp only [nodeUses, NumFn.uses, List.mem_append, List.mem_cons, List.mem_flatMap, or_assoc]
      simp only [h1, true_or, or_true]
  | .numFn (.udf _ as), _, hc, h1 => by
    obtain ⟨x, hx, rfl⟩ := hc
    have h1 := usesVEs_mem hx h1
    try simp only [nodeUses] at h1
    simp only [nodeUses, NumFn.uses, List.mem_append, List.mem_cons, List.mem_flatMap, or_assoc]
    simp only [h1, true_or, or_true]
  | .numFn (.str _), _, hc, _ => by cases hc
  | .vep (.mk v is), _, hc, h1 => by
    rcases hc with rfl | ⟨x, hx, rfl⟩
    · try simp only [nodeUses] at h1
      simp only [nodeUses, VEP.uses, List.mem_append, List.mem_cons, List.mem_flatMap, or_assoc]
      simp only [h1, true_or, or_true]
    · have h1 := usesVEs_mem hx h1
      try simp only [nodeUses] at h1
      simp only [nodeUses, VEP.uses, List.mem_append, List.mem_cons, List.mem_flatMap, or_assoc]
      simp only [h1, true_or, or_true]
  | .prim (.arr vs), _, hc, h1 => by
    obtain ⟨x, hx, rfl⟩ := hc
    have h1 := usesVEs_mem hx h1
    try simp only [nodeUses] at h1
    simp only [nodeUses, Prim.uses, List.mem_append, List.mem_cons, List.mem_flatMap, or_assoc]
    simp only [h1, true_or, or_true]
  | .prim (.str _), _, hc, _ => by cases hc
  | .prim (.col c), _, hc, h1 => by
    obtain rfl := hc
    try simp only [nodeUses] at h1
    simp only [nodeUses, Prim.uses, List.mem_append, List.mem_cons, List.mem_flatMap, or_assoc]
    simp only [h1, true_or, or_true]
  | .prim (.countStar _), _, hc, _ => by cases hc
  | .prim (.setFn _ _ e), _, hc, h1 => by
    obtain rfl := hc
    try simp only [nodeUses] at h1
    simp only [nodeUses, Prim.uses, List.mem_append, List.mem_cons, List.mem_flatMap, or_assoc]
    simp only [h1, true_or, or_true]
  | .prim (.case c), _, hc, h1 => by
    obtain rfl := hc
    try simp only [nodeUses] at h1
    simp only [nodeUses, Prim.uses, List.mem_append, List.mem_cons, List.mem_flatMap, or_assoc]
    simp only [h1, true_or, or_true]
  | .prim (.any e), _, hc, h1 => by
    obtain rfl := hc
    try simp only [nodeUses] at h1
    simp only [nodeUses, Prim.uses, List.mem_append, List.mem_cons, List.mem_flatMap, or_assoc]
    simp only [h1, true_or, or_true]
  | .prim (.sub e), _, hc, h1 => by
    obtain rfl := hc
    try simp only [nodeUses] at h1
    simp only [nodeUses, Prim.uses, List.mem_append, List.mem_cons, List.mem_flatMap, or_assoc]
    simp only [h1, true_or, or_true]
  | .caseE (.nullif a b), _, hc, h1 => by
    rcases hc with rfl | rfl
    · try simp only [nodeUses] at h1
      simp only [nodeUses, CaseE.uses, List.mem_append, List.mem_cons, List.mem_flatMap, or_assoc]
      simp only [h1, true_or, or_true]
    · try simp only [nodeUses] at h1
      simp only [nodeUses, CaseE.uses, List.mem_append, List.mem_cons, List.mem_flatMap, or_assoc]
      simp only [h1, true_or, or_true]
  | .caseE (.coalesce l), _, hc, h1 => by
    obtain ⟨x, hx, rfl⟩ := hc
    have h1 := usesVEs_mem hx h1
    try simp only [nodeUses] at h1
    simp only [nodeUses, CaseE.uses, List.mem_append, List.mem_cons, List.mem_flatMap, or_assoc]
    simp only [h1, true_or, or_true]
  | .caseE (.simple o ws e), _, hc, h1 => by
    rcases hc with rfl | ⟨x, hx, rfl⟩ | ⟨-, rfl⟩
    · try simp only [nodeUses] at h1
      simp only [nodeUses, CaseE.uses, List.mem_append, List.mem_cons, List.mem_flatMap, or_assoc]
      simp only [h1, true_or, or_true]
    · have h1 := usesWhens_mem hx h1
      try simp only [nodeUses] at h1
      simp only [nodeUses, CaseE.uses, List.mem_append, List.mem_cons, List.mem_flatMap, or_assoc]
      simp only [h1, true_or, or_true]
    · try simp only [nodeUses] at h1
      simp only [nodeUses, CaseE.uses, List.mem_append, List.mem_cons, List.mem_flatMap, or_assoc]
      simp only [h1, true_or, or_true]
  | .caseE (.searched ws e), _, hc, h1 => by
    rcases hc with ⟨x, hx, rfl⟩ | ⟨-, rfl⟩
    · have h1 := usesConds_mem hx h1
      try simp only [nodeUses] at h1
      simp only [nodeUses, CaseE.uses, List.mem_append, List.mem_cons, List.mem_flatMap, or_assoc]
      simp only [h1, true_or, or_true]
    · try simp only [nodeUses] at h1
      simp only [nodeUses, CaseE.uses, List.mem_append, List.mem_cons, List.mem_flatMap, or_assoc]
      simp only [h1, true_or, or_true]
  | .simpleWhen (.mk e r), _, hc, h1 => by
    rcases hc with rfl | rfl
    · try simp only [nodeUses] at h1
      simp only [nodeUses, List.mem_append]
      simp only [h1, true_or, or_true]
    · try simp only [nodeUses] at h1
      simp only [nodeUses, List.mem_append]
      simp only [h1, true_or, or_true]
  | .searchedWhen (.mk c r), _, hc, h1 => by
    rcases hc with rfl | rfl
    · try simp only [nodeUses] at h1
      simp only [nodeUses, List.mem_append]
      simp only [h1, true_or, or_true]
    · try simp only [nodeUses] at h1
      simp only [nodeUses, List.mem_append]
      simp only [h1, true_or, or_true]
  | .result (.str _), _, hc, _ => by cases hc
  | .result (.ve e), _, hc, h1 => by
    obtain rfl := hc
    try simp only [nodeUses] at h1
    simp only [nodeUses, CaseResult.uses, List.mem_append, List.mem_cons, List.mem_flatMap, or_assoc]
    simp only [h1, true_or, or_true]
  | .sc (.factor b), _, hc, h1 => by
    obtain rfl := hc
    try simp only [nodeUses] at h1
    simp only [nodeUses, SC.uses, List.mem_append, List.mem_cons, List.mem_flatMap, or_assoc]
    simp only [h1, true_or, or_true]
  | .sc (.term b _ s), _, hc, h1 => by
    rcases hc with rfl | rfl
    · try simp only [nodeUses] at h1
      simp only [nodeUses, SC.uses, List.mem_append, List.mem_cons, List.mem_flatMap, or_assoc]
      simp only [h1, true_or, or_true]
    · try simp only [nodeUses] at h1
      simp only [nodeUses, SC.uses, List.mem_append, List.mem_cons, List.mem_flatMap, or_assoc]
      simp only [h1, true_or, or_true]
  | .bf (.mk _ p), _, hc, h1 => by
    obtain rfl := hc
    try simp only [nodeUses] at h1
    simp only [nodeUses, BF.uses, List.mem_append, List.mem_cons, List.mem_flatMap, or_assoc]
    simp only [h1, true_or, or_true]
  | .bp (.pred p), _, hc, h1 => by
    obtain rfl := hc
    try simp only [nodeUses] at h1
    simp only [nodeUses, BP.uses, List.mem_append, List.mem_cons, List.mem_flatMap, or_assoc]
    simp only [h1, true_or, or_true]
  | .bp (.sc s), _, hc, h1 => by
    obtain rfl := hc
    try simp only [nodeUses] at h1
    simp only [nodeUses, BP.uses, List.mem_append, List.mem_cons, List.mem_flatMap, or_assoc]
    simp only [h1, true_or, or_true]
  | .bp (.ve v), _, hc, h1 => by
    obtain rfl := hc
    try simp only [nodeUses] at h1
    simp only [nodeUses, BP.uses, List.mem_append, List.mem_cons, List.mem_flatMap, or_assoc]
    simp only [h1, true_or, or_true]
  | .pred (.cmp l _ r), _, hc, h1 => by
    rcases hc with rfl | rfl
    · try simp only [nodeUses] at h1
      simp only [nodeUses, Pred.uses, List.mem_append, List.mem_cons, List.mem_flatMap, or_assoc]
      simp only [h1, true_or, or_true]
    · try simp only [nodeUses] at h1
      simp only [nodeUses, Pred.uses, List.mem_append, List.mem_cons, List.mem_flatMap, or_assoc]
      simp only [h1, true_or, or_true]
  | .pred (.between v _ lo hi), _, hc, h1 => by
    rcases hc with rfl | rfl | rfl
    · try simp only [nodeUses] at h1
      simp only [nodeUses, Pred.uses, List.mem_append, List.mem_cons, List.mem_flatMap, or_assoc]
      simp only [h1, true_or, or_true]
    · try simp only [nodeUses] at h1
      simp only [nodeUses, Pred.uses, List.mem_append, List.mem_cons, List.mem_flatMap, or_assoc]
      simp only [h1, true_or, or_true]
    · try simp only [nodeUses] at h1
      simp only [nodeUses, Pred.uses, List.mem_append, List.mem_cons, List.mem_flatMap, or_assoc]
      simp only [h1, true_or, or_true]
  | .pred (.inSub v _ q), _, hc, h1 => by
    rcases hc with rfl | rfl
    · try simp only [nodeUses] at h1
      simp only [nodeUses, Pred.uses, List.mem_append, List.mem_cons, List.mem_flatMap, or_assoc]
      simp only [h1, true_or, or_true]
    · try simp only [nodeUses] at h1
      simp only [nodeUses, Pred.uses, List.mem_append, List.mem_cons, List.mem_flatMap, or_assoc]
      simp only [h1, true_or, or_true]
  | .pred (.inList v _ vs), _, hc, h1 => by
    rcases hc with rfl | ⟨x, hx, rfl⟩
    · try simp only [nodeUses] at h1
      simp only [nodeUses, Pred.uses, List.mem_append, List.mem_cons, List.mem_flatMap, or_assoc]
      simp only [h1, true_or, or_true]
    · have h1 := usesVEs_mem hx h1
      try simp only [nodeUses] at h1
      simp only [nodeUses, Pred.uses, List.mem_append, List.mem_cons, List.mem_flatMap, or_assoc]
      simp only [h1, true_or, or_true]
  | .pred (.null v _), _, hc, h1 => by
    obtain rfl := hc
    try simp only [nodeUses] at h1
    simp only [nodeUses, Pred.uses, List.mem_append, List.mem_cons, List.mem_flatMap, or_assoc]
    simp only [h1, true_or, or_true]
  | .pred (.like v _ p), _, hc, h1 => by
    rcases hc with rfl | rfl
    · try simp only [nodeUses] at h1
      simp only [nodeUses, Pred.uses, List.mem_append, List.mem_cons, List.mem_flatMap, or_assoc]
      simp only [h1, true_or, or_true]
    · try simp only [nodeUses] at h1
      simp only [nodeUses, Pred.uses, List.mem_append, List.mem_cons, List.mem_flatMap, or_assoc]
      simp only [h1, true_or, or_true]
  | .pred (.exist q), _, hc, h1 => by
    obtain rfl := hc
    try simp only [nodeUses] at h1
    simp only [nodeUses, Pred.uses, List.mem_append, List.mem_cons, List.mem_flatMap, or_assoc]
    simp only [h1, true_or, or_true]
  | .subq (.jt j), _, hc, h1 => by
    obtain rfl := hc
    try simp only [nodeUses] at h1
    simp only [nodeUses, Subquery.uses, List.mem_append, List.mem_cons, List.mem_flatMap, or_assoc]
    simp only [h1, true_or, or_true]
  | .subq (.qs q), _, hc, h1 => by
    obtain rfl := hc
    try simp only [nodeUses] at h1
    simp only [nodeUses, Subquery.uses, List.mem_append, List.mem_cons, List.mem_flatMap, or_assoc]
    simp only [h1, true_or, or_true]
  | .jt (.qj q), _, hc, h1 => by
    obtain rfl := hc
    try simp only [nodeUses] at h1
    simp only [nodeUses, JT.uses, List.mem_append, List.mem_cons, List.mem_flatMap, or_assoc]
    simp only [h1, true_or, or_true]
  | .jt (.wrap j), _, hc, h1 => by
    obtain rfl := hc
    try simp only [nodeUses] at h1
    simp only [nodeUses, JT.uses, List.mem_append, List.mem_cons, List.mem_flatMap, or_assoc]
    simp only [h1, true_or, or_true]
  | .qj (.mk h ss), _, hc, h1 => by
    rcases hc with rfl | ⟨x, hx, rfl⟩
    · try simp only [nodeUses] at h1
      simp only [nodeUses, QJ.uses, List.mem_append, List.mem_cons, List.mem_flatMap, or_assoc]
      simp only [h1, true_or, or_true]
    · have h1 := usesSuffixes_mem hx h1
      try simp only [nodeUses] at h1
      simp only [nodeUses, QJ.uses, List.mem_append, List.mem_cons, List.mem_flatMap, or_assoc]
      simp only [h1, true_or, or_true]
  | .head (.tc t), _, hc, h1 => by
    obtain rfl := hc
    try simp only [nodeUses] at h1
    simp only [nodeUses, QJHead.uses, List.mem_append, List.mem_cons, List.mem_flatMap, or_assoc]
    simp only [h1, true_or, or_true]
  | .head (.jt j), _, hc, h1 => by
    obtain rfl := hc
    try simp only [nodeUses] at h1
    simp only [nodeUses, QJHead.uses, List.mem_append, List.mem_cons, List.mem_flatMap, or_assoc]
    simp only [h1, true_or, or_true]
  | .suffix (.mk _ _ t sp), _, hc, h1 => by
    rcases hc with rfl | ⟨-, rfl⟩
    · try simp only [nodeUses] at h1
      simp only [nodeUses, JoinSuffix.uses, List.mem_append, List.mem_cons, List.mem_flatMap, or_assoc]
      simp only [h1, true_or, or_true]
    · try simp only [nodeUses] at h1
      simp only [nodeUses, JoinSuffix.uses, List.mem_append, List.mem_cons, List.mem_flatMap, or_assoc]
      simp only [h1, true_or, or_true]
  | .spec (.named _), _, hc, _ => by cases hc
  | .spec (.on s), _, hc, h1 => by
    obtain rfl := hc
    try simp only [nodeUses] at h1
    simp only [nodeUses, JoinSpec.uses, List.mem_append, List.mem_cons, List.mem_flatMap, or_assoc]
    simp only [h1, true_or, or_true]
  | .tr (.tc t), _, hc, h1 => by
    obtain rfl := hc
    try simp only [nodeUses] at h1
    simp only [nodeUses, TR.uses, List.mem_append, List.mem_cons, List.mem_flatMap, or_assoc]
    simp only [h1, true_or, or_true]
  | .tr (.jt j), _, hc, h1 => by
    obtain rfl := hc
    try simp only [nodeUses] at h1
    simp only [nodeUses, TR.uses, List.mem_append, List.mem_cons, List.mem_flatMap, or_assoc]
    simp only [h1, true_or, or_true]
  | .tr (.derived q _), _, hc, h1 => by
    obtain rfl := hc
    try simp only [nodeUses] at h1
    simp only [nodeUses, TR.uses, List.mem_append, List.mem_cons, List.mem_flatMap, or_assoc]
    simp only [h1, true_or, or_true]
  | .tr (.tvf _ _), _, hc, _ => by cases hc
  | .gpred (.intersects e s), _, hc, h1 => by
    rcases hc with rfl | rfl
    · try simp only [nodeUses] at h1
      simp only [nodeUses, GPred.uses, List.mem_append, List.mem_cons, List.mem_flatMap, or_assoc]
      simp only [h1, true_or, or_true]
    · try simp only [nodeUses] at h1
      simp only [nodeUses, GPred.uses, List.mem_append, List.mem_cons, List.mem_flatMap, or_assoc]
      simp only [h1, true_or, or_true]
  | .gpred (.contains l r), _, hc, h1 => by
    rcases hc with rfl | rfl
    · try simp only [nodeUses] at h1
      simp only [nodeUses, GPred.uses, List.mem_append, List.mem_cons, List.mem_flatMap, or_assoc]
      simp only [h1, true_or, or_true]
    · try simp only [nodeUses] at h1
      simp only [nodeUses, GPred.uses, List.mem_append, List.mem_cons, List.mem_flatMap, or_assoc]
      simp only [h1, true_or, or_true]
  | .geom (.left _ p), _, hc, h1 => by
    obtain rfl := hc
    try simp only [nodeUses] at h1
    simp only [nodeUses, Geom.uses, List.mem_append, List.mem_cons, List.mem_flatMap, or_assoc]
    simp only [h1, true_or, or_true]
  | .geom (.right p _), _, hc, h1 => by
    obtain rfl := hc
    try simp only [nodeUses] at h1
    simp only [nodeUses, Geom.uses, List.mem_append, List.mem_cons, List.mem_flatMap, or_assoc]
    simp only [h1, true_or, or_true]
  | .where_ (.mk g s), _, hc, h1 => by
    rcases hc with ⟨-, rfl⟩ | ⟨-, rfl⟩
    · try simp only [nodeUses] at h1
      simp only [nodeUses, Where.uses, List.mem_append, List.mem_cons, List.mem_flatMap, or_assoc]
      simp only [h1, true_or, or_true]
    · try simp only [nodeUses] at h1
      simp only [nodeUses, Where.uses, List.mem_append, List.mem_cons, List.mem_flatMap, or_assoc]
      simp only [h1, true_or, or_true]
  | .item (.as e _), _, hc, h1 => by
    obtain rfl := hc
    try simp only [nodeUses] at h1
    simp only [nodeUses, Item.uses, List.mem_append, List.mem_cons, List.mem_flatMap, or_assoc]
    simp only [h1, true_or, or_true]
  | .item (.nonAsStr _), _, hc, _ => by cases hc
  | .item (.nonAsVE e), _, hc, h1 => by
    obtain rfl := hc
    try simp only [nodeUses] at h1
    simp only [nodeUses, Item.uses, List.mem_append, List.mem_cons, List.mem_flatMap, or_assoc]
    simp only [h1, true_or, or_true]
  | .columns (.star _), _, hc, _ => by cases hc
  | .columns (.items l), _, hc, h1 => by
    obtain ⟨x, hx, rfl⟩ := hc
    have h1 := usesItems_mem hx h1
    try simp only [nodeUses] at h1
    simp only [nodeUses, Columns.uses, List.mem_append, List.mem_cons, List.mem_flatMap, or_assoc]
    simp only [h1, true_or, or_true]
  | .select (.mk _ _ c), _, hc, h1 => by
    obtain rfl := hc
    try simp only [nodeUses] at h1
    simp only [nodeUses, Select.uses, List.mem_append, List.mem_cons, List.mem_flatMap, or_assoc]
    simp only [h1, true_or, or_true]
  | .sfw (.mk s ts w), _, hc, h1 => by
    rcases hc with rfl | ⟨x, hx, rfl⟩ | ⟨-, rfl⟩
    · try simp only [nodeUses] at h1
      simp only [nodeUses, SFW.uses, List.mem_append, List.mem_cons, List.mem_flatMap, or_assoc]
      simp only [h1, true_or, or_true]
    · have h1 := usesTRs_mem hx h1
      try simp only [nodeUses] at h1
      simp only [nodeUses, SFW.uses, List.mem_append, List.mem_cons, List.mem_flatMap, or_assoc]
      simp only [h1, true_or, or_true]
    · try simp only [nodeUses] at h1
      simp only [nodeUses, SFW.uses, List.mem_append, List.mem_cons, List.mem_flatMap, or_assoc]
      simp only [h1, true_or, or_true]
  | .addon (.mk _ s), _, hc, h1 => by
    obtain rfl := hc
    try simp only [nodeUses] at h1
    simp only [nodeUses, Addon.uses, List.mem_append, List.mem_cons, List.mem_flatMap, or_assoc]
    simp only [h1, true_or, or_true]
  | .sfwList (.mk i as), _, hc, h1 => by
    rcases hc with rfl | ⟨x, hx, rfl⟩
    · try simp only [nodeUses] at h1
      simp only [nodeUses, SFWList.uses, List.mem_append, List.mem_cons, List.mem_flatMap, or_assoc]
      simp only [h1, true_or, or_true]
    · have h1 := usesAddons_mem hx h1
      try simp only [nodeUses] at h1
      simp only [nodeUses, SFWList.uses, List.mem_append, List.mem_cons, List.mem_flatMap, or_assoc]
      simp only [h1, true_or, or_true]
  | .group (.col c), _, hc, h1 => by
    obtain rfl := hc
    try simp only [nodeUses] at h1
    simp only [nodeUses, GroupTerm.uses, List.mem_append, List.mem_cons, List.mem_flatMap, or_assoc]
    simp only [h1, true_or, or_true]
  | .group (.ve e), _, hc, h1 => by
    obtain rfl := hc
    try simp only [nodeUses] at h1
    simp only [nodeUses, GroupTerm.uses, List.mem_append, List.mem_cons, List.mem_flatMap, or_assoc]
    simp only [h1, true_or, or_true]
  | .with_ (.mk _ _ q), _, hc, h1 => by
    obtain rfl := hc
    try simp only [nodeUses] at h1
    simp only [nodeUses, With.uses, List.mem_append, List.mem_cons, List.mem_flatMap, or_assoc]
    simp only [h1, true_or, or_true]
  | .query (.mk w l g h o), _, hc, h1 => by
    rcases hc with ⟨-, rfl⟩ | rfl | ⟨x, hx, rfl⟩ | ⟨-, rfl⟩ | ⟨x, hx, rfl⟩
    · try simp only [nodeUses] at h1
      simp only [nodeUses, QuerySpec.uses, List.mem_append, List.mem_cons, List.mem_flatMap, or_assoc]
      simp only [h1, true_or, or_true]
    · try simp only [nodeUses] at h1
      simp only [nodeUses, QuerySpec.uses, List.mem_append, List.mem_cons, List.mem_flatMap, or_assoc]
      simp only [h1, true_or, or_true]
    · have h1 := usesGroup_mem hx h1
      try simp only [nodeUses] at h1
      simp only [nodeUses, QuerySpec.uses, List.mem_append, List.mem_cons, List.mem_flatMap, or_assoc]
      simp only [h1, true_or, or_true]
    · try simp only [nodeUses] at h1
      simp only [nodeUses, QuerySpec.uses, List.mem_append, List.mem_cons, List.mem_flatMap, or_assoc]
      simp only [h1, true_or, or_true]
    · have h1 : ∃ x ∈ o, u ∈ x.uses := ⟨x, hx, h1⟩
      try simp only [nodeUses] at h1
      simp only [nodeUses, QuerySpec.uses, List.mem_append, List.mem_cons, List.mem_flatMap, or_assoc]
      simp only [h1, true_or, or_true]
  | .sort ⟨.inl _, _⟩, _, hc, _ => by cases hc
  | .sort ⟨.inr c, _⟩, _, hc, h1 => by
    obtain rfl := hc
    try simp only [nodeUses] at h1
    simp only [nodeUses, SortSpec.uses, List.mem_append, List.mem_cons, List.mem_flatMap, or_assoc]
    simp only [h1, true_or, or_true]
  | .tcorr _, _, hc, _ => by cases hc
  | .colRef _, _, hc, _ => by cases hc
  | .coordExpr (.bae _ _ _), _, hc, _ => by cases hc
  | .coordExpr (.col c), _, hc, h1 => by
    obtain rfl := hc
    try simp only [nodeUses] at h1
    simp only [nodeUses, CoordExpr.uses, List.mem_append, List.mem_cons, List.mem_flatMap, or_assoc]
    simp only [h1, true_or, or_true]
  | .coordExpr (.num _), _, hc, _ => by cases hc
  | .coord c, _, hc, h1 => by
    rcases hc with rfl | rfl
    · try simp only [nodeUses] at h1
      simp only [nodeUses, Coord.uses, List.mem_append, List.mem_cons, List.mem_flatMap, or_assoc]
      simp only [h1, true_or, or_true]
    · try simp only [nodeUses] at h1
      simp only [nodeUses, Coord.uses, List.mem_append, List.mem_cons, List.mem_flatMap, or_assoc]
      simp only [h1, true_or, or_true]
  | .point p, _, hc, h1 => by
    obtain rfl := hc
    try simp only [nodeUses] at h1
    simp only [nodeUses, Point.uses, List.mem_append, List.mem_cons, List.mem_flatMap, or_assoc]
    simp only [h1, true_or, or_true]
  | .shape (.point p), _, hc, h1 => by
    obtain rfl := hc
    try simp only [nodeUses] at h1
    simp only [nodeUses, Shape.uses, List.mem_append, List.mem_cons, List.mem_flatMap, or_assoc]
    simp only [h1, true_or, or_true]
  | .shape (.circle _ c r), _, hc, h1 => by
    rcases hc with rfl | rfl
    · try simp only [nodeUses] at h1
      simp only [nodeUses, Shape.uses, List.mem_append, List.mem_cons, List.mem_flatMap, or_assoc]
      simp only [h1, true_or, or_true]
    · try simp only [nodeUses] at h1
      simp only [nodeUses, Shape.uses, List.mem_append, List.mem_cons, List.mem_flatMap, or_assoc]
      simp only [h1, true_or, or_true]
  | .shape (.box _ c w h), _, hc, h1 => by
    rcases hc with rfl | rfl | rfl
    · try simp only [nodeUses] at h1
      simp only [nodeUses, Shape.uses, List.mem_append, List.mem_cons, List.mem_flatMap, or_assoc]
      simp only [h1, true_or, or_true]
    · try simp only [nodeUses] at h1
      simp only [nodeUses, Shape.uses, List.mem_append, List.mem_cons, List.mem_flatMap, or_assoc]
      simp only [h1, true_or, or_true]
    · try simp only [nodeUses] at h1
      simp only [nodeUses, Shape.uses, List.mem_append, List.mem_cons, List.mem_flatMap, or_assoc]
      simp only [h1, true_or, or_true]
  | .shape (.ellipse _ c a b g), _, hc, h1 => by
    rcases hc with rfl | rfl | rfl | rfl
    · try simp only [nodeUses] at h1
      simp only [nodeUses, Shape.uses, List.mem_append, List.mem_cons, List.mem_flatMap, or_assoc]
      simp only [h1, true_or, or_true]
    · try simp only [nodeUses] at h1
      simp only [nodeUses, Shape.uses, List.mem_append, List.mem_cons, List.mem_flatMap, or_assoc]
      simp only [h1, true_or, or_true]
    · try simp only [nodeUses] at h1
      simp only [nodeUses, Shape.uses, List.mem_append, List.mem_cons, List.mem_flatMap, or_assoc]
      simp only [h1, true_or, or_true]
    · try simp only [nodeUses] at h1
      simp only [nodeUses, Shape.uses, List.mem_append, List.mem_cons, List.mem_flatMap, or_assoc]
      simp only [h1, true_or, or_true]
  | .shape (.polygon _ cs), _, hc, h1 => by
    obtain ⟨x, hx, rfl⟩ := hc
    have h1 : ∃ x ∈ cs, u ∈ x.uses fmt := ⟨x, hx, h1⟩
    try simp only [nodeUses] at h1
    simp only [nodeUses, Shape.uses, List.mem_append, List.mem_cons, List.mem_flatMap, or_assoc]
    simp only [h1, true_or, or_true]
  | .pointOrCol (.point p), _, hc, h1 => by
    obtain rfl := hc
    try simp only [nodeUses] at h1
    simp only [nodeUses, PointOrCol.uses, List.mem_append, List.mem_cons, List.mem_flatMap, or_assoc]
    simp only [h1, true_or, or_true]
  | .pointOrCol (.col c), _, hc, h1 => by
    obtain rfl := hc
    try simp only [nodeUses] at h1
    simp only [nodeUses, PointOrCol.uses, List.mem_append, List.mem_cons, List.mem_flatMap, or_assoc]
    simp only [h1, true_or, or_true]
  | .shapeOrCol (.shape s), _, hc, h1 => by
    obtain rfl := hc
    try simp only [nodeUses] at h1
    simp only [nodeUses, ShapeOrCol.uses, List.mem_append, List.mem_cons, List.mem_flatMap, or_assoc]
    simp only [h1, true_or, or_true]
  | .shapeOrCol (.col c), _, hc, h1 => by
    obtain rfl := hc
    try simp only [nodeUses] at h1
    simp only [nodeUses, ShapeOrCol.uses, List.mem_append, List.mem_cons, List.mem_flatMap, or_assoc]
    simp only [h1, true_or, or_true]

theorem own_uses {n : Node} (h : u ∈ own fmt n) : u ∈ nodeUses fmt n := by
  unfold own at h
  split at h <;>
    simp_all [nodeUses, NumFn.uses, Prim.uses, JoinSpec.uses, TR.uses, Item.uses, Columns.uses, CoordExpr.uses]

/-- A query uses what the nodes of its tree name. -/
theorem uses_iff {q : QuerySpec} : u ∈ q.uses fmt ↔ Names fmt u (.query q) := by
  refine ⟨q.uses_names, ?_⟩
  rintro ⟨m, hs, h⟩
  have : ∀ {n : Node}, Sub m n → u ∈ nodeUses fmt n := by
    intro n hs
    induction hs with
    | refl => exact own_uses h
    | step hc _ ih => exact child_uses hc ih
  exact this hs

end Adql
