import Verif.Model.Exchange
import Verif.Model.Named

/-!
# The names of a tree with exchanged names
-/

namespace Adql

open Spec

set_option linter.unusedSimpArgs false

/-- What `pick` takes from the used names is changed by `F`. -/
structure Follows {β : Type} (x : Exchange) (pick : Used → Option β) (F : β → β) : Prop where
  tab : ∀ t : TableCorr, (t.exch x).uses.filterMap pick = (t.uses.filterMap pick).map F
  col : ∀ c : ColRef, (x.col c).uses.filterMap pick = (c.uses.filterMap pick).map F
  star : ∀ s : Str, pick (.column (x.star s)) = (pick (.column s)).map F
  column : ∀ s : Str, (pick (.column s)).map F = pick (.column s)
  function : ∀ s : Str, (pick (.function s)).map F = pick (.function s)

section
variable {β : Type} {x : Exchange} {pick : Used → Option β} {F : β → β} {fmt : Str → Str}

/-- what is taken -/
def Taken (pick : Used → Option β) (l : List Used) : List β := l.filterMap pick

theorem taken_nil : Taken pick [] = [] := rfl

theorem taken_cons (a : Used) (l : List Used) : Taken pick (a :: l) = (pick a).toList ++ Taken pick l := by
  unfold Taken
  rw [List.filterMap_cons]
  cases pick a <;> rfl

theorem taken_append (l l' : List Used) : Taken pick (l ++ l') = Taken pick l ++ Taken pick l' := List.filterMap_append

variable (hf : Follows x pick F)
include hf

theorem Follows.fn (s : Str) : ((pick (.function s)).toList).map F = (pick (.function s)).toList := by
  have h := hf.function s
  cases e : pick (.function s) with
  | none => rfl
  | some b => rw [e] at h; simpa using h

theorem Follows.cl (s : Str) : ((pick (.column s)).toList).map F = (pick (.column s)).toList := by
  have h := hf.column s
  cases e : pick (.column s) with
  | none => rfl
  | some b => rw [e] at h; simpa using h

theorem Follows.st (s : Str) : (pick (.column (x.star s))).toList = ((pick (.column s)).toList).map F := by
  rw [hf.star]
  cases pick (.column s) <;> rfl

theorem Follows.tb (t : TableCorr) : Taken pick (t.exch x).uses = (Taken pick t.uses).map F := hf.tab t

theorem Follows.cr (c : ColRef) : Taken pick (x.col c).uses = (Taken pick c.uses).map F := hf.col c

theorem Follows.cs : ∀ l : List Str, (Taken pick (l.map .column)).map F = Taken pick (l.map .column)
  | [] => rfl
  | a :: l => by rw [List.map_cons, taken_cons, List.map_append, hf.cl, Follows.cs l]

theorem SortSpec.exch_uses : ∀ s : SortSpec, Taken pick (s.exch x).uses = (Taken pick s.uses).map F
  | ⟨.inl _, _⟩ => rfl
  | ⟨.inr c, _⟩ => hf.cr c

theorem sorts_exch : ∀ l : List SortSpec,
    Taken pick ((l.map (SortSpec.exch x)).flatMap SortSpec.uses) = (Taken pick (l.flatMap SortSpec.uses)).map F
  | [] => rfl
  | a :: l => by
    simp only [List.map_cons, List.flatMap_cons, taken_append, List.map_append, sorts_exch l, SortSpec.exch_uses hf]

theorem CoordExpr.exch_uses (c : CoordExpr) : Taken pick ((c.exch x).uses fmt) = (Taken pick (c.uses fmt)).map F := by
  cases c with
  | bae => rfl
  | col c => exact hf.cr c
  | num n =>
    simp only [CoordExpr.exch, CoordExpr.uses]
    split
    · simp only [taken_cons, taken_nil, List.append_nil, hf.cl]
    · rfl

theorem Coord.exch_uses (c : Coord) : Taken pick ((c.exch x).uses fmt) = (Taken pick (c.uses fmt)).map F := by
  simp only [Coord.exch, Coord.uses, taken_append, List.map_append, CoordExpr.exch_uses hf]

theorem Point.exch_uses (p : Point) : Taken pick ((p.exch x).uses fmt) = (Taken pick (p.uses fmt)).map F := Coord.exch_uses hf p.coord

theorem coords_exch : ∀ l : List Coord,
    Taken pick ((l.map (Coord.exch x)).flatMap (Coord.uses fmt)) = (Taken pick (l.flatMap (Coord.uses fmt))).map F
  | [] => rfl
  | a :: l => by
    simp only [List.map_cons, List.flatMap_cons, taken_append, List.map_append, coords_exch l, Coord.exch_uses hf]

theorem Shape.exch_uses (s : Shape) : Taken pick ((s.exch x).uses fmt) = (Taken pick (s.uses fmt)).map F := by
  cases s <;> simp only [Shape.exch, Shape.uses, taken_append, List.map_append, Point.exch_uses hf, Coord.exch_uses hf,
    CoordExpr.exch_uses hf, coords_exch hf]

theorem PointOrCol.exch_uses (s : PointOrCol) : Taken pick ((s.exch x).uses fmt) = (Taken pick (s.uses fmt)).map F := by
  cases s <;> simp only [PointOrCol.exch, PointOrCol.uses, Point.exch_uses hf, hf.cr]

theorem ShapeOrCol.exch_uses (s : ShapeOrCol) : Taken pick ((s.exch x).uses fmt) = (Taken pick (s.uses fmt)).map F := by
  cases s <;> simp only [ShapeOrCol.exch, ShapeOrCol.uses, Shape.exch_uses hf, hf.cr]

mutual

theorem VE.exch_uses : ∀ v : VE, Taken pick ((v.exch x).uses fmt) = (Taken pick (v.uses fmt)).map F
  | .nb a => by simp only [VE.exch, VE.uses, taken_append, taken_cons, taken_nil, List.map_append, List.append_nil, List.map_nil, hf.fn, hf.cl, hf.st, hf.tb, hf.cr, hf.cs, a.exch_uses]
  | .sc a => by simp only [VE.exch, VE.uses, taken_append, taken_cons, taken_nil, List.map_append, List.append_nil, List.map_nil, hf.fn, hf.cl, hf.st, hf.tb, hf.cr, hf.cs, a.exch_uses]

theorem VENB.exch_uses : ∀ v : VENB, Taken pick ((v.exch x).uses fmt) = (Taken pick (v.uses fmt)).map F
  | .mk a b => by simp only [VENB.exch, VENB.uses, taken_append, taken_cons, taken_nil, List.map_append, List.append_nil, List.map_nil, hf.fn, hf.cl, hf.st, hf.tb, hf.cr, hf.cs, a.exch_uses, usesTerms_exch b]

theorem usesTerms_exch : ∀ l : List Term, Taken pick (usesTerms fmt (exchTerms x l)) = (Taken pick (usesTerms fmt l)).map F
  | [] => by simp only [usesTerms, exchTerms, taken_append, taken_cons, taken_nil, List.map_append, List.append_nil, List.map_nil, hf.fn, hf.cl, hf.st, hf.tb, hf.cr, hf.cs]
  | a :: l => by simp only [usesTerms, exchTerms, taken_append, taken_cons, taken_nil, List.map_append, List.append_nil, List.map_nil, hf.fn, hf.cl, hf.st, hf.tb, hf.cr, hf.cs, a.exch_uses, usesTerms_exch l]

theorem Term.exch_uses : ∀ v : Term, Taken pick ((v.exch x).uses fmt) = (Taken pick (v.uses fmt)).map F
  | .mk a b => by simp only [Term.exch, Term.uses, taken_append, taken_cons, taken_nil, List.map_append, List.append_nil, List.map_nil, hf.fn, hf.cl, hf.st, hf.tb, hf.cr, hf.cs, b.exch_uses]

theorem Factor.exch_uses : ∀ v : Factor, Taken pick ((v.exch x).uses fmt) = (Taken pick (v.uses fmt)).map F
  | .mk a b => by simp only [Factor.exch, Factor.uses, taken_append, taken_cons, taken_nil, List.map_append, List.append_nil, List.map_nil, hf.fn, hf.cl, hf.st, hf.tb, hf.cr, hf.cs, b.exch_uses]

theorem NumPrim.exch_uses : ∀ v : NumPrim, Taken pick ((v.exch x).uses fmt) = (Taken pick (v.uses fmt)).map F
  | .vep a => by simp only [NumPrim.exch, NumPrim.uses, taken_append, taken_cons, taken_nil, List.map_append, List.append_nil, List.map_nil, hf.fn, hf.cl, hf.st, hf.tb, hf.cr, hf.cs, a.exch_uses]
  | .nvf a => by simp only [NumPrim.exch, NumPrim.uses, taken_append, taken_cons, taken_nil, List.map_append, List.append_nil, List.map_nil, hf.fn, hf.cl, hf.st, hf.tb, hf.cr, hf.cs, a.exch_uses]

theorem NumFn.exch_uses : ∀ v : NumFn, Taken pick ((v.exch x).uses fmt) = (Taken pick (v.uses fmt)).map F
  | .trig1 a b => by simp only [NumFn.exch, NumFn.uses, taken_append, taken_cons, taken_nil, List.map_append, List.append_nil, List.map_nil, hf.fn, hf.cl, hf.st, hf.tb, hf.cr, hf.cs, b.exch_uses]
  | .trig2 a b c => by simp only [NumFn.exch, NumFn.uses, taken_append, taken_cons, taken_nil, List.map_append, List.append_nil, List.map_nil, hf.fn, hf.cl, hf.st, hf.tb, hf.cr, hf.cs, b.exch_uses, c.exch_uses]
  | .math0 a => by simp only [NumFn.exch, NumFn.uses, taken_append, taken_cons, taken_nil, List.map_append, List.append_nil, List.map_nil, hf.fn, hf.cl, hf.st, hf.tb, hf.cr, hf.cs]
  | .math1 a b => by simp only [NumFn.exch, NumFn.uses, taken_append, taken_cons, taken_nil, List.map_append, List.append_nil, List.map_nil, hf.fn, hf.cl, hf.st, hf.tb, hf.cr, hf.cs, b.exch_uses]
  | .math2 a b c => by simp only [NumFn.exch, NumFn.uses, taken_append, taken_cons, taken_nil, List.map_append, List.append_nil, List.map_nil, hf.fn, hf.cl, hf.st, hf.tb, hf.cr, hf.cs, b.exch_uses, c.exch_uses]
  | .cast a b c => by simp only [NumFn.exch, NumFn.uses, taken_append, taken_cons, taken_nil, List.map_append, List.append_nil, List.map_nil, hf.fn, hf.cl, hf.st, hf.tb, hf.cr, hf.cs, a.exch_uses]
  | .geo1 a b => by simp only [NumFn.exch, NumFn.uses, taken_append, taken_cons, taken_nil, List.map_append, List.append_nil, List.map_nil, hf.fn, hf.cl, hf.st, hf.tb, hf.cr, hf.cs, PointOrCol.exch_uses hf]
  | .geo2 a b c => by simp only [NumFn.exch, NumFn.uses, taken_append, taken_cons, taken_nil, List.map_append, List.append_nil, List.map_nil, hf.fn, hf.cl, hf.st, hf.tb, hf.cr, hf.cs, PointOrCol.exch_uses hf]
  | .udf a b => by simp only [NumFn.exch, NumFn.uses, taken_append, taken_cons, taken_nil, List.map_append, List.append_nil, List.map_nil, hf.fn, hf.cl, hf.st, hf.tb, hf.cr, hf.cs, usesVEs_exch b]
  | .str a => by simp only [NumFn.exch, NumFn.uses, taken_append, taken_cons, taken_nil, List.map_append, List.append_nil, List.map_nil, hf.fn, hf.cl, hf.st, hf.tb, hf.cr, hf.cs]

theorem usesVEs_exch : ∀ l : List VE, Taken pick (usesVEs fmt (exchVEs x l)) = (Taken pick (usesVEs fmt l)).map F
  | [] => by simp only [usesVEs, exchVEs, taken_append, taken_cons, taken_nil, List.map_append, List.append_nil, List.map_nil, hf.fn, hf.cl, hf.st, hf.tb, hf.cr, hf.cs]
  | a :: l => by simp only [usesVEs, exchVEs, taken_append, taken_cons, taken_nil, List.map_append, List.append_nil, List.map_nil, hf.fn, hf.cl, hf.st, hf.tb, hf.cr, hf.cs, a.exch_uses, usesVEs_exch l]

theorem VEP.exch_uses : ∀ v : VEP, Taken pick ((v.exch x).uses fmt) = (Taken pick (v.uses fmt)).map F
  | .mk a b => by simp only [VEP.exch, VEP.uses, taken_append, taken_cons, taken_nil, List.map_append, List.append_nil, List.map_nil, hf.fn, hf.cl, hf.st, hf.tb, hf.cr, hf.cs, a.exch_uses, usesVEs_exch b]

theorem Prim.exch_uses : ∀ v : Prim, Taken pick ((v.exch x).uses fmt) = (Taken pick (v.uses fmt)).map F
  | .arr a => by simp only [Prim.exch, Prim.uses, taken_append, taken_cons, taken_nil, List.map_append, List.append_nil, List.map_nil, hf.fn, hf.cl, hf.st, hf.tb, hf.cr, hf.cs, usesVEs_exch a]
  | .str a => by simp only [Prim.exch, Prim.uses, taken_append, taken_cons, taken_nil, List.map_append, List.append_nil, List.map_nil, hf.fn, hf.cl, hf.st, hf.tb, hf.cr, hf.cs]
  | .col a => by simp only [Prim.exch, Prim.uses, taken_append, taken_cons, taken_nil, List.map_append, List.append_nil, List.map_nil, hf.fn, hf.cl, hf.st, hf.tb, hf.cr, hf.cs]
  | .countStar a => by simp only [Prim.exch, Prim.uses, taken_append, taken_cons, taken_nil, List.map_append, List.append_nil, List.map_nil, hf.fn, hf.cl, hf.st, hf.tb, hf.cr, hf.cs]
  | .setFn a b c => by simp only [Prim.exch, Prim.uses, taken_append, taken_cons, taken_nil, List.map_append, List.append_nil, List.map_nil, hf.fn, hf.cl, hf.st, hf.tb, hf.cr, hf.cs, c.exch_uses]
  | .case a => by simp only [Prim.exch, Prim.uses, taken_append, taken_cons, taken_nil, List.map_append, List.append_nil, List.map_nil, hf.fn, hf.cl, hf.st, hf.tb, hf.cr, hf.cs, a.exch_uses]
  | .any a => by simp only [Prim.exch, Prim.uses, taken_append, taken_cons, taken_nil, List.map_append, List.append_nil, List.map_nil, hf.fn, hf.cl, hf.st, hf.tb, hf.cr, hf.cs, a.exch_uses]
  | .sub a => by simp only [Prim.exch, Prim.uses, taken_append, taken_cons, taken_nil, List.map_append, List.append_nil, List.map_nil, hf.fn, hf.cl, hf.st, hf.tb, hf.cr, hf.cs, a.exch_uses]

theorem CaseE.exch_uses : ∀ v : CaseE, Taken pick ((v.exch x).uses fmt) = (Taken pick (v.uses fmt)).map F
  | .nullif a b => by simp only [CaseE.exch, CaseE.uses, taken_append, taken_cons, taken_nil, List.map_append, List.append_nil, List.map_nil, hf.fn, hf.cl, hf.st, hf.tb, hf.cr, hf.cs, a.exch_uses, b.exch_uses]
  | .coalesce a => by simp only [CaseE.exch, CaseE.uses, taken_append, taken_cons, taken_nil, List.map_append, List.append_nil, List.map_nil, hf.fn, hf.cl, hf.st, hf.tb, hf.cr, hf.cs, usesVEs_exch a]
  | .simple a b c => by simp only [CaseE.exch, CaseE.uses, taken_append, taken_cons, taken_nil, List.map_append, List.append_nil, List.map_nil, hf.fn, hf.cl, hf.st, hf.tb, hf.cr, hf.cs, a.exch_uses, usesWhens_exch b, c.exch_uses]
  | .searched a b => by simp only [CaseE.exch, CaseE.uses, taken_append, taken_cons, taken_nil, List.map_append, List.append_nil, List.map_nil, hf.fn, hf.cl, hf.st, hf.tb, hf.cr, hf.cs, usesConds_exch a, b.exch_uses]

theorem usesWhens_exch : ∀ l : List SimpleWhen, Taken pick (usesWhens fmt (exchWhens x l)) = (Taken pick (usesWhens fmt l)).map F
  | [] => by simp only [usesWhens, exchWhens, taken_append, taken_cons, taken_nil, List.map_append, List.append_nil, List.map_nil, hf.fn, hf.cl, hf.st, hf.tb, hf.cr, hf.cs]
  | .mk a b :: l => by simp only [usesWhens, exchWhens, SimpleWhen.exch, taken_append, taken_cons, taken_nil, List.map_append, List.append_nil, List.map_nil, hf.fn, hf.cl, hf.st, hf.tb, hf.cr, hf.cs, a.exch_uses, b.exch_uses, usesWhens_exch l]

theorem usesConds_exch : ∀ l : List SearchedWhen, Taken pick (usesConds fmt (exchConds x l)) = (Taken pick (usesConds fmt l)).map F
  | [] => by simp only [usesConds, exchConds, taken_append, taken_cons, taken_nil, List.map_append, List.append_nil, List.map_nil, hf.fn, hf.cl, hf.st, hf.tb, hf.cr, hf.cs]
  | .mk a b :: l => by simp only [usesConds, exchConds, SearchedWhen.exch, taken_append, taken_cons, taken_nil, List.map_append, List.append_nil, List.map_nil, hf.fn, hf.cl, hf.st, hf.tb, hf.cr, hf.cs, a.exch_uses, b.exch_uses, usesConds_exch l]

theorem CaseResult.exch_uses : ∀ v : CaseResult, Taken pick ((v.exch x).uses fmt) = (Taken pick (v.uses fmt)).map F
  | .str a => by simp only [CaseResult.exch, CaseResult.uses, taken_append, taken_cons, taken_nil, List.map_append, List.append_nil, List.map_nil, hf.fn, hf.cl, hf.st, hf.tb, hf.cr, hf.cs]
  | .ve a => by simp only [CaseResult.exch, CaseResult.uses, taken_append, taken_cons, taken_nil, List.map_append, List.append_nil, List.map_nil, hf.fn, hf.cl, hf.st, hf.tb, hf.cr, hf.cs, a.exch_uses]

theorem SC.exch_uses : ∀ v : SC, Taken pick ((v.exch x).uses fmt) = (Taken pick (v.uses fmt)).map F
  | .factor a => by simp only [SC.exch, SC.uses, taken_append, taken_cons, taken_nil, List.map_append, List.append_nil, List.map_nil, hf.fn, hf.cl, hf.st, hf.tb, hf.cr, hf.cs, a.exch_uses]
  | .term a b c => by simp only [SC.exch, SC.uses, taken_append, taken_cons, taken_nil, List.map_append, List.append_nil, List.map_nil, hf.fn, hf.cl, hf.st, hf.tb, hf.cr, hf.cs, a.exch_uses, c.exch_uses]

theorem BF.exch_uses : ∀ v : BF, Taken pick ((v.exch x).uses fmt) = (Taken pick (v.uses fmt)).map F
  | .mk a b => by simp only [BF.exch, BF.uses, taken_append, taken_cons, taken_nil, List.map_append, List.append_nil, List.map_nil, hf.fn, hf.cl, hf.st, hf.tb, hf.cr, hf.cs, b.exch_uses]

theorem BP.exch_uses : ∀ v : BP, Taken pick ((v.exch x).uses fmt) = (Taken pick (v.uses fmt)).map F
  | .pred a => by simp only [BP.exch, BP.uses, taken_append, taken_cons, taken_nil, List.map_append, List.append_nil, List.map_nil, hf.fn, hf.cl, hf.st, hf.tb, hf.cr, hf.cs, a.exch_uses]
  | .sc a => by simp only [BP.exch, BP.uses, taken_append, taken_cons, taken_nil, List.map_append, List.append_nil, List.map_nil, hf.fn, hf.cl, hf.st, hf.tb, hf.cr, hf.cs, a.exch_uses]
  | .ve a => by simp only [BP.exch, BP.uses, taken_append, taken_cons, taken_nil, List.map_append, List.append_nil, List.map_nil, hf.fn, hf.cl, hf.st, hf.tb, hf.cr, hf.cs, a.exch_uses]

theorem Pred.exch_uses : ∀ v : Pred, Taken pick ((v.exch x).uses fmt) = (Taken pick (v.uses fmt)).map F
  | .cmp a b c => by simp only [Pred.exch, Pred.uses, taken_append, taken_cons, taken_nil, List.map_append, List.append_nil, List.map_nil, hf.fn, hf.cl, hf.st, hf.tb, hf.cr, hf.cs, a.exch_uses, c.exch_uses]
  | .between a b c d => by simp only [Pred.exch, Pred.uses, taken_append, taken_cons, taken_nil, List.map_append, List.append_nil, List.map_nil, hf.fn, hf.cl, hf.st, hf.tb, hf.cr, hf.cs, a.exch_uses, c.exch_uses, d.exch_uses]
  | .inSub a b c => by simp only [Pred.exch, Pred.uses, taken_append, taken_cons, taken_nil, List.map_append, List.append_nil, List.map_nil, hf.fn, hf.cl, hf.st, hf.tb, hf.cr, hf.cs, a.exch_uses, c.exch_uses]
  | .inList a b c => by simp only [Pred.exch, Pred.uses, taken_append, taken_cons, taken_nil, List.map_append, List.append_nil, List.map_nil, hf.fn, hf.cl, hf.st, hf.tb, hf.cr, hf.cs, a.exch_uses, usesVEs_exch c]
  | .null a b => by simp only [Pred.exch, Pred.uses, taken_append, taken_cons, taken_nil, List.map_append, List.append_nil, List.map_nil, hf.fn, hf.cl, hf.st, hf.tb, hf.cr, hf.cs, a.exch_uses]
  | .like a b c => by simp only [Pred.exch, Pred.uses, taken_append, taken_cons, taken_nil, List.map_append, List.append_nil, List.map_nil, hf.fn, hf.cl, hf.st, hf.tb, hf.cr, hf.cs, a.exch_uses, c.exch_uses]
  | .exist a => by simp only [Pred.exch, Pred.uses, taken_append, taken_cons, taken_nil, List.map_append, List.append_nil, List.map_nil, hf.fn, hf.cl, hf.st, hf.tb, hf.cr, hf.cs, a.exch_uses]

theorem Subquery.exch_uses : ∀ v : Subquery, Taken pick ((v.exch x).uses fmt) = (Taken pick (v.uses fmt)).map F
  | .jt a => by simp only [Subquery.exch, Subquery.uses, taken_append, taken_cons, taken_nil, List.map_append, List.append_nil, List.map_nil, hf.fn, hf.cl, hf.st, hf.tb, hf.cr, hf.cs, a.exch_uses]
  | .qs a => by simp only [Subquery.exch, Subquery.uses, taken_append, taken_cons, taken_nil, List.map_append, List.append_nil, List.map_nil, hf.fn, hf.cl, hf.st, hf.tb, hf.cr, hf.cs, a.exch_uses]

theorem JT.exch_uses : ∀ v : JT, Taken pick ((v.exch x).uses fmt) = (Taken pick (v.uses fmt)).map F
  | .qj a => by simp only [JT.exch, JT.uses, taken_append, taken_cons, taken_nil, List.map_append, List.append_nil, List.map_nil, hf.fn, hf.cl, hf.st, hf.tb, hf.cr, hf.cs, a.exch_uses]
  | .wrap a => by simp only [JT.exch, JT.uses, taken_append, taken_cons, taken_nil, List.map_append, List.append_nil, List.map_nil, hf.fn, hf.cl, hf.st, hf.tb, hf.cr, hf.cs, a.exch_uses]

theorem QJ.exch_uses : ∀ v : QJ, Taken pick ((v.exch x).uses fmt) = (Taken pick (v.uses fmt)).map F
  | .mk a b => by simp only [QJ.exch, QJ.uses, taken_append, taken_cons, taken_nil, List.map_append, List.append_nil, List.map_nil, hf.fn, hf.cl, hf.st, hf.tb, hf.cr, hf.cs, a.exch_uses, usesSuffixes_exch b]

theorem QJHead.exch_uses : ∀ v : QJHead, Taken pick ((v.exch x).uses fmt) = (Taken pick (v.uses fmt)).map F
  | .tc a => by simp only [QJHead.exch, QJHead.uses, taken_append, taken_cons, taken_nil, List.map_append, List.append_nil, List.map_nil, hf.fn, hf.cl, hf.st, hf.tb, hf.cr, hf.cs]
  | .jt a => by simp only [QJHead.exch, QJHead.uses, taken_append, taken_cons, taken_nil, List.map_append, List.append_nil, List.map_nil, hf.fn, hf.cl, hf.st, hf.tb, hf.cr, hf.cs, a.exch_uses]

theorem usesSuffixes_exch : ∀ l : List JoinSuffix, Taken pick (usesSuffixes fmt (exchSuffixes x l)) = (Taken pick (usesSuffixes fmt l)).map F
  | [] => by simp only [usesSuffixes, exchSuffixes, taken_append, taken_cons, taken_nil, List.map_append, List.append_nil, List.map_nil, hf.fn, hf.cl, hf.st, hf.tb, hf.cr, hf.cs]
  | a :: l => by simp only [usesSuffixes, exchSuffixes, taken_append, taken_cons, taken_nil, List.map_append, List.append_nil, List.map_nil, hf.fn, hf.cl, hf.st, hf.tb, hf.cr, hf.cs, a.exch_uses, usesSuffixes_exch l]

theorem JoinSuffix.exch_uses : ∀ v : JoinSuffix, Taken pick ((v.exch x).uses fmt) = (Taken pick (v.uses fmt)).map F
  | .mk a b c d => by simp only [JoinSuffix.exch, JoinSuffix.uses, taken_append, taken_cons, taken_nil, List.map_append, List.append_nil, List.map_nil, hf.fn, hf.cl, hf.st, hf.tb, hf.cr, hf.cs, c.exch_uses, d.exch_uses]

theorem JoinSpec.exch_uses : ∀ v : JoinSpec, Taken pick ((v.exch x).uses fmt) = (Taken pick (v.uses fmt)).map F
  | .named a => by simp only [JoinSpec.exch, JoinSpec.uses, taken_append, taken_cons, taken_nil, List.map_append, List.append_nil, List.map_nil, hf.fn, hf.cl, hf.st, hf.tb, hf.cr, hf.cs]
  | .on a => by simp only [JoinSpec.exch, JoinSpec.uses, taken_append, taken_cons, taken_nil, List.map_append, List.append_nil, List.map_nil, hf.fn, hf.cl, hf.st, hf.tb, hf.cr, hf.cs, a.exch_uses]

theorem TR.exch_uses : ∀ v : TR, Taken pick ((v.exch x).uses fmt) = (Taken pick (v.uses fmt)).map F
  | .tc a => by simp only [TR.exch, TR.uses, taken_append, taken_cons, taken_nil, List.map_append, List.append_nil, List.map_nil, hf.fn, hf.cl, hf.st, hf.tb, hf.cr, hf.cs]
  | .jt a => by simp only [TR.exch, TR.uses, taken_append, taken_cons, taken_nil, List.map_append, List.append_nil, List.map_nil, hf.fn, hf.cl, hf.st, hf.tb, hf.cr, hf.cs, a.exch_uses]
  | .derived a b => by simp only [TR.exch, TR.uses, taken_append, taken_cons, taken_nil, List.map_append, List.append_nil, List.map_nil, hf.fn, hf.cl, hf.st, hf.tb, hf.cr, hf.cs, a.exch_uses]
  | .tvf a b => by simp only [TR.exch, TR.uses, taken_append, taken_cons, taken_nil, List.map_append, List.append_nil, List.map_nil, hf.fn, hf.cl, hf.st, hf.tb, hf.cr, hf.cs]

theorem GPred.exch_uses : ∀ v : GPred, Taken pick ((v.exch x).uses fmt) = (Taken pick (v.uses fmt)).map F
  | .intersects a b => by simp only [GPred.exch, GPred.uses, taken_append, taken_cons, taken_nil, List.map_append, List.append_nil, List.map_nil, hf.fn, hf.cl, hf.st, hf.tb, hf.cr, hf.cs, a.exch_uses, ShapeOrCol.exch_uses hf]
  | .contains a b => by simp only [GPred.exch, GPred.uses, taken_append, taken_cons, taken_nil, List.map_append, List.append_nil, List.map_nil, hf.fn, hf.cl, hf.st, hf.tb, hf.cr, hf.cs, ShapeOrCol.exch_uses hf]

theorem Geom.exch_uses : ∀ v : Geom, Taken pick ((v.exch x).uses fmt) = (Taken pick (v.uses fmt)).map F
  | .left a b => by simp only [Geom.exch, Geom.uses, taken_append, taken_cons, taken_nil, List.map_append, List.append_nil, List.map_nil, hf.fn, hf.cl, hf.st, hf.tb, hf.cr, hf.cs, b.exch_uses]
  | .right a b => by simp only [Geom.exch, Geom.uses, taken_append, taken_cons, taken_nil, List.map_append, List.append_nil, List.map_nil, hf.fn, hf.cl, hf.st, hf.tb, hf.cr, hf.cs, a.exch_uses]

theorem Where.exch_uses : ∀ v : Where, Taken pick ((v.exch x).uses fmt) = (Taken pick (v.uses fmt)).map F
  | .mk a b => by simp only [Where.exch, Where.uses, taken_append, taken_cons, taken_nil, List.map_append, List.append_nil, List.map_nil, hf.fn, hf.cl, hf.st, hf.tb, hf.cr, hf.cs, a.exch_uses, b.exch_uses]

theorem Item.exch_uses : ∀ v : Item, Taken pick ((v.exch x).uses fmt) = (Taken pick (v.uses fmt)).map F
  | .as a b => by simp only [Item.exch, Item.uses, taken_append, taken_cons, taken_nil, List.map_append, List.append_nil, List.map_nil, hf.fn, hf.cl, hf.st, hf.tb, hf.cr, hf.cs, a.exch_uses]
  | .nonAsStr a => by simp only [Item.exch, Item.uses, taken_append, taken_cons, taken_nil, List.map_append, List.append_nil, List.map_nil, hf.fn, hf.cl, hf.st, hf.tb, hf.cr, hf.cs]
  | .nonAsVE a => by simp only [Item.exch, Item.uses, taken_append, taken_cons, taken_nil, List.map_append, List.append_nil, List.map_nil, hf.fn, hf.cl, hf.st, hf.tb, hf.cr, hf.cs, a.exch_uses]

theorem usesItems_exch : ∀ l : List Item, Taken pick (usesItems fmt (exchItems x l)) = (Taken pick (usesItems fmt l)).map F
  | [] => by simp only [usesItems, exchItems, taken_append, taken_cons, taken_nil, List.map_append, List.append_nil, List.map_nil, hf.fn, hf.cl, hf.st, hf.tb, hf.cr, hf.cs]
  | a :: l => by simp only [usesItems, exchItems, taken_append, taken_cons, taken_nil, List.map_append, List.append_nil, List.map_nil, hf.fn, hf.cl, hf.st, hf.tb, hf.cr, hf.cs, a.exch_uses, usesItems_exch l]

theorem Columns.exch_uses : ∀ v : Columns, Taken pick ((v.exch x).uses fmt) = (Taken pick (v.uses fmt)).map F
  | .star a => by simp only [Columns.exch, Columns.uses, taken_append, taken_cons, taken_nil, List.map_append, List.append_nil, List.map_nil, hf.fn, hf.cl, hf.st, hf.tb, hf.cr, hf.cs]
  | .items a => by simp only [Columns.exch, Columns.uses, taken_append, taken_cons, taken_nil, List.map_append, List.append_nil, List.map_nil, hf.fn, hf.cl, hf.st, hf.tb, hf.cr, hf.cs, usesItems_exch a]

theorem Select.exch_uses : ∀ v : Select, Taken pick ((v.exch x).uses fmt) = (Taken pick (v.uses fmt)).map F
  | .mk a b c => by simp only [Select.exch, Select.uses, taken_append, taken_cons, taken_nil, List.map_append, List.append_nil, List.map_nil, hf.fn, hf.cl, hf.st, hf.tb, hf.cr, hf.cs, c.exch_uses]

theorem usesTRs_exch : ∀ l : List TR, Taken pick (usesTRs fmt (exchTRs x l)) = (Taken pick (usesTRs fmt l)).map F
  | [] => by simp only [usesTRs, exchTRs, taken_append, taken_cons, taken_nil, List.map_append, List.append_nil, List.map_nil, hf.fn, hf.cl, hf.st, hf.tb, hf.cr, hf.cs]
  | a :: l => by simp only [usesTRs, exchTRs, taken_append, taken_cons, taken_nil, List.map_append, List.append_nil, List.map_nil, hf.fn, hf.cl, hf.st, hf.tb, hf.cr, hf.cs, a.exch_uses, usesTRs_exch l]

theorem SFW.exch_uses : ∀ v : SFW, Taken pick ((v.exch x).uses fmt) = (Taken pick (v.uses fmt)).map F
  | .mk a b c => by simp only [SFW.exch, SFW.uses, taken_append, taken_cons, taken_nil, List.map_append, List.append_nil, List.map_nil, hf.fn, hf.cl, hf.st, hf.tb, hf.cr, hf.cs, a.exch_uses, usesTRs_exch b, c.exch_uses]

theorem Addon.exch_uses : ∀ v : Addon, Taken pick ((v.exch x).uses fmt) = (Taken pick (v.uses fmt)).map F
  | .mk a b => by simp only [Addon.exch, Addon.uses, taken_append, taken_cons, taken_nil, List.map_append, List.append_nil, List.map_nil, hf.fn, hf.cl, hf.st, hf.tb, hf.cr, hf.cs, b.exch_uses]

theorem usesAddons_exch : ∀ l : List Addon, Taken pick (usesAddons fmt (exchAddons x l)) = (Taken pick (usesAddons fmt l)).map F
  | [] => by simp only [usesAddons, exchAddons, taken_append, taken_cons, taken_nil, List.map_append, List.append_nil, List.map_nil, hf.fn, hf.cl, hf.st, hf.tb, hf.cr, hf.cs]
  | a :: l => by simp only [usesAddons, exchAddons, taken_append, taken_cons, taken_nil, List.map_append, List.append_nil, List.map_nil, hf.fn, hf.cl, hf.st, hf.tb, hf.cr, hf.cs, a.exch_uses, usesAddons_exch l]

theorem SFWList.exch_uses : ∀ v : SFWList, Taken pick ((v.exch x).uses fmt) = (Taken pick (v.uses fmt)).map F
  | .mk a b => by simp only [SFWList.exch, SFWList.uses, taken_append, taken_cons, taken_nil, List.map_append, List.append_nil, List.map_nil, hf.fn, hf.cl, hf.st, hf.tb, hf.cr, hf.cs, a.exch_uses, usesAddons_exch b]

theorem GroupTerm.exch_uses : ∀ v : GroupTerm, Taken pick ((v.exch x).uses fmt) = (Taken pick (v.uses fmt)).map F
  | .col a => by simp only [GroupTerm.exch, GroupTerm.uses, taken_append, taken_cons, taken_nil, List.map_append, List.append_nil, List.map_nil, hf.fn, hf.cl, hf.st, hf.tb, hf.cr, hf.cs]
  | .ve a => by simp only [GroupTerm.exch, GroupTerm.uses, taken_append, taken_cons, taken_nil, List.map_append, List.append_nil, List.map_nil, hf.fn, hf.cl, hf.st, hf.tb, hf.cr, hf.cs, a.exch_uses]

theorem usesGroup_exch : ∀ l : List GroupTerm, Taken pick (usesGroup fmt (exchGroup x l)) = (Taken pick (usesGroup fmt l)).map F
  | [] => by simp only [usesGroup, exchGroup, taken_append, taken_cons, taken_nil, List.map_append, List.append_nil, List.map_nil, hf.fn, hf.cl, hf.st, hf.tb, hf.cr, hf.cs]
  | a :: l => by simp only [usesGroup, exchGroup, taken_append, taken_cons, taken_nil, List.map_append, List.append_nil, List.map_nil, hf.fn, hf.cl, hf.st, hf.tb, hf.cr, hf.cs, a.exch_uses, usesGroup_exch l]

theorem With.exch_uses : ∀ v : With, Taken pick ((v.exch x).uses fmt) = (Taken pick (v.uses fmt)).map F
  | .mk a b c => by simp only [With.exch, With.uses, taken_append, taken_cons, taken_nil, List.map_append, List.append_nil, List.map_nil, hf.fn, hf.cl, hf.st, hf.tb, hf.cr, hf.cs, c.exch_uses]

theorem QuerySpec.exch_uses : ∀ v : QuerySpec, Taken pick ((v.exch x).uses fmt) = (Taken pick (v.uses fmt)).map F
  | .mk a b c d e => by simp only [QuerySpec.exch, QuerySpec.uses, taken_append, taken_cons, taken_nil, List.map_append, List.append_nil, List.map_nil, hf.fn, hf.cl, hf.st, hf.tb, hf.cr, hf.cs, a.exch_uses, b.exch_uses, usesGroup_exch c, d.exch_uses, sorts_exch hf]

end

end

/-! ### Laws -/

theorem TableCorr.exch_id (t : TableCorr) : t.exch {} = t := by
  unfold TableCorr.exch
  split <;> rfl

theorem sorts_exch_id : ∀ l : List SortSpec, l.map (SortSpec.exch {}) = l
  | [] => rfl
  | ⟨.inl _, _⟩ :: l => by rw [List.map_cons, sorts_exch_id l]; rfl
  | ⟨.inr _, _⟩ :: l => by rw [List.map_cons, sorts_exch_id l]; rfl

theorem CoordExpr.exch_id (c : CoordExpr) : c.exch {} = c := by cases c <;> rfl

theorem Coord.exch_id (c : Coord) : c.exch {} = c := by
  obtain ⟨a, b⟩ := c
  simp only [Coord.exch, CoordExpr.exch_id]

theorem Point.exch_id (p : Point) : p.exch {} = p := by
  obtain ⟨a, b⟩ := p
  simp only [Point.exch, Coord.exch_id]

theorem coords_exch_id : ∀ l : List Coord, l.map (Coord.exch {}) = l
  | [] => rfl
  | a :: l => by rw [List.map_cons, coords_exch_id l, Coord.exch_id]

theorem Shape.exch_id (s : Shape) : s.exch {} = s := by
  cases s <;> simp only [Shape.exch, Point.exch_id, Coord.exch_id, CoordExpr.exch_id, coords_exch_id]

theorem PointOrCol.exch_id (s : PointOrCol) : s.exch {} = s := by
  cases s <;> simp only [PointOrCol.exch, Point.exch_id, id_eq]

theorem ShapeOrCol.exch_id (s : ShapeOrCol) : s.exch {} = s := by
  cases s <;> simp only [ShapeOrCol.exch, Shape.exch_id, id_eq]

mutual

theorem VE.exch_id : ∀ v : VE, v.exch {} = v
  | .nb a => by simp only [VE.exch, a.exch_id]
  | .sc a => by simp only [VE.exch, a.exch_id]

theorem VENB.exch_id : ∀ v : VENB, v.exch {} = v
  | .mk a b => by simp only [VENB.exch, a.exch_id, exchTerms_id b]

theorem exchTerms_id : ∀ l : List Term, exchTerms {} l = l
  | [] => by simp only [exchTerms]
  | a :: l => by simp only [exchTerms, a.exch_id, exchTerms_id l]

theorem Term.exch_id : ∀ v : Term, v.exch {} = v
  | .mk a b => by simp only [Term.exch, b.exch_id]

theorem Factor.exch_id : ∀ v : Factor, v.exch {} = v
  | .mk a b => by simp only [Factor.exch, b.exch_id]

theorem NumPrim.exch_id : ∀ v : NumPrim, v.exch {} = v
  | .vep a => by simp only [NumPrim.exch, a.exch_id]
  | .nvf a => by simp only [NumPrim.exch, a.exch_id]

theorem NumFn.exch_id : ∀ v : NumFn, v.exch {} = v
  | .trig1 a b => by simp only [NumFn.exch, b.exch_id]
  | .trig2 a b c => by simp only [NumFn.exch, b.exch_id, c.exch_id]
  | .math0 a => by simp only [NumFn.exch]
  | .math1 a b => by simp only [NumFn.exch, b.exch_id]
  | .math2 a b c => by simp only [NumFn.exch, b.exch_id, c.exch_id]
  | .cast a b c => by simp only [NumFn.exch, a.exch_id]
  | .geo1 a b => by simp only [NumFn.exch, PointOrCol.exch_id]
  | .geo2 a b c => by simp only [NumFn.exch, PointOrCol.exch_id]
  | .udf a b => by simp only [NumFn.exch, exchVEs_id b]
  | .str a => by simp only [NumFn.exch]

theorem exchVEs_id : ∀ l : List VE, exchVEs {} l = l
  | [] => by simp only [exchVEs]
  | a :: l => by simp only [exchVEs, a.exch_id, exchVEs_id l]

theorem VEP.exch_id : ∀ v : VEP, v.exch {} = v
  | .mk a b => by simp only [VEP.exch, a.exch_id, exchVEs_id b]

theorem Prim.exch_id : ∀ v : Prim, v.exch {} = v
  | .arr a => by simp only [Prim.exch, exchVEs_id a]
  | .str a => by simp only [Prim.exch]
  | .col a => by simp only [Prim.exch, id_eq]
  | .countStar a => by simp only [Prim.exch]
  | .setFn a b c => by simp only [Prim.exch, c.exch_id]
  | .case a => by simp only [Prim.exch, a.exch_id]
  | .any a => by simp only [Prim.exch, a.exch_id]
  | .sub a => by simp only [Prim.exch, a.exch_id]

theorem CaseE.exch_id : ∀ v : CaseE, v.exch {} = v
  | .nullif a b => by simp only [CaseE.exch, a.exch_id, b.exch_id]
  | .coalesce a => by simp only [CaseE.exch, exchVEs_id a]
  | .simple a b c => by simp only [CaseE.exch, a.exch_id, exchWhens_id b, c.exch_id]
  | .searched a b => by simp only [CaseE.exch, exchConds_id a, b.exch_id]

theorem SimpleWhen.exch_id : ∀ v : SimpleWhen, v.exch {} = v
  | .mk a b => by simp only [SimpleWhen.exch, a.exch_id, b.exch_id]

theorem exchWhens_id : ∀ l : List SimpleWhen, exchWhens {} l = l
  | [] => by simp only [exchWhens]
  | a :: l => by simp only [exchWhens, a.exch_id, exchWhens_id l]

theorem SearchedWhen.exch_id : ∀ v : SearchedWhen, v.exch {} = v
  | .mk a b => by simp only [SearchedWhen.exch, a.exch_id, b.exch_id]

theorem exchConds_id : ∀ l : List SearchedWhen, exchConds {} l = l
  | [] => by simp only [exchConds]
  | a :: l => by simp only [exchConds, a.exch_id, exchConds_id l]

theorem CaseResult.exch_id : ∀ v : CaseResult, v.exch {} = v
  | .str a => by simp only [CaseResult.exch]
  | .ve a => by simp only [CaseResult.exch, a.exch_id]

theorem SC.exch_id : ∀ v : SC, v.exch {} = v
  | .factor a => by simp only [SC.exch, a.exch_id]
  | .term a b c => by simp only [SC.exch, a.exch_id, c.exch_id]

theorem BF.exch_id : ∀ v : BF, v.exch {} = v
  | .mk a b => by simp only [BF.exch, b.exch_id]

theorem BP.exch_id : ∀ v : BP, v.exch {} = v
  | .pred a => by simp only [BP.exch, a.exch_id]
  | .sc a => by simp only [BP.exch, a.exch_id]
  | .ve a => by simp only [BP.exch, a.exch_id]

theorem Pred.exch_id : ∀ v : Pred, v.exch {} = v
  | .cmp a b c => by simp only [Pred.exch, a.exch_id, c.exch_id]
  | .between a b c d => by simp only [Pred.exch, a.exch_id, c.exch_id, d.exch_id]
  | .inSub a b c => by simp only [Pred.exch, a.exch_id, c.exch_id]
  | .inList a b c => by simp only [Pred.exch, a.exch_id, exchVEs_id c]
  | .null a b => by simp only [Pred.exch, a.exch_id]
  | .like a b c => by simp only [Pred.exch, a.exch_id, c.exch_id]
  | .exist a => by simp only [Pred.exch, a.exch_id]

theorem Subquery.exch_id : ∀ v : Subquery, v.exch {} = v
  | .jt a => by simp only [Subquery.exch, a.exch_id]
  | .qs a => by simp only [Subquery.exch, a.exch_id]

theorem JT.exch_id : ∀ v : JT, v.exch {} = v
  | .qj a => by simp only [JT.exch, a.exch_id]
  | .wrap a => by simp only [JT.exch, a.exch_id]

theorem QJ.exch_id : ∀ v : QJ, v.exch {} = v
  | .mk a b => by simp only [QJ.exch, a.exch_id, exchSuffixes_id b]

theorem QJHead.exch_id : ∀ v : QJHead, v.exch {} = v
  | .tc a => by simp only [QJHead.exch, TableCorr.exch_id]
  | .jt a => by simp only [QJHead.exch, a.exch_id]

theorem exchSuffixes_id : ∀ l : List JoinSuffix, exchSuffixes {} l = l
  | [] => by simp only [exchSuffixes]
  | a :: l => by simp only [exchSuffixes, a.exch_id, exchSuffixes_id l]

theorem JoinSuffix.exch_id : ∀ v : JoinSuffix, v.exch {} = v
  | .mk a b c d => by simp only [JoinSuffix.exch, c.exch_id, d.exch_id]

theorem JoinSpec.exch_id : ∀ v : JoinSpec, v.exch {} = v
  | .named a => by simp only [JoinSpec.exch]
  | .on a => by simp only [JoinSpec.exch, a.exch_id]

theorem TR.exch_id : ∀ v : TR, v.exch {} = v
  | .tc a => by simp only [TR.exch, TableCorr.exch_id]
  | .jt a => by simp only [TR.exch, a.exch_id]
  | .derived a b => by simp only [TR.exch, a.exch_id]
  | .tvf a b => by simp only [TR.exch]

theorem GPred.exch_id : ∀ v : GPred, v.exch {} = v
  | .intersects a b => by simp only [GPred.exch, a.exch_id, ShapeOrCol.exch_id]
  | .contains a b => by simp only [GPred.exch, ShapeOrCol.exch_id]

theorem Geom.exch_id : ∀ v : Geom, v.exch {} = v
  | .left a b => by simp only [Geom.exch, b.exch_id]
  | .right a b => by simp only [Geom.exch, a.exch_id]

theorem Where.exch_id : ∀ v : Where, v.exch {} = v
  | .mk a b => by simp only [Where.exch, a.exch_id, b.exch_id]

theorem Item.exch_id : ∀ v : Item, v.exch {} = v
  | .as a b => by simp only [Item.exch, a.exch_id]
  | .nonAsStr a => by simp only [Item.exch, id_eq]
  | .nonAsVE a => by simp only [Item.exch, a.exch_id]

theorem exchItems_id : ∀ l : List Item, exchItems {} l = l
  | [] => by simp only [exchItems]
  | a :: l => by simp only [exchItems, a.exch_id, exchItems_id l]

theorem Columns.exch_id : ∀ v : Columns, v.exch {} = v
  | .star a => by simp only [Columns.exch]
  | .items a => by simp only [Columns.exch, exchItems_id a]

theorem Select.exch_id : ∀ v : Select, v.exch {} = v
  | .mk a b c => by simp only [Select.exch, c.exch_id]

theorem exchTRs_id : ∀ l : List TR, exchTRs {} l = l
  | [] => by simp only [exchTRs]
  | a :: l => by simp only [exchTRs, a.exch_id, exchTRs_id l]

theorem SFW.exch_id : ∀ v : SFW, v.exch {} = v
  | .mk a b c => by simp only [SFW.exch, a.exch_id, exchTRs_id b, c.exch_id]

theorem Addon.exch_id : ∀ v : Addon, v.exch {} = v
  | .mk a b => by simp only [Addon.exch, b.exch_id]

theorem exchAddons_id : ∀ l : List Addon, exchAddons {} l = l
  | [] => by simp only [exchAddons]
  | a :: l => by simp only [exchAddons, a.exch_id, exchAddons_id l]

theorem SFWList.exch_id : ∀ v : SFWList, v.exch {} = v
  | .mk a b => by simp only [SFWList.exch, a.exch_id, exchAddons_id b]

theorem GroupTerm.exch_id : ∀ v : GroupTerm, v.exch {} = v
  | .col a => by simp only [GroupTerm.exch, id_eq]
  | .ve a => by simp only [GroupTerm.exch, a.exch_id]

theorem exchGroup_id : ∀ l : List GroupTerm, exchGroup {} l = l
  | [] => by simp only [exchGroup]
  | a :: l => by simp only [exchGroup, a.exch_id, exchGroup_id l]

theorem With.exch_id : ∀ v : With, v.exch {} = v
  | .mk a b c => by simp only [With.exch, c.exch_id]

theorem QuerySpec.exch_id : ∀ v : QuerySpec, v.exch {} = v
  | .mk a b c d e => by simp only [QuerySpec.exch, a.exch_id, b.exch_id, exchGroup_id c, d.exch_id, sorts_exch_id]

end

/-- first `y`, then `x` -/
def Exchange.comp (x y : Exchange) : Exchange := ⟨fun t => x.tab (y.tab t), fun c => x.col (y.col c), fun s => x.star (y.star s)⟩

section
variable {x y : Exchange} (hy : ∀ t : TableCorr, t.name ≠ [] → (y.tab t).name ≠ [])

include hy in
theorem TableCorr.exch_comp (t : TableCorr) : (t.exch y).exch x = t.exch (x.comp y) := by
  unfold TableCorr.exch
  cases h : t.name.isEmpty with
  | true => simp [h]
  | false =>
    have : (y.tab t).name.isEmpty = false := by
      have := hy t (by rintro e; rw [e] at h; cases h)
      cases e : (y.tab t).name with
      | nil => exact absurd e this
      | cons _ _ => rfl
    simp [this, Exchange.comp]

theorem col_comp (c : ColRef) : x.col (y.col c) = (x.comp y).col c := rfl

theorem star_comp (c : Str) : x.star (y.star c) = (x.comp y).star c := rfl

theorem sorts_exch_comp : ∀ l : List SortSpec, (l.map (SortSpec.exch y)).map (SortSpec.exch x) = l.map (SortSpec.exch (x.comp y))
  | [] => rfl
  | ⟨.inl _, _⟩ :: l => by rw [List.map_cons, List.map_cons, sorts_exch_comp l]; rfl
  | ⟨.inr _, _⟩ :: l => by rw [List.map_cons, List.map_cons, sorts_exch_comp l]; rfl

theorem CoordExpr.exch_comp (c : CoordExpr) : (c.exch y).exch x = c.exch (x.comp y) := by cases c <;> rfl

theorem Coord.exch_comp (c : Coord) : (c.exch y).exch x = c.exch (x.comp y) := by
  obtain ⟨a, b⟩ := c
  simp only [Coord.exch, CoordExpr.exch_comp]

theorem Point.exch_comp (p : Point) : (p.exch y).exch x = p.exch (x.comp y) := by
  obtain ⟨a, b⟩ := p
  simp only [Point.exch, Coord.exch_comp]

theorem coords_exch_comp : ∀ l : List Coord, (l.map (Coord.exch y)).map (Coord.exch x) = l.map (Coord.exch (x.comp y))
  | [] => rfl
  | a :: l => by rw [List.map_cons, List.map_cons, coords_exch_comp l, Coord.exch_comp, List.map_cons]

theorem Shape.exch_comp (s : Shape) : (s.exch y).exch x = s.exch (x.comp y) := by
  cases s <;> simp only [Shape.exch, Point.exch_comp, Coord.exch_comp, CoordExpr.exch_comp, coords_exch_comp]

theorem PointOrCol.exch_comp (s : PointOrCol) : (s.exch y).exch x = s.exch (x.comp y) := by
  cases s <;> simp only [PointOrCol.exch, Point.exch_comp, col_comp]

theorem ShapeOrCol.exch_comp (s : ShapeOrCol) : (s.exch y).exch x = s.exch (x.comp y) := by
  cases s <;> simp only [ShapeOrCol.exch, Shape.exch_comp, col_comp]

include hy

mutual

theorem VE.exch_comp : ∀ v : VE, (v.exch y).exch x = v.exch (x.comp y)
  | .nb a => by simp only [VE.exch, a.exch_comp]
  | .sc a => by simp only [VE.exch, a.exch_comp]

theorem VENB.exch_comp : ∀ v : VENB, (v.exch y).exch x = v.exch (x.comp y)
  | .mk a b => by simp only [VENB.exch, a.exch_comp, exchTerms_comp b]

theorem exchTerms_comp : ∀ l : List Term, exchTerms x (exchTerms y l) = exchTerms (x.comp y) l
  | [] => by simp only [exchTerms]
  | a :: l => by simp only [exchTerms, a.exch_comp, exchTerms_comp l]

theorem Term.exch_comp : ∀ v : Term, (v.exch y).exch x = v.exch (x.comp y)
  | .mk a b => by simp only [Term.exch, b.exch_comp]

theorem Factor.exch_comp : ∀ v : Factor, (v.exch y).exch x = v.exch (x.comp y)
  | .mk a b => by simp only [Factor.exch, b.exch_comp]

theorem NumPrim.exch_comp : ∀ v : NumPrim, (v.exch y).exch x = v.exch (x.comp y)
  | .vep a => by simp only [NumPrim.exch, a.exch_comp]
  | .nvf a => by simp only [NumPrim.exch, a.exch_comp]

theorem NumFn.exch_comp : ∀ v : NumFn, (v.exch y).exch x = v.exch (x.comp y)
  | .trig1 a b => by simp only [NumFn.exch, b.exch_comp]
  | .trig2 a b c => by simp only [NumFn.exch, b.exch_comp, c.exch_comp]
  | .math0 a => by simp only [NumFn.exch]
  | .math1 a b => by simp only [NumFn.exch, b.exch_comp]
  | .math2 a b c => by simp only [NumFn.exch, b.exch_comp, c.exch_comp]
  | .cast a b c => by simp only [NumFn.exch, a.exch_comp]
  | .geo1 a b => by simp only [NumFn.exch, PointOrCol.exch_comp]
  | .geo2 a b c => by simp only [NumFn.exch, PointOrCol.exch_comp]
  | .udf a b => by simp only [NumFn.exch, exchVEs_comp b]
  | .str a => by simp only [NumFn.exch]

theorem exchVEs_comp : ∀ l : List VE, exchVEs x (exchVEs y l) = exchVEs (x.comp y) l
  | [] => by simp only [exchVEs]
  | a :: l => by simp only [exchVEs, a.exch_comp, exchVEs_comp l]

theorem VEP.exch_comp : ∀ v : VEP, (v.exch y).exch x = v.exch (x.comp y)
  | .mk a b => by simp only [VEP.exch, a.exch_comp, exchVEs_comp b]

theorem Prim.exch_comp : ∀ v : Prim, (v.exch y).exch x = v.exch (x.comp y)
  | .arr a => by simp only [Prim.exch, exchVEs_comp a]
  | .str a => by simp only [Prim.exch]
  | .col a => by simp only [Prim.exch, col_comp]
  | .countStar a => by simp only [Prim.exch]
  | .setFn a b c => by simp only [Prim.exch, c.exch_comp]
  | .case a => by simp only [Prim.exch, a.exch_comp]
  | .any a => by simp only [Prim.exch, a.exch_comp]
  | .sub a => by simp only [Prim.exch, a.exch_comp]

theorem CaseE.exch_comp : ∀ v : CaseE, (v.exch y).exch x = v.exch (x.comp y)
  | .nullif a b => by simp only [CaseE.exch, a.exch_comp, b.exch_comp]
  | .coalesce a => by simp only [CaseE.exch, exchVEs_comp a]
  | .simple a b c => by simp only [CaseE.exch, a.exch_comp, exchWhens_comp b, c.exch_comp]
  | .searched a b => by simp only [CaseE.exch, exchConds_comp a, b.exch_comp]

theorem SimpleWhen.exch_comp : ∀ v : SimpleWhen, (v.exch y).exch x = v.exch (x.comp y)
  | .mk a b => by simp only [SimpleWhen.exch, a.exch_comp, b.exch_comp]

theorem exchWhens_comp : ∀ l : List SimpleWhen, exchWhens x (exchWhens y l) = exchWhens (x.comp y) l
  | [] => by simp only [exchWhens]
  | a :: l => by simp only [exchWhens, a.exch_comp, exchWhens_comp l]

theorem SearchedWhen.exch_comp : ∀ v : SearchedWhen, (v.exch y).exch x = v.exch (x.comp y)
  | .mk a b => by simp only [SearchedWhen.exch, a.exch_comp, b.exch_comp]

theorem exchConds_comp : ∀ l : List SearchedWhen, exchConds x (exchConds y l) = exchConds (x.comp y) l
  | [] => by simp only [exchConds]
  | a :: l => by simp only [exchConds, a.exch_comp, exchConds_comp l]

theorem CaseResult.exch_comp : ∀ v : CaseResult, (v.exch y).exch x = v.exch (x.comp y)
  | .str a => by simp only [CaseResult.exch]
  | .ve a => by simp only [CaseResult.exch, a.exch_comp]

theorem SC.exch_comp : ∀ v : SC, (v.exch y).exch x = v.exch (x.comp y)
  | .factor a => by simp only [SC.exch, a.exch_comp]
  | .term a b c => by simp only [SC.exch, a.exch_comp, c.exch_comp]

theorem BF.exch_comp : ∀ v : BF, (v.exch y).exch x = v.exch (x.comp y)
  | .mk a b => by simp only [BF.exch, b.exch_comp]

theorem BP.exch_comp : ∀ v : BP, (v.exch y).exch x = v.exch (x.comp y)
  | .pred a => by simp only [BP.exch, a.exch_comp]
  | .sc a => by simp only [BP.exch, a.exch_comp]
  | .ve a => by simp only [BP.exch, a.exch_comp]

theorem Pred.exch_comp : ∀ v : Pred, (v.exch y).exch x = v.exch (x.comp y)
  | .cmp a b c => by simp only [Pred.exch, a.exch_comp, c.exch_comp]
  | .between a b c d => by simp only [Pred.exch, a.exch_comp, c.exch_comp, d.exch_comp]
  | .inSub a b c => by simp only [Pred.exch, a.exch_comp, c.exch_comp]
  | .inList a b c => by simp only [Pred.exch, a.exch_comp, exchVEs_comp c]
  | .null a b => by simp only [Pred.exch, a.exch_comp]
  | .like a b c => by simp only [Pred.exch, a.exch_comp, c.exch_comp]
  | .exist a => by simp only [Pred.exch, a.exch_comp]

theorem Subquery.exch_comp : ∀ v : Subquery, (v.exch y).exch x = v.exch (x.comp y)
  | .jt a => by simp only [Subquery.exch, a.exch_comp]
  | .qs a => by simp only [Subquery.exch, a.exch_comp]

theorem JT.exch_comp : ∀ v : JT, (v.exch y).exch x = v.exch (x.comp y)
  | .qj a => by simp only [JT.exch, a.exch_comp]
  | .wrap a => by simp only [JT.exch, a.exch_comp]

theorem QJ.exch_comp : ∀ v : QJ, (v.exch y).exch x = v.exch (x.comp y)
  | .mk a b => by simp only [QJ.exch, a.exch_comp, exchSuffixes_comp b]

theorem QJHead.exch_comp : ∀ v : QJHead, (v.exch y).exch x = v.exch (x.comp y)
  | .tc a => by simp only [QJHead.exch, TableCorr.exch_comp hy]
  | .jt a => by simp only [QJHead.exch, a.exch_comp]

theorem exchSuffixes_comp : ∀ l : List JoinSuffix, exchSuffixes x (exchSuffixes y l) = exchSuffixes (x.comp y) l
  | [] => by simp only [exchSuffixes]
  | a :: l => by simp only [exchSuffixes, a.exch_comp, exchSuffixes_comp l]

theorem JoinSuffix.exch_comp : ∀ v : JoinSuffix, (v.exch y).exch x = v.exch (x.comp y)
  | .mk a b c d => by simp only [JoinSuffix.exch, c.exch_comp, d.exch_comp]

theorem JoinSpec.exch_comp : ∀ v : JoinSpec, (v.exch y).exch x = v.exch (x.comp y)
  | .named a => by simp only [JoinSpec.exch]
  | .on a => by simp only [JoinSpec.exch, a.exch_comp]

theorem TR.exch_comp : ∀ v : TR, (v.exch y).exch x = v.exch (x.comp y)
  | .tc a => by simp only [TR.exch, TableCorr.exch_comp hy]
  | .jt a => by simp only [TR.exch, a.exch_comp]
  | .derived a b => by simp only [TR.exch, a.exch_comp]
  | .tvf a b => by simp only [TR.exch]

theorem GPred.exch_comp : ∀ v : GPred, (v.exch y).exch x = v.exch (x.comp y)
  | .intersects a b => by simp only [GPred.exch, a.exch_comp, ShapeOrCol.exch_comp]
  | .contains a b => by simp only [GPred.exch, ShapeOrCol.exch_comp]

theorem Geom.exch_comp : ∀ v : Geom, (v.exch y).exch x = v.exch (x.comp y)
  | .left a b => by simp only [Geom.exch, b.exch_comp]
  | .right a b => by simp only [Geom.exch, a.exch_comp]

theorem Where.exch_comp : ∀ v : Where, (v.exch y).exch x = v.exch (x.comp y)
  | .mk a b => by simp only [Where.exch, a.exch_comp, b.exch_comp]

theorem Item.exch_comp : ∀ v : Item, (v.exch y).exch x = v.exch (x.comp y)
  | .as a b => by simp only [Item.exch, a.exch_comp]
  | .nonAsStr a => by simp only [Item.exch, star_comp]
  | .nonAsVE a => by simp only [Item.exch, a.exch_comp]

theorem exchItems_comp : ∀ l : List Item, exchItems x (exchItems y l) = exchItems (x.comp y) l
  | [] => by simp only [exchItems]
  | a :: l => by simp only [exchItems, a.exch_comp, exchItems_comp l]

theorem Columns.exch_comp : ∀ v : Columns, (v.exch y).exch x = v.exch (x.comp y)
  | .star a => by simp only [Columns.exch]
  | .items a => by simp only [Columns.exch, exchItems_comp a]

theorem Select.exch_comp : ∀ v : Select, (v.exch y).exch x = v.exch (x.comp y)
  | .mk a b c => by simp only [Select.exch, c.exch_comp]

theorem exchTRs_comp : ∀ l : List TR, exchTRs x (exchTRs y l) = exchTRs (x.comp y) l
  | [] => by simp only [exchTRs]
  | a :: l => by simp only [exchTRs, a.exch_comp, exchTRs_comp l]

theorem SFW.exch_comp : ∀ v : SFW, (v.exch y).exch x = v.exch (x.comp y)
  | .mk a b c => by simp only [SFW.exch, a.exch_comp, exchTRs_comp b, c.exch_comp]

theorem Addon.exch_comp : ∀ v : Addon, (v.exch y).exch x = v.exch (x.comp y)
  | .mk a b => by simp only [Addon.exch, b.exch_comp]

theorem exchAddons_comp : ∀ l : List Addon, exchAddons x (exchAddons y l) = exchAddons (x.comp y) l
  | [] => by simp only [exchAddons]
  | a :: l => by simp only [exchAddons, a.exch_comp, exchAddons_comp l]

theorem SFWList.exch_comp : ∀ v : SFWList, (v.exch y).exch x = v.exch (x.comp y)
  | .mk a b => by simp only [SFWList.exch, a.exch_comp, exchAddons_comp b]

theorem GroupTerm.exch_comp : ∀ v : GroupTerm, (v.exch y).exch x = v.exch (x.comp y)
  | .col a => by simp only [GroupTerm.exch, col_comp]
  | .ve a => by simp only [GroupTerm.exch, a.exch_comp]

theorem exchGroup_comp : ∀ l : List GroupTerm, exchGroup x (exchGroup y l) = exchGroup (x.comp y) l
  | [] => by simp only [exchGroup]
  | a :: l => by simp only [exchGroup, a.exch_comp, exchGroup_comp l]

theorem With.exch_comp : ∀ v : With, (v.exch y).exch x = v.exch (x.comp y)
  | .mk a b c => by simp only [With.exch, c.exch_comp]

theorem QuerySpec.exch_comp : ∀ v : QuerySpec, (v.exch y).exch x = v.exch (x.comp y)
  | .mk a b c d e => by simp only [QuerySpec.exch, a.exch_comp, b.exch_comp, exchGroup_comp c, d.exch_comp, sorts_exch_comp]

end

end

end Adql
