import Verif.Model.Deep

/-!
# What is empty stays empty
-/

namespace Adql

open Spec

variable {f : SFW → SFW}

theorem deepVEs_isEmpty (l : List VE) : (deepVEs f l).isEmpty = l.isEmpty := by cases l <;> simp [deepVEs]
theorem deepTRs_isEmpty (l : List TR) : (deepTRs f l).isEmpty = l.isEmpty := by cases l <;> simp [deepTRs]
theorem deepConds_isEmpty (l : List SearchedWhen) : (deepConds f l).isEmpty = l.isEmpty := by cases l <;> simp [deepConds]

mutual

theorem VE.deep_isEmpty (hf : ∀ s, (f s).isEmpty = s.isEmpty) : ∀ v : VE, (v.deep f).isEmpty = v.isEmpty
  | .nb v => by simp [VE.deep, VE.isEmpty, v.deep_isEmpty hf]
  | .sc c => by simp [VE.deep, VE.isEmpty, c.deep_isEmpty hf]

theorem VENB.deep_isEmpty (hf : ∀ s, (f s).isEmpty = s.isEmpty) : ∀ v : VENB, (v.deep f).isEmpty = v.isEmpty
  | .mk f _ => by simp [VENB.deep, VENB.isEmpty, f.deep_isEmpty hf]

theorem Factor.deep_isEmpty (hf : ∀ s, (f s).isEmpty = s.isEmpty) : ∀ v : Factor, (v.deep f).isEmpty = v.isEmpty
  | .mk _ p => by simp [Factor.deep, Factor.isEmpty, p.deep_isEmpty hf]

theorem NumPrim.deep_isEmpty (hf : ∀ s, (f s).isEmpty = s.isEmpty) : ∀ v : NumPrim, (v.deep f).isEmpty = v.isEmpty
  | .vep (.mk p _) => by simp [NumPrim.deep, NumPrim.isEmpty, VEP.deep, VEP.isEmpty, p.deep_isEmpty hf]
  | .nvf f => by cases f <;> simp [NumPrim.deep, NumPrim.isEmpty, NumFn.deep, NumFn.isEmpty]

theorem Prim.deep_isEmpty (hf : ∀ s, (f s).isEmpty = s.isEmpty) : ∀ v : Prim, (v.deep f).isEmpty = v.isEmpty
  | .arr l => by simp [Prim.deep, Prim.isEmpty, deepVEs_isEmpty]
  | .str _ => by simp [Prim.deep]
  | .col c => by simp [Prim.deep, Prim.isEmpty]
  | .countStar _ => by simp [Prim.deep]
  | .setFn .. => by simp [Prim.deep, Prim.isEmpty]
  | .case c => by simp [Prim.deep, Prim.isEmpty, c.deep_isEmpty hf]
  | .any e => by simp [Prim.deep, Prim.isEmpty, e.deep_isEmpty hf]
  | .sub e => by simp [Prim.deep, Prim.isEmpty, e.deep_isEmpty hf]

theorem CaseE.deep_isEmpty (hf : ∀ s, (f s).isEmpty = s.isEmpty) : ∀ v : CaseE, (v.deep f).isEmpty = v.isEmpty
  | .nullif e _ => by simp [CaseE.deep, CaseE.isEmpty, e.deep_isEmpty hf]
  | .coalesce l => by simp [CaseE.deep, CaseE.isEmpty, deepVEs_isEmpty]
  | .simple e _ _ => by simp [CaseE.deep, CaseE.isEmpty, e.deep_isEmpty hf]
  | .searched l _ => by simp [CaseE.deep, CaseE.isEmpty, deepConds_isEmpty]

theorem SC.deep_isEmpty (hf : ∀ s, (f s).isEmpty = s.isEmpty) : ∀ v : SC, (v.deep f).isEmpty = v.isEmpty
  | .factor b => by simp [SC.deep, SC.isEmpty, b.deep_isEmpty hf]
  | .term _ op _ => by simp [SC.deep, SC.isEmpty]

theorem BF.deep_isEmpty (hf : ∀ s, (f s).isEmpty = s.isEmpty) : ∀ v : BF, (v.deep f).isEmpty = v.isEmpty
  | .mk _ p => by simp [BF.deep, BF.isEmpty, p.deep_isEmpty hf]

theorem BP.deep_isEmpty (hf : ∀ s, (f s).isEmpty = s.isEmpty) : ∀ v : BP, (v.deep f).isEmpty = v.isEmpty
  | .pred p => by simp [BP.deep, BP.isEmpty, p.deep_isEmpty hf]
  | .sc c => by simp [BP.deep, BP.isEmpty, c.deep_isEmpty hf]
  | .ve v => by simp [BP.deep, BP.isEmpty, v.deep_isEmpty hf]

theorem Pred.deep_isEmpty (hf : ∀ s, (f s).isEmpty = s.isEmpty) : ∀ v : Pred, (v.deep f).isEmpty = v.isEmpty
  | .cmp .. => by simp [Pred.deep, Pred.isEmpty]
  | .between v .. => by simp [Pred.deep, Pred.isEmpty, v.deep_isEmpty hf]
  | .inSub v .. => by simp [Pred.deep, Pred.isEmpty, v.deep_isEmpty hf]
  | .inList v .. => by simp [Pred.deep, Pred.isEmpty, v.deep_isEmpty hf]
  | .null v .. => by simp [Pred.deep, Pred.isEmpty, v.deep_isEmpty hf]
  | .like v .. => by simp [Pred.deep, Pred.isEmpty, v.deep_isEmpty hf]
  | .exist q => by simp [Pred.deep, Pred.isEmpty, q.deep_isEmpty hf]

theorem Subquery.deep_isEmpty (hf : ∀ s, (f s).isEmpty = s.isEmpty) : ∀ v : Subquery, (v.deep f).isEmpty = v.isEmpty
  | .jt j => by simp [Subquery.deep, Subquery.isEmpty, j.deep_isEmpty hf]
  | .qs (.mk _ (.mk s _) _ _ _) => by
    simp only [Subquery.deep, Subquery.isEmpty, QuerySpec.deep, QuerySpec.isEmpty, SFWList.deep, SFWList.isEmpty, SFW.deep_eq, hf]
    cases s
    simp only [SFW.inner, SFW.isEmpty, deepTRs_isEmpty]

theorem JT.deep_isEmpty (hf : ∀ s, (f s).isEmpty = s.isEmpty) : ∀ v : JT, (v.deep f).isEmpty = v.isEmpty
  | .qj (.mk (.tc t) _) => by simp [JT.deep, JT.isEmpty, QJ.deep, QJ.isEmpty, QJHead.deep, QJHead.isEmpty]
  | .qj (.mk (.jt j) _) => by simp [JT.deep, JT.isEmpty, QJ.deep, QJ.isEmpty, QJHead.deep, QJHead.isEmpty, j.deep_isEmpty hf]
  | .wrap j => by simp [JT.deep, JT.isEmpty, j.deep_isEmpty hf]
end

theorem GPred.deep_isEmpty (hf : ∀ s, (f s).isEmpty = s.isEmpty) (v : GPred) : (v.deep f).isEmpty = v.isEmpty := by
  cases v <;> simp [GPred.deep, GPred.isEmpty, VE.deep_isEmpty hf]
theorem Geom.deep_isEmpty (hf : ∀ s, (f s).isEmpty = s.isEmpty) (v : Geom) : (v.deep f).isEmpty = v.isEmpty := by
  cases v <;> simp [Geom.deep, Geom.isEmpty, GPred.deep_isEmpty hf]

end Adql
