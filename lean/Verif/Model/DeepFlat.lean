import Verif.Spec.Deep

/-!
# What has no SELECT in it is not changed
-/

namespace Adql

open Spec

variable {f : SFW → SFW}

set_option linter.unusedSimpArgs false

mutual

theorem VE.deep_flat : ∀ x : VE, x.selects = [] → x.deep f = x
  | .nb a, h => by
    simp only [VE.selects, List.append_eq_nil_iff] at h
    simp only [VE.deep, a.deep_flat h]
  | .sc a, h => by
    simp only [VE.selects, List.append_eq_nil_iff] at h
    simp only [VE.deep, a.deep_flat h]

theorem VENB.deep_flat : ∀ x : VENB, x.selects = [] → x.deep f = x
  | .mk a b, h => by
    simp only [VENB.selects, List.append_eq_nil_iff] at h
    simp only [VENB.deep, a.deep_flat h.1, deepTerms_flat b h.2]

theorem deepTerms_flat : ∀ l : List Term, selectsTerms l = [] → deepTerms f l = l
  | [], _ => by simp only [deepTerms]
  | a :: l, h => by
    simp only [selectsTerms, List.append_eq_nil_iff] at h
    simp only [deepTerms, a.deep_flat h.1, deepTerms_flat l h.2]

theorem Term.deep_flat : ∀ x : Term, x.selects = [] → x.deep f = x
  | .mk a b, h => by
    simp only [Term.selects, List.append_eq_nil_iff] at h
    simp only [Term.deep, b.deep_flat h]

theorem Factor.deep_flat : ∀ x : Factor, x.selects = [] → x.deep f = x
  | .mk a b, h => by
    simp only [Factor.selects, List.append_eq_nil_iff] at h
    simp only [Factor.deep, b.deep_flat h]

theorem NumPrim.deep_flat : ∀ x : NumPrim, x.selects = [] → x.deep f = x
  | .vep a, h => by
    simp only [NumPrim.selects, List.append_eq_nil_iff] at h
    simp only [NumPrim.deep, a.deep_flat h]
  | .nvf a, h => by
    simp only [NumPrim.selects, List.append_eq_nil_iff] at h
    simp only [NumPrim.deep, a.deep_flat h]

theorem NumFn.deep_flat : ∀ x : NumFn, x.selects = [] → x.deep f = x
  | .trig1 a b, h => by
    simp only [NumFn.selects, List.append_eq_nil_iff] at h
    simp only [NumFn.deep, b.deep_flat h]
  | .trig2 a b c, h => by
    simp only [NumFn.selects, List.append_eq_nil_iff] at h
    simp only [NumFn.deep, b.deep_flat h.1, c.deep_flat h.2]
  | .math0 a, _ => by simp only [NumFn.deep]
  | .math1 a b, h => by
    simp only [NumFn.selects, List.append_eq_nil_iff] at h
    simp only [NumFn.deep, b.deep_flat h]
  | .math2 a b c, h => by
    simp only [NumFn.selects, List.append_eq_nil_iff] at h
    simp only [NumFn.deep, b.deep_flat h.1, c.deep_flat h.2]
  | .cast a b c, h => by
    simp only [NumFn.selects, List.append_eq_nil_iff] at h
    simp only [NumFn.deep, a.deep_flat h]
  | .geo1 a b, _ => by simp only [NumFn.deep]
  | .geo2 a b c, _ => by simp only [NumFn.deep]
  | .udf a b, h => by
    simp only [NumFn.selects, List.append_eq_nil_iff] at h
    simp only [NumFn.deep, deepVEs_flat b h]
  | .str a, _ => by simp only [NumFn.deep]

theorem deepVEs_flat : ∀ l : List VE, selectsVEs l = [] → deepVEs f l = l
  | [], _ => by simp only [deepVEs]
  | a :: l, h => by
    simp only [selectsVEs, List.append_eq_nil_iff] at h
    simp only [deepVEs, a.deep_flat h.1, deepVEs_flat l h.2]

theorem VEP.deep_flat : ∀ x : VEP, x.selects = [] → x.deep f = x
  | .mk a b, h => by
    simp only [VEP.selects, List.append_eq_nil_iff] at h
    simp only [VEP.deep, a.deep_flat h.1, deepVEs_flat b h.2]

theorem Prim.deep_flat : ∀ x : Prim, x.selects = [] → x.deep f = x
  | .arr a, h => by
    simp only [Prim.selects, List.append_eq_nil_iff] at h
    simp only [Prim.deep, deepVEs_flat a h]
  | .str a, _ => by simp only [Prim.deep]
  | .col a, _ => by simp only [Prim.deep]
  | .countStar a, _ => by simp only [Prim.deep]
  | .setFn a b c, h => by
    simp only [Prim.selects, List.append_eq_nil_iff] at h
    simp only [Prim.deep, c.deep_flat h]
  | .case a, h => by
    simp only [Prim.selects, List.append_eq_nil_iff] at h
    simp only [Prim.deep, a.deep_flat h]
  | .any a, h => by
    simp only [Prim.selects, List.append_eq_nil_iff] at h
    simp only [Prim.deep, a.deep_flat h]
  | .sub a, h => by
    simp only [Prim.selects, List.append_eq_nil_iff] at h
    simp only [Prim.deep, a.deep_flat h]

theorem CaseE.deep_flat : ∀ x : CaseE, x.selects = [] → x.deep f = x
  | .nullif a b, h => by
    simp only [CaseE.selects, List.append_eq_nil_iff] at h
    simp only [CaseE.deep, a.deep_flat h.1, b.deep_flat h.2]
  | .coalesce a, h => by
    simp only [CaseE.selects, List.append_eq_nil_iff] at h
    simp only [CaseE.deep, deepVEs_flat a h]
  | .simple a b c, h => by
    simp only [CaseE.selects, List.append_eq_nil_iff] at h
    simp only [CaseE.deep, a.deep_flat h.1.1, deepWhens_flat b h.1.2, c.deep_flat h.2]
  | .searched a b, h => by
    simp only [CaseE.selects, List.append_eq_nil_iff] at h
    simp only [CaseE.deep, deepConds_flat a h.1, b.deep_flat h.2]

theorem SimpleWhen.deep_flat : ∀ x : SimpleWhen, x.selects = [] → x.deep f = x
  | .mk a b, h => by
    simp only [SimpleWhen.selects, List.append_eq_nil_iff] at h
    simp only [SimpleWhen.deep, a.deep_flat h.1, b.deep_flat h.2]

theorem deepWhens_flat : ∀ l : List SimpleWhen, selectsWhens l = [] → deepWhens f l = l
  | [], _ => by simp only [deepWhens]
  | a :: l, h => by
    simp only [selectsWhens, List.append_eq_nil_iff] at h
    simp only [deepWhens, a.deep_flat h.1, deepWhens_flat l h.2]

theorem SearchedWhen.deep_flat : ∀ x : SearchedWhen, x.selects = [] → x.deep f = x
  | .mk a b, h => by
    simp only [SearchedWhen.selects, List.append_eq_nil_iff] at h
    simp only [SearchedWhen.deep, a.deep_flat h.1, b.deep_flat h.2]

theorem deepConds_flat : ∀ l : List SearchedWhen, selectsConds l = [] → deepConds f l = l
  | [], _ => by simp only [deepConds]
  | a :: l, h => by
    simp only [selectsConds, List.append_eq_nil_iff] at h
    simp only [deepConds, a.deep_flat h.1, deepConds_flat l h.2]

theorem CaseResult.deep_flat : ∀ x : CaseResult, x.selects = [] → x.deep f = x
  | .str a, _ => by simp only [CaseResult.deep]
  | .ve a, h => by
    simp only [CaseResult.selects, List.append_eq_nil_iff] at h
    simp only [CaseResult.deep, a.deep_flat h]

theorem SC.deep_flat : ∀ x : SC, x.selects = [] → x.deep f = x
  | .factor a, h => by
    simp only [SC.selects, List.append_eq_nil_iff] at h
    simp only [SC.deep, a.deep_flat h]
  | .term a b c, h => by
    simp only [SC.selects, List.append_eq_nil_iff] at h
    simp only [SC.deep, a.deep_flat h.1, c.deep_flat h.2]

theorem BF.deep_flat : ∀ x : BF, x.selects = [] → x.deep f = x
  | .mk a b, h => by
    simp only [BF.selects, List.append_eq_nil_iff] at h
    simp only [BF.deep, b.deep_flat h]

theorem BP.deep_flat : ∀ x : BP, x.selects = [] → x.deep f = x
  | .pred a, h => by
    simp only [BP.selects, List.append_eq_nil_iff] at h
    simp only [BP.deep, a.deep_flat h]
  | .sc a, h => by
    simp only [BP.selects, List.append_eq_nil_iff] at h
    simp only [BP.deep, a.deep_flat h]
  | .ve a, h => by
    simp only [BP.selects, List.append_eq_nil_iff] at h
    simp only [BP.deep, a.deep_flat h]

theorem Pred.deep_flat : ∀ x : Pred, x.selects = [] → x.deep f = x
  | .cmp a b c, h => by
    simp only [Pred.selects, List.append_eq_nil_iff] at h
    simp only [Pred.deep, a.deep_flat h.1, c.deep_flat h.2]
  | .between a b c d, h => by
    simp only [Pred.selects, List.append_eq_nil_iff] at h
    simp only [Pred.deep, a.deep_flat h.1.1, c.deep_flat h.1.2, d.deep_flat h.2]
  | .inSub a b c, h => by
    simp only [Pred.selects, List.append_eq_nil_iff] at h
    simp only [Pred.deep, a.deep_flat h.1, c.deep_flat h.2]
  | .inList a b c, h => by
    simp only [Pred.selects, List.append_eq_nil_iff] at h
    simp only [Pred.deep, a.deep_flat h.1, deepVEs_flat c h.2]
  | .null a b, h => by
    simp only [Pred.selects, List.append_eq_nil_iff] at h
    simp only [Pred.deep, a.deep_flat h]
  | .like a b c, h => by
    simp only [Pred.selects, List.append_eq_nil_iff] at h
    simp only [Pred.deep, a.deep_flat h.1, c.deep_flat h.2]
  | .exist a, h => by
    simp only [Pred.selects, List.append_eq_nil_iff] at h
    simp only [Pred.deep, a.deep_flat h]

theorem Subquery.deep_flat : ∀ x : Subquery, x.selects = [] → x.deep f = x
  | .jt a, h => by
    simp only [Subquery.selects, List.append_eq_nil_iff] at h
    simp only [Subquery.deep, a.deep_flat h]
  | .qs a, h => by
    simp only [Subquery.selects, List.append_eq_nil_iff] at h
    simp only [Subquery.deep, a.deep_flat h]

theorem JT.deep_flat : ∀ x : JT, x.selects = [] → x.deep f = x
  | .qj a, h => by
    simp only [JT.selects, List.append_eq_nil_iff] at h
    simp only [JT.deep, a.deep_flat h]
  | .wrap a, h => by
    simp only [JT.selects, List.append_eq_nil_iff] at h
    simp only [JT.deep, a.deep_flat h]

theorem QJ.deep_flat : ∀ x : QJ, x.selects = [] → x.deep f = x
  | .mk a b, h => by
    simp only [QJ.selects, List.append_eq_nil_iff] at h
    simp only [QJ.deep, a.deep_flat h.1, deepSuffixes_flat b h.2]

theorem QJHead.deep_flat : ∀ x : QJHead, x.selects = [] → x.deep f = x
  | .tc a, _ => by simp only [QJHead.deep]
  | .jt a, h => by
    simp only [QJHead.selects, List.append_eq_nil_iff] at h
    simp only [QJHead.deep, a.deep_flat h]

theorem deepSuffixes_flat : ∀ l : List JoinSuffix, selectsSuffixes l = [] → deepSuffixes f l = l
  | [], _ => by simp only [deepSuffixes]
  | a :: l, h => by
    simp only [selectsSuffixes, List.append_eq_nil_iff] at h
    simp only [deepSuffixes, a.deep_flat h.1, deepSuffixes_flat l h.2]

theorem JoinSuffix.deep_flat : ∀ x : JoinSuffix, x.selects = [] → x.deep f = x
  | .mk a b c d, h => by
    simp only [JoinSuffix.selects, List.append_eq_nil_iff] at h
    simp only [JoinSuffix.deep, c.deep_flat h.1, d.deep_flat h.2]

theorem JoinSpec.deep_flat : ∀ x : JoinSpec, x.selects = [] → x.deep f = x
  | .named a, _ => by simp only [JoinSpec.deep]
  | .on a, h => by
    simp only [JoinSpec.selects, List.append_eq_nil_iff] at h
    simp only [JoinSpec.deep, a.deep_flat h]

theorem TR.deep_flat : ∀ x : TR, x.selects = [] → x.deep f = x
  | .tc a, _ => by simp only [TR.deep]
  | .jt a, h => by
    simp only [TR.selects, List.append_eq_nil_iff] at h
    simp only [TR.deep, a.deep_flat h]
  | .derived a b, h => by
    simp only [TR.selects, List.append_eq_nil_iff] at h
    simp only [TR.deep, a.deep_flat h]
  | .tvf a b, _ => by simp only [TR.deep]

theorem GPred.deep_flat : ∀ x : GPred, x.selects = [] → x.deep f = x
  | .intersects a b, h => by
    simp only [GPred.selects, List.append_eq_nil_iff] at h
    simp only [GPred.deep, a.deep_flat h]
  | .contains a b, _ => by simp only [GPred.deep]

theorem Geom.deep_flat : ∀ x : Geom, x.selects = [] → x.deep f = x
  | .left a b, h => by
    simp only [Geom.selects, List.append_eq_nil_iff] at h
    simp only [Geom.deep, b.deep_flat h]
  | .right a b, h => by
    simp only [Geom.selects, List.append_eq_nil_iff] at h
    simp only [Geom.deep, a.deep_flat h]

theorem Where.deep_flat : ∀ x : Where, x.selects = [] → x.deep f = x
  | .mk a b, h => by
    simp only [Where.selects, List.append_eq_nil_iff] at h
    simp only [Where.deep, a.deep_flat h.1, b.deep_flat h.2]

theorem Item.deep_flat : ∀ x : Item, x.selects = [] → x.deep f = x
  | .as a b, h => by
    simp only [Item.selects, List.append_eq_nil_iff] at h
    simp only [Item.deep, a.deep_flat h]
  | .nonAsStr a, _ => by simp only [Item.deep]
  | .nonAsVE a, h => by
    simp only [Item.selects, List.append_eq_nil_iff] at h
    simp only [Item.deep, a.deep_flat h]

theorem deepItems_flat : ∀ l : List Item, selectsItems l = [] → deepItems f l = l
  | [], _ => by simp only [deepItems]
  | a :: l, h => by
    simp only [selectsItems, List.append_eq_nil_iff] at h
    simp only [deepItems, a.deep_flat h.1, deepItems_flat l h.2]

theorem Columns.deep_flat : ∀ x : Columns, x.selects = [] → x.deep f = x
  | .star a, _ => by simp only [Columns.deep]
  | .items a, h => by
    simp only [Columns.selects, List.append_eq_nil_iff] at h
    simp only [Columns.deep, deepItems_flat a h]

theorem Select.deep_flat : ∀ x : Select, x.selects = [] → x.deep f = x
  | .mk a b c, h => by
    simp only [Select.selects, List.append_eq_nil_iff] at h
    simp only [Select.deep, c.deep_flat h]

theorem deepTRs_flat : ∀ l : List TR, selectsTRs l = [] → deepTRs f l = l
  | [], _ => by simp only [deepTRs]
  | a :: l, h => by
    simp only [selectsTRs, List.append_eq_nil_iff] at h
    simp only [deepTRs, a.deep_flat h.1, deepTRs_flat l h.2]

theorem SFW.deep_flat : ∀ x : SFW, x.selects = [] → x.deep f = x
  | .mk _ _ _, h => by simp [SFW.selects] at h

theorem Addon.deep_flat : ∀ x : Addon, x.selects = [] → x.deep f = x
  | .mk a b, h => by
    simp only [Addon.selects, List.append_eq_nil_iff] at h
    simp only [Addon.deep, b.deep_flat h]

theorem deepAddons_flat : ∀ l : List Addon, selectsAddons l = [] → deepAddons f l = l
  | [], _ => by simp only [deepAddons]
  | a :: l, h => by
    simp only [selectsAddons, List.append_eq_nil_iff] at h
    simp only [deepAddons, a.deep_flat h.1, deepAddons_flat l h.2]

theorem SFWList.deep_flat : ∀ x : SFWList, x.selects = [] → x.deep f = x
  | .mk a b, h => by
    simp only [SFWList.selects, List.append_eq_nil_iff] at h
    simp only [SFWList.deep, a.deep_flat h.1, deepAddons_flat b h.2]

theorem GroupTerm.deep_flat : ∀ x : GroupTerm, x.selects = [] → x.deep f = x
  | .col a, _ => by simp only [GroupTerm.deep]
  | .ve a, h => by
    simp only [GroupTerm.selects, List.append_eq_nil_iff] at h
    simp only [GroupTerm.deep, a.deep_flat h]

theorem deepGroup_flat : ∀ l : List GroupTerm, selectsGroup l = [] → deepGroup f l = l
  | [], _ => by simp only [deepGroup]
  | a :: l, h => by
    simp only [selectsGroup, List.append_eq_nil_iff] at h
    simp only [deepGroup, a.deep_flat h.1, deepGroup_flat l h.2]

theorem With.deep_flat : ∀ x : With, x.selects = [] → x.deep f = x
  | .mk a b c, h => by
    simp only [With.selects, List.append_eq_nil_iff] at h
    simp only [With.deep, c.deep_flat h]

theorem QuerySpec.deep_flat : ∀ x : QuerySpec, x.selects = [] → x.deep f = x
  | .mk a b c d e, h => by
    simp only [QuerySpec.selects, List.append_eq_nil_iff] at h
    simp only [QuerySpec.deep, a.deep_flat h.1.1.1, b.deep_flat h.1.1.2, deepGroup_flat c h.1.2, d.deep_flat h.2]

end

end Adql
