import Verif.Spec.Deep
import Verif.Spec.Uses

/-!
# What a query uses after a change of its SELECTs

A change of the SELECTs at every depth relates the names that the query uses in the way the change of one SELECT does.
-/

namespace Adql

open Spec

/-- a relation between lists of names that can be used part by part -/
structure Keeping (R : List Used → List Used → Prop) : Prop where
  refl : ∀ a, R a a
  app : ∀ {a b c d}, R a b → R c d → R (a ++ c) (b ++ d)
  trans : ∀ {a b c}, R a b → R b c → R a c

theorem Keeping.cons {R : List Used → List Used → Prop} (h : Keeping R) {x : Used} {a b : List Used} (hr : R a b) : R (x :: a) (x :: b) :=
  h.app (h.refl [x]) hr

variable {R : List Used → List Used → Prop} {f : SFW → SFW} {fmt : Str → Str}

mutual

theorem VE.deep_uses (h : Keeping R) (hf : ∀ s : SFW, R ((f s).uses fmt) (s.uses fmt)) : ∀ x : VE, R ((x.deep f).uses fmt) (x.uses fmt)
  | .nb a => by simp only [VE.deep, VE.uses]; exact a.deep_uses h hf
  | .sc a => by simp only [VE.deep, VE.uses]; exact a.deep_uses h hf

theorem VENB.deep_uses (h : Keeping R) (hf : ∀ s : SFW, R ((f s).uses fmt) (s.uses fmt)) : ∀ x : VENB, R ((x.deep f).uses fmt) (x.uses fmt)
  | .mk a b => by simp only [VENB.deep, VENB.uses]; exact h.app (a.deep_uses h hf) (deepTerms_uses h hf b)

theorem deepTerms_uses (h : Keeping R) (hf : ∀ s : SFW, R ((f s).uses fmt) (s.uses fmt)) : ∀ l : List Term, R (usesTerms fmt (deepTerms f l)) (usesTerms fmt l)
  | [] => by simp only [deepTerms]; exact h.refl _
  | a :: l => by simp only [deepTerms, usesTerms]; exact h.app (a.deep_uses h hf) (deepTerms_uses h hf l)

theorem Term.deep_uses (h : Keeping R) (hf : ∀ s : SFW, R ((f s).uses fmt) (s.uses fmt)) : ∀ x : Term, R ((x.deep f).uses fmt) (x.uses fmt)
  | .mk _ b => by simp only [Term.deep, Term.uses]; exact b.deep_uses h hf

theorem Factor.deep_uses (h : Keeping R) (hf : ∀ s : SFW, R ((f s).uses fmt) (s.uses fmt)) : ∀ x : Factor, R ((x.deep f).uses fmt) (x.uses fmt)
  | .mk _ b => by simp only [Factor.deep, Factor.uses]; exact b.deep_uses h hf

theorem NumPrim.deep_uses (h : Keeping R) (hf : ∀ s : SFW, R ((f s).uses fmt) (s.uses fmt)) : ∀ x : NumPrim, R ((x.deep f).uses fmt) (x.uses fmt)
  | .vep a => by simp only [NumPrim.deep, NumPrim.uses]; exact a.deep_uses h hf
  | .nvf a => by simp only [NumPrim.deep, NumPrim.uses]; exact a.deep_uses h hf

theorem NumFn.deep_uses (h : Keeping R) (hf : ∀ s : SFW, R ((f s).uses fmt) (s.uses fmt)) : ∀ x : NumFn, R ((x.deep f).uses fmt) (x.uses fmt)
  | .trig1 _ b => by simp only [NumFn.deep, NumFn.uses]; exact h.cons (b.deep_uses h hf)
  | .trig2 _ b c => by simp only [NumFn.deep, NumFn.uses]; exact h.cons (h.app (b.deep_uses h hf) (c.deep_uses h hf))
  | .math0 _ => by simp only [NumFn.deep, NumFn.uses]; exact h.refl _
  | .math1 _ b => by simp only [NumFn.deep, NumFn.uses]; exact h.cons (b.deep_uses h hf)
  | .math2 _ b c => by simp only [NumFn.deep, NumFn.uses]; exact h.cons (h.app (b.deep_uses h hf) (c.deep_uses h hf))
  | .cast a _ _ => by simp only [NumFn.deep, NumFn.uses]; exact h.cons (a.deep_uses h hf)
  | .geo1 _ _ => by simp only [NumFn.deep, NumFn.uses]; exact h.refl _
  | .geo2 _ _ _ => by simp only [NumFn.deep, NumFn.uses]; exact h.refl _
  | .udf _ b => by simp only [NumFn.deep, NumFn.uses]; exact h.cons (deepVEs_uses h hf b)
  | .str _ => by simp only [NumFn.deep, NumFn.uses]; exact h.refl _

theorem deepVEs_uses (h : Keeping R) (hf : ∀ s : SFW, R ((f s).uses fmt) (s.uses fmt)) : ∀ l : List VE, R (usesVEs fmt (deepVEs f l)) (usesVEs fmt l)
  | [] => by simp only [deepVEs]; exact h.refl _
  | a :: l => by simp only [deepVEs, usesVEs]; exact h.app (a.deep_uses h hf) (deepVEs_uses h hf l)

theorem VEP.deep_uses (h : Keeping R) (hf : ∀ s : SFW, R ((f s).uses fmt) (s.uses fmt)) : ∀ x : VEP, R ((x.deep f).uses fmt) (x.uses fmt)
  | .mk a b => by simp only [VEP.deep, VEP.uses]; exact h.app (a.deep_uses h hf) (deepVEs_uses h hf b)

theorem Prim.deep_uses (h : Keeping R) (hf : ∀ s : SFW, R ((f s).uses fmt) (s.uses fmt)) : ∀ x : Prim, R ((x.deep f).uses fmt) (x.uses fmt)
  | .arr a => by simp only [Prim.deep, Prim.uses]; exact deepVEs_uses h hf a
  | .str _ => by simp only [Prim.deep, Prim.uses]; exact h.refl _
  | .col _ => by simp only [Prim.deep, Prim.uses]; exact h.refl _
  | .countStar _ => by simp only [Prim.deep, Prim.uses]; exact h.refl _
  | .setFn _ _ c => by simp only [Prim.deep, Prim.uses]; exact h.cons (c.deep_uses h hf)
  | .case a => by simp only [Prim.deep, Prim.uses]; exact a.deep_uses h hf
  | .any a => by simp only [Prim.deep, Prim.uses]; exact a.deep_uses h hf
  | .sub a => by simp only [Prim.deep, Prim.uses]; exact a.deep_uses h hf

theorem CaseE.deep_uses (h : Keeping R) (hf : ∀ s : SFW, R ((f s).uses fmt) (s.uses fmt)) : ∀ x : CaseE, R ((x.deep f).uses fmt) (x.uses fmt)
  | .nullif a b => by simp only [CaseE.deep, CaseE.uses]; exact h.app (a.deep_uses h hf) (b.deep_uses h hf)
  | .coalesce a => by simp only [CaseE.deep, CaseE.uses]; exact deepVEs_uses h hf a
  | .simple a b c => by simp only [CaseE.deep, CaseE.uses]; exact h.app (h.app (a.deep_uses h hf) (deepWhens_uses h hf b)) (c.deep_uses h hf)
  | .searched a b => by simp only [CaseE.deep, CaseE.uses]; exact h.app (deepConds_uses h hf a) (b.deep_uses h hf)

theorem deepWhens_uses (h : Keeping R) (hf : ∀ s : SFW, R ((f s).uses fmt) (s.uses fmt)) : ∀ l : List SimpleWhen, R (usesWhens fmt (deepWhens f l)) (usesWhens fmt l)
  | [] => by simp only [deepWhens]; exact h.refl _
  | .mk a b :: l => by simp only [deepWhens, usesWhens, SimpleWhen.deep]; exact h.app (h.app (a.deep_uses h hf) (b.deep_uses h hf)) (deepWhens_uses h hf l)

theorem deepConds_uses (h : Keeping R) (hf : ∀ s : SFW, R ((f s).uses fmt) (s.uses fmt)) : ∀ l : List SearchedWhen, R (usesConds fmt (deepConds f l)) (usesConds fmt l)
  | [] => by simp only [deepConds]; exact h.refl _
  | .mk a b :: l => by simp only [deepConds, usesConds, SearchedWhen.deep]; exact h.app (h.app (a.deep_uses h hf) (b.deep_uses h hf)) (deepConds_uses h hf l)

theorem CaseResult.deep_uses (h : Keeping R) (hf : ∀ s : SFW, R ((f s).uses fmt) (s.uses fmt)) : ∀ x : CaseResult, R ((x.deep f).uses fmt) (x.uses fmt)
  | .str _ => by simp only [CaseResult.deep, CaseResult.uses]; exact h.refl _
  | .ve a => by simp only [CaseResult.deep, CaseResult.uses]; exact a.deep_uses h hf

theorem SC.deep_uses (h : Keeping R) (hf : ∀ s : SFW, R ((f s).uses fmt) (s.uses fmt)) : ∀ x : SC, R ((x.deep f).uses fmt) (x.uses fmt)
  | .factor a => by simp only [SC.deep, SC.uses]; exact a.deep_uses h hf
  | .term a _ c => by simp only [SC.deep, SC.uses]; exact h.app (a.deep_uses h hf) (c.deep_uses h hf)

theorem BF.deep_uses (h : Keeping R) (hf : ∀ s : SFW, R ((f s).uses fmt) (s.uses fmt)) : ∀ x : BF, R ((x.deep f).uses fmt) (x.uses fmt)
  | .mk _ b => by simp only [BF.deep, BF.uses]; exact b.deep_uses h hf

theorem BP.deep_uses (h : Keeping R) (hf : ∀ s : SFW, R ((f s).uses fmt) (s.uses fmt)) : ∀ x : BP, R ((x.deep f).uses fmt) (x.uses fmt)
  | .pred a => by simp only [BP.deep, BP.uses]; exact a.deep_uses h hf
  | .sc a => by simp only [BP.deep, BP.uses]; exact a.deep_uses h hf
  | .ve a => by simp only [BP.deep, BP.uses]; exact a.deep_uses h hf

theorem Pred.deep_uses (h : Keeping R) (hf : ∀ s : SFW, R ((f s).uses fmt) (s.uses fmt)) : ∀ x : Pred, R ((x.deep f).uses fmt) (x.uses fmt)
  | .cmp a _ c => by simp only [Pred.deep, Pred.uses]; exact h.app (a.deep_uses h hf) (c.deep_uses h hf)
  | .between a _ c d => by simp only [Pred.deep, Pred.uses]; exact h.app (h.app (a.deep_uses h hf) (c.deep_uses h hf)) (d.deep_uses h hf)
  | .inSub a _ c => by simp only [Pred.deep, Pred.uses]; exact h.app (a.deep_uses h hf) (c.deep_uses h hf)
  | .inList a _ c => by simp only [Pred.deep, Pred.uses]; exact h.app (a.deep_uses h hf) (deepVEs_uses h hf c)
  | .null a _ => by simp only [Pred.deep, Pred.uses]; exact a.deep_uses h hf
  | .like a _ c => by simp only [Pred.deep, Pred.uses]; exact h.app (a.deep_uses h hf) (c.deep_uses h hf)
  | .exist a => by simp only [Pred.deep, Pred.uses]; exact a.deep_uses h hf

theorem Subquery.deep_uses (h : Keeping R) (hf : ∀ s : SFW, R ((f s).uses fmt) (s.uses fmt)) : ∀ x : Subquery, R ((x.deep f).uses fmt) (x.uses fmt)
  | .jt a => by simp only [Subquery.deep, Subquery.uses]; exact a.deep_uses h hf
  | .qs a => by simp only [Subquery.deep, Subquery.uses]; exact a.deep_uses h hf

theorem JT.deep_uses (h : Keeping R) (hf : ∀ s : SFW, R ((f s).uses fmt) (s.uses fmt)) : ∀ x : JT, R ((x.deep f).uses fmt) (x.uses fmt)
  | .qj a => by simp only [JT.deep, JT.uses]; exact a.deep_uses h hf
  | .wrap a => by simp only [JT.deep, JT.uses]; exact a.deep_uses h hf

theorem QJ.deep_uses (h : Keeping R) (hf : ∀ s : SFW, R ((f s).uses fmt) (s.uses fmt)) : ∀ x : QJ, R ((x.deep f).uses fmt) (x.uses fmt)
  | .mk a b => by simp only [QJ.deep, QJ.uses]; exact h.app (a.deep_uses h hf) (deepSuffixes_uses h hf b)

theorem QJHead.deep_uses (h : Keeping R) (hf : ∀ s : SFW, R ((f s).uses fmt) (s.uses fmt)) : ∀ x : QJHead, R ((x.deep f).uses fmt) (x.uses fmt)
  | .tc _ => by simp only [QJHead.deep, QJHead.uses]; exact h.refl _
  | .jt a => by simp only [QJHead.deep, QJHead.uses]; exact a.deep_uses h hf

theorem deepSuffixes_uses (h : Keeping R) (hf : ∀ s : SFW, R ((f s).uses fmt) (s.uses fmt)) : ∀ l : List JoinSuffix, R (usesSuffixes fmt (deepSuffixes f l)) (usesSuffixes fmt l)
  | [] => by simp only [deepSuffixes]; exact h.refl _
  | a :: l => by simp only [deepSuffixes, usesSuffixes]; exact h.app (a.deep_uses h hf) (deepSuffixes_uses h hf l)

theorem JoinSuffix.deep_uses (h : Keeping R) (hf : ∀ s : SFW, R ((f s).uses fmt) (s.uses fmt)) : ∀ x : JoinSuffix, R ((x.deep f).uses fmt) (x.uses fmt)
  | .mk _ _ c d => by simp only [JoinSuffix.deep, JoinSuffix.uses]; exact h.app (c.deep_uses h hf) (d.deep_uses h hf)

theorem JoinSpec.deep_uses (h : Keeping R) (hf : ∀ s : SFW, R ((f s).uses fmt) (s.uses fmt)) : ∀ x : JoinSpec, R ((x.deep f).uses fmt) (x.uses fmt)
  | .named _ => by simp only [JoinSpec.deep, JoinSpec.uses]; exact h.refl _
  | .on a => by simp only [JoinSpec.deep, JoinSpec.uses]; exact a.deep_uses h hf

theorem TR.deep_uses (h : Keeping R) (hf : ∀ s : SFW, R ((f s).uses fmt) (s.uses fmt)) : ∀ x : TR, R ((x.deep f).uses fmt) (x.uses fmt)
  | .tc _ => by simp only [TR.deep, TR.uses]; exact h.refl _
  | .jt a => by simp only [TR.deep, TR.uses]; exact a.deep_uses h hf
  | .derived a _ => by simp only [TR.deep, TR.uses]; exact a.deep_uses h hf
  | .tvf _ _ => by simp only [TR.deep, TR.uses]; exact h.refl _

theorem GPred.deep_uses (h : Keeping R) (hf : ∀ s : SFW, R ((f s).uses fmt) (s.uses fmt)) : ∀ x : GPred, R ((x.deep f).uses fmt) (x.uses fmt)
  | .intersects a _ => by simp only [GPred.deep, GPred.uses]; exact h.app (a.deep_uses h hf) (h.refl _)
  | .contains _ _ => by simp only [GPred.deep, GPred.uses]; exact h.refl _

theorem Geom.deep_uses (h : Keeping R) (hf : ∀ s : SFW, R ((f s).uses fmt) (s.uses fmt)) : ∀ x : Geom, R ((x.deep f).uses fmt) (x.uses fmt)
  | .left _ b => by simp only [Geom.deep, Geom.uses]; exact b.deep_uses h hf
  | .right a _ => by simp only [Geom.deep, Geom.uses]; exact a.deep_uses h hf

theorem Where.deep_uses (h : Keeping R) (hf : ∀ s : SFW, R ((f s).uses fmt) (s.uses fmt)) : ∀ x : Where, R ((x.deep f).uses fmt) (x.uses fmt)
  | .mk a b => by simp only [Where.deep, Where.uses]; exact h.app (a.deep_uses h hf) (b.deep_uses h hf)

theorem Item.deep_uses (h : Keeping R) (hf : ∀ s : SFW, R ((f s).uses fmt) (s.uses fmt)) : ∀ x : Item, R ((x.deep f).uses fmt) (x.uses fmt)
  | .as a _ => by simp only [Item.deep, Item.uses]; exact a.deep_uses h hf
  | .nonAsStr _ => by simp only [Item.deep, Item.uses]; exact h.refl _
  | .nonAsVE a => by simp only [Item.deep, Item.uses]; exact a.deep_uses h hf

theorem deepItems_uses (h : Keeping R) (hf : ∀ s : SFW, R ((f s).uses fmt) (s.uses fmt)) : ∀ l : List Item, R (usesItems fmt (deepItems f l)) (usesItems fmt l)
  | [] => by simp only [deepItems]; exact h.refl _
  | a :: l => by simp only [deepItems, usesItems]; exact h.app (a.deep_uses h hf) (deepItems_uses h hf l)

theorem Columns.deep_uses (h : Keeping R) (hf : ∀ s : SFW, R ((f s).uses fmt) (s.uses fmt)) : ∀ x : Columns, R ((x.deep f).uses fmt) (x.uses fmt)
  | .star _ => by simp only [Columns.deep, Columns.uses]; exact h.refl _
  | .items a => by simp only [Columns.deep, Columns.uses]; exact deepItems_uses h hf a

theorem Select.deep_uses (h : Keeping R) (hf : ∀ s : SFW, R ((f s).uses fmt) (s.uses fmt)) : ∀ x : Select, R ((x.deep f).uses fmt) (x.uses fmt)
  | .mk _ _ c => by simp only [Select.deep, Select.uses]; exact c.deep_uses h hf

theorem deepTRs_uses (h : Keeping R) (hf : ∀ s : SFW, R ((f s).uses fmt) (s.uses fmt)) : ∀ l : List TR, R (usesTRs fmt (deepTRs f l)) (usesTRs fmt l)
  | [] => by simp only [deepTRs]; exact h.refl _
  | a :: l => by simp only [deepTRs, usesTRs]; exact h.app (a.deep_uses h hf) (deepTRs_uses h hf l)

theorem SFW.deep_uses (h : Keeping R) (hf : ∀ s : SFW, R ((f s).uses fmt) (s.uses fmt)) : ∀ x : SFW, R ((x.deep f).uses fmt) (x.uses fmt)
  | .mk a b c => by
    refine h.trans (b := (SFW.mk (a.deep f) (deepTRs f b) (c.deep f)).uses fmt) (by simp only [SFW.deep]; exact hf _) ?_
    simp only [SFW.uses]
    exact h.app (h.app (a.deep_uses h hf) (deepTRs_uses h hf b)) (c.deep_uses h hf)

theorem Addon.deep_uses (h : Keeping R) (hf : ∀ s : SFW, R ((f s).uses fmt) (s.uses fmt)) : ∀ x : Addon, R ((x.deep f).uses fmt) (x.uses fmt)
  | .mk _ b => by simp only [Addon.deep, Addon.uses]; exact b.deep_uses h hf

theorem deepAddons_uses (h : Keeping R) (hf : ∀ s : SFW, R ((f s).uses fmt) (s.uses fmt)) : ∀ l : List Addon, R (usesAddons fmt (deepAddons f l)) (usesAddons fmt l)
  | [] => by simp only [deepAddons]; exact h.refl _
  | a :: l => by simp only [deepAddons, usesAddons]; exact h.app (a.deep_uses h hf) (deepAddons_uses h hf l)

theorem SFWList.deep_uses (h : Keeping R) (hf : ∀ s : SFW, R ((f s).uses fmt) (s.uses fmt)) : ∀ x : SFWList, R ((x.deep f).uses fmt) (x.uses fmt)
  | .mk a b => by simp only [SFWList.deep, SFWList.uses]; exact h.app (a.deep_uses h hf) (deepAddons_uses h hf b)

theorem GroupTerm.deep_uses (h : Keeping R) (hf : ∀ s : SFW, R ((f s).uses fmt) (s.uses fmt)) : ∀ x : GroupTerm, R ((x.deep f).uses fmt) (x.uses fmt)
  | .col _ => by simp only [GroupTerm.deep, GroupTerm.uses]; exact h.refl _
  | .ve a => by simp only [GroupTerm.deep, GroupTerm.uses]; exact a.deep_uses h hf

theorem deepGroup_uses (h : Keeping R) (hf : ∀ s : SFW, R ((f s).uses fmt) (s.uses fmt)) : ∀ l : List GroupTerm, R (usesGroup fmt (deepGroup f l)) (usesGroup fmt l)
  | [] => by simp only [deepGroup]; exact h.refl _
  | a :: l => by simp only [deepGroup, usesGroup]; exact h.app (a.deep_uses h hf) (deepGroup_uses h hf l)

theorem With.deep_uses (h : Keeping R) (hf : ∀ s : SFW, R ((f s).uses fmt) (s.uses fmt)) : ∀ x : With, R ((x.deep f).uses fmt) (x.uses fmt)
  | .mk _ _ c => by simp only [With.deep, With.uses]; exact c.deep_uses h hf

theorem QuerySpec.deep_uses (h : Keeping R) (hf : ∀ s : SFW, R ((f s).uses fmt) (s.uses fmt)) : ∀ x : QuerySpec, R ((x.deep f).uses fmt) (x.uses fmt)
  | .mk a b c d _ => by simp only [QuerySpec.deep, QuerySpec.uses]; exact h.app (h.app (h.app (h.app (a.deep_uses h hf) (b.deep_uses h hf)) (deepGroup_uses h hf c)) (d.deep_uses h hf)) (h.refl _)

end

end Adql
