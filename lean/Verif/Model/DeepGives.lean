import Verif.Model.DeepUses
import Verif.Spec.Deep

/-!
# What a query still uses after a change of its SELECTs

As `DeepUses`, in the other direction, and with a condition on the SELECTs of the query only.
-/

namespace Adql

open Spec

set_option linter.unusedSimpArgs false

variable {R : List Used → List Used → Prop} {f : SFW → SFW} {fmt : Str → Str}

mutual

theorem VE.deep_gives (h : Keeping R) : ∀ x : VE, (∀ s ∈ x.selects, R ((s.inner f).uses fmt) ((f (s.inner f)).uses fmt)) → R (x.uses fmt) ((x.deep f).uses fmt)
  | .nb a, hf => by simp only [VE.deep, VE.uses]; exact a.deep_gives h (fun s hs => hf s (by simp only [VE.selects, List.mem_append, List.mem_cons, hs, or_true, true_or]))
  | .sc a, hf => by simp only [VE.deep, VE.uses]; exact a.deep_gives h (fun s hs => hf s (by simp only [VE.selects, List.mem_append, List.mem_cons, hs, or_true, true_or]))

theorem VENB.deep_gives (h : Keeping R) : ∀ x : VENB, (∀ s ∈ x.selects, R ((s.inner f).uses fmt) ((f (s.inner f)).uses fmt)) → R (x.uses fmt) ((x.deep f).uses fmt)
  | .mk a b, hf => by simp only [VENB.deep, VENB.uses]; exact h.app (a.deep_gives h (fun s hs => hf s (by simp only [VENB.selects, List.mem_append, List.mem_cons, hs, or_true, true_or]))) (deepTerms_gives h b (fun s hs => hf s (by simp only [VENB.selects, List.mem_append, List.mem_cons, hs, or_true, true_or])))

theorem deepTerms_gives (h : Keeping R) : ∀ l : List Term, (∀ s ∈ selectsTerms l, R ((s.inner f).uses fmt) ((f (s.inner f)).uses fmt)) → R (usesTerms fmt l) (usesTerms fmt (deepTerms f l))
  | [], _ => by simp only [deepTerms]; exact h.refl _
  | a :: l, hf => by simp only [deepTerms, usesTerms]; exact h.app (a.deep_gives h (fun s hs => hf s (by simp only [selectsTerms, List.mem_append, hs, or_true, true_or]))) (deepTerms_gives h l (fun s hs => hf s (by simp only [selectsTerms, List.mem_append, hs, or_true, true_or])))

theorem Term.deep_gives (h : Keeping R) : ∀ x : Term, (∀ s ∈ x.selects, R ((s.inner f).uses fmt) ((f (s.inner f)).uses fmt)) → R (x.uses fmt) ((x.deep f).uses fmt)
  | .mk _ b, hf => by simp only [Term.deep, Term.uses]; exact b.deep_gives h (fun s hs => hf s (by simp only [Term.selects, List.mem_append, List.mem_cons, hs, or_true, true_or]))

theorem Factor.deep_gives (h : Keeping R) : ∀ x : Factor, (∀ s ∈ x.selects, R ((s.inner f).uses fmt) ((f (s.inner f)).uses fmt)) → R (x.uses fmt) ((x.deep f).uses fmt)
  | .mk _ b, hf => by simp only [Factor.deep, Factor.uses]; exact b.deep_gives h (fun s hs => hf s (by simp only [Factor.selects, List.mem_append, List.mem_cons, hs, or_true, true_or]))

theorem NumPrim.deep_gives (h : Keeping R) : ∀ x : NumPrim, (∀ s ∈ x.selects, R ((s.inner f).uses fmt) ((f (s.inner f)).uses fmt)) → R (x.uses fmt) ((x.deep f).uses fmt)
  | .vep a, hf => by simp only [NumPrim.deep, NumPrim.uses]; exact a.deep_gives h (fun s hs => hf s (by simp only [NumPrim.selects, List.mem_append, List.mem_cons, hs, or_true, true_or]))
  | .nvf a, hf => by simp only [NumPrim.deep, NumPrim.uses]; exact a.deep_gives h (fun s hs => hf s (by simp only [NumPrim.selects, List.mem_append, List.mem_cons, hs, or_true, true_or]))

theorem NumFn.deep_gives (h : Keeping R) : ∀ x : NumFn, (∀ s ∈ x.selects, R ((s.inner f).uses fmt) ((f (s.inner f)).uses fmt)) → R (x.uses fmt) ((x.deep f).uses fmt)
  | .trig1 _ b, hf => by simp only [NumFn.deep, NumFn.uses]; exact h.cons (b.deep_gives h (fun s hs => hf s (by simp only [NumFn.selects, List.mem_append, List.mem_cons, hs, or_true, true_or])))
  | .trig2 _ b c, hf => by simp only [NumFn.deep, NumFn.uses]; exact h.cons (h.app (b.deep_gives h (fun s hs => hf s (by simp only [NumFn.selects, List.mem_append, List.mem_cons, hs, or_true, true_or]))) (c.deep_gives h (fun s hs => hf s (by simp only [NumFn.selects, List.mem_append, List.mem_cons, hs, or_true, true_or]))))
  | .math0 _, _ => by simp only [NumFn.deep, NumFn.uses]; exact h.refl _
  | .math1 _ b, hf => by simp only [NumFn.deep, NumFn.uses]; exact h.cons (b.deep_gives h (fun s hs => hf s (by simp only [NumFn.selects, List.mem_append, List.mem_cons, hs, or_true, true_or])))
  | .math2 _ b c, hf => by simp only [NumFn.deep, NumFn.uses]; exact h.cons (h.app (b.deep_gives h (fun s hs => hf s (by simp only [NumFn.selects, List.mem_append, List.mem_cons, hs, or_true, true_or]))) (c.deep_gives h (fun s hs => hf s (by simp only [NumFn.selects, List.mem_append, List.mem_cons, hs, or_true, true_or]))))
  | .cast a _ _, hf => by simp only [NumFn.deep, NumFn.uses]; exact h.cons (a.deep_gives h (fun s hs => hf s (by simp only [NumFn.selects, List.mem_append, List.mem_cons, hs, or_true, true_or])))
  | .geo1 _ _, _ => by simp only [NumFn.deep, NumFn.uses]; exact h.refl _
  | .geo2 _ _ _, _ => by simp only [NumFn.deep, NumFn.uses]; exact h.refl _
  | .udf _ b, hf => by simp only [NumFn.deep, NumFn.uses]; exact h.cons (deepVEs_gives h b (fun s hs => hf s (by simp only [NumFn.selects, List.mem_append, List.mem_cons, hs, or_true, true_or])))
  | .str _, _ => by simp only [NumFn.deep, NumFn.uses]; exact h.refl _

theorem deepVEs_gives (h : Keeping R) : ∀ l : List VE, (∀ s ∈ selectsVEs l, R ((s.inner f).uses fmt) ((f (s.inner f)).uses fmt)) → R (usesVEs fmt l) (usesVEs fmt (deepVEs f l))
  | [], _ => by simp only [deepVEs]; exact h.refl _
  | a :: l, hf => by simp only [deepVEs, usesVEs]; exact h.app (a.deep_gives h (fun s hs => hf s (by simp only [selectsVEs, List.mem_append, hs, or_true, true_or]))) (deepVEs_gives h l (fun s hs => hf s (by simp only [selectsVEs, List.mem_append, hs, or_true, true_or])))

theorem VEP.deep_gives (h : Keeping R) : ∀ x : VEP, (∀ s ∈ x.selects, R ((s.inner f).uses fmt) ((f (s.inner f)).uses fmt)) → R (x.uses fmt) ((x.deep f).uses fmt)
  | .mk a b, hf => by simp only [VEP.deep, VEP.uses]; exact h.app (a.deep_gives h (fun s hs => hf s (by simp only [VEP.selects, List.mem_append, List.mem_cons, hs, or_true, true_or]))) (deepVEs_gives h b (fun s hs => hf s (by simp only [VEP.selects, List.mem_append, List.mem_cons, hs, or_true, true_or])))

theorem Prim.deep_gives (h : Keeping R) : ∀ x : Prim, (∀ s ∈ x.selects, R ((s.inner f).uses fmt) ((f (s.inner f)).uses fmt)) → R (x.uses fmt) ((x.deep f).uses fmt)
  | .arr a, hf => by simp only [Prim.deep, Prim.uses]; exact deepVEs_gives h a (fun s hs => hf s (by simp only [Prim.selects, List.mem_append, List.mem_cons, hs, or_true, true_or]))
  | .str _, _ => by simp only [Prim.deep, Prim.uses]; exact h.refl _
  | .col _, _ => by simp only [Prim.deep, Prim.uses]; exact h.refl _
  | .countStar _, _ => by simp only [Prim.deep, Prim.uses]; exact h.refl _
  | .setFn _ _ c, hf => by simp only [Prim.deep, Prim.uses]; exact h.cons (c.deep_gives h (fun s hs => hf s (by simp only [Prim.selects, List.mem_append, List.mem_cons, hs, or_true, true_or])))
  | .case a, hf => by simp only [Prim.deep, Prim.uses]; exact a.deep_gives h (fun s hs => hf s (by simp only [Prim.selects, List.mem_append, List.mem_cons, hs, or_true, true_or]))
  | .any a, hf => by simp only [Prim.deep, Prim.uses]; exact a.deep_gives h (fun s hs => hf s (by simp only [Prim.selects, List.mem_append, List.mem_cons, hs, or_true, true_or]))
  | .sub a, hf => by simp only [Prim.deep, Prim.uses]; exact a.deep_gives h (fun s hs => hf s (by simp only [Prim.selects, List.mem_append, List.mem_cons, hs, or_true, true_or]))

theorem CaseE.deep_gives (h : Keeping R) : ∀ x : CaseE, (∀ s ∈ x.selects, R ((s.inner f).uses fmt) ((f (s.inner f)).uses fmt)) → R (x.uses fmt) ((x.deep f).uses fmt)
  | .nullif a b, hf => by simp only [CaseE.deep, CaseE.uses]; exact h.app (a.deep_gives h (fun s hs => hf s (by simp only [CaseE.selects, List.mem_append, List.mem_cons, hs, or_true, true_or]))) (b.deep_gives h (fun s hs => hf s (by simp only [CaseE.selects, List.mem_append, List.mem_cons, hs, or_true, true_or])))
  | .coalesce a, hf => by simp only [CaseE.deep, CaseE.uses]; exact deepVEs_gives h a (fun s hs => hf s (by simp only [CaseE.selects, List.mem_append, List.mem_cons, hs, or_true, true_or]))
  | .simple a b c, hf => by simp only [CaseE.deep, CaseE.uses]; exact h.app (h.app (a.deep_gives h (fun s hs => hf s (by simp only [CaseE.selects, List.mem_append, List.mem_cons, hs, or_true, true_or]))) (deepWhens_gives h b (fun s hs => hf s (by simp only [CaseE.selects, List.mem_append, List.mem_cons, hs, or_true, true_or])))) (c.deep_gives h (fun s hs => hf s (by simp only [CaseE.selects, List.mem_append, List.mem_cons, hs, or_true, true_or])))
  | .searched a b, hf => by simp only [CaseE.deep, CaseE.uses]; exact h.app (deepConds_gives h a (fun s hs => hf s (by simp only [CaseE.selects, List.mem_append, List.mem_cons, hs, or_true, true_or]))) (b.deep_gives h (fun s hs => hf s (by simp only [CaseE.selects, List.mem_append, List.mem_cons, hs, or_true, true_or])))

theorem deepWhens_gives (h : Keeping R) : ∀ l : List SimpleWhen, (∀ s ∈ selectsWhens l, R ((s.inner f).uses fmt) ((f (s.inner f)).uses fmt)) → R (usesWhens fmt l) (usesWhens fmt (deepWhens f l))
  | [], _ => by simp only [deepWhens]; exact h.refl _
  | .mk a b :: l, hf => by simp only [deepWhens, usesWhens, SimpleWhen.deep]; exact h.app (h.app (a.deep_gives h (fun s hs => hf s (by simp only [selectsWhens, SimpleWhen.selects, List.mem_append, hs, or_true, true_or]))) (b.deep_gives h (fun s hs => hf s (by simp only [selectsWhens, SimpleWhen.selects, List.mem_append, hs, or_true, true_or])))) (deepWhens_gives h l (fun s hs => hf s (by simp only [selectsWhens, SimpleWhen.selects, List.mem_append, hs, or_true, true_or])))

theorem deepConds_gives (h : Keeping R) : ∀ l : List SearchedWhen, (∀ s ∈ selectsConds l, R ((s.inner f).uses fmt) ((f (s.inner f)).uses fmt)) → R (usesConds fmt l) (usesConds fmt (deepConds f l))
  | [], _ => by simp only [deepConds]; exact h.refl _
  | .mk a b :: l, hf => by simp only [deepConds, usesConds, SearchedWhen.deep]; exact h.app (h.app (a.deep_gives h (fun s hs => hf s (by simp only [selectsConds, SearchedWhen.selects, List.mem_append, hs, or_true, true_or]))) (b.deep_gives h (fun s hs => hf s (by simp only [selectsConds, SearchedWhen.selects, List.mem_append, hs, or_true, true_or])))) (deepConds_gives h l (fun s hs => hf s (by simp only [selectsConds, SearchedWhen.selects, List.mem_append, hs, or_true, true_or])))

theorem CaseResult.deep_gives (h : Keeping R) : ∀ x : CaseResult, (∀ s ∈ x.selects, R ((s.inner f).uses fmt) ((f (s.inner f)).uses fmt)) → R (x.uses fmt) ((x.deep f).uses fmt)
  | .str _, _ => by simp only [CaseResult.deep, CaseResult.uses]; exact h.refl _
  | .ve a, hf => by simp only [CaseResult.deep, CaseResult.uses]; exact a.deep_gives h (fun s hs => hf s (by simp only [CaseResult.selects, List.mem_append, List.mem_cons, hs, or_true, true_or]))

theorem SC.deep_gives (h : Keeping R) : ∀ x : SC, (∀ s ∈ x.selects, R ((s.inner f).uses fmt) ((f (s.inner f)).uses fmt)) → R (x.uses fmt) ((x.deep f).uses fmt)
  | .factor a, hf => by simp only [SC.deep, SC.uses]; exact a.deep_gives h (fun s hs => hf s (by simp only [SC.selects, List.mem_append, List.mem_cons, hs, or_true, true_or]))
  | .term a _ c, hf => by simp only [SC.deep, SC.uses]; exact h.app (a.deep_gives h (fun s hs => hf s (by simp only [SC.selects, List.mem_append, List.mem_cons, hs, or_true, true_or]))) (c.deep_gives h (fun s hs => hf s (by simp only [SC.selects, List.mem_append, List.mem_cons, hs, or_true, true_or])))

theorem BF.deep_gives (h : Keeping R) : ∀ x : BF, (∀ s ∈ x.selects, R ((s.inner f).uses fmt) ((f (s.inner f)).uses fmt)) → R (x.uses fmt) ((x.deep f).uses fmt)
  | .mk _ b, hf => by simp only [BF.deep, BF.uses]; exact b.deep_gives h (fun s hs => hf s (by simp only [BF.selects, List.mem_append, List.mem_cons, hs, or_true, true_or]))

theorem BP.deep_gives (h : Keeping R) : ∀ x : BP, (∀ s ∈ x.selects, R ((s.inner f).uses fmt) ((f (s.inner f)).uses fmt)) → R (x.uses fmt) ((x.deep f).uses fmt)
  | .pred a, hf => by simp only [BP.deep, BP.uses]; exact a.deep_gives h (fun s hs => hf s (by simp only [BP.selects, List.mem_append, List.mem_cons, hs, or_true, true_or]))
  | .sc a, hf => by simp only [BP.deep, BP.uses]; exact a.deep_gives h (fun s hs => hf s (by simp only [BP.selects, List.mem_append, List.mem_cons, hs, or_true, true_or]))
  | .ve a, hf => by simp only [BP.deep, BP.uses]; exact a.deep_gives h (fun s hs => hf s (by simp only [BP.selects, List.mem_append, List.mem_cons, hs, or_true, true_or]))

theorem Pred.deep_gives (h : Keeping R) : ∀ x : Pred, (∀ s ∈ x.selects, R ((s.inner f).uses fmt) ((f (s.inner f)).uses fmt)) → R (x.uses fmt) ((x.deep f).uses fmt)
  | .cmp a _ c, hf => by simp only [Pred.deep, Pred.uses]; exact h.app (a.deep_gives h (fun s hs => hf s (by simp only [Pred.selects, List.mem_append, List.mem_cons, hs, or_true, true_or]))) (c.deep_gives h (fun s hs => hf s (by simp only [Pred.selects, List.mem_append, List.mem_cons, hs, or_true, true_or])))
  | .between a _ c d, hf => by simp only [Pred.deep, Pred.uses]; exact h.app (h.app (a.deep_gives h (fun s hs => hf s (by simp only [Pred.selects, List.mem_append, List.mem_cons, hs, or_true, true_or]))) (c.deep_gives h (fun s hs => hf s (by simp only [Pred.selects, List.mem_append, List.mem_cons, hs, or_true, true_or])))) (d.deep_gives h (fun s hs => hf s (by simp only [Pred.selects, List.mem_append, List.mem_cons, hs, or_true, true_or])))
  | .inSub a _ c, hf => by simp only [Pred.deep, Pred.uses]; exact h.app (a.deep_gives h (fun s hs => hf s (by simp only [Pred.selects, List.mem_append, List.mem_cons, hs, or_true, true_or]))) (c.deep_gives h (fun s hs => hf s (by simp only [Pred.selects, List.mem_append, List.mem_cons, hs, or_true, true_or])))
  | .inList a _ c, hf => by simp only [Pred.deep, Pred.uses]; exact h.app (a.deep_gives h (fun s hs => hf s (by simp only [Pred.selects, List.mem_append, List.mem_cons, hs, or_true, true_or]))) (deepVEs_gives h c (fun s hs => hf s (by simp only [Pred.selects, List.mem_append, List.mem_cons, hs, or_true, true_or])))
  | .null a _, hf => by simp only [Pred.deep, Pred.uses]; exact a.deep_gives h (fun s hs => hf s (by simp only [Pred.selects, List.mem_append, List.mem_cons, hs, or_true, true_or]))
  | .like a _ c, hf => by simp only [Pred.deep, Pred.uses]; exact h.app (a.deep_gives h (fun s hs => hf s (by simp only [Pred.selects, List.mem_append, List.mem_cons, hs, or_true, true_or]))) (c.deep_gives h (fun s hs => hf s (by simp only [Pred.selects, List.mem_append, List.mem_cons, hs, or_true, true_or])))
  | .exist a, hf => by simp only [Pred.deep, Pred.uses]; exact a.deep_gives h (fun s hs => hf s (by simp only [Pred.selects, List.mem_append, List.mem_cons, hs, or_true, true_or]))

theorem Subquery.deep_gives (h : Keeping R) : ∀ x : Subquery, (∀ s ∈ x.selects, R ((s.inner f).uses fmt) ((f (s.inner f)).uses fmt)) → R (x.uses fmt) ((x.deep f).uses fmt)
  | .jt a, hf => by simp only [Subquery.deep, Subquery.uses]; exact a.deep_gives h (fun s hs => hf s (by simp only [Subquery.selects, List.mem_append, List.mem_cons, hs, or_true, true_or]))
  | .qs a, hf => by simp only [Subquery.deep, Subquery.uses]; exact a.deep_gives h (fun s hs => hf s (by simp only [Subquery.selects, List.mem_append, List.mem_cons, hs, or_true, true_or]))

theorem JT.deep_gives (h : Keeping R) : ∀ x : JT, (∀ s ∈ x.selects, R ((s.inner f).uses fmt) ((f (s.inner f)).uses fmt)) → R (x.uses fmt) ((x.deep f).uses fmt)
  | .qj a, hf => by simp only [JT.deep, JT.uses]; exact a.deep_gives h (fun s hs => hf s (by simp only [JT.selects, List.mem_append, List.mem_cons, hs, or_true, true_or]))
  | .wrap a, hf => by simp only [JT.deep, JT.uses]; exact a.deep_gives h (fun s hs => hf s (by simp only [JT.selects, List.mem_append, List.mem_cons, hs, or_true, true_or]))

theorem QJ.deep_gives (h : Keeping R) : ∀ x : QJ, (∀ s ∈ x.selects, R ((s.inner f).uses fmt) ((f (s.inner f)).uses fmt)) → R (x.uses fmt) ((x.deep f).uses fmt)
  | .mk a b, hf => by simp only [QJ.deep, QJ.uses]; exact h.app (a.deep_gives h (fun s hs => hf s (by simp only [QJ.selects, List.mem_append, List.mem_cons, hs, or_true, true_or]))) (deepSuffixes_gives h b (fun s hs => hf s (by simp only [QJ.selects, List.mem_append, List.mem_cons, hs, or_true, true_or])))

theorem QJHead.deep_gives (h : Keeping R) : ∀ x : QJHead, (∀ s ∈ x.selects, R ((s.inner f).uses fmt) ((f (s.inner f)).uses fmt)) → R (x.uses fmt) ((x.deep f).uses fmt)
  | .tc _, _ => by simp only [QJHead.deep, QJHead.uses]; exact h.refl _
  | .jt a, hf => by simp only [QJHead.deep, QJHead.uses]; exact a.deep_gives h (fun s hs => hf s (by simp only [QJHead.selects, List.mem_append, List.mem_cons, hs, or_true, true_or]))

theorem deepSuffixes_gives (h : Keeping R) : ∀ l : List JoinSuffix, (∀ s ∈ selectsSuffixes l, R ((s.inner f).uses fmt) ((f (s.inner f)).uses fmt)) → R (usesSuffixes fmt l) (usesSuffixes fmt (deepSuffixes f l))
  | [], _ => by simp only [deepSuffixes]; exact h.refl _
  | a :: l, hf => by simp only [deepSuffixes, usesSuffixes]; exact h.app (a.deep_gives h (fun s hs => hf s (by simp only [selectsSuffixes, List.mem_append, hs, or_true, true_or]))) (deepSuffixes_gives h l (fun s hs => hf s (by simp only [selectsSuffixes, List.mem_append, hs, or_true, true_or])))

theorem JoinSuffix.deep_gives (h : Keeping R) : ∀ x : JoinSuffix, (∀ s ∈ x.selects, R ((s.inner f).uses fmt) ((f (s.inner f)).uses fmt)) → R (x.uses fmt) ((x.deep f).uses fmt)
  | .mk _ _ c d, hf => by simp only [JoinSuffix.deep, JoinSuffix.uses]; exact h.app (c.deep_gives h (fun s hs => hf s (by simp only [JoinSuffix.selects, List.mem_append, List.mem_cons, hs, or_true, true_or]))) (d.deep_gives h (fun s hs => hf s (by simp only [JoinSuffix.selects, List.mem_append, List.mem_cons, hs, or_true, true_or])))

theorem JoinSpec.deep_gives (h : Keeping R) : ∀ x : JoinSpec, (∀ s ∈ x.selects, R ((s.inner f).uses fmt) ((f (s.inner f)).uses fmt)) → R (x.uses fmt) ((x.deep f).uses fmt)
  | .named _, _ => by simp only [JoinSpec.deep, JoinSpec.uses]; exact h.refl _
  | .on a, hf => by simp only [JoinSpec.deep, JoinSpec.uses]; exact a.deep_gives h (fun s hs => hf s (by simp only [JoinSpec.selects, List.mem_append, List.mem_cons, hs, or_true, true_or]))

theorem TR.deep_gives (h : Keeping R) : ∀ x : TR, (∀ s ∈ x.selects, R ((s.inner f).uses fmt) ((f (s.inner f)).uses fmt)) → R (x.uses fmt) ((x.deep f).uses fmt)
  | .tc _, _ => by simp only [TR.deep, TR.uses]; exact h.refl _
  | .jt a, hf => by simp only [TR.deep, TR.uses]; exact a.deep_gives h (fun s hs => hf s (by simp only [TR.selects, List.mem_append, List.mem_cons, hs, or_true, true_or]))
  | .derived a _, hf => by simp only [TR.deep, TR.uses]; exact a.deep_gives h (fun s hs => hf s (by simp only [TR.selects, List.mem_append, List.mem_cons, hs, or_true, true_or]))
  | .tvf _ _, _ => by simp only [TR.deep, TR.uses]; exact h.refl _

theorem GPred.deep_gives (h : Keeping R) : ∀ x : GPred, (∀ s ∈ x.selects, R ((s.inner f).uses fmt) ((f (s.inner f)).uses fmt)) → R (x.uses fmt) ((x.deep f).uses fmt)
  | .intersects a _, hf => by simp only [GPred.deep, GPred.uses]; exact h.app (a.deep_gives h (fun s hs => hf s (by simp only [GPred.selects, List.mem_append, List.mem_cons, hs, or_true, true_or]))) (h.refl _)
  | .contains _ _, _ => by simp only [GPred.deep, GPred.uses]; exact h.refl _

theorem Geom.deep_gives (h : Keeping R) : ∀ x : Geom, (∀ s ∈ x.selects, R ((s.inner f).uses fmt) ((f (s.inner f)).uses fmt)) → R (x.uses fmt) ((x.deep f).uses fmt)
  | .left _ b, hf => by simp only [Geom.deep, Geom.uses]; exact b.deep_gives h (fun s hs => hf s (by simp only [Geom.selects, List.mem_append, List.mem_cons, hs, or_true, true_or]))
  | .right a _, hf => by simp only [Geom.deep, Geom.uses]; exact a.deep_gives h (fun s hs => hf s (by simp only [Geom.selects, List.mem_append, List.mem_cons, hs, or_true, true_or]))

theorem Where.deep_gives (h : Keeping R) : ∀ x : Where, (∀ s ∈ x.selects, R ((s.inner f).uses fmt) ((f (s.inner f)).uses fmt)) → R (x.uses fmt) ((x.deep f).uses fmt)
  | .mk a b, hf => by simp only [Where.deep, Where.uses]; exact h.app (a.deep_gives h (fun s hs => hf s (by simp only [Where.selects, List.mem_append, List.mem_cons, hs, or_true, true_or]))) (b.deep_gives h (fun s hs => hf s (by simp only [Where.selects, List.mem_append, List.mem_cons, hs, or_true, true_or])))

theorem Item.deep_gives (h : Keeping R) : ∀ x : Item, (∀ s ∈ x.selects, R ((s.inner f).uses fmt) ((f (s.inner f)).uses fmt)) → R (x.uses fmt) ((x.deep f).uses fmt)
  | .as a _, hf => by simp only [Item.deep, Item.uses]; exact a.deep_gives h (fun s hs => hf s (by simp only [Item.selects, List.mem_append, List.mem_cons, hs, or_true, true_or]))
  | .nonAsStr _, _ => by simp only [Item.deep, Item.uses]; exact h.refl _
  | .nonAsVE a, hf => by simp only [Item.deep, Item.uses]; exact a.deep_gives h (fun s hs => hf s (by simp only [Item.selects, List.mem_append, List.mem_cons, hs, or_true, true_or]))

theorem deepItems_gives (h : Keeping R) : ∀ l : List Item, (∀ s ∈ selectsItems l, R ((s.inner f).uses fmt) ((f (s.inner f)).uses fmt)) → R (usesItems fmt l) (usesItems fmt (deepItems f l))
  | [], _ => by simp only [deepItems]; exact h.refl _
  | a :: l, hf => by simp only [deepItems, usesItems]; exact h.app (a.deep_gives h (fun s hs => hf s (by simp only [selectsItems, List.mem_append, hs, or_true, true_or]))) (deepItems_gives h l (fun s hs => hf s (by simp only [selectsItems, List.mem_append, hs, or_true, true_or])))

theorem Columns.deep_gives (h : Keeping R) : ∀ x : Columns, (∀ s ∈ x.selects, R ((s.inner f).uses fmt) ((f (s.inner f)).uses fmt)) → R (x.uses fmt) ((x.deep f).uses fmt)
  | .star _, _ => by simp only [Columns.deep, Columns.uses]; exact h.refl _
  | .items a, hf => by simp only [Columns.deep, Columns.uses]; exact deepItems_gives h a (fun s hs => hf s (by simp only [Columns.selects, List.mem_append, List.mem_cons, hs, or_true, true_or]))

theorem Select.deep_gives (h : Keeping R) : ∀ x : Select, (∀ s ∈ x.selects, R ((s.inner f).uses fmt) ((f (s.inner f)).uses fmt)) → R (x.uses fmt) ((x.deep f).uses fmt)
  | .mk _ _ c, hf => by simp only [Select.deep, Select.uses]; exact c.deep_gives h (fun s hs => hf s (by simp only [Select.selects, List.mem_append, List.mem_cons, hs, or_true, true_or]))

theorem deepTRs_gives (h : Keeping R) : ∀ l : List TR, (∀ s ∈ selectsTRs l, R ((s.inner f).uses fmt) ((f (s.inner f)).uses fmt)) → R (usesTRs fmt l) (usesTRs fmt (deepTRs f l))
  | [], _ => by simp only [deepTRs]; exact h.refl _
  | a :: l, hf => by simp only [deepTRs, usesTRs]; exact h.app (a.deep_gives h (fun s hs => hf s (by simp only [selectsTRs, List.mem_append, hs, or_true, true_or]))) (deepTRs_gives h l (fun s hs => hf s (by simp only [selectsTRs, List.mem_append, hs, or_true, true_or])))

theorem SFW.deep_gives (h : Keeping R) : ∀ x : SFW, (∀ s ∈ x.selects, R ((s.inner f).uses fmt) ((f (s.inner f)).uses fmt)) → R (x.uses fmt) ((x.deep f).uses fmt)
  | .mk a b c, hf => by
    refine h.trans (b := (SFW.mk (a.deep f) (deepTRs f b) (c.deep f)).uses fmt) ?_
      (by simp only [SFW.deep]; exact hf (.mk a b c) (by simp only [SFW.selects, List.mem_cons, true_or]))
    simp only [SFW.uses]
    exact h.app (h.app (a.deep_gives h (fun s hs => hf s (by simp only [SFW.selects, List.mem_append, List.mem_cons, hs, or_true, true_or]))) (deepTRs_gives h b (fun s hs => hf s (by simp only [SFW.selects, List.mem_append, List.mem_cons, hs, or_true, true_or])))) (c.deep_gives h (fun s hs => hf s (by simp only [SFW.selects, List.mem_append, List.mem_cons, hs, or_true, true_or])))

theorem Addon.deep_gives (h : Keeping R) : ∀ x : Addon, (∀ s ∈ x.selects, R ((s.inner f).uses fmt) ((f (s.inner f)).uses fmt)) → R (x.uses fmt) ((x.deep f).uses fmt)
  | .mk _ b, hf => by simp only [Addon.deep, Addon.uses]; exact b.deep_gives h (fun s hs => hf s (by simp only [Addon.selects, List.mem_append, List.mem_cons, hs, or_true, true_or]))

theorem deepAddons_gives (h : Keeping R) : ∀ l : List Addon, (∀ s ∈ selectsAddons l, R ((s.inner f).uses fmt) ((f (s.inner f)).uses fmt)) → R (usesAddons fmt l) (usesAddons fmt (deepAddons f l))
  | [], _ => by simp only [deepAddons]; exact h.refl _
  | a :: l, hf => by simp only [deepAddons, usesAddons]; exact h.app (a.deep_gives h (fun s hs => hf s (by simp only [selectsAddons, List.mem_append, hs, or_true, true_or]))) (deepAddons_gives h l (fun s hs => hf s (by simp only [selectsAddons, List.mem_append, hs, or_true, true_or])))

theorem SFWList.deep_gives (h : Keeping R) : ∀ x : SFWList, (∀ s ∈ x.selects, R ((s.inner f).uses fmt) ((f (s.inner f)).uses fmt)) → R (x.uses fmt) ((x.deep f).uses fmt)
  | .mk a b, hf => by simp only [SFWList.deep, SFWList.uses]; exact h.app (a.deep_gives h (fun s hs => hf s (by simp only [SFWList.selects, List.mem_append, List.mem_cons, hs, or_true, true_or]))) (deepAddons_gives h b (fun s hs => hf s (by simp only [SFWList.selects, List.mem_append, List.mem_cons, hs, or_true, true_or])))

theorem GroupTerm.deep_gives (h : Keeping R) : ∀ x : GroupTerm, (∀ s ∈ x.selects, R ((s.inner f).uses fmt) ((f (s.inner f)).uses fmt)) → R (x.uses fmt) ((x.deep f).uses fmt)
  | .col _, _ => by simp only [GroupTerm.deep, GroupTerm.uses]; exact h.refl _
  | .ve a, hf => by simp only [GroupTerm.deep, GroupTerm.uses]; exact a.deep_gives h (fun s hs => hf s (by simp only [GroupTerm.selects, List.mem_append, List.mem_cons, hs, or_true, true_or]))

theorem deepGroup_gives (h : Keeping R) : ∀ l : List GroupTerm, (∀ s ∈ selectsGroup l, R ((s.inner f).uses fmt) ((f (s.inner f)).uses fmt)) → R (usesGroup fmt l) (usesGroup fmt (deepGroup f l))
  | [], _ => by simp only [deepGroup]; exact h.refl _
  | a :: l, hf => by simp only [deepGroup, usesGroup]; exact h.app (a.deep_gives h (fun s hs => hf s (by simp only [selectsGroup, List.mem_append, hs, or_true, true_or]))) (deepGroup_gives h l (fun s hs => hf s (by simp only [selectsGroup, List.mem_append, hs, or_true, true_or])))

theorem With.deep_gives (h : Keeping R) : ∀ x : With, (∀ s ∈ x.selects, R ((s.inner f).uses fmt) ((f (s.inner f)).uses fmt)) → R (x.uses fmt) ((x.deep f).uses fmt)
  | .mk _ _ c, hf => by simp only [With.deep, With.uses]; exact c.deep_gives h (fun s hs => hf s (by simp only [With.selects, List.mem_append, List.mem_cons, hs, or_true, true_or]))

theorem QuerySpec.deep_gives (h : Keeping R) : ∀ x : QuerySpec, (∀ s ∈ x.selects, R ((s.inner f).uses fmt) ((f (s.inner f)).uses fmt)) → R (x.uses fmt) ((x.deep f).uses fmt)
  | .mk a b c d _, hf => by simp only [QuerySpec.deep, QuerySpec.uses]; exact h.app (h.app (h.app (h.app (a.deep_gives h (fun s hs => hf s (by simp only [QuerySpec.selects, List.mem_append, List.mem_cons, hs, or_true, true_or]))) (b.deep_gives h (fun s hs => hf s (by simp only [QuerySpec.selects, List.mem_append, List.mem_cons, hs, or_true, true_or])))) (deepGroup_gives h c (fun s hs => hf s (by simp only [QuerySpec.selects, List.mem_append, List.mem_cons, hs, or_true, true_or])))) (d.deep_gives h (fun s hs => hf s (by simp only [QuerySpec.selects, List.mem_append, List.mem_cons, hs, or_true, true_or])))) (h.refl _)

end

end Adql
