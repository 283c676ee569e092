import Verif.Spec.Deep

/-!
# The SELECTs of changed and of differently spelled queries
-/

namespace Adql

open Spec

variable {f : SFW → SFW} {fmt : Str → Str}

set_option linter.unusedSimpArgs false

mutual

theorem VE.deep_selects (hf : ∀ s, ∀ t ∈ (f s).selects, t = f s ∨ t ∈ lower s) : ∀ x : VE, ∀ t ∈ (x.deep f).selects, ∃ s ∈ x.selects, t = s.deep f
  | .nb a => by
    simp only [VE.deep, VE.selects, List.mem_append]
    rintro t h
    exact a.deep_selects hf t h
  | .sc a => by
    simp only [VE.deep, VE.selects, List.mem_append]
    rintro t h
    exact a.deep_selects hf t h

theorem VENB.deep_selects (hf : ∀ s, ∀ t ∈ (f s).selects, t = f s ∨ t ∈ lower s) : ∀ x : VENB, ∀ t ∈ (x.deep f).selects, ∃ s ∈ x.selects, t = s.deep f
  | .mk a b => by
    simp only [VENB.deep, VENB.selects, List.mem_append]
    rintro t (h | h)
    · exact (a.deep_selects hf t h).imp fun _ h => ⟨.inl h.1, h.2⟩
    · exact (deepTerms_selects hf b t h).imp fun _ h => ⟨.inr h.1, h.2⟩

theorem deepTerms_selects (hf : ∀ s, ∀ t ∈ (f s).selects, t = f s ∨ t ∈ lower s) : ∀ l : List Term, ∀ t ∈ selectsTerms (deepTerms f l), ∃ s ∈ selectsTerms l, t = s.deep f
  | [] => by simp only [deepTerms, selectsTerms, List.not_mem_nil, false_imp_iff, implies_true]
  | a :: l => by
    simp only [deepTerms, selectsTerms, List.mem_append]
    rintro t (h | h)
    · exact (a.deep_selects hf t h).imp fun _ h => ⟨.inl h.1, h.2⟩
    · exact (deepTerms_selects hf l t h).imp fun _ h => ⟨.inr h.1, h.2⟩

theorem Term.deep_selects (hf : ∀ s, ∀ t ∈ (f s).selects, t = f s ∨ t ∈ lower s) : ∀ x : Term, ∀ t ∈ (x.deep f).selects, ∃ s ∈ x.selects, t = s.deep f
  | .mk a b => by
    simp only [Term.deep, Term.selects, List.mem_append]
    rintro t h
    exact b.deep_selects hf t h

theorem Factor.deep_selects (hf : ∀ s, ∀ t ∈ (f s).selects, t = f s ∨ t ∈ lower s) : ∀ x : Factor, ∀ t ∈ (x.deep f).selects, ∃ s ∈ x.selects, t = s.deep f
  | .mk a b => by
    simp only [Factor.deep, Factor.selects, List.mem_append]
    rintro t h
    exact b.deep_selects hf t h

theorem NumPrim.deep_selects (hf : ∀ s, ∀ t ∈ (f s).selects, t = f s ∨ t ∈ lower s) : ∀ x : NumPrim, ∀ t ∈ (x.deep f).selects, ∃ s ∈ x.selects, t = s.deep f
  | .vep a => by
    simp only [NumPrim.deep, NumPrim.selects, List.mem_append]
    rintro t h
    exact a.deep_selects hf t h
  | .nvf a => by
    simp only [NumPrim.deep, NumPrim.selects, List.mem_append]
    rintro t h
    exact a.deep_selects hf t h

theorem NumFn.deep_selects (hf : ∀ s, ∀ t ∈ (f s).selects, t = f s ∨ t ∈ lower s) : ∀ x : NumFn, ∀ t ∈ (x.deep f).selects, ∃ s ∈ x.selects, t = s.deep f
  | .trig1 a b => by
    simp only [NumFn.deep, NumFn.selects, List.mem_append]
    rintro t h
    exact b.deep_selects hf t h
  | .trig2 a b c => by
    simp only [NumFn.deep, NumFn.selects, List.mem_append]
    rintro t (h | h)
    · exact (b.deep_selects hf t h).imp fun _ h => ⟨.inl h.1, h.2⟩
    · exact (c.deep_selects hf t h).imp fun _ h => ⟨.inr h.1, h.2⟩
  | .math0 a => by simp only [NumFn.deep, NumFn.selects, List.not_mem_nil, false_imp_iff, implies_true]
  | .math1 a b => by
    simp only [NumFn.deep, NumFn.selects, List.mem_append]
    rintro t h
    exact b.deep_selects hf t h
  | .math2 a b c => by
    simp only [NumFn.deep, NumFn.selects, List.mem_append]
    rintro t (h | h)
    · exact (b.deep_selects hf t h).imp fun _ h => ⟨.inl h.1, h.2⟩
    · exact (c.deep_selects hf t h).imp fun _ h => ⟨.inr h.1, h.2⟩
  | .cast a b c => by
    simp only [NumFn.deep, NumFn.selects, List.mem_append]
    rintro t h
    exact a.deep_selects hf t h
  | .geo1 a b => by simp only [NumFn.deep, NumFn.selects, List.not_mem_nil, false_imp_iff, implies_true]
  | .geo2 a b c => by simp only [NumFn.deep, NumFn.selects, List.not_mem_nil, false_imp_iff, implies_true]
  | .udf a b => by
    simp only [NumFn.deep, NumFn.selects, List.mem_append]
    rintro t h
    exact deepVEs_selects hf b t h
  | .str a => by simp only [NumFn.deep, NumFn.selects, List.not_mem_nil, false_imp_iff, implies_true]

theorem deepVEs_selects (hf : ∀ s, ∀ t ∈ (f s).selects, t = f s ∨ t ∈ lower s) : ∀ l : List VE, ∀ t ∈ selectsVEs (deepVEs f l), ∃ s ∈ selectsVEs l, t = s.deep f
  | [] => by simp only [deepVEs, selectsVEs, List.not_mem_nil, false_imp_iff, implies_true]
  | a :: l => by
    simp only [deepVEs, selectsVEs, List.mem_append]
    rintro t (h | h)
    · exact (a.deep_selects hf t h).imp fun _ h => ⟨.inl h.1, h.2⟩
    · exact (deepVEs_selects hf l t h).imp fun _ h => ⟨.inr h.1, h.2⟩

theorem VEP.deep_selects (hf : ∀ s, ∀ t ∈ (f s).selects, t = f s ∨ t ∈ lower s) : ∀ x : VEP, ∀ t ∈ (x.deep f).selects, ∃ s ∈ x.selects, t = s.deep f
  | .mk a b => by
    simp only [VEP.deep, VEP.selects, List.mem_append]
    rintro t (h | h)
    · exact (a.deep_selects hf t h).imp fun _ h => ⟨.inl h.1, h.2⟩
    · exact (deepVEs_selects hf b t h).imp fun _ h => ⟨.inr h.1, h.2⟩

theorem Prim.deep_selects (hf : ∀ s, ∀ t ∈ (f s).selects, t = f s ∨ t ∈ lower s) : ∀ x : Prim, ∀ t ∈ (x.deep f).selects, ∃ s ∈ x.selects, t = s.deep f
  | .arr a => by
    simp only [Prim.deep, Prim.selects, List.mem_append]
    rintro t h
    exact deepVEs_selects hf a t h
  | .str a => by simp only [Prim.deep, Prim.selects, List.not_mem_nil, false_imp_iff, implies_true]
  | .col a => by simp only [Prim.deep, Prim.selects, List.not_mem_nil, false_imp_iff, implies_true]
  | .countStar a => by simp only [Prim.deep, Prim.selects, List.not_mem_nil, false_imp_iff, implies_true]
  | .setFn a b c => by
    simp only [Prim.deep, Prim.selects, List.mem_append]
    rintro t h
    exact c.deep_selects hf t h
  | .case a => by
    simp only [Prim.deep, Prim.selects, List.mem_append]
    rintro t h
    exact a.deep_selects hf t h
  | .any a => by
    simp only [Prim.deep, Prim.selects, List.mem_append]
    rintro t h
    exact a.deep_selects hf t h
  | .sub a => by
    simp only [Prim.deep, Prim.selects, List.mem_append]
    rintro t h
    exact a.deep_selects hf t h

theorem CaseE.deep_selects (hf : ∀ s, ∀ t ∈ (f s).selects, t = f s ∨ t ∈ lower s) : ∀ x : CaseE, ∀ t ∈ (x.deep f).selects, ∃ s ∈ x.selects, t = s.deep f
  | .nullif a b => by
    simp only [CaseE.deep, CaseE.selects, List.mem_append]
    rintro t (h | h)
    · exact (a.deep_selects hf t h).imp fun _ h => ⟨.inl h.1, h.2⟩
    · exact (b.deep_selects hf t h).imp fun _ h => ⟨.inr h.1, h.2⟩
  | .coalesce a => by
    simp only [CaseE.deep, CaseE.selects, List.mem_append]
    rintro t h
    exact deepVEs_selects hf a t h
  | .simple a b c => by
    simp only [CaseE.deep, CaseE.selects, List.mem_append]
    rintro t ((h | h) | h)
    · exact (a.deep_selects hf t h).imp fun _ h => ⟨.inl (.inl h.1), h.2⟩
    · exact (deepWhens_selects hf b t h).imp fun _ h => ⟨.inl (.inr h.1), h.2⟩
    · exact (c.deep_selects hf t h).imp fun _ h => ⟨.inr h.1, h.2⟩
  | .searched a b => by
    simp only [CaseE.deep, CaseE.selects, List.mem_append]
    rintro t (h | h)
    · exact (deepConds_selects hf a t h).imp fun _ h => ⟨.inl h.1, h.2⟩
    · exact (b.deep_selects hf t h).imp fun _ h => ⟨.inr h.1, h.2⟩

theorem SimpleWhen.deep_selects (hf : ∀ s, ∀ t ∈ (f s).selects, t = f s ∨ t ∈ lower s) : ∀ x : SimpleWhen, ∀ t ∈ (x.deep f).selects, ∃ s ∈ x.selects, t = s.deep f
  | .mk a b => by
    simp only [SimpleWhen.deep, SimpleWhen.selects, List.mem_append]
    rintro t (h | h)
    · exact (a.deep_selects hf t h).imp fun _ h => ⟨.inl h.1, h.2⟩
    · exact (b.deep_selects hf t h).imp fun _ h => ⟨.inr h.1, h.2⟩

theorem deepWhens_selects (hf : ∀ s, ∀ t ∈ (f s).selects, t = f s ∨ t ∈ lower s) : ∀ l : List SimpleWhen, ∀ t ∈ selectsWhens (deepWhens f l), ∃ s ∈ selectsWhens l, t = s.deep f
  | [] => by simp only [deepWhens, selectsWhens, List.not_mem_nil, false_imp_iff, implies_true]
  | a :: l => by
    simp only [deepWhens, selectsWhens, List.mem_append]
    rintro t (h | h)
    · exact (a.deep_selects hf t h).imp fun _ h => ⟨.inl h.1, h.2⟩
    · exact (deepWhens_selects hf l t h).imp fun _ h => ⟨.inr h.1, h.2⟩

theorem SearchedWhen.deep_selects (hf : ∀ s, ∀ t ∈ (f s).selects, t = f s ∨ t ∈ lower s) : ∀ x : SearchedWhen, ∀ t ∈ (x.deep f).selects, ∃ s ∈ x.selects, t = s.deep f
  | .mk a b => by
    simp only [SearchedWhen.deep, SearchedWhen.selects, List.mem_append]
    rintro t (h | h)
    · exact (a.deep_selects hf t h).imp fun _ h => ⟨.inl h.1, h.2⟩
    · exact (b.deep_selects hf t h).imp fun _ h => ⟨.inr h.1, h.2⟩

theorem deepConds_selects (hf : ∀ s, ∀ t ∈ (f s).selects, t = f s ∨ t ∈ lower s) : ∀ l : List SearchedWhen, ∀ t ∈ selectsConds (deepConds f l), ∃ s ∈ selectsConds l, t = s.deep f
  | [] => by simp only [deepConds, selectsConds, List.not_mem_nil, false_imp_iff, implies_true]
  | a :: l => by
    simp only [deepConds, selectsConds, List.mem_append]
    rintro t (h | h)
    · exact (a.deep_selects hf t h).imp fun _ h => ⟨.inl h.1, h.2⟩
    · exact (deepConds_selects hf l t h).imp fun _ h => ⟨.inr h.1, h.2⟩

theorem CaseResult.deep_selects (hf : ∀ s, ∀ t ∈ (f s).selects, t = f s ∨ t ∈ lower s) : ∀ x : CaseResult, ∀ t ∈ (x.deep f).selects, ∃ s ∈ x.selects, t = s.deep f
  | .str a => by simp only [CaseResult.deep, CaseResult.selects, List.not_mem_nil, false_imp_iff, implies_true]
  | .ve a => by
    simp only [CaseResult.deep, CaseResult.selects, List.mem_append]
    rintro t h
    exact a.deep_selects hf t h

theorem SC.deep_selects (hf : ∀ s, ∀ t ∈ (f s).selects, t = f s ∨ t ∈ lower s) : ∀ x : SC, ∀ t ∈ (x.deep f).selects, ∃ s ∈ x.selects, t = s.deep f
  | .factor a => by
    simp only [SC.deep, SC.selects, List.mem_append]
    rintro t h
    exact a.deep_selects hf t h
  | .term a b c => by
    simp only [SC.deep, SC.selects, List.mem_append]
    rintro t (h | h)
    · exact (a.deep_selects hf t h).imp fun _ h => ⟨.inl h.1, h.2⟩
    · exact (c.deep_selects hf t h).imp fun _ h => ⟨.inr h.1, h.2⟩

theorem BF.deep_selects (hf : ∀ s, ∀ t ∈ (f s).selects, t = f s ∨ t ∈ lower s) : ∀ x : BF, ∀ t ∈ (x.deep f).selects, ∃ s ∈ x.selects, t = s.deep f
  | .mk a b => by
    simp only [BF.deep, BF.selects, List.mem_append]
    rintro t h
    exact b.deep_selects hf t h

theorem BP.deep_selects (hf : ∀ s, ∀ t ∈ (f s).selects, t = f s ∨ t ∈ lower s) : ∀ x : BP, ∀ t ∈ (x.deep f).selects, ∃ s ∈ x.selects, t = s.deep f
  | .pred a => by
    simp only [BP.deep, BP.selects, List.mem_append]
    rintro t h
    exact a.deep_selects hf t h
  | .sc a => by
    simp only [BP.deep, BP.selects, List.mem_append]
    rintro t h
    exact a.deep_selects hf t h
  | .ve a => by
    simp only [BP.deep, BP.selects, List.mem_append]
    rintro t h
    exact a.deep_selects hf t h

theorem Pred.deep_selects (hf : ∀ s, ∀ t ∈ (f s).selects, t = f s ∨ t ∈ lower s) : ∀ x : Pred, ∀ t ∈ (x.deep f).selects, ∃ s ∈ x.selects, t = s.deep f
  | .cmp a b c => by
    simp only [Pred.deep, Pred.selects, List.mem_append]
    rintro t (h | h)
    · exact (a.deep_selects hf t h).imp fun _ h => ⟨.inl h.1, h.2⟩
    · exact (c.deep_selects hf t h).imp fun _ h => ⟨.inr h.1, h.2⟩
  | .between a b c d => by
    simp only [Pred.deep, Pred.selects, List.mem_append]
    rintro t ((h | h) | h)
    · exact (a.deep_selects hf t h).imp fun _ h => ⟨.inl (.inl h.1), h.2⟩
    · exact (c.deep_selects hf t h).imp fun _ h => ⟨.inl (.inr h.1), h.2⟩
    · exact (d.deep_selects hf t h).imp fun _ h => ⟨.inr h.1, h.2⟩
  | .inSub a b c => by
    simp only [Pred.deep, Pred.selects, List.mem_append]
    rintro t (h | h)
    · exact (a.deep_selects hf t h).imp fun _ h => ⟨.inl h.1, h.2⟩
    · exact (c.deep_selects hf t h).imp fun _ h => ⟨.inr h.1, h.2⟩
  | .inList a b c => by
    simp only [Pred.deep, Pred.selects, List.mem_append]
    rintro t (h | h)
    · exact (a.deep_selects hf t h).imp fun _ h => ⟨.inl h.1, h.2⟩
    · exact (deepVEs_selects hf c t h).imp fun _ h => ⟨.inr h.1, h.2⟩
  | .null a b => by
    simp only [Pred.deep, Pred.selects, List.mem_append]
    rintro t h
    exact a.deep_selects hf t h
  | .like a b c => by
    simp only [Pred.deep, Pred.selects, List.mem_append]
    rintro t (h | h)
    · exact (a.deep_selects hf t h).imp fun _ h => ⟨.inl h.1, h.2⟩
    · exact (c.deep_selects hf t h).imp fun _ h => ⟨.inr h.1, h.2⟩
  | .exist a => by
    simp only [Pred.deep, Pred.selects, List.mem_append]
    rintro t h
    exact a.deep_selects hf t h

theorem Subquery.deep_selects (hf : ∀ s, ∀ t ∈ (f s).selects, t = f s ∨ t ∈ lower s) : ∀ x : Subquery, ∀ t ∈ (x.deep f).selects, ∃ s ∈ x.selects, t = s.deep f
  | .jt a => by
    simp only [Subquery.deep, Subquery.selects, List.mem_append]
    rintro t h
    exact a.deep_selects hf t h
  | .qs a => by
    simp only [Subquery.deep, Subquery.selects, List.mem_append]
    rintro t h
    exact a.deep_selects hf t h

theorem JT.deep_selects (hf : ∀ s, ∀ t ∈ (f s).selects, t = f s ∨ t ∈ lower s) : ∀ x : JT, ∀ t ∈ (x.deep f).selects, ∃ s ∈ x.selects, t = s.deep f
  | .qj a => by
    simp only [JT.deep, JT.selects, List.mem_append]
    rintro t h
    exact a.deep_selects hf t h
  | .wrap a => by
    simp only [JT.deep, JT.selects, List.mem_append]
    rintro t h
    exact a.deep_selects hf t h

theorem QJ.deep_selects (hf : ∀ s, ∀ t ∈ (f s).selects, t = f s ∨ t ∈ lower s) : ∀ x : QJ, ∀ t ∈ (x.deep f).selects, ∃ s ∈ x.selects, t = s.deep f
  | .mk a b => by
    simp only [QJ.deep, QJ.selects, List.mem_append]
    rintro t (h | h)
    · exact (a.deep_selects hf t h).imp fun _ h => ⟨.inl h.1, h.2⟩
    · exact (deepSuffixes_selects hf b t h).imp fun _ h => ⟨.inr h.1, h.2⟩

theorem QJHead.deep_selects (hf : ∀ s, ∀ t ∈ (f s).selects, t = f s ∨ t ∈ lower s) : ∀ x : QJHead, ∀ t ∈ (x.deep f).selects, ∃ s ∈ x.selects, t = s.deep f
  | .tc a => by simp only [QJHead.deep, QJHead.selects, List.not_mem_nil, false_imp_iff, implies_true]
  | .jt a => by
    simp only [QJHead.deep, QJHead.selects, List.mem_append]
    rintro t h
    exact a.deep_selects hf t h

theorem deepSuffixes_selects (hf : ∀ s, ∀ t ∈ (f s).selects, t = f s ∨ t ∈ lower s) : ∀ l : List JoinSuffix, ∀ t ∈ selectsSuffixes (deepSuffixes f l), ∃ s ∈ selectsSuffixes l, t = s.deep f
  | [] => by simp only [deepSuffixes, selectsSuffixes, List.not_mem_nil, false_imp_iff, implies_true]
  | a :: l => by
    simp only [deepSuffixes, selectsSuffixes, List.mem_append]
    rintro t (h | h)
    · exact (a.deep_selects hf t h).imp fun _ h => ⟨.inl h.1, h.2⟩
    · exact (deepSuffixes_selects hf l t h).imp fun _ h => ⟨.inr h.1, h.2⟩

theorem JoinSuffix.deep_selects (hf : ∀ s, ∀ t ∈ (f s).selects, t = f s ∨ t ∈ lower s) : ∀ x : JoinSuffix, ∀ t ∈ (x.deep f).selects, ∃ s ∈ x.selects, t = s.deep f
  | .mk a b c d => by
    simp only [JoinSuffix.deep, JoinSuffix.selects, List.mem_append]
    rintro t (h | h)
    · exact (c.deep_selects hf t h).imp fun _ h => ⟨.inl h.1, h.2⟩
    · exact (d.deep_selects hf t h).imp fun _ h => ⟨.inr h.1, h.2⟩

theorem JoinSpec.deep_selects (hf : ∀ s, ∀ t ∈ (f s).selects, t = f s ∨ t ∈ lower s) : ∀ x : JoinSpec, ∀ t ∈ (x.deep f).selects, ∃ s ∈ x.selects, t = s.deep f
  | .named a => by simp only [JoinSpec.deep, JoinSpec.selects, List.not_mem_nil, false_imp_iff, implies_true]
  | .on a => by
    simp only [JoinSpec.deep, JoinSpec.selects, List.mem_append]
    rintro t h
    exact a.deep_selects hf t h

theorem TR.deep_selects (hf : ∀ s, ∀ t ∈ (f s).selects, t = f s ∨ t ∈ lower s) : ∀ x : TR, ∀ t ∈ (x.deep f).selects, ∃ s ∈ x.selects, t = s.deep f
  | .tc a => by simp only [TR.deep, TR.selects, List.not_mem_nil, false_imp_iff, implies_true]
  | .jt a => by
    simp only [TR.deep, TR.selects, List.mem_append]
    rintro t h
    exact a.deep_selects hf t h
  | .derived a b => by
    simp only [TR.deep, TR.selects, List.mem_append]
    rintro t h
    exact a.deep_selects hf t h
  | .tvf a b => by simp only [TR.deep, TR.selects, List.not_mem_nil, false_imp_iff, implies_true]

theorem GPred.deep_selects (hf : ∀ s, ∀ t ∈ (f s).selects, t = f s ∨ t ∈ lower s) : ∀ x : GPred, ∀ t ∈ (x.deep f).selects, ∃ s ∈ x.selects, t = s.deep f
  | .intersects a b => by
    simp only [GPred.deep, GPred.selects, List.mem_append]
    rintro t h
    exact a.deep_selects hf t h
  | .contains a b => by simp only [GPred.deep, GPred.selects, List.not_mem_nil, false_imp_iff, implies_true]

theorem Geom.deep_selects (hf : ∀ s, ∀ t ∈ (f s).selects, t = f s ∨ t ∈ lower s) : ∀ x : Geom, ∀ t ∈ (x.deep f).selects, ∃ s ∈ x.selects, t = s.deep f
  | .left a b => by
    simp only [Geom.deep, Geom.selects, List.mem_append]
    rintro t h
    exact b.deep_selects hf t h
  | .right a b => by
    simp only [Geom.deep, Geom.selects, List.mem_append]
    rintro t h
    exact a.deep_selects hf t h

theorem Where.deep_selects (hf : ∀ s, ∀ t ∈ (f s).selects, t = f s ∨ t ∈ lower s) : ∀ x : Where, ∀ t ∈ (x.deep f).selects, ∃ s ∈ x.selects, t = s.deep f
  | .mk a b => by
    simp only [Where.deep, Where.selects, List.mem_append]
    rintro t (h | h)
    · exact (a.deep_selects hf t h).imp fun _ h => ⟨.inl h.1, h.2⟩
    · exact (b.deep_selects hf t h).imp fun _ h => ⟨.inr h.1, h.2⟩

theorem Item.deep_selects (hf : ∀ s, ∀ t ∈ (f s).selects, t = f s ∨ t ∈ lower s) : ∀ x : Item, ∀ t ∈ (x.deep f).selects, ∃ s ∈ x.selects, t = s.deep f
  | .as a b => by
    simp only [Item.deep, Item.selects, List.mem_append]
    rintro t h
    exact a.deep_selects hf t h
  | .nonAsStr a => by simp only [Item.deep, Item.selects, List.not_mem_nil, false_imp_iff, implies_true]
  | .nonAsVE a => by
    simp only [Item.deep, Item.selects, List.mem_append]
    rintro t h
    exact a.deep_selects hf t h

theorem deepItems_selects (hf : ∀ s, ∀ t ∈ (f s).selects, t = f s ∨ t ∈ lower s) : ∀ l : List Item, ∀ t ∈ selectsItems (deepItems f l), ∃ s ∈ selectsItems l, t = s.deep f
  | [] => by simp only [deepItems, selectsItems, List.not_mem_nil, false_imp_iff, implies_true]
  | a :: l => by
    simp only [deepItems, selectsItems, List.mem_append]
    rintro t (h | h)
    · exact (a.deep_selects hf t h).imp fun _ h => ⟨.inl h.1, h.2⟩
    · exact (deepItems_selects hf l t h).imp fun _ h => ⟨.inr h.1, h.2⟩

theorem Columns.deep_selects (hf : ∀ s, ∀ t ∈ (f s).selects, t = f s ∨ t ∈ lower s) : ∀ x : Columns, ∀ t ∈ (x.deep f).selects, ∃ s ∈ x.selects, t = s.deep f
  | .star a => by simp only [Columns.deep, Columns.selects, List.not_mem_nil, false_imp_iff, implies_true]
  | .items a => by
    simp only [Columns.deep, Columns.selects, List.mem_append]
    rintro t h
    exact deepItems_selects hf a t h

theorem Select.deep_selects (hf : ∀ s, ∀ t ∈ (f s).selects, t = f s ∨ t ∈ lower s) : ∀ x : Select, ∀ t ∈ (x.deep f).selects, ∃ s ∈ x.selects, t = s.deep f
  | .mk a b c => by
    simp only [Select.deep, Select.selects, List.mem_append]
    rintro t h
    exact c.deep_selects hf t h

theorem deepTRs_selects (hf : ∀ s, ∀ t ∈ (f s).selects, t = f s ∨ t ∈ lower s) : ∀ l : List TR, ∀ t ∈ selectsTRs (deepTRs f l), ∃ s ∈ selectsTRs l, t = s.deep f
  | [] => by simp only [deepTRs, selectsTRs, List.not_mem_nil, false_imp_iff, implies_true]
  | a :: l => by
    simp only [deepTRs, selectsTRs, List.mem_append]
    rintro t (h | h)
    · exact (a.deep_selects hf t h).imp fun _ h => ⟨.inl h.1, h.2⟩
    · exact (deepTRs_selects hf l t h).imp fun _ h => ⟨.inr h.1, h.2⟩

theorem SFW.deep_selects (hf : ∀ s, ∀ t ∈ (f s).selects, t = f s ∨ t ∈ lower s) : ∀ x : SFW, ∀ t ∈ (x.deep f).selects, ∃ s ∈ x.selects, t = s.deep f
  | .mk a b c => by
    simp only [SFW.deep, SFW.selects, List.mem_cons, List.mem_append]
    intro t ht
    rcases hf _ t ht with rfl | ht
    · exact ⟨_, .inl rfl, by simp only [SFW.deep]⟩
    simp only [lower, List.mem_append] at ht
    rcases ht with (h | h) | h
    · exact (a.deep_selects hf t h).imp fun _ h => ⟨.inr (.inl (.inl h.1)), h.2⟩
    · exact (deepTRs_selects hf b t h).imp fun _ h => ⟨.inr (.inl (.inr h.1)), h.2⟩
    · exact (c.deep_selects hf t h).imp fun _ h => ⟨.inr (.inr h.1), h.2⟩

theorem Addon.deep_selects (hf : ∀ s, ∀ t ∈ (f s).selects, t = f s ∨ t ∈ lower s) : ∀ x : Addon, ∀ t ∈ (x.deep f).selects, ∃ s ∈ x.selects, t = s.deep f
  | .mk a b => by
    simp only [Addon.deep, Addon.selects, List.mem_append]
    rintro t h
    exact b.deep_selects hf t h

theorem deepAddons_selects (hf : ∀ s, ∀ t ∈ (f s).selects, t = f s ∨ t ∈ lower s) : ∀ l : List Addon, ∀ t ∈ selectsAddons (deepAddons f l), ∃ s ∈ selectsAddons l, t = s.deep f
  | [] => by simp only [deepAddons, selectsAddons, List.not_mem_nil, false_imp_iff, implies_true]
  | a :: l => by
    simp only [deepAddons, selectsAddons, List.mem_append]
    rintro t (h | h)
    · exact (a.deep_selects hf t h).imp fun _ h => ⟨.inl h.1, h.2⟩
    · exact (deepAddons_selects hf l t h).imp fun _ h => ⟨.inr h.1, h.2⟩

theorem SFWList.deep_selects (hf : ∀ s, ∀ t ∈ (f s).selects, t = f s ∨ t ∈ lower s) : ∀ x : SFWList, ∀ t ∈ (x.deep f).selects, ∃ s ∈ x.selects, t = s.deep f
  | .mk a b => by
    simp only [SFWList.deep, SFWList.selects, List.mem_append]
    rintro t (h | h)
    · exact (a.deep_selects hf t h).imp fun _ h => ⟨.inl h.1, h.2⟩
    · exact (deepAddons_selects hf b t h).imp fun _ h => ⟨.inr h.1, h.2⟩

theorem GroupTerm.deep_selects (hf : ∀ s, ∀ t ∈ (f s).selects, t = f s ∨ t ∈ lower s) : ∀ x : GroupTerm, ∀ t ∈ (x.deep f).selects, ∃ s ∈ x.selects, t = s.deep f
  | .col a => by simp only [GroupTerm.deep, GroupTerm.selects, List.not_mem_nil, false_imp_iff, implies_true]
  | .ve a => by
    simp only [GroupTerm.deep, GroupTerm.selects, List.mem_append]
    rintro t h
    exact a.deep_selects hf t h

theorem deepGroup_selects (hf : ∀ s, ∀ t ∈ (f s).selects, t = f s ∨ t ∈ lower s) : ∀ l : List GroupTerm, ∀ t ∈ selectsGroup (deepGroup f l), ∃ s ∈ selectsGroup l, t = s.deep f
  | [] => by simp only [deepGroup, selectsGroup, List.not_mem_nil, false_imp_iff, implies_true]
  | a :: l => by
    simp only [deepGroup, selectsGroup, List.mem_append]
    rintro t (h | h)
    · exact (a.deep_selects hf t h).imp fun _ h => ⟨.inl h.1, h.2⟩
    · exact (deepGroup_selects hf l t h).imp fun _ h => ⟨.inr h.1, h.2⟩

theorem With.deep_selects (hf : ∀ s, ∀ t ∈ (f s).selects, t = f s ∨ t ∈ lower s) : ∀ x : With, ∀ t ∈ (x.deep f).selects, ∃ s ∈ x.selects, t = s.deep f
  | .mk a b c => by
    simp only [With.deep, With.selects, List.mem_append]
    rintro t h
    exact c.deep_selects hf t h

theorem QuerySpec.deep_selects (hf : ∀ s, ∀ t ∈ (f s).selects, t = f s ∨ t ∈ lower s) : ∀ x : QuerySpec, ∀ t ∈ (x.deep f).selects, ∃ s ∈ x.selects, t = s.deep f
  | .mk a b c d e => by
    simp only [QuerySpec.deep, QuerySpec.selects, List.mem_append]
    rintro t (((h | h) | h) | h)
    · exact (a.deep_selects hf t h).imp fun _ h => ⟨.inl (.inl (.inl h.1)), h.2⟩
    · exact (b.deep_selects hf t h).imp fun _ h => ⟨.inl (.inl (.inr h.1)), h.2⟩
    · exact (deepGroup_selects hf c t h).imp fun _ h => ⟨.inl (.inr h.1), h.2⟩
    · exact (d.deep_selects hf t h).imp fun _ h => ⟨.inr h.1, h.2⟩

end

mutual

theorem VE.norm_selects : ∀ x : VE, (x.norm fmt).selects = x.selects.map (SFW.norm fmt)
  | .nb a => by simp only [VE.norm, VE.selects, List.map_append, List.map_cons, List.map_nil, a.norm_selects]
  | .sc a => by simp only [VE.norm, VE.selects, List.map_append, List.map_cons, List.map_nil, a.norm_selects]

theorem VENB.norm_selects : ∀ x : VENB, (x.norm fmt).selects = x.selects.map (SFW.norm fmt)
  | .mk a b => by simp only [VENB.norm, VENB.selects, List.map_append, List.map_cons, List.map_nil, a.norm_selects, normTerms_selects b]

theorem normTerms_selects : ∀ l : List Term, selectsTerms (normTerms fmt l) = (selectsTerms l).map (SFW.norm fmt)
  | [] => by simp only [normTerms, selectsTerms, List.map_nil]
  | a :: l => by simp only [normTerms, selectsTerms, List.map_append, a.norm_selects, normTerms_selects l]

theorem Term.norm_selects : ∀ x : Term, (x.norm fmt).selects = x.selects.map (SFW.norm fmt)
  | .mk a b => by simp only [Term.norm, Term.selects, List.map_append, List.map_cons, List.map_nil, b.norm_selects]

theorem Factor.norm_selects : ∀ x : Factor, (x.norm fmt).selects = x.selects.map (SFW.norm fmt)
  | .mk a b => by simp only [Factor.norm, Factor.selects, List.map_append, List.map_cons, List.map_nil, b.norm_selects]

theorem NumPrim.norm_selects : ∀ x : NumPrim, (x.norm fmt).selects = x.selects.map (SFW.norm fmt)
  | .vep a => by simp only [NumPrim.norm, NumPrim.selects, List.map_append, List.map_cons, List.map_nil, a.norm_selects]
  | .nvf a => by simp only [NumPrim.norm, NumPrim.selects, List.map_append, List.map_cons, List.map_nil, a.norm_selects]

theorem NumFn.norm_selects : ∀ x : NumFn, (x.norm fmt).selects = x.selects.map (SFW.norm fmt)
  | .trig1 a b => by simp only [NumFn.norm, NumFn.selects, List.map_append, List.map_cons, List.map_nil, b.norm_selects]
  | .trig2 a b c => by simp only [NumFn.norm, NumFn.selects, List.map_append, List.map_cons, List.map_nil, b.norm_selects, c.norm_selects]
  | .math0 a => by simp only [NumFn.norm, NumFn.selects, List.map_append, List.map_cons, List.map_nil]
  | .math1 a b => by simp only [NumFn.norm, NumFn.selects, List.map_append, List.map_cons, List.map_nil, b.norm_selects]
  | .math2 a b c => by simp only [NumFn.norm, NumFn.selects, List.map_append, List.map_cons, List.map_nil, b.norm_selects, c.norm_selects]
  | .cast a b c => by simp only [NumFn.norm, NumFn.selects, List.map_append, List.map_cons, List.map_nil, a.norm_selects]
  | .geo1 a b => by simp only [NumFn.norm, NumFn.selects, List.map_append, List.map_cons, List.map_nil]
  | .geo2 a b c => by simp only [NumFn.norm, NumFn.selects, List.map_append, List.map_cons, List.map_nil]
  | .udf a b => by simp only [NumFn.norm, NumFn.selects, List.map_append, List.map_cons, List.map_nil, normVEs_selects b]
  | .str a => by simp only [NumFn.norm, NumFn.selects, List.map_append, List.map_cons, List.map_nil]

theorem normVEs_selects : ∀ l : List VE, selectsVEs (normVEs fmt l) = (selectsVEs l).map (SFW.norm fmt)
  | [] => by simp only [normVEs, selectsVEs, List.map_nil]
  | a :: l => by simp only [normVEs, selectsVEs, List.map_append, a.norm_selects, normVEs_selects l]

theorem VEP.norm_selects : ∀ x : VEP, (x.norm fmt).selects = x.selects.map (SFW.norm fmt)
  | .mk a b => by simp only [VEP.norm, VEP.selects, List.map_append, List.map_cons, List.map_nil, a.norm_selects, normVEs_selects b]

theorem Prim.norm_selects : ∀ x : Prim, (x.norm fmt).selects = x.selects.map (SFW.norm fmt)
  | .arr a => by simp only [Prim.norm, Prim.selects, List.map_append, List.map_cons, List.map_nil, normVEs_selects a]
  | .str a => by simp only [Prim.norm, Prim.selects, List.map_append, List.map_cons, List.map_nil]
  | .col a => by simp only [Prim.norm, Prim.selects, List.map_append, List.map_cons, List.map_nil]
  | .countStar a => by simp only [Prim.norm, Prim.selects, List.map_append, List.map_cons, List.map_nil]
  | .setFn a b c => by simp only [Prim.norm, Prim.selects, List.map_append, List.map_cons, List.map_nil, c.norm_selects]
  | .case a => by simp only [Prim.norm, Prim.selects, List.map_append, List.map_cons, List.map_nil, a.norm_selects]
  | .any a => by simp only [Prim.norm, Prim.selects, List.map_append, List.map_cons, List.map_nil, a.norm_selects]
  | .sub a => by simp only [Prim.norm, Prim.selects, List.map_append, List.map_cons, List.map_nil, a.norm_selects]

theorem CaseE.norm_selects : ∀ x : CaseE, (x.norm fmt).selects = x.selects.map (SFW.norm fmt)
  | .nullif a b => by simp only [CaseE.norm, CaseE.selects, List.map_append, List.map_cons, List.map_nil, a.norm_selects, b.norm_selects]
  | .coalesce a => by simp only [CaseE.norm, CaseE.selects, List.map_append, List.map_cons, List.map_nil, normVEs_selects a]
  | .simple a b c => by simp only [CaseE.norm, CaseE.selects, List.map_append, List.map_cons, List.map_nil, a.norm_selects, normWhens_selects b, c.norm_selects]
  | .searched a b => by simp only [CaseE.norm, CaseE.selects, List.map_append, List.map_cons, List.map_nil, normConds_selects a, b.norm_selects]

theorem normWhens_selects : ∀ l : List SimpleWhen, selectsWhens (normWhens fmt l) = (selectsWhens l).map (SFW.norm fmt)
  | [] => by simp only [normWhens, selectsWhens, List.map_nil]
  | .mk a b :: l => by simp only [normWhens, selectsWhens, List.map_append, SimpleWhen.selects, a.norm_selects, b.norm_selects, normWhens_selects l]

theorem normConds_selects : ∀ l : List SearchedWhen, selectsConds (normConds fmt l) = (selectsConds l).map (SFW.norm fmt)
  | [] => by simp only [normConds, selectsConds, List.map_nil]
  | .mk a b :: l => by simp only [normConds, selectsConds, List.map_append, SearchedWhen.selects, a.norm_selects, b.norm_selects, normConds_selects l]

theorem CaseResult.norm_selects : ∀ x : CaseResult, (x.norm fmt).selects = x.selects.map (SFW.norm fmt)
  | .str a => by simp only [CaseResult.norm, CaseResult.selects, List.map_append, List.map_cons, List.map_nil]
  | .ve a => by simp only [CaseResult.norm, CaseResult.selects, List.map_append, List.map_cons, List.map_nil, a.norm_selects]

theorem SC.norm_selects : ∀ x : SC, (x.norm fmt).selects = x.selects.map (SFW.norm fmt)
  | .factor a => by simp only [SC.norm, SC.selects, List.map_append, List.map_cons, List.map_nil, a.norm_selects]
  | .term a b c => by simp only [SC.norm, SC.selects, List.map_append, List.map_cons, List.map_nil, a.norm_selects, c.norm_selects]

theorem BF.norm_selects : ∀ x : BF, (x.norm fmt).selects = x.selects.map (SFW.norm fmt)
  | .mk a b => by simp only [BF.norm, BF.selects, List.map_append, List.map_cons, List.map_nil, b.norm_selects]

theorem BP.norm_selects : ∀ x : BP, (x.norm fmt).selects = x.selects.map (SFW.norm fmt)
  | .pred a => by simp only [BP.norm, BP.selects, List.map_append, List.map_cons, List.map_nil, a.norm_selects]
  | .sc a => by simp only [BP.norm, BP.selects, List.map_append, List.map_cons, List.map_nil, a.norm_selects]
  | .ve a => by simp only [BP.norm, BP.selects, List.map_append, List.map_cons, List.map_nil, a.norm_selects]

theorem Pred.norm_selects : ∀ x : Pred, (x.norm fmt).selects = x.selects.map (SFW.norm fmt)
  | .cmp a b c => by simp only [Pred.norm, Pred.selects, List.map_append, List.map_cons, List.map_nil, a.norm_selects, c.norm_selects]
  | .between a b c d => by simp only [Pred.norm, Pred.selects, List.map_append, List.map_cons, List.map_nil, a.norm_selects, c.norm_selects, d.norm_selects]
  | .inSub a b c => by simp only [Pred.norm, Pred.selects, List.map_append, List.map_cons, List.map_nil, a.norm_selects, c.norm_selects]
  | .inList a b c => by simp only [Pred.norm, Pred.selects, List.map_append, List.map_cons, List.map_nil, a.norm_selects, normVEs_selects c]
  | .null a b => by simp only [Pred.norm, Pred.selects, List.map_append, List.map_cons, List.map_nil, a.norm_selects]
  | .like a b c => by simp only [Pred.norm, Pred.selects, List.map_append, List.map_cons, List.map_nil, a.norm_selects, c.norm_selects]
  | .exist a => by simp only [Pred.norm, Pred.selects, List.map_append, List.map_cons, List.map_nil, a.norm_selects]

theorem Subquery.norm_selects : ∀ x : Subquery, (x.norm fmt).selects = x.selects.map (SFW.norm fmt)
  | .jt a => by simp only [Subquery.norm, Subquery.selects, List.map_append, List.map_cons, List.map_nil, a.norm_selects]
  | .qs a => by simp only [Subquery.norm, Subquery.selects, List.map_append, List.map_cons, List.map_nil, a.norm_selects]

theorem JT.norm_selects : ∀ x : JT, (x.norm fmt).selects = x.selects.map (SFW.norm fmt)
  | .qj a => by simp only [JT.norm, JT.selects, List.map_append, List.map_cons, List.map_nil, a.norm_selects]
  | .wrap a => by simp only [JT.norm, JT.selects, List.map_append, List.map_cons, List.map_nil, a.norm_selects]

theorem QJ.norm_selects : ∀ x : QJ, (x.norm fmt).selects = x.selects.map (SFW.norm fmt)
  | .mk a b => by simp only [QJ.norm, QJ.selects, List.map_append, List.map_cons, List.map_nil, a.norm_selects, normSuffixes_selects b]

theorem QJHead.norm_selects : ∀ x : QJHead, (x.norm fmt).selects = x.selects.map (SFW.norm fmt)
  | .tc a => by simp only [QJHead.norm, QJHead.selects, List.map_append, List.map_cons, List.map_nil]
  | .jt a => by simp only [QJHead.norm, QJHead.selects, List.map_append, List.map_cons, List.map_nil, a.norm_selects]

theorem normSuffixes_selects : ∀ l : List JoinSuffix, selectsSuffixes (normSuffixes fmt l) = (selectsSuffixes l).map (SFW.norm fmt)
  | [] => by simp only [normSuffixes, selectsSuffixes, List.map_nil]
  | a :: l => by simp only [normSuffixes, selectsSuffixes, List.map_append, a.norm_selects, normSuffixes_selects l]

theorem JoinSuffix.norm_selects : ∀ x : JoinSuffix, (x.norm fmt).selects = x.selects.map (SFW.norm fmt)
  | .mk a b c d => by simp only [JoinSuffix.norm, JoinSuffix.selects, List.map_append, List.map_cons, List.map_nil, c.norm_selects, d.norm_selects]

theorem JoinSpec.norm_selects : ∀ x : JoinSpec, (x.norm fmt).selects = x.selects.map (SFW.norm fmt)
  | .named a => by simp only [JoinSpec.norm, JoinSpec.selects, List.map_append, List.map_cons, List.map_nil]
  | .on a => by simp only [JoinSpec.norm, JoinSpec.selects, List.map_append, List.map_cons, List.map_nil, a.norm_selects]

theorem TR.norm_selects : ∀ x : TR, (x.norm fmt).selects = x.selects.map (SFW.norm fmt)
  | .tc a => by simp only [TR.norm, TR.selects, List.map_append, List.map_cons, List.map_nil]
  | .jt a => by simp only [TR.norm, TR.selects, List.map_append, List.map_cons, List.map_nil, a.norm_selects]
  | .derived a b => by simp only [TR.norm, TR.selects, List.map_append, List.map_cons, List.map_nil, a.norm_selects]
  | .tvf a b => by simp only [TR.norm, TR.selects, List.map_append, List.map_cons, List.map_nil]

theorem GPred.norm_selects : ∀ x : GPred, (x.norm fmt).selects = x.selects.map (SFW.norm fmt)
  | .intersects a b => by simp only [GPred.norm, GPred.selects, List.map_append, List.map_cons, List.map_nil, a.norm_selects]
  | .contains a b => by simp only [GPred.norm, GPred.selects, List.map_append, List.map_cons, List.map_nil]

theorem Geom.norm_selects : ∀ x : Geom, (x.norm fmt).selects = x.selects.map (SFW.norm fmt)
  | .left a b => by simp only [Geom.norm, Geom.selects, List.map_append, List.map_cons, List.map_nil, b.norm_selects]
  | .right a b => by simp only [Geom.norm, Geom.selects, List.map_append, List.map_cons, List.map_nil, a.norm_selects]

theorem Where.norm_selects : ∀ x : Where, (x.norm fmt).selects = x.selects.map (SFW.norm fmt)
  | .mk a b => by simp only [Where.norm, Where.selects, List.map_append, List.map_cons, List.map_nil, a.norm_selects, b.norm_selects]

theorem Item.norm_selects : ∀ x : Item, (x.norm fmt).selects = x.selects.map (SFW.norm fmt)
  | .as a b => by simp only [Item.norm, Item.selects, List.map_append, List.map_cons, List.map_nil, a.norm_selects]
  | .nonAsStr a => by simp only [Item.norm, Item.selects, List.map_append, List.map_cons, List.map_nil]
  | .nonAsVE a => by simp only [Item.norm, Item.selects, List.map_append, List.map_cons, List.map_nil, a.norm_selects]

theorem normItems_selects : ∀ l : List Item, selectsItems (normItems fmt l) = (selectsItems l).map (SFW.norm fmt)
  | [] => by simp only [normItems, selectsItems, List.map_nil]
  | a :: l => by simp only [normItems, selectsItems, List.map_append, a.norm_selects, normItems_selects l]

theorem Columns.norm_selects : ∀ x : Columns, (x.norm fmt).selects = x.selects.map (SFW.norm fmt)
  | .star a => by simp only [Columns.norm, Columns.selects, List.map_append, List.map_cons, List.map_nil]
  | .items a => by simp only [Columns.norm, Columns.selects, List.map_append, List.map_cons, List.map_nil, normItems_selects a]

theorem Select.norm_selects : ∀ x : Select, (x.norm fmt).selects = x.selects.map (SFW.norm fmt)
  | .mk a b c => by simp only [Select.norm, Select.selects, List.map_append, List.map_cons, List.map_nil, c.norm_selects]

theorem normTRs_selects : ∀ l : List TR, selectsTRs (normTRs fmt l) = (selectsTRs l).map (SFW.norm fmt)
  | [] => by simp only [normTRs, selectsTRs, List.map_nil]
  | a :: l => by simp only [normTRs, selectsTRs, List.map_append, a.norm_selects, normTRs_selects l]

theorem SFW.norm_selects : ∀ x : SFW, (x.norm fmt).selects = x.selects.map (SFW.norm fmt)
  | .mk a b c => by simp only [SFW.norm, SFW.selects, List.map_append, List.map_cons, List.map_nil, a.norm_selects, normTRs_selects b, c.norm_selects]

theorem Addon.norm_selects : ∀ x : Addon, (x.norm fmt).selects = x.selects.map (SFW.norm fmt)
  | .mk a b => by simp only [Addon.norm, Addon.selects, List.map_append, List.map_cons, List.map_nil, b.norm_selects]

theorem normAddons_selects : ∀ l : List Addon, selectsAddons (normAddons fmt l) = (selectsAddons l).map (SFW.norm fmt)
  | [] => by simp only [normAddons, selectsAddons, List.map_nil]
  | a :: l => by simp only [normAddons, selectsAddons, List.map_append, a.norm_selects, normAddons_selects l]

theorem SFWList.norm_selects : ∀ x : SFWList, (x.norm fmt).selects = x.selects.map (SFW.norm fmt)
  | .mk a b => by simp only [SFWList.norm, SFWList.selects, List.map_append, List.map_cons, List.map_nil, a.norm_selects, normAddons_selects b]

theorem GroupTerm.norm_selects : ∀ x : GroupTerm, (x.norm fmt).selects = x.selects.map (SFW.norm fmt)
  | .col a => by simp only [GroupTerm.norm, GroupTerm.selects, List.map_append, List.map_cons, List.map_nil]
  | .ve a => by simp only [GroupTerm.norm, GroupTerm.selects, List.map_append, List.map_cons, List.map_nil, a.norm_selects]

theorem normGroup_selects : ∀ l : List GroupTerm, selectsGroup (normGroup fmt l) = (selectsGroup l).map (SFW.norm fmt)
  | [] => by simp only [normGroup, selectsGroup, List.map_nil]
  | a :: l => by simp only [normGroup, selectsGroup, List.map_append, a.norm_selects, normGroup_selects l]

theorem With.norm_selects : ∀ x : With, (x.norm fmt).selects = x.selects.map (SFW.norm fmt)
  | .mk a b c => by simp only [With.norm, With.selects, List.map_append, List.map_cons, List.map_nil, c.norm_selects]

theorem QuerySpec.norm_selects : ∀ x : QuerySpec, (x.norm fmt).selects = x.selects.map (SFW.norm fmt)
  | .mk a b c d e => by simp only [QuerySpec.norm, QuerySpec.selects, List.map_append, List.map_cons, List.map_nil, a.norm_selects, b.norm_selects, normGroup_selects c, d.norm_selects]

end

mutual

theorem VE.deep_id : ∀ x : VE, x.deep id = x
  | .nb a => by simp only [VE.deep, a.deep_id]
  | .sc a => by simp only [VE.deep, a.deep_id]

theorem VENB.deep_id : ∀ x : VENB, x.deep id = x
  | .mk a b => by simp only [VENB.deep, a.deep_id, deepTerms_id b]

theorem deepTerms_id : ∀ l : List Term, deepTerms id l = l
  | [] => by simp only [deepTerms]
  | a :: l => by simp only [deepTerms, a.deep_id, deepTerms_id l]

theorem Term.deep_id : ∀ x : Term, x.deep id = x
  | .mk a b => by simp only [Term.deep, b.deep_id]

theorem Factor.deep_id : ∀ x : Factor, x.deep id = x
  | .mk a b => by simp only [Factor.deep, b.deep_id]

theorem NumPrim.deep_id : ∀ x : NumPrim, x.deep id = x
  | .vep a => by simp only [NumPrim.deep, a.deep_id]
  | .nvf a => by simp only [NumPrim.deep, a.deep_id]

theorem NumFn.deep_id : ∀ x : NumFn, x.deep id = x
  | .trig1 a b => by simp only [NumFn.deep, b.deep_id]
  | .trig2 a b c => by simp only [NumFn.deep, b.deep_id, c.deep_id]
  | .math0 a => by simp only [NumFn.deep]
  | .math1 a b => by simp only [NumFn.deep, b.deep_id]
  | .math2 a b c => by simp only [NumFn.deep, b.deep_id, c.deep_id]
  | .cast a b c => by simp only [NumFn.deep, a.deep_id]
  | .geo1 a b => by simp only [NumFn.deep]
  | .geo2 a b c => by simp only [NumFn.deep]
  | .udf a b => by simp only [NumFn.deep, deepVEs_id b]
  | .str a => by simp only [NumFn.deep]

theorem deepVEs_id : ∀ l : List VE, deepVEs id l = l
  | [] => by simp only [deepVEs]
  | a :: l => by simp only [deepVEs, a.deep_id, deepVEs_id l]

theorem VEP.deep_id : ∀ x : VEP, x.deep id = x
  | .mk a b => by simp only [VEP.deep, a.deep_id, deepVEs_id b]

theorem Prim.deep_id : ∀ x : Prim, x.deep id = x
  | .arr a => by simp only [Prim.deep, deepVEs_id a]
  | .str a => by simp only [Prim.deep]
  | .col a => by simp only [Prim.deep]
  | .countStar a => by simp only [Prim.deep]
  | .setFn a b c => by simp only [Prim.deep, c.deep_id]
  | .case a => by simp only [Prim.deep, a.deep_id]
  | .any a => by simp only [Prim.deep, a.deep_id]
  | .sub a => by simp only [Prim.deep, a.deep_id]

theorem CaseE.deep_id : ∀ x : CaseE, x.deep id = x
  | .nullif a b => by simp only [CaseE.deep, a.deep_id, b.deep_id]
  | .coalesce a => by simp only [CaseE.deep, deepVEs_id a]
  | .simple a b c => by simp only [CaseE.deep, a.deep_id, deepWhens_id b, c.deep_id]
  | .searched a b => by simp only [CaseE.deep, deepConds_id a, b.deep_id]

theorem SimpleWhen.deep_id : ∀ x : SimpleWhen, x.deep id = x
  | .mk a b => by simp only [SimpleWhen.deep, a.deep_id, b.deep_id]

theorem deepWhens_id : ∀ l : List SimpleWhen, deepWhens id l = l
  | [] => by simp only [deepWhens]
  | a :: l => by simp only [deepWhens, a.deep_id, deepWhens_id l]

theorem SearchedWhen.deep_id : ∀ x : SearchedWhen, x.deep id = x
  | .mk a b => by simp only [SearchedWhen.deep, a.deep_id, b.deep_id]

theorem deepConds_id : ∀ l : List SearchedWhen, deepConds id l = l
  | [] => by simp only [deepConds]
  | a :: l => by simp only [deepConds, a.deep_id, deepConds_id l]

theorem CaseResult.deep_id : ∀ x : CaseResult, x.deep id = x
  | .str a => by simp only [CaseResult.deep]
  | .ve a => by simp only [CaseResult.deep, a.deep_id]

theorem SC.deep_id : ∀ x : SC, x.deep id = x
  | .factor a => by simp only [SC.deep, a.deep_id]
  | .term a b c => by simp only [SC.deep, a.deep_id, c.deep_id]

theorem BF.deep_id : ∀ x : BF, x.deep id = x
  | .mk a b => by simp only [BF.deep, b.deep_id]

theorem BP.deep_id : ∀ x : BP, x.deep id = x
  | .pred a => by simp only [BP.deep, a.deep_id]
  | .sc a => by simp only [BP.deep, a.deep_id]
  | .ve a => by simp only [BP.deep, a.deep_id]

theorem Pred.deep_id : ∀ x : Pred, x.deep id = x
  | .cmp a b c => by simp only [Pred.deep, a.deep_id, c.deep_id]
  | .between a b c d => by simp only [Pred.deep, a.deep_id, c.deep_id, d.deep_id]
  | .inSub a b c => by simp only [Pred.deep, a.deep_id, c.deep_id]
  | .inList a b c => by simp only [Pred.deep, a.deep_id, deepVEs_id c]
  | .null a b => by simp only [Pred.deep, a.deep_id]
  | .like a b c => by simp only [Pred.deep, a.deep_id, c.deep_id]
  | .exist a => by simp only [Pred.deep, a.deep_id]

theorem Subquery.deep_id : ∀ x : Subquery, x.deep id = x
  | .jt a => by simp only [Subquery.deep, a.deep_id]
  | .qs a => by simp only [Subquery.deep, a.deep_id]

theorem JT.deep_id : ∀ x : JT, x.deep id = x
  | .qj a => by simp only [JT.deep, a.deep_id]
  | .wrap a => by simp only [JT.deep, a.deep_id]

theorem QJ.deep_id : ∀ x : QJ, x.deep id = x
  | .mk a b => by simp only [QJ.deep, a.deep_id, deepSuffixes_id b]

theorem QJHead.deep_id : ∀ x : QJHead, x.deep id = x
  | .tc a => by simp only [QJHead.deep]
  | .jt a => by simp only [QJHead.deep, a.deep_id]

theorem deepSuffixes_id : ∀ l : List JoinSuffix, deepSuffixes id l = l
  | [] => by simp only [deepSuffixes]
  | a :: l => by simp only [deepSuffixes, a.deep_id, deepSuffixes_id l]

theorem JoinSuffix.deep_id : ∀ x : JoinSuffix, x.deep id = x
  | .mk a b c d => by simp only [JoinSuffix.deep, c.deep_id, d.deep_id]

theorem JoinSpec.deep_id : ∀ x : JoinSpec, x.deep id = x
  | .named a => by simp only [JoinSpec.deep]
  | .on a => by simp only [JoinSpec.deep, a.deep_id]

theorem TR.deep_id : ∀ x : TR, x.deep id = x
  | .tc a => by simp only [TR.deep]
  | .jt a => by simp only [TR.deep, a.deep_id]
  | .derived a b => by simp only [TR.deep, a.deep_id]
  | .tvf a b => by simp only [TR.deep]

theorem GPred.deep_id : ∀ x : GPred, x.deep id = x
  | .intersects a b => by simp only [GPred.deep, a.deep_id]
  | .contains a b => by simp only [GPred.deep]

theorem Geom.deep_id : ∀ x : Geom, x.deep id = x
  | .left a b => by simp only [Geom.deep, b.deep_id]
  | .right a b => by simp only [Geom.deep, a.deep_id]

theorem Where.deep_id : ∀ x : Where, x.deep id = x
  | .mk a b => by simp only [Where.deep, a.deep_id, b.deep_id]

theorem Item.deep_id : ∀ x : Item, x.deep id = x
  | .as a b => by simp only [Item.deep, a.deep_id]
  | .nonAsStr a => by simp only [Item.deep]
  | .nonAsVE a => by simp only [Item.deep, a.deep_id]

theorem deepItems_id : ∀ l : List Item, deepItems id l = l
  | [] => by simp only [deepItems]
  | a :: l => by simp only [deepItems, a.deep_id, deepItems_id l]

theorem Columns.deep_id : ∀ x : Columns, x.deep id = x
  | .star a => by simp only [Columns.deep]
  | .items a => by simp only [Columns.deep, deepItems_id a]

theorem Select.deep_id : ∀ x : Select, x.deep id = x
  | .mk a b c => by simp only [Select.deep, c.deep_id]

theorem deepTRs_id : ∀ l : List TR, deepTRs id l = l
  | [] => by simp only [deepTRs]
  | a :: l => by simp only [deepTRs, a.deep_id, deepTRs_id l]

theorem SFW.deep_id : ∀ x : SFW, x.deep id = x
  | .mk a b c => by simp only [SFW.deep, id_eq, a.deep_id, deepTRs_id b, c.deep_id]

theorem Addon.deep_id : ∀ x : Addon, x.deep id = x
  | .mk a b => by simp only [Addon.deep, b.deep_id]

theorem deepAddons_id : ∀ l : List Addon, deepAddons id l = l
  | [] => by simp only [deepAddons]
  | a :: l => by simp only [deepAddons, a.deep_id, deepAddons_id l]

theorem SFWList.deep_id : ∀ x : SFWList, x.deep id = x
  | .mk a b => by simp only [SFWList.deep, a.deep_id, deepAddons_id b]

theorem GroupTerm.deep_id : ∀ x : GroupTerm, x.deep id = x
  | .col a => by simp only [GroupTerm.deep]
  | .ve a => by simp only [GroupTerm.deep, a.deep_id]

theorem deepGroup_id : ∀ l : List GroupTerm, deepGroup id l = l
  | [] => by simp only [deepGroup]
  | a :: l => by simp only [deepGroup, a.deep_id, deepGroup_id l]

theorem With.deep_id : ∀ x : With, x.deep id = x
  | .mk a b c => by simp only [With.deep, c.deep_id]

theorem QuerySpec.deep_id : ∀ x : QuerySpec, x.deep id = x
  | .mk a b c d e => by simp only [QuerySpec.deep, a.deep_id, b.deep_id, deepGroup_id c, d.deep_id]

end

mutual

theorem VE.deep_list (hf : ∀ s, (f s).selects = f s :: lower s) : ∀ x : VE, (x.deep f).selects = x.selects.map (SFW.deep f)
  | .nb a => by simp only [VE.deep, VE.selects, List.map_append, List.map_cons, List.map_nil, a.deep_list hf]
  | .sc a => by simp only [VE.deep, VE.selects, List.map_append, List.map_cons, List.map_nil, a.deep_list hf]

theorem VENB.deep_list (hf : ∀ s, (f s).selects = f s :: lower s) : ∀ x : VENB, (x.deep f).selects = x.selects.map (SFW.deep f)
  | .mk a b => by simp only [VENB.deep, VENB.selects, List.map_append, List.map_cons, List.map_nil, a.deep_list hf, deepTerms_list hf b]

theorem deepTerms_list (hf : ∀ s, (f s).selects = f s :: lower s) : ∀ l : List Term, selectsTerms (deepTerms f l) = (selectsTerms l).map (SFW.deep f)
  | [] => by simp only [deepTerms, selectsTerms, List.map_nil]
  | a :: l => by simp only [deepTerms, selectsTerms, List.map_append, a.deep_list hf, deepTerms_list hf l]

theorem Term.deep_list (hf : ∀ s, (f s).selects = f s :: lower s) : ∀ x : Term, (x.deep f).selects = x.selects.map (SFW.deep f)
  | .mk a b => by simp only [Term.deep, Term.selects, List.map_append, List.map_cons, List.map_nil, b.deep_list hf]

theorem Factor.deep_list (hf : ∀ s, (f s).selects = f s :: lower s) : ∀ x : Factor, (x.deep f).selects = x.selects.map (SFW.deep f)
  | .mk a b => by simp only [Factor.deep, Factor.selects, List.map_append, List.map_cons, List.map_nil, b.deep_list hf]

theorem NumPrim.deep_list (hf : ∀ s, (f s).selects = f s :: lower s) : ∀ x : NumPrim, (x.deep f).selects = x.selects.map (SFW.deep f)
  | .vep a => by simp only [NumPrim.deep, NumPrim.selects, List.map_append, List.map_cons, List.map_nil, a.deep_list hf]
  | .nvf a => by simp only [NumPrim.deep, NumPrim.selects, List.map_append, List.map_cons, List.map_nil, a.deep_list hf]

theorem NumFn.deep_list (hf : ∀ s, (f s).selects = f s :: lower s) : ∀ x : NumFn, (x.deep f).selects = x.selects.map (SFW.deep f)
  | .trig1 a b => by simp only [NumFn.deep, NumFn.selects, List.map_append, List.map_cons, List.map_nil, b.deep_list hf]
  | .trig2 a b c => by simp only [NumFn.deep, NumFn.selects, List.map_append, List.map_cons, List.map_nil, b.deep_list hf, c.deep_list hf]
  | .math0 a => by simp only [NumFn.deep, NumFn.selects, List.map_append, List.map_cons, List.map_nil]
  | .math1 a b => by simp only [NumFn.deep, NumFn.selects, List.map_append, List.map_cons, List.map_nil, b.deep_list hf]
  | .math2 a b c => by simp only [NumFn.deep, NumFn.selects, List.map_append, List.map_cons, List.map_nil, b.deep_list hf, c.deep_list hf]
  | .cast a b c => by simp only [NumFn.deep, NumFn.selects, List.map_append, List.map_cons, List.map_nil, a.deep_list hf]
  | .geo1 a b => by simp only [NumFn.deep, NumFn.selects, List.map_append, List.map_cons, List.map_nil]
  | .geo2 a b c => by simp only [NumFn.deep, NumFn.selects, List.map_append, List.map_cons, List.map_nil]
  | .udf a b => by simp only [NumFn.deep, NumFn.selects, List.map_append, List.map_cons, List.map_nil, deepVEs_list hf b]
  | .str a => by simp only [NumFn.deep, NumFn.selects, List.map_append, List.map_cons, List.map_nil]

theorem deepVEs_list (hf : ∀ s, (f s).selects = f s :: lower s) : ∀ l : List VE, selectsVEs (deepVEs f l) = (selectsVEs l).map (SFW.deep f)
  | [] => by simp only [deepVEs, selectsVEs, List.map_nil]
  | a :: l => by simp only [deepVEs, selectsVEs, List.map_append, a.deep_list hf, deepVEs_list hf l]

theorem VEP.deep_list (hf : ∀ s, (f s).selects = f s :: lower s) : ∀ x : VEP, (x.deep f).selects = x.selects.map (SFW.deep f)
  | .mk a b => by simp only [VEP.deep, VEP.selects, List.map_append, List.map_cons, List.map_nil, a.deep_list hf, deepVEs_list hf b]

theorem Prim.deep_list (hf : ∀ s, (f s).selects = f s :: lower s) : ∀ x : Prim, (x.deep f).selects = x.selects.map (SFW.deep f)
  | .arr a => by simp only [Prim.deep, Prim.selects, List.map_append, List.map_cons, List.map_nil, deepVEs_list hf a]
  | .str a => by simp only [Prim.deep, Prim.selects, List.map_append, List.map_cons, List.map_nil]
  | .col a => by simp only [Prim.deep, Prim.selects, List.map_append, List.map_cons, List.map_nil]
  | .countStar a => by simp only [Prim.deep, Prim.selects, List.map_append, List.map_cons, List.map_nil]
  | .setFn a b c => by simp only [Prim.deep, Prim.selects, List.map_append, List.map_cons, List.map_nil, c.deep_list hf]
  | .case a => by simp only [Prim.deep, Prim.selects, List.map_append, List.map_cons, List.map_nil, a.deep_list hf]
  | .any a => by simp only [Prim.deep, Prim.selects, List.map_append, List.map_cons, List.map_nil, a.deep_list hf]
  | .sub a => by simp only [Prim.deep, Prim.selects, List.map_append, List.map_cons, List.map_nil, a.deep_list hf]

theorem CaseE.deep_list (hf : ∀ s, (f s).selects = f s :: lower s) : ∀ x : CaseE, (x.deep f).selects = x.selects.map (SFW.deep f)
  | .nullif a b => by simp only [CaseE.deep, CaseE.selects, List.map_append, List.map_cons, List.map_nil, a.deep_list hf, b.deep_list hf]
  | .coalesce a => by simp only [CaseE.deep, CaseE.selects, List.map_append, List.map_cons, List.map_nil, deepVEs_list hf a]
  | .simple a b c => by simp only [CaseE.deep, CaseE.selects, List.map_append, List.map_cons, List.map_nil, a.deep_list hf, deepWhens_list hf b, c.deep_list hf]
  | .searched a b => by simp only [CaseE.deep, CaseE.selects, List.map_append, List.map_cons, List.map_nil, deepConds_list hf a, b.deep_list hf]

theorem SimpleWhen.deep_list (hf : ∀ s, (f s).selects = f s :: lower s) : ∀ x : SimpleWhen, (x.deep f).selects = x.selects.map (SFW.deep f)
  | .mk a b => by simp only [SimpleWhen.deep, SimpleWhen.selects, List.map_append, List.map_cons, List.map_nil, a.deep_list hf, b.deep_list hf]

theorem deepWhens_list (hf : ∀ s, (f s).selects = f s :: lower s) : ∀ l : List SimpleWhen, selectsWhens (deepWhens f l) = (selectsWhens l).map (SFW.deep f)
  | [] => by simp only [deepWhens, selectsWhens, List.map_nil]
  | a :: l => by simp only [deepWhens, selectsWhens, List.map_append, a.deep_list hf, deepWhens_list hf l]

theorem SearchedWhen.deep_list (hf : ∀ s, (f s).selects = f s :: lower s) : ∀ x : SearchedWhen, (x.deep f).selects = x.selects.map (SFW.deep f)
  | .mk a b => by simp only [SearchedWhen.deep, SearchedWhen.selects, List.map_append, List.map_cons, List.map_nil, a.deep_list hf, b.deep_list hf]

theorem deepConds_list (hf : ∀ s, (f s).selects = f s :: lower s) : ∀ l : List SearchedWhen, selectsConds (deepConds f l) = (selectsConds l).map (SFW.deep f)
  | [] => by simp only [deepConds, selectsConds, List.map_nil]
  | a :: l => by simp only [deepConds, selectsConds, List.map_append, a.deep_list hf, deepConds_list hf l]

theorem CaseResult.deep_list (hf : ∀ s, (f s).selects = f s :: lower s) : ∀ x : CaseResult, (x.deep f).selects = x.selects.map (SFW.deep f)
  | .str a => by simp only [CaseResult.deep, CaseResult.selects, List.map_append, List.map_cons, List.map_nil]
  | .ve a => by simp only [CaseResult.deep, CaseResult.selects, List.map_append, List.map_cons, List.map_nil, a.deep_list hf]

theorem SC.deep_list (hf : ∀ s, (f s).selects = f s :: lower s) : ∀ x : SC, (x.deep f).selects = x.selects.map (SFW.deep f)
  | .factor a => by simp only [SC.deep, SC.selects, List.map_append, List.map_cons, List.map_nil, a.deep_list hf]
  | .term a b c => by simp only [SC.deep, SC.selects, List.map_append, List.map_cons, List.map_nil, a.deep_list hf, c.deep_list hf]

theorem BF.deep_list (hf : ∀ s, (f s).selects = f s :: lower s) : ∀ x : BF, (x.deep f).selects = x.selects.map (SFW.deep f)
  | .mk a b => by simp only [BF.deep, BF.selects, List.map_append, List.map_cons, List.map_nil, b.deep_list hf]

theorem BP.deep_list (hf : ∀ s, (f s).selects = f s :: lower s) : ∀ x : BP, (x.deep f).selects = x.selects.map (SFW.deep f)
  | .pred a => by simp only [BP.deep, BP.selects, List.map_append, List.map_cons, List.map_nil, a.deep_list hf]
  | .sc a => by simp only [BP.deep, BP.selects, List.map_append, List.map_cons, List.map_nil, a.deep_list hf]
  | .ve a => by simp only [BP.deep, BP.selects, List.map_append, List.map_cons, List.map_nil, a.deep_list hf]

theorem Pred.deep_list (hf : ∀ s, (f s).selects = f s :: lower s) : ∀ x : Pred, (x.deep f).selects = x.selects.map (SFW.deep f)
  | .cmp a b c => by simp only [Pred.deep, Pred.selects, List.map_append, List.map_cons, List.map_nil, a.deep_list hf, c.deep_list hf]
  | .between a b c d => by simp only [Pred.deep, Pred.selects, List.map_append, List.map_cons, List.map_nil, a.deep_list hf, c.deep_list hf, d.deep_list hf]
  | .inSub a b c => by simp only [Pred.deep, Pred.selects, List.map_append, List.map_cons, List.map_nil, a.deep_list hf, c.deep_list hf]
  | .inList a b c => by simp only [Pred.deep, Pred.selects, List.map_append, List.map_cons, List.map_nil, a.deep_list hf, deepVEs_list hf c]
  | .null a b => by simp only [Pred.deep, Pred.selects, List.map_append, List.map_cons, List.map_nil, a.deep_list hf]
  | .like a b c => by simp only [Pred.deep, Pred.selects, List.map_append, List.map_cons, List.map_nil, a.deep_list hf, c.deep_list hf]
  | .exist a => by simp only [Pred.deep, Pred.selects, List.map_append, List.map_cons, List.map_nil, a.deep_list hf]

theorem Subquery.deep_list (hf : ∀ s, (f s).selects = f s :: lower s) : ∀ x : Subquery, (x.deep f).selects = x.selects.map (SFW.deep f)
  | .jt a => by simp only [Subquery.deep, Subquery.selects, List.map_append, List.map_cons, List.map_nil, a.deep_list hf]
  | .qs a => by simp only [Subquery.deep, Subquery.selects, List.map_append, List.map_cons, List.map_nil, a.deep_list hf]

theorem JT.deep_list (hf : ∀ s, (f s).selects = f s :: lower s) : ∀ x : JT, (x.deep f).selects = x.selects.map (SFW.deep f)
  | .qj a => by simp only [JT.deep, JT.selects, List.map_append, List.map_cons, List.map_nil, a.deep_list hf]
  | .wrap a => by simp only [JT.deep, JT.selects, List.map_append, List.map_cons, List.map_nil, a.deep_list hf]

theorem QJ.deep_list (hf : ∀ s, (f s).selects = f s :: lower s) : ∀ x : QJ, (x.deep f).selects = x.selects.map (SFW.deep f)
  | .mk a b => by simp only [QJ.deep, QJ.selects, List.map_append, List.map_cons, List.map_nil, a.deep_list hf, deepSuffixes_list hf b]

theorem QJHead.deep_list (hf : ∀ s, (f s).selects = f s :: lower s) : ∀ x : QJHead, (x.deep f).selects = x.selects.map (SFW.deep f)
  | .tc a => by simp only [QJHead.deep, QJHead.selects, List.map_append, List.map_cons, List.map_nil]
  | .jt a => by simp only [QJHead.deep, QJHead.selects, List.map_append, List.map_cons, List.map_nil, a.deep_list hf]

theorem deepSuffixes_list (hf : ∀ s, (f s).selects = f s :: lower s) : ∀ l : List JoinSuffix, selectsSuffixes (deepSuffixes f l) = (selectsSuffixes l).map (SFW.deep f)
  | [] => by simp only [deepSuffixes, selectsSuffixes, List.map_nil]
  | a :: l => by simp only [deepSuffixes, selectsSuffixes, List.map_append, a.deep_list hf, deepSuffixes_list hf l]

theorem JoinSuffix.deep_list (hf : ∀ s, (f s).selects = f s :: lower s) : ∀ x : JoinSuffix, (x.deep f).selects = x.selects.map (SFW.deep f)
  | .mk a b c d => by simp only [JoinSuffix.deep, JoinSuffix.selects, List.map_append, List.map_cons, List.map_nil, c.deep_list hf, d.deep_list hf]

theorem JoinSpec.deep_list (hf : ∀ s, (f s).selects = f s :: lower s) : ∀ x : JoinSpec, (x.deep f).selects = x.selects.map (SFW.deep f)
  | .named a => by simp only [JoinSpec.deep, JoinSpec.selects, List.map_append, List.map_cons, List.map_nil]
  | .on a => by simp only [JoinSpec.deep, JoinSpec.selects, List.map_append, List.map_cons, List.map_nil, a.deep_list hf]

theorem TR.deep_list (hf : ∀ s, (f s).selects = f s :: lower s) : ∀ x : TR, (x.deep f).selects = x.selects.map (SFW.deep f)
  | .tc a => by simp only [TR.deep, TR.selects, List.map_append, List.map_cons, List.map_nil]
  | .jt a => by simp only [TR.deep, TR.selects, List.map_append, List.map_cons, List.map_nil, a.deep_list hf]
  | .derived a b => by simp only [TR.deep, TR.selects, List.map_append, List.map_cons, List.map_nil, a.deep_list hf]
  | .tvf a b => by simp only [TR.deep, TR.selects, List.map_append, List.map_cons, List.map_nil]

theorem GPred.deep_list (hf : ∀ s, (f s).selects = f s :: lower s) : ∀ x : GPred, (x.deep f).selects = x.selects.map (SFW.deep f)
  | .intersects a b => by simp only [GPred.deep, GPred.selects, List.map_append, List.map_cons, List.map_nil, a.deep_list hf]
  | .contains a b => by simp only [GPred.deep, GPred.selects, List.map_append, List.map_cons, List.map_nil]

theorem Geom.deep_list (hf : ∀ s, (f s).selects = f s :: lower s) : ∀ x : Geom, (x.deep f).selects = x.selects.map (SFW.deep f)
  | .left a b => by simp only [Geom.deep, Geom.selects, List.map_append, List.map_cons, List.map_nil, b.deep_list hf]
  | .right a b => by simp only [Geom.deep, Geom.selects, List.map_append, List.map_cons, List.map_nil, a.deep_list hf]

theorem Where.deep_list (hf : ∀ s, (f s).selects = f s :: lower s) : ∀ x : Where, (x.deep f).selects = x.selects.map (SFW.deep f)
  | .mk a b => by simp only [Where.deep, Where.selects, List.map_append, List.map_cons, List.map_nil, a.deep_list hf, b.deep_list hf]

theorem Item.deep_list (hf : ∀ s, (f s).selects = f s :: lower s) : ∀ x : Item, (x.deep f).selects = x.selects.map (SFW.deep f)
  | .as a b => by simp only [Item.deep, Item.selects, List.map_append, List.map_cons, List.map_nil, a.deep_list hf]
  | .nonAsStr a => by simp only [Item.deep, Item.selects, List.map_append, List.map_cons, List.map_nil]
  | .nonAsVE a => by simp only [Item.deep, Item.selects, List.map_append, List.map_cons, List.map_nil, a.deep_list hf]

theorem deepItems_list (hf : ∀ s, (f s).selects = f s :: lower s) : ∀ l : List Item, selectsItems (deepItems f l) = (selectsItems l).map (SFW.deep f)
  | [] => by simp only [deepItems, selectsItems, List.map_nil]
  | a :: l => by simp only [deepItems, selectsItems, List.map_append, a.deep_list hf, deepItems_list hf l]

theorem Columns.deep_list (hf : ∀ s, (f s).selects = f s :: lower s) : ∀ x : Columns, (x.deep f).selects = x.selects.map (SFW.deep f)
  | .star a => by simp only [Columns.deep, Columns.selects, List.map_append, List.map_cons, List.map_nil]
  | .items a => by simp only [Columns.deep, Columns.selects, List.map_append, List.map_cons, List.map_nil, deepItems_list hf a]

theorem Select.deep_list (hf : ∀ s, (f s).selects = f s :: lower s) : ∀ x : Select, (x.deep f).selects = x.selects.map (SFW.deep f)
  | .mk a b c => by simp only [Select.deep, Select.selects, List.map_append, List.map_cons, List.map_nil, c.deep_list hf]

theorem deepTRs_list (hf : ∀ s, (f s).selects = f s :: lower s) : ∀ l : List TR, selectsTRs (deepTRs f l) = (selectsTRs l).map (SFW.deep f)
  | [] => by simp only [deepTRs, selectsTRs, List.map_nil]
  | a :: l => by simp only [deepTRs, selectsTRs, List.map_append, a.deep_list hf, deepTRs_list hf l]

theorem SFW.deep_list (hf : ∀ s, (f s).selects = f s :: lower s) : ∀ x : SFW, (x.deep f).selects = x.selects.map (SFW.deep f)
  | .mk a b c => by simp only [SFW.deep, hf, lower, SFW.selects, List.map_append, List.map_cons, List.map_nil, a.deep_list hf, deepTRs_list hf b, c.deep_list hf]

theorem Addon.deep_list (hf : ∀ s, (f s).selects = f s :: lower s) : ∀ x : Addon, (x.deep f).selects = x.selects.map (SFW.deep f)
  | .mk a b => by simp only [Addon.deep, Addon.selects, List.map_append, List.map_cons, List.map_nil, b.deep_list hf]

theorem deepAddons_list (hf : ∀ s, (f s).selects = f s :: lower s) : ∀ l : List Addon, selectsAddons (deepAddons f l) = (selectsAddons l).map (SFW.deep f)
  | [] => by simp only [deepAddons, selectsAddons, List.map_nil]
  | a :: l => by simp only [deepAddons, selectsAddons, List.map_append, a.deep_list hf, deepAddons_list hf l]

theorem SFWList.deep_list (hf : ∀ s, (f s).selects = f s :: lower s) : ∀ x : SFWList, (x.deep f).selects = x.selects.map (SFW.deep f)
  | .mk a b => by simp only [SFWList.deep, SFWList.selects, List.map_append, List.map_cons, List.map_nil, a.deep_list hf, deepAddons_list hf b]

theorem GroupTerm.deep_list (hf : ∀ s, (f s).selects = f s :: lower s) : ∀ x : GroupTerm, (x.deep f).selects = x.selects.map (SFW.deep f)
  | .col a => by simp only [GroupTerm.deep, GroupTerm.selects, List.map_append, List.map_cons, List.map_nil]
  | .ve a => by simp only [GroupTerm.deep, GroupTerm.selects, List.map_append, List.map_cons, List.map_nil, a.deep_list hf]

theorem deepGroup_list (hf : ∀ s, (f s).selects = f s :: lower s) : ∀ l : List GroupTerm, selectsGroup (deepGroup f l) = (selectsGroup l).map (SFW.deep f)
  | [] => by simp only [deepGroup, selectsGroup, List.map_nil]
  | a :: l => by simp only [deepGroup, selectsGroup, List.map_append, a.deep_list hf, deepGroup_list hf l]

theorem With.deep_list (hf : ∀ s, (f s).selects = f s :: lower s) : ∀ x : With, (x.deep f).selects = x.selects.map (SFW.deep f)
  | .mk a b c => by simp only [With.deep, With.selects, List.map_append, List.map_cons, List.map_nil, c.deep_list hf]

theorem QuerySpec.deep_list (hf : ∀ s, (f s).selects = f s :: lower s) : ∀ x : QuerySpec, (x.deep f).selects = x.selects.map (SFW.deep f)
  | .mk a b c d e => by simp only [QuerySpec.deep, QuerySpec.selects, List.map_append, List.map_cons, List.map_nil, a.deep_list hf, b.deep_list hf, deepGroup_list hf c, d.deep_list hf]

end

end Adql
