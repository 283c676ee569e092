import Verif.Spec.Deep
import Verif.Spec.Tree

/-!
# The SELECTs of a query are parts of it
-/

namespace Adql

open Spec

set_option linter.unusedSimpArgs false

theorem result_none (s : SFW) (h : s ∈ CaseResult.dflt.selects) : False := by
  have e : CaseResult.dflt.selects = [] := by kernel_rfl
  rw [e] at h
  cases h

theorem spec_none (s : SFW) (h : s ∈ JoinSpec.dflt.selects) : False := by
  have e : JoinSpec.dflt.selects = [] := by kernel_rfl
  rw [e] at h
  cases h

theorem geom_none (s : SFW) (h : s ∈ Geom.dflt.selects) : False := by
  have e : Geom.dflt.selects = [] := by kernel_rfl
  rw [e] at h
  cases h

theorem cond_none (s : SFW) (h : s ∈ SC.dflt.selects) : False := by
  have e : SC.dflt.selects = [] := by kernel_rfl
  rw [e] at h
  cases h

theorem where_none (s : SFW) (h : s ∈ Where.dflt.selects) : False := by
  have e : Where.dflt.selects = [] := by kernel_rfl
  rw [e] at h
  cases h

theorem with_none (s : SFW) (h : s ∈ With.dflt.selects) : False := by
  have e : With.dflt.selects = [] := by kernel_rfl
  rw [e] at h
  cases h

mutual

theorem VE.sel_sub : ∀ (x : VE) (s : SFW), s ∈ x.selects → Sub (.sfw s) (.ve x)
  | .nb a, s, h => by
    simp only [VE.selects, List.mem_append] at h
    exact .step (rfl) (a.sel_sub s h)
  | .sc a, s, h => by
    simp only [VE.selects, List.mem_append] at h
    exact .step (rfl) (a.sel_sub s h)
  termination_by structural x => x

theorem VENB.sel_sub : ∀ (x : VENB) (s : SFW), s ∈ x.selects → Sub (.sfw s) (.venb x)
  | .mk a b, s, h => by
    simp only [VENB.selects, List.mem_append] at h
    rcases h with h | h
    · exact .step (.inl rfl) (a.sel_sub s h)
    · obtain ⟨t, ht, h⟩ := selTerms_sub b s h; exact .step (.inr (⟨t, ht, rfl⟩)) h
  termination_by structural x => x

theorem selTerms_sub : ∀ (l : List Term) (s : SFW), s ∈ selectsTerms l → ∃ t ∈ l, Sub (.sfw s) (.term t)
  | [], s, h => by simp only [selectsTerms, List.not_mem_nil] at h
  | a :: l, s, h => by
    simp only [selectsTerms, List.mem_append] at h
    rcases h with h | h
    · exact ⟨a, List.mem_cons_self, a.sel_sub s h⟩
    · obtain ⟨t, ht, h⟩ := selTerms_sub l s h; exact ⟨t, List.mem_cons_of_mem _ ht, h⟩
  termination_by structural x => x

theorem Term.sel_sub : ∀ (x : Term) (s : SFW), s ∈ x.selects → Sub (.sfw s) (.term x)
  | .mk _ b, s, h => by
    simp only [Term.selects, List.mem_append] at h
    exact .step (rfl) (b.sel_sub s h)
  termination_by structural x => x

theorem Factor.sel_sub : ∀ (x : Factor) (s : SFW), s ∈ x.selects → Sub (.sfw s) (.factor x)
  | .mk _ b, s, h => by
    simp only [Factor.selects, List.mem_append] at h
    exact .step (rfl) (b.sel_sub s h)
  termination_by structural x => x

theorem NumPrim.sel_sub : ∀ (x : NumPrim) (s : SFW), s ∈ x.selects → Sub (.sfw s) (.numPrim x)
  | .vep a, s, h => by
    simp only [NumPrim.selects, List.mem_append] at h
    exact .step (rfl) (a.sel_sub s h)
  | .nvf a, s, h => by
    simp only [NumPrim.selects, List.mem_append] at h
    exact .step (rfl) (a.sel_sub s h)
  termination_by structural x => x

theorem NumFn.sel_sub : ∀ (x : NumFn) (s : SFW), s ∈ x.selects → Sub (.sfw s) (.numFn x)
  | .trig1 _ b, s, h => by
    simp only [NumFn.selects, List.mem_append] at h
    exact .step (rfl) (b.sel_sub s h)
  | .trig2 _ b c, s, h => by
    simp only [NumFn.selects, List.mem_append] at h
    rcases h with h | h
    · exact .step (.inl rfl) (b.sel_sub s h)
    · exact .step (.inr rfl) (c.sel_sub s h)
  | .math0 _, s, h => by simp only [NumFn.selects, List.not_mem_nil] at h
  | .math1 _ b, s, h => by
    simp only [NumFn.selects, List.mem_append] at h
    exact .step (rfl) (b.sel_sub s h)
  | .math2 _ b c, s, h => by
    simp only [NumFn.selects, List.mem_append] at h
    rcases h with h | h
    · exact .step (.inl rfl) (b.sel_sub s h)
    · exact .step (.inr rfl) (c.sel_sub s h)
  | .cast a _ _, s, h => by
    simp only [NumFn.selects, List.mem_append] at h
    exact .step (rfl) (a.sel_sub s h)
  | .geo1 _ _, s, h => by simp only [NumFn.selects, List.not_mem_nil] at h
  | .geo2 _ _ _, s, h => by simp only [NumFn.selects, List.not_mem_nil] at h
  | .udf _ b, s, h => by
    simp only [NumFn.selects, List.mem_append] at h
    obtain ⟨t, ht, h⟩ := selVEs_sub b s h; exact .step (⟨t, ht, rfl⟩) h
  | .str _, s, h => by simp only [NumFn.selects, List.not_mem_nil] at h
  termination_by structural x => x

theorem selVEs_sub : ∀ (l : List VE) (s : SFW), s ∈ selectsVEs l → ∃ t ∈ l, Sub (.sfw s) (.ve t)
  | [], s, h => by simp only [selectsVEs, List.not_mem_nil] at h
  | a :: l, s, h => by
    simp only [selectsVEs, List.mem_append] at h
    rcases h with h | h
    · exact ⟨a, List.mem_cons_self, a.sel_sub s h⟩
    · obtain ⟨t, ht, h⟩ := selVEs_sub l s h; exact ⟨t, List.mem_cons_of_mem _ ht, h⟩
  termination_by structural x => x

theorem VEP.sel_sub : ∀ (x : VEP) (s : SFW), s ∈ x.selects → Sub (.sfw s) (.vep x)
  | .mk a b, s, h => by
    simp only [VEP.selects, List.mem_append] at h
    rcases h with h | h
    · exact .step (.inl rfl) (a.sel_sub s h)
    · obtain ⟨t, ht, h⟩ := selVEs_sub b s h; exact .step (.inr (⟨t, ht, rfl⟩)) h
  termination_by structural x => x

theorem Prim.sel_sub : ∀ (x : Prim) (s : SFW), s ∈ x.selects → Sub (.sfw s) (.prim x)
  | .arr a, s, h => by
    simp only [Prim.selects, List.mem_append] at h
    obtain ⟨t, ht, h⟩ := selVEs_sub a s h; exact .step (⟨t, ht, rfl⟩) h
  | .str _, s, h => by simp only [Prim.selects, List.not_mem_nil] at h
  | .col _, s, h => by simp only [Prim.selects, List.not_mem_nil] at h
  | .countStar _, s, h => by simp only [Prim.selects, List.not_mem_nil] at h
  | .setFn _ _ c, s, h => by
    simp only [Prim.selects, List.mem_append] at h
    exact .step (rfl) (c.sel_sub s h)
  | .case a, s, h => by
    simp only [Prim.selects, List.mem_append] at h
    exact .step (rfl) (a.sel_sub s h)
  | .any a, s, h => by
    simp only [Prim.selects, List.mem_append] at h
    exact .step (rfl) (a.sel_sub s h)
  | .sub a, s, h => by
    simp only [Prim.selects, List.mem_append] at h
    exact .step (rfl) (a.sel_sub s h)
  termination_by structural x => x

theorem CaseE.sel_sub : ∀ (x : CaseE) (s : SFW), s ∈ x.selects → Sub (.sfw s) (.caseE x)
  | .nullif a b, s, h => by
    simp only [CaseE.selects, List.mem_append] at h
    rcases h with h | h
    · exact .step (.inl rfl) (a.sel_sub s h)
    · exact .step (.inr rfl) (b.sel_sub s h)
  | .coalesce a, s, h => by
    simp only [CaseE.selects, List.mem_append] at h
    obtain ⟨t, ht, h⟩ := selVEs_sub a s h; exact .step (⟨t, ht, rfl⟩) h
  | .simple a b c, s, h => by
    simp only [CaseE.selects, List.mem_append] at h
    rcases h with (h | h) | h
    · exact .step (.inl rfl) (a.sel_sub s h)
    · obtain ⟨t, ht, h⟩ := selWhens_sub b s h; exact .step (.inr (.inl ⟨t, ht, rfl⟩)) h
    · exact .step (.inr (.inr (⟨fun e => result_none s (e ▸ h), rfl⟩))) (c.sel_sub s h)
  | .searched a b, s, h => by
    simp only [CaseE.selects, List.mem_append] at h
    rcases h with h | h
    · obtain ⟨t, ht, h⟩ := selConds_sub a s h; exact .step (.inl ⟨t, ht, rfl⟩) h
    · exact .step (.inr (⟨fun e => result_none s (e ▸ h), rfl⟩)) (b.sel_sub s h)
  termination_by structural x => x

theorem SimpleWhen.sel_sub : ∀ (x : SimpleWhen) (s : SFW), s ∈ x.selects → Sub (.sfw s) (.simpleWhen x)
  | .mk a b, s, h => by
    simp only [SimpleWhen.selects, List.mem_append] at h
    rcases h with h | h
    · exact .step (.inl rfl) (a.sel_sub s h)
    · exact .step (.inr rfl) (b.sel_sub s h)
  termination_by structural x => x

theorem selWhens_sub : ∀ (l : List SimpleWhen) (s : SFW), s ∈ selectsWhens l → ∃ t ∈ l, Sub (.sfw s) (.simpleWhen t)
  | [], s, h => by simp only [selectsWhens, List.not_mem_nil] at h
  | a :: l, s, h => by
    simp only [selectsWhens, List.mem_append] at h
    rcases h with h | h
    · exact ⟨a, List.mem_cons_self, a.sel_sub s h⟩
    · obtain ⟨t, ht, h⟩ := selWhens_sub l s h; exact ⟨t, List.mem_cons_of_mem _ ht, h⟩
  termination_by structural x => x

theorem SearchedWhen.sel_sub : ∀ (x : SearchedWhen) (s : SFW), s ∈ x.selects → Sub (.sfw s) (.searchedWhen x)
  | .mk a b, s, h => by
    simp only [SearchedWhen.selects, List.mem_append] at h
    rcases h with h | h
    · exact .step (.inl rfl) (a.sel_sub s h)
    · exact .step (.inr rfl) (b.sel_sub s h)
  termination_by structural x => x

theorem selConds_sub : ∀ (l : List SearchedWhen) (s : SFW), s ∈ selectsConds l → ∃ t ∈ l, Sub (.sfw s) (.searchedWhen t)
  | [], s, h => by simp only [selectsConds, List.not_mem_nil] at h
  | a :: l, s, h => by
    simp only [selectsConds, List.mem_append] at h
    rcases h with h | h
    · exact ⟨a, List.mem_cons_self, a.sel_sub s h⟩
    · obtain ⟨t, ht, h⟩ := selConds_sub l s h; exact ⟨t, List.mem_cons_of_mem _ ht, h⟩
  termination_by structural x => x

theorem CaseResult.sel_sub : ∀ (x : CaseResult) (s : SFW), s ∈ x.selects → Sub (.sfw s) (.result x)
  | .str _, s, h => by simp only [CaseResult.selects, List.not_mem_nil] at h
  | .ve a, s, h => by
    simp only [CaseResult.selects, List.mem_append] at h
    exact .step (rfl) (a.sel_sub s h)
  termination_by structural x => x

theorem SC.sel_sub : ∀ (x : SC) (s : SFW), s ∈ x.selects → Sub (.sfw s) (.sc x)
  | .factor a, s, h => by
    simp only [SC.selects, List.mem_append] at h
    exact .step (rfl) (a.sel_sub s h)
  | .term a _ c, s, h => by
    simp only [SC.selects, List.mem_append] at h
    rcases h with h | h
    · exact .step (.inl rfl) (a.sel_sub s h)
    · exact .step (.inr rfl) (c.sel_sub s h)
  termination_by structural x => x

theorem BF.sel_sub : ∀ (x : BF) (s : SFW), s ∈ x.selects → Sub (.sfw s) (.bf x)
  | .mk _ b, s, h => by
    simp only [BF.selects, List.mem_append] at h
    exact .step (rfl) (b.sel_sub s h)
  termination_by structural x => x

theorem BP.sel_sub : ∀ (x : BP) (s : SFW), s ∈ x.selects → Sub (.sfw s) (.bp x)
  | .pred a, s, h => by
    simp only [BP.selects, List.mem_append] at h
    exact .step (rfl) (a.sel_sub s h)
  | .sc a, s, h => by
    simp only [BP.selects, List.mem_append] at h
    exact .step (rfl) (a.sel_sub s h)
  | .ve a, s, h => by
    simp only [BP.selects, List.mem_append] at h
    exact .step (rfl) (a.sel_sub s h)
  termination_by structural x => x

theorem Pred.sel_sub : ∀ (x : Pred) (s : SFW), s ∈ x.selects → Sub (.sfw s) (.pred x)
  | .cmp a _ c, s, h => by
    simp only [Pred.selects, List.mem_append] at h
    rcases h with h | h
    · exact .step (.inl rfl) (a.sel_sub s h)
    · exact .step (.inr rfl) (c.sel_sub s h)
  | .between a _ c d, s, h => by
    simp only [Pred.selects, List.mem_append] at h
    rcases h with (h | h) | h
    · exact .step (.inl rfl) (a.sel_sub s h)
    · exact .step (.inr (.inl rfl)) (c.sel_sub s h)
    · exact .step (.inr (.inr rfl)) (d.sel_sub s h)
  | .inSub a _ c, s, h => by
    simp only [Pred.selects, List.mem_append] at h
    rcases h with h | h
    · exact .step (.inl rfl) (a.sel_sub s h)
    · exact .step (.inr rfl) (c.sel_sub s h)
  | .inList a _ c, s, h => by
    simp only [Pred.selects, List.mem_append] at h
    rcases h with h | h
    · exact .step (.inl rfl) (a.sel_sub s h)
    · obtain ⟨t, ht, h⟩ := selVEs_sub c s h; exact .step (.inr (⟨t, ht, rfl⟩)) h
  | .null a _, s, h => by
    simp only [Pred.selects, List.mem_append] at h
    exact .step (rfl) (a.sel_sub s h)
  | .like a _ c, s, h => by
    simp only [Pred.selects, List.mem_append] at h
    rcases h with h | h
    · exact .step (.inl rfl) (a.sel_sub s h)
    · exact .step (.inr rfl) (c.sel_sub s h)
  | .exist a, s, h => by
    simp only [Pred.selects, List.mem_append] at h
    exact .step (rfl) (a.sel_sub s h)
  termination_by structural x => x

theorem Subquery.sel_sub : ∀ (x : Subquery) (s : SFW), s ∈ x.selects → Sub (.sfw s) (.subq x)
  | .jt a, s, h => by
    simp only [Subquery.selects, List.mem_append] at h
    exact .step (rfl) (a.sel_sub s h)
  | .qs a, s, h => by
    simp only [Subquery.selects, List.mem_append] at h
    exact .step (rfl) (a.sel_sub s h)
  termination_by structural x => x

theorem JT.sel_sub : ∀ (x : JT) (s : SFW), s ∈ x.selects → Sub (.sfw s) (.jt x)
  | .qj a, s, h => by
    simp only [JT.selects, List.mem_append] at h
    exact .step (rfl) (a.sel_sub s h)
  | .wrap a, s, h => by
    simp only [JT.selects, List.mem_append] at h
    exact .step (rfl) (a.sel_sub s h)
  termination_by structural x => x

theorem QJ.sel_sub : ∀ (x : QJ) (s : SFW), s ∈ x.selects → Sub (.sfw s) (.qj x)
  | .mk a b, s, h => by
    simp only [QJ.selects, List.mem_append] at h
    rcases h with h | h
    · exact .step (.inl rfl) (a.sel_sub s h)
    · obtain ⟨t, ht, h⟩ := selSuffixes_sub b s h; exact .step (.inr (⟨t, ht, rfl⟩)) h
  termination_by structural x => x

theorem QJHead.sel_sub : ∀ (x : QJHead) (s : SFW), s ∈ x.selects → Sub (.sfw s) (.head x)
  | .tc _, s, h => by simp only [QJHead.selects, List.not_mem_nil] at h
  | .jt a, s, h => by
    simp only [QJHead.selects, List.mem_append] at h
    exact .step (rfl) (a.sel_sub s h)
  termination_by structural x => x

theorem selSuffixes_sub : ∀ (l : List JoinSuffix) (s : SFW), s ∈ selectsSuffixes l → ∃ t ∈ l, Sub (.sfw s) (.suffix t)
  | [], s, h => by simp only [selectsSuffixes, List.not_mem_nil] at h
  | a :: l, s, h => by
    simp only [selectsSuffixes, List.mem_append] at h
    rcases h with h | h
    · exact ⟨a, List.mem_cons_self, a.sel_sub s h⟩
    · obtain ⟨t, ht, h⟩ := selSuffixes_sub l s h; exact ⟨t, List.mem_cons_of_mem _ ht, h⟩
  termination_by structural x => x

theorem JoinSuffix.sel_sub : ∀ (x : JoinSuffix) (s : SFW), s ∈ x.selects → Sub (.sfw s) (.suffix x)
  | .mk _ _ c d, s, h => by
    simp only [JoinSuffix.selects, List.mem_append] at h
    rcases h with h | h
    · exact .step (.inl rfl) (c.sel_sub s h)
    · exact .step (.inr (⟨fun e => spec_none s (e ▸ h), rfl⟩)) (d.sel_sub s h)
  termination_by structural x => x

theorem JoinSpec.sel_sub : ∀ (x : JoinSpec) (s : SFW), s ∈ x.selects → Sub (.sfw s) (.spec x)
  | .named _, s, h => by simp only [JoinSpec.selects, List.not_mem_nil] at h
  | .on a, s, h => by
    simp only [JoinSpec.selects, List.mem_append] at h
    exact .step (rfl) (a.sel_sub s h)
  termination_by structural x => x

theorem TR.sel_sub : ∀ (x : TR) (s : SFW), s ∈ x.selects → Sub (.sfw s) (.tr x)
  | .tc _, s, h => by simp only [TR.selects, List.not_mem_nil] at h
  | .jt a, s, h => by
    simp only [TR.selects, List.mem_append] at h
    exact .step (rfl) (a.sel_sub s h)
  | .derived a _, s, h => by
    simp only [TR.selects, List.mem_append] at h
    exact .step (rfl) (a.sel_sub s h)
  | .tvf _ _, s, h => by simp only [TR.selects, List.not_mem_nil] at h
  termination_by structural x => x

theorem GPred.sel_sub : ∀ (x : GPred) (s : SFW), s ∈ x.selects → Sub (.sfw s) (.gpred x)
  | .intersects a _, s, h => by
    simp only [GPred.selects, List.mem_append] at h
    exact .step (.inl rfl) (a.sel_sub s h)
  | .contains _ _, s, h => by simp only [GPred.selects, List.not_mem_nil] at h
  termination_by structural x => x

theorem Geom.sel_sub : ∀ (x : Geom) (s : SFW), s ∈ x.selects → Sub (.sfw s) (.geom x)
  | .left _ b, s, h => by
    simp only [Geom.selects, List.mem_append] at h
    exact .step (rfl) (b.sel_sub s h)
  | .right a _, s, h => by
    simp only [Geom.selects, List.mem_append] at h
    exact .step (rfl) (a.sel_sub s h)
  termination_by structural x => x

theorem Where.sel_sub : ∀ (x : Where) (s : SFW), s ∈ x.selects → Sub (.sfw s) (.where_ x)
  | .mk a b, s, h => by
    simp only [Where.selects, List.mem_append] at h
    rcases h with h | h
    · exact .step (.inl ⟨fun e => geom_none s (e ▸ h), rfl⟩) (a.sel_sub s h)
    · exact .step (.inr (⟨fun e => cond_none s (e ▸ h), rfl⟩)) (b.sel_sub s h)
  termination_by structural x => x

theorem Item.sel_sub : ∀ (x : Item) (s : SFW), s ∈ x.selects → Sub (.sfw s) (.item x)
  | .as a _, s, h => by
    simp only [Item.selects, List.mem_append] at h
    exact .step (rfl) (a.sel_sub s h)
  | .nonAsStr _, s, h => by simp only [Item.selects, List.not_mem_nil] at h
  | .nonAsVE a, s, h => by
    simp only [Item.selects, List.mem_append] at h
    exact .step (rfl) (a.sel_sub s h)
  termination_by structural x => x

theorem selItems_sub : ∀ (l : List Item) (s : SFW), s ∈ selectsItems l → ∃ t ∈ l, Sub (.sfw s) (.item t)
  | [], s, h => by simp only [selectsItems, List.not_mem_nil] at h
  | a :: l, s, h => by
    simp only [selectsItems, List.mem_append] at h
    rcases h with h | h
    · exact ⟨a, List.mem_cons_self, a.sel_sub s h⟩
    · obtain ⟨t, ht, h⟩ := selItems_sub l s h; exact ⟨t, List.mem_cons_of_mem _ ht, h⟩
  termination_by structural x => x

theorem Columns.sel_sub : ∀ (x : Columns) (s : SFW), s ∈ x.selects → Sub (.sfw s) (.columns x)
  | .star _, s, h => by simp only [Columns.selects, List.not_mem_nil] at h
  | .items a, s, h => by
    simp only [Columns.selects, List.mem_append] at h
    obtain ⟨t, ht, h⟩ := selItems_sub a s h; exact .step (⟨t, ht, rfl⟩) h
  termination_by structural x => x

theorem Select.sel_sub : ∀ (x : Select) (s : SFW), s ∈ x.selects → Sub (.sfw s) (.select x)
  | .mk _ _ c, s, h => by
    simp only [Select.selects, List.mem_append] at h
    exact .step (rfl) (c.sel_sub s h)
  termination_by structural x => x

theorem selTRs_sub : ∀ (l : List TR) (s : SFW), s ∈ selectsTRs l → ∃ t ∈ l, Sub (.sfw s) (.tr t)
  | [], s, h => by simp only [selectsTRs, List.not_mem_nil] at h
  | a :: l, s, h => by
    simp only [selectsTRs, List.mem_append] at h
    rcases h with h | h
    · exact ⟨a, List.mem_cons_self, a.sel_sub s h⟩
    · obtain ⟨t, ht, h⟩ := selTRs_sub l s h; exact ⟨t, List.mem_cons_of_mem _ ht, h⟩
  termination_by structural x => x

theorem SFW.sel_sub : ∀ (x : SFW) (s : SFW), s ∈ x.selects → Sub (.sfw s) (.sfw x)
  | .mk a b c, s, h => by
    simp only [SFW.selects, List.mem_append, List.mem_cons] at h
    rcases h with h | (h | h) | h
    · rw [h]; exact .refl _
    · exact .step (.inl rfl) (a.sel_sub s h)
    · obtain ⟨t, ht, h⟩ := selTRs_sub b s h; exact .step (.inr (.inl ⟨t, ht, rfl⟩)) h
    · exact .step (.inr (.inr (⟨fun e => where_none s (e ▸ h), rfl⟩))) (c.sel_sub s h)
  termination_by structural x => x

theorem Addon.sel_sub : ∀ (x : Addon) (s : SFW), s ∈ x.selects → Sub (.sfw s) (.addon x)
  | .mk _ b, s, h => by
    simp only [Addon.selects, List.mem_append] at h
    exact .step (rfl) (b.sel_sub s h)
  termination_by structural x => x

theorem selAddons_sub : ∀ (l : List Addon) (s : SFW), s ∈ selectsAddons l → ∃ t ∈ l, Sub (.sfw s) (.addon t)
  | [], s, h => by simp only [selectsAddons, List.not_mem_nil] at h
  | a :: l, s, h => by
    simp only [selectsAddons, List.mem_append] at h
    rcases h with h | h
    · exact ⟨a, List.mem_cons_self, a.sel_sub s h⟩
    · obtain ⟨t, ht, h⟩ := selAddons_sub l s h; exact ⟨t, List.mem_cons_of_mem _ ht, h⟩
  termination_by structural x => x

theorem SFWList.sel_sub : ∀ (x : SFWList) (s : SFW), s ∈ x.selects → Sub (.sfw s) (.sfwList x)
  | .mk a b, s, h => by
    simp only [SFWList.selects, List.mem_append] at h
    rcases h with h | h
    · exact .step (.inl rfl) (a.sel_sub s h)
    · obtain ⟨t, ht, h⟩ := selAddons_sub b s h; exact .step (.inr (⟨t, ht, rfl⟩)) h
  termination_by structural x => x

theorem GroupTerm.sel_sub : ∀ (x : GroupTerm) (s : SFW), s ∈ x.selects → Sub (.sfw s) (.group x)
  | .col _, s, h => by simp only [GroupTerm.selects, List.not_mem_nil] at h
  | .ve a, s, h => by
    simp only [GroupTerm.selects, List.mem_append] at h
    exact .step (rfl) (a.sel_sub s h)
  termination_by structural x => x

theorem selGroup_sub : ∀ (l : List GroupTerm) (s : SFW), s ∈ selectsGroup l → ∃ t ∈ l, Sub (.sfw s) (.group t)
  | [], s, h => by simp only [selectsGroup, List.not_mem_nil] at h
  | a :: l, s, h => by
    simp only [selectsGroup, List.mem_append] at h
    rcases h with h | h
    · exact ⟨a, List.mem_cons_self, a.sel_sub s h⟩
    · obtain ⟨t, ht, h⟩ := selGroup_sub l s h; exact ⟨t, List.mem_cons_of_mem _ ht, h⟩
  termination_by structural x => x

theorem With.sel_sub : ∀ (x : With) (s : SFW), s ∈ x.selects → Sub (.sfw s) (.with_ x)
  | .mk _ _ c, s, h => by
    simp only [With.selects, List.mem_append] at h
    exact .step (rfl) (c.sel_sub s h)
  termination_by structural x => x

theorem QuerySpec.sel_sub : ∀ (x : QuerySpec) (s : SFW), s ∈ x.selects → Sub (.sfw s) (.query x)
  | .mk a b c d _, s, h => by
    simp only [QuerySpec.selects, List.mem_append] at h
    rcases h with ((h | h) | h) | h
    · exact .step (.inl ⟨fun e => with_none s (e ▸ h), rfl⟩) (a.sel_sub s h)
    · exact .step (.inr (.inl rfl)) (b.sel_sub s h)
    · obtain ⟨t, ht, h⟩ := selGroup_sub c s h; exact .step (.inr (.inr (.inl ⟨t, ht, rfl⟩))) h
    · exact .step (.inr (.inr (.inr (.inl ⟨fun e => cond_none s (e ▸ h), rfl⟩)))) (d.sel_sub s h)
  termination_by structural x => x

end

end Adql
