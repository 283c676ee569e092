import Verif.Spec.Deep
import Verif.Model.Deep
import Verif.Model.Access

/-!
# The tables of a query are read by its SELECTs
-/

namespace Adql

open Spec

set_option linter.unusedSimpArgs false

namespace Spec

/-- the SELECTs in a node -/
def Node.selects : Node → List SFW
  | .ve a => a.selects
  | .venb a => a.selects
  | .term a => a.selects
  | .factor a => a.selects
  | .numPrim a => a.selects
  | .numFn a => a.selects
  | .vep a => a.selects
  | .prim a => a.selects
  | .caseE a => a.selects
  | .simpleWhen a => a.selects
  | .searchedWhen a => a.selects
  | .result a => a.selects
  | .sc a => a.selects
  | .bf a => a.selects
  | .bp a => a.selects
  | .pred a => a.selects
  | .subq a => a.selects
  | .jt a => a.selects
  | .qj a => a.selects
  | .head a => a.selects
  | .suffix a => a.selects
  | .spec a => a.selects
  | .tr a => a.selects
  | .gpred a => a.selects
  | .geom a => a.selects
  | .where_ a => a.selects
  | .item a => a.selects
  | .columns a => a.selects
  | .select a => a.selects
  | .sfw a => a.selects
  | .addon a => a.selects
  | .sfwList a => a.selects
  | .group a => a.selects
  | .with_ a => a.selects
  | .query a => a.selects
  | .sort _ => []
  | .tcorr _ => []
  | .colRef _ => []
  | .coordExpr _ => []
  | .coord _ => []
  | .point _ => []
  | .shape _ => []
  | .pointOrCol _ => []
  | .shapeOrCol _ => []

/-- the tables of FROM in a node -/
def Node.reads : Node → List Str
  | .tr a => a.reads
  | .jt a => a.reads
  | .qj a => a.reads
  | .head a => a.reads
  | .suffix a => a.reads
  | .tcorr t => [t.name]
  | _ => []

end Spec

theorem selectsTerms_mem {s : SFW} : ∀ {l : List Term}, s ∈ selectsTerms l ↔ ∃ a ∈ l, s ∈ a.selects
  | [] => by simp [selectsTerms]
  | a :: l => by simp [selectsTerms, selectsTerms_mem (l := l)]

theorem selectsVEs_mem {s : SFW} : ∀ {l : List VE}, s ∈ selectsVEs l ↔ ∃ a ∈ l, s ∈ a.selects
  | [] => by simp [selectsVEs]
  | a :: l => by simp [selectsVEs, selectsVEs_mem (l := l)]

theorem selectsWhens_mem {s : SFW} : ∀ {l : List SimpleWhen}, s ∈ selectsWhens l ↔ ∃ a ∈ l, s ∈ a.selects
  | [] => by simp [selectsWhens]
  | a :: l => by simp [selectsWhens, selectsWhens_mem (l := l)]

theorem selectsConds_mem {s : SFW} : ∀ {l : List SearchedWhen}, s ∈ selectsConds l ↔ ∃ a ∈ l, s ∈ a.selects
  | [] => by simp [selectsConds]
  | a :: l => by simp [selectsConds, selectsConds_mem (l := l)]

theorem selectsSuffixes_mem {s : SFW} : ∀ {l : List JoinSuffix}, s ∈ selectsSuffixes l ↔ ∃ a ∈ l, s ∈ a.selects
  | [] => by simp [selectsSuffixes]
  | a :: l => by simp [selectsSuffixes, selectsSuffixes_mem (l := l)]

theorem selectsItems_mem {s : SFW} : ∀ {l : List Item}, s ∈ selectsItems l ↔ ∃ a ∈ l, s ∈ a.selects
  | [] => by simp [selectsItems]
  | a :: l => by simp [selectsItems, selectsItems_mem (l := l)]

theorem selectsTRs_mem {s : SFW} : ∀ {l : List TR}, s ∈ selectsTRs l ↔ ∃ a ∈ l, s ∈ a.selects
  | [] => by simp [selectsTRs]
  | a :: l => by simp [selectsTRs, selectsTRs_mem (l := l)]

theorem selectsAddons_mem {s : SFW} : ∀ {l : List Addon}, s ∈ selectsAddons l ↔ ∃ a ∈ l, s ∈ a.selects
  | [] => by simp [selectsAddons]
  | a :: l => by simp [selectsAddons, selectsAddons_mem (l := l)]

theorem selectsGroup_mem {s : SFW} : ∀ {l : List GroupTerm}, s ∈ selectsGroup l ↔ ∃ a ∈ l, s ∈ a.selects
  | [] => by simp [selectsGroup]
  | a :: l => by simp [selectsGroup, selectsGroup_mem (l := l)]

theorem readsSuffixes_mem {n : Str} : ∀ {l : List JoinSuffix}, n ∈ readsSuffixes l ↔ ∃ a ∈ l, n ∈ a.reads
  | [] => by simp [readsSuffixes]
  | a :: l => by simp [readsSuffixes, readsSuffixes_mem (l := l)]

theorem readsTRs_mem {n : Str} : ∀ {l : List TR}, n ∈ readsTRs l ↔ ∃ a ∈ l, n ∈ a.reads
  | [] => by simp [readsTRs]
  | a :: l => by simp [readsTRs, readsTRs_mem (l := l)]

/-- The SELECTs of a part are SELECTs of the whole. -/
theorem child_selects : ∀ n m : Node, Node.child n m → ∀ s ∈ m.selects, s ∈ n.selects
  | .ve (.nb v), m, H => by
    simp only [Node.child] at H
    subst H
    intro s hs; simp only [Node.selects] at hs; simp only [Node.selects, VE.selects, List.mem_append, List.mem_cons, hs, true_or, or_true]
  | .ve (.sc s), m, H => by
    simp only [Node.child] at H
    subst H
    intro s hs; simp only [Node.selects] at hs; simp only [Node.selects, VE.selects, List.mem_append, List.mem_cons, hs, true_or, or_true]
  | .venb (.mk f ts), m, H => by
    simp only [Node.child] at H
    rcases H with rfl | ⟨y, hy, rfl⟩
    · intro s hs; simp only [Node.selects] at hs; simp only [Node.selects, VENB.selects, List.mem_append, List.mem_cons, hs, true_or, or_true]
    · intro s hs; simp only [Node.selects, VENB.selects, List.mem_append, List.mem_cons, selectsTerms_mem, selectsVEs_mem, selectsWhens_mem, selectsConds_mem, selectsSuffixes_mem, selectsItems_mem, selectsTRs_mem, selectsAddons_mem, selectsGroup_mem]; have h := (⟨y, hy, hs⟩ : ∃ a ∈ ts, s ∈ a.selects); simp only [h, true_or, or_true]
  | .term (.mk _ f), m, H => by
    simp only [Node.child] at H
    subst H
    intro s hs; simp only [Node.selects] at hs; simp only [Node.selects, Term.selects, List.mem_append, List.mem_cons, hs, true_or, or_true]
  | .factor (.mk _ np), m, H => by
    simp only [Node.child] at H
    subst H
    intro s hs; simp only [Node.selects] at hs; simp only [Node.selects, Factor.selects, List.mem_append, List.mem_cons, hs, true_or, or_true]
  | .numPrim (.vep v), m, H => by
    simp only [Node.child] at H
    subst H
    intro s hs; simp only [Node.selects] at hs; simp only [Node.selects, NumPrim.selects, List.mem_append, List.mem_cons, hs, true_or, or_true]
  | .numPrim (.nvf f), m, H => by
    simp only [Node.child] at H
    subst H
    intro s hs; simp only [Node.selects] at hs; simp only [Node.selects, NumPrim.selects, List.mem_append, List.mem_cons, hs, true_or, or_true]
  | .numFn (.trig1 _ a), m, H => by
    simp only [Node.child] at H
    subst H
    intro s hs; simp only [Node.selects] at hs; simp only [Node.selects, NumFn.selects, List.mem_append, List.mem_cons, hs, true_or, or_true]
  | .numFn (.trig2 _ a b), m, H => by
    simp only [Node.child] at H
    rcases H with rfl | rfl
    · intro s hs; simp only [Node.selects] at hs; simp only [Node.selects, NumFn.selects, List.mem_append, List.mem_cons, hs, true_or, or_true]
    · intro s hs; simp only [Node.selects] at hs; simp only [Node.selects, NumFn.selects, List.mem_append, List.mem_cons, hs, true_or, or_true]
  | .numFn (.math0 _), m, H => H.elim
  | .numFn (.math1 _ a), m, H => by
    simp only [Node.child] at H
    subst H
    intro s hs; simp only [Node.selects] at hs; simp only [Node.selects, NumFn.selects, List.mem_append, List.mem_cons, hs, true_or, or_true]
  | .numFn (.math2 _ a b), m, H => by
    simp only [Node.child] at H
    rcases H with rfl | rfl
    · intro s hs; simp only [Node.selects] at hs; simp only [Node.selects, NumFn.selects, List.mem_append, List.mem_cons, hs, true_or, or_true]
    · intro s hs; simp only [Node.selects] at hs; simp only [Node.selects, NumFn.selects, List.mem_append, List.mem_cons, hs, true_or, or_true]
  | .numFn (.cast e _ _), m, H => by
    simp only [Node.child] at H
    subst H
    intro s hs; simp only [Node.selects] at hs; simp only [Node.selects, NumFn.selects, List.mem_append, List.mem_cons, hs, true_or, or_true]
  | .numFn (.geo1 _ a), m, H => by
    simp only [Node.child] at H
    subst H
    exact nofun
  | .numFn (.geo2 _ a b), m, H => by
    simp only [Node.child] at H
    rcases H with rfl | rfl
    · exact nofun
    · exact nofun
  | .numFn (.udf _ as), m, H => by
    simp only [Node.child] at H
    obtain ⟨y, hy, rfl⟩ := H
    intro s hs; simp only [Node.selects, NumFn.selects, List.mem_append, List.mem_cons, selectsTerms_mem, selectsVEs_mem, selectsWhens_mem, selectsConds_mem, selectsSuffixes_mem, selectsItems_mem, selectsTRs_mem, selectsAddons_mem, selectsGroup_mem]; have h := (⟨y, hy, hs⟩ : ∃ a ∈ as, s ∈ a.selects); simp only [h, true_or, or_true]
  | .numFn (.str _), m, H => H.elim
  | .vep (.mk v is), m, H => by
    simp only [Node.child] at H
    rcases H with rfl | ⟨y, hy, rfl⟩
    · intro s hs; simp only [Node.selects] at hs; simp only [Node.selects, VEP.selects, List.mem_append, List.mem_cons, hs, true_or, or_true]
    · intro s hs; simp only [Node.selects, VEP.selects, List.mem_append, List.mem_cons, selectsTerms_mem, selectsVEs_mem, selectsWhens_mem, selectsConds_mem, selectsSuffixes_mem, selectsItems_mem, selectsTRs_mem, selectsAddons_mem, selectsGroup_mem]; have h := (⟨y, hy, hs⟩ : ∃ a ∈ is, s ∈ a.selects); simp only [h, true_or, or_true]
  | .prim (.arr vs), m, H => by
    simp only [Node.child] at H
    obtain ⟨y, hy, rfl⟩ := H
    intro s hs; simp only [Node.selects, Prim.selects, List.mem_append, List.mem_cons, selectsTerms_mem, selectsVEs_mem, selectsWhens_mem, selectsConds_mem, selectsSuffixes_mem, selectsItems_mem, selectsTRs_mem, selectsAddons_mem, selectsGroup_mem]; have h := (⟨y, hy, hs⟩ : ∃ a ∈ vs, s ∈ a.selects); simp only [h, true_or, or_true]
  | .prim (.str _), m, H => H.elim
  | .prim (.col c), m, H => by
    simp only [Node.child] at H
    subst H
    exact nofun
  | .prim (.countStar _), m, H => H.elim
  | .prim (.setFn _ _ e), m, H => by
    simp only [Node.child] at H
    subst H
    intro s hs; simp only [Node.selects] at hs; simp only [Node.selects, Prim.selects, List.mem_append, List.mem_cons, hs, true_or, or_true]
  | .prim (.case c), m, H => by
    simp only [Node.child] at H
    subst H
    intro s hs; simp only [Node.selects] at hs; simp only [Node.selects, Prim.selects, List.mem_append, List.mem_cons, hs, true_or, or_true]
  | .prim (.any e), m, H => by
    simp only [Node.child] at H
    subst H
    intro s hs; simp only [Node.selects] at hs; simp only [Node.selects, Prim.selects, List.mem_append, List.mem_cons, hs, true_or, or_true]
  | .prim (.sub e), m, H => by
    simp only [Node.child] at H
    subst H
    intro s hs; simp only [Node.selects] at hs; simp only [Node.selects, Prim.selects, List.mem_append, List.mem_cons, hs, true_or, or_true]
  | .caseE (.nullif a b), m, H => by
    simp only [Node.child] at H
    rcases H with rfl | rfl
    · intro s hs; simp only [Node.selects] at hs; simp only [Node.selects, CaseE.selects, List.mem_append, List.mem_cons, hs, true_or, or_true]
    · intro s hs; simp only [Node.selects] at hs; simp only [Node.selects, CaseE.selects, List.mem_append, List.mem_cons, hs, true_or, or_true]
  | .caseE (.coalesce l), m, H => by
    simp only [Node.child] at H
    obtain ⟨y, hy, rfl⟩ := H
    intro s hs; simp only [Node.selects, CaseE.selects, List.mem_append, List.mem_cons, selectsTerms_mem, selectsVEs_mem, selectsWhens_mem, selectsConds_mem, selectsSuffixes_mem, selectsItems_mem, selectsTRs_mem, selectsAddons_mem, selectsGroup_mem]; have h := (⟨y, hy, hs⟩ : ∃ a ∈ l, s ∈ a.selects); simp only [h, true_or, or_true]
  | .caseE (.simple o ws e), m, H => by
    simp only [Node.child] at H
    rcases H with rfl | ⟨y, hy, rfl⟩ | ⟨-, rfl⟩
    · intro s hs; simp only [Node.selects] at hs; simp only [Node.selects, CaseE.selects, List.mem_append, List.mem_cons, hs, true_or, or_true]
    · intro s hs; simp only [Node.selects, CaseE.selects, List.mem_append, List.mem_cons, selectsTerms_mem, selectsVEs_mem, selectsWhens_mem, selectsConds_mem, selectsSuffixes_mem, selectsItems_mem, selectsTRs_mem, selectsAddons_mem, selectsGroup_mem]; have h := (⟨y, hy, hs⟩ : ∃ a ∈ ws, s ∈ a.selects); simp only [h, true_or, or_true]
    · intro s hs; simp only [Node.selects] at hs; simp only [Node.selects, CaseE.selects, List.mem_append, List.mem_cons, hs, true_or, or_true]
  | .caseE (.searched ws e), m, H => by
    simp only [Node.child] at H
    rcases H with ⟨y, hy, rfl⟩ | ⟨-, rfl⟩
    · intro s hs; simp only [Node.selects, CaseE.selects, List.mem_append, List.mem_cons, selectsTerms_mem, selectsVEs_mem, selectsWhens_mem, selectsConds_mem, selectsSuffixes_mem, selectsItems_mem, selectsTRs_mem, selectsAddons_mem, selectsGroup_mem]; have h := (⟨y, hy, hs⟩ : ∃ a ∈ ws, s ∈ a.selects); simp only [h, true_or, or_true]
    · intro s hs; simp only [Node.selects] at hs; simp only [Node.selects, CaseE.selects, List.mem_append, List.mem_cons, hs, true_or, or_true]
  | .simpleWhen (.mk e r), m, H => by
    simp only [Node.child] at H
    rcases H with rfl | rfl
    · intro s hs; simp only [Node.selects] at hs; simp only [Node.selects, SimpleWhen.selects, List.mem_append, List.mem_cons, hs, true_or, or_true]
    · intro s hs; simp only [Node.selects] at hs; simp only [Node.selects, SimpleWhen.selects, List.mem_append, List.mem_cons, hs, true_or, or_true]
  | .searchedWhen (.mk c r), m, H => by
    simp only [Node.child] at H
    rcases H with rfl | rfl
    · intro s hs; simp only [Node.selects] at hs; simp only [Node.selects, SearchedWhen.selects, List.mem_append, List.mem_cons, hs, true_or, or_true]
    · intro s hs; simp only [Node.selects] at hs; simp only [Node.selects, SearchedWhen.selects, List.mem_append, List.mem_cons, hs, true_or, or_true]
  | .result (.str _), m, H => H.elim
  | .result (.ve e), m, H => by
    simp only [Node.child] at H
    subst H
    intro s hs; simp only [Node.selects] at hs; simp only [Node.selects, CaseResult.selects, List.mem_append, List.mem_cons, hs, true_or, or_true]
  | .sc (.factor b), m, H => by
    simp only [Node.child] at H
    subst H
    intro s hs; simp only [Node.selects] at hs; simp only [Node.selects, SC.selects, List.mem_append, List.mem_cons, hs, true_or, or_true]
  | .sc (.term b _ s), m, H => by
    simp only [Node.child] at H
    rcases H with rfl | rfl
    · intro s hs; simp only [Node.selects] at hs; simp only [Node.selects, SC.selects, List.mem_append, List.mem_cons, hs, true_or, or_true]
    · intro s hs; simp only [Node.selects] at hs; simp only [Node.selects, SC.selects, List.mem_append, List.mem_cons, hs, true_or, or_true]
  | .bf (.mk _ p), m, H => by
    simp only [Node.child] at H
    subst H
    intro s hs; simp only [Node.selects] at hs; simp only [Node.selects, BF.selects, List.mem_append, List.mem_cons, hs, true_or, or_true]
  | .bp (.pred p), m, H => by
    simp only [Node.child] at H
    subst H
    intro s hs; simp only [Node.selects] at hs; simp only [Node.selects, BP.selects, List.mem_append, List.mem_cons, hs, true_or, or_true]
  | .bp (.sc s), m, H => by
    simp only [Node.child] at H
    subst H
    intro s hs; simp only [Node.selects] at hs; simp only [Node.selects, BP.selects, List.mem_append, List.mem_cons, hs, true_or, or_true]
  | .bp (.ve v), m, H => by
    simp only [Node.child] at H
    subst H
    intro s hs; simp only [Node.selects] at hs; simp only [Node.selects, BP.selects, List.mem_append, List.mem_cons, hs, true_or, or_true]
  | .pred (.cmp l _ r), m, H => by
    simp only [Node.child] at H
    rcases H with rfl | rfl
    · intro s hs; simp only [Node.selects] at hs; simp only [Node.selects, Pred.selects, List.mem_append, List.mem_cons, hs, true_or, or_true]
    · intro s hs; simp only [Node.selects] at hs; simp only [Node.selects, Pred.selects, List.mem_append, List.mem_cons, hs, true_or, or_true]
  | .pred (.between v _ lo hi), m, H => by
    simp only [Node.child] at H
    rcases H with rfl | rfl | rfl
    · intro s hs; simp only [Node.selects] at hs; simp only [Node.selects, Pred.selects, List.mem_append, List.mem_cons, hs, true_or, or_true]
    · intro s hs; simp only [Node.selects] at hs; simp only [Node.selects, Pred.selects, List.mem_append, List.mem_cons, hs, true_or, or_true]
    · intro s hs; simp only [Node.selects] at hs; simp only [Node.selects, Pred.selects, List.mem_append, List.mem_cons, hs, true_or, or_true]
  | .pred (.inSub v _ q), m, H => by
    simp only [Node.child] at H
    rcases H with rfl | rfl
    · intro s hs; simp only [Node.selects] at hs; simp only [Node.selects, Pred.selects, List.mem_append, List.mem_cons, hs, true_or, or_true]
    · intro s hs; simp only [Node.selects] at hs; simp only [Node.selects, Pred.selects, List.mem_append, List.mem_cons, hs, true_or, or_true]
  | .pred (.inList v _ vs), m, H => by
    simp only [Node.child] at H
    rcases H with rfl | ⟨y, hy, rfl⟩
    · intro s hs; simp only [Node.selects] at hs; simp only [Node.selects, Pred.selects, List.mem_append, List.mem_cons, hs, true_or, or_true]
    · intro s hs; simp only [Node.selects, Pred.selects, List.mem_append, List.mem_cons, selectsTerms_mem, selectsVEs_mem, selectsWhens_mem, selectsConds_mem, selectsSuffixes_mem, selectsItems_mem, selectsTRs_mem, selectsAddons_mem, selectsGroup_mem]; have h := (⟨y, hy, hs⟩ : ∃ a ∈ vs, s ∈ a.selects); simp only [h, true_or, or_true]
  | .pred (.null v _), m, H => by
    simp only [Node.child] at H
    subst H
    intro s hs; simp only [Node.selects] at hs; simp only [Node.selects, Pred.selects, List.mem_append, List.mem_cons, hs, true_or, or_true]
  | .pred (.like v _ p), m, H => by
    simp only [Node.child] at H
    rcases H with rfl | rfl
    · intro s hs; simp only [Node.selects] at hs; simp only [Node.selects, Pred.selects, List.mem_append, List.mem_cons, hs, true_or, or_true]
    · intro s hs; simp only [Node.selects] at hs; simp only [Node.selects, Pred.selects, List.mem_append, List.mem_cons, hs, true_or, or_true]
  | .pred (.exist q), m, H => by
    simp only [Node.child] at H
    subst H
    intro s hs; simp only [Node.selects] at hs; simp only [Node.selects, Pred.selects, List.mem_append, List.mem_cons, hs, true_or, or_true]
  | .subq (.jt j), m, H => by
    simp only [Node.child] at H
    subst H
    intro s hs; simp only [Node.selects] at hs; simp only [Node.selects, Subquery.selects, List.mem_append, List.mem_cons, hs, true_or, or_true]
  | .subq (.qs q), m, H => by
    simp only [Node.child] at H
    subst H
    intro s hs; simp only [Node.selects] at hs; simp only [Node.selects, Subquery.selects, List.mem_append, List.mem_cons, hs, true_or, or_true]
  | .jt (.qj q), m, H => by
    simp only [Node.child] at H
    subst H
    intro s hs; simp only [Node.selects] at hs; simp only [Node.selects, JT.selects, List.mem_append, List.mem_cons, hs, true_or, or_true]
  | .jt (.wrap j), m, H => by
    simp only [Node.child] at H
    subst H
    intro s hs; simp only [Node.selects] at hs; simp only [Node.selects, JT.selects, List.mem_append, List.mem_cons, hs, true_or, or_true]
  | .qj (.mk h ss), m, H => by
    simp only [Node.child] at H
    rcases H with rfl | ⟨y, hy, rfl⟩
    · intro s hs; simp only [Node.selects] at hs; simp only [Node.selects, QJ.selects, List.mem_append, List.mem_cons, hs, true_or, or_true]
    · intro s hs; simp only [Node.selects, QJ.selects, List.mem_append, List.mem_cons, selectsTerms_mem, selectsVEs_mem, selectsWhens_mem, selectsConds_mem, selectsSuffixes_mem, selectsItems_mem, selectsTRs_mem, selectsAddons_mem, selectsGroup_mem]; have h := (⟨y, hy, hs⟩ : ∃ a ∈ ss, s ∈ a.selects); simp only [h, true_or, or_true]
  | .head (.tc t), m, H => by
    simp only [Node.child] at H
    subst H
    exact nofun
  | .head (.jt j), m, H => by
    simp only [Node.child] at H
    subst H
    intro s hs; simp only [Node.selects] at hs; simp only [Node.selects, QJHead.selects, List.mem_append, List.mem_cons, hs, true_or, or_true]
  | .suffix (.mk _ _ t sp), m, H => by
    simp only [Node.child] at H
    rcases H with rfl | ⟨-, rfl⟩
    · intro s hs; simp only [Node.selects] at hs; simp only [Node.selects, JoinSuffix.selects, List.mem_append, List.mem_cons, hs, true_or, or_true]
    · intro s hs; simp only [Node.selects] at hs; simp only [Node.selects, JoinSuffix.selects, List.mem_append, List.mem_cons, hs, true_or, or_true]
  | .spec (.named _), m, H => H.elim
  | .spec (.on s), m, H => by
    simp only [Node.child] at H
    subst H
    intro s hs; simp only [Node.selects] at hs; simp only [Node.selects, JoinSpec.selects, List.mem_append, List.mem_cons, hs, true_or, or_true]
  | .tr (.tc t), m, H => by
    simp only [Node.child] at H
    subst H
    exact nofun
  | .tr (.jt j), m, H => by
    simp only [Node.child] at H
    subst H
    intro s hs; simp only [Node.selects] at hs; simp only [Node.selects, TR.selects, List.mem_append, List.mem_cons, hs, true_or, or_true]
  | .tr (.derived q _), m, H => by
    simp only [Node.child] at H
    subst H
    intro s hs; simp only [Node.selects] at hs; simp only [Node.selects, TR.selects, List.mem_append, List.mem_cons, hs, true_or, or_true]
  | .tr (.tvf _ _), m, H => H.elim
  | .gpred (.intersects e s), m, H => by
    simp only [Node.child] at H
    rcases H with rfl | rfl
    · intro s hs; simp only [Node.selects] at hs; simp only [Node.selects, GPred.selects, List.mem_append, List.mem_cons, hs, true_or, or_true]
    · exact nofun
  | .gpred (.contains l r), m, H => by
    simp only [Node.child] at H
    rcases H with rfl | rfl
    · exact nofun
    · exact nofun
  | .geom (.left _ p), m, H => by
    simp only [Node.child] at H
    subst H
    intro s hs; simp only [Node.selects] at hs; simp only [Node.selects, Geom.selects, List.mem_append, List.mem_cons, hs, true_or, or_true]
  | .geom (.right p _), m, H => by
    simp only [Node.child] at H
    subst H
    intro s hs; simp only [Node.selects] at hs; simp only [Node.selects, Geom.selects, List.mem_append, List.mem_cons, hs, true_or, or_true]
  | .where_ (.mk g s), m, H => by
    simp only [Node.child] at H
    rcases H with ⟨-, rfl⟩ | ⟨-, rfl⟩
    · intro s hs; simp only [Node.selects] at hs; simp only [Node.selects, Where.selects, List.mem_append, List.mem_cons, hs, true_or, or_true]
    · intro s hs; simp only [Node.selects] at hs; simp only [Node.selects, Where.selects, List.mem_append, List.mem_cons, hs, true_or, or_true]
  | .item (.as e _), m, H => by
    simp only [Node.child] at H
    subst H
    intro s hs; simp only [Node.selects] at hs; simp only [Node.selects, Item.selects, List.mem_append, List.mem_cons, hs, true_or, or_true]
  | .item (.nonAsStr _), m, H => H.elim
  | .item (.nonAsVE e), m, H => by
    simp only [Node.child] at H
    subst H
    intro s hs; simp only [Node.selects] at hs; simp only [Node.selects, Item.selects, List.mem_append, List.mem_cons, hs, true_or, or_true]
  | .columns (.star _), m, H => H.elim
  | .columns (.items l), m, H => by
    simp only [Node.child] at H
    obtain ⟨y, hy, rfl⟩ := H
    intro s hs; simp only [Node.selects, Columns.selects, List.mem_append, List.mem_cons, selectsTerms_mem, selectsVEs_mem, selectsWhens_mem, selectsConds_mem, selectsSuffixes_mem, selectsItems_mem, selectsTRs_mem, selectsAddons_mem, selectsGroup_mem]; have h := (⟨y, hy, hs⟩ : ∃ a ∈ l, s ∈ a.selects); simp only [h, true_or, or_true]
  | .select (.mk _ _ c), m, H => by
    simp only [Node.child] at H
    subst H
    intro s hs; simp only [Node.selects] at hs; simp only [Node.selects, Select.selects, List.mem_append, List.mem_cons, hs, true_or, or_true]
  | .sfw (.mk s ts w), m, H => by
    simp only [Node.child] at H
    rcases H with rfl | ⟨y, hy, rfl⟩ | ⟨-, rfl⟩
    · intro s hs; simp only [Node.selects] at hs; simp only [Node.selects, SFW.selects, List.mem_append, List.mem_cons, hs, true_or, or_true]
    · intro s hs; simp only [Node.selects, SFW.selects, List.mem_append, List.mem_cons, selectsTerms_mem, selectsVEs_mem, selectsWhens_mem, selectsConds_mem, selectsSuffixes_mem, selectsItems_mem, selectsTRs_mem, selectsAddons_mem, selectsGroup_mem]; have h := (⟨y, hy, hs⟩ : ∃ a ∈ ts, s ∈ a.selects); simp only [h, true_or, or_true]
    · intro s hs; simp only [Node.selects] at hs; simp only [Node.selects, SFW.selects, List.mem_append, List.mem_cons, hs, true_or, or_true]
  | .addon (.mk _ s), m, H => by
    simp only [Node.child] at H
    subst H
    intro s hs; simp only [Node.selects] at hs; simp only [Node.selects, Addon.selects, List.mem_append, List.mem_cons, hs, true_or, or_true]
  | .sfwList (.mk i as), m, H => by
    simp only [Node.child] at H
    rcases H with rfl | ⟨y, hy, rfl⟩
    · intro s hs; simp only [Node.selects] at hs; simp only [Node.selects, SFWList.selects, List.mem_append, List.mem_cons, hs, true_or, or_true]
    · intro s hs; simp only [Node.selects, SFWList.selects, List.mem_append, List.mem_cons, selectsTerms_mem, selectsVEs_mem, selectsWhens_mem, selectsConds_mem, selectsSuffixes_mem, selectsItems_mem, selectsTRs_mem, selectsAddons_mem, selectsGroup_mem]; have h := (⟨y, hy, hs⟩ : ∃ a ∈ as, s ∈ a.selects); simp only [h, true_or, or_true]
  | .group (.col c), m, H => by
    simp only [Node.child] at H
    subst H
    exact nofun
  | .group (.ve e), m, H => by
    simp only [Node.child] at H
    subst H
    intro s hs; simp only [Node.selects] at hs; simp only [Node.selects, GroupTerm.selects, List.mem_append, List.mem_cons, hs, true_or, or_true]
  | .with_ (.mk _ _ q), m, H => by
    simp only [Node.child] at H
    subst H
    intro s hs; simp only [Node.selects] at hs; simp only [Node.selects, With.selects, List.mem_append, List.mem_cons, hs, true_or, or_true]
  | .query (.mk w l g h o), m, H => by
    simp only [Node.child] at H
    rcases H with ⟨-, rfl⟩ | rfl | ⟨y, hy, rfl⟩ | ⟨-, rfl⟩ | ⟨y, hy, rfl⟩
    · intro s hs; simp only [Node.selects] at hs; simp only [Node.selects, QuerySpec.selects, List.mem_append, List.mem_cons, hs, true_or, or_true]
    · intro s hs; simp only [Node.selects] at hs; simp only [Node.selects, QuerySpec.selects, List.mem_append, List.mem_cons, hs, true_or, or_true]
    · intro s hs; simp only [Node.selects, QuerySpec.selects, List.mem_append, List.mem_cons, selectsTerms_mem, selectsVEs_mem, selectsWhens_mem, selectsConds_mem, selectsSuffixes_mem, selectsItems_mem, selectsTRs_mem, selectsAddons_mem, selectsGroup_mem]; have h := (⟨y, hy, hs⟩ : ∃ a ∈ g, s ∈ a.selects); simp only [h, true_or, or_true]
    · intro s hs; simp only [Node.selects] at hs; simp only [Node.selects, QuerySpec.selects, List.mem_append, List.mem_cons, hs, true_or, or_true]
    · exact nofun
  | .sort ⟨.inl _, _⟩, m, H => H.elim
  | .sort ⟨.inr c, _⟩, m, H => by
    simp only [Node.child] at H
    subst H
    exact nofun
  | .tcorr _, m, H => H.elim
  | .colRef _, m, H => H.elim
  | .coordExpr (.bae _ _ _), m, H => H.elim
  | .coordExpr (.col c), m, H => by
    simp only [Node.child] at H
    subst H
    exact nofun
  | .coordExpr (.num _), m, H => H.elim
  | .coord c, m, H => by
    simp only [Node.child] at H
    rcases H with rfl | rfl
    · exact nofun
    · exact nofun
  | .point p, m, H => by
    simp only [Node.child] at H
    subst H
    exact nofun
  | .shape (.point p), m, H => by
    simp only [Node.child] at H
    subst H
    exact nofun
  | .shape (.circle _ c r), m, H => by
    simp only [Node.child] at H
    rcases H with rfl | rfl
    · exact nofun
    · exact nofun
  | .shape (.box _ c w h), m, H => by
    simp only [Node.child] at H
    rcases H with rfl | rfl | rfl
    · exact nofun
    · exact nofun
    · exact nofun
  | .shape (.ellipse _ c a b g), m, H => by
    simp only [Node.child] at H
    rcases H with rfl | rfl | rfl | rfl
    · exact nofun
    · exact nofun
    · exact nofun
    · exact nofun
  | .shape (.polygon _ cs), m, H => by
    simp only [Node.child] at H
    obtain ⟨y, hy, rfl⟩ := H
    exact nofun
  | .pointOrCol (.point p), m, H => by
    simp only [Node.child] at H
    subst H
    exact nofun
  | .pointOrCol (.col c), m, H => by
    simp only [Node.child] at H
    subst H
    exact nofun
  | .shapeOrCol (.shape s), m, H => by
    simp only [Node.child] at H
    subst H
    exact nofun
  | .shapeOrCol (.col c), m, H => by
    simp only [Node.child] at H
    subst H
    exact nofun

/-- The tables of a part are tables of the whole, or of a SELECT, or of a join in the place of a subquery. -/
theorem child_reads {x : Str} : ∀ n m : Node, Node.child n m → x ∈ m.reads →
    x ∈ n.reads ∨ (∃ s ∈ n.selects, x ∈ fromNames s.tables) ∨ ∃ j, n = .subq (.jt j)
  | .ve (.nb v), m, H => by
    simp only [Node.child] at H
    subst H
    exact nofun
  | .ve (.sc s), m, H => by
    simp only [Node.child] at H
    subst H
    exact nofun
  | .venb (.mk f ts), m, H => by
    simp only [Node.child] at H
    rcases H with rfl | ⟨y, hy, rfl⟩
    · exact nofun
    · exact nofun
  | .term (.mk _ f), m, H => by
    simp only [Node.child] at H
    subst H
    exact nofun
  | .factor (.mk _ np), m, H => by
    simp only [Node.child] at H
    subst H
    exact nofun
  | .numPrim (.vep v), m, H => by
    simp only [Node.child] at H
    subst H
    exact nofun
  | .numPrim (.nvf f), m, H => by
    simp only [Node.child] at H
    subst H
    exact nofun
  | .numFn (.trig1 _ a), m, H => by
    simp only [Node.child] at H
    subst H
    exact nofun
  | .numFn (.trig2 _ a b), m, H => by
    simp only [Node.child] at H
    rcases H with rfl | rfl
    · exact nofun
    · exact nofun
  | .numFn (.math0 _), m, H => H.elim
  | .numFn (.math1 _ a), m, H => by
    simp only [Node.child] at H
    subst H
    exact nofun
  | .numFn (.math2 _ a b), m, H => by
    simp only [Node.child] at H
    rcases H with rfl | rfl
    · exact nofun
    · exact nofun
  | .numFn (.cast e _ _), m, H => by
    simp only [Node.child] at H
    subst H
    exact nofun
  | .numFn (.geo1 _ a), m, H => by
    simp only [Node.child] at H
    subst H
    exact nofun
  | .numFn (.geo2 _ a b), m, H => by
    simp only [Node.child] at H
    rcases H with rfl | rfl
    · exact nofun
    · exact nofun
  | .numFn (.udf _ as), m, H => by
    simp only [Node.child] at H
    obtain ⟨y, hy, rfl⟩ := H
    exact nofun
  | .numFn (.str _), m, H => H.elim
  | .vep (.mk v is), m, H => by
    simp only [Node.child] at H
    rcases H with rfl | ⟨y, hy, rfl⟩
    · exact nofun
    · exact nofun
  | .prim (.arr vs), m, H => by
    simp only [Node.child] at H
    obtain ⟨y, hy, rfl⟩ := H
    exact nofun
  | .prim (.str _), m, H => H.elim
  | .prim (.col c), m, H => by
    simp only [Node.child] at H
    subst H
    exact nofun
  | .prim (.countStar _), m, H => H.elim
  | .prim (.setFn _ _ e), m, H => by
    simp only [Node.child] at H
    subst H
    exact nofun
  | .prim (.case c), m, H => by
    simp only [Node.child] at H
    subst H
    exact nofun
  | .prim (.any e), m, H => by
    simp only [Node.child] at H
    subst H
    exact nofun
  | .prim (.sub e), m, H => by
    simp only [Node.child] at H
    subst H
    exact nofun
  | .caseE (.nullif a b), m, H => by
    simp only [Node.child] at H
    rcases H with rfl | rfl
    · exact nofun
    · exact nofun
  | .caseE (.coalesce l), m, H => by
    simp only [Node.child] at H
    obtain ⟨y, hy, rfl⟩ := H
    exact nofun
  | .caseE (.simple o ws e), m, H => by
    simp only [Node.child] at H
    rcases H with rfl | ⟨y, hy, rfl⟩ | ⟨-, rfl⟩
    · exact nofun
    · exact nofun
    · exact nofun
  | .caseE (.searched ws e), m, H => by
    simp only [Node.child] at H
    rcases H with ⟨y, hy, rfl⟩ | ⟨-, rfl⟩
    · exact nofun
    · exact nofun
  | .simpleWhen (.mk e r), m, H => by
    simp only [Node.child] at H
    rcases H with rfl | rfl
    · exact nofun
    · exact nofun
  | .searchedWhen (.mk c r), m, H => by
    simp only [Node.child] at H
    rcases H with rfl | rfl
    · exact nofun
    · exact nofun
  | .result (.str _), m, H => H.elim
  | .result (.ve e), m, H => by
    simp only [Node.child] at H
    subst H
    exact nofun
  | .sc (.factor b), m, H => by
    simp only [Node.child] at H
    subst H
    exact nofun
  | .sc (.term b _ s), m, H => by
    simp only [Node.child] at H
    rcases H with rfl | rfl
    · exact nofun
    · exact nofun
  | .bf (.mk _ p), m, H => by
    simp only [Node.child] at H
    subst H
    exact nofun
  | .bp (.pred p), m, H => by
    simp only [Node.child] at H
    subst H
    exact nofun
  | .bp (.sc s), m, H => by
    simp only [Node.child] at H
    subst H
    exact nofun
  | .bp (.ve v), m, H => by
    simp only [Node.child] at H
    subst H
    exact nofun
  | .pred (.cmp l _ r), m, H => by
    simp only [Node.child] at H
    rcases H with rfl | rfl
    · exact nofun
    · exact nofun
  | .pred (.between v _ lo hi), m, H => by
    simp only [Node.child] at H
    rcases H with rfl | rfl | rfl
    · exact nofun
    · exact nofun
    · exact nofun
  | .pred (.inSub v _ q), m, H => by
    simp only [Node.child] at H
    rcases H with rfl | rfl
    · exact nofun
    · exact nofun
  | .pred (.inList v _ vs), m, H => by
    simp only [Node.child] at H
    rcases H with rfl | ⟨y, hy, rfl⟩
    · exact nofun
    · exact nofun
  | .pred (.null v _), m, H => by
    simp only [Node.child] at H
    subst H
    exact nofun
  | .pred (.like v _ p), m, H => by
    simp only [Node.child] at H
    rcases H with rfl | rfl
    · exact nofun
    · exact nofun
  | .pred (.exist q), m, H => by
    simp only [Node.child] at H
    subst H
    exact nofun
  | .subq (.jt j), m, H => by
    simp only [Node.child] at H
    subst H
    exact fun _ => .inr (.inr ⟨_, rfl⟩)
  | .subq (.qs q), m, H => by
    simp only [Node.child] at H
    subst H
    exact nofun
  | .jt (.qj q), m, H => by
    simp only [Node.child] at H
    subst H
    exact fun h => .inl (by simp only [Node.reads, List.mem_singleton] at h; simp only [Node.reads, JT.reads, List.mem_append, List.mem_singleton, h, true_or])
  | .jt (.wrap j), m, H => by
    simp only [Node.child] at H
    subst H
    exact fun h => .inl (by simp only [Node.reads, List.mem_singleton] at h; simp only [Node.reads, JT.reads, List.mem_append, List.mem_singleton, h, true_or])
  | .qj (.mk h ss), m, H => by
    simp only [Node.child] at H
    rcases H with rfl | ⟨y, hy, rfl⟩
    · exact fun h => .inl (by simp only [Node.reads, List.mem_singleton] at h; simp only [Node.reads, QJ.reads, List.mem_append, List.mem_singleton, h, true_or])
    · exact fun h => .inl (by simp only [Node.reads, QJ.reads, List.mem_append, readsSuffixes_mem]; exact .inr ⟨y, hy, h⟩)
  | .head (.tc t), m, H => by
    simp only [Node.child] at H
    subst H
    exact fun h => .inl (by simp only [Node.reads, List.mem_singleton] at h; simp only [Node.reads, QJHead.reads, List.mem_append, List.mem_singleton, h, true_or])
  | .head (.jt j), m, H => by
    simp only [Node.child] at H
    subst H
    exact fun h => .inl (by simp only [Node.reads, List.mem_singleton] at h; simp only [Node.reads, QJHead.reads, List.mem_append, List.mem_singleton, h, true_or])
  | .suffix (.mk _ _ t sp), m, H => by
    simp only [Node.child] at H
    rcases H with rfl | ⟨-, rfl⟩
    · exact fun h => .inl (by simp only [Node.reads, List.mem_singleton] at h; simp only [Node.reads, JoinSuffix.reads, List.mem_append, List.mem_singleton, h, true_or])
    · exact nofun
  | .spec (.named _), m, H => H.elim
  | .spec (.on s), m, H => by
    simp only [Node.child] at H
    subst H
    exact nofun
  | .tr (.tc t), m, H => by
    simp only [Node.child] at H
    subst H
    exact fun h => .inl (by simp only [Node.reads, List.mem_singleton] at h; simp only [Node.reads, TR.reads, List.mem_append, List.mem_singleton, h, true_or])
  | .tr (.jt j), m, H => by
    simp only [Node.child] at H
    subst H
    exact fun h => .inl (by simp only [Node.reads, List.mem_singleton] at h; simp only [Node.reads, TR.reads, List.mem_append, List.mem_singleton, h, true_or])
  | .tr (.derived q _), m, H => by
    simp only [Node.child] at H
    subst H
    exact nofun
  | .tr (.tvf _ _), m, H => H.elim
  | .gpred (.intersects e s), m, H => by
    simp only [Node.child] at H
    rcases H with rfl | rfl
    · exact nofun
    · exact nofun
  | .gpred (.contains l r), m, H => by
    simp only [Node.child] at H
    rcases H with rfl | rfl
    · exact nofun
    · exact nofun
  | .geom (.left _ p), m, H => by
    simp only [Node.child] at H
    subst H
    exact nofun
  | .geom (.right p _), m, H => by
    simp only [Node.child] at H
    subst H
    exact nofun
  | .where_ (.mk g s), m, H => by
    simp only [Node.child] at H
    rcases H with ⟨-, rfl⟩ | ⟨-, rfl⟩
    · exact nofun
    · exact nofun
  | .item (.as e _), m, H => by
    simp only [Node.child] at H
    subst H
    exact nofun
  | .item (.nonAsStr _), m, H => H.elim
  | .item (.nonAsVE e), m, H => by
    simp only [Node.child] at H
    subst H
    exact nofun
  | .columns (.star _), m, H => H.elim
  | .columns (.items l), m, H => by
    simp only [Node.child] at H
    obtain ⟨y, hy, rfl⟩ := H
    exact nofun
  | .select (.mk _ _ c), m, H => by
    simp only [Node.child] at H
    subst H
    exact nofun
  | .sfw (.mk s ts w), m, H => by
    simp only [Node.child] at H
    rcases H with rfl | ⟨y, hy, rfl⟩ | ⟨-, rfl⟩
    · exact nofun
    · exact fun h => .inr (.inl ⟨.mk s ts w, by simp only [Node.selects, SFW.selects]; exact List.mem_cons_self, readsTRs_mem.2 ⟨y, hy, h⟩⟩)
    · exact nofun
  | .addon (.mk _ s), m, H => by
    simp only [Node.child] at H
    subst H
    exact nofun
  | .sfwList (.mk i as), m, H => by
    simp only [Node.child] at H
    rcases H with rfl | ⟨y, hy, rfl⟩
    · exact nofun
    · exact nofun
  | .group (.col c), m, H => by
    simp only [Node.child] at H
    subst H
    exact nofun
  | .group (.ve e), m, H => by
    simp only [Node.child] at H
    subst H
    exact nofun
  | .with_ (.mk _ _ q), m, H => by
    simp only [Node.child] at H
    subst H
    exact nofun
  | .query (.mk w l g h o), m, H => by
    simp only [Node.child] at H
    rcases H with ⟨-, rfl⟩ | rfl | ⟨y, hy, rfl⟩ | ⟨-, rfl⟩ | ⟨y, hy, rfl⟩
    · exact nofun
    · exact nofun
    · exact nofun
    · exact nofun
    · exact nofun
  | .sort ⟨.inl _, _⟩, m, H => H.elim
  | .sort ⟨.inr c, _⟩, m, H => by
    simp only [Node.child] at H
    subst H
    exact nofun
  | .tcorr _, m, H => H.elim
  | .colRef _, m, H => H.elim
  | .coordExpr (.bae _ _ _), m, H => H.elim
  | .coordExpr (.col c), m, H => by
    simp only [Node.child] at H
    subst H
    exact nofun
  | .coordExpr (.num _), m, H => H.elim
  | .coord c, m, H => by
    simp only [Node.child] at H
    rcases H with rfl | rfl
    · exact nofun
    · exact nofun
  | .point p, m, H => by
    simp only [Node.child] at H
    subst H
    exact nofun
  | .shape (.point p), m, H => by
    simp only [Node.child] at H
    subst H
    exact nofun
  | .shape (.circle _ c r), m, H => by
    simp only [Node.child] at H
    rcases H with rfl | rfl
    · exact nofun
    · exact nofun
  | .shape (.box _ c w h), m, H => by
    simp only [Node.child] at H
    rcases H with rfl | rfl | rfl
    · exact nofun
    · exact nofun
    · exact nofun
  | .shape (.ellipse _ c a b g), m, H => by
    simp only [Node.child] at H
    rcases H with rfl | rfl | rfl | rfl
    · exact nofun
    · exact nofun
    · exact nofun
    · exact nofun
  | .shape (.polygon _ cs), m, H => by
    simp only [Node.child] at H
    obtain ⟨y, hy, rfl⟩ := H
    exact nofun
  | .pointOrCol (.point p), m, H => by
    simp only [Node.child] at H
    subst H
    exact nofun
  | .pointOrCol (.col c), m, H => by
    simp only [Node.child] at H
    subst H
    exact nofun
  | .shapeOrCol (.shape s), m, H => by
    simp only [Node.child] at H
    subst H
    exact nofun
  | .shapeOrCol (.col c), m, H => by
    simp only [Node.child] at H
    subst H
    exact nofun

/-- Every table is read by a SELECT, unless it is in a join in the place of a subquery. -/
theorem sub_reads {t : TableCorr} {n : Node} (h : Sub (.tcorr t) n) (hj : ∀ j, ¬ Sub (.subq (.jt j)) n) :
    t.name ∈ n.reads ∨ ∃ s ∈ n.selects, t.name ∈ fromNames s.tables := by
  generalize hk : Node.tcorr t = k at h
  induction h with
  | refl => subst hk; exact .inl (by simp only [Node.reads, List.mem_singleton])
  | step hc _ ih =>
    rcases ih (fun j h => hj j (.step hc h)) with h | ⟨s, hs, h⟩
    · rcases child_reads _ _ hc h with h | h | ⟨j, rfl⟩
      · exact .inl h
      · exact .inr h
      · exact (hj j (.refl _)).elim
    · exact .inr ⟨s, child_selects _ _ hc s hs, h⟩

end Adql
