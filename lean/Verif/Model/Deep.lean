import Verif.Spec.Deep
import Verif.Model.Reach
import Verif.Model.Spell

/-!
# Lemmas about queries with changed SELECTs
-/

namespace Adql

open Spec

variable {f : SFW → SFW} {fmt : Str → Str}

set_option linter.unusedSimpArgs false

namespace Spec

/-- any node -/
def Node.deep (f : SFW → SFW) : Node → Node
  | .ve a => .ve (a.deep f)
  | .venb a => .venb (a.deep f)
  | .term a => .term (a.deep f)
  | .factor a => .factor (a.deep f)
  | .numPrim a => .numPrim (a.deep f)
  | .numFn a => .numFn (a.deep f)
  | .vep a => .vep (a.deep f)
  | .prim a => .prim (a.deep f)
  | .caseE a => .caseE (a.deep f)
  | .simpleWhen a => .simpleWhen (a.deep f)
  | .searchedWhen a => .searchedWhen (a.deep f)
  | .result a => .result (a.deep f)
  | .sc a => .sc (a.deep f)
  | .bf a => .bf (a.deep f)
  | .bp a => .bp (a.deep f)
  | .pred a => .pred (a.deep f)
  | .subq a => .subq (a.deep f)
  | .jt a => .jt (a.deep f)
  | .qj a => .qj (a.deep f)
  | .head a => .head (a.deep f)
  | .suffix a => .suffix (a.deep f)
  | .spec a => .spec (a.deep f)
  | .tr a => .tr (a.deep f)
  | .gpred a => .gpred (a.deep f)
  | .geom a => .geom (a.deep f)
  | .where_ a => .where_ (a.deep f)
  | .item a => .item (a.deep f)
  | .columns a => .columns (a.deep f)
  | .select a => .select (a.deep f)
  | .sfw a => .sfw (a.deep f)
  | .addon a => .addon (a.deep f)
  | .sfwList a => .sfwList (a.deep f)
  | .group a => .group (a.deep f)
  | .with_ a => .with_ (a.deep f)
  | .query a => .query (a.deep f)
  | .sort a => .sort a
  | .tcorr a => .tcorr a
  | .colRef a => .colRef a
  | .coordExpr a => .coordExpr a
  | .coord a => .coord a
  | .point a => .point a
  | .shape a => .shape a
  | .pointOrCol a => .pointOrCol a
  | .shapeOrCol a => .shapeOrCol a

end Spec

theorem SFW.deep_eq (s : SFW) : s.deep f = f (s.inner f) := by cases s; simp only [SFW.deep, SFW.inner]

namespace Spec

/-- any node, with changes in its parts only -/
def Node.inner (f : SFW → SFW) : Node → Node
  | .sfw s => .sfw (s.inner f)
  | n => n.deep f

end Spec

theorem deepTerms_eq : ∀ l : List Term, deepTerms f l = l.map (Term.deep f)
  | [] => by simp only [deepTerms, List.map_nil]
  | a :: l => by simp only [deepTerms, List.map_cons, deepTerms_eq l]

theorem deepVEs_eq : ∀ l : List VE, deepVEs f l = l.map (VE.deep f)
  | [] => by simp only [deepVEs, List.map_nil]
  | a :: l => by simp only [deepVEs, List.map_cons, deepVEs_eq l]

theorem deepWhens_eq : ∀ l : List SimpleWhen, deepWhens f l = l.map (SimpleWhen.deep f)
  | [] => by simp only [deepWhens, List.map_nil]
  | a :: l => by simp only [deepWhens, List.map_cons, deepWhens_eq l]

theorem deepConds_eq : ∀ l : List SearchedWhen, deepConds f l = l.map (SearchedWhen.deep f)
  | [] => by simp only [deepConds, List.map_nil]
  | a :: l => by simp only [deepConds, List.map_cons, deepConds_eq l]

theorem deepSuffixes_eq : ∀ l : List JoinSuffix, deepSuffixes f l = l.map (JoinSuffix.deep f)
  | [] => by simp only [deepSuffixes, List.map_nil]
  | a :: l => by simp only [deepSuffixes, List.map_cons, deepSuffixes_eq l]

theorem deepItems_eq : ∀ l : List Item, deepItems f l = l.map (Item.deep f)
  | [] => by simp only [deepItems, List.map_nil]
  | a :: l => by simp only [deepItems, List.map_cons, deepItems_eq l]

theorem deepTRs_eq : ∀ l : List TR, deepTRs f l = l.map (TR.deep f)
  | [] => by simp only [deepTRs, List.map_nil]
  | a :: l => by simp only [deepTRs, List.map_cons, deepTRs_eq l]

theorem deepAddons_eq : ∀ l : List Addon, deepAddons f l = l.map (Addon.deep f)
  | [] => by simp only [deepAddons, List.map_nil]
  | a :: l => by simp only [deepAddons, List.map_cons, deepAddons_eq l]

theorem deepGroup_eq : ∀ l : List GroupTerm, deepGroup f l = l.map (GroupTerm.deep f)
  | [] => by simp only [deepGroup, List.map_nil]
  | a :: l => by simp only [deepGroup, List.map_cons, deepGroup_eq l]

theorem SC.deep_dflt : SC.dflt.deep f = SC.dflt := by
  simp [VEP.dflt, VENB.dflt, VE.dflt, SC.dflt, CaseResult.dflt, JoinSpec.dflt, Subquery.dflt, Geom.dflt, Where.dflt, With.dflt, VE.deep, VENB.deep, deepTerms, Factor.deep, NumPrim.deep, VEP.deep, Prim.deep, deepVEs, SC.deep, BF.deep, BP.deep, Pred.deep, CaseResult.deep, JoinSpec.deep, Subquery.deep, JT.deep, QJ.deep, QJHead.deep, deepSuffixes, Geom.deep, GPred.deep, Where.deep, With.deep]

theorem CaseResult.deep_dflt : CaseResult.dflt.deep f = CaseResult.dflt := by
  simp [VEP.dflt, VENB.dflt, VE.dflt, SC.dflt, CaseResult.dflt, JoinSpec.dflt, Subquery.dflt, Geom.dflt, Where.dflt, With.dflt, VE.deep, VENB.deep, deepTerms, Factor.deep, NumPrim.deep, VEP.deep, Prim.deep, deepVEs, SC.deep, BF.deep, BP.deep, Pred.deep, CaseResult.deep, JoinSpec.deep, Subquery.deep, JT.deep, QJ.deep, QJHead.deep, deepSuffixes, Geom.deep, GPred.deep, Where.deep, With.deep]

theorem JoinSpec.deep_dflt : JoinSpec.dflt.deep f = JoinSpec.dflt := by
  simp [VEP.dflt, VENB.dflt, VE.dflt, SC.dflt, CaseResult.dflt, JoinSpec.dflt, Subquery.dflt, Geom.dflt, Where.dflt, With.dflt, VE.deep, VENB.deep, deepTerms, Factor.deep, NumPrim.deep, VEP.deep, Prim.deep, deepVEs, SC.deep, BF.deep, BP.deep, Pred.deep, CaseResult.deep, JoinSpec.deep, Subquery.deep, JT.deep, QJ.deep, QJHead.deep, deepSuffixes, Geom.deep, GPred.deep, Where.deep, With.deep]

theorem Geom.deep_dflt : Geom.dflt.deep f = Geom.dflt := by
  simp [VEP.dflt, VENB.dflt, VE.dflt, SC.dflt, CaseResult.dflt, JoinSpec.dflt, Subquery.dflt, Geom.dflt, Where.dflt, With.dflt, VE.deep, VENB.deep, deepTerms, Factor.deep, NumPrim.deep, VEP.deep, Prim.deep, deepVEs, SC.deep, BF.deep, BP.deep, Pred.deep, CaseResult.deep, JoinSpec.deep, Subquery.deep, JT.deep, QJ.deep, QJHead.deep, deepSuffixes, Geom.deep, GPred.deep, Where.deep, With.deep]

theorem Where.deep_dflt : Where.dflt.deep f = Where.dflt := by
  simp [VEP.dflt, VENB.dflt, VE.dflt, SC.dflt, CaseResult.dflt, JoinSpec.dflt, Subquery.dflt, Geom.dflt, Where.dflt, With.dflt, VE.deep, VENB.deep, deepTerms, Factor.deep, NumPrim.deep, VEP.deep, Prim.deep, deepVEs, SC.deep, BF.deep, BP.deep, Pred.deep, CaseResult.deep, JoinSpec.deep, Subquery.deep, JT.deep, QJ.deep, QJHead.deep, deepSuffixes, Geom.deep, GPred.deep, Where.deep, With.deep]

theorem With.deep_dflt : With.dflt.deep f = With.dflt := by
  simp [VEP.dflt, VENB.dflt, VE.dflt, SC.dflt, CaseResult.dflt, JoinSpec.dflt, Subquery.dflt, Geom.dflt, Where.dflt, With.dflt, VE.deep, VENB.deep, deepTerms, Factor.deep, NumPrim.deep, VEP.deep, Prim.deep, deepVEs, SC.deep, BF.deep, BP.deep, Pred.deep, CaseResult.deep, JoinSpec.deep, Subquery.deep, JT.deep, QJ.deep, QJHead.deep, deepSuffixes, Geom.deep, GPred.deep, Where.deep, With.deep]

/-- The parts of a changed node are the changed parts of the node. -/
theorem inner_child : ∀ n m : Node, Node.child (n.inner f) m → ∃ c, Node.child n c ∧ m = c.deep f
  | .ve (.nb v), m, H => by
    simp only [Node.inner, Node.deep, SFW.inner, VE.deep, Node.child, deepTerms_eq, deepVEs_eq, deepWhens_eq, deepConds_eq, deepSuffixes_eq, deepItems_eq, deepTRs_eq, deepAddons_eq, deepGroup_eq, List.mem_map] at H
    exact ⟨.venb v, rfl, H⟩
  | .ve (.sc s), m, H => by
    simp only [Node.inner, Node.deep, SFW.inner, VE.deep, Node.child, deepTerms_eq, deepVEs_eq, deepWhens_eq, deepConds_eq, deepSuffixes_eq, deepItems_eq, deepTRs_eq, deepAddons_eq, deepGroup_eq, List.mem_map] at H
    exact ⟨.sc s, rfl, H⟩
  | .venb (.mk f0 ts), m, H => by
    simp only [Node.inner, Node.deep, SFW.inner, VENB.deep, Node.child, deepTerms_eq, deepVEs_eq, deepWhens_eq, deepConds_eq, deepSuffixes_eq, deepItems_eq, deepTRs_eq, deepAddons_eq, deepGroup_eq, List.mem_map] at H
    rcases H with H | ⟨_, ⟨y, hy, rfl⟩, H⟩
    · exact ⟨.factor f0, .inl rfl, H⟩
    · exact ⟨.term y, .inr (⟨y, hy, rfl⟩), H⟩
  | .term (.mk _ f0), m, H => by
    simp only [Node.inner, Node.deep, SFW.inner, Term.deep, Node.child, deepTerms_eq, deepVEs_eq, deepWhens_eq, deepConds_eq, deepSuffixes_eq, deepItems_eq, deepTRs_eq, deepAddons_eq, deepGroup_eq, List.mem_map] at H
    exact ⟨.factor f0, rfl, H⟩
  | .factor (.mk _ np), m, H => by
    simp only [Node.inner, Node.deep, SFW.inner, Factor.deep, Node.child, deepTerms_eq, deepVEs_eq, deepWhens_eq, deepConds_eq, deepSuffixes_eq, deepItems_eq, deepTRs_eq, deepAddons_eq, deepGroup_eq, List.mem_map] at H
    exact ⟨.numPrim np, rfl, H⟩
  | .numPrim (.vep v), m, H => by
    simp only [Node.inner, Node.deep, SFW.inner, NumPrim.deep, Node.child, deepTerms_eq, deepVEs_eq, deepWhens_eq, deepConds_eq, deepSuffixes_eq, deepItems_eq, deepTRs_eq, deepAddons_eq, deepGroup_eq, List.mem_map] at H
    exact ⟨.vep v, rfl, H⟩
  | .numPrim (.nvf f0), m, H => by
    simp only [Node.inner, Node.deep, SFW.inner, NumPrim.deep, Node.child, deepTerms_eq, deepVEs_eq, deepWhens_eq, deepConds_eq, deepSuffixes_eq, deepItems_eq, deepTRs_eq, deepAddons_eq, deepGroup_eq, List.mem_map] at H
    exact ⟨.numFn f0, rfl, H⟩
  | .numFn (.trig1 _ a), m, H => by
    simp only [Node.inner, Node.deep, SFW.inner, NumFn.deep, Node.child, deepTerms_eq, deepVEs_eq, deepWhens_eq, deepConds_eq, deepSuffixes_eq, deepItems_eq, deepTRs_eq, deepAddons_eq, deepGroup_eq, List.mem_map] at H
    exact ⟨.ve a, rfl, H⟩
  | .numFn (.trig2 _ a b), m, H => by
    simp only [Node.inner, Node.deep, SFW.inner, NumFn.deep, Node.child, deepTerms_eq, deepVEs_eq, deepWhens_eq, deepConds_eq, deepSuffixes_eq, deepItems_eq, deepTRs_eq, deepAddons_eq, deepGroup_eq, List.mem_map] at H
    rcases H with H | H
    · exact ⟨.ve a, .inl rfl, H⟩
    · exact ⟨.ve b, .inr rfl, H⟩
  | .numFn (.math0 _), m, H => by simp [Node.inner, Node.deep, SFW.inner, NumFn.deep, Node.child] at H
  | .numFn (.math1 _ a), m, H => by
    simp only [Node.inner, Node.deep, SFW.inner, NumFn.deep, Node.child, deepTerms_eq, deepVEs_eq, deepWhens_eq, deepConds_eq, deepSuffixes_eq, deepItems_eq, deepTRs_eq, deepAddons_eq, deepGroup_eq, List.mem_map] at H
    exact ⟨.ve a, rfl, H⟩
  | .numFn (.math2 _ a b), m, H => by
    simp only [Node.inner, Node.deep, SFW.inner, NumFn.deep, Node.child, deepTerms_eq, deepVEs_eq, deepWhens_eq, deepConds_eq, deepSuffixes_eq, deepItems_eq, deepTRs_eq, deepAddons_eq, deepGroup_eq, List.mem_map] at H
    rcases H with H | H
    · exact ⟨.ve a, .inl rfl, H⟩
    · exact ⟨.ve b, .inr rfl, H⟩
  | .numFn (.cast e _ _), m, H => by
    simp only [Node.inner, Node.deep, SFW.inner, NumFn.deep, Node.child, deepTerms_eq, deepVEs_eq, deepWhens_eq, deepConds_eq, deepSuffixes_eq, deepItems_eq, deepTRs_eq, deepAddons_eq, deepGroup_eq, List.mem_map] at H
    exact ⟨.ve e, rfl, H⟩
  | .numFn (.geo1 _ a), m, H => by
    simp only [Node.inner, Node.deep, SFW.inner, NumFn.deep, Node.child, deepTerms_eq, deepVEs_eq, deepWhens_eq, deepConds_eq, deepSuffixes_eq, deepItems_eq, deepTRs_eq, deepAddons_eq, deepGroup_eq, List.mem_map] at H
    exact ⟨.pointOrCol a, rfl, H⟩
  | .numFn (.geo2 _ a b), m, H => by
    simp only [Node.inner, Node.deep, SFW.inner, NumFn.deep, Node.child, deepTerms_eq, deepVEs_eq, deepWhens_eq, deepConds_eq, deepSuffixes_eq, deepItems_eq, deepTRs_eq, deepAddons_eq, deepGroup_eq, List.mem_map] at H
    rcases H with H | H
    · exact ⟨.pointOrCol a, .inl rfl, H⟩
    · exact ⟨.pointOrCol b, .inr rfl, H⟩
  | .numFn (.udf _ as), m, H => by
    simp only [Node.inner, Node.deep, SFW.inner, NumFn.deep, Node.child, deepTerms_eq, deepVEs_eq, deepWhens_eq, deepConds_eq, deepSuffixes_eq, deepItems_eq, deepTRs_eq, deepAddons_eq, deepGroup_eq, List.mem_map] at H
    obtain ⟨_, ⟨y, hy, rfl⟩, H⟩ := H
    exact ⟨.ve y, ⟨y, hy, rfl⟩, H⟩
  | .numFn (.str _), m, H => by simp [Node.inner, Node.deep, SFW.inner, NumFn.deep, Node.child] at H
  | .vep (.mk v is), m, H => by
    simp only [Node.inner, Node.deep, SFW.inner, VEP.deep, Node.child, deepTerms_eq, deepVEs_eq, deepWhens_eq, deepConds_eq, deepSuffixes_eq, deepItems_eq, deepTRs_eq, deepAddons_eq, deepGroup_eq, List.mem_map] at H
    rcases H with H | ⟨_, ⟨y, hy, rfl⟩, H⟩
    · exact ⟨.prim v, .inl rfl, H⟩
    · exact ⟨.ve y, .inr (⟨y, hy, rfl⟩), H⟩
  | .prim (.arr vs), m, H => by
    simp only [Node.inner, Node.deep, SFW.inner, Prim.deep, Node.child, deepTerms_eq, deepVEs_eq, deepWhens_eq, deepConds_eq, deepSuffixes_eq, deepItems_eq, deepTRs_eq, deepAddons_eq, deepGroup_eq, List.mem_map] at H
    obtain ⟨_, ⟨y, hy, rfl⟩, H⟩ := H
    exact ⟨.ve y, ⟨y, hy, rfl⟩, H⟩
  | .prim (.str _), m, H => by simp [Node.inner, Node.deep, SFW.inner, Prim.deep, Node.child] at H
  | .prim (.col c), m, H => by
    simp only [Node.inner, Node.deep, SFW.inner, Prim.deep, Node.child, deepTerms_eq, deepVEs_eq, deepWhens_eq, deepConds_eq, deepSuffixes_eq, deepItems_eq, deepTRs_eq, deepAddons_eq, deepGroup_eq, List.mem_map] at H
    exact ⟨.colRef c, rfl, H⟩
  | .prim (.countStar _), m, H => by simp [Node.inner, Node.deep, SFW.inner, Prim.deep, Node.child] at H
  | .prim (.setFn _ _ e), m, H => by
    simp only [Node.inner, Node.deep, SFW.inner, Prim.deep, Node.child, deepTerms_eq, deepVEs_eq, deepWhens_eq, deepConds_eq, deepSuffixes_eq, deepItems_eq, deepTRs_eq, deepAddons_eq, deepGroup_eq, List.mem_map] at H
    exact ⟨.ve e, rfl, H⟩
  | .prim (.case c), m, H => by
    simp only [Node.inner, Node.deep, SFW.inner, Prim.deep, Node.child, deepTerms_eq, deepVEs_eq, deepWhens_eq, deepConds_eq, deepSuffixes_eq, deepItems_eq, deepTRs_eq, deepAddons_eq, deepGroup_eq, List.mem_map] at H
    exact ⟨.caseE c, rfl, H⟩
  | .prim (.any e), m, H => by
    simp only [Node.inner, Node.deep, SFW.inner, Prim.deep, Node.child, deepTerms_eq, deepVEs_eq, deepWhens_eq, deepConds_eq, deepSuffixes_eq, deepItems_eq, deepTRs_eq, deepAddons_eq, deepGroup_eq, List.mem_map] at H
    exact ⟨.ve e, rfl, H⟩
  | .prim (.sub e), m, H => by
    simp only [Node.inner, Node.deep, SFW.inner, Prim.deep, Node.child, deepTerms_eq, deepVEs_eq, deepWhens_eq, deepConds_eq, deepSuffixes_eq, deepItems_eq, deepTRs_eq, deepAddons_eq, deepGroup_eq, List.mem_map] at H
    exact ⟨.ve e, rfl, H⟩
  | .caseE (.nullif a b), m, H => by
    simp only [Node.inner, Node.deep, SFW.inner, CaseE.deep, Node.child, deepTerms_eq, deepVEs_eq, deepWhens_eq, deepConds_eq, deepSuffixes_eq, deepItems_eq, deepTRs_eq, deepAddons_eq, deepGroup_eq, List.mem_map] at H
    rcases H with H | H
    · exact ⟨.ve a, .inl rfl, H⟩
    · exact ⟨.ve b, .inr rfl, H⟩
  | .caseE (.coalesce l), m, H => by
    simp only [Node.inner, Node.deep, SFW.inner, CaseE.deep, Node.child, deepTerms_eq, deepVEs_eq, deepWhens_eq, deepConds_eq, deepSuffixes_eq, deepItems_eq, deepTRs_eq, deepAddons_eq, deepGroup_eq, List.mem_map] at H
    obtain ⟨_, ⟨y, hy, rfl⟩, H⟩ := H
    exact ⟨.ve y, ⟨y, hy, rfl⟩, H⟩
  | .caseE (.simple o ws e), m, H => by
    simp only [Node.inner, Node.deep, SFW.inner, CaseE.deep, Node.child, deepTerms_eq, deepVEs_eq, deepWhens_eq, deepConds_eq, deepSuffixes_eq, deepItems_eq, deepTRs_eq, deepAddons_eq, deepGroup_eq, List.mem_map] at H
    rcases H with H | ⟨_, ⟨y, hy, rfl⟩, H⟩ | ⟨hd, H⟩
    · exact ⟨.ve o, .inl rfl, H⟩
    · exact ⟨.simpleWhen y, .inr (.inl (⟨y, hy, rfl⟩)), H⟩
    · exact ⟨.result e, .inr (.inr (⟨fun hz => hd (by rw [hz, CaseResult.deep_dflt]), rfl⟩)), H⟩
  | .caseE (.searched ws e), m, H => by
    simp only [Node.inner, Node.deep, SFW.inner, CaseE.deep, Node.child, deepTerms_eq, deepVEs_eq, deepWhens_eq, deepConds_eq, deepSuffixes_eq, deepItems_eq, deepTRs_eq, deepAddons_eq, deepGroup_eq, List.mem_map] at H
    rcases H with ⟨_, ⟨y, hy, rfl⟩, H⟩ | ⟨hd, H⟩
    · exact ⟨.searchedWhen y, .inl (⟨y, hy, rfl⟩), H⟩
    · exact ⟨.result e, .inr (⟨fun hz => hd (by rw [hz, CaseResult.deep_dflt]), rfl⟩), H⟩
  | .simpleWhen (.mk e r), m, H => by
    simp only [Node.inner, Node.deep, SFW.inner, SimpleWhen.deep, Node.child, deepTerms_eq, deepVEs_eq, deepWhens_eq, deepConds_eq, deepSuffixes_eq, deepItems_eq, deepTRs_eq, deepAddons_eq, deepGroup_eq, List.mem_map] at H
    rcases H with H | H
    · exact ⟨.ve e, .inl rfl, H⟩
    · exact ⟨.result r, .inr rfl, H⟩
  | .searchedWhen (.mk c r), m, H => by
    simp only [Node.inner, Node.deep, SFW.inner, SearchedWhen.deep, Node.child, deepTerms_eq, deepVEs_eq, deepWhens_eq, deepConds_eq, deepSuffixes_eq, deepItems_eq, deepTRs_eq, deepAddons_eq, deepGroup_eq, List.mem_map] at H
    rcases H with H | H
    · exact ⟨.sc c, .inl rfl, H⟩
    · exact ⟨.result r, .inr rfl, H⟩
  | .result (.str _), m, H => by simp [Node.inner, Node.deep, SFW.inner, CaseResult.deep, Node.child] at H
  | .result (.ve e), m, H => by
    simp only [Node.inner, Node.deep, SFW.inner, CaseResult.deep, Node.child, deepTerms_eq, deepVEs_eq, deepWhens_eq, deepConds_eq, deepSuffixes_eq, deepItems_eq, deepTRs_eq, deepAddons_eq, deepGroup_eq, List.mem_map] at H
    exact ⟨.ve e, rfl, H⟩
  | .sc (.factor b), m, H => by
    simp only [Node.inner, Node.deep, SFW.inner, SC.deep, Node.child, deepTerms_eq, deepVEs_eq, deepWhens_eq, deepConds_eq, deepSuffixes_eq, deepItems_eq, deepTRs_eq, deepAddons_eq, deepGroup_eq, List.mem_map] at H
    exact ⟨.bf b, rfl, H⟩
  | .sc (.term b _ s), m, H => by
    simp only [Node.inner, Node.deep, SFW.inner, SC.deep, Node.child, deepTerms_eq, deepVEs_eq, deepWhens_eq, deepConds_eq, deepSuffixes_eq, deepItems_eq, deepTRs_eq, deepAddons_eq, deepGroup_eq, List.mem_map] at H
    rcases H with H | H
    · exact ⟨.bf b, .inl rfl, H⟩
    · exact ⟨.sc s, .inr rfl, H⟩
  | .bf (.mk _ p), m, H => by
    simp only [Node.inner, Node.deep, SFW.inner, BF.deep, Node.child, deepTerms_eq, deepVEs_eq, deepWhens_eq, deepConds_eq, deepSuffixes_eq, deepItems_eq, deepTRs_eq, deepAddons_eq, deepGroup_eq, List.mem_map] at H
    exact ⟨.bp p, rfl, H⟩
  | .bp (.pred p), m, H => by
    simp only [Node.inner, Node.deep, SFW.inner, BP.deep, Node.child, deepTerms_eq, deepVEs_eq, deepWhens_eq, deepConds_eq, deepSuffixes_eq, deepItems_eq, deepTRs_eq, deepAddons_eq, deepGroup_eq, List.mem_map] at H
    exact ⟨.pred p, rfl, H⟩
  | .bp (.sc s), m, H => by
    simp only [Node.inner, Node.deep, SFW.inner, BP.deep, Node.child, deepTerms_eq, deepVEs_eq, deepWhens_eq, deepConds_eq, deepSuffixes_eq, deepItems_eq, deepTRs_eq, deepAddons_eq, deepGroup_eq, List.mem_map] at H
    exact ⟨.sc s, rfl, H⟩
  | .bp (.ve v), m, H => by
    simp only [Node.inner, Node.deep, SFW.inner, BP.deep, Node.child, deepTerms_eq, deepVEs_eq, deepWhens_eq, deepConds_eq, deepSuffixes_eq, deepItems_eq, deepTRs_eq, deepAddons_eq, deepGroup_eq, List.mem_map] at H
    exact ⟨.venb v, rfl, H⟩
  | .pred (.cmp l _ r), m, H => by
    simp only [Node.inner, Node.deep, SFW.inner, Pred.deep, Node.child, deepTerms_eq, deepVEs_eq, deepWhens_eq, deepConds_eq, deepSuffixes_eq, deepItems_eq, deepTRs_eq, deepAddons_eq, deepGroup_eq, List.mem_map] at H
    rcases H with H | H
    · exact ⟨.venb l, .inl rfl, H⟩
    · exact ⟨.ve r, .inr rfl, H⟩
  | .pred (.between v _ lo hi), m, H => by
    simp only [Node.inner, Node.deep, SFW.inner, Pred.deep, Node.child, deepTerms_eq, deepVEs_eq, deepWhens_eq, deepConds_eq, deepSuffixes_eq, deepItems_eq, deepTRs_eq, deepAddons_eq, deepGroup_eq, List.mem_map] at H
    rcases H with H | H | H
    · exact ⟨.venb v, .inl rfl, H⟩
    · exact ⟨.ve lo, .inr (.inl rfl), H⟩
    · exact ⟨.ve hi, .inr (.inr rfl), H⟩
  | .pred (.inSub v _ q), m, H => by
    simp only [Node.inner, Node.deep, SFW.inner, Pred.deep, Node.child, deepTerms_eq, deepVEs_eq, deepWhens_eq, deepConds_eq, deepSuffixes_eq, deepItems_eq, deepTRs_eq, deepAddons_eq, deepGroup_eq, List.mem_map] at H
    rcases H with H | H
    · exact ⟨.venb v, .inl rfl, H⟩
    · exact ⟨.subq q, .inr rfl, H⟩
  | .pred (.inList v _ vs), m, H => by
    simp only [Node.inner, Node.deep, SFW.inner, Pred.deep, Node.child, deepTerms_eq, deepVEs_eq, deepWhens_eq, deepConds_eq, deepSuffixes_eq, deepItems_eq, deepTRs_eq, deepAddons_eq, deepGroup_eq, List.mem_map] at H
    rcases H with H | ⟨_, ⟨y, hy, rfl⟩, H⟩
    · exact ⟨.venb v, .inl rfl, H⟩
    · exact ⟨.ve y, .inr (⟨y, hy, rfl⟩), H⟩
  | .pred (.null v _), m, H => by
    simp only [Node.inner, Node.deep, SFW.inner, Pred.deep, Node.child, deepTerms_eq, deepVEs_eq, deepWhens_eq, deepConds_eq, deepSuffixes_eq, deepItems_eq, deepTRs_eq, deepAddons_eq, deepGroup_eq, List.mem_map] at H
    exact ⟨.venb v, rfl, H⟩
  | .pred (.like v _ p), m, H => by
    simp only [Node.inner, Node.deep, SFW.inner, Pred.deep, Node.child, deepTerms_eq, deepVEs_eq, deepWhens_eq, deepConds_eq, deepSuffixes_eq, deepItems_eq, deepTRs_eq, deepAddons_eq, deepGroup_eq, List.mem_map] at H
    rcases H with H | H
    · exact ⟨.venb v, .inl rfl, H⟩
    · exact ⟨.ve p, .inr rfl, H⟩
  | .pred (.exist q), m, H => by
    simp only [Node.inner, Node.deep, SFW.inner, Pred.deep, Node.child, deepTerms_eq, deepVEs_eq, deepWhens_eq, deepConds_eq, deepSuffixes_eq, deepItems_eq, deepTRs_eq, deepAddons_eq, deepGroup_eq, List.mem_map] at H
    exact ⟨.subq q, rfl, H⟩
  | .subq (.jt j), m, H => by
    simp only [Node.inner, Node.deep, SFW.inner, Subquery.deep, Node.child, deepTerms_eq, deepVEs_eq, deepWhens_eq, deepConds_eq, deepSuffixes_eq, deepItems_eq, deepTRs_eq, deepAddons_eq, deepGroup_eq, List.mem_map] at H
    exact ⟨.jt j, rfl, H⟩
  | .subq (.qs q), m, H => by
    simp only [Node.inner, Node.deep, SFW.inner, Subquery.deep, Node.child, deepTerms_eq, deepVEs_eq, deepWhens_eq, deepConds_eq, deepSuffixes_eq, deepItems_eq, deepTRs_eq, deepAddons_eq, deepGroup_eq, List.mem_map] at H
    exact ⟨.query q, rfl, H⟩
  | .jt (.qj q), m, H => by
    simp only [Node.inner, Node.deep, SFW.inner, JT.deep, Node.child, deepTerms_eq, deepVEs_eq, deepWhens_eq, deepConds_eq, deepSuffixes_eq, deepItems_eq, deepTRs_eq, deepAddons_eq, deepGroup_eq, List.mem_map] at H
    exact ⟨.qj q, rfl, H⟩
  | .jt (.wrap j), m, H => by
    simp only [Node.inner, Node.deep, SFW.inner, JT.deep, Node.child, deepTerms_eq, deepVEs_eq, deepWhens_eq, deepConds_eq, deepSuffixes_eq, deepItems_eq, deepTRs_eq, deepAddons_eq, deepGroup_eq, List.mem_map] at H
    exact ⟨.jt j, rfl, H⟩
  | .qj (.mk h ss), m, H => by
    simp only [Node.inner, Node.deep, SFW.inner, QJ.deep, Node.child, deepTerms_eq, deepVEs_eq, deepWhens_eq, deepConds_eq, deepSuffixes_eq, deepItems_eq, deepTRs_eq, deepAddons_eq, deepGroup_eq, List.mem_map] at H
    rcases H with H | ⟨_, ⟨y, hy, rfl⟩, H⟩
    · exact ⟨.head h, .inl rfl, H⟩
    · exact ⟨.suffix y, .inr (⟨y, hy, rfl⟩), H⟩
  | .head (.tc t), m, H => by
    simp only [Node.inner, Node.deep, SFW.inner, QJHead.deep, Node.child, deepTerms_eq, deepVEs_eq, deepWhens_eq, deepConds_eq, deepSuffixes_eq, deepItems_eq, deepTRs_eq, deepAddons_eq, deepGroup_eq, List.mem_map] at H
    exact ⟨.tcorr t, rfl, H⟩
  | .head (.jt j), m, H => by
    simp only [Node.inner, Node.deep, SFW.inner, QJHead.deep, Node.child, deepTerms_eq, deepVEs_eq, deepWhens_eq, deepConds_eq, deepSuffixes_eq, deepItems_eq, deepTRs_eq, deepAddons_eq, deepGroup_eq, List.mem_map] at H
    exact ⟨.jt j, rfl, H⟩
  | .suffix (.mk _ _ t sp), m, H => by
    simp only [Node.inner, Node.deep, SFW.inner, JoinSuffix.deep, Node.child, deepTerms_eq, deepVEs_eq, deepWhens_eq, deepConds_eq, deepSuffixes_eq, deepItems_eq, deepTRs_eq, deepAddons_eq, deepGroup_eq, List.mem_map] at H
    rcases H with H | ⟨hd, H⟩
    · exact ⟨.tr t, .inl rfl, H⟩
    · exact ⟨.spec sp, .inr (⟨fun hz => hd (by rw [hz, JoinSpec.deep_dflt]), rfl⟩), H⟩
  | .spec (.named _), m, H => by simp [Node.inner, Node.deep, SFW.inner, JoinSpec.deep, Node.child] at H
  | .spec (.on s), m, H => by
    simp only [Node.inner, Node.deep, SFW.inner, JoinSpec.deep, Node.child, deepTerms_eq, deepVEs_eq, deepWhens_eq, deepConds_eq, deepSuffixes_eq, deepItems_eq, deepTRs_eq, deepAddons_eq, deepGroup_eq, List.mem_map] at H
    exact ⟨.sc s, rfl, H⟩
  | .tr (.tc t), m, H => by
    simp only [Node.inner, Node.deep, SFW.inner, TR.deep, Node.child, deepTerms_eq, deepVEs_eq, deepWhens_eq, deepConds_eq, deepSuffixes_eq, deepItems_eq, deepTRs_eq, deepAddons_eq, deepGroup_eq, List.mem_map] at H
    exact ⟨.tcorr t, rfl, H⟩
  | .tr (.jt j), m, H => by
    simp only [Node.inner, Node.deep, SFW.inner, TR.deep, Node.child, deepTerms_eq, deepVEs_eq, deepWhens_eq, deepConds_eq, deepSuffixes_eq, deepItems_eq, deepTRs_eq, deepAddons_eq, deepGroup_eq, List.mem_map] at H
    exact ⟨.jt j, rfl, H⟩
  | .tr (.derived q _), m, H => by
    simp only [Node.inner, Node.deep, SFW.inner, TR.deep, Node.child, deepTerms_eq, deepVEs_eq, deepWhens_eq, deepConds_eq, deepSuffixes_eq, deepItems_eq, deepTRs_eq, deepAddons_eq, deepGroup_eq, List.mem_map] at H
    exact ⟨.subq q, rfl, H⟩
  | .tr (.tvf _ _), m, H => by simp [Node.inner, Node.deep, SFW.inner, TR.deep, Node.child] at H
  | .gpred (.intersects e s), m, H => by
    simp only [Node.inner, Node.deep, SFW.inner, GPred.deep, Node.child, deepTerms_eq, deepVEs_eq, deepWhens_eq, deepConds_eq, deepSuffixes_eq, deepItems_eq, deepTRs_eq, deepAddons_eq, deepGroup_eq, List.mem_map] at H
    rcases H with H | H
    · exact ⟨.ve e, .inl rfl, H⟩
    · exact ⟨.shapeOrCol s, .inr rfl, H⟩
  | .gpred (.contains l r), m, H => by
    simp only [Node.inner, Node.deep, SFW.inner, GPred.deep, Node.child, deepTerms_eq, deepVEs_eq, deepWhens_eq, deepConds_eq, deepSuffixes_eq, deepItems_eq, deepTRs_eq, deepAddons_eq, deepGroup_eq, List.mem_map] at H
    rcases H with H | H
    · exact ⟨.shapeOrCol l, .inl rfl, H⟩
    · exact ⟨.shapeOrCol r, .inr rfl, H⟩
  | .geom (.left _ p), m, H => by
    simp only [Node.inner, Node.deep, SFW.inner, Geom.deep, Node.child, deepTerms_eq, deepVEs_eq, deepWhens_eq, deepConds_eq, deepSuffixes_eq, deepItems_eq, deepTRs_eq, deepAddons_eq, deepGroup_eq, List.mem_map] at H
    exact ⟨.gpred p, rfl, H⟩
  | .geom (.right p _), m, H => by
    simp only [Node.inner, Node.deep, SFW.inner, Geom.deep, Node.child, deepTerms_eq, deepVEs_eq, deepWhens_eq, deepConds_eq, deepSuffixes_eq, deepItems_eq, deepTRs_eq, deepAddons_eq, deepGroup_eq, List.mem_map] at H
    exact ⟨.gpred p, rfl, H⟩
  | .where_ (.mk g s), m, H => by
    simp only [Node.inner, Node.deep, SFW.inner, Where.deep, Node.child, deepTerms_eq, deepVEs_eq, deepWhens_eq, deepConds_eq, deepSuffixes_eq, deepItems_eq, deepTRs_eq, deepAddons_eq, deepGroup_eq, List.mem_map] at H
    rcases H with ⟨hd, H⟩ | ⟨hd, H⟩
    · exact ⟨.geom g, .inl (⟨fun hz => hd (by rw [hz, Geom.deep_dflt]), rfl⟩), H⟩
    · exact ⟨.sc s, .inr (⟨fun hz => hd (by rw [hz, SC.deep_dflt]), rfl⟩), H⟩
  | .item (.as e _), m, H => by
    simp only [Node.inner, Node.deep, SFW.inner, Item.deep, Node.child, deepTerms_eq, deepVEs_eq, deepWhens_eq, deepConds_eq, deepSuffixes_eq, deepItems_eq, deepTRs_eq, deepAddons_eq, deepGroup_eq, List.mem_map] at H
    exact ⟨.ve e, rfl, H⟩
  | .item (.nonAsStr _), m, H => by simp [Node.inner, Node.deep, SFW.inner, Item.deep, Node.child] at H
  | .item (.nonAsVE e), m, H => by
    simp only [Node.inner, Node.deep, SFW.inner, Item.deep, Node.child, deepTerms_eq, deepVEs_eq, deepWhens_eq, deepConds_eq, deepSuffixes_eq, deepItems_eq, deepTRs_eq, deepAddons_eq, deepGroup_eq, List.mem_map] at H
    exact ⟨.ve e, rfl, H⟩
  | .columns (.star _), m, H => by simp [Node.inner, Node.deep, SFW.inner, Columns.deep, Node.child] at H
  | .columns (.items l), m, H => by
    simp only [Node.inner, Node.deep, SFW.inner, Columns.deep, Node.child, deepTerms_eq, deepVEs_eq, deepWhens_eq, deepConds_eq, deepSuffixes_eq, deepItems_eq, deepTRs_eq, deepAddons_eq, deepGroup_eq, List.mem_map] at H
    obtain ⟨_, ⟨y, hy, rfl⟩, H⟩ := H
    exact ⟨.item y, ⟨y, hy, rfl⟩, H⟩
  | .select (.mk _ _ c), m, H => by
    simp only [Node.inner, Node.deep, SFW.inner, Select.deep, Node.child, deepTerms_eq, deepVEs_eq, deepWhens_eq, deepConds_eq, deepSuffixes_eq, deepItems_eq, deepTRs_eq, deepAddons_eq, deepGroup_eq, List.mem_map] at H
    exact ⟨.columns c, rfl, H⟩
  | .sfw (.mk s ts w), m, H => by
    simp only [Node.inner, Node.deep, SFW.inner, SFW.deep, Node.child, deepTerms_eq, deepVEs_eq, deepWhens_eq, deepConds_eq, deepSuffixes_eq, deepItems_eq, deepTRs_eq, deepAddons_eq, deepGroup_eq, List.mem_map] at H
    rcases H with H | ⟨_, ⟨y, hy, rfl⟩, H⟩ | ⟨hd, H⟩
    · exact ⟨.select s, .inl rfl, H⟩
    · exact ⟨.tr y, .inr (.inl (⟨y, hy, rfl⟩)), H⟩
    · exact ⟨.where_ w, .inr (.inr (⟨fun hz => hd (by rw [hz, Where.deep_dflt]), rfl⟩)), H⟩
  | .addon (.mk _ s), m, H => by
    simp only [Node.inner, Node.deep, SFW.inner, Addon.deep, Node.child, deepTerms_eq, deepVEs_eq, deepWhens_eq, deepConds_eq, deepSuffixes_eq, deepItems_eq, deepTRs_eq, deepAddons_eq, deepGroup_eq, List.mem_map] at H
    exact ⟨.sfw s, rfl, H⟩
  | .sfwList (.mk i as), m, H => by
    simp only [Node.inner, Node.deep, SFW.inner, SFWList.deep, Node.child, deepTerms_eq, deepVEs_eq, deepWhens_eq, deepConds_eq, deepSuffixes_eq, deepItems_eq, deepTRs_eq, deepAddons_eq, deepGroup_eq, List.mem_map] at H
    rcases H with H | ⟨_, ⟨y, hy, rfl⟩, H⟩
    · exact ⟨.sfw i, .inl rfl, H⟩
    · exact ⟨.addon y, .inr (⟨y, hy, rfl⟩), H⟩
  | .group (.col c), m, H => by
    simp only [Node.inner, Node.deep, SFW.inner, GroupTerm.deep, Node.child, deepTerms_eq, deepVEs_eq, deepWhens_eq, deepConds_eq, deepSuffixes_eq, deepItems_eq, deepTRs_eq, deepAddons_eq, deepGroup_eq, List.mem_map] at H
    exact ⟨.colRef c, rfl, H⟩
  | .group (.ve e), m, H => by
    simp only [Node.inner, Node.deep, SFW.inner, GroupTerm.deep, Node.child, deepTerms_eq, deepVEs_eq, deepWhens_eq, deepConds_eq, deepSuffixes_eq, deepItems_eq, deepTRs_eq, deepAddons_eq, deepGroup_eq, List.mem_map] at H
    exact ⟨.ve e, rfl, H⟩
  | .with_ (.mk _ _ q), m, H => by
    simp only [Node.inner, Node.deep, SFW.inner, With.deep, Node.child, deepTerms_eq, deepVEs_eq, deepWhens_eq, deepConds_eq, deepSuffixes_eq, deepItems_eq, deepTRs_eq, deepAddons_eq, deepGroup_eq, List.mem_map] at H
    exact ⟨.subq q, rfl, H⟩
  | .query (.mk w l g h o), m, H => by
    simp only [Node.inner, Node.deep, SFW.inner, QuerySpec.deep, Node.child, deepTerms_eq, deepVEs_eq, deepWhens_eq, deepConds_eq, deepSuffixes_eq, deepItems_eq, deepTRs_eq, deepAddons_eq, deepGroup_eq, List.mem_map] at H
    rcases H with ⟨hd, H⟩ | H | ⟨_, ⟨y, hy, rfl⟩, H⟩ | ⟨hd, H⟩ | ⟨y, hy, H⟩
    · exact ⟨.with_ w, .inl (⟨fun hz => hd (by rw [hz, With.deep_dflt]), rfl⟩), H⟩
    · exact ⟨.sfwList l, .inr (.inl rfl), H⟩
    · exact ⟨.group y, .inr (.inr (.inl (⟨y, hy, rfl⟩))), H⟩
    · exact ⟨.sc h, .inr (.inr (.inr (.inl (⟨fun hz => hd (by rw [hz, SC.deep_dflt]), rfl⟩)))), H⟩
    · exact ⟨.sort y, .inr (.inr (.inr (.inr (⟨y, hy, rfl⟩)))), H⟩
  | .sort ⟨.inl _, _⟩, m, H => by simp [Node.inner, Node.deep, SFW.inner, Node.child] at H
  | .sort ⟨.inr c, _⟩, m, H => by
    simp only [Node.inner, Node.deep, SFW.inner, Node.child, deepTerms_eq, deepVEs_eq, deepWhens_eq, deepConds_eq, deepSuffixes_eq, deepItems_eq, deepTRs_eq, deepAddons_eq, deepGroup_eq, List.mem_map] at H
    exact ⟨.colRef c, rfl, H⟩
  | .tcorr _, m, H => by simp [Node.inner, Node.deep, SFW.inner, Node.child] at H
  | .colRef _, m, H => by simp [Node.inner, Node.deep, SFW.inner, Node.child] at H
  | .coordExpr (.bae _ _ _), m, H => by simp [Node.inner, Node.deep, SFW.inner, Node.child] at H
  | .coordExpr (.col c), m, H => by
    simp only [Node.inner, Node.deep, SFW.inner, Node.child, deepTerms_eq, deepVEs_eq, deepWhens_eq, deepConds_eq, deepSuffixes_eq, deepItems_eq, deepTRs_eq, deepAddons_eq, deepGroup_eq, List.mem_map] at H
    exact ⟨.colRef c, rfl, H⟩
  | .coordExpr (.num _), m, H => by simp [Node.inner, Node.deep, SFW.inner, Node.child] at H
  | .coord c, m, H => by
    simp only [Node.inner, Node.deep, SFW.inner, Node.child, deepTerms_eq, deepVEs_eq, deepWhens_eq, deepConds_eq, deepSuffixes_eq, deepItems_eq, deepTRs_eq, deepAddons_eq, deepGroup_eq, List.mem_map] at H
    rcases H with H | H
    · exact ⟨.coordExpr (c.ra), .inl rfl, H⟩
    · exact ⟨.coordExpr (c.dec), .inr rfl, H⟩
  | .point p, m, H => by
    simp only [Node.inner, Node.deep, SFW.inner, Node.child, deepTerms_eq, deepVEs_eq, deepWhens_eq, deepConds_eq, deepSuffixes_eq, deepItems_eq, deepTRs_eq, deepAddons_eq, deepGroup_eq, List.mem_map] at H
    exact ⟨.coord (p.coord), rfl, H⟩
  | .shape (.point p), m, H => by
    simp only [Node.inner, Node.deep, SFW.inner, Node.child, deepTerms_eq, deepVEs_eq, deepWhens_eq, deepConds_eq, deepSuffixes_eq, deepItems_eq, deepTRs_eq, deepAddons_eq, deepGroup_eq, List.mem_map] at H
    exact ⟨.point p, rfl, H⟩
  | .shape (.circle _ c r), m, H => by
    simp only [Node.inner, Node.deep, SFW.inner, Node.child, deepTerms_eq, deepVEs_eq, deepWhens_eq, deepConds_eq, deepSuffixes_eq, deepItems_eq, deepTRs_eq, deepAddons_eq, deepGroup_eq, List.mem_map] at H
    rcases H with H | H
    · exact ⟨.coord c, .inl rfl, H⟩
    · exact ⟨.coordExpr r, .inr rfl, H⟩
  | .shape (.box _ c w h), m, H => by
    simp only [Node.inner, Node.deep, SFW.inner, Node.child, deepTerms_eq, deepVEs_eq, deepWhens_eq, deepConds_eq, deepSuffixes_eq, deepItems_eq, deepTRs_eq, deepAddons_eq, deepGroup_eq, List.mem_map] at H
    rcases H with H | H | H
    · exact ⟨.coord c, .inl rfl, H⟩
    · exact ⟨.coordExpr w, .inr (.inl rfl), H⟩
    · exact ⟨.coordExpr h, .inr (.inr rfl), H⟩
  | .shape (.ellipse _ c a b g), m, H => by
    simp only [Node.inner, Node.deep, SFW.inner, Node.child, deepTerms_eq, deepVEs_eq, deepWhens_eq, deepConds_eq, deepSuffixes_eq, deepItems_eq, deepTRs_eq, deepAddons_eq, deepGroup_eq, List.mem_map] at H
    rcases H with H | H | H | H
    · exact ⟨.coord c, .inl rfl, H⟩
    · exact ⟨.coordExpr a, .inr (.inl rfl), H⟩
    · exact ⟨.coordExpr b, .inr (.inr (.inl rfl)), H⟩
    · exact ⟨.coordExpr g, .inr (.inr (.inr rfl)), H⟩
  | .shape (.polygon _ cs), m, H => by
    simp only [Node.inner, Node.deep, SFW.inner, Node.child, deepTerms_eq, deepVEs_eq, deepWhens_eq, deepConds_eq, deepSuffixes_eq, deepItems_eq, deepTRs_eq, deepAddons_eq, deepGroup_eq, List.mem_map] at H
    obtain ⟨y, hy, H⟩ := H
    exact ⟨.coord y, ⟨y, hy, rfl⟩, H⟩
  | .pointOrCol (.point p), m, H => by
    simp only [Node.inner, Node.deep, SFW.inner, Node.child, deepTerms_eq, deepVEs_eq, deepWhens_eq, deepConds_eq, deepSuffixes_eq, deepItems_eq, deepTRs_eq, deepAddons_eq, deepGroup_eq, List.mem_map] at H
    exact ⟨.point p, rfl, H⟩
  | .pointOrCol (.col c), m, H => by
    simp only [Node.inner, Node.deep, SFW.inner, Node.child, deepTerms_eq, deepVEs_eq, deepWhens_eq, deepConds_eq, deepSuffixes_eq, deepItems_eq, deepTRs_eq, deepAddons_eq, deepGroup_eq, List.mem_map] at H
    exact ⟨.colRef c, rfl, H⟩
  | .shapeOrCol (.shape s), m, H => by
    simp only [Node.inner, Node.deep, SFW.inner, Node.child, deepTerms_eq, deepVEs_eq, deepWhens_eq, deepConds_eq, deepSuffixes_eq, deepItems_eq, deepTRs_eq, deepAddons_eq, deepGroup_eq, List.mem_map] at H
    exact ⟨.shape s, rfl, H⟩
  | .shapeOrCol (.col c), m, H => by
    simp only [Node.inner, Node.deep, SFW.inner, Node.child, deepTerms_eq, deepVEs_eq, deepWhens_eq, deepConds_eq, deepSuffixes_eq, deepItems_eq, deepTRs_eq, deepAddons_eq, deepGroup_eq, List.mem_map] at H
    exact ⟨.colRef c, rfl, H⟩

/-- The parts of a node are smaller. -/
theorem child_size : ∀ n m : Node, Node.child n m → sizeOf m < sizeOf n
  | .ve (.nb v), m, H => by
    simp only [Node.child] at H
    subst H
    simp <;> omega
  | .ve (.sc s), m, H => by
    simp only [Node.child] at H
    subst H
    simp <;> omega
  | .venb (.mk f0 ts), m, H => by
    simp only [Node.child] at H
    rcases H with rfl | ⟨y, hy, rfl⟩
    · simp; omega
    · have := List.sizeOf_lt_of_mem hy; simp; omega
  | .term (.mk _ f0), m, H => by
    simp only [Node.child] at H
    subst H
    simp <;> omega
  | .factor (.mk _ np), m, H => by
    simp only [Node.child] at H
    subst H
    simp <;> omega
  | .numPrim (.vep v), m, H => by
    simp only [Node.child] at H
    subst H
    simp <;> omega
  | .numPrim (.nvf f0), m, H => by
    simp only [Node.child] at H
    subst H
    simp <;> omega
  | .numFn (.trig1 _ a), m, H => by
    simp only [Node.child] at H
    subst H
    simp <;> omega
  | .numFn (.trig2 _ a b), m, H => by
    simp only [Node.child] at H
    rcases H with rfl | rfl
    · simp; omega
    · simp; omega
  | .numFn (.math0 _), m, H => H.elim
  | .numFn (.math1 _ a), m, H => by
    simp only [Node.child] at H
    subst H
    simp <;> omega
  | .numFn (.math2 _ a b), m, H => by
    simp only [Node.child] at H
    rcases H with rfl | rfl
    · simp; omega
    · simp; omega
  | .numFn (.cast e _ _), m, H => by
    simp only [Node.child] at H
    subst H
    simp <;> omega
  | .numFn (.geo1 _ a), m, H => by
    simp only [Node.child] at H
    subst H
    simp <;> omega
  | .numFn (.geo2 _ a b), m, H => by
    simp only [Node.child] at H
    rcases H with rfl | rfl
    · simp; omega
    · simp; omega
  | .numFn (.udf _ as), m, H => by
    simp only [Node.child] at H
    obtain ⟨y, hy, rfl⟩ := H
    have := List.sizeOf_lt_of_mem hy; simp; omega
  | .numFn (.str _), m, H => H.elim
  | .vep (.mk v is), m, H => by
    simp only [Node.child] at H
    rcases H with rfl | ⟨y, hy, rfl⟩
    · simp; omega
    · have := List.sizeOf_lt_of_mem hy; simp; omega
  | .prim (.arr vs), m, H => by
    simp only [Node.child] at H
    obtain ⟨y, hy, rfl⟩ := H
    have := List.sizeOf_lt_of_mem hy; simp; omega
  | .prim (.str _), m, H => H.elim
  | .prim (.col c), m, H => by
    simp only [Node.child] at H
    subst H
    simp <;> omega
  | .prim (.countStar _), m, H => H.elim
  | .prim (.setFn _ _ e), m, H => by
    simp only [Node.child] at H
    subst H
    simp <;> omega
  | .prim (.case c), m, H => by
    simp only [Node.child] at H
    subst H
    simp <;> omega
  | .prim (.any e), m, H => by
    simp only [Node.child] at H
    subst H
    simp <;> omega
  | .prim (.sub e), m, H => by
    simp only [Node.child] at H
    subst H
    simp <;> omega
  | .caseE (.nullif a b), m, H => by
    simp only [Node.child] at H
    rcases H with rfl | rfl
    · simp; omega
    · simp; omega
  | .caseE (.coalesce l), m, H => by
    simp only [Node.child] at H
    obtain ⟨y, hy, rfl⟩ := H
    have := List.sizeOf_lt_of_mem hy; simp; omega
  | .caseE (.simple o ws e), m, H => by
    simp only [Node.child] at H
    rcases H with rfl | ⟨y, hy, rfl⟩ | ⟨-, rfl⟩
    · simp; omega
    · have := List.sizeOf_lt_of_mem hy; simp; omega
    · simp; omega
  | .caseE (.searched ws e), m, H => by
    simp only [Node.child] at H
    rcases H with ⟨y, hy, rfl⟩ | ⟨-, rfl⟩
    · have := List.sizeOf_lt_of_mem hy; simp; omega
    · simp; omega
  | .simpleWhen (.mk e r), m, H => by
    simp only [Node.child] at H
    rcases H with rfl | rfl
    · simp; omega
    · simp; omega
  | .searchedWhen (.mk c r), m, H => by
    simp only [Node.child] at H
    rcases H with rfl | rfl
    · simp; omega
    · simp; omega
  | .result (.str _), m, H => H.elim
  | .result (.ve e), m, H => by
    simp only [Node.child] at H
    subst H
    simp <;> omega
  | .sc (.factor b), m, H => by
    simp only [Node.child] at H
    subst H
    simp <;> omega
  | .sc (.term b _ s), m, H => by
    simp only [Node.child] at H
    rcases H with rfl | rfl
    · simp; omega
    · simp; omega
  | .bf (.mk _ p), m, H => by
    simp only [Node.child] at H
    subst H
    simp <;> omega
  | .bp (.pred p), m, H => by
    simp only [Node.child] at H
    subst H
    simp <;> omega
  | .bp (.sc s), m, H => by
    simp only [Node.child] at H
    subst H
    simp <;> omega
  | .bp (.ve v), m, H => by
    simp only [Node.child] at H
    subst H
    simp <;> omega
  | .pred (.cmp l _ r), m, H => by
    simp only [Node.child] at H
    rcases H with rfl | rfl
    · simp; omega
    · simp; omega
  | .pred (.between v _ lo hi), m, H => by
    simp only [Node.child] at H
    rcases H with rfl | rfl | rfl
    · simp; omega
    · simp; omega
    · simp; omega
  | .pred (.inSub v _ q), m, H => by
    simp only [Node.child] at H
    rcases H with rfl | rfl
    · simp; omega
    · simp; omega
  | .pred (.inList v _ vs), m, H => by
    simp only [Node.child] at H
    rcases H with rfl | ⟨y, hy, rfl⟩
    · simp; omega
    · have := List.sizeOf_lt_of_mem hy; simp; omega
  | .pred (.null v _), m, H => by
    simp only [Node.child] at H
    subst H
    simp <;> omega
  | .pred (.like v _ p), m, H => by
    simp only [Node.child] at H
    rcases H with rfl | rfl
    · simp; omega
    · simp; omega
  | .pred (.exist q), m, H => by
    simp only [Node.child] at H
    subst H
    simp <;> omega
  | .subq (.jt j), m, H => by
    simp only [Node.child] at H
    subst H
    simp <;> omega
  | .subq (.qs q), m, H => by
    simp only [Node.child] at H
    subst H
    simp <;> omega
  | .jt (.qj q), m, H => by
    simp only [Node.child] at H
    subst H
    simp <;> omega
  | .jt (.wrap j), m, H => by
    simp only [Node.child] at H
    subst H
    simp <;> omega
  | .qj (.mk h ss), m, H => by
    simp only [Node.child] at H
    rcases H with rfl | ⟨y, hy, rfl⟩
    · simp; omega
    · have := List.sizeOf_lt_of_mem hy; simp; omega
  | .head (.tc t), m, H => by
    simp only [Node.child] at H
    subst H
    simp <;> omega
  | .head (.jt j), m, H => by
    simp only [Node.child] at H
    subst H
    simp <;> omega
  | .suffix (.mk _ _ t sp), m, H => by
    simp only [Node.child] at H
    rcases H with rfl | ⟨-, rfl⟩
    · simp; omega
    · simp; omega
  | .spec (.named _), m, H => H.elim
  | .spec (.on s), m, H => by
    simp only [Node.child] at H
    subst H
    simp <;> omega
  | .tr (.tc t), m, H => by
    simp only [Node.child] at H
    subst H
    simp <;> omega
  | .tr (.jt j), m, H => by
    simp only [Node.child] at H
    subst H
    simp <;> omega
  | .tr (.derived q _), m, H => by
    simp only [Node.child] at H
    subst H
    simp <;> omega
  | .tr (.tvf _ _), m, H => H.elim
  | .gpred (.intersects e s), m, H => by
    simp only [Node.child] at H
    rcases H with rfl | rfl
    · simp; omega
    · simp; omega
  | .gpred (.contains l r), m, H => by
    simp only [Node.child] at H
    rcases H with rfl | rfl
    · simp; omega
    · simp; omega
  | .geom (.left _ p), m, H => by
    simp only [Node.child] at H
    subst H
    simp <;> omega
  | .geom (.right p _), m, H => by
    simp only [Node.child] at H
    subst H
    simp <;> omega
  | .where_ (.mk g s), m, H => by
    simp only [Node.child] at H
    rcases H with ⟨-, rfl⟩ | ⟨-, rfl⟩
    · simp; omega
    · simp; omega
  | .item (.as e _), m, H => by
    simp only [Node.child] at H
    subst H
    simp <;> omega
  | .item (.nonAsStr _), m, H => H.elim
  | .item (.nonAsVE e), m, H => by
    simp only [Node.child] at H
    subst H
    simp <;> omega
  | .columns (.star _), m, H => H.elim
  | .columns (.items l), m, H => by
    simp only [Node.child] at H
    obtain ⟨y, hy, rfl⟩ := H
    have := List.sizeOf_lt_of_mem hy; simp; omega
  | .select (.mk _ _ c), m, H => by
    simp only [Node.child] at H
    subst H
    simp <;> omega
  | .sfw (.mk s ts w), m, H => by
    simp only [Node.child] at H
    rcases H with rfl | ⟨y, hy, rfl⟩ | ⟨-, rfl⟩
    · simp; omega
    · have := List.sizeOf_lt_of_mem hy; simp; omega
    · simp; omega
  | .addon (.mk _ s), m, H => by
    simp only [Node.child] at H
    subst H
    simp <;> omega
  | .sfwList (.mk i as), m, H => by
    simp only [Node.child] at H
    rcases H with rfl | ⟨y, hy, rfl⟩
    · simp; omega
    · have := List.sizeOf_lt_of_mem hy; simp; omega
  | .group (.col c), m, H => by
    simp only [Node.child] at H
    subst H
    simp <;> omega
  | .group (.ve e), m, H => by
    simp only [Node.child] at H
    subst H
    simp <;> omega
  | .with_ (.mk _ _ q), m, H => by
    simp only [Node.child] at H
    subst H
    simp <;> omega
  | .query (.mk w l g h o), m, H => by
    simp only [Node.child] at H
    rcases H with ⟨-, rfl⟩ | rfl | ⟨y, hy, rfl⟩ | ⟨-, rfl⟩ | ⟨y, hy, rfl⟩
    · simp; omega
    · simp; omega
    · have := List.sizeOf_lt_of_mem hy; simp; omega
    · simp; omega
    · have := List.sizeOf_lt_of_mem hy; simp; omega
  | .sort ⟨.inl _, _⟩, m, H => H.elim
  | .sort ⟨.inr c, _⟩, m, H => by
    simp only [Node.child] at H
    subst H
    simp <;> omega
  | .tcorr _, m, H => H.elim
  | .colRef _, m, H => H.elim
  | .coordExpr (.bae _ _ _), m, H => H.elim
  | .coordExpr (.col c), m, H => by
    simp only [Node.child] at H
    subst H
    simp <;> omega
  | .coordExpr (.num _), m, H => H.elim
  | .coord c, m, H => by
    simp only [Node.child] at H
    cases c
    rcases H with rfl | rfl <;> simp <;> omega
  | .point p, m, H => by
    simp only [Node.child] at H
    subst H
    cases p; simp; try omega
  | .shape (.point p), m, H => by
    simp only [Node.child] at H
    subst H
    simp <;> omega
  | .shape (.circle _ c r), m, H => by
    simp only [Node.child] at H
    rcases H with rfl | rfl
    · simp; omega
    · simp; omega
  | .shape (.box _ c w h), m, H => by
    simp only [Node.child] at H
    rcases H with rfl | rfl | rfl
    · simp; omega
    · simp; omega
    · simp; omega
  | .shape (.ellipse _ c a b g), m, H => by
    simp only [Node.child] at H
    rcases H with rfl | rfl | rfl | rfl
    · simp; omega
    · simp; omega
    · simp; omega
    · simp; omega
  | .shape (.polygon _ cs), m, H => by
    simp only [Node.child] at H
    obtain ⟨y, hy, rfl⟩ := H
    have := List.sizeOf_lt_of_mem hy; simp; omega
  | .pointOrCol (.point p), m, H => by
    simp only [Node.child] at H
    subst H
    simp <;> omega
  | .pointOrCol (.col c), m, H => by
    simp only [Node.child] at H
    subst H
    simp <;> omega
  | .shapeOrCol (.shape s), m, H => by
    simp only [Node.child] at H
    subst H
    simp <;> omega
  | .shapeOrCol (.col c), m, H => by
    simp only [Node.child] at H
    subst H
    simp <;> omega

/-- What follows for every changed node from its parts holds of the whole changed tree. -/
theorem deep_all {K K' : Node → Prop} (hn : ∀ n, All K n → K' (n.inner f))
    (hf : ∀ s, All K' (.sfw s) → All K' (.sfw (f s))) : ∀ n : Node, All K n → All K' (n.deep f) := by
  intro n
  induction hk : sizeOf n using Nat.strongRecOn generalizing n with
  | ind k ih =>
    subst hk
    intro h
    have hi : All K' (n.inner f) := by
      refine all_iff.2 ⟨hn n h, fun m hm => ?_⟩
      obtain ⟨c, hc, rfl⟩ := inner_child n m hm
      exact ih _ (child_size _ _ hc) c rfl (h.sub hc)
    cases n with
    | sfw s =>
      simp only [Node.deep, SFW.deep_eq]
      exact hf _ hi
    | _ => exact hi

end Adql
