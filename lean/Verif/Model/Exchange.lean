import Verif.Spec.Exchange
import Verif.Model.Reach

/-!
# Lemmas about exchanged names
-/

namespace Adql

open Spec

variable {x : Exchange}

set_option linter.unusedSimpArgs false


theorem exchTerms_eq : ∀ l : List Term, exchTerms x l = l.map (Term.exch x)
  | [] => by simp only [exchTerms, List.map_nil]
  | a :: l => by simp only [exchTerms, List.map_cons, exchTerms_eq l]

theorem exchVEs_eq : ∀ l : List VE, exchVEs x l = l.map (VE.exch x)
  | [] => by simp only [exchVEs, List.map_nil]
  | a :: l => by simp only [exchVEs, List.map_cons, exchVEs_eq l]

theorem exchWhens_eq : ∀ l : List SimpleWhen, exchWhens x l = l.map (SimpleWhen.exch x)
  | [] => by simp only [exchWhens, List.map_nil]
  | a :: l => by simp only [exchWhens, List.map_cons, exchWhens_eq l]

theorem exchConds_eq : ∀ l : List SearchedWhen, exchConds x l = l.map (SearchedWhen.exch x)
  | [] => by simp only [exchConds, List.map_nil]
  | a :: l => by simp only [exchConds, List.map_cons, exchConds_eq l]

theorem exchSuffixes_eq : ∀ l : List JoinSuffix, exchSuffixes x l = l.map (JoinSuffix.exch x)
  | [] => by simp only [exchSuffixes, List.map_nil]
  | a :: l => by simp only [exchSuffixes, List.map_cons, exchSuffixes_eq l]

theorem exchItems_eq : ∀ l : List Item, exchItems x l = l.map (Item.exch x)
  | [] => by simp only [exchItems, List.map_nil]
  | a :: l => by simp only [exchItems, List.map_cons, exchItems_eq l]

theorem exchTRs_eq : ∀ l : List TR, exchTRs x l = l.map (TR.exch x)
  | [] => by simp only [exchTRs, List.map_nil]
  | a :: l => by simp only [exchTRs, List.map_cons, exchTRs_eq l]

theorem exchAddons_eq : ∀ l : List Addon, exchAddons x l = l.map (Addon.exch x)
  | [] => by simp only [exchAddons, List.map_nil]
  | a :: l => by simp only [exchAddons, List.map_cons, exchAddons_eq l]

theorem exchGroup_eq : ∀ l : List GroupTerm, exchGroup x l = l.map (GroupTerm.exch x)
  | [] => by simp only [exchGroup, List.map_nil]
  | a :: l => by simp only [exchGroup, List.map_cons, exchGroup_eq l]

theorem SC.exch_dflt : SC.dflt.exch x = SC.dflt := by
  simp [VEP.dflt, VENB.dflt, VE.dflt, SC.dflt, CaseResult.dflt, JoinSpec.dflt, Subquery.dflt, Geom.dflt, Where.dflt, With.dflt, VE.exch, VENB.exch, exchTerms, Factor.exch, NumPrim.exch, VEP.exch, Prim.exch, exchVEs, SC.exch, BF.exch, BP.exch, Pred.exch, CaseResult.exch, JoinSpec.exch, Subquery.exch, JT.exch, QJ.exch, QJHead.exch, exchSuffixes, TableCorr.exch, Geom.exch, GPred.exch, ShapeOrCol.exch, Shape.exch, Point.exch, Coord.exch, CoordExpr.exch, Where.exch, With.exch]

theorem CaseResult.exch_dflt : CaseResult.dflt.exch x = CaseResult.dflt := by
  simp [VEP.dflt, VENB.dflt, VE.dflt, SC.dflt, CaseResult.dflt, JoinSpec.dflt, Subquery.dflt, Geom.dflt, Where.dflt, With.dflt, VE.exch, VENB.exch, exchTerms, Factor.exch, NumPrim.exch, VEP.exch, Prim.exch, exchVEs, SC.exch, BF.exch, BP.exch, Pred.exch, CaseResult.exch, JoinSpec.exch, Subquery.exch, JT.exch, QJ.exch, QJHead.exch, exchSuffixes, TableCorr.exch, Geom.exch, GPred.exch, ShapeOrCol.exch, Shape.exch, Point.exch, Coord.exch, CoordExpr.exch, Where.exch, With.exch]

theorem JoinSpec.exch_dflt : JoinSpec.dflt.exch x = JoinSpec.dflt := by
  simp [VEP.dflt, VENB.dflt, VE.dflt, SC.dflt, CaseResult.dflt, JoinSpec.dflt, Subquery.dflt, Geom.dflt, Where.dflt, With.dflt, VE.exch, VENB.exch, exchTerms, Factor.exch, NumPrim.exch, VEP.exch, Prim.exch, exchVEs, SC.exch, BF.exch, BP.exch, Pred.exch, CaseResult.exch, JoinSpec.exch, Subquery.exch, JT.exch, QJ.exch, QJHead.exch, exchSuffixes, TableCorr.exch, Geom.exch, GPred.exch, ShapeOrCol.exch, Shape.exch, Point.exch, Coord.exch, CoordExpr.exch, Where.exch, With.exch]

theorem Geom.exch_dflt : Geom.dflt.exch x = Geom.dflt := by
  simp [VEP.dflt, VENB.dflt, VE.dflt, SC.dflt, CaseResult.dflt, JoinSpec.dflt, Subquery.dflt, Geom.dflt, Where.dflt, With.dflt, VE.exch, VENB.exch, exchTerms, Factor.exch, NumPrim.exch, VEP.exch, Prim.exch, exchVEs, SC.exch, BF.exch, BP.exch, Pred.exch, CaseResult.exch, JoinSpec.exch, Subquery.exch, JT.exch, QJ.exch, QJHead.exch, exchSuffixes, TableCorr.exch, Geom.exch, GPred.exch, ShapeOrCol.exch, Shape.exch, Point.exch, Coord.exch, CoordExpr.exch, Where.exch, With.exch]

theorem Where.exch_dflt : Where.dflt.exch x = Where.dflt := by
  simp [VEP.dflt, VENB.dflt, VE.dflt, SC.dflt, CaseResult.dflt, JoinSpec.dflt, Subquery.dflt, Geom.dflt, Where.dflt, With.dflt, VE.exch, VENB.exch, exchTerms, Factor.exch, NumPrim.exch, VEP.exch, Prim.exch, exchVEs, SC.exch, BF.exch, BP.exch, Pred.exch, CaseResult.exch, JoinSpec.exch, Subquery.exch, JT.exch, QJ.exch, QJHead.exch, exchSuffixes, TableCorr.exch, Geom.exch, GPred.exch, ShapeOrCol.exch, Shape.exch, Point.exch, Coord.exch, CoordExpr.exch, Where.exch, With.exch]

theorem With.exch_dflt : With.dflt.exch x = With.dflt := by
  simp [VEP.dflt, VENB.dflt, VE.dflt, SC.dflt, CaseResult.dflt, JoinSpec.dflt, Subquery.dflt, Geom.dflt, Where.dflt, With.dflt, VE.exch, VENB.exch, exchTerms, Factor.exch, NumPrim.exch, VEP.exch, Prim.exch, exchVEs, SC.exch, BF.exch, BP.exch, Pred.exch, CaseResult.exch, JoinSpec.exch, Subquery.exch, JT.exch, QJ.exch, QJHead.exch, exchSuffixes, TableCorr.exch, Geom.exch, GPred.exch, ShapeOrCol.exch, Shape.exch, Point.exch, Coord.exch, CoordExpr.exch, Where.exch, With.exch]

/-- The parts of a tree with exchanged names are the parts of the tree, with exchanged names. -/
theorem exch_child : ∀ n m : Node, Node.child (n.exch x) m → ∃ c, Node.child n c ∧ m = c.exch x
  | .ve (.nb v), m, H => by
    simp only [Node.exch, VE.exch, Node.child, exchTerms_eq, exchVEs_eq, exchWhens_eq, exchConds_eq, exchSuffixes_eq, exchItems_eq, exchTRs_eq, exchAddons_eq, exchGroup_eq, List.mem_map] at H
    exact ⟨.venb v, rfl, H⟩
  | .ve (.sc s), m, H => by
    simp only [Node.exch, VE.exch, Node.child, exchTerms_eq, exchVEs_eq, exchWhens_eq, exchConds_eq, exchSuffixes_eq, exchItems_eq, exchTRs_eq, exchAddons_eq, exchGroup_eq, List.mem_map] at H
    exact ⟨.sc s, rfl, H⟩
  | .venb (.mk f ts), m, H => by
    simp only [Node.exch, VENB.exch, Node.child, exchTerms_eq, exchVEs_eq, exchWhens_eq, exchConds_eq, exchSuffixes_eq, exchItems_eq, exchTRs_eq, exchAddons_eq, exchGroup_eq, List.mem_map] at H
    rcases H with H | ⟨_, ⟨y, hy, rfl⟩, H⟩
    · exact ⟨.factor f, .inl rfl, H⟩
    · exact ⟨.term y, .inr (⟨y, hy, rfl⟩), H⟩
  | .term (.mk _ f), m, H => by
    simp only [Node.exch, Term.exch, Node.child, exchTerms_eq, exchVEs_eq, exchWhens_eq, exchConds_eq, exchSuffixes_eq, exchItems_eq, exchTRs_eq, exchAddons_eq, exchGroup_eq, List.mem_map] at H
    exact ⟨.factor f, rfl, H⟩
  | .factor (.mk _ np), m, H => by
    simp only [Node.exch, Factor.exch, Node.child, exchTerms_eq, exchVEs_eq, exchWhens_eq, exchConds_eq, exchSuffixes_eq, exchItems_eq, exchTRs_eq, exchAddons_eq, exchGroup_eq, List.mem_map] at H
    exact ⟨.numPrim np, rfl, H⟩
  | .numPrim (.vep v), m, H => by
    simp only [Node.exch, NumPrim.exch, Node.child, exchTerms_eq, exchVEs_eq, exchWhens_eq, exchConds_eq, exchSuffixes_eq, exchItems_eq, exchTRs_eq, exchAddons_eq, exchGroup_eq, List.mem_map] at H
    exact ⟨.vep v, rfl, H⟩
  | .numPrim (.nvf f), m, H => by
    simp only [Node.exch, NumPrim.exch, Node.child, exchTerms_eq, exchVEs_eq, exchWhens_eq, exchConds_eq, exchSuffixes_eq, exchItems_eq, exchTRs_eq, exchAddons_eq, exchGroup_eq, List.mem_map] at H
    exact ⟨.numFn f, rfl, H⟩
  | .numFn (.trig1 _ a), m, H => by
    simp only [Node.exch, NumFn.exch, Node.child, exchTerms_eq, exchVEs_eq, exchWhens_eq, exchConds_eq, exchSuffixes_eq, exchItems_eq, exchTRs_eq, exchAddons_eq, exchGroup_eq, List.mem_map] at H
    exact ⟨.ve a, rfl, H⟩
  | .numFn (.trig2 _ a b), m, H => by
    simp only [Node.exch, NumFn.exch, Node.child, exchTerms_eq, exchVEs_eq, exchWhens_eq, exchConds_eq, exchSuffixes_eq, exchItems_eq, exchTRs_eq, exchAddons_eq, exchGroup_eq, List.mem_map] at H
    rcases H with H | H
    · exact ⟨.ve a, .inl rfl, H⟩
    · exact ⟨.ve b, .inr rfl, H⟩
  | .numFn (.math0 _), m, H => by simp [Node.exch, NumFn.exch, Node.child] at H
  | .numFn (.math1 _ a), m, H => by
    simp only [Node.exch, NumFn.exch, Node.child, exchTerms_eq, exchVEs_eq, exchWhens_eq, exchConds_eq, exchSuffixes_eq, exchItems_eq, exchTRs_eq, exchAddons_eq, exchGroup_eq, List.mem_map] at H
    exact ⟨.ve a, rfl, H⟩
  | .numFn (.math2 _ a b), m, H => by
    simp only [Node.exch, NumFn.exch, Node.child, exchTerms_eq, exchVEs_eq, exchWhens_eq, exchConds_eq, exchSuffixes_eq, exchItems_eq, exchTRs_eq, exchAddons_eq, exchGroup_eq, List.mem_map] at H
    rcases H with H | H
    · exact ⟨.ve a, .inl rfl, H⟩
    · exact ⟨.ve b, .inr rfl, H⟩
  | .numFn (.cast e _ _), m, H => by
    simp only [Node.exch, NumFn.exch, Node.child, exchTerms_eq, exchVEs_eq, exchWhens_eq, exchConds_eq, exchSuffixes_eq, exchItems_eq, exchTRs_eq, exchAddons_eq, exchGroup_eq, List.mem_map] at H
    exact ⟨.ve e, rfl, H⟩
  | .numFn (.geo1 _ a), m, H => by
    simp only [Node.exch, NumFn.exch, Node.child, exchTerms_eq, exchVEs_eq, exchWhens_eq, exchConds_eq, exchSuffixes_eq, exchItems_eq, exchTRs_eq, exchAddons_eq, exchGroup_eq, List.mem_map] at H
    exact ⟨.pointOrCol a, rfl, H⟩
  | .numFn (.geo2 _ a b), m, H => by
    simp only [Node.exch, NumFn.exch, Node.child, exchTerms_eq, exchVEs_eq, exchWhens_eq, exchConds_eq, exchSuffixes_eq, exchItems_eq, exchTRs_eq, exchAddons_eq, exchGroup_eq, List.mem_map] at H
    rcases H with H | H
    · exact ⟨.pointOrCol a, .inl rfl, H⟩
    · exact ⟨.pointOrCol b, .inr rfl, H⟩
  | .numFn (.udf _ as), m, H => by
    simp only [Node.exch, NumFn.exch, Node.child, exchTerms_eq, exchVEs_eq, exchWhens_eq, exchConds_eq, exchSuffixes_eq, exchItems_eq, exchTRs_eq, exchAddons_eq, exchGroup_eq, List.mem_map] at H
    obtain ⟨_, ⟨y, hy, rfl⟩, H⟩ := H
    exact ⟨.ve y, ⟨y, hy, rfl⟩, H⟩
  | .numFn (.str _), m, H => by simp [Node.exch, NumFn.exch, Node.child] at H
  | .vep (.mk v is), m, H => by
    simp only [Node.exch, VEP.exch, Node.child, exchTerms_eq, exchVEs_eq, exchWhens_eq, exchConds_eq, exchSuffixes_eq, exchItems_eq, exchTRs_eq, exchAddons_eq, exchGroup_eq, List.mem_map] at H
    rcases H with H | ⟨_, ⟨y, hy, rfl⟩, H⟩
    · exact ⟨.prim v, .inl rfl, H⟩
    · exact ⟨.ve y, .inr (⟨y, hy, rfl⟩), H⟩
  | .prim (.arr vs), m, H => by
    simp only [Node.exch, Prim.exch, Node.child, exchTerms_eq, exchVEs_eq, exchWhens_eq, exchConds_eq, exchSuffixes_eq, exchItems_eq, exchTRs_eq, exchAddons_eq, exchGroup_eq, List.mem_map] at H
    obtain ⟨_, ⟨y, hy, rfl⟩, H⟩ := H
    exact ⟨.ve y, ⟨y, hy, rfl⟩, H⟩
  | .prim (.str _), m, H => by simp [Node.exch, Prim.exch, Node.child] at H
  | .prim (.col c), m, H => by
    simp only [Node.exch, Prim.exch, Node.child, exchTerms_eq, exchVEs_eq, exchWhens_eq, exchConds_eq, exchSuffixes_eq, exchItems_eq, exchTRs_eq, exchAddons_eq, exchGroup_eq, List.mem_map] at H
    exact ⟨.colRef c, rfl, H⟩
  | .prim (.countStar _), m, H => by simp [Node.exch, Prim.exch, Node.child] at H
  | .prim (.setFn _ _ e), m, H => by
    simp only [Node.exch, Prim.exch, Node.child, exchTerms_eq, exchVEs_eq, exchWhens_eq, exchConds_eq, exchSuffixes_eq, exchItems_eq, exchTRs_eq, exchAddons_eq, exchGroup_eq, List.mem_map] at H
    exact ⟨.ve e, rfl, H⟩
  | .prim (.case c), m, H => by
    simp only [Node.exch, Prim.exch, Node.child, exchTerms_eq, exchVEs_eq, exchWhens_eq, exchConds_eq, exchSuffixes_eq, exchItems_eq, exchTRs_eq, exchAddons_eq, exchGroup_eq, List.mem_map] at H
    exact ⟨.caseE c, rfl, H⟩
  | .prim (.any e), m, H => by
    simp only [Node.exch, Prim.exch, Node.child, exchTerms_eq, exchVEs_eq, exchWhens_eq, exchConds_eq, exchSuffixes_eq, exchItems_eq, exchTRs_eq, exchAddons_eq, exchGroup_eq, List.mem_map] at H
    exact ⟨.ve e, rfl, H⟩
  | .prim (.sub e), m, H => by
    simp only [Node.exch, Prim.exch, Node.child, exchTerms_eq, exchVEs_eq, exchWhens_eq, exchConds_eq, exchSuffixes_eq, exchItems_eq, exchTRs_eq, exchAddons_eq, exchGroup_eq, List.mem_map] at H
    exact ⟨.ve e, rfl, H⟩
  | .caseE (.nullif a b), m, H => by
    simp only [Node.exch, CaseE.exch, Node.child, exchTerms_eq, exchVEs_eq, exchWhens_eq, exchConds_eq, exchSuffixes_eq, exchItems_eq, exchTRs_eq, exchAddons_eq, exchGroup_eq, List.mem_map] at H
    rcases H with H | H
    · exact ⟨.ve a, .inl rfl, H⟩
    · exact ⟨.ve b, .inr rfl, H⟩
  | .caseE (.coalesce l), m, H => by
    simp only [Node.exch, CaseE.exch, Node.child, exchTerms_eq, exchVEs_eq, exchWhens_eq, exchConds_eq, exchSuffixes_eq, exchItems_eq, exchTRs_eq, exchAddons_eq, exchGroup_eq, List.mem_map] at H
    obtain ⟨_, ⟨y, hy, rfl⟩, H⟩ := H
    exact ⟨.ve y, ⟨y, hy, rfl⟩, H⟩
  | .caseE (.simple o ws e), m, H => by
    simp only [Node.exch, CaseE.exch, Node.child, exchTerms_eq, exchVEs_eq, exchWhens_eq, exchConds_eq, exchSuffixes_eq, exchItems_eq, exchTRs_eq, exchAddons_eq, exchGroup_eq, List.mem_map] at H
    rcases H with H | ⟨_, ⟨y, hy, rfl⟩, H⟩ | ⟨hd, H⟩
    · exact ⟨.ve o, .inl rfl, H⟩
    · exact ⟨.simpleWhen y, .inr (.inl (⟨y, hy, rfl⟩)), H⟩
    · exact ⟨.result e, .inr (.inr (⟨fun hz => hd (by rw [hz, CaseResult.exch_dflt]), rfl⟩)), H⟩
  | .caseE (.searched ws e), m, H => by
    simp only [Node.exch, CaseE.exch, Node.child, exchTerms_eq, exchVEs_eq, exchWhens_eq, exchConds_eq, exchSuffixes_eq, exchItems_eq, exchTRs_eq, exchAddons_eq, exchGroup_eq, List.mem_map] at H
    rcases H with ⟨_, ⟨y, hy, rfl⟩, H⟩ | ⟨hd, H⟩
    · exact ⟨.searchedWhen y, .inl (⟨y, hy, rfl⟩), H⟩
    · exact ⟨.result e, .inr (⟨fun hz => hd (by rw [hz, CaseResult.exch_dflt]), rfl⟩), H⟩
  | .simpleWhen (.mk e r), m, H => by
    simp only [Node.exch, SimpleWhen.exch, Node.child, exchTerms_eq, exchVEs_eq, exchWhens_eq, exchConds_eq, exchSuffixes_eq, exchItems_eq, exchTRs_eq, exchAddons_eq, exchGroup_eq, List.mem_map] at H
    rcases H with H | H
    · exact ⟨.ve e, .inl rfl, H⟩
    · exact ⟨.result r, .inr rfl, H⟩
  | .searchedWhen (.mk c r), m, H => by
    simp only [Node.exch, SearchedWhen.exch, Node.child, exchTerms_eq, exchVEs_eq, exchWhens_eq, exchConds_eq, exchSuffixes_eq, exchItems_eq, exchTRs_eq, exchAddons_eq, exchGroup_eq, List.mem_map] at H
    rcases H with H | H
    · exact ⟨.sc c, .inl rfl, H⟩
    · exact ⟨.result r, .inr rfl, H⟩
  | .result (.str _), m, H => by simp [Node.exch, CaseResult.exch, Node.child] at H
  | .result (.ve e), m, H => by
    simp only [Node.exch, CaseResult.exch, Node.child, exchTerms_eq, exchVEs_eq, exchWhens_eq, exchConds_eq, exchSuffixes_eq, exchItems_eq, exchTRs_eq, exchAddons_eq, exchGroup_eq, List.mem_map] at H
    exact ⟨.ve e, rfl, H⟩
  | .sc (.factor b), m, H => by
    simp only [Node.exch, SC.exch, Node.child, exchTerms_eq, exchVEs_eq, exchWhens_eq, exchConds_eq, exchSuffixes_eq, exchItems_eq, exchTRs_eq, exchAddons_eq, exchGroup_eq, List.mem_map] at H
    exact ⟨.bf b, rfl, H⟩
  | .sc (.term b _ s), m, H => by
    simp only [Node.exch, SC.exch, Node.child, exchTerms_eq, exchVEs_eq, exchWhens_eq, exchConds_eq, exchSuffixes_eq, exchItems_eq, exchTRs_eq, exchAddons_eq, exchGroup_eq, List.mem_map] at H
    rcases H with H | H
    · exact ⟨.bf b, .inl rfl, H⟩
    · exact ⟨.sc s, .inr rfl, H⟩
  | .bf (.mk _ p), m, H => by
    simp only [Node.exch, BF.exch, Node.child, exchTerms_eq, exchVEs_eq, exchWhens_eq, exchConds_eq, exchSuffixes_eq, exchItems_eq, exchTRs_eq, exchAddons_eq, exchGroup_eq, List.mem_map] at H
    exact ⟨.bp p, rfl, H⟩
  | .bp (.pred p), m, H => by
    simp only [Node.exch, BP.exch, Node.child, exchTerms_eq, exchVEs_eq, exchWhens_eq, exchConds_eq, exchSuffixes_eq, exchItems_eq, exchTRs_eq, exchAddons_eq, exchGroup_eq, List.mem_map] at H
    exact ⟨.pred p, rfl, H⟩
  | .bp (.sc s), m, H => by
    simp only [Node.exch, BP.exch, Node.child, exchTerms_eq, exchVEs_eq, exchWhens_eq, exchConds_eq, exchSuffixes_eq, exchItems_eq, exchTRs_eq, exchAddons_eq, exchGroup_eq, List.mem_map] at H
    exact ⟨.sc s, rfl, H⟩
  | .bp (.ve v), m, H => by
    simp only [Node.exch, BP.exch, Node.child, exchTerms_eq, exchVEs_eq, exchWhens_eq, exchConds_eq, exchSuffixes_eq, exchItems_eq, exchTRs_eq, exchAddons_eq, exchGroup_eq, List.mem_map] at H
    exact ⟨.venb v, rfl, H⟩
  | .pred (.cmp l _ r), m, H => by
    simp only [Node.exch, Pred.exch, Node.child, exchTerms_eq, exchVEs_eq, exchWhens_eq, exchConds_eq, exchSuffixes_eq, exchItems_eq, exchTRs_eq, exchAddons_eq, exchGroup_eq, List.mem_map] at H
    rcases H with H | H
    · exact ⟨.venb l, .inl rfl, H⟩
    · exact ⟨.ve r, .inr rfl, H⟩
  | .pred (.between v _ lo hi), m, H => by
    simp only [Node.exch, Pred.exch, Node.child, exchTerms_eq, exchVEs_eq, exchWhens_eq, exchConds_eq, exchSuffixes_eq, exchItems_eq, exchTRs_eq, exchAddons_eq, exchGroup_eq, List.mem_map] at H
    rcases H with H | H | H
    · exact ⟨.venb v, .inl rfl, H⟩
    · exact ⟨.ve lo, .inr (.inl rfl), H⟩
    · exact ⟨.ve hi, .inr (.inr rfl), H⟩
  | .pred (.inSub v _ q), m, H => by
    simp only [Node.exch, Pred.exch, Node.child, exchTerms_eq, exchVEs_eq, exchWhens_eq, exchConds_eq, exchSuffixes_eq, exchItems_eq, exchTRs_eq, exchAddons_eq, exchGroup_eq, List.mem_map] at H
    rcases H with H | H
    · exact ⟨.venb v, .inl rfl, H⟩
    · exact ⟨.subq q, .inr rfl, H⟩
  | .pred (.inList v _ vs), m, H => by
    simp only [Node.exch, Pred.exch, Node.child, exchTerms_eq, exchVEs_eq, exchWhens_eq, exchConds_eq, exchSuffixes_eq, exchItems_eq, exchTRs_eq, exchAddons_eq, exchGroup_eq, List.mem_map] at H
    rcases H with H | ⟨_, ⟨y, hy, rfl⟩, H⟩
    · exact ⟨.venb v, .inl rfl, H⟩
    · exact ⟨.ve y, .inr (⟨y, hy, rfl⟩), H⟩
  | .pred (.null v _), m, H => by
    simp only [Node.exch, Pred.exch, Node.child, exchTerms_eq, exchVEs_eq, exchWhens_eq, exchConds_eq, exchSuffixes_eq, exchItems_eq, exchTRs_eq, exchAddons_eq, exchGroup_eq, List.mem_map] at H
    exact ⟨.venb v, rfl, H⟩
  | .pred (.like v _ p), m, H => by
    simp only [Node.exch, Pred.exch, Node.child, exchTerms_eq, exchVEs_eq, exchWhens_eq, exchConds_eq, exchSuffixes_eq, exchItems_eq, exchTRs_eq, exchAddons_eq, exchGroup_eq, List.mem_map] at H
    rcases H with H | H
    · exact ⟨.venb v, .inl rfl, H⟩
    · exact ⟨.ve p, .inr rfl, H⟩
  | .pred (.exist q), m, H => by
    simp only [Node.exch, Pred.exch, Node.child, exchTerms_eq, exchVEs_eq, exchWhens_eq, exchConds_eq, exchSuffixes_eq, exchItems_eq, exchTRs_eq, exchAddons_eq, exchGroup_eq, List.mem_map] at H
    exact ⟨.subq q, rfl, H⟩
  | .subq (.jt j), m, H => by
    simp only [Node.exch, Subquery.exch, Node.child, exchTerms_eq, exchVEs_eq, exchWhens_eq, exchConds_eq, exchSuffixes_eq, exchItems_eq, exchTRs_eq, exchAddons_eq, exchGroup_eq, List.mem_map] at H
    exact ⟨.jt j, rfl, H⟩
  | .subq (.qs q), m, H => by
    simp only [Node.exch, Subquery.exch, Node.child, exchTerms_eq, exchVEs_eq, exchWhens_eq, exchConds_eq, exchSuffixes_eq, exchItems_eq, exchTRs_eq, exchAddons_eq, exchGroup_eq, List.mem_map] at H
    exact ⟨.query q, rfl, H⟩
  | .jt (.qj q), m, H => by
    simp only [Node.exch, JT.exch, Node.child, exchTerms_eq, exchVEs_eq, exchWhens_eq, exchConds_eq, exchSuffixes_eq, exchItems_eq, exchTRs_eq, exchAddons_eq, exchGroup_eq, List.mem_map] at H
    exact ⟨.qj q, rfl, H⟩
  | .jt (.wrap j), m, H => by
    simp only [Node.exch, JT.exch, Node.child, exchTerms_eq, exchVEs_eq, exchWhens_eq, exchConds_eq, exchSuffixes_eq, exchItems_eq, exchTRs_eq, exchAddons_eq, exchGroup_eq, List.mem_map] at H
    exact ⟨.jt j, rfl, H⟩
  | .qj (.mk h ss), m, H => by
    simp only [Node.exch, QJ.exch, Node.child, exchTerms_eq, exchVEs_eq, exchWhens_eq, exchConds_eq, exchSuffixes_eq, exchItems_eq, exchTRs_eq, exchAddons_eq, exchGroup_eq, List.mem_map] at H
    rcases H with H | ⟨_, ⟨y, hy, rfl⟩, H⟩
    · exact ⟨.head h, .inl rfl, H⟩
    · exact ⟨.suffix y, .inr (⟨y, hy, rfl⟩), H⟩
  | .head (.tc t), m, H => by
    simp only [Node.exch, QJHead.exch, Node.child, exchTerms_eq, exchVEs_eq, exchWhens_eq, exchConds_eq, exchSuffixes_eq, exchItems_eq, exchTRs_eq, exchAddons_eq, exchGroup_eq, List.mem_map] at H
    exact ⟨.tcorr t, rfl, H⟩
  | .head (.jt j), m, H => by
    simp only [Node.exch, QJHead.exch, Node.child, exchTerms_eq, exchVEs_eq, exchWhens_eq, exchConds_eq, exchSuffixes_eq, exchItems_eq, exchTRs_eq, exchAddons_eq, exchGroup_eq, List.mem_map] at H
    exact ⟨.jt j, rfl, H⟩
  | .suffix (.mk _ _ t sp), m, H => by
    simp only [Node.exch, JoinSuffix.exch, Node.child, exchTerms_eq, exchVEs_eq, exchWhens_eq, exchConds_eq, exchSuffixes_eq, exchItems_eq, exchTRs_eq, exchAddons_eq, exchGroup_eq, List.mem_map] at H
    rcases H with H | ⟨hd, H⟩
    · exact ⟨.tr t, .inl rfl, H⟩
    · exact ⟨.spec sp, .inr (⟨fun hz => hd (by rw [hz, JoinSpec.exch_dflt]), rfl⟩), H⟩
  | .spec (.named _), m, H => by simp [Node.exch, JoinSpec.exch, Node.child] at H
  | .spec (.on s), m, H => by
    simp only [Node.exch, JoinSpec.exch, Node.child, exchTerms_eq, exchVEs_eq, exchWhens_eq, exchConds_eq, exchSuffixes_eq, exchItems_eq, exchTRs_eq, exchAddons_eq, exchGroup_eq, List.mem_map] at H
    exact ⟨.sc s, rfl, H⟩
  | .tr (.tc t), m, H => by
    simp only [Node.exch, TR.exch, Node.child, exchTerms_eq, exchVEs_eq, exchWhens_eq, exchConds_eq, exchSuffixes_eq, exchItems_eq, exchTRs_eq, exchAddons_eq, exchGroup_eq, List.mem_map] at H
    exact ⟨.tcorr t, rfl, H⟩
  | .tr (.jt j), m, H => by
    simp only [Node.exch, TR.exch, Node.child, exchTerms_eq, exchVEs_eq, exchWhens_eq, exchConds_eq, exchSuffixes_eq, exchItems_eq, exchTRs_eq, exchAddons_eq, exchGroup_eq, List.mem_map] at H
    exact ⟨.jt j, rfl, H⟩
  | .tr (.derived q _), m, H => by
    simp only [Node.exch, TR.exch, Node.child, exchTerms_eq, exchVEs_eq, exchWhens_eq, exchConds_eq, exchSuffixes_eq, exchItems_eq, exchTRs_eq, exchAddons_eq, exchGroup_eq, List.mem_map] at H
    exact ⟨.subq q, rfl, H⟩
  | .tr (.tvf _ _), m, H => by simp [Node.exch, TR.exch, Node.child] at H
  | .gpred (.intersects e s), m, H => by
    simp only [Node.exch, GPred.exch, Node.child, exchTerms_eq, exchVEs_eq, exchWhens_eq, exchConds_eq, exchSuffixes_eq, exchItems_eq, exchTRs_eq, exchAddons_eq, exchGroup_eq, List.mem_map] at H
    rcases H with H | H
    · exact ⟨.ve e, .inl rfl, H⟩
    · exact ⟨.shapeOrCol s, .inr rfl, H⟩
  | .gpred (.contains l r), m, H => by
    simp only [Node.exch, GPred.exch, Node.child, exchTerms_eq, exchVEs_eq, exchWhens_eq, exchConds_eq, exchSuffixes_eq, exchItems_eq, exchTRs_eq, exchAddons_eq, exchGroup_eq, List.mem_map] at H
    rcases H with H | H
    · exact ⟨.shapeOrCol l, .inl rfl, H⟩
    · exact ⟨.shapeOrCol r, .inr rfl, H⟩
  | .geom (.left _ p), m, H => by
    simp only [Node.exch, Geom.exch, Node.child, exchTerms_eq, exchVEs_eq, exchWhens_eq, exchConds_eq, exchSuffixes_eq, exchItems_eq, exchTRs_eq, exchAddons_eq, exchGroup_eq, List.mem_map] at H
    exact ⟨.gpred p, rfl, H⟩
  | .geom (.right p _), m, H => by
    simp only [Node.exch, Geom.exch, Node.child, exchTerms_eq, exchVEs_eq, exchWhens_eq, exchConds_eq, exchSuffixes_eq, exchItems_eq, exchTRs_eq, exchAddons_eq, exchGroup_eq, List.mem_map] at H
    exact ⟨.gpred p, rfl, H⟩
  | .where_ (.mk g s), m, H => by
    simp only [Node.exch, Where.exch, Node.child, exchTerms_eq, exchVEs_eq, exchWhens_eq, exchConds_eq, exchSuffixes_eq, exchItems_eq, exchTRs_eq, exchAddons_eq, exchGroup_eq, List.mem_map] at H
    rcases H with ⟨hd, H⟩ | ⟨hd, H⟩
    · exact ⟨.geom g, .inl (⟨fun hz => hd (by rw [hz, Geom.exch_dflt]), rfl⟩), H⟩
    · exact ⟨.sc s, .inr (⟨fun hz => hd (by rw [hz, SC.exch_dflt]), rfl⟩), H⟩
  | .item (.as e _), m, H => by
    simp only [Node.exch, Item.exch, Node.child, exchTerms_eq, exchVEs_eq, exchWhens_eq, exchConds_eq, exchSuffixes_eq, exchItems_eq, exchTRs_eq, exchAddons_eq, exchGroup_eq, List.mem_map] at H
    exact ⟨.ve e, rfl, H⟩
  | .item (.nonAsStr _), m, H => by simp [Node.exch, Item.exch, Node.child] at H
  | .item (.nonAsVE e), m, H => by
    simp only [Node.exch, Item.exch, Node.child, exchTerms_eq, exchVEs_eq, exchWhens_eq, exchConds_eq, exchSuffixes_eq, exchItems_eq, exchTRs_eq, exchAddons_eq, exchGroup_eq, List.mem_map] at H
    exact ⟨.ve e, rfl, H⟩
  | .columns (.star _), m, H => by simp [Node.exch, Columns.exch, Node.child] at H
  | .columns (.items l), m, H => by
    simp only [Node.exch, Columns.exch, Node.child, exchTerms_eq, exchVEs_eq, exchWhens_eq, exchConds_eq, exchSuffixes_eq, exchItems_eq, exchTRs_eq, exchAddons_eq, exchGroup_eq, List.mem_map] at H
    obtain ⟨_, ⟨y, hy, rfl⟩, H⟩ := H
    exact ⟨.item y, ⟨y, hy, rfl⟩, H⟩
  | .select (.mk _ _ c), m, H => by
    simp only [Node.exch, Select.exch, Node.child, exchTerms_eq, exchVEs_eq, exchWhens_eq, exchConds_eq, exchSuffixes_eq, exchItems_eq, exchTRs_eq, exchAddons_eq, exchGroup_eq, List.mem_map] at H
    exact ⟨.columns c, rfl, H⟩
  | .sfw (.mk s ts w), m, H => by
    simp only [Node.exch, SFW.exch, Node.child, exchTerms_eq, exchVEs_eq, exchWhens_eq, exchConds_eq, exchSuffixes_eq, exchItems_eq, exchTRs_eq, exchAddons_eq, exchGroup_eq, List.mem_map] at H
    rcases H with H | ⟨_, ⟨y, hy, rfl⟩, H⟩ | ⟨hd, H⟩
    · exact ⟨.select s, .inl rfl, H⟩
    · exact ⟨.tr y, .inr (.inl (⟨y, hy, rfl⟩)), H⟩
    · exact ⟨.where_ w, .inr (.inr (⟨fun hz => hd (by rw [hz, Where.exch_dflt]), rfl⟩)), H⟩
  | .addon (.mk _ s), m, H => by
    simp only [Node.exch, Addon.exch, Node.child, exchTerms_eq, exchVEs_eq, exchWhens_eq, exchConds_eq, exchSuffixes_eq, exchItems_eq, exchTRs_eq, exchAddons_eq, exchGroup_eq, List.mem_map] at H
    exact ⟨.sfw s, rfl, H⟩
  | .sfwList (.mk i as), m, H => by
    simp only [Node.exch, SFWList.exch, Node.child, exchTerms_eq, exchVEs_eq, exchWhens_eq, exchConds_eq, exchSuffixes_eq, exchItems_eq, exchTRs_eq, exchAddons_eq, exchGroup_eq, List.mem_map] at H
    rcases H with H | ⟨_, ⟨y, hy, rfl⟩, H⟩
    · exact ⟨.sfw i, .inl rfl, H⟩
    · exact ⟨.addon y, .inr (⟨y, hy, rfl⟩), H⟩
  | .group (.col c), m, H => by
    simp only [Node.exch, GroupTerm.exch, Node.child, exchTerms_eq, exchVEs_eq, exchWhens_eq, exchConds_eq, exchSuffixes_eq, exchItems_eq, exchTRs_eq, exchAddons_eq, exchGroup_eq, List.mem_map] at H
    exact ⟨.colRef c, rfl, H⟩
  | .group (.ve e), m, H => by
    simp only [Node.exch, GroupTerm.exch, Node.child, exchTerms_eq, exchVEs_eq, exchWhens_eq, exchConds_eq, exchSuffixes_eq, exchItems_eq, exchTRs_eq, exchAddons_eq, exchGroup_eq, List.mem_map] at H
    exact ⟨.ve e, rfl, H⟩
  | .with_ (.mk _ _ q), m, H => by
    simp only [Node.exch, With.exch, Node.child, exchTerms_eq, exchVEs_eq, exchWhens_eq, exchConds_eq, exchSuffixes_eq, exchItems_eq, exchTRs_eq, exchAddons_eq, exchGroup_eq, List.mem_map] at H
    exact ⟨.subq q, rfl, H⟩
  | .query (.mk w l g h o), m, H => by
    simp only [Node.exch, QuerySpec.exch, Node.child, exchTerms_eq, exchVEs_eq, exchWhens_eq, exchConds_eq, exchSuffixes_eq, exchItems_eq, exchTRs_eq, exchAddons_eq, exchGroup_eq, List.mem_map] at H
    rcases H with ⟨hd, H⟩ | H | ⟨_, ⟨y, hy, rfl⟩, H⟩ | ⟨hd, H⟩ | ⟨_, ⟨y, hy, rfl⟩, H⟩
    · exact ⟨.with_ w, .inl (⟨fun hz => hd (by rw [hz, With.exch_dflt]), rfl⟩), H⟩
    · exact ⟨.sfwList l, .inr (.inl rfl), H⟩
    · exact ⟨.group y, .inr (.inr (.inl (⟨y, hy, rfl⟩))), H⟩
    · exact ⟨.sc h, .inr (.inr (.inr (.inl (⟨fun hz => hd (by rw [hz, SC.exch_dflt]), rfl⟩)))), H⟩
    · exact ⟨.sort y, .inr (.inr (.inr (.inr (⟨y, hy, rfl⟩)))), H⟩
  | .sort ⟨.inl _, _⟩, m, H => by simp [Node.exch, SortSpec.exch, Node.child] at H
  | .sort ⟨.inr c, _⟩, m, H => by
    simp only [Node.exch, SortSpec.exch, Node.child, exchTerms_eq, exchVEs_eq, exchWhens_eq, exchConds_eq, exchSuffixes_eq, exchItems_eq, exchTRs_eq, exchAddons_eq, exchGroup_eq, List.mem_map] at H
    exact ⟨.colRef c, rfl, H⟩
  | .tcorr _, m, H => by simp [Node.exch, TableCorr.exch, Node.child] at H
  | .colRef _, m, H => by simp [Node.exch, ColRef.exch, Node.child] at H
  | .coordExpr (.bae _ _ _), m, H => by simp [Node.exch, CoordExpr.exch, Node.child] at H
  | .coordExpr (.col c), m, H => by
    simp only [Node.exch, CoordExpr.exch, Node.child, exchTerms_eq, exchVEs_eq, exchWhens_eq, exchConds_eq, exchSuffixes_eq, exchItems_eq, exchTRs_eq, exchAddons_eq, exchGroup_eq, List.mem_map] at H
    exact ⟨.colRef c, rfl, H⟩
  | .coordExpr (.num _), m, H => by simp [Node.exch, CoordExpr.exch, Node.child] at H
  | .coord c, m, H => by
    simp only [Node.exch, Coord.exch, Node.child, exchTerms_eq, exchVEs_eq, exchWhens_eq, exchConds_eq, exchSuffixes_eq, exchItems_eq, exchTRs_eq, exchAddons_eq, exchGroup_eq, List.mem_map] at H
    rcases H with H | H
    · exact ⟨.coordExpr (c.ra), .inl rfl, H⟩
    · exact ⟨.coordExpr (c.dec), .inr rfl, H⟩
  | .point p, m, H => by
    simp only [Node.exch, Point.exch, Node.child, exchTerms_eq, exchVEs_eq, exchWhens_eq, exchConds_eq, exchSuffixes_eq, exchItems_eq, exchTRs_eq, exchAddons_eq, exchGroup_eq, List.mem_map] at H
    exact ⟨.coord (p.coord), rfl, H⟩
  | .shape (.point p), m, H => by
    simp only [Node.exch, Shape.exch, Node.child, exchTerms_eq, exchVEs_eq, exchWhens_eq, exchConds_eq, exchSuffixes_eq, exchItems_eq, exchTRs_eq, exchAddons_eq, exchGroup_eq, List.mem_map] at H
    exact ⟨.point p, rfl, H⟩
  | .shape (.circle _ c r), m, H => by
    simp only [Node.exch, Shape.exch, Node.child, exchTerms_eq, exchVEs_eq, exchWhens_eq, exchConds_eq, exchSuffixes_eq, exchItems_eq, exchTRs_eq, exchAddons_eq, exchGroup_eq, List.mem_map] at H
    rcases H with H | H
    · exact ⟨.coord c, .inl rfl, H⟩
    · exact ⟨.coordExpr r, .inr rfl, H⟩
  | .shape (.box _ c w h), m, H => by
    simp only [Node.exch, Shape.exch, Node.child, exchTerms_eq, exchVEs_eq, exchWhens_eq, exchConds_eq, exchSuffixes_eq, exchItems_eq, exchTRs_eq, exchAddons_eq, exchGroup_eq, List.mem_map] at H
    rcases H with H | H | H
    · exact ⟨.coord c, .inl rfl, H⟩
    · exact ⟨.coordExpr w, .inr (.inl rfl), H⟩
    · exact ⟨.coordExpr h, .inr (.inr rfl), H⟩
  | .shape (.ellipse _ c a b g), m, H => by
    simp only [Node.exch, Shape.exch, Node.child, exchTerms_eq, exchVEs_eq, exchWhens_eq, exchConds_eq, exchSuffixes_eq, exchItems_eq, exchTRs_eq, exchAddons_eq, exchGroup_eq, List.mem_map] at H
    rcases H with H | H | H | H
    · exact ⟨.coord c, .inl rfl, H⟩
    · exact ⟨.coordExpr a, .inr (.inl rfl), H⟩
    · exact ⟨.coordExpr b, .inr (.inr (.inl rfl)), H⟩
    · exact ⟨.coordExpr g, .inr (.inr (.inr rfl)), H⟩
  | .shape (.polygon _ cs), m, H => by
    simp only [Node.exch, Shape.exch, Node.child, exchTerms_eq, exchVEs_eq, exchWhens_eq, exchConds_eq, exchSuffixes_eq, exchItems_eq, exchTRs_eq, exchAddons_eq, exchGroup_eq, List.mem_map] at H
    obtain ⟨_, ⟨y, hy, rfl⟩, H⟩ := H
    exact ⟨.coord y, ⟨y, hy, rfl⟩, H⟩
  | .pointOrCol (.point p), m, H => by
    simp only [Node.exch, PointOrCol.exch, Node.child, exchTerms_eq, exchVEs_eq, exchWhens_eq, exchConds_eq, exchSuffixes_eq, exchItems_eq, exchTRs_eq, exchAddons_eq, exchGroup_eq, List.mem_map] at H
    exact ⟨.point p, rfl, H⟩
  | .pointOrCol (.col c), m, H => by
    simp only [Node.exch, PointOrCol.exch, Node.child, exchTerms_eq, exchVEs_eq, exchWhens_eq, exchConds_eq, exchSuffixes_eq, exchItems_eq, exchTRs_eq, exchAddons_eq, exchGroup_eq, List.mem_map] at H
    exact ⟨.colRef c, rfl, H⟩
  | .shapeOrCol (.shape s), m, H => by
    simp only [Node.exch, ShapeOrCol.exch, Node.child, exchTerms_eq, exchVEs_eq, exchWhens_eq, exchConds_eq, exchSuffixes_eq, exchItems_eq, exchTRs_eq, exchAddons_eq, exchGroup_eq, List.mem_map] at H
    exact ⟨.shape s, rfl, H⟩
  | .shapeOrCol (.col c), m, H => by
    simp only [Node.exch, ShapeOrCol.exch, Node.child, exchTerms_eq, exchVEs_eq, exchWhens_eq, exchConds_eq, exchSuffixes_eq, exchItems_eq, exchTRs_eq, exchAddons_eq, exchGroup_eq, List.mem_map] at H
    exact ⟨.colRef c, rfl, H⟩

theorem exch_sub {n m : Node} (h : Sub m (n.exch x)) : ∃ c, Sub c n ∧ m = c.exch x := by
  generalize hk : n.exch x = k at h
  induction h generalizing n with
  | refl => exact ⟨n, .refl n, hk.symm⟩
  | step hc _ ih =>
    subst hk
    obtain ⟨c, h1, h2⟩ := exch_child _ _ hc
    obtain ⟨d, h3, h4⟩ := ih h2.symm
    exact ⟨d, .step h1 h3, h4⟩

/-- Something that follows for every node holds of the whole tree. -/
theorem exch_all {K K' : Node → Prop} (h : ∀ n, All K n → K' (n.exch x)) {n : Node} (hn : All K n) : All K' (n.exch x) := by
  intro m hm
  obtain ⟨c, hc, rfl⟩ := exch_sub hm
  exact h c fun d hd => hn d (Reach.sub_trans hd hc)

end Adql
