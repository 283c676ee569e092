import Verif.Spec.Same
import Verif.Spec.Tree

/-!
# The tables, columns and functions that a query uses

At any depth: in subqueries, joins, WITH, conditions and arguments of functions.  In the order of the text, and as often
as they occur.
-/

namespace Adql

/-- something that the database has to look up -/
inductive Used where
  /-- a table, with its schema and catalog -/
  | table (name : Str)
  /-- a column, with the table before it; also `*` and `t.*` -/
  | column (name : Str)
  /-- a function, also one in FROM -/
  | function (name : Str)
deriving DecidableEq, Repr

open Spec

/-- A default-constructed table (in the place of a missing WITH clause) is none. -/
def TableCorr.uses (t : TableCorr) : List Used := if t.name.isEmpty then [] else [.table t.name]

/-- a column -/
def ColRef.uses (c : ColRef) : List Used := [.column c.print]

/-- a sort key -/
def SortSpec.uses : SortSpec → List Used
  | ⟨.inl _, _⟩ => []
  | ⟨.inr c, _⟩ => c.uses

section
variable (fmt : Str → Str)

/-- A number that is formatted as a word (infinity, not-a-number) cannot be told from a column. -/
def CoordExpr.uses : CoordExpr → List Used
  | .bae _ _ _ => []
  | .col c => c.uses
  | .num x => if writtenAsWord (fmt x) then [.column (fmt x)] else []

/-- two coordinates -/
def Coord.uses (c : Coord) : List Used := c.ra.uses fmt ++ c.dec.uses fmt

/-- a point -/
def Point.uses (p : Point) : List Used := p.coord.uses fmt

/-- a shape -/
def Shape.uses : Shape → List Used
  | .point p => p.uses fmt
  | .circle _ c r => c.uses fmt ++ r.uses fmt
  | .box _ c w h => c.uses fmt ++ w.uses fmt ++ h.uses fmt
  | .ellipse _ c a b r => c.uses fmt ++ a.uses fmt ++ b.uses fmt ++ r.uses fmt
  | .polygon _ cs => cs.flatMap (Coord.uses fmt)

/-- a point or a column -/
def PointOrCol.uses : PointOrCol → List Used
  | .point p => p.uses fmt
  | .col c => c.uses

/-- a shape or a column -/
def ShapeOrCol.uses : ShapeOrCol → List Used
  | .shape s => s.uses fmt
  | .col c => c.uses

end

mutual

/-- a value -/
def VE.uses (fmt : Str → Str) : VE → List Used
  | .nb v => v.uses fmt
  | .sc s => s.uses fmt

/-- an expression -/
def VENB.uses (fmt : Str → Str) : VENB → List Used
  | .mk f ts => f.uses fmt ++ usesTerms fmt ts

/-- its further operands -/
def usesTerms (fmt : Str → Str) : List Term → List Used
  | [] => []
  | t :: ts => t.uses fmt ++ usesTerms fmt ts

/-- an operator and an operand -/
def Term.uses (fmt : Str → Str) : Term → List Used
  | .mk _ f => f.uses fmt

/-- an operand with its sign -/
def Factor.uses (fmt : Str → Str) : Factor → List Used
  | .mk _ np => np.uses fmt

/-- an operand -/
def NumPrim.uses (fmt : Str → Str) : NumPrim → List Used
  | .vep v => v.uses fmt
  | .nvf f => f.uses fmt

/-- a function -/
def NumFn.uses (fmt : Str → Str) : NumFn → List Used
  | .trig1 fn a => .function fn :: a.uses fmt
  | .trig2 fn a b => .function fn :: (a.uses fmt ++ b.uses fmt)
  | .math0 fn => [.function fn]
  | .math1 fn a => .function fn :: a.uses fmt
  | .math2 fn a b => .function fn :: (a.uses fmt ++ b.uses fmt)
  | .cast e _ _ => .function cs!"CAST" :: e.uses fmt
  | .geo1 fn p => .function fn :: p.uses fmt
  | .geo2 fn p q => .function fn :: (p.uses fmt ++ q.uses fmt)
  | .udf fn args => .function fn :: usesVEs fmt args
  | .str s => [.function s]

/-- several values -/
def usesVEs (fmt : Str → Str) : List VE → List Used
  | [] => []
  | e :: es => e.uses fmt ++ usesVEs fmt es

/-- a primary with its indices -/
def VEP.uses (fmt : Str → Str) : VEP → List Used
  | .mk v idx => v.uses fmt ++ usesVEs fmt idx

/-- a primary -/
def Prim.uses (fmt : Str → Str) : Prim → List Used
  | .arr vs => usesVEs fmt vs
  | .str _ => []
  | .col c => c.uses
  | .countStar _ => [.function cs!"COUNT", .column cs!"*"]
  | .setFn fn _ e => .function fn :: e.uses fmt
  | .case c => c.uses fmt
  | .any e => e.uses fmt
  | .sub e => e.uses fmt

/-- a case expression -/
def CaseE.uses (fmt : Str → Str) : CaseE → List Used
  | .nullif a b => a.uses fmt ++ b.uses fmt
  | .coalesce l => usesVEs fmt l
  | .simple o ws els => o.uses fmt ++ usesWhens fmt ws ++ els.uses fmt
  | .searched ws els => usesConds fmt ws ++ els.uses fmt

/-- its alternatives, with values -/
def usesWhens (fmt : Str → Str) : List SimpleWhen → List Used
  | [] => []
  | .mk e r :: ws => e.uses fmt ++ r.uses fmt ++ usesWhens fmt ws

/-- its alternatives, with conditions -/
def usesConds (fmt : Str → Str) : List SearchedWhen → List Used
  | [] => []
  | .mk c r :: ws => c.uses fmt ++ r.uses fmt ++ usesConds fmt ws

/-- its results -/
def CaseResult.uses (fmt : Str → Str) : CaseResult → List Used
  | .str _ => []
  | .ve e => e.uses fmt

/-- a condition -/
def SC.uses (fmt : Str → Str) : SC → List Used
  | .factor b => b.uses fmt
  | .term b _ s => b.uses fmt ++ s.uses fmt

/-- a factor of a condition -/
def BF.uses (fmt : Str → Str) : BF → List Used
  | .mk _ p => p.uses fmt

/-- a factor without NOT -/
def BP.uses (fmt : Str → Str) : BP → List Used
  | .pred p => p.uses fmt
  | .sc s => s.uses fmt
  | .ve v => v.uses fmt

/-- a predicate -/
def Pred.uses (fmt : Str → Str) : Pred → List Used
  | .cmp l _ r => l.uses fmt ++ r.uses fmt
  | .between v _ lo hi => v.uses fmt ++ lo.uses fmt ++ hi.uses fmt
  | .inSub v _ q => v.uses fmt ++ q.uses fmt
  | .inList v _ vs => v.uses fmt ++ usesVEs fmt vs
  | .null v _ => v.uses fmt
  | .like v _ p => v.uses fmt ++ p.uses fmt
  | .exist q => q.uses fmt

/-- a subquery -/
def Subquery.uses (fmt : Str → Str) : Subquery → List Used
  | .jt j => j.uses fmt
  | .qs q => q.uses fmt

/-- a join -/
def JT.uses (fmt : Str → Str) : JT → List Used
  | .qj q => q.uses fmt
  | .wrap j => j.uses fmt

/-- a join without parentheses -/
def QJ.uses (fmt : Str → Str) : QJ → List Used
  | .mk h ss => h.uses fmt ++ usesSuffixes fmt ss

/-- its first table -/
def QJHead.uses (fmt : Str → Str) : QJHead → List Used
  | .tc t => t.uses
  | .jt j => j.uses fmt

/-- its further tables -/
def usesSuffixes (fmt : Str → Str) : List JoinSuffix → List Used
  | [] => []
  | s :: ss => s.uses fmt ++ usesSuffixes fmt ss

/-- one of them -/
def JoinSuffix.uses (fmt : Str → Str) : JoinSuffix → List Used
  | .mk _ _ t sp => t.uses fmt ++ sp.uses fmt

/-- its specification -/
def JoinSpec.uses (fmt : Str → Str) : JoinSpec → List Used
  | .named l => l.map .column
  | .on s => s.uses fmt

/-- a table -/
def TR.uses (fmt : Str → Str) : TR → List Used
  | .tc t => t.uses
  | .jt j => j.uses fmt
  | .derived q _ => q.uses fmt
  | .tvf n _ => [.function n]

/-- a geometric predicate -/
def GPred.uses (fmt : Str → Str) : GPred → List Used
  | .intersects e s => e.uses fmt ++ s.uses fmt
  | .contains l r => l.uses fmt ++ r.uses fmt

/-- a geometric predicate with its flag -/
def Geom.uses (fmt : Str → Str) : Geom → List Used
  | .left _ p => p.uses fmt
  | .right p _ => p.uses fmt

/-- a WHERE clause -/
def Where.uses (fmt : Str → Str) : Where → List Used
  | .mk g s => g.uses fmt ++ s.uses fmt

/-- an item of the select list -/
def Item.uses (fmt : Str → Str) : Item → List Used
  | .as e _ => e.uses fmt
  | .nonAsStr s => [.column s]
  | .nonAsVE e => e.uses fmt

/-- several of them -/
def usesItems (fmt : Str → Str) : List Item → List Used
  | [] => []
  | i :: is => i.uses fmt ++ usesItems fmt is

/-- a select list -/
def Columns.uses (fmt : Str → Str) : Columns → List Used
  | .star s => [.column s]
  | .items l => usesItems fmt l

/-- a SELECT clause -/
def Select.uses (fmt : Str → Str) : Select → List Used
  | .mk _ _ c => c.uses fmt

/-- several tables -/
def usesTRs (fmt : Str → Str) : List TR → List Used
  | [] => []
  | t :: ts => t.uses fmt ++ usesTRs fmt ts

/-- SELECT, FROM and WHERE -/
def SFW.uses (fmt : Str → Str) : SFW → List Used
  | .mk s ts w => s.uses fmt ++ usesTRs fmt ts ++ w.uses fmt

/-- a further one, with UNION or alike -/
def Addon.uses (fmt : Str → Str) : Addon → List Used
  | .mk _ s => s.uses fmt

/-- several of them -/
def usesAddons (fmt : Str → Str) : List Addon → List Used
  | [] => []
  | a :: as => a.uses fmt ++ usesAddons fmt as

/-- all of them -/
def SFWList.uses (fmt : Str → Str) : SFWList → List Used
  | .mk i as => i.uses fmt ++ usesAddons fmt as

/-- a term of GROUP BY -/
def GroupTerm.uses (fmt : Str → Str) : GroupTerm → List Used
  | .col c => c.uses
  | .ve e => e.uses fmt

/-- several of them -/
def usesGroup (fmt : Str → Str) : List GroupTerm → List Used
  | [] => []
  | g :: gs => g.uses fmt ++ usesGroup fmt gs

/-- a WITH clause -/
def With.uses (fmt : Str → Str) : With → List Used
  | .mk _ _ q => q.uses fmt

/-- a query -/
def QuerySpec.uses (fmt : Str → Str) : QuerySpec → List Used
  | .mk w l g h o => w.uses fmt ++ l.uses fmt ++ usesGroup fmt g ++ h.uses fmt ++ o.flatMap SortSpec.uses

end

namespace Spec

/-- The names that a node has itself. -/
def own (fmt : Str → Str) : Node → List Used
  | .numFn (.trig1 fn _) => [.function fn]
  | .numFn (.trig2 fn _ _) => [.function fn]
  | .numFn (.math0 fn) => [.function fn]
  | .numFn (.math1 fn _) => [.function fn]
  | .numFn (.math2 fn _ _) => [.function fn]
  | .numFn (.cast _ _ _) => [.function cs!"CAST"]
  | .numFn (.geo1 fn _) => [.function fn]
  | .numFn (.geo2 fn _ _) => [.function fn]
  | .numFn (.udf fn _) => [.function fn]
  | .numFn (.str s) => [.function s]
  | .prim (.countStar _) => [.function cs!"COUNT", .column cs!"*"]
  | .prim (.setFn fn _ _) => [.function fn]
  | .spec (.named l) => l.map .column
  | .tr (.tvf n _) => [.function n]
  | .item (.nonAsStr s) => [.column s]
  | .columns (.star s) => [.column s]
  | .tcorr t => t.uses
  | .colRef c => c.uses
  | .coordExpr (.num x) => if writtenAsWord (fmt x) then [.column (fmt x)] else []
  | _ => []

/-- A node of the tree has the name. -/
def Names (fmt : Str → Str) (u : Used) (n : Node) : Prop := ∃ m, Sub m n ∧ u ∈ own fmt m

end Spec

end Adql
