import Verif.Spec.Restrict
import Verif.Spec.Uses

/-!
# The tables and columns of a query exchanged

At any depth, and nothing else: what a program does that gives other tables to a query.
-/

namespace Adql

/-- What is exchanged. -/
structure Exchange where
  /-- the tables in FROM and JOIN, with their correlation names -/
  tab : TableCorr → TableCorr := id
  /-- the columns -/
  col : ColRef → ColRef := id
  /-- the items `t.*` -/
  star : Str → Str := id

/-- A default-constructed table (in the place of a missing WITH clause) is none. -/
def TableCorr.exch (x : Exchange) (t : TableCorr) : TableCorr := if t.name.isEmpty then t else x.tab t

/-- a column -/
def ColRef.exch (x : Exchange) (c : ColRef) : ColRef := x.col c

/-- a sort key -/
def SortSpec.exch (x : Exchange) : SortSpec → SortSpec
  | ⟨.inl d, o⟩ => ⟨.inl d, o⟩
  | ⟨.inr c, o⟩ => ⟨.inr (x.col c), o⟩

/-- an expression in a shape -/
def CoordExpr.exch (x : Exchange) : CoordExpr → CoordExpr
  | .bae a op b => .bae a op b
  | .col c => .col (x.col c)
  | .num n => .num n

/-- two coordinates -/
def Coord.exch (x : Exchange) (c : Coord) : Coord := ⟨c.ra.exch x, c.dec.exch x⟩

/-- a point -/
def Point.exch (x : Exchange) (p : Point) : Point := ⟨p.sys, p.coord.exch x⟩

/-- a shape -/
def Shape.exch (x : Exchange) : Shape → Shape
  | .point p => .point (p.exch x)
  | .circle s c r => .circle s (c.exch x) (r.exch x)
  | .box s c w h => .box s (c.exch x) (w.exch x) (h.exch x)
  | .ellipse s c a b r => .ellipse s (c.exch x) (a.exch x) (b.exch x) (r.exch x)
  | .polygon s cs => .polygon s (cs.map (Coord.exch x))

/-- a point or a column -/
def PointOrCol.exch (x : Exchange) : PointOrCol → PointOrCol
  | .point p => .point (p.exch x)
  | .col c => .col (x.col c)

/-- a shape or a column -/
def ShapeOrCol.exch (x : Exchange) : ShapeOrCol → ShapeOrCol
  | .shape s => .shape (s.exch x)
  | .col c => .col (x.col c)

mutual

/-- a value -/
def VE.exch (x : Exchange) : VE → VE
  | .nb a => .nb (a.exch x)
  | .sc a => .sc (a.exch x)

/-- an expression -/
def VENB.exch (x : Exchange) : VENB → VENB
  | .mk a b => .mk (a.exch x) (exchTerms x b)

/-- its further operands -/
def exchTerms (x : Exchange) : List Term → List Term
  | [] => []
  | a :: l => a.exch x :: exchTerms x l

/-- an operator and an operand -/
def Term.exch (x : Exchange) : Term → Term
  | .mk a b => .mk a (b.exch x)

/-- an operand with its sign -/
def Factor.exch (x : Exchange) : Factor → Factor
  | .mk a b => .mk a (b.exch x)

/-- an operand -/
def NumPrim.exch (x : Exchange) : NumPrim → NumPrim
  | .vep a => .vep (a.exch x)
  | .nvf a => .nvf (a.exch x)

/-- a function -/
def NumFn.exch (x : Exchange) : NumFn → NumFn
  | .trig1 a b => .trig1 a (b.exch x)
  | .trig2 a b c => .trig2 a (b.exch x) (c.exch x)
  | .math0 a => .math0 a
  | .math1 a b => .math1 a (b.exch x)
  | .math2 a b c => .math2 a (b.exch x) (c.exch x)
  | .cast a b c => .cast (a.exch x) b c
  | .geo1 a b => .geo1 a (b.exch x)
  | .geo2 a b c => .geo2 a (b.exch x) (c.exch x)
  | .udf a b => .udf a (exchVEs x b)
  | .str a => .str a

/-- several values -/
def exchVEs (x : Exchange) : List VE → List VE
  | [] => []
  | a :: l => a.exch x :: exchVEs x l

/-- a primary with its indices -/
def VEP.exch (x : Exchange) : VEP → VEP
  | .mk a b => .mk (a.exch x) (exchVEs x b)

/-- a primary -/
def Prim.exch (x : Exchange) : Prim → Prim
  | .arr a => .arr (exchVEs x a)
  | .str a => .str a
  | .col a => .col (x.col a)
  | .countStar a => .countStar a
  | .setFn a b c => .setFn a b (c.exch x)
  | .case a => .case (a.exch x)
  | .any a => .any (a.exch x)
  | .sub a => .sub (a.exch x)

/-- a case expression -/
def CaseE.exch (x : Exchange) : CaseE → CaseE
  | .nullif a b => .nullif (a.exch x) (b.exch x)
  | .coalesce a => .coalesce (exchVEs x a)
  | .simple a b c => .simple (a.exch x) (exchWhens x b) (c.exch x)
  | .searched a b => .searched (exchConds x a) (b.exch x)

/-- an alternative with a value -/
def SimpleWhen.exch (x : Exchange) : SimpleWhen → SimpleWhen
  | .mk a b => .mk (a.exch x) (b.exch x)

/-- several of them -/
def exchWhens (x : Exchange) : List SimpleWhen → List SimpleWhen
  | [] => []
  | a :: l => a.exch x :: exchWhens x l

/-- an alternative with a condition -/
def SearchedWhen.exch (x : Exchange) : SearchedWhen → SearchedWhen
  | .mk a b => .mk (a.exch x) (b.exch x)

/-- several of them -/
def exchConds (x : Exchange) : List SearchedWhen → List SearchedWhen
  | [] => []
  | a :: l => a.exch x :: exchConds x l

/-- its results -/
def CaseResult.exch (x : Exchange) : CaseResult → CaseResult
  | .str a => .str a
  | .ve a => .ve (a.exch x)

/-- a condition -/
def SC.exch (x : Exchange) : SC → SC
  | .factor a => .factor (a.exch x)
  | .term a b c => .term (a.exch x) b (c.exch x)

/-- a factor of a condition -/
def BF.exch (x : Exchange) : BF → BF
  | .mk a b => .mk a (b.exch x)

/-- a factor without NOT -/
def BP.exch (x : Exchange) : BP → BP
  | .pred a => .pred (a.exch x)
  | .sc a => .sc (a.exch x)
  | .ve a => .ve (a.exch x)

/-- a predicate -/
def Pred.exch (x : Exchange) : Pred → Pred
  | .cmp a b c => .cmp (a.exch x) b (c.exch x)
  | .between a b c d => .between (a.exch x) b (c.exch x) (d.exch x)
  | .inSub a b c => .inSub (a.exch x) b (c.exch x)
  | .inList a b c => .inList (a.exch x) b (exchVEs x c)
  | .null a b => .null (a.exch x) b
  | .like a b c => .like (a.exch x) b (c.exch x)
  | .exist a => .exist (a.exch x)

/-- a subquery -/
def Subquery.exch (x : Exchange) : Subquery → Subquery
  | .jt a => .jt (a.exch x)
  | .qs a => .qs (a.exch x)

/-- a join -/
def JT.exch (x : Exchange) : JT → JT
  | .qj a => .qj (a.exch x)
  | .wrap a => .wrap (a.exch x)

/-- a join without parentheses -/
def QJ.exch (x : Exchange) : QJ → QJ
  | .mk a b => .mk (a.exch x) (exchSuffixes x b)

/-- its first table -/
def QJHead.exch (x : Exchange) : QJHead → QJHead
  | .tc a => .tc (a.exch x)
  | .jt a => .jt (a.exch x)

/-- its further tables -/
def exchSuffixes (x : Exchange) : List JoinSuffix → List JoinSuffix
  | [] => []
  | a :: l => a.exch x :: exchSuffixes x l

/-- one of them -/
def JoinSuffix.exch (x : Exchange) : JoinSuffix → JoinSuffix
  | .mk a b c d => .mk a b (c.exch x) (d.exch x)

/-- its specification -/
def JoinSpec.exch (x : Exchange) : JoinSpec → JoinSpec
  | .named a => .named a
  | .on a => .on (a.exch x)

/-- a table -/
def TR.exch (x : Exchange) : TR → TR
  | .tc a => .tc (a.exch x)
  | .jt a => .jt (a.exch x)
  | .derived a b => .derived (a.exch x) b
  | .tvf a b => .tvf a b

/-- a geometric predicate -/
def GPred.exch (x : Exchange) : GPred → GPred
  | .intersects a b => .intersects (a.exch x) (b.exch x)
  | .contains a b => .contains (a.exch x) (b.exch x)

/-- a geometric predicate with its flag -/
def Geom.exch (x : Exchange) : Geom → Geom
  | .left a b => .left a (b.exch x)
  | .right a b => .right (a.exch x) b

/-- a WHERE clause -/
def Where.exch (x : Exchange) : Where → Where
  | .mk a b => .mk (a.exch x) (b.exch x)

/-- an item of the select list -/
def Item.exch (x : Exchange) : Item → Item
  | .as a b => .as (a.exch x) b
  | .nonAsStr a => .nonAsStr (x.star a)
  | .nonAsVE a => .nonAsVE (a.exch x)

/-- several of them -/
def exchItems (x : Exchange) : List Item → List Item
  | [] => []
  | a :: l => a.exch x :: exchItems x l

/-- a select list -/
def Columns.exch (x : Exchange) : Columns → Columns
  | .star a => .star a
  | .items a => .items (exchItems x a)

/-- a SELECT clause -/
def Select.exch (x : Exchange) : Select → Select
  | .mk a b c => .mk a b (c.exch x)

/-- several tables -/
def exchTRs (x : Exchange) : List TR → List TR
  | [] => []
  | a :: l => a.exch x :: exchTRs x l

/-- SELECT, FROM and WHERE -/
def SFW.exch (x : Exchange) : SFW → SFW
  | .mk a b c => .mk (a.exch x) (exchTRs x b) (c.exch x)

/-- a further one, with UNION or alike -/
def Addon.exch (x : Exchange) : Addon → Addon
  | .mk a b => .mk a (b.exch x)

/-- several of them -/
def exchAddons (x : Exchange) : List Addon → List Addon
  | [] => []
  | a :: l => a.exch x :: exchAddons x l

/-- all of them -/
def SFWList.exch (x : Exchange) : SFWList → SFWList
  | .mk a b => .mk (a.exch x) (exchAddons x b)

/-- a term of GROUP BY -/
def GroupTerm.exch (x : Exchange) : GroupTerm → GroupTerm
  | .col a => .col (x.col a)
  | .ve a => .ve (a.exch x)

/-- several of them -/
def exchGroup (x : Exchange) : List GroupTerm → List GroupTerm
  | [] => []
  | a :: l => a.exch x :: exchGroup x l

/-- a WITH clause -/
def With.exch (x : Exchange) : With → With
  | .mk a b c => .mk a b (c.exch x)

/-- a query -/
def QuerySpec.exch (x : Exchange) : QuerySpec → QuerySpec
  | .mk a b c d e => .mk (a.exch x) (b.exch x) (exchGroup x c) (d.exch x) (e.map (SortSpec.exch x))

end

namespace Spec

/-- any node -/
def Node.exch (x : Exchange) : Node → Node
  | .ve a => .ve (a.exch x)
  | .venb a => .venb (a.exch x)
  | .term a => .term (a.exch x)
  | .factor a => .factor (a.exch x)
  | .numPrim a => .numPrim (a.exch x)
  | .numFn a => .numFn (a.exch x)
  | .vep a => .vep (a.exch x)
  | .prim a => .prim (a.exch x)
  | .caseE a => .caseE (a.exch x)
  | .simpleWhen a => .simpleWhen (a.exch x)
  | .searchedWhen a => .searchedWhen (a.exch x)
  | .result a => .result (a.exch x)
  | .sc a => .sc (a.exch x)
  | .bf a => .bf (a.exch x)
  | .bp a => .bp (a.exch x)
  | .pred a => .pred (a.exch x)
  | .subq a => .subq (a.exch x)
  | .jt a => .jt (a.exch x)
  | .qj a => .qj (a.exch x)
  | .head a => .head (a.exch x)
  | .suffix a => .suffix (a.exch x)
  | .spec a => .spec (a.exch x)
  | .tr a => .tr (a.exch x)
  | .gpred a => .gpred (a.exch x)
  | .geom a => .geom (a.exch x)
  | .where_ a => .where_ (a.exch x)
  | .item a => .item (a.exch x)
  | .columns a => .columns (a.exch x)
  | .select a => .select (a.exch x)
  | .sfw a => .sfw (a.exch x)
  | .addon a => .addon (a.exch x)
  | .sfwList a => .sfwList (a.exch x)
  | .group a => .group (a.exch x)
  | .with_ a => .with_ (a.exch x)
  | .query a => .query (a.exch x)
  | .sort a => .sort (a.exch x)
  | .tcorr a => .tcorr (a.exch x)
  | .colRef a => .colRef (a.exch x)
  | .coordExpr a => .coordExpr (a.exch x)
  | .coord a => .coord (a.exch x)
  | .point a => .point (a.exch x)
  | .shape a => .shape (a.exch x)
  | .pointOrCol a => .pointOrCol (a.exch x)
  | .shapeOrCol a => .shapeOrCol (a.exch x)

/-- In the tree, the exchanged names are as well made as the names before, and no expression or join begins with a word that
has a meaning at its place and did not before. -/
structure Keeps (nots : Bool) (M : Str → Prop) (n : Node) (x : Exchange) : Prop where
  tab : ∀ t : TableCorr, Sub (.tcorr t) n → WellMade nots M (.tcorr (x.tab t)) ∧
    ∀ w ∈ [cs!"WITH", cs!"SELECT"], prefixCI w t.name = false → prefixCI w (x.tab t).name = false
  col : ∀ c : ColRef, Sub (.colRef c) n → WellMade nots M (.colRef (x.col c)) ∧
    ∀ w ∈ [cs!"NOT", cs!"EXISTS", cs!"WITH", cs!"SELECT"], prefixCI w (firstCol c) = false → prefixCI w (firstCol (x.col c)) = false
  star : ∀ s : Str, Sub (.item (.nonAsStr s)) n → WellMade nots M (.item (.nonAsStr (x.star s)))

/-- Another name for the tables, and a correlation name for those that have none. -/
def newTables (f a : Str → Str) : Exchange where
  tab t := ⟨f t.name, if t.as.isEmpty then a t.name else t.as⟩

/-- what is looked up, with other tables -/
def Used.withTables (f : Str → Str) : Used → Used
  | .table n => .table (f n)
  | u => u

/-- a table -/
def Used.table? : Used → Option Str
  | .table n => some n
  | _ => none

/-- a function -/
def Used.function? : Used → Option Str
  | .function n => some n
  | _ => none

/-- The tables that a query uses. -/
def tablesOf (fmt : Str → Str) (q : QuerySpec) : List Str := (q.uses fmt).filterMap Used.table?

/-- The functions that a query uses. -/
def functionsOf (fmt : Str → Str) (q : QuerySpec) : List Str := (q.uses fmt).filterMap Used.function?

end Spec

end Adql
