import Verif.Spec.Restrict

/-!
# Every SELECT of a query changed, at any depth

In the FROM clauses, in the conditions, in the select lists, in WITH.
-/

namespace Adql

mutual

/-- a value -/
def VE.deep (f : SFW → SFW) : VE → VE
  | .nb a => .nb (a.deep f)
  | .sc a => .sc (a.deep f)

/-- an expression -/
def VENB.deep (f : SFW → SFW) : VENB → VENB
  | .mk a b => .mk (a.deep f) (deepTerms f b)

/-- its further operands -/
def deepTerms (f : SFW → SFW) : List Term → List Term
  | [] => []
  | a :: l => a.deep f :: deepTerms f l

/-- an operator and an operand -/
def Term.deep (f : SFW → SFW) : Term → Term
  | .mk a b => .mk a (b.deep f)

/-- an operand with its sign -/
def Factor.deep (f : SFW → SFW) : Factor → Factor
  | .mk a b => .mk a (b.deep f)

/-- an operand -/
def NumPrim.deep (f : SFW → SFW) : NumPrim → NumPrim
  | .vep a => .vep (a.deep f)
  | .nvf a => .nvf (a.deep f)

/-- a function -/
def NumFn.deep (f : SFW → SFW) : NumFn → NumFn
  | .trig1 a b => .trig1 a (b.deep f)
  | .trig2 a b c => .trig2 a (b.deep f) (c.deep f)
  | .math0 a => .math0 a
  | .math1 a b => .math1 a (b.deep f)
  | .math2 a b c => .math2 a (b.deep f) (c.deep f)
  | .cast a b c => .cast (a.deep f) b c
  | .geo1 a b => .geo1 a b
  | .geo2 a b c => .geo2 a b c
  | .udf a b => .udf a (deepVEs f b)
  | .str a => .str a

/-- several values -/
def deepVEs (f : SFW → SFW) : List VE → List VE
  | [] => []
  | a :: l => a.deep f :: deepVEs f l

/-- a primary with its indices -/
def VEP.deep (f : SFW → SFW) : VEP → VEP
  | .mk a b => .mk (a.deep f) (deepVEs f b)

/-- a primary -/
def Prim.deep (f : SFW → SFW) : Prim → Prim
  | .arr a => .arr (deepVEs f a)
  | .str a => .str a
  | .col a => .col a
  | .countStar a => .countStar a
  | .setFn a b c => .setFn a b (c.deep f)
  | .case a => .case (a.deep f)
  | .any a => .any (a.deep f)
  | .sub a => .sub (a.deep f)

/-- a case expression -/
def CaseE.deep (f : SFW → SFW) : CaseE → CaseE
  | .nullif a b => .nullif (a.deep f) (b.deep f)
  | .coalesce a => .coalesce (deepVEs f a)
  | .simple a b c => .simple (a.deep f) (deepWhens f b) (c.deep f)
  | .searched a b => .searched (deepConds f a) (b.deep f)

/-- an alternative with a value -/
def SimpleWhen.deep (f : SFW → SFW) : SimpleWhen → SimpleWhen
  | .mk a b => .mk (a.deep f) (b.deep f)

/-- several of them -/
def deepWhens (f : SFW → SFW) : List SimpleWhen → List SimpleWhen
  | [] => []
  | a :: l => a.deep f :: deepWhens f l

/-- an alternative with a condition -/
def SearchedWhen.deep (f : SFW → SFW) : SearchedWhen → SearchedWhen
  | .mk a b => .mk (a.deep f) (b.deep f)

/-- several of them -/
def deepConds (f : SFW → SFW) : List SearchedWhen → List SearchedWhen
  | [] => []
  | a :: l => a.deep f :: deepConds f l

/-- its results -/
def CaseResult.deep (f : SFW → SFW) : CaseResult → CaseResult
  | .str a => .str a
  | .ve a => .ve (a.deep f)

/-- a condition -/
def SC.deep (f : SFW → SFW) : SC → SC
  | .factor a => .factor (a.deep f)
  | .term a b c => .term (a.deep f) b (c.deep f)

/-- a factor of a condition -/
def BF.deep (f : SFW → SFW) : BF → BF
  | .mk a b => .mk a (b.deep f)

/-- a factor without NOT -/
def BP.deep (f : SFW → SFW) : BP → BP
  | .pred a => .pred (a.deep f)
  | .sc a => .sc (a.deep f)
  | .ve a => .ve (a.deep f)

/-- a predicate -/
def Pred.deep (f : SFW → SFW) : Pred → Pred
  | .cmp a b c => .cmp (a.deep f) b (c.deep f)
  | .between a b c d => .between (a.deep f) b (c.deep f) (d.deep f)
  | .inSub a b c => .inSub (a.deep f) b (c.deep f)
  | .inList a b c => .inList (a.deep f) b (deepVEs f c)
  | .null a b => .null (a.deep f) b
  | .like a b c => .like (a.deep f) b (c.deep f)
  | .exist a => .exist (a.deep f)

/-- a subquery -/
def Subquery.deep (f : SFW → SFW) : Subquery → Subquery
  | .jt a => .jt (a.deep f)
  | .qs a => .qs (a.deep f)

/-- a join -/
def JT.deep (f : SFW → SFW) : JT → JT
  | .qj a => .qj (a.deep f)
  | .wrap a => .wrap (a.deep f)

/-- a join without parentheses -/
def QJ.deep (f : SFW → SFW) : QJ → QJ
  | .mk a b => .mk (a.deep f) (deepSuffixes f b)

/-- its first table -/
def QJHead.deep (f : SFW → SFW) : QJHead → QJHead
  | .tc a => .tc a
  | .jt a => .jt (a.deep f)

/-- its further tables -/
def deepSuffixes (f : SFW → SFW) : List JoinSuffix → List JoinSuffix
  | [] => []
  | a :: l => a.deep f :: deepSuffixes f l

/-- one of them -/
def JoinSuffix.deep (f : SFW → SFW) : JoinSuffix → JoinSuffix
  | .mk a b c d => .mk a b (c.deep f) (d.deep f)

/-- its specification -/
def JoinSpec.deep (f : SFW → SFW) : JoinSpec → JoinSpec
  | .named a => .named a
  | .on a => .on (a.deep f)

/-- a table -/
def TR.deep (f : SFW → SFW) : TR → TR
  | .tc a => .tc a
  | .jt a => .jt (a.deep f)
  | .derived a b => .derived (a.deep f) b
  | .tvf a b => .tvf a b

/-- a geometric predicate -/
def GPred.deep (f : SFW → SFW) : GPred → GPred
  | .intersects a b => .intersects (a.deep f) b
  | .contains a b => .contains a b

/-- a geometric predicate with its flag -/
def Geom.deep (f : SFW → SFW) : Geom → Geom
  | .left a b => .left a (b.deep f)
  | .right a b => .right (a.deep f) b

/-- a WHERE clause -/
def Where.deep (f : SFW → SFW) : Where → Where
  | .mk a b => .mk (a.deep f) (b.deep f)

/-- an item of the select list -/
def Item.deep (f : SFW → SFW) : Item → Item
  | .as a b => .as (a.deep f) b
  | .nonAsStr a => .nonAsStr a
  | .nonAsVE a => .nonAsVE (a.deep f)

/-- several of them -/
def deepItems (f : SFW → SFW) : List Item → List Item
  | [] => []
  | a :: l => a.deep f :: deepItems f l

/-- a select list -/
def Columns.deep (f : SFW → SFW) : Columns → Columns
  | .star a => .star a
  | .items a => .items (deepItems f a)

/-- a SELECT clause -/
def Select.deep (f : SFW → SFW) : Select → Select
  | .mk a b c => .mk a b (c.deep f)

/-- several tables -/
def deepTRs (f : SFW → SFW) : List TR → List TR
  | [] => []
  | a :: l => a.deep f :: deepTRs f l

/-- SELECT, FROM and WHERE -/
def SFW.deep (f : SFW → SFW) : SFW → SFW
  | .mk a b c => f (.mk (a.deep f) (deepTRs f b) (c.deep f))

/-- a further one, with UNION or alike -/
def Addon.deep (f : SFW → SFW) : Addon → Addon
  | .mk a b => .mk a (b.deep f)

/-- several of them -/
def deepAddons (f : SFW → SFW) : List Addon → List Addon
  | [] => []
  | a :: l => a.deep f :: deepAddons f l

/-- all of them -/
def SFWList.deep (f : SFW → SFW) : SFWList → SFWList
  | .mk a b => .mk (a.deep f) (deepAddons f b)

/-- a term of GROUP BY -/
def GroupTerm.deep (f : SFW → SFW) : GroupTerm → GroupTerm
  | .col a => .col a
  | .ve a => .ve (a.deep f)

/-- several of them -/
def deepGroup (f : SFW → SFW) : List GroupTerm → List GroupTerm
  | [] => []
  | a :: l => a.deep f :: deepGroup f l

/-- a WITH clause -/
def With.deep (f : SFW → SFW) : With → With
  | .mk a b c => .mk a b (c.deep f)

/-- a query -/
def QuerySpec.deep (f : SFW → SFW) : QuerySpec → QuerySpec
  | .mk a b c d e => .mk (a.deep f) (b.deep f) (deepGroup f c) (d.deep f) e

end

mutual

/-- a value -/
def VE.selects : VE → List SFW
  | .nb a => a.selects
  | .sc a => a.selects

/-- an expression -/
def VENB.selects : VENB → List SFW
  | .mk a b => a.selects ++ selectsTerms b

/-- its further operands -/
def selectsTerms : List Term → List SFW
  | [] => []
  | a :: l => a.selects ++ selectsTerms l

/-- an operator and an operand -/
def Term.selects : Term → List SFW
  | .mk _ b => b.selects

/-- an operand with its sign -/
def Factor.selects : Factor → List SFW
  | .mk _ b => b.selects

/-- an operand -/
def NumPrim.selects : NumPrim → List SFW
  | .vep a => a.selects
  | .nvf a => a.selects

/-- a function -/
def NumFn.selects : NumFn → List SFW
  | .trig1 _ b => b.selects
  | .trig2 _ b c => b.selects ++ c.selects
  | .math0 _ => []
  | .math1 _ b => b.selects
  | .math2 _ b c => b.selects ++ c.selects
  | .cast a _ _ => a.selects
  | .geo1 _ _ => []
  | .geo2 _ _ _ => []
  | .udf _ b => selectsVEs b
  | .str _ => []

/-- several values -/
def selectsVEs : List VE → List SFW
  | [] => []
  | a :: l => a.selects ++ selectsVEs l

/-- a primary with its indices -/
def VEP.selects : VEP → List SFW
  | .mk a b => a.selects ++ selectsVEs b

/-- a primary -/
def Prim.selects : Prim → List SFW
  | .arr a => selectsVEs a
  | .str _ => []
  | .col _ => []
  | .countStar _ => []
  | .setFn _ _ c => c.selects
  | .case a => a.selects
  | .any a => a.selects
  | .sub a => a.selects

/-- a case expression -/
def CaseE.selects : CaseE → List SFW
  | .nullif a b => a.selects ++ b.selects
  | .coalesce a => selectsVEs a
  | .simple a b c => a.selects ++ selectsWhens b ++ c.selects
  | .searched a b => selectsConds a ++ b.selects

/-- an alternative with a value -/
def SimpleWhen.selects : SimpleWhen → List SFW
  | .mk a b => a.selects ++ b.selects

/-- several of them -/
def selectsWhens : List SimpleWhen → List SFW
  | [] => []
  | a :: l => a.selects ++ selectsWhens l

/-- an alternative with a condition -/
def SearchedWhen.selects : SearchedWhen → List SFW
  | .mk a b => a.selects ++ b.selects

/-- several of them -/
def selectsConds : List SearchedWhen → List SFW
  | [] => []
  | a :: l => a.selects ++ selectsConds l

/-- its results -/
def CaseResult.selects : CaseResult → List SFW
  | .str _ => []
  | .ve a => a.selects

/-- a condition -/
def SC.selects : SC → List SFW
  | .factor a => a.selects
  | .term a _ c => a.selects ++ c.selects

/-- a factor of a condition -/
def BF.selects : BF → List SFW
  | .mk _ b => b.selects

/-- a factor without NOT -/
def BP.selects : BP → List SFW
  | .pred a => a.selects
  | .sc a => a.selects
  | .ve a => a.selects

/-- a predicate -/
def Pred.selects : Pred → List SFW
  | .cmp a _ c => a.selects ++ c.selects
  | .between a _ c d => a.selects ++ c.selects ++ d.selects
  | .inSub a _ c => a.selects ++ c.selects
  | .inList a _ c => a.selects ++ selectsVEs c
  | .null a _ => a.selects
  | .like a _ c => a.selects ++ c.selects
  | .exist a => a.selects

/-- a subquery -/
def Subquery.selects : Subquery → List SFW
  | .jt a => a.selects
  | .qs a => a.selects

/-- a join -/
def JT.selects : JT → List SFW
  | .qj a => a.selects
  | .wrap a => a.selects

/-- a join without parentheses -/
def QJ.selects : QJ → List SFW
  | .mk a b => a.selects ++ selectsSuffixes b

/-- its first table -/
def QJHead.selects : QJHead → List SFW
  | .tc _ => []
  | .jt a => a.selects

/-- its further tables -/
def selectsSuffixes : List JoinSuffix → List SFW
  | [] => []
  | a :: l => a.selects ++ selectsSuffixes l

/-- one of them -/
def JoinSuffix.selects : JoinSuffix → List SFW
  | .mk _ _ c d => c.selects ++ d.selects

/-- its specification -/
def JoinSpec.selects : JoinSpec → List SFW
  | .named _ => []
  | .on a => a.selects

/-- a table -/
def TR.selects : TR → List SFW
  | .tc _ => []
  | .jt a => a.selects
  | .derived a _ => a.selects
  | .tvf _ _ => []

/-- a geometric predicate -/
def GPred.selects : GPred → List SFW
  | .intersects a _ => a.selects
  | .contains _ _ => []

/-- a geometric predicate with its flag -/
def Geom.selects : Geom → List SFW
  | .left _ b => b.selects
  | .right a _ => a.selects

/-- a WHERE clause -/
def Where.selects : Where → List SFW
  | .mk a b => a.selects ++ b.selects

/-- an item of the select list -/
def Item.selects : Item → List SFW
  | .as a _ => a.selects
  | .nonAsStr _ => []
  | .nonAsVE a => a.selects

/-- several of them -/
def selectsItems : List Item → List SFW
  | [] => []
  | a :: l => a.selects ++ selectsItems l

/-- a select list -/
def Columns.selects : Columns → List SFW
  | .star _ => []
  | .items a => selectsItems a

/-- a SELECT clause -/
def Select.selects : Select → List SFW
  | .mk _ _ c => c.selects

/-- several tables -/
def selectsTRs : List TR → List SFW
  | [] => []
  | a :: l => a.selects ++ selectsTRs l

/-- a SELECT and those in it -/
def SFW.selects : SFW → List SFW
  | .mk a b c => .mk a b c :: (a.selects ++ selectsTRs b ++ c.selects)

/-- a further one, with UNION or alike -/
def Addon.selects : Addon → List SFW
  | .mk _ b => b.selects

/-- several of them -/
def selectsAddons : List Addon → List SFW
  | [] => []
  | a :: l => a.selects ++ selectsAddons l

/-- all of them -/
def SFWList.selects : SFWList → List SFW
  | .mk a b => a.selects ++ selectsAddons b

/-- a term of GROUP BY -/
def GroupTerm.selects : GroupTerm → List SFW
  | .col _ => []
  | .ve a => a.selects

/-- several of them -/
def selectsGroup : List GroupTerm → List SFW
  | [] => []
  | a :: l => a.selects ++ selectsGroup l

/-- a WITH clause -/
def With.selects : With → List SFW
  | .mk _ _ c => c.selects

/-- a query -/
def QuerySpec.selects : QuerySpec → List SFW
  | .mk a b c d _ => a.selects ++ b.selects ++ selectsGroup c ++ d.selects

end

/-- a SELECT with changes in its parts only -/
def SFW.inner (f : SFW → SFW) : SFW → SFW
  | .mk a b c => .mk (a.deep f) (deepTRs f b) (c.deep f)

mutual

/-- The names of the tables in a table of FROM. -/
def TR.reads : TR → List Str
  | .tc t => [t.name]
  | .jt j => j.reads
  | .derived _ _ => []
  | .tvf _ _ => []

/-- those in a join -/
def JT.reads : JT → List Str
  | .qj q => q.reads
  | .wrap j => j.reads

/-- without parentheses -/
def QJ.reads : QJ → List Str
  | .mk h ss => h.reads ++ readsSuffixes ss

/-- in its first table -/
def QJHead.reads : QJHead → List Str
  | .tc t => [t.name]
  | .jt j => j.reads

/-- in its further tables -/
def readsSuffixes : List JoinSuffix → List Str
  | [] => []
  | s :: l => s.reads ++ readsSuffixes l

/-- in one of them -/
def JoinSuffix.reads : JoinSuffix → List Str
  | .mk _ _ t _ => t.reads

end

/-- in several tables -/
def readsTRs : List TR → List Str
  | [] => []
  | t :: l => t.reads ++ readsTRs l

namespace Spec

/-- The SELECTs below a SELECT. -/
def lower : SFW → List SFW
  | .mk s ts w => s.selects ++ selectsTRs ts ++ w.selects

/-- The tables that a FROM clause names itself; those of its subqueries are read by other SELECTs. -/
def fromNames (ts : List TR) : List Str := readsTRs ts

/-- The conditions for the tables of a FROM clause, each in parentheses. -/
def allOf (c : Str → Option SC) (ts : List TR) : Option SC :=
  match (fromNames ts).filterMap c with
  | [] => none
  | d :: l => some (l.foldl both d)

/-- A SELECT with the conditions for its tables. -/
def addConds (c : Str → Option SC) : SFW → SFW
  | .mk s ts w => match allOf c ts with
    | none => .mk s ts w
    | some d => restrict d (.mk s ts w)

/-- The SELECT gives only rows for which the conditions for its tables hold. -/
def Guarded (c : Str → Option SC) (γ : Geom → Truth) (ρ : BP → Truth) : SFW → Prop
  | .mk _ ts w => ∀ n ∈ fromNames ts, ∀ d, c n = some d → whereHolds γ ρ w = .yes → holds ρ d = .yes

end Spec

end Adql
