import Verif.Model.Print
import Verif.Spec.Lex

/-!
# Trees that differ only in spelling

`norm` writes everything that has several spellings in one of them and leaves the rest of the tree alone.  Two
trees with the same `norm` have the same clauses, in the same order, with the same operators, operands, functions,
tables, joins and names.  What is identified is:
* the letter case of connectives (AND, OR, UNION, ...) and of the NOT of IN, NULL and LIKE;
* the two orders in which a geometric predicate may be compared with a flag;
* the name of a table of several parts before a column and the same name given as one part (uploaded tables);
* a number and its formatted form, and the words for infinity and not-a-number and columns of this name.
-/

namespace Adql

open Spec

/-- a column with what stands before it -/
def ColRef.norm : ColRef → ColRef
  | .csqc a b c d => .qc (a ++ cs!"." ++ b ++ cs!"." ++ c) d
  | .sqc a b c => .qc (a ++ cs!"." ++ b) c
  | .qc a b => .qc a b
  | .col a => .col a

/-- The number is written as a word. -/
def writtenAsWord : Str → Prop
  | [] => False
  | c :: _ => Letter c

instance (c : Char) : Decidable (Letter c) := by unfold Letter; infer_instance
instance : (x : Str) → Decidable (writtenAsWord x)
  | [] => isFalse id
  | c :: _ => inferInstanceAs (Decidable (Letter c))

/-- NOT in capital letters -/
def normNot (n : Str) : Str := if n.isEmpty then [] else cs!"NOT"

/-- sort keys -/
def SortSpec.norm : SortSpec → SortSpec
  | ⟨.inl k, o⟩ => ⟨.inl k, o⟩
  | ⟨.inr c, o⟩ => ⟨.inr c.norm, o⟩

section
variable (fmt : Str → Str)

/-- a coordinate -/
def CoordExpr.norm : CoordExpr → CoordExpr
  | .bae x o y => .bae (fmt x) o (fmt y)
  | .col c => .col c.norm
  | .num x => if writtenAsWord (fmt x) then .col (.col (fmt x)) else .num (fmt x)

/-- two coordinates -/
def Coord.norm (c : Coord) : Coord := ⟨c.ra.norm fmt, c.dec.norm fmt⟩

/-- a point -/
def Point.norm (p : Point) : Point := ⟨p.sys, p.coord.norm fmt⟩

/-- a shape -/
def Shape.norm : Shape → Shape
  | .point p => .point (p.norm fmt)
  | .circle s c r => .circle s (c.norm fmt) (r.norm fmt)
  | .box s c w h => .box s (c.norm fmt) (w.norm fmt) (h.norm fmt)
  | .ellipse s c a b r => .ellipse s (c.norm fmt) (a.norm fmt) (b.norm fmt) (r.norm fmt)
  | .polygon s cs => .polygon s (cs.map (Coord.norm fmt))

/-- a point or a column -/
def PointOrCol.norm : PointOrCol → PointOrCol
  | .point p => .point (p.norm fmt)
  | .col c => .col c.norm

/-- a shape or a column -/
def ShapeOrCol.norm : ShapeOrCol → ShapeOrCol
  | .shape s => .shape (s.norm fmt)
  | .col c => .col c.norm

end

mutual

/-- a value -/
def VE.norm (fmt : Str → Str) : VE → VE
  | .nb v => .nb (v.norm fmt)
  | .sc s => .sc (s.norm fmt)

/-- an expression -/
def VENB.norm (fmt : Str → Str) : VENB → VENB
  | .mk f ts => .mk (f.norm fmt) (normTerms fmt ts)

/-- its further operands -/
def normTerms (fmt : Str → Str) : List Term → List Term
  | [] => []
  | t :: ts => t.norm fmt :: normTerms fmt ts

/-- an operator and an operand -/
def Term.norm (fmt : Str → Str) : Term → Term
  | .mk op f => .mk op (f.norm fmt)

/-- an operand with its sign -/
def Factor.norm (fmt : Str → Str) : Factor → Factor
  | .mk sign np => .mk sign (np.norm fmt)

/-- an operand -/
def NumPrim.norm (fmt : Str → Str) : NumPrim → NumPrim
  | .vep v => .vep (v.norm fmt)
  | .nvf f => .nvf (f.norm fmt)

/-- a function -/
def NumFn.norm (fmt : Str → Str) : NumFn → NumFn
  | .trig1 fn a => .trig1 fn (a.norm fmt)
  | .trig2 fn a b => .trig2 fn (a.norm fmt) (b.norm fmt)
  | .math0 fn => .math0 fn
  | .math1 fn a => .math1 fn (a.norm fmt)
  | .math2 fn a b => .math2 fn (a.norm fmt) (b.norm fmt)
  | .cast e as len => .cast (e.norm fmt) as len
  | .geo1 fn p => .geo1 fn (p.norm fmt)
  | .geo2 fn p q => .geo2 fn (p.norm fmt) (q.norm fmt)
  | .udf fn args => .udf fn (normVEs fmt args)
  | .str s => .str s

/-- several values -/
def normVEs (fmt : Str → Str) : List VE → List VE
  | [] => []
  | e :: es => e.norm fmt :: normVEs fmt es

/-- a primary with its indices -/
def VEP.norm (fmt : Str → Str) : VEP → VEP
  | .mk v idx => .mk (v.norm fmt) (normVEs fmt idx)

/-- a primary -/
def Prim.norm (fmt : Str → Str) : Prim → Prim
  | .arr vs => .arr (normVEs fmt vs)
  | .str s => .str s
  | .col c => .col c.norm
  | .countStar s => .countStar s
  | .setFn fn q e => .setFn fn q (e.norm fmt)
  | .case c => .case (c.norm fmt)
  | .any e => .any (e.norm fmt)
  | .sub e => .sub (e.norm fmt)

/-- a case expression -/
def CaseE.norm (fmt : Str → Str) : CaseE → CaseE
  | .nullif a b => .nullif (a.norm fmt) (b.norm fmt)
  | .coalesce l => .coalesce (normVEs fmt l)
  | .simple o ws els => .simple (o.norm fmt) (normWhens fmt ws) (els.norm fmt)
  | .searched ws els => .searched (normConds fmt ws) (els.norm fmt)

/-- its alternatives, with values -/
def normWhens (fmt : Str → Str) : List SimpleWhen → List SimpleWhen
  | [] => []
  | .mk e r :: ws => .mk (e.norm fmt) (r.norm fmt) :: normWhens fmt ws

/-- its alternatives, with conditions -/
def normConds (fmt : Str → Str) : List SearchedWhen → List SearchedWhen
  | [] => []
  | .mk c r :: ws => .mk (c.norm fmt) (r.norm fmt) :: normConds fmt ws

/-- its results -/
def CaseResult.norm (fmt : Str → Str) : CaseResult → CaseResult
  | .str s => .str s
  | .ve e => .ve (e.norm fmt)

/-- a condition -/
def SC.norm (fmt : Str → Str) : SC → SC
  | .factor b => .factor (b.norm fmt)
  | .term b op s => .term (b.norm fmt) (upper op) (s.norm fmt)

/-- a factor of a condition -/
def BF.norm (fmt : Str → Str) : BF → BF
  | .mk n p => .mk n (p.norm fmt)

/-- a factor without NOT -/
def BP.norm (fmt : Str → Str) : BP → BP
  | .pred p => .pred (p.norm fmt)
  | .sc s => .sc (s.norm fmt)
  | .ve v => .ve (v.norm fmt)

/-- a predicate -/
def Pred.norm (fmt : Str → Str) : Pred → Pred
  | .cmp l op r => .cmp (l.norm fmt) op (r.norm fmt)
  | .between v n lo hi => .between (v.norm fmt) n (lo.norm fmt) (hi.norm fmt)
  | .inSub v n q => .inSub (v.norm fmt) (normNot n) (q.norm fmt)
  | .inList v n vs => .inList (v.norm fmt) (normNot n) (normVEs fmt vs)
  | .null v n => .null (v.norm fmt) (normNot n)
  | .like v n p => .like (v.norm fmt) (normNot n) (p.norm fmt)
  | .exist q => .exist (q.norm fmt)

/-- a subquery -/
def Subquery.norm (fmt : Str → Str) : Subquery → Subquery
  | .jt j => .jt (j.norm fmt)
  | .qs q => .qs (q.norm fmt)

/-- a join -/
def JT.norm (fmt : Str → Str) : JT → JT
  | .qj q => .qj (q.norm fmt)
  | .wrap j => .wrap (j.norm fmt)

/-- a join without parentheses -/
def QJ.norm (fmt : Str → Str) : QJ → QJ
  | .mk h ss => .mk (h.norm fmt) (normSuffixes fmt ss)

/-- its first table -/
def QJHead.norm (fmt : Str → Str) : QJHead → QJHead
  | .tc t => .tc t
  | .jt j => .jt (j.norm fmt)

/-- its further tables -/
def normSuffixes (fmt : Str → Str) : List JoinSuffix → List JoinSuffix
  | [] => []
  | s :: ss => s.norm fmt :: normSuffixes fmt ss

/-- one of them -/
def JoinSuffix.norm (fmt : Str → Str) : JoinSuffix → JoinSuffix
  | .mk nat ty t sp => .mk nat ty (t.norm fmt) (sp.norm fmt)

/-- its specification -/
def JoinSpec.norm (fmt : Str → Str) : JoinSpec → JoinSpec
  | .named l => .named l
  | .on s => .on (s.norm fmt)

/-- a table -/
def TR.norm (fmt : Str → Str) : TR → TR
  | .tc t => .tc t
  | .jt j => .jt (j.norm fmt)
  | .derived q as => .derived (q.norm fmt) as
  | .tvf n args => .tvf n args

/-- a geometric predicate -/
def GPred.norm (fmt : Str → Str) : GPred → GPred
  | .intersects e s => .intersects (e.norm fmt) (s.norm fmt)
  | .contains l r => .contains (l.norm fmt) (r.norm fmt)

/-- a geometric predicate with its flag -/
def Geom.norm (fmt : Str → Str) : Geom → Geom
  | .left flag p => .right (p.norm fmt) flag
  | .right p flag => .right (p.norm fmt) flag

/-- a WHERE clause -/
def Where.norm (fmt : Str → Str) : Where → Where
  | .mk g s => .mk (g.norm fmt) (s.norm fmt)

/-- an item of the select list -/
def Item.norm (fmt : Str → Str) : Item → Item
  | .as e a => .as (e.norm fmt) a
  | .nonAsStr s => .nonAsStr s
  | .nonAsVE e => .nonAsVE (e.norm fmt)

/-- several of them -/
def normItems (fmt : Str → Str) : List Item → List Item
  | [] => []
  | i :: is => i.norm fmt :: normItems fmt is

/-- a select list -/
def Columns.norm (fmt : Str → Str) : Columns → Columns
  | .star s => .star s
  | .items l => .items (normItems fmt l)

/-- a SELECT clause -/
def Select.norm (fmt : Str → Str) : Select → Select
  | .mk q t c => .mk q t (c.norm fmt)

/-- several tables -/
def normTRs (fmt : Str → Str) : List TR → List TR
  | [] => []
  | t :: ts => t.norm fmt :: normTRs fmt ts

/-- SELECT, FROM and WHERE -/
def SFW.norm (fmt : Str → Str) : SFW → SFW
  | .mk s ts w => .mk (s.norm fmt) (normTRs fmt ts) (w.norm fmt)

/-- a further one, with UNION or alike -/
def Addon.norm (fmt : Str → Str) : Addon → Addon
  | .mk op s => .mk (upper op) (s.norm fmt)

/-- several of them -/
def normAddons (fmt : Str → Str) : List Addon → List Addon
  | [] => []
  | a :: as => a.norm fmt :: normAddons fmt as

/-- all of them -/
def SFWList.norm (fmt : Str → Str) : SFWList → SFWList
  | .mk i as => .mk (i.norm fmt) (normAddons fmt as)

/-- a term of GROUP BY -/
def GroupTerm.norm (fmt : Str → Str) : GroupTerm → GroupTerm
  | .col c => .col c.norm
  | .ve e => .ve (e.norm fmt)

/-- several of them -/
def normGroup (fmt : Str → Str) : List GroupTerm → List GroupTerm
  | [] => []
  | g :: gs => g.norm fmt :: normGroup fmt gs

/-- a WITH clause -/
def With.norm (fmt : Str → Str) : With → With
  | .mk n cols q => .mk n cols (q.norm fmt)

/-- a query -/
def QuerySpec.norm (fmt : Str → Str) : QuerySpec → QuerySpec
  | .mk w l g h o => .mk (w.norm fmt) (l.norm fmt) (normGroup fmt g) (h.norm fmt) (o.map SortSpec.norm)

end

/-- The two queries differ only in spelling. -/
def SameQuery (fmt : Str → Str) (q q' : QuerySpec) : Prop := q'.norm fmt = q.norm fmt

end Adql
