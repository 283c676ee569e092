import Verif.Model.Query

/-!
# The read accessors of a parsed query

`/repo/src/Query/Query_Specification/Select_From_Where_List.hxx`,
`/repo/src/Query/Query_Specification.hxx`, `/repo/src/Query.hxx`,
`/repo/src/Query/simplified_columns.cxx`, and the numeric accessors of
`/repo/src/Query/Query_Specification/Binary_Arithmetic_Expression.hxx` and
`/repo/src/Query/Query_Specification/Geometry/Column_or_Simple_Arithmetic_Expression.hxx`.
-/

namespace Adql

/-- What the accessors throw. -/
inductive AErr where
  /-- `validate_sfw_index` (Select_From_Where_List.hxx L37-L42) -/
  | sfwIndex
  /-- `get_union_op` (Select_From_Where_List.hxx L70) -/
  | unionIndex
  /-- `std::vector::at` (`std::out_of_range`) -/
  | outOfRange
  /-- Binary_Arithmetic_Expression.hxx L27 -/
  | zeroDenominator
  /-- Binary_Arithmetic_Expression.hxx L32 -/
  | unknownOperator
  /-- Column_or_Simple_Arithmetic_Expression.hxx L28 -/
  | expectedNumber (text : Str)
deriving DecidableEq, Repr

/-- Outcome of an accessor. -/
abbrev ARes (α : Type) := Except AErr α

/-- `select` member -/
def SFW.select : SFW → Select | .mk s _ _ => s
/-- `tables` member -/
def SFW.tables : SFW → List TR | .mk _ t _ => t
/-- `where` member -/
def SFW.where_ : SFW → Where | .mk _ _ w => w
/-- `columns` member -/
def Select.columns : Select → Columns | .mk _ _ c => c
/-- `all_or_distinct` member -/
def Select.allOrDistinct : Select → Str | .mk q _ _ => q
/-- `top` member -/
def Select.top : Select → Nat | .mk _ t _ => t
/-- `geometry` member -/
def Where.geometry : Where → Geom | .mk g _ => g
/-- `search_condition` member -/
def Where.searchCondition : Where → SC | .mk _ s => s
/-- `union_op` member -/
def Addon.unionOp : Addon → Str | .mk o _ => o
/-- `select_from_where` member -/
def Addon.sfw : Addon → SFW | .mk _ s => s
/-- `select_from_where_initial` member -/
def SFWList.initial : SFWList → SFW | .mk i _ => i
/-- `select_from_where_addon_list` member -/
def SFWList.addons : SFWList → List Addon | .mk _ a => a
/-- `with` member -/
def QuerySpec.with_ : QuerySpec → With | .mk w _ _ _ _ => w
/-- `select_from_where_list` member -/
def QuerySpec.sfws : QuerySpec → SFWList | .mk _ s _ _ _ => s
/-- `group_by` member -/
def QuerySpec.groupBy : QuerySpec → List GroupTerm | .mk _ _ g _ _ => g
/-- `having` member -/
def QuerySpec.having : QuerySpec → SC | .mk _ _ _ h _ => h
/-- `order_by` member -/
def QuerySpec.orderBy : QuerySpec → List SortSpec | .mk _ _ _ _ o => o

/-- `std::vector::at` -/
def vecAt {α : Type} (l : List α) (i : Nat) : ARes α :=
  match l[i]? with
  | some a => .ok a
  | none => .error .outOfRange

/-- `get_num_sfws` (Select_From_Where_List.hxx L74-L79); the result type is a 32-bit `uint`. -/
def SFWList.numSfws (l : SFWList) : Nat :=
  if l.isEmpty then 0 else (1 + l.addons.length) % 2 ^ 32

/-- `validate_sfw_index` (Select_From_Where_List.hxx L37-L42) -/
def SFWList.validate (l : SFWList) (i : Nat) : ARes Unit :=
  if l.numSfws ≤ i then .error .sfwIndex else .ok ()

/-- `get_sfw` (Select_From_Where_List.hxx L50-L56) -/
def SFWList.getSfw (l : SFWList) (i : Nat) : ARes SFW :=
  if i = 0 then .ok l.initial
  else do
    l.validate i
    let a ← vecAt l.addons (i - 1)
    return a.sfw

/-- `get_union_op` (Select_From_Where_List.hxx L66-L72) -/
def SFWList.getUnionOp (l : SFWList) (i : Nat) : ARes Str :=
  if 0 < i ∧ i < l.numSfws then do
    let a ← vecAt l.addons (i - 1)
    return a.unionOp
  else .error .unionIndex

/-- `get_where` (Select_From_Where_List.hxx L81-L84) -/
def SFWList.getWhere (l : SFWList) (i : Nat) : ARes Where := do
  l.validate i
  return (← l.getSfw i).where_

/-- `get_select` (Select_From_Where_List.hxx L86-L89) -/
def SFWList.getSelect (l : SFWList) (i : Nat) : ARes Select := do
  l.validate i
  return (← l.getSfw i).select

/-- `get_initial_table` (Select_From_Where_List.hxx L96-L99) -/
def SFWList.getInitialTable (l : SFWList) (i : Nat) : ARes TR := do
  l.validate i
  vecAt (← l.getSfw i).tables 0

/-- The loop of `get_combined_table_list` (Select_From_Where_List.hxx L108-L111), `n` iterations
from index `i`. -/
def SFWList.combineFrom (l : SFWList) : Nat → Nat → List TR → ARes (List TR)
  | 0, _, acc => .ok acc
  | n + 1, i, acc => do
    let s ← l.getSfw i
    l.combineFrom n (i + 1) (acc ++ s.tables)

/-- `get_combined_table_list` (Select_From_Where_List.hxx L102-L113) -/
def SFWList.combinedTables (l : SFWList) : ARes (List TR) :=
  if l.isEmpty then .ok [] else l.combineFrom l.numSfws 0 []

/-- The loop of `get_table_lists_by_sfw` (Select_From_Where_List.hxx L123-L126). -/
def SFWList.listsFrom (l : SFWList) : Nat → Nat → List (List TR) → ARes (List (List TR))
  | 0, _, acc => .ok acc
  | n + 1, i, acc => do
    let s ← l.getSfw i
    l.listsFrom n (i + 1) (acc ++ [s.tables])

/-- `get_table_lists_by_sfw` (Select_From_Where_List.hxx L115-L128) -/
def SFWList.tableLists (l : SFWList) : ARes (List (List TR)) :=
  if l.numSfws = 0 then .ok [] else l.listsFrom l.numSfws 0 []

/-- `is_union_query` (Query_Specification.hxx L41-L45) -/
def QuerySpec.isUnion (q : QuerySpec) : Bool := 1 < q.sfws.numSfws

/-- `simple_spatial_query` (Query.hxx L31-L41) -/
def QuerySpec.simpleSpatial (q : QuerySpec) : Bool :=
  q.sfws.numSfws == 1 &&
  (q.sfws.initial.select.allOrDistinct.isEmpty ||
    q.sfws.initial.select.allOrDistinct == cs!"ALL") &&
  q.sfws.initial.where_.searchCondition.isEmpty &&
  q.with_.isEmpty && q.groupBy.isEmpty && q.orderBy.isEmpty && q.having.isEmpty

/-- `Column_Visitor` (simplified_columns.cxx L4-L15) -/
def Item.simplified (fmt : Str → Str) : Item → Str × Str
  | .as e n => (e.print fmt, n)
  | i => (i.print fmt, i.print fmt)

/-- `Columns_Visitor` (simplified_columns.cxx L17-L29) -/
def Columns.simplified (fmt : Str → Str) : Columns → List (Str × Str)
  | .star s => [(s, [])]
  | .items l => l.map (Item.simplified fmt)

/-- `simplified_columns` (simplified_columns.cxx L32-L38).  `simplified_columns_list`
(Query.hxx L26-L27) is declared but defined nowhere in `/repo`. -/
def QuerySpec.simplifiedColumns (fmt : Str → Str) (q : QuerySpec) (idx : Nat) :
    ARes (List (Str × Str)) := do
  return (← q.sfws.getSfw idx).select.columns.simplified fmt

/-- The `double` operations used by `evaluate`; IEEE arithmetic itself is not modelled. -/
structure Arith (D : Type) where
  add : D → D → D
  sub : D → D → D
  mul : D → D → D
  div : D → D → D
  isZero : D → Bool
  /-- the value `qi::double_` assigns to a numeral -/
  read : Str → D

/-- `Binary_Arithmetic_Expression::evaluate` (Binary_Arithmetic_Expression.hxx L16-L34) -/
def evaluate {D : Type} (ar : Arith D) (op : Char) (a b : D) : ARes D :=
  if op = '+' then .ok (ar.add a b)
  else if op = '-' then .ok (ar.sub a b)
  else if op = '*' then .ok (ar.mul a b)
  else if op = '/' then (if ar.isZero b then .error .zeroDenominator else .ok (ar.div a b))
  else .error .unknownOperator

/-- `double_or_throw` (Column_or_Simple_Arithmetic_Expression.hxx L23-L33, L53-L56) -/
def doubleOrThrow {D : Type} (ar : Arith D) : CoordExpr → ARes D
  | .num s => .ok (ar.read s)
  | .col c => .error (.expectedNumber c.print)
  | .bae a op b => evaluate ar op (ar.read a) (ar.read b)

end Adql
