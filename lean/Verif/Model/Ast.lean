import Verif.Peg.Core

/-!
# The abstract syntax tree (`/repo/src/Query/Query_Specification/**`)

One Lean type per C++ class.  Simplifications, uniformly:
* one-member wrapper classes around a `boost::variant` (`Trig_Function`, `Math_Function`,
  `Case_Expression`, `Predicate`, ...) are merged with the variant they wrap;
* `boost::recursive_wrapper<T>` is `T`;
* a `double` is represented by the text of its numeral (`Str`); the value of a numeral and the
  text an `ostream` prints for it are parameters of the model.
Members keep the order of the fusion adaptation, i.e. the order in which the parser fills them.
A class that C++ leaves default-constructed when a clause is absent has a `default` value below,
so "this clause is absent" is represented exactly as in C++: by an object whose `empty()` is true.
-/

namespace Adql

/-- `Column_Reference` (Column_Reference.hxx L7-L11, Catalog_Schema_Qualifier_Column.hxx L11-L15,
Schema_Qualifier_Column.hxx L11-L15, Qualifier_Column.hxx L11-L15). -/
inductive ColRef where
  | csqc (catalog schema qualifier column : Str)
  | sqc (schema qualifier column : Str)
  | qc (qualifier column : Str)
  | col (column : Str)
deriving DecidableEq, Repr

/-- `Coord_Sys::Reference_Frame` (Geometry/Coord_Sys.hxx L10). -/
inductive Frame where
  | icrs | j2000 | galactic
deriving DecidableEq, Repr

/-- `Coord_Sys::Reference_Position` (Geometry/Coord_Sys.hxx L11). -/
inductive Pos where
  | geocenter
deriving DecidableEq, Repr

/-- `Coord_Sys` (Geometry/Coord_Sys.hxx L8-L16); the defaults are those of its constructor. -/
structure CoordSys where
  frame : Frame := .icrs
  position : Pos := .geocenter
deriving DecidableEq, Repr

/-- `Column_or_Simple_Arithmetic_Expression` (Geometry/Column_or_Simple_Arithmetic_Expression.hxx
L38-L51) together with `Binary_Arithmetic_Expression` (Binary_Arithmetic_Expression.hxx L11-L14). -/
inductive CoordExpr where
  | bae (arg0 : Str) (op : Char) (arg1 : Str)
  | col (c : ColRef)
  | num (n : Str)
deriving DecidableEq, Repr

/-- `Coordinate` (Geometry/Coordinate.hxx L8-L11). -/
structure Coord where
  ra : CoordExpr
  dec : CoordExpr
deriving DecidableEq, Repr

/-- `Point` (Geometry/Point.hxx L7-L13). -/
structure Point where
  sys : CoordSys
  coord : Coord
deriving DecidableEq, Repr

/-- `Shape` (Geometry/Shape.hxx L10; Circle.hxx, Box.hxx, Ellipse.hxx, Polygon.hxx). -/
inductive Shape where
  | point (p : Point)
  | circle (sys : CoordSys) (center : Coord) (radius : CoordExpr)
  | box (sys : CoordSys) (center : Coord) (width height : CoordExpr)
  | ellipse (sys : CoordSys) (center : Coord) (a b angle : CoordExpr)
  | polygon (sys : CoordSys) (coords : List Coord)
deriving DecidableEq, Repr

/-- `Point_or_Column` (Geometry/XXX_or_Column.hxx). -/
inductive PointOrCol where
  | point (p : Point)
  | col (c : ColRef)
deriving DecidableEq, Repr

/-- `Shape_or_Column` (Geometry/XXX_or_Column.hxx). -/
inductive ShapeOrCol where
  | shape (s : Shape)
  | col (c : ColRef)
deriving DecidableEq, Repr

/-- `Table_Correlation` (Table_Reference/Correlation_Join/Table_Correlation.hxx L9-L13). -/
structure TableCorr where
  name : Str
  as : Str
deriving DecidableEq, Repr

/-- `Join_Suffix::Join_Type` (Join_Suffix.hxx L11) with `Outer_Join` (Join_Suffix/Outer_Join.hxx). -/
inductive JoinType where
  | str (s : Str)
  | outer (type : Str) (outer : Bool)
deriving DecidableEq, Repr

/-- `Sort_Specification` and `Sort_Key` (Order_By/Sort_Specification.hxx L12-L16, Sort_Key.hxx L6).
`key` is a column reference; a sort key that is an unsigned integer is `.inl`. -/
structure SortSpec where
  key : Str ⊕ ColRef
  ordering : Str

mutual

/-- `Value_Expression` (Value_Expression.hxx L7-L12). -/
inductive VE where
  | nb (v : VENB)
  | sc (s : SC)

/-- `Value_Expression_Non_Bool` (Value_Expression_Non_Bool.hxx L6-L11). -/
inductive VENB where
  | mk (factor : Factor) (terms : List Term)

/-- `Value_Expression_Non_Bool_Term` (Value_Expression_Non_Bool_Term.hxx L6-L11). -/
inductive Term where
  | mk (op : Str) (factor : Factor)

/-- `Factor` (Factor.hxx L6-L11). -/
inductive Factor where
  | mk (sign : Str) (np : NumPrim)

/-- `Numeric_Primary` (Factor/Numeric_Primary.hxx L9-L15). -/
inductive NumPrim where
  | vep (v : VEP)
  | nvf (f : NumFn)

/-- `Numeric_Value_Function` (Factor/Numeric_Primary/Numeric_Value_Function.hxx L12-L20) with
`Trig_Function`, `Math_Function`, `Cast_Function`, `Non_Predicate_Geometry_Function`,
`User_Defined_Function` merged in. -/
inductive NumFn where
  | trig1 (fn : Str) (arg : VE)
  | trig2 (fn : Str) (arg0 arg1 : VE)
  | math0 (fn : Str)
  | math1 (fn : Str) (arg : VE)
  | math2 (fn : Str) (arg0 arg1 : VE)
  | cast (e : VE) (as : Str) (length : Str)
  | geo1 (fn : Str) (arg : PointOrCol)
  | geo2 (fn : Str) (arg0 arg1 : PointOrCol)
  | udf (fn : Str) (args : List VE)
  | str (s : Str)

/-- `Value_Expression_Primary` (Value_Expression_Primary.hxx L15-L24); an `Array_Index` is its
expression. -/
inductive VEP where
  | mk (v : Prim) (indices : List VE)

/-- the variant inside `Value_Expression_Primary` (Value_Expression_Primary.hxx L17-L20), with
`Set_Function_Specification` merged in. -/
inductive Prim where
  | arr (values : List VE)
  | str (s : Str)
  | col (c : ColRef)
  | countStar (s : Str)
  | setFn (fn : Str) (quant : Str) (e : VE)
  | case (c : CaseE)
  | any (e : VE)
  | sub (e : VE)

/-- `Case_Expression` (Value_Expression_Primary/Case_Expression.hxx, Case_Abbreviation/*,
Case_Specification/*); an `Else_Clause` is its `Result`. -/
inductive CaseE where
  | nullif (arg0 arg1 : VE)
  | coalesce (args : List VE)
  | simple (operand : VE) (whens : List SimpleWhen) (els : CaseResult)
  | searched (whens : List SearchedWhen) (els : CaseResult)

/-- `Simple_When` (Case_Specification/Simple_Case/Simple_Whens/Simple_When.hxx). -/
inductive SimpleWhen where
  | mk (e : VE) (r : CaseResult)

/-- `Searched_When` (Case_Specification/Searched_Case/Searched_Whens/Searched_When.hxx). -/
inductive SearchedWhen where
  | mk (c : SC) (r : CaseResult)

/-- `Result` (Value_Expression_Primary/Case_Expression/Result.hxx L14-L19). -/
inductive CaseResult where
  | str (s : Str)
  | ve (e : VE)

/-- `Search_Condition` (Search_Condition.hxx L7-L13) with `Boolean_Term`
(Search_Condition/Boolean_Term.hxx L9-L15) merged in. -/
inductive SC where
  | factor (b : BF)
  | term (b : BF) (op : Str) (s : SC)

/-- `Boolean_Factor` (Search_Condition/Boolean_Factor.hxx L6-L11). -/
inductive BF where
  | mk (Not : Str) (p : BP)

/-- `Boolean_Primary` (Search_Condition/Boolean_Factor/Boolean_Primary.hxx L8-L15). -/
inductive BP where
  | pred (p : Pred)
  | sc (s : SC)
  | ve (v : VENB)

/-- `Predicate` (Boolean_Primary/Predicate.hxx L12-L19 and the six classes in Predicate/). -/
inductive Pred where
  | cmp (left : VENB) (op : Str) (right : VE)
  | between (value : VENB) (Not : Str) (low high : VE)
  | inSub (value : VENB) (Not : Str) (q : Subquery)
  | inList (value : VENB) (Not : Str) (vs : List VE)
  | null (value : VENB) (Not : Str)
  | like (value : VENB) (Not : Str) (pattern : VE)
  | exist (q : Subquery)

/-- `Subquery` (/repo/src/Query/Subquery.hxx L11-L16). -/
inductive Subquery where
  | jt (j : JT)
  | qs (q : QuerySpec)

/-- `Joined_Table` (Joined_Table.hxx L8-L13). -/
inductive JT where
  | qj (q : QJ)
  | wrap (j : JT)

/-- `Qualified_Join` (Joined_Table/Qualified_Join.hxx L9-L15). -/
inductive QJ where
  | mk (head : QJHead) (suffixes : List JoinSuffix)

/-- the variant inside `Qualified_Join` (Joined_Table/Qualified_Join.hxx L11). -/
inductive QJHead where
  | tc (t : TableCorr)
  | jt (j : JT)

/-- `Join_Suffix` (Join_Suffix.hxx L8-L16). -/
inductive JoinSuffix where
  | mk (natural : Bool) (type : JoinType) (table : TR) (spec : JoinSpec)

/-- `Join_Specification` (Join_Suffix/Join_Specification.hxx L8-L13). -/
inductive JoinSpec where
  | named (columns : List Str)
  | on (s : SC)

/-- `Table_Reference` (Table_Reference.hxx L14-L21) with `Derived_Correlation` and
`Table_Valued_Function` merged in. -/
inductive TR where
  | tc (t : TableCorr)
  | jt (j : JT)
  | derived (q : Subquery) (as : Str)
  | tvf (name : Str) (args : List Str)

/-- `Geometry::Predicate` (Geometry.hxx L11, Geometry/Intersects.hxx, Geometry/Contains.hxx). -/
inductive GPred where
  | intersects (e : VE) (s : ShapeOrCol)
  | contains (l r : ShapeOrCol)

/-- `Geometry` (Geometry.hxx L9-L28). -/
inductive Geom where
  | left (flag : Char) (p : GPred)
  | right (p : GPred) (flag : Char)

/-- `Where` (Where.hxx L8-L13). -/
inductive Where where
  | mk (geometry : Geom) (sc : SC)

/-- `Select::Column_Variant` (Select.hxx L12) with `As` (As.hxx) and `Non_As` (Non_As.hxx). -/
inductive Item where
  | as (e : VE) (as : Str)
  | nonAsStr (s : Str)
  | nonAsVE (e : VE)

/-- `Select::Columns` (Select.hxx L13). -/
inductive Columns where
  | star (s : Str)
  | items (l : List Item)

/-- `Select` (Select.hxx L10-L20). -/
inductive Select where
  | mk (quant : Str) (top : Nat) (columns : Columns)

/-- `Select_From_Where` (Select_From_Where.hxx L10-L17). -/
inductive SFW where
  | mk (select : Select) (tables : List TR) (where_ : Where)

/-- `SFW_Addon` (Select_From_Where_List.hxx L9-L14). -/
inductive Addon where
  | mk (op : Str) (sfw : SFW)

/-- `Select_From_Where_List` (Select_From_Where_List.hxx L29-L33). -/
inductive SFWList where
  | mk (initial : SFW) (addons : List Addon)

/-- `Group_By_Term` (Group_By_Term.hxx L7-L12). -/
inductive GroupTerm where
  | col (c : ColRef)
  | ve (e : VE)

/-- `With` (With.hxx L6-L13). -/
inductive With where
  | mk (name : Str) (columns : List Str) (q : Subquery)

/-- `Query_Specification` (/repo/src/Query/Query_Specification.hxx L12-L18); `Having` is its
search condition, `Group_By` and `Order_By` are their lists. -/
inductive QuerySpec where
  | mk (with_ : With) (sfws : SFWList) (groupBy : List GroupTerm) (having : SC)
      (orderBy : List SortSpec)

end

/-! ### Default-constructed objects

C++ default construction of a `boost::variant` default-constructs its *first* alternative. -/

/-- Default `Value_Expression_Primary`: an empty `Array_Constructor`, no indices. -/
def VEP.dflt : VEP := .mk (.arr []) []
/-- Default `Value_Expression_Non_Bool`. -/
def VENB.dflt : VENB := .mk (.mk [] (.vep VEP.dflt)) []
/-- Default `Value_Expression`. -/
def VE.dflt : VE := .nb VENB.dflt
/-- Default `Search_Condition`: `Boolean_Factor` of a `Predicate` of a `Comparison_Predicate`. -/
def SC.dflt : SC := .factor (.mk [] (.pred (.cmp VENB.dflt [] VE.dflt)))
/-- Default `Result`: the empty string. -/
def CaseResult.dflt : CaseResult := .str []
/-- Default `Join_Specification`: a `Named_Columns_Join` without columns. -/
def JoinSpec.dflt : JoinSpec := .named []
/-- Default `Subquery`: a `Joined_Table` of a `Qualified_Join` of an empty `Table_Correlation`. -/
def Subquery.dflt : Subquery := .jt (.qj (.mk (.tc ⟨[], []⟩) []))
/-- Default `Geometry`: `Geometry_Left` of a default `Intersects`, whose shape-or-column is a
default `Shape`, a default `Point`.  `char_flag` and the doubles are *uninitialised* in C++;
the model puts NUL and the empty numeral.  They are never printed because `empty()` is true. -/
def Geom.dflt : Geom :=
  .left (Char.ofNat 0) (.intersects VE.dflt (.shape (.point
    ⟨{}, ⟨.bae [] (Char.ofNat 0) [], .bae [] (Char.ofNat 0) []⟩⟩)))
/-- Default `Where`. -/
def Where.dflt : Where := .mk Geom.dflt SC.dflt
/-- Default `With`. -/
def With.dflt : With := .mk [] [] Subquery.dflt

/-- `std::numeric_limits<size_t>::max()` and `std::numeric_limits<unsigned long long>::max()`
on the 64-bit platforms the project targets (Select.hxx L17, L58). -/
def topMax : Nat := 18446744073709551615

end Adql
