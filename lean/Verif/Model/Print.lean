import Verif.Model.Ast

/-!
# `empty()` and `operator<<` of every AST class

`empty()` decides whether a clause counts as absent, `operator<<` is how a parsed query is turned
back into text (`std::ostream &operator<<(std::ostream &, const ADQL::Query &)`, Query.hxx L44-L46).
`fmt` is the text an `ostream` prints for the `double` denoted by a numeral (formatting of
doubles is C++ library code and is a parameter of the model).
-/

namespace Adql

/-! ## `empty()` -/

/-- `empty_variant` on a `Column_Reference` (empty_variant.hxx L6-L17; the four classes'
`empty()` all look at `column`). -/
def ColRef.isEmpty : ColRef → Bool
  | .csqc _ _ _ c => c.isEmpty
  | .sqc _ _ c => c.isEmpty
  | .qc _ c => c.isEmpty
  | .col c => c.isEmpty

/-- `Column_or_Simple_Arithmetic_Expression::empty` (…Expression.hxx L15-L21, L47-L50).  For a
column it calls `boost::variant::empty()`, which is always false. -/
def CoordExpr.isEmpty : CoordExpr → Bool
  | .bae _ _ _ => false
  | .col _ => false
  | .num _ => false

/-- `Coordinate::empty` (Geometry/Coordinate.hxx L10). -/
def Coord.isEmpty (c : Coord) : Bool := c.ra.isEmpty

/-- `Point::empty` (Geometry/Point.hxx L12). -/
def Point.isEmpty (p : Point) : Bool := p.coord.isEmpty

/-- `empty_variant` on a `Shape` (Circle.hxx L14, Box.hxx L14, Ellipse.hxx L14, Polygon.hxx L13). -/
def Shape.isEmpty : Shape → Bool
  | .point p => p.isEmpty
  | .circle _ c _ => c.isEmpty
  | .box _ c _ _ => c.isEmpty
  | .ellipse _ c _ _ _ => c.isEmpty
  | .polygon _ cs => cs.isEmpty

/-- `empty_variant` on a `Shape_or_Column`. -/
def ShapeOrCol.isEmpty : ShapeOrCol → Bool
  | .shape s => s.isEmpty
  | .col c => c.isEmpty

/-- `Table_Correlation::empty` (Table_Correlation.hxx L12). -/
def TableCorr.isEmpty (t : TableCorr) : Bool := t.name.isEmpty

mutual

/-- `Value_Expression::empty` (Value_Expression/empty.cxx L5). -/
def VE.isEmpty : VE → Bool
  | .nb v => v.isEmpty
  | .sc s => s.isEmpty

/-- `Value_Expression_Non_Bool::empty` (Value_Expression_Non_Bool.hxx L10). -/
def VENB.isEmpty : VENB → Bool
  | .mk f _ => f.isEmpty

/-- `Factor::empty` (Factor.hxx L10). -/
def Factor.isEmpty : Factor → Bool
  | .mk _ np => np.isEmpty

/-- `Numeric_Primary::empty` (Factor/Numeric_Primary/empty.cxx L5). -/
def NumPrim.isEmpty : NumPrim → Bool
  | .vep v => v.isEmpty
  | .nvf f => f.isEmpty

/-- `Numeric_Value_Function::empty` (Numeric_Value_Function/empty.cxx L5); every alternative looks
at the function name, `Cast_Function` at `as` (Cast_Function.hxx L17). -/
def NumFn.isEmpty : NumFn → Bool
  | .trig1 fn _ => fn.isEmpty
  | .trig2 fn _ _ => fn.isEmpty
  | .math0 fn => fn.isEmpty
  | .math1 fn _ => fn.isEmpty
  | .math2 fn _ _ => fn.isEmpty
  | .cast _ as _ => as.isEmpty
  | .geo1 fn _ => fn.isEmpty
  | .geo2 fn _ _ => fn.isEmpty
  | .udf fn _ => fn.isEmpty
  | .str s => s.isEmpty

/-- `Value_Expression_Primary::empty` (Value_Expression_Primary.hxx L23). -/
def VEP.isEmpty : VEP → Bool
  | .mk v _ => v.isEmpty

/-- the alternatives of `Value_Expression_Primary` (Array_Constructor.hxx L14,
General_Set_Function.hxx L10, Any_Expression.hxx L15, Value_Subexpression.hxx L15). -/
def Prim.isEmpty : Prim → Bool
  | .arr vs => vs.isEmpty
  | .str s => s.isEmpty
  | .col c => c.isEmpty
  | .countStar s => s.isEmpty
  | .setFn fn _ _ => fn.isEmpty
  | .case c => c.isEmpty
  | .any e => e.isEmpty
  | .sub e => e.isEmpty

/-- `Case_Expression::empty` and below (Nullif/empty.cxx L5, Coalesce.hxx L15, Simple_Case.hxx
L13, Searched_Case.hxx L12). -/
def CaseE.isEmpty : CaseE → Bool
  | .nullif a _ => a.isEmpty
  | .coalesce l => l.isEmpty
  | .simple o _ _ => o.isEmpty
  | .searched ws _ => ws.isEmpty

/-- `Search_Condition::empty` (Search_Condition.hxx L12, Boolean_Term.hxx L14). -/
def SC.isEmpty : SC → Bool
  | .factor b => b.isEmpty
  | .term _ op _ => op.isEmpty

/-- `Boolean_Factor::empty` (Boolean_Factor.hxx L10). -/
def BF.isEmpty : BF → Bool
  | .mk _ p => p.isEmpty

/-- `Boolean_Primary::empty` (Boolean_Primary/empty.cxx L6). -/
def BP.isEmpty : BP → Bool
  | .pred p => p.isEmpty
  | .sc s => s.isEmpty
  | .ve v => v.isEmpty

/-- `Predicate::empty` (Comparison_Predicate.hxx L20, Between_Predicate.hxx L18, In_Predicate.hxx
L22, Null_Predicate.hxx L16, Like_Predicate.hxx L18, Exists_Predicate.hxx L15). -/
def Pred.isEmpty : Pred → Bool
  | .cmp _ op _ => op.isEmpty
  | .between v _ _ _ => v.isEmpty
  | .inSub v _ _ => v.isEmpty
  | .inList v _ _ => v.isEmpty
  | .null v _ => v.isEmpty
  | .like v _ _ => v.isEmpty
  | .exist q => q.isEmpty

/-- `Subquery::empty` (Subquery/empty.cxx L5). -/
def Subquery.isEmpty : Subquery → Bool
  | .jt j => j.isEmpty
  | .qs q => q.isEmpty

/-- `Joined_Table::empty` (Joined_Table.hxx L12). -/
def JT.isEmpty : JT → Bool
  | .qj q => q.isEmpty
  | .wrap j => j.isEmpty

/-- `Qualified_Join::empty` (Qualified_Join.hxx L14). -/
def QJ.isEmpty : QJ → Bool
  | .mk h _ => h.isEmpty

/-- `empty_variant` on the head of a `Qualified_Join`. -/
def QJHead.isEmpty : QJHead → Bool
  | .tc t => t.isEmpty
  | .jt j => j.isEmpty

/-- `Query_Specification::empty` (Query_Specification.hxx L20-L23). -/
def QuerySpec.isEmpty : QuerySpec → Bool
  | .mk _ l _ _ _ => l.isEmpty

/-- `Select_From_Where_List::empty` (Select_From_Where_List.hxx L35). -/
def SFWList.isEmpty : SFWList → Bool
  | .mk i _ => i.isEmpty

/-- `Select_From_Where::empty` (Select_From_Where.hxx L16).  `Select::empty` is
`boost::variant::empty()` (Select.hxx L19), always false. -/
def SFW.isEmpty : SFW → Bool
  | .mk _ ts _ => ts.isEmpty

end

/-- `Result::empty` (Case_Expression/Result/empty.cxx L4) = `Else_Clause::empty`. -/
def CaseResult.isEmpty : CaseResult → Bool
  | .str s => s.isEmpty
  | .ve e => e.isEmpty

/-- `Join_Specification::empty` (Join_Specification.hxx L12, Named_Columns_Join.hxx L8,
Join_Condition.hxx L11). -/
def JoinSpec.isEmpty : JoinSpec → Bool
  | .named l => l.isEmpty
  | .on s => s.isEmpty

/-- `empty_variant` on a `Geometry::Predicate` (Intersects.hxx L14, Contains.hxx L14-L17). -/
def GPred.isEmpty : GPred → Bool
  | .intersects e _ => e.isEmpty
  | .contains l r => l.isEmpty || r.isEmpty

/-- `Geometry::empty` (Geometry.hxx L16, L22, L28). -/
def Geom.isEmpty : Geom → Bool
  | .left _ p => p.isEmpty
  | .right p _ => p.isEmpty

/-- `Where::empty` (Where.hxx L12). -/
def Where.isEmpty : Where → Bool
  | .mk g s => g.isEmpty && s.isEmpty

/-- `With::empty` (With.hxx L12). -/
def With.isEmpty : With → Bool
  | .mk n _ q => n.isEmpty && q.isEmpty

/-! ## `operator<<` -/

/-- `boost::to_upper_copy` in the "C" locale. -/
def upperC (c : Char) : Char :=
  if 97 ≤ c.toNat && c.toNat ≤ 122 then Char.ofNat (c.toNat - 32) else c

/-- `boost::to_upper_copy` on strings. -/
def upper (s : Str) : Str := s.map upperC

/-- elements separated by `sep` (the `for` loops of the list printers). -/
def joinSep (sep : Str) : List Str → Str
  | [] => []
  | [x] => x
  | x :: y :: l => x ++ sep ++ joinSep sep (y :: l)

/-- decimal digits of a number, most significant first (`std::to_string(size_t)`). -/
def decDigits (n : Nat) : Str := (Nat.toDigits 10 n)

/-- printer of `Column_Reference`. -/
def ColRef.print : ColRef → Str
  | .csqc a b c d => a ++ cs!"." ++ b ++ cs!"." ++ c ++ cs!"." ++ d
  | .sqc a b c => a ++ cs!"." ++ b ++ cs!"." ++ c
  | .qc a b => a ++ cs!"." ++ b
  | .col a => a

/-- Coord_Sys.hxx L18-L32. -/
def Frame.print : Frame → Str
  | .j2000 => cs!"J2000"
  | .icrs => cs!"ICRS"
  | .galactic => cs!"GALACTIC"

/-- Coord_Sys.hxx L34-L42. -/
def Pos.print : Pos → Str
  | .geocenter => cs!"GEOCENTER"

/-- Coord_Sys.hxx L44-L48. -/
def CoordSys.print (c : CoordSys) : Str := c.frame.print ++ cs!" " ++ c.position.print

section
variable (fmt : Str → Str)

/-- Column_or_Simple_Arithmetic_Expression.hxx L58-L61, Binary_Arithmetic_Expression.hxx L38-L41. -/
def CoordExpr.print : CoordExpr → Str
  | .bae a op b => fmt a ++ [op] ++ fmt b
  | .col c => c.print
  | .num n => fmt n

/-- Coordinate.hxx L13-L16. -/
def Coord.print (c : Coord) : Str := c.ra.print fmt ++ cs!"," ++ c.dec.print fmt

/-- Point.hxx L15-L18. -/
def Point.print (p : Point) : Str :=
  cs!"POINT('" ++ p.sys.print ++ cs!"'," ++ p.coord.print fmt ++ cs!")"

/-- Polygon.hxx L18: the coordinates of a polygon, each preceded by a comma. -/
def printPolyCoords : List Coord → Str
  | [] => []
  | c :: l => cs!"," ++ c.print fmt ++ printPolyCoords l

/-- Circle.hxx L17-L21, Box.hxx L17-L21, Ellipse.hxx L17-L22, Polygon.hxx L16-L21. -/
def Shape.print : Shape → Str
  | .point p => p.print fmt
  | .circle s c r =>
    cs!"CIRCLE('" ++ s.print ++ cs!"'," ++ c.print fmt ++ cs!"," ++ r.print fmt ++ cs!")"
  | .box s c w h =>
    cs!"BOX('" ++ s.print ++ cs!"'," ++ c.print fmt ++ cs!"," ++ w.print fmt ++ cs!"," ++
      h.print fmt ++ cs!")"
  | .ellipse s c a b r =>
    cs!"ELLIPSE('" ++ s.print ++ cs!"'," ++ c.print fmt ++ cs!"," ++ a.print fmt ++ cs!"," ++
      b.print fmt ++ cs!"," ++ r.print fmt ++ cs!")"
  | .polygon s cs => cs!"POLYGON('" ++ s.print ++ cs!"'" ++ printPolyCoords fmt cs ++ cs!")"

/-- variant printing of `Point_or_Column`. -/
def PointOrCol.print : PointOrCol → Str
  | .point p => p.print fmt
  | .col c => c.print

/-- variant printing of `Shape_or_Column`. -/
def ShapeOrCol.print : ShapeOrCol → Str
  | .shape s => s.print fmt
  | .col c => c.print

end

/-- Table_Correlation.hxx L15-L20. -/
def TableCorr.print (t : TableCorr) : Str :=
  t.name ++ (if t.as.isEmpty then [] else cs!" " ++ t.as)

/-- variant printing of `Join_Type`, Outer_Join.hxx L10-L14. -/
def JoinType.print : JoinType → Str
  | .str s => s
  | .outer t o => t ++ (if o then cs!" OUTER" else [])

/-- Sort_Specification.hxx L18-L25. -/
def SortSpec.print (s : SortSpec) : Str :=
  (match s.key with | .inl k => k | .inr c => c.print) ++
    (if s.ordering.isEmpty then [] else cs!" " ++ s.ordering)

/-- Table_Valued_Function.hxx L17-L30. -/
def printTVF (name : Str) (args : List Str) : Str :=
  cs!"table(" ++ name ++ cs!"(" ++
    joinSep cs!"," (args.map fun a => cs!"'" ++ a ++ cs!"'") ++ cs!"))"

/-- Cast_Function.hxx L22-L27, around the already printed expression. -/
def printCast (e as len : Str) : Str :=
  cs!"CAST(" ++ e ++ cs!" AS " ++ as ++
    (if len.isEmpty then [] else cs!"(" ++ len ++ cs!")") ++ cs!")"

/-- Select.hxx L55-L63, around the already printed columns. -/
def printSelect (quant : Str) (top : Nat) (cols : Str) : Str :=
  cs!"SELECT " ++ quant ++ (if quant.isEmpty then [] else cs!" ") ++
    (if top ≠ topMax then cs!"TOP " ++ decDigits top ++ cs!" " else []) ++ cols

/-- With.hxx L15-L31, around the already printed subquery. -/
def printWith (name : Str) (cols : List Str) (q : Str) : Str :=
  cs!"WITH " ++ name ++
    (if cols.isEmpty then [] else cs!" (" ++ joinSep cs!"," cols ++ cs!")") ++ cs!" AS " ++ q

mutual

/-- Value_Expression/ostream.cxx L5-L8. -/
def VE.print (fmt : Str → Str) : VE → Str
  | .nb v => v.print fmt
  | .sc s => s.print fmt

/-- Value_Expression_Non_Bool.hxx L13-L21. -/
def VENB.print (fmt : Str → Str) : VENB → Str
  | .mk f ts => f.print fmt ++ printTerms fmt ts

/-- the loop of Value_Expression_Non_Bool.hxx L17-L19. -/
def printTerms (fmt : Str → Str) : List Term → Str
  | [] => []
  | t :: ts => t.print fmt ++ printTerms fmt ts

/-- Value_Expression_Non_Bool_Term.hxx L13-L18. -/
def Term.print (fmt : Str → Str) : Term → Str
  | .mk op f => op ++ f.print fmt

/-- Factor.hxx L13-L15. -/
def Factor.print (fmt : Str → Str) : Factor → Str
  | .mk sign np => sign ++ np.print fmt

/-- Factor/Numeric_Primary/ostream.cxx L5-L8. -/
def NumPrim.print (fmt : Str → Str) : NumPrim → Str
  | .vep v => v.print fmt
  | .nvf f => f.print fmt

/-- Trig_One_Arg.hxx L19-L22, Trig_Two_Arg.hxx L19-L23, Math_Zero_Arg.hxx L16-L19,
Math_One_Arg.hxx L19-L22, Math_Two_Arg.hxx L19-L23, Cast_Function.hxx L20-L28,
Non_Predicate_Geometry_Function_One_Arg.hxx L12-L19, …_Two_Arg.hxx L13-L21,
User_Defined_Function.hxx L19-L32. -/
def NumFn.print (fmt : Str → Str) : NumFn → Str
  | .trig1 fn a => fn ++ cs!"(" ++ a.print fmt ++ cs!")"
  | .trig2 fn a b => fn ++ cs!"(" ++ a.print fmt ++ cs!"," ++ b.print fmt ++ cs!")"
  | .math0 fn => fn ++ cs!"()"
  | .math1 fn a => fn ++ cs!"(" ++ a.print fmt ++ cs!")"
  | .math2 fn a b => fn ++ cs!"(" ++ a.print fmt ++ cs!"," ++ b.print fmt ++ cs!")"
  | .cast e as len => printCast (e.print fmt) as len
  | .geo1 fn p => if fn.isEmpty then [] else fn ++ cs!"(" ++ p.print fmt ++ cs!")"
  | .geo2 fn p q =>
    if fn.isEmpty then [] else fn ++ cs!"(" ++ p.print fmt ++ cs!"," ++ q.print fmt ++ cs!")"
  | .udf fn args => fn ++ cs!"(" ++ joinSep cs!"," (printVEs fmt args) ++ cs!")"
  | .str s => s

/-- the printed elements of a list of value expressions. -/
def printVEs (fmt : Str → Str) : List VE → List Str
  | [] => []
  | e :: es => e.print fmt :: printVEs fmt es

/-- Value_Expression_Primary/ostream.cxx L4-L12, Array_Index.hxx L17-L20. -/
def VEP.print (fmt : Str → Str) : VEP → Str
  | .mk v idx => v.print fmt ++ printIdx fmt idx

/-- the loop of Value_Expression_Primary/ostream.cxx L8-L10. -/
def printIdx (fmt : Str → Str) : List VE → Str
  | [] => []
  | e :: es => cs!"[" ++ e.print fmt ++ cs!"]" ++ printIdx fmt es

/-- Array_Constructor/ostream.cxx L5-L18, General_Set_Function.hxx L13-L17,
General_Set_Args.hxx L17-L24, Any_Expression.hxx L18-L21, Value_Subexpression.hxx L18-L21. -/
def Prim.print (fmt : Str → Str) : Prim → Str
  | .arr vs => cs!"ARRAY[" ++ joinSep cs!"," (printVEs fmt vs) ++ cs!"]"
  | .str s => s
  | .col c => c.print
  | .countStar s => s
  | .setFn fn q e =>
    fn ++ cs!"(" ++ (if q.isEmpty then [] else q ++ cs!" ") ++ e.print fmt ++ cs!")"
  | .case c => c.print fmt
  | .any e => cs!"ANY(" ++ e.print fmt ++ cs!")"
  | .sub e => cs!"(" ++ e.print fmt ++ cs!")"

/-- Nullif/ostream.cxx L5-L7, Coalesce/ostream.cxx L5-L16, Simple_Case/ostream.cxx L5-L12,
Searched_Case.hxx L15-L23, Else_Clause.hxx L12-L15. -/
def CaseE.print (fmt : Str → Str) : CaseE → Str
  | .nullif a b => cs!"NULLIF(" ++ a.print fmt ++ cs!"," ++ b.print fmt ++ cs!")"
  | .coalesce l => cs!"COALESCE(" ++ joinSep cs!"," (printVEs fmt l) ++ cs!")"
  | .simple o ws els =>
    cs!"CASE " ++ o.print fmt ++ cs!" " ++ printSimpleWhens fmt ws ++
      (if els.isEmpty then [] else cs!"ELSE " ++ els.print fmt ++ cs!" ") ++ cs!"END"
  | .searched ws els =>
    cs!"CASE " ++ printSearchedWhens fmt ws ++
      (if els.isEmpty then [] else cs!"ELSE " ++ els.print fmt ++ cs!" ") ++ cs!"END"

/-- Simple_Whens.hxx L8-L14. -/
def printSimpleWhens (fmt : Str → Str) : List SimpleWhen → Str
  | [] => []
  | w :: ws => w.print fmt ++ cs!" " ++ printSimpleWhens fmt ws

/-- Simple_When/ostream.cxx L5-L8. -/
def SimpleWhen.print (fmt : Str → Str) : SimpleWhen → Str
  | .mk e r => cs!"WHEN " ++ e.print fmt ++ cs!" THEN " ++ r.print fmt

/-- Searched_Whens.hxx L10-L16. -/
def printSearchedWhens (fmt : Str → Str) : List SearchedWhen → Str
  | [] => []
  | w :: ws => w.print fmt ++ cs!" " ++ printSearchedWhens fmt ws

/-- Searched_When/ostream.cxx L5-L7. -/
def SearchedWhen.print (fmt : Str → Str) : SearchedWhen → Str
  | .mk c r => cs!"WHEN " ++ c.print fmt ++ cs!" THEN " ++ r.print fmt

/-- Result/ostream.cxx L5-L7. -/
def CaseResult.print (fmt : Str → Str) : CaseResult → Str
  | .str s => s
  | .ve e => e.print fmt

/-- Search_Condition.hxx L15-L20, Boolean_Term.hxx L17-L20. -/
def SC.print (fmt : Str → Str) : SC → Str
  | .factor b => if (SC.factor b).isEmpty then [] else b.print fmt
  | .term b op s =>
    if (SC.term b op s).isEmpty then []
    else b.print fmt ++ cs!" " ++ upper op ++ cs!" " ++ s.print fmt

/-- Boolean_Factor.hxx L13-L15. -/
def BF.print (fmt : Str → Str) : BF → Str
  | .mk n p => n ++ (if n.isEmpty then [] else cs!" ") ++ p.print fmt

/-- Boolean_Primary/ostream.cxx L8-L30. -/
def BP.print (fmt : Str → Str) : BP → Str
  | .pred p => p.print fmt
  | .sc s => cs!"(" ++ s.print fmt ++ cs!")"
  | .ve v => v.print fmt

/-- Comparison_Predicate/ostream.cxx L6-L8, Between_Predicate/ostream.cxx L6-L9,
In_Predicate/ostream.cxx L8-L10 (with ostream_vector.hxx L7-L17), Null_Predicate.hxx L19-L21,
Like_Predicate/ostream.cxx L6-L8, Exists_Predicate/ostream.cxx L5-L7. -/
def Pred.print (fmt : Str → Str) : Pred → Str
  | .cmp l op r => l.print fmt ++ cs!" " ++ op ++ cs!" " ++ r.print fmt
  | .between v n lo hi =>
    v.print fmt ++ cs!" " ++ n ++ (if n.isEmpty then [] else cs!" ") ++ cs!"BETWEEN " ++
      lo.print fmt ++ cs!" AND " ++ hi.print fmt
  | .inSub v n q =>
    v.print fmt ++ cs!" " ++ (if n.isEmpty then [] else cs!"NOT ") ++ cs!"IN " ++ q.print fmt
  | .inList v n vs =>
    v.print fmt ++ cs!" " ++ (if n.isEmpty then [] else cs!"NOT ") ++ cs!"IN (" ++
      joinSep cs!", " (printVEs fmt vs) ++ cs!")"
  | .null v n => v.print fmt ++ cs!" IS " ++ (if n.isEmpty then [] else cs!"NOT ") ++ cs!"NULL"
  | .like v n p =>
    v.print fmt ++ (if n.isEmpty then cs!" " else cs!" NOT ") ++ cs!"LIKE " ++ p.print fmt
  | .exist q => cs!"EXISTS " ++ q.print fmt

/-- Subquery/ostream.cxx L6-L8. -/
def Subquery.print (fmt : Str → Str) : Subquery → Str
  | .jt j => cs!"(" ++ j.print fmt ++ cs!")"
  | .qs q => cs!"(" ++ q.print fmt ++ cs!")"

/-- Joined_Table/ostream.cxx L6-L25. -/
def JT.print (fmt : Str → Str) : JT → Str
  | .qj q => q.print fmt
  | .wrap j => cs!"(" ++ j.print fmt ++ cs!")"

/-- Joined_Table/Qualified_Join/ostream.cxx L7-L30. -/
def QJ.print (fmt : Str → Str) : QJ → Str
  | .mk h ss => h.print fmt ++ cs!" " ++ printSuffixes fmt ss

/-- Qualified_Join_ostream_Visitor (Qualified_Join/ostream.cxx L7-L18). -/
def QJHead.print (fmt : Str → Str) : QJHead → Str
  | .tc t => t.print
  | .jt j => j.print fmt

/-- the loop of Qualified_Join/ostream.cxx L26-L28. -/
def printSuffixes (fmt : Str → Str) : List JoinSuffix → Str
  | [] => []
  | s :: ss => s.print fmt ++ cs!" " ++ printSuffixes fmt ss

/-- Join_Suffix.hxx L18-L24; `join_type.empty()` is `boost::variant::empty()`, always false, so
the join type and a blank are always printed. -/
def JoinSuffix.print (fmt : Str → Str) : JoinSuffix → Str
  | .mk nat ty t sp =>
    (if nat then cs!"NATURAL " else []) ++ ty.print ++ cs!" JOIN " ++ t.print fmt ++
      (if sp.isEmpty then [] else cs!" " ++ sp.print fmt)

/-- Named_Columns_Join.hxx L11-L13 (with ostream_vector.hxx L7-L17), Join_Condition.hxx L14-L16. -/
def JoinSpec.print (fmt : Str → Str) : JoinSpec → Str
  | .named l => cs!"USING (" ++ joinSep cs!", " l ++ cs!")"
  | .on s => cs!"ON " ++ s.print fmt

/-- Table_Reference/ostream.cxx L7-L9, Derived_Correlation.hxx L13-L17. -/
def TR.print (fmt : Str → Str) : TR → Str
  | .tc t => t.print
  | .jt j => j.print fmt
  | .derived q as => q.print fmt ++ (if as.isEmpty then [] else cs!" " ++ as)
  | .tvf n args => printTVF n args

/-- Intersects.hxx L17-L21, Contains.hxx L20-L24. -/
def GPred.print (fmt : Str → Str) : GPred → Str
  | .intersects e s => cs!"INTERSECTS(" ++ e.print fmt ++ cs!"," ++ s.print fmt ++ cs!")"
  | .contains l r => cs!"CONTAINS(" ++ l.print fmt ++ cs!"," ++ r.print fmt ++ cs!")"

/-- Geometry.hxx L50-L71. -/
def Geom.print (fmt : Str → Str) : Geom → Str
  | .left flag p =>
    if (Geom.left flag p).isEmpty then [] else p.print fmt ++ cs!"=" ++ [flag]
  | .right p flag =>
    if (Geom.right p flag).isEmpty then [] else p.print fmt ++ cs!"=" ++ [flag]

/-- Where.hxx L15-L23. -/
def Where.print (fmt : Str → Str) : Where → Str
  | .mk g s =>
    if !g.isEmpty then
      g.print fmt ++ (if !s.isEmpty then cs!" AND " ++ s.print fmt else [])
    else if !s.isEmpty then s.print fmt else []

/-- As.hxx L12-L14, Non_As.hxx L12-L14. -/
def Item.print (fmt : Str → Str) : Item → Str
  | .as e a => e.print fmt ++ cs!" AS " ++ a
  | .nonAsStr s => s
  | .nonAsVE e => e.print fmt

/-- the printed elements of a select list. -/
def printItems (fmt : Str → Str) : List Item → List Str
  | [] => []
  | i :: is => i.print fmt :: printItems fmt is

/-- Select_Columns_Visitor (Select.hxx L24-L45). -/
def Columns.print (fmt : Str → Str) : Columns → Str
  | .star s => s
  | .items l => joinSep cs!", " (printItems fmt l)

/-- Select.hxx L55-L63. -/
def Select.print (fmt : Str → Str) : Select → Str
  | .mk q t c => printSelect q t (c.print fmt)

/-- the printed elements of a table list. -/
def printTRs (fmt : Str → Str) : List TR → List Str
  | [] => []
  | t :: ts => t.print fmt :: printTRs fmt ts

/-- Select_From_Where.hxx L21-L42. -/
def SFW.print (fmt : Str → Str) : SFW → Str
  | .mk s ts w =>
    s.print fmt ++ cs!" FROM " ++ joinSep cs!", " (printTRs fmt ts) ++
      (if w.isEmpty then [] else cs!" WHERE " ++ w.print fmt)

/-- Select_From_Where_List.hxx L16-L20. -/
def Addon.print (fmt : Str → Str) : Addon → Str
  | .mk op s => cs!" " ++ upper op ++ cs!" " ++ s.print fmt

/-- the loop of Select_From_Where_List.hxx L136-L138. -/
def printAddons (fmt : Str → Str) : List Addon → Str
  | [] => []
  | a :: as => a.print fmt ++ printAddons fmt as

/-- Select_From_Where_List.hxx L131-L140. -/
def SFWList.print (fmt : Str → Str) : SFWList → Str
  | .mk i as => i.print fmt ++ printAddons fmt as

/-- Group_By_Term/ostream.cxx L5-L7. -/
def GroupTerm.print (fmt : Str → Str) : GroupTerm → Str
  | .col c => c.print
  | .ve e => e.print fmt

/-- the printed elements of a GROUP BY list (Group_By.hxx L14-L23). -/
def printGroup (fmt : Str → Str) : List GroupTerm → List Str
  | [] => []
  | g :: gs => g.print fmt :: printGroup fmt gs

/-- With.hxx L15-L31. -/
def With.print (fmt : Str → Str) : With → Str
  | .mk n cols q => printWith n cols (q.print fmt)

/-- Query_Specification.hxx L75-L87, Group_By.hxx L14-L23, Having.hxx L12-L14,
Order_By.hxx L14-L24. -/
def QuerySpec.print (fmt : Str → Str) : QuerySpec → Str
  | .mk w l g h o =>
    (if w.isEmpty then [] else w.print fmt ++ cs!" ") ++ l.print fmt ++
      (if g.isEmpty then [] else cs!" GROUP BY " ++ joinSep cs!"," (printGroup fmt g)) ++
      (if h.isEmpty then [] else cs!" HAVING " ++ h.print fmt) ++
      (if o.isEmpty then [] else cs!" ORDER BY " ++ joinSep cs!"," (o.map SortSpec.print))

end

end Adql
