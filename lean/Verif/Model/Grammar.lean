import Verif.Model.Print
import Verif.Model.Words

/-!
# The grammar (`/repo/src/Query/ADQL_parser/ADQL_parser/init_*.cxx`)

Every Qi rule is transcribed into a parser expression.  Conventions:
* a rule declared without skipper (ADQL_parser.hxx L73-L103) is `.lexeme body`;
  a rule declared with the `space_type` skipper is its body;
* a rule that is (mutually) recursive is a `Rule` and called with `.nt`, and so is `tap_upload`, the
  only rule that depends on the table mapping; all other rules are plain definitions and are inlined by the caller, which Qi cannot distinguish from a call;
* `a > b` is `.seq a (.expect "b" b)`; C++ precedence (`%` before `>>` before `>` before `|`)
  is made explicit;
* `hold[p]` is `p`: attributes are returned functionally, so a failing branch cannot leave
  anything behind.  The one place where Qi's *lack* of a rollback is observable (the optional NOT
  of `boolean_factor`, which is not in a `hold`) is modelled explicitly, see `Config.residue`;
* semantic actions `[at_c<i>(_val) = _1]` are the component functions passed to `.map`.
-/

namespace Adql

/-- The recursive rules. -/
inductive Rule where
  | ve      -- value_expression
  | venb    -- value_expression_non_bool
  | sc      -- search_condition
  | subq    -- subquery
  | jt      -- joined_table
  | tr      -- table_reference
  | tap     -- tap_upload
deriving DecidableEq, Repr

/-- Attribute types of the recursive rules (ADQL_parser.hxx). -/
abbrev Attr : Rule → Type
  | .ve => VE
  | .venb => VENB
  | .sc => SC
  | .subq => Subquery
  | .jt => JT
  | .tr => TR
  | .tap => Str

/-- Parser expressions over the ADQL rules. -/
abbrev G (α : Type) := P Attr α

/-- What a parser object is built from, plus one modelling switch. -/
structure Config where
  /-- `table_mapping` (ADQL_parser.hxx L66): `std::map::find`. -/
  mapping : Str → Option Str
  /-- Whether a *failed* optional NOT in `boolean_factor` leaves its text in the attribute
  (Qi does not roll back container attributes of an optional outside `hold`).  The theorems hold
  for both values unless they mention `residue`. -/
  residue : Bool

open P

/-! ### Small helpers -/

/-- `ascii::no_case["w"]` / `ascii::no_case[ascii::string("w")]` -/
def kw (w : Str) : G Str := .lit true w
/-- a case-sensitive literal -/
def sym (w : Str) : G Str := .lit false w
/-- one character, as a string -/
def chS (f : Char → Bool) : G Str := .map (fun c => [c]) (.chr f)
/-- concatenation of two string attributes into one `std::string` -/
def cat (p q : G Str) : G Str := .map (fun x => x.1 ++ x.2) (.seq p q)
/-- `*p` into one `std::string` -/
def manyS (p : G Str) : G Str := .map List.flatten (.star p)
/-- `+p` into one `std::string` -/
def plusS (p : G Str) : G Str := cat p (manyS p)
/-- `-p` for a string attribute without residue -/
def optS (p : G Str) : G Str := optD [] p
/-- a parser that always fails -/
def failP : G Str := .chr (fun _ => false) |> .map (fun c => [c])
/-- ordered choice of case-insensitive literals -/
def anyKw : List Str → G Str
  | [] => failP
  | w :: ws => .alt (kw w) (anyKw ws)
/-- `&boost::spirit::qi::space` -/
def andSpace : G Unit := .map (fun _ => ()) (.andP (.chr isSpace))
/-- `&no_skip[boost::spirit::qi::space]` -/
def andNsSpace : G Unit := .map (fun _ => ()) (.andP (.noskip (.chr isSpace)))
/-- `lexeme[ascii::no_case["w"] >> &space]` -/
def word (w : Str) : G Str := .lexeme (seqL (kw w) andSpace)
/-- `lexeme[ascii::no_case["w"] > &space]` -/
def wordX (w : Str) : G Str := .lexeme (seqL (kw w) (.expect "space" andSpace))
/-- calls of the recursive rules -/
def ve : G VE := .nt Rule.ve
@[inherit_doc ve] def venb : G VENB := .nt Rule.venb
@[inherit_doc ve] def sc : G SC := .nt Rule.sc
@[inherit_doc ve] def subq : G Subquery := .nt Rule.subq
@[inherit_doc ve] def jt : G JT := .nt Rule.jt
@[inherit_doc ve] def tr : G TR := .nt Rule.tr
@[inherit_doc ve] def tap : G Str := .nt Rule.tap

/-! ### Character classes (init_identifier.cxx, init_literals.cxx) -/

/-- `qi::digit` -/
def isDigit (c : Char) : Bool := 48 ≤ c.toNat && c.toNat ≤ 57
/-- `simple_Latin_letter %= char_("a-zA-Z")` (init_identifier.cxx L28) -/
def isLetter (c : Char) : Bool :=
  (97 ≤ c.toNat && c.toNat ≤ 122) || (65 ≤ c.toNat && c.toNat ≤ 90)
/-- `identifier_character` (init_identifier.cxx L29) -/
def isIdChar (c : Char) : Bool := isDigit c || isLetter c || c == '_'
/-- `possibly_qualified_identifier_character` (init_identifier.cxx L38) -/
def isPQIdChar (c : Char) : Bool := isIdChar c || c == '.'

/-! ### Identifiers (init_identifier.cxx) -/

/-- `keyword` (init_identifier.cxx L25-L26) -/
def keyword : G Str :=
  .lexeme (seqL (.alt (anyKw sqlWords) (anyKw adqlWords)) (.notP (.chr isIdChar)))
/-- `&nonidentifier_character` (init_identifier.cxx L33): some character follows and it is not an
identifier character -/
def andNonId : G Unit := .map (fun _ => ()) (.andP (.chr fun c => !isIdChar c))
/-- `all_identifiers` (init_identifier.cxx L35) -/
def allIdentifiers : G Str := .lexeme (cat (chS isLetter) (manyS (chS isIdChar)))
/-- `regular_identifier` (init_identifier.cxx L36) -/
def regularIdentifier : G Str := .lexeme (diff allIdentifiers keyword)
/-- `possibly_qualified_identifier` (init_identifier.cxx L39-L40) -/
def pqIdentifier : G Str := .lexeme (cat (chS isLetter) (manyS (chS isPQIdChar)))
/-- `delimited_identifier_part` (init_identifier.cxx L42-L44) -/
def delimitedPart : G Str := .lexeme (.alt (chS fun c => c != '"') (sym cs!"\"\""))
/-- `delimited_identifier` (init_identifier.cxx L45-L46) -/
def delimitedIdentifier : G Str :=
  .lexeme (cat (chS (· == '"')) (cat (plusS delimitedPart) (chS (· == '"'))))
/-- `identifier` (init_identifier.cxx L48); also `column_name`, `correlation_name`,
`catalog_name`, `unqualified_schema_name`, `with_table_name`, `with_column_name`. -/
def identifier : G Str := .lexeme (.alt regularIdentifier delimitedIdentifier)

/-! ### Table names and column references (init_column_reference.cxx) -/

/-- `period` (init_column_reference.cxx L38) -/
def period : G Str := .lexeme (chS (· == '.'))
/-- `tap_upload_identifier` (init_column_reference.cxx L55-L57) with `checked_mapping` (L6-L13) -/
def tapUploadIdentifier (cfg : Config) : G Str :=
  .lexeme (.act (fun s => match cfg.mapping s with
    | some t => .ok t
    | none => .throw s) identifier)
/-- `tap_upload` (init_column_reference.cxx L60) -/
def tapUpload (cfg : Config) : G Str :=
  .lexeme (seqR (sym cs!"TAP_UPLOAD.") (.expect "TAP_UPLOAD identifier" (tapUploadIdentifier cfg)))
/-- `table_name` (init_column_reference.cxx L67-L70); also `qualifier` (L45) -/
def tableName : G Str :=
  .lexeme (.alt tap
    (.alt (cat identifier (cat period (cat identifier (cat period identifier))))
      (.alt (cat identifier (cat period identifier)) identifier)))
/-- `column_reference` (init_column_reference.cxx L76-L84) -/
def columnReference : G ColRef :=
  .alt (.map (fun x => .csqc x.1 x.2.1 x.2.2.1 x.2.2.2)
      (.seq identifier (.seq (seqR (sym cs!".") identifier)
        (.seq (seqR (sym cs!".") identifier) (seqR (sym cs!".") identifier)))))
    (.alt (.map (fun x => .sqc x.1 x.2.1 x.2.2)
        (.seq identifier (.seq (seqR (sym cs!".") identifier) (seqR (sym cs!".") identifier))))
      (.alt (.map (fun x => .qc x.1 x.2)
          (.seq (.alt tap identifier) (seqR (sym cs!".") identifier)))
        (.map .col identifier)))

/-! ### Literals (init_literals.cxx) -/

/-- `unsigned_integer` (init_literals.cxx L25) -/
def unsignedInteger : G Str := .lexeme (plusS (chS isDigit))
/-- `exact_numeric_literal`, `mantissa` (init_literals.cxx L26-L27, L33) -/
def exactNumeric : G Str :=
  .lexeme (.alt (cat unsignedInteger (optS (cat period unsignedInteger)))
    (cat period unsignedInteger))
/-- `sign` (init_literals.cxx L29) -/
def sign : G Str := .lexeme (chS fun c => c == '+' || c == '-')
/-- `signed_integer`, `exponent` (init_literals.cxx L30, L34) -/
def signedInteger : G Str := .lexeme (cat (optS sign) unsignedInteger)
/-- `approximate_numeric_literal` (init_literals.cxx L35) -/
def approxNumeric : G Str :=
  .lexeme (cat exactNumeric (cat (chS fun c => c == 'E' || c == 'e') signedInteger))
/-- `unsigned_numeric_literal` (init_literals.cxx L36) -/
def unsignedNumeric : G Str := .lexeme (.alt approxNumeric exactNumeric)
/-- `character_representation` (init_literals.cxx L44-L45) -/
def charRep : G Str := .lexeme (.alt (chS fun c => c != '\'') (sym cs!"''"))
/-- `quote` (init_literals.cxx L38) -/
def quote : G Str := .lexeme (chS (· == '\''))
/-- `comment` (init_literals.cxx L47-L49) -/
def comment : G Str :=
  .lexeme (cat (cat (chS (· == '-')) (plusS (chS (· == '-'))))
    (cat (manyS (chS fun c => c != '\n')) (chS (· == '\n'))))
/-- `separator` (init_literals.cxx L51) -/
def separator : G Str :=
  .lexeme (.alt comment (.alt (chS (· == ' ')) (chS (· == '\n'))))
/-- `character_string_literal` (init_literals.cxx L53-L55) -/
def charString : G Str :=
  .lexeme (cat (cat quote (cat (manyS charRep) quote))
    (manyS (cat (plusS separator) (cat quote (cat (manyS charRep) quote)))))
/-- `boolean_literal` (init_literals.cxx L57-L58) -/
def booleanLiteral : G Str := .lexeme (.alt (kw cs!"True") (kw cs!"False"))
/-- `general_literal` (init_literals.cxx L63) -/
def generalLiteral : G Str := .lexeme (.alt charString booleanLiteral)
/-- `unsigned_literal`, `unsigned_value_specification` (init_literals.cxx L65-L67) -/
def unsignedLiteral : G Str := .lexeme (.alt unsignedNumeric generalLiteral)

/-- `qi::double_` : optional sign, digits with an optional fraction (a trailing dot is allowed) or
a leading-dot fraction, optional exponent; or `nan[(...)]` / `inf[inity]`.  The attribute is the
text of the numeral.  Simplification: numerals outside the range of `double` are accepted like all
others. -/
def double : G Str :=
  .lexeme (cat (optS (chS fun c => c == '+' || c == '-'))
    (.alt (cat (.alt (cat (plusS (chS isDigit))
                  (optS (cat (chS (· == '.')) (manyS (chS isDigit)))))
                (cat (chS (· == '.')) (plusS (chS isDigit))))
            (optS (cat (chS fun c => c == 'E' || c == 'e')
              (cat (optS (chS fun c => c == '+' || c == '-')) (plusS (chS isDigit))))))
      (.alt (cat (kw cs!"nan") (optS (cat (chS (· == '('))
              (cat (manyS (chS (· != ')'))) (chS (· == ')'))))))
        (cat (kw cs!"inf") (optS (kw cs!"inity"))))))

/-! ### Geometry (init_point_or_column.cxx, init_geometry.cxx) -/

/-- `reference_frame` (init_point_or_column.cxx L13-L17) -/
def referenceFrame : G Frame :=
  .alt (.map (fun _ => .icrs) (kw cs!"icrs"))
    (.alt (.map (fun _ => .j2000) (kw cs!"j2000")) (.map (fun _ => .galactic) (kw cs!"galactic")))
/-- `reference_position` (init_point_or_column.cxx L19-L22) -/
def referencePosition : G Pos := .map (fun _ => .geocenter) (kw cs!"geocenter")
/-- `coord_sys` (init_point_or_column.cxx L24-L26); absent parts keep the defaults of
`Coord_Sys::Coord_Sys` -/
def coordSys : G CoordSys :=
  .map (fun x => ⟨x.1, x.2⟩)
    (seqR (sym cs!"'") (seqL (.seq (optD .icrs referenceFrame) (optD .geocenter referencePosition))
      (sym cs!"'")))
/-- `-(coord_sys > ',')` -/
def optCoordSys : G CoordSys := optD {} (seqL coordSys (.expect "','" (sym cs!",")))
/-- `arithmetic_operator` (init_geometry.cxx L27) -/
def arithOp : G Char := .lexeme (.chr fun c => c == '+' || c == '-' || c == '*' || c == '/')
/-- `column_or_simple_arithmetic_expression` (init_geometry.cxx L30-L36) -/
def coordExpr : G CoordExpr :=
  .alt (.map (fun x => .bae x.1 x.2.1 x.2.2) (.seq double (.seq arithOp double)))
    (.alt (.map .col columnReference) (.map .num double))
/-- `coord` (init_geometry.cxx L38-L40) -/
def coord : G Coord :=
  .map (fun x => ⟨x.1, x.2⟩) (.seq coordExpr (seqR (sym cs!",") coordExpr))
/-- `> ',' > column_or_simple_arithmetic_expression` -/
def xCoordExpr : G CoordExpr :=
  seqR (.expect "','" (sym cs!",")) (.expect "column or simple arithmetic expression" coordExpr)
/-- `no_case["w"] >> '(' >> -(coord_sys > ',')` -/
def shapeHead (w : Str) : G CoordSys := seqR (kw w) (seqR (sym cs!"(") optCoordSys)
/-- `> ')'` -/
def xClose : G Str := .expect "')'" (sym cs!")")
/-- `point` (init_point_or_column.cxx L28) -/
def point : G Point :=
  .map (fun x => ⟨x.1, x.2⟩)
    (.seq (shapeHead cs!"POINT") (seqL (.expect "coordinate" coord) xClose))
/-- `circle` (init_geometry.cxx L46-L47) -/
def circle : G Shape :=
  .map (fun x => .circle x.1 x.2.1 x.2.2)
    (.seq (shapeHead cs!"CIRCLE")
      (.seq (.expect "coordinate" coord) (seqL xCoordExpr xClose)))
/-- `ellipse` (init_geometry.cxx L50-L53) -/
def ellipse : G Shape :=
  .map (fun x => .ellipse x.1 x.2.1 x.2.2.1 x.2.2.2.1 x.2.2.2.2)
    (.seq (shapeHead cs!"ELLIPSE")
      (.seq (.expect "coordinate" coord)
        (.seq xCoordExpr (.seq xCoordExpr (seqL xCoordExpr xClose)))))
/-- `box` (init_geometry.cxx L56-L58) -/
def box : G Shape :=
  .map (fun x => .box x.1 x.2.1 x.2.2.1 x.2.2.2)
    (.seq (shapeHead cs!"BOX")
      (.seq (.expect "coordinate" coord) (.seq xCoordExpr (seqL xCoordExpr xClose))))
/-- `polygon` (init_geometry.cxx L61-L65) -/
def polygon : G Shape :=
  .map (fun x => .polygon x.1 x.2)
    (.seq (shapeHead cs!"POLYGON")
      (seqL (.expect "coordinate list" (sepBy coord (sym cs!","))) xClose))
/-- `shape` (init_geometry.cxx L68) -/
def shape : G Shape :=
  .alt (.map .point point) (.alt circle (.alt box (.alt ellipse polygon)))
/-- `point_or_column` (init_point_or_column.cxx L31) -/
def pointOrColumn : G PointOrCol :=
  .alt (.map .point point) (.map .col columnReference)
/-- `shape_or_column` (init_geometry.cxx L71) -/
def shapeOrColumn : G ShapeOrCol :=
  .alt (.map .shape shape) (.map .col columnReference)
/-- `> ',' > shape_or_column > ')'` -/
def xShapeTail : G ShapeOrCol :=
  seqR (.expect "','" (sym cs!",")) (seqL (.expect "shape_or_column" shapeOrColumn) xClose)
/-- `contains` (init_geometry.cxx L74-L75) -/
def contains : G GPred :=
  .map (fun x => .contains x.1 x.2)
    (seqR (seqR (kw cs!"CONTAINS") (sym cs!"("))
      (.seq (.expect "shape_or_column" shapeOrColumn) xShapeTail))
/-- `intersects` (init_geometry.cxx L78-L79) -/
def intersects : G GPred :=
  .map (fun x => .intersects x.1 x.2)
    (seqR (seqR (kw cs!"INTERSECTS") (sym cs!"("))
      (.seq (.expect "value_expression" ve) xShapeTail))
/-- `char_flag` (init_geometry.cxx L82) -/
def charFlag : G Char := .lexeme (.chr fun c => c == '0' || c == '1')
/-- `contains | intersects` -/
def geomPred : G GPred := .alt contains intersects
/-- `geometry` (init_geometry.cxx L84-L87) -/
def geometry : G Geom :=
  .alt (.map (fun x => .left x.1 x.2) (.seq (seqL charFlag (sym cs!"=")) geomPred))
    (.map (fun x => .right x.1 x.2) (.seq geomPred
      (.alt (seqR (sym cs!"=") (.expect "char_flag" charFlag)) (.pure '1'))))

/-! ### Functions (init_trig.cxx, init_math.cxx, init_non_predicate_geometry_function.cxx) -/

/-- `> '('` -/
def xOpen : G Str := .expect "'('" (sym cs!"(")
/-- `> ','` -/
def xComma : G Str := .expect "','" (sym cs!",")
/-- `> value_expression` -/
def xVe : G VE := .expect "value_expression" ve
/-- `hold[lexeme[names >> &nonidentifier_character]] > '('` -/
def fnHead (names : G Str) : G Str := seqL (.lexeme (seqL names andNonId)) xOpen
/-- `trig_one_arg_names` (init_trig.cxx L25-L31) -/
def trigNames : G Str := .lexeme (anyKw
  [cs!"ACOS", cs!"ASIN", cs!"ATAN", cs!"COS", cs!"COT", cs!"SIN", cs!"TAN"])
/-- `trig_function` (init_trig.cxx L32-L39) -/
def trigFunction : G NumFn :=
  .alt (.map (fun x => .trig1 x.1 x.2) (.seq (fnHead trigNames) (seqL xVe xClose)))
    (.map (fun x => .trig2 x.1 x.2.1 x.2.2)
      (.seq (fnHead (kw cs!"ATAN2")) (.seq xVe (seqR xComma (seqL xVe xClose)))))
/-- `math_zero_arg_names` (init_math.cxx L26-L27) -/
def math0Names : G Str := .lexeme (anyKw [cs!"PI", cs!"RAND"])
/-- `math_one_arg_names` (init_math.cxx L32-L43) -/
def math1Names : G Str := .lexeme (anyKw
  [cs!"ABS", cs!"CEILING", cs!"DEGREES", cs!"EXP", cs!"FLOOR", cs!"LOG10", cs!"LOG", cs!"RADIANS",
   cs!"SQRT", cs!"RAND", cs!"ROUND", cs!"TRUNCATE"])
/-- `math_two_arg_names` (init_math.cxx L48-L51) -/
def math2Names : G Str := .lexeme (anyKw [cs!"MOD", cs!"POWER", cs!"ROUND", cs!"TRUNCATE"])
/-- `math_function` (init_math.cxx L29, L45, L53-L56) -/
def mathFunction : G NumFn :=
  .alt (.map .math0 (seqL (seqL math0Names (sym cs!"(")) (sym cs!")")))
    (.alt (.map (fun x => .math1 x.1 x.2)
        (.seq (seqL math1Names (sym cs!"(")) (seqL ve (sym cs!")"))))
      (.map (fun x => .math2 x.1 x.2.1 x.2.2)
        (.seq (seqL math2Names (sym cs!"(")) (.seq ve (seqR (sym cs!",") (seqL ve (sym cs!")")))))))
/-- `geo_one_arg_names`, `geo_two_arg_names` and `non_predicate_geometry_function`
(init_non_predicate_geometry_function.cxx L8-L22) -/
def geoFunction : G NumFn :=
  .alt (.map (fun x => .geo1 x.1 x.2)
      (.seq (fnHead (.lexeme (anyKw [cs!"COORD1", cs!"COORD2"])))
        (seqL (.expect "point or column" pointOrColumn) xClose)))
    (.map (fun x => .geo2 x.1 x.2.1 x.2.2)
      (.seq (fnHead (.lexeme (kw cs!"DISTANCE")))
        (.seq (.expect "point or column" pointOrColumn)
          (seqR xComma (seqL (.expect "point or column" pointOrColumn) xClose)))))

/-! ### Factors (init_factor.cxx) -/

/-- `cast_as` (init_factor.cxx L160-L168) -/
def castAs : G Str := .lexeme (anyKw
  [cs!"NUMERIC", cs!"FLOAT4", cs!"INTEGER", cs!"BIGINT", cs!"FLOAT8", cs!"VARCHAR2", cs!"VARCHAR",
   cs!"CHAR", cs!"TEXT"])
/-- `cast_function` (init_factor.cxx L170-L173) -/
def castFunction : G NumFn :=
  .map (fun x => .cast x.1 x.2.1 x.2.2)
    (seqR (seqR (kw cs!"CAST") (sym cs!"("))
      (.seq (seqL ve (.seq andNsSpace (.seq (kw cs!"AS") andNsSpace)))
        (.seq castAs
          (seqL (optS (seqR (sym cs!"(")
            (seqL (.expect "unsigned_integer" unsignedInteger) xClose))) (sym cs!")")))))
/-- `user_defined_function_name` (init_factor.cxx L138-L144) -/
def udfName : G Str := .lexeme (.alt regularIdentifier
  (anyKw [cs!"RIGHT", cs!"LEFT", cs!"UPPER", cs!"LOWER", cs!"DISTINCT", cs!"TRIM"]))
/-- `user_defined_function` (init_factor.cxx L147-L151) -/
def userDefinedFunction : G NumFn :=
  .map (fun x => .udf x.1 x.2)
    (.seq (seqL udfName (sym cs!"(")) (seqL (optD [] (sepBy ve (sym cs!","))) (sym cs!")")))
/-- `sql_no_arg_function` (init_factor.cxx L155) -/
def sqlNoArgFunction : G Str := .lexeme (kw cs!"CURRENT_TIMESTAMP")
/-- `numeric_value_function` (init_factor.cxx L178-L180) -/
def numericValueFunction : G NumFn :=
  .alt trigFunction (.alt mathFunction (.alt castFunction (.alt geoFunction
    (.alt userDefinedFunction (.map .str sqlNoArgFunction)))))
/-- `set_function_type` (init_factor.cxx L25-L29) -/
def setFunctionType : G Str := .lexeme (anyKw
  [cs!"AVG", cs!"MAX", cs!"MIN", cs!"SUM", cs!"COUNT"])
/-- `set_quantifier` (init_factor.cxx L34-L36) -/
def setQuantifier : G Str :=
  .lexeme (.lexeme (seqL (.alt (kw cs!"DISTINCT") (kw cs!"ALL")) andSpace))
/-- `count_star` (init_factor.cxx L43-L44) -/
def countStar : G Str :=
  cat (kw cs!"COUNT") (cat (chS (· == '(')) (cat (chS (· == '*')) (.expect "')'" (chS (· == ')')))))
/-- `general_set_function` (init_factor.cxx L39-L40) -/
def generalSetFunction : G Prim :=
  .map (fun x => .setFn x.1 x.2.1 x.2.2)
    (.seq (seqL setFunctionType (sym cs!"("))
      (seqL (.expect "general_set_args" (.seq (optS setQuantifier) ve)) xClose))
/-- `null_literal` (init_factor.cxx L48) -/
def nullLiteral : G Str := .lexeme (kw cs!"NULL")
/-- `result` (init_factor.cxx L50) -/
def caseResult : G CaseResult := .alt (.map .ve ve) (.map .str nullLiteral)
/-- `simple_when` (init_factor.cxx L53-L55) -/
def simpleWhen : G SimpleWhen :=
  .map (fun x => .mk x.1 x.2)
    (seqR (.seq (kw cs!"WHEN") andNsSpace)
      (.seq (.expect "value_expression" (seqL ve (kw cs!"THEN")))
        (seqR (.expect "space" andNsSpace) (.expect "result" caseResult))))
/-- `else_clause` (init_factor.cxx L61-L62) -/
def elseClause : G CaseResult := seqR (.seq (kw cs!"ELSE") andNsSpace) caseResult
/-- `simple_case` (init_factor.cxx L58, L67-L68) -/
def simpleCase : G CaseE :=
  .map (fun x => .simple x.1 x.2.1 x.2.2)
    (seqL (.seq ve (.seq (plus simpleWhen) (optD CaseResult.dflt elseClause)))
      (.expect "END" (kw cs!"END")))
/-- `searched_when` (init_factor.cxx L71-L73) -/
def searchedWhen : G SearchedWhen :=
  .map (fun x => .mk x.1 x.2)
    (seqR (.seq (kw cs!"WHEN") andNsSpace)
      (.seq (seqL sc (.seq (kw cs!"THEN") andNsSpace)) caseResult))
/-- `searched_case` (init_factor.cxx L76, L79-L80) -/
def searchedCase : G CaseE :=
  .map (fun x => .searched x.1 x.2)
    (.seq (plus searchedWhen)
      (seqL (optD CaseResult.dflt elseClause) (.seq andNsSpace (kw cs!"END"))))
/-- `case_specification` (init_factor.cxx L83-L84) -/
def caseSpecification : G CaseE :=
  seqR (.seq (kw cs!"CASE") andNsSpace) (.expect "case" (.alt simpleCase searchedCase))
/-- `nullif` (init_factor.cxx L87-L88) -/
def nullif : G CaseE :=
  .map (fun x => .nullif x.1 x.2)
    (seqR (.seq (kw cs!"NULLIF") (sym cs!"("))
      (.seq ve (seqR (sym cs!",") (seqL ve (sym cs!")")))))
/-- `coalesce` (init_factor.cxx L91) -/
def coalesce : G CaseE :=
  .map .coalesce (seqR (.seq (kw cs!"COALESCE") (sym cs!"("))
    (seqL (sepBy ve (sym cs!",")) (sym cs!")")))
/-- `case_expression` (init_factor.cxx L94-L97) -/
def caseExpression : G CaseE := .alt (.alt nullif coalesce) caseSpecification
/-- `any_expression` (init_factor.cxx L100) -/
def anyExpression : G Prim :=
  .map .any (seqR (.seq (kw cs!"ANY") (sym cs!"(")) (seqL xVe xClose))
/-- `value_subexpression` (init_factor.cxx L109) -/
def valueSubexpression : G Prim := .map .sub (seqR (sym cs!"(") (seqL ve (sym cs!")")))
/-- `array_index` (init_factor.cxx L112) -/
def arrayIndex : G VE := seqR (sym cs!"[") (seqL ve (sym cs!"]"))
/-- `null_cast` (init_factor.cxx L115-L117) -/
def nullCast : G Str := .lexeme (anyKw [cs!"NULL::char", cs!"NULL::int", cs!"NULL::float"])
/-- `array_constructor` (init_factor.cxx L129-L130) -/
def arrayConstructor : G Prim :=
  .map .arr (seqL (seqR (.seq (kw cs!"ARRAY") (sym cs!"[")) (sepBy ve (sym cs!",")))
    (.expect "']'" (sym cs!"]")))
/-- the alternatives of `value_expression_primary` (init_factor.cxx L120-L123) -/
def primary : G Prim :=
  .alt arrayConstructor (.alt (.map .str unsignedLiteral) (.alt (.map .col columnReference)
    (.alt (.alt (.map .countStar countStar) generalSetFunction)
      (.alt (.map .case caseExpression) (.alt anyExpression (.alt (.map .str nullCast)
        (.alt (.map .str nullLiteral) valueSubexpression)))))))
/-- `value_expression_primary` (init_factor.cxx L120-L124) -/
def valueExpressionPrimary : G VEP :=
  .map (fun x => .mk x.1 x.2) (.seq primary (.star arrayIndex))
/-- `numeric_primary` (init_factor.cxx L184) -/
def numericPrimary : G NumPrim :=
  .alt (.map .nvf numericValueFunction) (.map .vep valueExpressionPrimary)
/-- `factor` (init_factor.cxx L187) -/
def factor : G Factor :=
  .map (fun x => .mk x.1 x.2) (.seq (optS sign) numericPrimary)

/-! ### Value expressions (init_value_expression.cxx) -/

/-- `binary_operators` (init_value_expression.cxx L12-L13) -/
def binaryOperators : G Str :=
  .lexeme (.alt (sym cs!"*") (.alt (sym cs!"/") (.alt (sym cs!"+") (.alt (sym cs!"-") (sym cs!"||")))))
/-- `value_expression_non_bool_term` (init_value_expression.cxx L14) -/
def venbTerm : G Term :=
  .map (fun x => .mk x.1 x.2) (.seq binaryOperators factor)
/-- `value_expression_non_bool` (init_value_expression.cxx L16); also `match_value` -/
def venbBody : G VENB :=
  .map (fun x => .mk x.1 x.2) (.seq factor (.star venbTerm))
/-- `value_expression` (init_value_expression.cxx L19) -/
def veBody : G VE := .alt (.map .nb venb) (.map .sc sc)

/-! ### Predicates (init_predicate.cxx) and search conditions (init_search_condition.cxx) -/

/-- the comparison operators (init_predicate.cxx L51-L53) -/
def compOp : G Str :=
  .alt (sym cs!"=") (.alt (sym cs!"!=") (.alt (sym cs!"<>") (.alt (sym cs!"<=")
    (.alt (sym cs!">=") (.alt (sym cs!"<") (sym cs!">"))))))
/-- `comparison_predicate` (init_predicate.cxx L49-L54) -/
def comparisonPredicate : G Pred :=
  .map (fun x => .cmp x.1 x.2.1 x.2.2) (.seq venb (.seq compOp ve))
/-- `between_predicate` (init_predicate.cxx L56-L62) -/
def betweenPredicate : G Pred :=
  .map (fun x => .between x.1 x.2.1 x.2.2.1 x.2.2.2)
    (.seq venb (.seq (optS (wordX cs!"NOT"))
      (seqR (wordX cs!"BETWEEN") (.seq ve (seqR (wordX cs!"AND") ve)))))
/-- `-lexeme[no_case[string("NOT")] > space]` of `in_predicate` (init_predicate.cxx L66); the
blank is consumed and is part of the attribute -/
def inNot : G Str := optS (.lexeme (cat (kw cs!"NOT") (.expect "space" (chS isSpace))))
/-- `in_predicate` (init_predicate.cxx L64-L68) -/
def inPredicate : G Pred :=
  .map (fun x => match x.2.2 with
      | .inl q => .inSub x.1 x.2.1 q
      | .inr l => .inList x.1 x.2.1 l)
    (.seq venb (.seq inNot (seqR (wordX cs!"IN")
      (.alt (.map Sum.inl subq)
        (.map Sum.inr (seqR (sym cs!"(") (seqL (sepBy ve (sym cs!",")) (sym cs!")"))))))))
/-- `null_predicate` (init_predicate.cxx L70-L74) -/
def nullPredicate : G Pred :=
  .map (fun x => .null x.1 x.2)
    (.seq venb (seqR (wordX cs!"IS") (seqL (optS (wordX cs!"NOT")) (kw cs!"NULL"))))
/-- `like_predicate`, `match_value`, `pattern` (init_predicate.cxx L76-L82) -/
def likePredicate : G Pred :=
  .map (fun x => .like x.1 x.2.1 (.nb x.2.2))
    (.seq venb (.seq (optS (word cs!"NOT")) (seqR (word cs!"LIKE") venb)))
/-- `exists_predicate` (init_predicate.cxx L84-L85) -/
def existsPredicate : G Pred := .map .exist (seqR (wordX cs!"EXISTS") subq)
/-- `predicate` (init_predicate.cxx L87-L88) -/
def predicate : G Pred :=
  .alt comparisonPredicate (.alt betweenPredicate (.alt inPredicate (.alt nullPredicate
    (.alt likePredicate existsPredicate))))
/-- `boolean_primary` (init_search_condition.cxx L25-L26) -/
def booleanPrimary : G BP :=
  .alt (.map .pred predicate)
    (.alt (.map .sc (seqR (sym cs!"(") (seqL sc (sym cs!")")))) (.map .ve venb))
/-- `-lexeme[no_case[string("NOT")] >> &space]` of `boolean_factor` (init_search_condition.cxx
L28-L29).  With `residue`, a NOT that is not followed by a blank still leaves its text in the
attribute although nothing is consumed. -/
def factorNot (residue : Bool) : G Str :=
  .alt (word cs!"NOT")
    (if residue then .alt (.andP (.lexeme (kw cs!"NOT"))) (.pure []) else .pure [])
/-- `boolean_factor` (init_search_condition.cxx L28-L30) -/
def booleanFactor (residue : Bool) : G BF :=
  .map (fun x => .mk x.1 x.2) (.seq (factorNot residue) booleanPrimary)
/-- `lexeme[(AND | OR) >> &space]` (init_search_condition.cxx L32-L34) -/
def logicalOp : G Str := .lexeme (seqL (.alt (kw cs!"AND") (kw cs!"OR")) andSpace)
/-- `search_condition`, `boolean_value_expression`, `boolean_term`
(init_search_condition.cxx L32-L39) -/
def scBody (residue : Bool) : G SC :=
  .alt (.map (fun x => .term x.1 x.2.1 x.2.2) (.seq (booleanFactor residue) (.seq logicalOp sc)))
    (.map .factor (booleanFactor residue))

/-! ### Tables and joins (init_correlation_specification.cxx, init_join.cxx, init_predicate.cxx) -/

/-- `correlation_specification` (init_correlation_specification.cxx L11-L13) -/
def correlationSpecification : G Str := seqR (optS (word cs!"AS")) identifier
/-- `table_correlation` (init_join.cxx L43) -/
def tableCorrelation : G TableCorr :=
  .map (fun x => ⟨x.1, x.2⟩) (.seq tableName (optS correlationSpecification))
/-- `outer_join`, `join_type` (init_join.cxx L45-L55) -/
def joinType : G JoinType :=
  .alt (.map .str (word cs!"INNER"))
    (.map (fun x => .outer x.1 x.2)
      (.seq (.lexeme (seqL (.alt (kw cs!"LEFT") (.alt (kw cs!"RIGHT") (kw cs!"FULL"))) andSpace))
        (optD false (.map (fun _ => true) (word cs!"OUTER")))))
/-- `join_specification` (init_join.cxx L25-L41) -/
def joinSpecification : G JoinSpec :=
  .alt (.map .on (seqR (word cs!"ON") sc))
    (.map .named (seqR (.seq (word cs!"USING") (sym cs!"("))
      (seqL (.expect "join column list" (sepBy identifier (sym cs!","))) xClose)))
/-- `join_suffix` (init_join.cxx L58-L63) -/
def joinSuffix : G JoinSuffix :=
  .map (fun x => .mk x.1 x.2.1 x.2.2.1 x.2.2.2)
    (.seq (optD false (.map (fun _ => true) (word cs!"NATURAL")))
      (.seq (seqL (optD (.str []) joinType) (word cs!"JOIN"))
        (.expect "table reference" (.seq tr (optD JoinSpec.dflt joinSpecification)))))
/-- `'(' >> joined_table >> ')'` -/
def parenJoined : G JT := seqR (sym cs!"(") (seqL jt (sym cs!")"))
/-- `qualified_join` (init_join.cxx L66-L67).  The attribute of the parenthesised alternative is
the one-member class `Joined_Table`, so the `Joined_Table` in the parentheses ends up as the
*wrapped* alternative of a new `Joined_Table`. -/
def qualifiedJoin : G QJ :=
  .map (fun x => .mk x.1 x.2)
    (.seq (.alt (.map (fun j => .jt (.wrap j)) parenJoined) (.map .tc tableCorrelation))
      (plus joinSuffix))
/-- `joined_table` (init_join.cxx L70) -/
def jtBody : G JT := .alt (.map .qj qualifiedJoin) (.map .wrap parenJoined)
/-- `derived_correlation` (init_predicate.cxx L25) -/
def derivedCorrelation : G TR :=
  .map (fun x => .derived x.1 x.2) (.seq subq correlationSpecification)
/-- `table_valued_function` (init_predicate.cxx L28-L36) -/
def tableValuedFunction : G TR :=
  .map (fun x => .tvf x.1 x.2)
    (.seq (.lexeme (seqR (kw cs!"table(") (seqL pqIdentifier (sym cs!"('"))))
      (seqL (seqL (optD [] (sepBy pqIdentifier (sym cs!"','"))) (sym cs!"')")) (sym cs!")")))
/-- `table_reference` (init_predicate.cxx L39-L40) -/
def trBody : G TR :=
  .alt (.map .jt jt) (.alt (.map .tc tableCorrelation) (.alt derivedCorrelation tableValuedFunction))
/-- `from_clause` (init_predicate.cxx L43-L44) -/
def fromClause : G (List TR) :=
  seqR (wordX cs!"FROM") (.expect "table reference list" (sepBy tr (sym cs!",")))

/-! ### SELECT columns (init_columns.cxx) -/

/-- `as` (init_columns.cxx L29-L31) -/
def asItem : G Item :=
  .map (fun x => .as x.1 x.2) (.seq (seqL ve (word cs!"AS")) (.expect "column_name" identifier))
/-- `qualifier_star` (init_columns.cxx L34) -/
def qualifierStar : G Str := .lexeme (cat tableName (sym cs!".*"))
/-- `select_item`, `non_as` (init_columns.cxx L35-L37) -/
def selectItem : G Item :=
  .alt asItem (.alt (.map .nonAsStr qualifierStar) (.map .nonAsVE ve))
/-- `columns`, `select_list` (init_columns.cxx L38-L39) -/
def columns : G Columns :=
  .alt (.map .star (sym cs!"*")) (.map .items (sepBy selectItem (sym cs!",")))

/-! ### Queries (init_query.cxx) -/

/-- the value of a string of decimal digits -/
def digitsVal (s : Str) : Nat := s.foldl (fun n c => n * 10 + (c.toNat - 48)) 0
/-- `qi::ulong_long`: decimal digits, failing when the value does not fit in 64 bits -/
def ulongLong : G Nat :=
  .act (fun s => if digitsVal s ≤ topMax then .ok (digitsVal s) else .fail)
    (.lexeme (plusS (chS isDigit)))
/-- `-(hold[lexeme[TOP >> &space]] > lexeme[ulong_long > &space])` (init_query.cxx L83-L84) -/
def topClause : G Nat :=
  optD topMax (seqR (word cs!"TOP")
    (.expect "unsigned integer" (.lexeme (seqL ulongLong (.expect "space" andSpace)))))
/-- `select` (init_query.cxx L81-L85) -/
def select : G Select :=
  .map (fun x => .mk x.1 x.2.1 x.2.2)
    (seqR (wordX cs!"SELECT") (.seq (optS setQuantifier)
      (.seq topClause (.expect "columns" columns))))
/-- `where` (init_query.cxx L37-L44) -/
def whereClause : G Where :=
  seqR (wordX cs!"WHERE") (.expect "where condition"
    (.alt (.map (fun x => .mk x.1 x.2) (.seq geometry
        (optD SC.dflt (seqR (kw cs!"AND") (.expect "search condition" sc)))))
      (.alt (.map (fun g => .mk g SC.dflt) (seqR (sym cs!"(") (seqL geometry xClose)))
        (.map (fun s => .mk Geom.dflt s) sc))))
/-- `where_no_geometry` (init_query.cxx L48-L49) -/
def whereNoGeometry : G Where := .map (fun s => .mk Geom.dflt s) (seqR (word cs!"WHERE") sc)
/-- `select > from_clause >> -where` (init_query.cxx L88-L92, L94-L99) -/
def sfwWith (w : G Where) : G SFW :=
  .map (fun x => .mk x.1 x.2.1 x.2.2)
    (.seq select (.expect "from" (.seq fromClause (optD Where.dflt w))))
/-- the union operators (init_query.cxx L101-L104) -/
def unionOp : G Str :=
  .lexeme (seqL (.alt (kw cs!"UNION DISTINCT") (.alt (kw cs!"UNION ALL") (kw cs!"UNION"))) andSpace)
/-- `select_from_where_list`, `select_from_where_no_geometry_list` (init_query.cxx L101-L119) -/
def sfwList (w : G Where) : G SFWList :=
  .map (fun x => .mk x.1 x.2)
    (.seq (sfwWith w) (.star (.map (fun x => .mk x.1 x.2) (.seq unionOp (sfwWith w)))))
/-- `group_by_term` (init_query.cxx L52) -/
def groupByTerm : G GroupTerm :=
  .alt (.map .ve ve) (.map .col columnReference)
/-- `group_by` (init_query.cxx L55-L57) -/
def groupBy : G (List GroupTerm) :=
  seqR (wordX cs!"GROUP") (seqR (.expect "BY" (wordX cs!"BY"))
    (.expect "group by terms" (sepBy groupByTerm (sym cs!","))))
/-- `having` (init_query.cxx L60-L61) -/
def having : G SC := seqR (wordX cs!"HAVING") (.expect "search condition" sc)
/-- `sort_specification`, `sort_key`, `ordering_specification` (init_query.cxx L64-L71) -/
def sortSpecification : G SortSpec :=
  .map (fun x => ⟨x.1, x.2⟩)
    (.seq (.alt (.map .inr columnReference) (.map .inl unsignedInteger))
      (optS (.lexeme (.alt (kw cs!"ASC") (kw cs!"DESC")))))
/-- `order_by` (init_query.cxx L72-L74) -/
def orderBy : G (List SortSpec) :=
  seqR (wordX cs!"ORDER") (seqR (wordX cs!"BY") (sepBy sortSpecification (sym cs!",")))
/-- `with` (init_query.cxx L25-L27) -/
def withClause : G With :=
  .map (fun x => .mk x.1 x.2.1 x.2.2)
    (seqR (wordX cs!"WITH") (.seq (.expect "with_table_name" identifier)
      (.seq (.expect "with columns"
          (seqL (optD [] (seqR (sym cs!"(") (seqL (sepBy identifier (sym cs!",")) xClose)))
            (optS (wordX cs!"AS"))))
        (.expect "subquery" subq))))
/-- `query` and `query_no_geometry` (init_query.cxx L123-L131) for the given WHERE rule -/
def queryWith (w : G Where) : G QuerySpec :=
  .map (fun x => .mk x.1 x.2.1 x.2.2.1 x.2.2.2.1 x.2.2.2.2)
    (.seq (optD With.dflt withClause) (.seq (sfwList w) (.seq (optD [] groupBy)
      (.seq (optD SC.dflt having) (optD [] orderBy)))))
/-- `query` (init_query.cxx L123-L125), the start rule -/
def query : G QuerySpec := queryWith whereClause
/-- `query_no_geometry` (init_query.cxx L128-L131) -/
def queryNoGeometry : G QuerySpec := queryWith whereNoGeometry
/-- `subquery` (init_query.cxx L134) -/
def subqBody : G Subquery :=
  seqR (sym cs!"(") (seqL (.alt (.map .qs queryNoGeometry) (.map .jt jt)) (sym cs!")"))

/-- The bodies of the recursive rules. -/
def grammar (cfg : Config) : (n : Rule) → G (Attr n)
  | .ve => veBody
  | .venb => venbBody
  | .sc => scBody cfg.residue
  | .subq => subqBody
  | .jt => jtBody
  | .tr => trBody
  | .tap => tapUpload cfg

end Adql
