import Verif.Model.WF
import Verif.Spec.Core

/-!
# What an error message says

`Absent cfg w r` says what the message `Expecting w here: "r"` claims: that no `w` begins at `r`.  For symbols and words
this is said of the characters; for the larger constructs it means that the rule of this name does not match.  The
wording of the parser for components that are not named rules is not modelled.
-/

namespace Adql.Spec

/-- The text begins, after blanks, with the word `w` in any letter case. -/
def Begins (w r : Str) : Prop := ∃ k t, SameCI k w ∧ r.dropWhile isSpace = k ++ t

/-- No rule `p` matches at the beginning of `r`. -/
def No (cfg : Config) {α : Type} (p : G α) (r : Str) : Prop := parse cfg p true r = .fail

/-- What the message says. -/
inductive Absent (cfg : Config) : String → Str → Prop
  | opening {r} : next r ≠ some '(' → Absent cfg "'('" r
  | closing {r} : next r ≠ some ')' → Absent cfg "')'" r
  | comma {r} : next r ≠ some ',' → Absent cfg "','" r
  | bracket {r} : next r ≠ some ']' → Absent cfg "']'" r
  | space {r} : (∀ c t, r = c :: t → isSpace c = false) → Absent cfg "space" r
  | byWord {r} : ¬ Begins cs!"BY" r → Absent cfg "BY" r
  | endWord {r} : ¬ Begins cs!"END" r → Absent cfg "END" r
  | fromWord {r} : ¬ Begins cs!"FROM" r → Absent cfg "from" r
  | flag {r} : next r ≠ some '0' → next r ≠ some '1' → Absent cfg "char_flag" r
  -- here blanks are not skipped
  | upload {r} : parse cfg identifier false r = .fail → Absent cfg "TAP_UPLOAD identifier" r
  | columnName {r} : No cfg identifier r → Absent cfg "column_name" r
  | joinColumns {r} : No cfg identifier r → Absent cfg "join column list" r
  | withTable {r} : No cfg identifier r → Absent cfg "with_table_name" r
  | integer {r} : No cfg unsignedInteger r → Absent cfg "unsigned_integer" r
  | top {r} : No cfg ulongLong r → Absent cfg "unsigned integer" r
  | value {r} : No cfg ve r → Absent cfg "value_expression" r
  | whenThen {v r t} : parse cfg ve true r = .ok v t → ¬ Begins cs!"THEN" t → Absent cfg "value_expression" r
  | setArgs {r} : No cfg ve r → Absent cfg "general_set_args" r
  | setArgsQ {q r t} : parse cfg setQuantifier true r = .ok q t → No cfg ve t → Absent cfg "general_set_args" r
  | result {r} : No cfg ve r → ¬ Begins cs!"NULL" r → Absent cfg "result" r
  | caseBody {r} : No cfg simpleCase r → No cfg searchedCase r → Absent cfg "case" r
  | coordExpr {r} : No cfg columnReference r → No cfg double r → Absent cfg "column or simple arithmetic expression" r
  | coord {r} : No cfg coord r → Absent cfg "coordinate" r
  | coords {r} : No cfg coord r → Absent cfg "coordinate list" r
  | point {r} : No cfg point r → No cfg columnReference r → Absent cfg "point or column" r
  | shape {r} : No cfg shape r → No cfg columnReference r → Absent cfg "shape_or_column" r
  | columns {r} : next r ≠ some '*' → No cfg ve r → No cfg qualifierStar r → Absent cfg "columns" r
  | group {r} : No cfg ve r → No cfg columnReference r → Absent cfg "group by terms" r
  | condition {r} : No cfg sc r → Absent cfg "search condition" r
  | condition1 {r} : No cfg geometry r → No cfg sc r → Absent cfg "where condition" r
  | table {r} : No cfg tr r → Absent cfg "table reference" r
  | tables {r} : No cfg tr r → Absent cfg "table reference list" r
  | subquery {r} : No cfg subq r → Absent cfg "subquery" r

/-- The constructs that a message can name. -/
def messages : List String :=
  ["'('", "')'", "','", "']'", "space", "BY", "END", "from", "char_flag", "TAP_UPLOAD identifier", "column_name",
   "join column list", "with_table_name", "unsigned_integer", "unsigned integer", "value_expression", "general_set_args",
   "result", "case", "column or simple arithmetic expression", "coordinate", "coordinate list", "point or column",
   "shape_or_column", "columns", "group by terms", "search condition", "where condition", "table reference",
   "table reference list", "subquery"]

end Adql.Spec
