import Verif.Spec.Value

/-!
# Values in parts

A string literal can consist of several parts with line ends between them (SQL-92 §5.3).  With one part for every character no word of the
value is in the text.
-/

namespace Adql.Spec

/-- The literal of a value, one part for every character. -/
def inParts : Str → Str
  | [] => cs!"''"
  | [c] => quoted [c]
  | c :: d :: r => quoted [c] ++ '\n' :: inParts (d :: r)

/-- The value of a literal without comments between its parts; the flag says whether this is inside of a part. -/
def litValue : Bool → Str → Str
  | _, [] => []
  | false, c :: r => litValue (c == '\'') r
  | true, [c] => if c = '\'' then [] else [c]
  | true, c :: d :: r => if c = '\'' then if d = '\'' then '\'' :: litValue true r else litValue false (d :: r) else c :: litValue true (d :: r)

/-- `e op x` for a literal `x` -/
def comparedLit (e : VENB) (op x : Str) : SC := .factor (.mk [] (.pred (.cmp e op (.nb (.mk (.mk [] (.vep (.mk (.str x) []))) [])))))

end Adql.Spec
