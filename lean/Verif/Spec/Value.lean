import Verif.Spec.Restrict

/-!
# Values in a query

What a program does with a value that it got from somewhere, to compare something with it: it doubles the quotes in the value and puts the
result between quotes.
-/

namespace Adql.Spec

/-- every quote `q` twice -/
def doubled (q : Char) : Str → Str
  | [] => []
  | c :: r => if c = q then q :: q :: doubled q r else c :: doubled q r

/-- The literal of a value. -/
def quoted (v : Str) : Str := '\'' :: (doubled '\'' v ++ ['\''])

/-- The value of what is behind the opening quote of a literal (SQL-92 §5.2, §5.3): two quotes are one, the last one is the end. -/
def contents (q : Char) : Str → Str
  | [] => []
  | [_] => []
  | c :: d :: r => if c = q ∧ d = q then q :: contents q r else c :: contents q (d :: r)

/-- The value of a literal that consists of one part. -/
def valueOfLit (s : Str) : Str := contents '\'' s.tail

/-- the literal as an expression -/
def litVE (v : Str) : VE := .nb (.mk (.mk [] (.vep (.mk (.str (quoted v)) []))) [])

/-- `e op 'v'` -/
def compared (e : VENB) (op v : Str) : SC := .factor (.mk [] (.pred (.cmp e op (litVE v))))

/-- `e IN ('v', 'w', ...)` -/
def among (e : VENB) (vs : List Str) : SC := .factor (.mk [] (.pred (.inList e [] (vs.map litVE))))

/-- The text contains the word, in any letter case. -/
def Contains (w s : Str) : Prop := ∃ u k z, s = u ++ (k ++ z) ∧ SameCI k w

end Adql.Spec
