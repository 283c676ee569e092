import Verif.Spec.Restrict
import Verif.Spec.Value
import Verif.Spec.Lookup

/-!
# Whole numbers in queries

`e BETWEEN -3 AND 12` for numbers that come from somewhere.
-/

namespace Adql.Spec

/-- the sign of a number -/
def signOf (i : Int) : Str := if i < 0 then cs!"-" else []

/-- The text of a number. -/
def intText (i : Int) : Str := signOf i ++ decDigits i.natAbs

/-- The number as an expression: the digits are a literal, the sign is part of the expression. -/
def intVE (i : Int) : VE := .nb (.mk (.mk (signOf i) (.vep (.mk (.str (decDigits i.natAbs)) []))) [])

/-- The number of a sign and digits. -/
def intOf (sign digits : Str) : Int := if sign = cs!"-" then -(value digits : Int) else value digits

/-- `e BETWEEN i AND j` -/
def span (e : VENB) (i j : Int) : SC := .factor (.mk [] (.pred (.between e [] (intVE i) (intVE j))))

end Adql.Spec
