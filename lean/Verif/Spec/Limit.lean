import Verif.Spec.Restrict

/-!
# Limits for the number of rows

A service that lets its users have at most `n` rows per SELECT changes the member `top` of `Select` (Select.hxx L10-L20).
-/

namespace Adql.Spec

/-- At most `n` rows: TOP is `n` unless it is less. -/
def limitSelect (n : Nat) : Select → Select
  | .mk q t c => .mk q (min t n) c

/-- The same for a SELECT with its FROM and WHERE. -/
def limitRows (n : Nat) : SFW → SFW
  | .mk s ts w => .mk (limitSelect n s) ts w

/-- The TOPs of the SELECTs of a query, those of its subqueries left out.  Without a TOP in the text it is the largest number
that the member can have. -/
def tops : QuerySpec → List Nat
  | .mk _ (.mk i as) _ _ _ => topOf i :: as.map fun | .mk _ s => topOf s
where
  topOf : SFW → Nat
    | .mk (.mk _ t _) _ _ => t

end Adql.Spec
