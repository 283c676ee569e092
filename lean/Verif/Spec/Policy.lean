import Verif.Spec.Deep
import Verif.Spec.Limit
import Verif.Spec.Around

/-!
# What a service does to a query

Any number of changes, one after the other: conditions for tables in all SELECTs (C60), limits (C62), SELECTs around the query (C63).
-/

namespace Adql.Spec

/-- A change. -/
inductive Step where
  /-- the conditions for tables in all SELECTs that read them -/
  | guard (c : Str → Option SC)
  /-- a limit in every SELECT of the query -/
  | limit (n : Nat)
  /-- a SELECT around the query -/
  | shell (f : Shell)

/-- The change, done. -/
def Step.run : Step → QuerySpec → QuerySpec
  | .guard c, q => q.deep (addConds c)
  | .limit n, q => everySelect (limitRows n) q
  | .shell f, q => around f q

/-- All of them. -/
def runSteps (l : List Step) (q : QuerySpec) : QuerySpec := l.foldl (fun q s => s.run q) q

/-- The SELECT around a query has no subqueries of its own. -/
structure Shell.Flat (f : Shell) : Prop where
  sel : f.sel.selects = []
  cond : f.cond.selects = []
  group : selectsGroup f.group = []
  having : f.having.selects = []

/-- The change adds no SELECT that could read a table. -/
def Step.Harmless : Step → Prop
  | .shell f => f.Flat
  | _ => True

end Adql.Spec
