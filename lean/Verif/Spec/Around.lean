import Verif.Spec.Restrict
import Verif.Spec.Compose

/-!
# A SELECT around a query

`SELECT s FROM (q) AS x WHERE d GROUP BY g HAVING h ORDER BY o`, as a service makes it that filters, orders, counts or pages the rows of a
query without looking into it.
-/

namespace Adql.Spec

/-- What is put around a query. -/
structure Shell where
  /-- what is selected -/
  sel : Select
  /-- the name of the query as a table -/
  name : Str
  /-- the condition, empty for none -/
  cond : SC
  /-- GROUP BY -/
  group : List GroupTerm
  /-- HAVING, empty for none -/
  having : SC
  /-- ORDER BY -/
  order : List SortSpec

/-- The query in the shell. -/
def around (f : Shell) (q : QuerySpec) : QuerySpec :=
  .mk With.dflt (.mk (.mk f.sel [.derived (.qs q) f.name] (.mk Geom.dflt f.cond)) []) f.group f.having f.order

/-- The shell can be used: its parts are well-made and the name can stand in a text. -/
structure ShellMade (nt : Bool) (M : Str → Prop) (f : Shell) : Prop where
  sel : All (WellMade nt M) (.select f.sel)
  name : Name f.name ∧ OtherName f.name
  cond : f.cond ≠ SC.dflt → All (WellMade nt M) (.sc f.cond)
  group : ∀ g ∈ f.group, All (WellMade nt M) (.group g)
  having : f.having ≠ SC.dflt → All (WellMade nt M) (.sc f.having)
  order : ∀ o ∈ f.order, All (WellMade nt M) (.sort o)

/-- `SELECT COUNT(*) FROM (q) AS x` -/
def counting (x : Str) : Shell :=
  ⟨.mk [] (2 ^ 64 - 1) (.items [.nonAsVE (.nb (.mk (.mk [] (.vep (.mk (.countStar cs!"COUNT(*)") []))) []))]), x, SC.dflt, [], SC.dflt, []⟩

/-- `SELECT TOP n * FROM (q) AS x WHERE d ORDER BY o` -/
def filtering (n : Nat) (x : Str) (d : SC) (o : List SortSpec) : Shell := ⟨.mk [] n (.star cs!"*"), x, d, [], SC.dflt, o⟩

end Adql.Spec
