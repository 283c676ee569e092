import Verif.Spec.Owner
import Verif.Spec.Uses

/-!
# What a service lets through

A service looks at the tables, columns and functions of the query of a user before it changes the query.
-/

namespace Adql.Spec

/-- What a change can bring into a query. -/
def Step.Adds (fmt : Str → Str) (u : Used) : Step → Prop
  | .guard c => ∃ n d, c n = some d ∧ u ∈ d.uses fmt
  | .limit _ => False
  | .shell f => u ∈ f.sel.uses fmt ∨ u ∈ f.cond.uses fmt ∨ u ∈ usesGroup fmt f.group ∨ u ∈ f.having.uses fmt ∨ u ∈ f.order.flatMap SortSpec.uses

end Adql.Spec
