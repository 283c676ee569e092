import Verif.Spec.Parts
import Verif.Spec.Lookup
import Verif.Spec.Policy

/-!
# Rows of an owner

Some tables have a column with the name of the owner of the row.  A user is to see only the rows the user owns.
-/

namespace Adql.Spec

/-- `"k" = 'v'` as a simple condition, with the value in parts -/
def isOwner (k v : Str) : BP := .pred (.cmp (columnOf k) cs!"=" (.nb (.mk (.mk [] (.vep (.mk (.str (inParts v)) []))) [])))

/-- The condition for each table that has a column for the owner. -/
def ownedBy (o : Str → Option Str) (v : Str) (n : Str) : Option SC := (o n).map fun k => .factor (.mk [] (isOwner k v))

/-- A SELECT that reads a table with owners gives only rows of this owner. -/
def OnlyOwn (o : Str → Option Str) (v : Str) (γ : Geom → Truth) (ρ : BP → Truth) : SFW → Prop
  | .mk _ ts w => ∀ n ∈ fromNames ts, ∀ k, o n = some k → whereHolds γ ρ w = .yes → ρ (isOwner k v) = .yes

end Adql.Spec
