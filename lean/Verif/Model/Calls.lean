import Verif.Peg.Cost
import Verif.Model.Query

/-!
# The work of the constructor, counted in rule calls

`boost::spirit::qi` does not remember what a rule has returned at a place (no rule of `/repo/src/Query/ADQL_parser` is
memoised), so every call is a run.  Only the calls of the recursive rules of the model (`Rule`, Model/Grammar.lean) are
counted; the other rules, the skipper, the copies of attributes and the search for a geometric constraint are not.
-/

namespace Adql

/-- The rule calls made by `parse_it` (Query.cxx L140-L154). -/
def parseCalls (cfg : Config) (s : Str) : Nat :=
  cost (run (grammar cfg) (fuelFor s)) (runCost (grammar cfg) (fuelFor s)) query true s

/-- The rule calls made by the constructor (Query.cxx L156-L176). -/
def constructCalls (cfg : Config) (input : Str) : Nat :=
  match preprocess input with
  | .ok s => parseCalls cfg s
  | .error _ => 0

end Adql
