import Verif.Spec.Value
import Verif.Spec.Uses

/-!
# Looking up rows of a table

`SELECT "c", "d" FROM "s"."t" WHERE ("k" = 'v')` for names and values that come from somewhere.
-/

namespace Adql.Spec

/-- The identifier of a name. -/
def delimited (n : Str) : Str := '"' :: (doubled '"' n ++ ['"'])

/-- The name of an identifier in double quotes. -/
def nameOf (x : Str) : Str := contents '"' x.tail

/-- the column of this name as an expression -/
def columnOf (n : Str) : VENB := .mk (.mk [] (.vep (.mk (.col (.col (delimited n))) []))) []

/-- the column as an entry of the select list -/
def entryOf (n : Str) : Item := .nonAsVE (.nb (columnOf n))

/-- `"s"."t"` -/
def tableOf (s t : Str) : Str := delimited s ++ '.' :: delimited t

/-- `SELECT "c", "d", ... FROM "s"."t"` -/
def pick (s t : Str) (cols : List Str) : QuerySpec :=
  .mk With.dflt (.mk (.mk (.mk [] (2 ^ 64 - 1) (.items (cols.map entryOf))) [.tc ⟨tableOf s t, []⟩] Where.dflt) []) [] SC.dflt []

/-- the same with `WHERE ("k" = 'v')` -/
def lookup (s t : Str) (cols : List Str) (k v : Str) : QuerySpec := everySelect (restrict (compared (columnOf k) cs!"=" v)) (pick s t cols)

end Adql.Spec
