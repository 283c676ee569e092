import Verif.Model.Access

/-!
# Changing a query through the accessors that return references

`get_initial_sfw`, `get_sfw` and `get_select` have overloads that return a mutable reference
(Select_From_Where_List.hxx L48, L58-L64, L91-L94; Query_Specification.hxx L56-L59).  A client that writes
through the reference is modelled as a function `f` on the part that the reference points to; the
result is the whole list afterwards, or the exception of the accessor.  The default-constructed query
(Query.hxx L21) is here too.
-/

namespace Adql

/-- `select_from_where_addon_list.at(i).select_from_where` is changed by `f`. -/
def updAddon (f : SFW → SFW) : List Addon → Nat → List Addon
  | [], _ => []
  | .mk o s :: l, 0 => .mk o (f s) :: l
  | a :: l, i + 1 => a :: updAddon f l i

/-- `get_initial_sfw` (Select_From_Where_List.hxx L48) -/
def SFWList.updInitial (f : SFW → SFW) : SFWList → SFWList
  | .mk i l => .mk (f i) l

/-- `get_sfw` (Select_From_Where_List.hxx L58-L64) -/
def SFWList.updSfw (l : SFWList) (i : Nat) (f : SFW → SFW) : ARes SFWList :=
  if i = 0 then .ok (l.updInitial f)
  else do
    l.validate i
    let _ ← vecAt l.addons (i - 1)
    return .mk l.initial (updAddon f l.addons (i - 1))

/-- the member `select` is changed by `f` -/
def SFW.updSelect (f : Select → Select) : SFW → SFW
  | .mk s t w => .mk (f s) t w

/-- `get_select` (Select_From_Where_List.hxx L91-L94) -/
def SFWList.updSelect (l : SFWList) (i : Nat) (f : Select → Select) : ARes SFWList := do
  l.validate i
  l.updSfw i (SFW.updSelect f)

/-- `Query_Specification::get_select` (Query_Specification.hxx L56-L59) -/
def QuerySpec.updSelect (q : QuerySpec) (i : Nat) (f : Select → Select) : ARes QuerySpec := do
  q.sfws.validate i
  let l ← q.sfws.updSelect i f
  return .mk q.with_ l q.groupBy q.having q.orderBy

/-- A client program that only writes through `get_select`: a sequence of writes, each with its index; an
exception ends it. -/
def QuerySpec.writes (q : QuerySpec) : List (Nat × (Select → Select)) → ARes QuerySpec
  | [] => .ok q
  | (i, f) :: ws => do
    let q' ← q.updSelect i f
    q'.writes ws

/-- Default `Select` (Select.hxx L15-L17): the first alternative of `columns` is a string. -/
def Select.dflt : Select := .mk [] topMax (.star [])
/-- Default `Select_From_Where` (Select_From_Where.hxx L12-L14) -/
def SFW.dflt : SFW := .mk Select.dflt [] Where.dflt
/-- `Query::Query()` (Query.hxx L21) -/
def QuerySpec.dflt : QuerySpec := .mk With.dflt (.mk SFW.dflt []) [] SC.dflt []

/-- `Query::Query(input)` (Query.hxx L20).  The braces `{{}}` in its initialiser are read by the constructor of `std::map` from
a list of pairs, and the list has one element, the default-constructed pair: the mapping has one entry,
from the empty name to the empty name. -/
def construct1 (residue : Bool) (input : Str) : QRes QuerySpec :=
  construct ⟨fun x => if x = [] then some [] else none, residue⟩ input

end Adql
