import Verif.Model.Grammar
import Verif.Model.Regex

/-!
# Constructing a query (`/repo/src/Query/Query.cxx`)
-/

namespace Adql

/-- `search_condition_on_left_of_geometry_regex` (Query.cxx L19-L21). -/
def geomRegex : Re :=
  Re.cat [
    .word cs!"WHERE", .ci ' ',
    -- ([^ ].+[^ ])
    .grp 1 (Re.cat [.chr reNonBlank, .chr reDot, .many reDot, .chr reNonBlank]),
    -- " *AND *"
    .blanks, .word cs!"AND", .blanks,
    -- ((?:(?:0|1) *= *)?(?:CONTAINS|INTERSECTS)(?:.*?(?= *(?:AND|HAVING|GROUP|ORDER|$))))
    .grp 2 (Re.cat [
      .alt (Re.cat [.alt (.ci '0') (.ci '1'), .blanks, .ci '=', .blanks]) .eps,
      .alt (.word cs!"CONTAINS") (.word cs!"INTERSECTS"),
      .manyLazy reDot,
      .look (.seq .blanks (Re.any [.word cs!"AND", .word cs!"HAVING", .word cs!"GROUP",
        .word cs!"ORDER", .eoi]))]),
    -- (?: *AND *([^ ].+?(?= *(?:HAVING| GROUP| ORDER|$))))?
    .alt (Re.cat [.blanks, .word cs!"AND", .blanks,
      .grp 3 (Re.cat [.chr reNonBlank, .chr reDot, .manyLazy reDot,
        .look (.seq .blanks (Re.any [.word cs!"HAVING", .word cs!" GROUP", .word cs!" ORDER",
          .eoi]))])]) .eps,
    -- (.*)$
    .grp 4 (.many reDot), .eoi]

/-- What the constructor of `ADQL::Query` throws (all are `std::runtime_error`). -/
inductive QErr where
  /-- Query.cxx L49 -/
  | prematureI
  /-- Query.cxx L60 -/
  | inappropriateI
  /-- Query.cxx L69 -/
  | inappropriateII
  /-- Query.cxx L77 -/
  | prematureII
  /-- Query.cxx L146-L149 with the message of `on_error` (init_query.cxx L137-L143) -/
  | expecting (what : String) (rest : Str)
  /-- Query.cxx L147 -/
  | expectingSelect (input : Str)
  /-- Query.cxx L151 -/
  | unexpectedEnd (rest : Str)
  /-- init_column_reference.cxx L10 -/
  | noTable (name : Str)
  /-- never (see the termination theorem) -/
  | diverges
deriving DecidableEq, Repr

/-- Outcome of the constructor. -/
abbrev QRes (α : Type) := Except QErr α

/-- The loop over `left_sc_str` (Query.cxx L44-L57); `depth` is a 16-bit `ushort`. -/
def scanLeft : Str → Nat → Bool → QRes (Nat × Bool)
  | [], depth, within => .ok (depth, within)
  | c :: s, depth, within =>
    if c = '(' then scanLeft s ((depth + 1) % 65536) within
    else if c = ')' then
      if depth = 0 then .error .prematureI
      else scanLeft s (depth - 1) (if depth - 1 = 0 then false else within)
    else scanLeft s depth within

/-- The loop over `geom_str` (Query.cxx L67-L87); returns
`outermost_is_closed_at_end_of_geom`. -/
def scanGeom (within : Bool) : Str → Nat → Bool → QRes Bool
  | [], _, closed => .ok closed
  | c :: s, depth, closed =>
    if closed then .error .inappropriateII
    else if c = '(' then scanGeom within s ((depth + 1) % 65536) closed
    else if c = ')' then
      if depth = 0 then .error .prematureII
      else scanGeom within s (depth - 1) (depth - 1 = 0 && within)
    else scanGeom within s depth closed

/-- `check_and_adjust_parens` (Query.cxx L36-L95): the adjusted pair. -/
def checkAndAdjustParens (left geom : Str) : QRes (Str × Str) :=
  match scanLeft left 0 (left.head? == some '(') with
  | .error e => .error e
  | .ok (depth, within) =>
    if 1 < depth ∨ (depth = 1 ∧ within = false) then .error .inappropriateI
    else match scanGeom within geom depth false with
      | .error e => .error e
      | .ok closed =>
        if closed then .ok (left.drop 1, geom.take (geom.length - 1)) else .ok (left, geom)

/-- The replacement string built by `tweak_input_string` (Query.cxx L125-L130). -/
def replacement (left geom right : Str) : Str :=
  cs!"WHERE " ++ geom ++ cs!" AND " ++ left ++
    (if right.isEmpty then [] else cs!" AND " ++ right)

/-- `tweak_input_string` (Query.cxx L113-L134).  `std::regex_replace` copies the text before the
match and expands the replacement; the match always reaches the end of the input, so there is
nothing to copy after it and no second match. -/
def tweakInputString (m : Match) : QRes Str :=
  match checkAndAdjustParens (m.str 1) (m.str 2) with
  | .error e => .error e
  | .ok (left, geom) =>
    .ok (m.pre ++ fmtExpand m 5 (replacement left geom (m.str 3)) ++ m.post)

/-- The preprocessing done by the constructor (Query.cxx L166-L174). -/
def preprocess (input : Str) : QRes Str :=
  match geomRegex.search [] input with
  | some m => tweakInputString m
  | none => .ok input

/-- Depth of rule calls that suffices for an input (proved in `Peg/Meta`). -/
def fuelFor (s : Str) : Nat := 4 * (s.length + 1)

/-- `phrase_parse` of the start rule, before the final skip. -/
def parseQuery (cfg : Config) (s : Str) : Res QuerySpec :=
  step (run (grammar cfg) (fuelFor s)) query true s

/-- `parse_it` (Query.cxx L140-L154); `phrase_parse` skips trailing blanks. -/
def parseIt (cfg : Config) (input : Str) : QRes QuerySpec :=
  match parseQuery cfg input with
  | .ok q rest =>
    match rest.dropWhile isSpace with
    | [] => .ok q
    | c :: r => .error (.unexpectedEnd (c :: r))
  | .fail => .error (.expectingSelect input)
  | .err (.expect what rest) => .error (.expecting what rest)
  | .err (.noTable n) => .error (.noTable n)
  | .oof => .error .diverges

/-- `ADQL::Query::Query(input, table_mapping)` (Query.cxx L161-L175). -/
def construct (cfg : Config) (input : Str) : QRes QuerySpec :=
  match preprocess input with
  | .error e => .error e
  | .ok s => parseIt cfg s

end Adql
