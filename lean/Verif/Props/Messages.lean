import Verif.Peg.Blame
import Verif.Peg.First
import Verif.Props.Geometry
import Verif.Spec.Messages
import Verif.Props.Outcome

/-!
# C50: the error messages are right

When the constructor reports `Expecting X here: "r"`, no `X` begins at `r`; the `X` that can be reported are those of
`Spec.messages`, and each of them is reported for some text.
-/

namespace Adql

open Spec

set_option linter.unusedSimpArgs false

namespace Blame

variable {cfg : Config}

/-- The message is right whenever the component fails. -/
def Wrong (cfg : Config) {α : Type} (w : String) (p : G α) (sk : Bool) : Prop :=
  ∀ s, parse cfg p sk s = .fail → Absent cfg w s

/-- How the rules are called. -/
def Called (n : Rule) (sk : Bool) : Prop := sk = true ∨ n = .tap

/-- All messages of `p` are right. -/
def Sd (cfg : Config) {α : Type} (p : G α) (sk : Bool) : Prop := p.Said Called (fun w p sk => Wrong cfg w p sk) sk

section combinators
variable {α β : Type} {sk : Bool}

@[simp] theorem sd_pure {a : α} : Sd cfg (.pure a) sk := trivial
@[simp] theorem sd_chr {f} : Sd cfg (.chr f) sk := trivial
@[simp] theorem sd_kw {w} : Sd cfg (kw w) sk := trivial
@[simp] theorem sd_sym {w} : Sd cfg (sym w) sk := trivial
@[simp] theorem sd_chS {f} : Sd cfg (chS f) sk := trivial
@[simp] theorem sd_seq {p : G α} {q : G β} : Sd cfg (.seq p q) sk ↔ Sd cfg p sk ∧ Sd cfg q sk := Iff.rfl
@[simp] theorem sd_alt {p q : G α} : Sd cfg (.alt p q) sk ↔ Sd cfg p sk ∧ Sd cfg q sk := Iff.rfl
@[simp] theorem sd_seqL {p : G α} {q : G β} : Sd cfg (P.seqL p q) sk ↔ Sd cfg p sk ∧ Sd cfg q sk := Iff.rfl
@[simp] theorem sd_seqR {p : G α} {q : G β} : Sd cfg (P.seqR p q) sk ↔ Sd cfg p sk ∧ Sd cfg q sk := Iff.rfl
@[simp] theorem sd_cat {p q : G Str} : Sd cfg (cat p q) sk ↔ Sd cfg p sk ∧ Sd cfg q sk := Iff.rfl
@[simp] theorem sd_star {p : G α} : Sd cfg (.star p) sk ↔ Sd cfg p sk := Iff.rfl
@[simp] theorem sd_notP {p : G α} : Sd cfg (.notP p) sk ↔ Sd cfg p sk := Iff.rfl
@[simp] theorem sd_andP {p : G α} : Sd cfg (.andP p) sk ↔ Sd cfg p sk := Iff.rfl
@[simp] theorem sd_map {f : α → β} {p : G α} : Sd cfg (.map f p) sk ↔ Sd cfg p sk := Iff.rfl
@[simp] theorem sd_act {f : α → Out β} {p : G α} : Sd cfg (.act f p) sk ↔ Sd cfg p sk := Iff.rfl
@[simp] theorem sd_lexeme {p : G α} : Sd cfg (.lexeme p) sk ↔ Sd cfg p false := Iff.rfl
@[simp] theorem sd_noskip {p : G α} : Sd cfg (.noskip p) sk ↔ Sd cfg p false := Iff.rfl
@[simp] theorem sd_expect {w : String} {p : G α} : Sd cfg (.expect w p) sk ↔ Wrong cfg w p sk ∧ Sd cfg p sk := Iff.rfl
@[simp] theorem sd_manyS {p : G Str} : Sd cfg (manyS p) sk ↔ Sd cfg p sk := Iff.rfl
@[simp] theorem sd_plusS {p : G Str} : Sd cfg (plusS p) sk ↔ Sd cfg p sk := ⟨fun h => h.1, fun h => ⟨h, h⟩⟩
@[simp] theorem sd_plus {p : G α} : Sd cfg (P.plus p) sk ↔ Sd cfg p sk := ⟨fun h => h.1, fun h => ⟨h, h⟩⟩
@[simp] theorem sd_optD {d : α} {p : G α} : Sd cfg (P.optD d p) sk ↔ Sd cfg p sk := ⟨fun h => h.1, fun h => ⟨h, trivial⟩⟩
@[simp] theorem sd_opt {p : G α} : Sd cfg (P.opt p) sk ↔ Sd cfg p sk := ⟨fun h => h.1, fun h => ⟨h, trivial⟩⟩
@[simp] theorem sd_optS {p : G Str} : Sd cfg (optS p) sk ↔ Sd cfg p sk := ⟨fun h => h.1, fun h => ⟨h, trivial⟩⟩
@[simp] theorem sd_sepBy {p : G α} {q : G β} : Sd cfg (P.sepBy p q) sk ↔ Sd cfg p sk ∧ Sd cfg q sk :=
  ⟨fun h => ⟨h.1, h.2.1⟩, fun h => ⟨h.1, h.2, h.1⟩⟩
@[simp] theorem sd_diff {p : G α} {q : G β} : Sd cfg (P.diff p q) sk ↔ Sd cfg q sk ∧ Sd cfg p sk := Iff.rfl
@[simp] theorem sd_failP : Sd cfg failP sk := trivial
@[simp] theorem sd_anyKw : ∀ {ws}, Sd cfg (anyKw ws) sk
  | [] => trivial
  | _ :: _ => ⟨trivial, sd_anyKw⟩
@[simp] theorem sd_andSpace : Sd cfg andSpace sk := trivial
@[simp] theorem sd_andNsSpace : Sd cfg andNsSpace sk := trivial
@[simp] theorem sd_word {w} : Sd cfg (word w) sk := ⟨trivial, trivial⟩
@[simp] theorem sd_ve : Sd cfg ve true := .inl rfl
@[simp] theorem sd_venb : Sd cfg venb true := .inl rfl
@[simp] theorem sd_sc : Sd cfg sc true := .inl rfl
@[simp] theorem sd_subq : Sd cfg subq true := .inl rfl
@[simp] theorem sd_jt : Sd cfg jt true := .inl rfl
@[simp] theorem sd_tr : Sd cfg tr true := .inl rfl
@[simp] theorem sd_tap : Sd cfg tap sk := .inr rfl
end combinators

/-! ### Failing components -/

section wrong
variable {α β : Type} {s : Str}

theorem seqL_fail {p : G α} {q : G β} {sk : Bool} : parse cfg (P.seqL p q) sk s = .fail ↔
    parse cfg p sk s = .fail ∨ ∃ a t, parse cfg p sk s = .ok a t ∧ parse cfg q sk t = .fail := by
  unfold P.seqL; rw [step_map_fail, step_seq_fail]
theorem seqR_fail {p : G α} {q : G β} {sk : Bool} : parse cfg (P.seqR p q) sk s = .fail ↔
    parse cfg p sk s = .fail ∨ ∃ a t, parse cfg p sk s = .ok a t ∧ parse cfg q sk t = .fail := by
  unfold P.seqR; rw [step_map_fail, step_seq_fail]
theorem optD_fail {p : G α} {d : α} {sk : Bool} : parse cfg (P.optD d p) sk s ≠ .fail := by
  unfold P.optD; intro h; rw [step_alt_fail] at h; exact step_pure_fail h.2
theorem sepBy_fail {p : G α} {q : G β} {sk : Bool} : parse cfg (P.sepBy p q) sk s = .fail ↔ parse cfg p sk s = .fail := by
  unfold P.sepBy; rw [step_map_fail, step_seq_fail]
  constructor
  · rintro (h | ⟨_, _, _, h⟩)
    · exact h
    · exact absurd h step_star_fail
  · exact .inl
theorem sym_fail {c : Char} (h : parse cfg (sym [c]) true s = .fail) : next s ≠ some c := by
  unfold sym at h
  rw [step_lit_fail] at h
  unfold next
  intro e
  change matchLit false [c] (s.dropWhile isSpace) = none at h
  cases hs : s.dropWhile isSpace with
  | nil => rw [hs] at e; cases e
  | cons d t =>
    rw [hs] at h e
    cases e
    simp [matchLit] at h
theorem kw_fail {w : Str} (h : parse cfg (kw w) true s = .fail) : ¬ Begins w s := by
  unfold kw at h
  rw [step_lit_fail] at h
  rintro ⟨k, t, hk, e⟩
  change matchLit true w (s.dropWhile isSpace) = none at h
  rw [e] at h
  have : matchLit true w (k ++ t) = some (k, t) := matchLit_sameCI hk t
  rw [this] at h
  cases h
theorem wordX_fail {w : Str} (h : parse cfg (wordX w) true s = .fail) : ¬ Begins w s := by
  unfold wordX at h
  change parse cfg (P.seqL (kw w) (.expect "space" andSpace)) false (skip true s) = .fail at h
  rw [seqL_fail] at h
  rcases h with h | ⟨_, _, _, h⟩
  · exact kw_fail (cfg := cfg) h
  · exact absurd h step_expect_fail
@[simp] theorem w_open : Wrong cfg "'('" (sym cs!"(") true := fun _ h => .opening (sym_fail h)
@[simp] theorem w_close : Wrong cfg "')'" (sym cs!")") true := fun _ h => .closing (sym_fail h)
@[simp] theorem w_comma : Wrong cfg "','" (sym cs!",") true := fun _ h => .comma (sym_fail h)
@[simp] theorem w_bracket : Wrong cfg "']'" (sym cs!"]") true := fun _ h => .bracket (sym_fail h)
@[simp] theorem w_count : Wrong cfg "')'" (chS (· == ')')) true := fun s h => by
  unfold chS at h
  rw [step_map_fail, step_chr_fail] at h
  refine .closing fun e => ?_
  unfold next at e
  cases hs : s.dropWhile isSpace with
  | nil => rw [hs] at e; cases e
  | cons c t =>
    rw [hs] at e
    cases e
    exact absurd (h _ _ hs) (by decide)
@[simp] theorem w_space1 : Wrong cfg "space" andSpace false := fun s h => by
  unfold andSpace at h
  rw [step_map_fail, step_andP_fail, step_chr_fail] at h
  exact .space h
@[simp] theorem w_space2 {sk : Bool} : Wrong cfg "space" andNsSpace sk := fun s h => by
  unfold andNsSpace at h
  rw [step_map_fail, step_andP_fail] at h
  exact .space (step_chr_fail.1 (show step (D cfg) (.chr isSpace : G Char) false s = .fail from h))
@[simp] theorem w_space3 : Wrong cfg "space" (chS isSpace) false := fun s h => by
  unfold chS at h
  rw [step_map_fail, step_chr_fail] at h
  exact .space h
@[simp] theorem w_upload : Wrong cfg "TAP_UPLOAD identifier" (tapUploadIdentifier cfg) false := fun s h => by
  unfold tapUploadIdentifier at h
  have h := step_act_fail.1 (show step (D cfg) (.act _ identifier : G Str) false s = .fail from h)
  rcases h with h | ⟨x, r, -, h⟩
  · exact .upload h
  · split at h <;> cases h
@[simp] theorem w_coordExpr : Wrong cfg "column or simple arithmetic expression" coordExpr true := fun s h => by
  unfold coordExpr at h
  rw [step_alt_fail, step_alt_fail, step_map_fail, step_map_fail, step_map_fail] at h
  exact .coordExpr h.2.1 h.2.2
@[simp] theorem w_coord : Wrong cfg "coordinate" coord true := fun _ h => .coord h
@[simp] theorem w_coords : Wrong cfg "coordinate list" (P.sepBy coord (sym cs!",")) true := fun _ h => .coords (sepBy_fail.1 h)
@[simp] theorem w_point : Wrong cfg "point or column" pointOrColumn true := fun s h => by
  unfold pointOrColumn at h
  rw [step_alt_fail, step_map_fail, step_map_fail] at h
  exact .point h.1 h.2
@[simp] theorem w_shape : Wrong cfg "shape_or_column" shapeOrColumn true := fun s h => by
  unfold shapeOrColumn at h
  rw [step_alt_fail, step_map_fail, step_map_fail] at h
  exact .shape h.1 h.2
@[simp] theorem w_ve : Wrong cfg "value_expression" ve true := fun _ h => .value h
@[simp] theorem w_when : Wrong cfg "value_expression" (P.seqL ve (kw cs!"THEN")) true := fun s h => by
  rw [seqL_fail] at h
  rcases h with h | ⟨v, t, h1, h2⟩
  · exact .value h
  · exact .whenThen h1 (kw_fail h2)
@[simp] theorem w_flag : Wrong cfg "char_flag" charFlag true := fun s h => by
  unfold charFlag at h
  have h := step_chr_fail.1 (show step (D cfg) (.chr _ : G Char) false (skip true s) = .fail from h)
  refine .flag (fun e => ?_) (fun e => ?_)
  all_goals
    unfold next at e
    cases hs : s.dropWhile isSpace with
    | nil => rw [hs] at e; cases e
    | cons c t =>
      rw [hs] at e
      cases e
      exact absurd (h _ _ hs) (by decide)
@[simp] theorem w_integer : Wrong cfg "unsigned_integer" unsignedInteger true := fun _ h => .integer h
@[simp] theorem w_setArgs : Wrong cfg "general_set_args" (.seq (optS setQuantifier) ve) true := fun s h => by
  rw [step_seq_fail] at h
  rcases h with h | ⟨q, t, h1, h2⟩
  · exact absurd h optD_fail
  · unfold optS P.optD at h1
    rw [step_alt_ok] at h1
    rcases h1 with h1 | ⟨-, h1⟩
    · exact .setArgsQ h1 h2
    · cases h1
      exact .setArgs h2
@[simp] theorem w_result : Wrong cfg "result" caseResult true := fun s h => by
  unfold caseResult at h
  rw [step_alt_fail, step_map_fail, step_map_fail] at h
  exact .result h.1 (kw_fail (cfg := cfg) (show parse cfg (kw cs!"NULL") false (skip true s) = .fail from h.2))
@[simp] theorem w_end : Wrong cfg "END" (kw cs!"END") true := fun _ h => .endWord (kw_fail h)
@[simp] theorem w_case : Wrong cfg "case" (.alt simpleCase searchedCase) true := fun s h => by
  rw [step_alt_fail] at h
  exact .caseBody h.1 h.2
@[simp] theorem w_join : Wrong cfg "join column list" (P.sepBy identifier (sym cs!",")) true := fun _ h => .joinColumns (sepBy_fail.1 h)
@[simp] theorem w_table {p : G JoinSpec} {d : JoinSpec} : Wrong cfg "table reference" (.seq tr (P.optD d p)) true := fun s h => by
  rw [step_seq_fail] at h
  rcases h with h | ⟨_, _, _, h⟩
  · exact .table h
  · exact absurd h optD_fail
@[simp] theorem w_tables : Wrong cfg "table reference list" (P.sepBy tr (sym cs!",")) true := fun _ h => .tables (sepBy_fail.1 h)
@[simp] theorem w_columnName : Wrong cfg "column_name" identifier true := fun _ h => .columnName h
@[simp] theorem w_top : Wrong cfg "unsigned integer" (.lexeme (P.seqL ulongLong (.expect "space" andSpace))) true := fun s h => by
  have h := seqL_fail.1 (show parse cfg (P.seqL ulongLong (.expect "space" andSpace)) false (skip true s) = .fail from h)
  rcases h with h | ⟨_, _, _, h⟩
  · refine .top ?_
    unfold No ulongLong
    unfold ulongLong at h
    have e : skip true (skip true s) = skip true s := skip_skip_idle true s
    rw [step_act_fail] at h ⊢
    exact h
  · exact absurd h step_expect_fail
@[simp] theorem w_columns : Wrong cfg "columns" columns true := fun s h => by
  unfold columns at h
  rw [step_alt_fail, step_map_fail, step_map_fail] at h
  have h2 := sepBy_fail.1 h.2
  unfold selectItem at h2
  rw [step_alt_fail, step_alt_fail, step_map_fail, step_map_fail] at h2
  exact .columns (sym_fail h.1) h2.2.2 h2.2.1
@[simp] theorem w_where : Wrong cfg "where condition" (.alt (.map (fun x => Where.mk x.1 x.2) (.seq geometry
        (P.optD SC.dflt (P.seqR (kw cs!"AND") (.expect "search condition" sc)))))
      (.alt (.map (fun g => .mk g SC.dflt) (P.seqR (sym cs!"(") (P.seqL geometry xClose)))
        (.map (fun s => .mk Geom.dflt s) sc))) true := fun s h => by
  rw [step_alt_fail, step_alt_fail, step_map_fail, step_map_fail, step_map_fail, step_seq_fail] at h
  refine .condition1 ?_ h.2.2
  rcases h.1 with h | ⟨_, _, _, h⟩
  · exact h
  · exact absurd h optD_fail
@[simp] theorem w_condition : Wrong cfg "search condition" sc true := fun _ h => .condition h
@[simp] theorem w_from {w : G Where} {d : Where} : Wrong cfg "from" (.seq fromClause (P.optD d w)) true := fun s h => by
  rw [step_seq_fail] at h
  rcases h with h | ⟨_, _, _, h⟩
  · unfold fromClause at h
    rw [seqR_fail] at h
    rcases h with h | ⟨_, _, _, h⟩
    · exact .fromWord (wordX_fail h)
    · exact absurd h step_expect_fail
  · exact absurd h optD_fail
@[simp] theorem w_by : Wrong cfg "BY" (wordX cs!"BY") true := fun _ h => .byWord (wordX_fail h)
@[simp] theorem w_group : Wrong cfg "group by terms" (P.sepBy groupByTerm (sym cs!",")) true := fun s h => by
  have h := sepBy_fail.1 h
  unfold groupByTerm at h
  rw [step_alt_fail, step_map_fail, step_map_fail] at h
  exact .group h.1 h.2
@[simp] theorem w_withTable : Wrong cfg "with_table_name" identifier true := fun _ h => .withTable h
@[simp] theorem w_withColumns {p : G (List Str)} {q : G Str} : Wrong cfg "with columns" (P.seqL (P.optD [] p) (optS q)) true := fun s h => by
  rw [seqL_fail] at h
  rcases h with h | ⟨_, _, _, h⟩ <;> exact absurd h optD_fail
@[simp] theorem w_subquery : Wrong cfg "subquery" subq true := fun _ h => .subquery h
end wrong

/-! ### All rules -/

@[simp] theorem said_wordX {w : Str} {sk : Bool} : Sd cfg (wordX w) sk := by simp [wordX]
@[simp] theorem said_keyword {sk : Bool} : Sd cfg keyword sk := by
  simp [keyword]
@[simp] theorem said_andNonId {sk : Bool} : Sd cfg andNonId sk := by
  simp [andNonId]
@[simp] theorem said_allIdentifiers {sk : Bool} : Sd cfg allIdentifiers sk := by
  simp [allIdentifiers]
@[simp] theorem said_regularIdentifier {sk : Bool} : Sd cfg regularIdentifier sk := by
  simp [regularIdentifier]
@[simp] theorem said_pqIdentifier {sk : Bool} : Sd cfg pqIdentifier sk := by
  simp [pqIdentifier]
@[simp] theorem said_delimitedPart {sk : Bool} : Sd cfg delimitedPart sk := by
  simp [delimitedPart]
@[simp] theorem said_delimitedIdentifier {sk : Bool} : Sd cfg delimitedIdentifier sk := by
  simp [delimitedIdentifier]
@[simp] theorem said_identifier {sk : Bool} : Sd cfg identifier sk := by
  simp [identifier]
@[simp] theorem said_period {sk : Bool} : Sd cfg period sk := by
  simp [period]
@[simp] theorem said_tableName {sk : Bool} : Sd cfg tableName sk := by
  simp [tableName]
@[simp] theorem said_columnReference {sk : Bool} : Sd cfg columnReference sk := by
  simp [columnReference]
@[simp] theorem said_unsignedInteger {sk : Bool} : Sd cfg unsignedInteger sk := by
  simp [unsignedInteger]
@[simp] theorem said_exactNumeric {sk : Bool} : Sd cfg exactNumeric sk := by
  simp [exactNumeric]
@[simp] theorem said_sign {sk : Bool} : Sd cfg sign sk := by
  simp [sign]
@[simp] theorem said_signedInteger {sk : Bool} : Sd cfg signedInteger sk := by
  simp [signedInteger]
@[simp] theorem said_approxNumeric {sk : Bool} : Sd cfg approxNumeric sk := by
  simp [approxNumeric]
@[simp] theorem said_unsignedNumeric {sk : Bool} : Sd cfg unsignedNumeric sk := by
  simp [unsignedNumeric]
@[simp] theorem said_charRep {sk : Bool} : Sd cfg charRep sk := by
  simp [charRep]
@[simp] theorem said_quote {sk : Bool} : Sd cfg quote sk := by
  simp [quote]
@[simp] theorem said_comment {sk : Bool} : Sd cfg comment sk := by
  simp [comment]
@[simp] theorem said_separator {sk : Bool} : Sd cfg separator sk := by
  simp [separator]
@[simp] theorem said_charString {sk : Bool} : Sd cfg charString sk := by
  simp [charString]
@[simp] theorem said_booleanLiteral {sk : Bool} : Sd cfg booleanLiteral sk := by
  simp [booleanLiteral]
@[simp] theorem said_generalLiteral {sk : Bool} : Sd cfg generalLiteral sk := by
  simp [generalLiteral]
@[simp] theorem said_unsignedLiteral {sk : Bool} : Sd cfg unsignedLiteral sk := by
  simp [unsignedLiteral]
@[simp] theorem said_double {sk : Bool} : Sd cfg double sk := by
  simp [double]
@[simp] theorem said_referenceFrame : Sd cfg (referenceFrame) true := by
  simp [referenceFrame]
@[simp] theorem said_referencePosition : Sd cfg (referencePosition) true := by
  simp [referencePosition]
@[simp] theorem said_coordSys : Sd cfg (coordSys) true := by
  simp [coordSys]
@[simp] theorem said_optCoordSys : Sd cfg (optCoordSys) true := by
  simp [optCoordSys]
@[simp] theorem said_arithOp {sk : Bool} : Sd cfg arithOp sk := by
  simp [arithOp]
@[simp] theorem said_coordExpr : Sd cfg (coordExpr) true := by
  simp [coordExpr]
@[simp] theorem said_coord : Sd cfg (coord) true := by
  simp [coord]
@[simp] theorem said_xCoordExpr : Sd cfg (xCoordExpr) true := by
  simp [xCoordExpr]
@[simp] theorem said_xClose : Sd cfg (xClose) true := by
  simp [xClose]
@[simp] theorem said_shapeHead {w : Str} : Sd cfg (shapeHead w) true := by
  simp [shapeHead]
@[simp] theorem said_point : Sd cfg (point) true := by
  simp [point]
@[simp] theorem said_circle : Sd cfg (circle) true := by
  simp [circle]
@[simp] theorem said_ellipse : Sd cfg (ellipse) true := by
  simp [ellipse]
@[simp] theorem said_box : Sd cfg (box) true := by
  simp [box]
@[simp] theorem said_polygon : Sd cfg (polygon) true := by
  simp [polygon]
@[simp] theorem said_shape : Sd cfg (shape) true := by
  simp [shape]
@[simp] theorem said_pointOrColumn : Sd cfg (pointOrColumn) true := by
  simp [pointOrColumn]
@[simp] theorem said_shapeOrColumn : Sd cfg (shapeOrColumn) true := by
  simp [shapeOrColumn]
@[simp] theorem said_xShapeTail : Sd cfg (xShapeTail) true := by
  simp [xShapeTail]
@[simp] theorem said_contains : Sd cfg (contains) true := by
  simp [contains]
@[simp] theorem said_intersects : Sd cfg (intersects) true := by
  simp [intersects]
@[simp] theorem said_charFlag {sk : Bool} : Sd cfg charFlag sk := by
  simp [charFlag]
@[simp] theorem said_geomPred : Sd cfg (geomPred) true := by
  simp [geomPred]
@[simp] theorem said_geometry : Sd cfg (geometry) true := by
  simp [geometry]
@[simp] theorem said_xOpen : Sd cfg (xOpen) true := by
  simp [xOpen]
@[simp] theorem said_xComma : Sd cfg (xComma) true := by
  simp [xComma]
@[simp] theorem said_xVe : Sd cfg (xVe) true := by
  simp [xVe]
@[simp] theorem said_trigNames {sk : Bool} : Sd cfg trigNames sk := by
  simp [trigNames]
@[simp] theorem said_fnHead {p : G Str} : Sd cfg (fnHead p) true ↔ Sd cfg p false := by
  simp [fnHead]
@[simp] theorem said_trigFunction : Sd cfg (trigFunction) true := by
  simp [trigFunction]
@[simp] theorem said_math0Names {sk : Bool} : Sd cfg math0Names sk := by
  simp [math0Names]
@[simp] theorem said_math1Names {sk : Bool} : Sd cfg math1Names sk := by
  simp [math1Names]
@[simp] theorem said_math2Names {sk : Bool} : Sd cfg math2Names sk := by
  simp [math2Names]
@[simp] theorem said_mathFunction : Sd cfg (mathFunction) true := by
  simp [mathFunction]
@[simp] theorem said_geoFunction : Sd cfg (geoFunction) true := by
  simp [geoFunction]
@[simp] theorem said_castAs {sk : Bool} : Sd cfg castAs sk := by
  simp [castAs]
@[simp] theorem said_castFunction : Sd cfg (castFunction) true := by
  simp [castFunction]
@[simp] theorem said_udfName {sk : Bool} : Sd cfg udfName sk := by
  simp [udfName]
@[simp] theorem said_userDefinedFunction : Sd cfg (userDefinedFunction) true := by
  simp [userDefinedFunction]
@[simp] theorem said_sqlNoArgFunction {sk : Bool} : Sd cfg sqlNoArgFunction sk := by
  simp [sqlNoArgFunction]
@[simp] theorem said_numericValueFunction : Sd cfg (numericValueFunction) true := by
  simp [numericValueFunction]
@[simp] theorem said_setFunctionType {sk : Bool} : Sd cfg setFunctionType sk := by
  simp [setFunctionType]
@[simp] theorem said_setQuantifier {sk : Bool} : Sd cfg setQuantifier sk := by
  simp [setQuantifier]
@[simp] theorem said_countStar : Sd cfg (countStar) true := by
  simp [countStar]
@[simp] theorem said_generalSetFunction : Sd cfg (generalSetFunction) true := by
  simp [generalSetFunction]
@[simp] theorem said_nullLiteral {sk : Bool} : Sd cfg nullLiteral sk := by
  simp [nullLiteral]
@[simp] theorem said_caseResult : Sd cfg (caseResult) true := by
  simp [caseResult]
@[simp] theorem said_simpleWhen : Sd cfg (simpleWhen) true := by
  simp [simpleWhen]
@[simp] theorem said_elseClause : Sd cfg (elseClause) true := by
  simp [elseClause]
@[simp] theorem said_simpleCase : Sd cfg (simpleCase) true := by
  simp [simpleCase]
@[simp] theorem said_searchedWhen : Sd cfg (searchedWhen) true := by
  simp [searchedWhen]
@[simp] theorem said_searchedCase : Sd cfg (searchedCase) true := by
  simp [searchedCase]
@[simp] theorem said_caseSpecification : Sd cfg (caseSpecification) true := by
  simp [caseSpecification]
@[simp] theorem said_nullif : Sd cfg (nullif) true := by
  simp [nullif]
@[simp] theorem said_coalesce : Sd cfg (coalesce) true := by
  simp [coalesce]
@[simp] theorem said_caseExpression : Sd cfg (caseExpression) true := by
  simp [caseExpression]
@[simp] theorem said_anyExpression : Sd cfg (anyExpression) true := by
  simp [anyExpression]
@[simp] theorem said_valueSubexpression : Sd cfg (valueSubexpression) true := by
  simp [valueSubexpression]
@[simp] theorem said_arrayIndex : Sd cfg (arrayIndex) true := by
  simp [arrayIndex]
@[simp] theorem said_nullCast {sk : Bool} : Sd cfg nullCast sk := by
  simp [nullCast]
@[simp] theorem said_arrayConstructor : Sd cfg (arrayConstructor) true := by
  simp [arrayConstructor]
@[simp] theorem said_primary : Sd cfg (primary) true := by
  simp [primary]
@[simp] theorem said_valueExpressionPrimary : Sd cfg (valueExpressionPrimary) true := by
  simp [valueExpressionPrimary]
@[simp] theorem said_numericPrimary : Sd cfg (numericPrimary) true := by
  simp [numericPrimary]
@[simp] theorem said_factor : Sd cfg (factor) true := by
  simp [factor]
@[simp] theorem said_binaryOperators : Sd cfg (binaryOperators) true := by
  simp [binaryOperators]
@[simp] theorem said_venbTerm : Sd cfg (venbTerm) true := by
  simp [venbTerm]
@[simp] theorem said_venbBody : Sd cfg (venbBody) true := by
  simp [venbBody]
@[simp] theorem said_veBody : Sd cfg (veBody) true := by
  simp [veBody]
@[simp] theorem said_compOp : Sd cfg (compOp) true := by
  simp [compOp]
@[simp] theorem said_comparisonPredicate : Sd cfg (comparisonPredicate) true := by
  simp [comparisonPredicate]
@[simp] theorem said_betweenPredicate : Sd cfg (betweenPredicate) true := by
  simp [betweenPredicate]
@[simp] theorem said_inNot : Sd cfg (inNot) true := by
  simp [inNot]
@[simp] theorem said_inPredicate : Sd cfg (inPredicate) true := by
  simp [inPredicate]
@[simp] theorem said_nullPredicate : Sd cfg (nullPredicate) true := by
  simp [nullPredicate]
@[simp] theorem said_likePredicate : Sd cfg (likePredicate) true := by
  simp [likePredicate]
@[simp] theorem said_existsPredicate : Sd cfg (existsPredicate) true := by
  simp [existsPredicate]
@[simp] theorem said_predicate : Sd cfg (predicate) true := by
  simp [predicate]
@[simp] theorem said_booleanPrimary : Sd cfg (booleanPrimary) true := by
  simp [booleanPrimary]
@[simp] theorem said_factorNot (residue : Bool) : Sd cfg (factorNot residue) true := by
  cases residue <;> simp [factorNot]
@[simp] theorem said_booleanFactor (residue : Bool) : Sd cfg (booleanFactor residue) true := by
  simp [booleanFactor]
@[simp] theorem said_logicalOp : Sd cfg (logicalOp) true := by
  simp [logicalOp]
@[simp] theorem said_scBody (residue : Bool) : Sd cfg (scBody residue) true := by
  simp [scBody]
@[simp] theorem said_correlationSpecification : Sd cfg (correlationSpecification) true := by
  simp [correlationSpecification]
@[simp] theorem said_tableCorrelation : Sd cfg (tableCorrelation) true := by
  simp [tableCorrelation]
@[simp] theorem said_joinType : Sd cfg (joinType) true := by
  simp [joinType]
@[simp] theorem said_joinSpecification : Sd cfg (joinSpecification) true := by
  simp [joinSpecification]
@[simp] theorem said_joinSuffix : Sd cfg (joinSuffix) true := by
  simp [joinSuffix]
@[simp] theorem said_parenJoined : Sd cfg (parenJoined) true := by
  simp [parenJoined]
@[simp] theorem said_qualifiedJoin : Sd cfg (qualifiedJoin) true := by
  simp [qualifiedJoin]
@[simp] theorem said_jtBody : Sd cfg (jtBody) true := by
  simp [jtBody]
@[simp] theorem said_derivedCorrelation : Sd cfg (derivedCorrelation) true := by
  simp [derivedCorrelation]
@[simp] theorem said_tableValuedFunction : Sd cfg (tableValuedFunction) true := by
  simp [tableValuedFunction]
@[simp] theorem said_trBody : Sd cfg (trBody) true := by
  simp [trBody]
@[simp] theorem said_fromClause : Sd cfg (fromClause) true := by
  simp [fromClause]
@[simp] theorem said_asItem : Sd cfg (asItem) true := by
  simp [asItem]
@[simp] theorem said_qualifierStar {sk : Bool} : Sd cfg qualifierStar sk := by
  simp [qualifierStar]
@[simp] theorem said_selectItem : Sd cfg (selectItem) true := by
  simp [selectItem]
@[simp] theorem said_columns : Sd cfg (columns) true := by
  simp [columns]
@[simp] theorem said_ulongLong {sk : Bool} : Sd cfg ulongLong sk := by
  simp [ulongLong]
@[simp] theorem said_topClause : Sd cfg (topClause) true := by
  simp [topClause]
@[simp] theorem said_select : Sd cfg (select) true := by
  simp [select]
@[simp] theorem said_whereClause : Sd cfg (whereClause) true := by
  simp [whereClause]
@[simp] theorem said_whereNoGeometry : Sd cfg (whereNoGeometry) true := by
  simp [whereNoGeometry]
@[simp] theorem said_unionOp : Sd cfg (unionOp) true := by
  simp [unionOp]
@[simp] theorem said_sfwWith {w : G Where} : Sd cfg (sfwWith w) true ↔ Sd cfg w true := by
  simp [sfwWith]
@[simp] theorem said_sfwList {w : G Where} : Sd cfg (sfwList w) true ↔ Sd cfg w true := by
  simp [sfwList]
@[simp] theorem said_groupByTerm : Sd cfg (groupByTerm) true := by
  simp [groupByTerm]
@[simp] theorem said_groupBy : Sd cfg (groupBy) true := by
  simp [groupBy]
@[simp] theorem said_having : Sd cfg (having) true := by
  simp [having]
@[simp] theorem said_sortSpecification : Sd cfg (sortSpecification) true := by
  simp [sortSpecification]
@[simp] theorem said_orderBy : Sd cfg (orderBy) true := by
  simp [orderBy]
@[simp] theorem said_withClause : Sd cfg (withClause) true := by
  simp [withClause]
@[simp] theorem said_queryWith {w : G Where} : Sd cfg (queryWith w) true ↔ Sd cfg w true := by
  simp [queryWith]
@[simp] theorem said_query : Sd cfg (query) true := by
  simp [query]
@[simp] theorem said_queryNoGeometry : Sd cfg (queryNoGeometry) true := by
  simp [queryNoGeometry]
@[simp] theorem said_subqBody : Sd cfg (subqBody) true := by
  simp [subqBody]
@[simp] theorem said_tapUpload {sk : Bool} : Sd cfg (tapUpload cfg) sk := by
  simp [tapUpload, tapUploadIdentifier]
  exact w_upload

theorem said_grammar (cfg : Config) (n : Rule) (sk : Bool) (h : Called n sk) : Sd cfg (grammar cfg n) sk := by
  cases n with
  | tap => exact said_tapUpload
  | _ => rcases h with rfl | h
         · simp [grammar]
         · cases h

end Blame

/-- **C50.** The error message of the constructor is right: the text it quotes is an end of the text that was parsed, and
what it names does not begin there. -/
theorem C50_right (cfg : Config) {input r : Str} {w : String} (h : construct cfg input = .error (.expecting w r)) :
    Absent cfg w r := by
  obtain ⟨s, hs⟩ : ∃ s, parseQuery cfg s = .err (.expect w r) := by
    unfold construct at h
    split at h
    · next e he =>
      cases h
      rcases C03_errors cfg input _ (by unfold construct; rw [he]) with ⟨-, h | h | h | h⟩ | ⟨s, h, -⟩
      · cases h
      · cases h
      · cases h
      · cases h
      · rw [he] at h; cases h
    · next s hs =>
      refine ⟨s, ?_⟩
      unfold parseIt at h
      split at h
      · split at h <;> cases h
      · cases h
      · next h1 => cases h; exact h1
      · cases h
      · cases h
  rw [parseQuery_eq] at hs
  have hr : ∀ n sk s w r, Blame.Called n sk → D cfg n sk s = .err (.expect w r) → Absent cfg w r := by
    intro n sk s w r hn h
    exact run_said (grammar_wf cfg) (J := fun w p sk => Blame.Wrong cfg w p sk) (K := Absent cfg) (fun hj hf => hj _ hf)
      (Blame.said_grammar cfg) _ n sk s w r hn h
  exact step_said (J := fun w p sk => Blame.Wrong cfg w p sk) (fun hj hf => hj _ hf) hr query true s w r Blame.said_query hs

/-- **C50**, the list: nothing else is ever reported as expected. -/
theorem C50_message (cfg : Config) {input r : Str} {w : String} (h : construct cfg input = .error (.expecting w r)) :
    w ∈ messages := by
  cases C50_right cfg h <;> decide +kernel

/-- what the constructor expects, and where -/
def expected (t : Str) : Option (String × Str) :=
  match construct ⟨fun _ => none, true⟩ t with
  | .error (.expecting w r) => some (w, r)
  | _ => none

/-- one text for each message -/
def failures : List (Str × String × Str) :=
  [(cs!"SELECT COT FROM t", "'('", cs!" FROM t"),
   (cs!"SELECT count(* FROM t", "')'", cs!" FROM t"),
   (cs!"SELECT atan2(1) FROM t", "','", cs!") FROM t"),
   (cs!"SELECT ARRAY[1 FROM t", "']'", cs!" FROM t"),
   (cs!"SELECT a FROM\"t\"", "space", cs!"\"t\""),
   (cs!"SELECT a FROM t GROUP x", "BY", cs!" x"),
   (cs!"SELECT CASE a WHEN 1 THEN 1 FROM t", "END", cs!" FROM t"),
   (cs!"SELECT a", "from", cs!""),
   (cs!"SELECT a FROM t WHERE CONTAINS(POINT(1,2),CIRCLE(1,2,3))=2", "char_flag", cs!"2"),
   (cs!"SELECT a FROM TAP_UPLOAD.1", "TAP_UPLOAD identifier", cs!"1"),
   (cs!"SELECT a AS 1 FROM t", "column_name", cs!" 1 FROM t"),
   (cs!"SELECT a FROM t JOIN u USING (1)", "join column list", cs!"1)"),
   (cs!"WITH 1", "with_table_name", cs!" 1"),
   (cs!"SELECT CAST(a AS CHAR(x)) FROM t", "unsigned_integer", cs!"x)) FROM t"),
   (cs!"SELECT TOP x FROM t", "unsigned integer", cs!" x FROM t"),
   (cs!"SELECT COT(,) FROM t", "value_expression", cs!",) FROM t"),
   (cs!"SELECT MAX() FROM t", "general_set_args", cs!") FROM t"),
   (cs!"SELECT CASE a WHEN 1 THEN , FROM t", "result", cs!" , FROM t"),
   (cs!"SELECT CASE x FROM t", "case", cs!" x FROM t"),
   (cs!"SELECT a FROM t WHERE CONTAINS(POINT(1,2),CIRCLE(1,2,", "column or simple arithmetic expression", cs!""),
   (cs!"SELECT a FROM t WHERE CONTAINS(POINT())=1", "coordinate", cs!"))=1"),
   (cs!"SELECT a FROM t WHERE CONTAINS(POINT(1,2),POLYGON())=1", "coordinate list", cs!"))=1"),
   (cs!"SELECT DISTANCE(1) FROM t", "point or column", cs!"1) FROM t"),
   (cs!"SELECT a FROM t WHERE CONTAINS(1)", "shape_or_column", cs!"1)"),
   (cs!"SELECT , FROM t", "columns", cs!" , FROM t"),
   (cs!"SELECT a FROM t GROUP BY ,", "group by terms", cs!" ,"),
   (cs!"SELECT a FROM t HAVING ,", "search condition", cs!" ,"),
   (cs!"SELECT a FROM t WHERE ,", "where condition", cs!" ,"),
   (cs!"SELECT a FROM t JOIN 1", "table reference", cs!" 1"),
   (cs!"SELECT a FROM 1", "table reference list", cs!" 1"),
   (cs!"WITH x AS 1", "subquery", cs!" 1")]

/-- **C50**, conversely: each of the messages is reported for some text. -/
theorem C50_reported : ∀ w ∈ messages, ∃ (input r : Str),
    construct ⟨fun _ => none, true⟩ input = .error (.expecting w r) := by
  have h1 : failures.map (fun x => expected x.1) = failures.map (fun x => some x.2) := by kernel_rfl
  have h2 : failures.map (·.2.1) = messages := by kernel_rfl
  intro w hw
  rw [← h2] at hw
  obtain ⟨x, hx, rfl⟩ := List.mem_map.1 hw
  refine ⟨x.1, x.2.2, ?_⟩
  have h := List.map_inj_left.1 h1 x hx
  unfold expected at h
  split at h
  · next w r e =>
    rw [e, ← Option.some.inj h]
  · cases h

/-- `C50_right` says something of each: in `SELECT a FROM t GROUP x` no `BY` begins at ` x`. -/
example : Absent ⟨fun _ => none, true⟩ "BY" cs!" x" :=
  C50_right (input := cs!"SELECT a FROM t GROUP x") _ (by kernel_rfl)

end Adql
