import Verif.Peg.Meta
import Verif.Model.Query

/-!
# The ADQL grammar passes the static termination check

One pair of lemmas per rule of `Model/Grammar.lean`, in the same order: whether success consumes,
and that the check holds with the given bound on the ranks of the rules called at the head.
-/

namespace Adql

/-- Ranks of the recursive rules: a rule calls, before consuming anything, only rules of smaller
rank. -/
def rank : Rule → Nat
  | .ve => 3
  | .venb => 1
  | .sc => 2
  | .subq => 0
  | .jt => 1
  | .tr => 2
  | .tap => 0

set_option linter.unusedSimpArgs false

namespace WF

attribute [local simp] kw sym chS cat manyS plusS optS failP andSpace andNsSpace word wordX ve venb sc subq jt tr tap P.opt P.optD P.plus P.seqL P.seqR P.sepBy P.diff fnHead shapeHead sfwWith sfwList queryWith

@[simp] theorem wf_anyKw (b : Nat) : ∀ ws, P.wf rank 4 b (anyKw ws) = true
  | [] => rfl
  | w :: ws => by simp [anyKw, P.wf, wf_anyKw b ws]

theorem consumes_anyKw : ∀ {ws : List Str}, (ws.all fun w => !w.isEmpty) = true →
    P.consumes (anyKw ws) = true
  | [], _ => rfl
  | w :: ws, h => by
    simp only [List.all_cons, Bool.and_eq_true] at h
    simp only [anyKw, P.consumes, kw, h.1, consumes_anyKw h.2, Bool.and_self]

@[simp] theorem consumes_sqlWords : P.consumes (anyKw sqlWords) = true :=
  consumes_anyKw (by decide +kernel)
@[simp] theorem consumes_adqlWords : P.consumes (anyKw adqlWords) = true :=
  consumes_anyKw (by decide +kernel)

@[simp] theorem consumes_keyword : P.consumes (keyword) = true := by
  simp [keyword, P.consumes, consumes_anyKw]
@[simp] theorem wf_keyword (b : Nat) : P.wf rank 4 b (keyword) = true := by
  simp [keyword, P.wf, P.consumes, rank]
@[simp] theorem consumes_andNonId : P.consumes (andNonId) = false := by
  simp [andNonId, P.consumes, consumes_anyKw]
@[simp] theorem wf_andNonId (b : Nat) : P.wf rank 4 b (andNonId) = true := by
  simp [andNonId, P.wf, P.consumes, rank]
@[simp] theorem consumes_allIdentifiers : P.consumes (allIdentifiers) = true := by
  simp [allIdentifiers, P.consumes, consumes_anyKw]
@[simp] theorem wf_allIdentifiers (b : Nat) : P.wf rank 4 b (allIdentifiers) = true := by
  simp [allIdentifiers, P.wf, P.consumes, rank]
@[simp] theorem consumes_regularIdentifier : P.consumes (regularIdentifier) = true := by
  simp [regularIdentifier, P.consumes, consumes_anyKw]
@[simp] theorem wf_regularIdentifier (b : Nat) : P.wf rank 4 b (regularIdentifier) = true := by
  simp [regularIdentifier, P.wf, P.consumes, rank]
@[simp] theorem consumes_pqIdentifier : P.consumes (pqIdentifier) = true := by
  simp [pqIdentifier, P.consumes, consumes_anyKw]
@[simp] theorem wf_pqIdentifier (b : Nat) : P.wf rank 4 b (pqIdentifier) = true := by
  simp [pqIdentifier, P.wf, P.consumes, rank]
@[simp] theorem consumes_delimitedPart : P.consumes (delimitedPart) = true := by
  simp [delimitedPart, P.consumes, consumes_anyKw]
@[simp] theorem wf_delimitedPart (b : Nat) : P.wf rank 4 b (delimitedPart) = true := by
  simp [delimitedPart, P.wf, P.consumes, rank]
@[simp] theorem consumes_delimitedIdentifier : P.consumes (delimitedIdentifier) = true := by
  simp [delimitedIdentifier, P.consumes, consumes_anyKw]
@[simp] theorem wf_delimitedIdentifier (b : Nat) : P.wf rank 4 b (delimitedIdentifier) = true := by
  simp [delimitedIdentifier, P.wf, P.consumes, rank]
@[simp] theorem consumes_identifier : P.consumes (identifier) = true := by
  simp [identifier, P.consumes, consumes_anyKw]
@[simp] theorem wf_identifier (b : Nat) : P.wf rank 4 b (identifier) = true := by
  simp [identifier, P.wf, P.consumes, rank]
@[simp] theorem consumes_period : P.consumes (period) = true := by
  simp [period, P.consumes, consumes_anyKw]
@[simp] theorem wf_period (b : Nat) : P.wf rank 4 b (period) = true := by
  simp [period, P.wf, P.consumes, rank]
@[simp] theorem consumes_tapUploadIdentifier (cfg : Config) : P.consumes (tapUploadIdentifier cfg) = true := by
  simp [tapUploadIdentifier, P.consumes, consumes_anyKw]
@[simp] theorem wf_tapUploadIdentifier (cfg : Config) (b : Nat) : P.wf rank 4 b (tapUploadIdentifier cfg) = true := by
  simp [tapUploadIdentifier, P.wf, P.consumes, rank]
@[simp] theorem consumes_tapUpload (cfg : Config) : P.consumes (tapUpload cfg) = true := by
  simp [tapUpload, P.consumes, consumes_anyKw]
@[simp] theorem wf_tapUpload (cfg : Config) (b : Nat) : P.wf rank 4 b (tapUpload cfg) = true := by
  simp [tapUpload, P.wf, P.consumes, rank]
@[simp] theorem consumes_tableName : P.consumes (tableName) = true := by
  simp [tableName, P.consumes, consumes_anyKw]
@[simp] theorem wf_tableName_1 : P.wf rank 4 1 (tableName) = true := by
  simp [tableName, P.wf, P.consumes, rank]
@[simp] theorem wf_tableName_2 : P.wf rank 4 2 (tableName) = true := by
  simp [tableName, P.wf, P.consumes, rank]
@[simp] theorem wf_tableName_3 : P.wf rank 4 3 (tableName) = true := by
  simp [tableName, P.wf, P.consumes, rank]
@[simp] theorem wf_tableName_4 : P.wf rank 4 4 (tableName) = true := by
  simp [tableName, P.wf, P.consumes, rank]
@[simp] theorem consumes_columnReference : P.consumes (columnReference) = true := by
  simp [columnReference, P.consumes, consumes_anyKw]
@[simp] theorem wf_columnReference_1 : P.wf rank 4 1 (columnReference) = true := by
  simp [columnReference, P.wf, P.consumes, rank]
@[simp] theorem wf_columnReference_2 : P.wf rank 4 2 (columnReference) = true := by
  simp [columnReference, P.wf, P.consumes, rank]
@[simp] theorem wf_columnReference_3 : P.wf rank 4 3 (columnReference) = true := by
  simp [columnReference, P.wf, P.consumes, rank]
@[simp] theorem wf_columnReference_4 : P.wf rank 4 4 (columnReference) = true := by
  simp [columnReference, P.wf, P.consumes, rank]
@[simp] theorem consumes_unsignedInteger : P.consumes (unsignedInteger) = true := by
  simp [unsignedInteger, P.consumes, consumes_anyKw]
@[simp] theorem wf_unsignedInteger (b : Nat) : P.wf rank 4 b (unsignedInteger) = true := by
  simp [unsignedInteger, P.wf, P.consumes, rank]
@[simp] theorem consumes_exactNumeric : P.consumes (exactNumeric) = true := by
  simp [exactNumeric, P.consumes, consumes_anyKw]
@[simp] theorem wf_exactNumeric (b : Nat) : P.wf rank 4 b (exactNumeric) = true := by
  simp [exactNumeric, P.wf, P.consumes, rank]
@[simp] theorem consumes_sign : P.consumes (sign) = true := by
  simp [sign, P.consumes, consumes_anyKw]
@[simp] theorem wf_sign (b : Nat) : P.wf rank 4 b (sign) = true := by
  simp [sign, P.wf, P.consumes, rank]
@[simp] theorem consumes_signedInteger : P.consumes (signedInteger) = true := by
  simp [signedInteger, P.consumes, consumes_anyKw]
@[simp] theorem wf_signedInteger (b : Nat) : P.wf rank 4 b (signedInteger) = true := by
  simp [signedInteger, P.wf, P.consumes, rank]
@[simp] theorem consumes_approxNumeric : P.consumes (approxNumeric) = true := by
  simp [approxNumeric, P.consumes, consumes_anyKw]
@[simp] theorem wf_approxNumeric (b : Nat) : P.wf rank 4 b (approxNumeric) = true := by
  simp [approxNumeric, P.wf, P.consumes, rank]
@[simp] theorem consumes_unsignedNumeric : P.consumes (unsignedNumeric) = true := by
  simp [unsignedNumeric, P.consumes, consumes_anyKw]
@[simp] theorem wf_unsignedNumeric (b : Nat) : P.wf rank 4 b (unsignedNumeric) = true := by
  simp [unsignedNumeric, P.wf, P.consumes, rank]
@[simp] theorem consumes_charRep : P.consumes (charRep) = true := by
  simp [charRep, P.consumes, consumes_anyKw]
@[simp] theorem wf_charRep (b : Nat) : P.wf rank 4 b (charRep) = true := by
  simp [charRep, P.wf, P.consumes, rank]
@[simp] theorem consumes_quote : P.consumes (quote) = true := by
  simp [quote, P.consumes, consumes_anyKw]
@[simp] theorem wf_quote (b : Nat) : P.wf rank 4 b (quote) = true := by
  simp [quote, P.wf, P.consumes, rank]
@[simp] theorem consumes_comment : P.consumes (comment) = true := by
  simp [comment, P.consumes, consumes_anyKw]
@[simp] theorem wf_comment (b : Nat) : P.wf rank 4 b (comment) = true := by
  simp [comment, P.wf, P.consumes, rank]
@[simp] theorem consumes_separator : P.consumes (separator) = true := by
  simp [separator, P.consumes, consumes_anyKw]
@[simp] theorem wf_separator (b : Nat) : P.wf rank 4 b (separator) = true := by
  simp [separator, P.wf, P.consumes, rank]
@[simp] theorem consumes_charString : P.consumes (charString) = true := by
  simp [charString, P.consumes, consumes_anyKw]
@[simp] theorem wf_charString (b : Nat) : P.wf rank 4 b (charString) = true := by
  simp [charString, P.wf, P.consumes, rank]
@[simp] theorem consumes_booleanLiteral : P.consumes (booleanLiteral) = true := by
  simp [booleanLiteral, P.consumes, consumes_anyKw]
@[simp] theorem wf_booleanLiteral (b : Nat) : P.wf rank 4 b (booleanLiteral) = true := by
  simp [booleanLiteral, P.wf, P.consumes, rank]
@[simp] theorem consumes_generalLiteral : P.consumes (generalLiteral) = true := by
  simp [generalLiteral, P.consumes, consumes_anyKw]
@[simp] theorem wf_generalLiteral (b : Nat) : P.wf rank 4 b (generalLiteral) = true := by
  simp [generalLiteral, P.wf, P.consumes, rank]
@[simp] theorem consumes_unsignedLiteral : P.consumes (unsignedLiteral) = true := by
  simp [unsignedLiteral, P.consumes, consumes_anyKw]
@[simp] theorem wf_unsignedLiteral (b : Nat) : P.wf rank 4 b (unsignedLiteral) = true := by
  simp [unsignedLiteral, P.wf, P.consumes, rank]
@[simp] theorem consumes_double : P.consumes (double) = true := by
  simp [double, P.consumes, consumes_anyKw]
@[simp] theorem wf_double (b : Nat) : P.wf rank 4 b (double) = true := by
  simp [double, P.wf, P.consumes, rank]
@[simp] theorem consumes_referenceFrame : P.consumes (referenceFrame) = true := by
  simp [referenceFrame, P.consumes, consumes_anyKw]
@[simp] theorem wf_referenceFrame (b : Nat) : P.wf rank 4 b (referenceFrame) = true := by
  simp [referenceFrame, P.wf, P.consumes, rank]
@[simp] theorem consumes_referencePosition : P.consumes (referencePosition) = true := by
  simp [referencePosition, P.consumes, consumes_anyKw]
@[simp] theorem wf_referencePosition (b : Nat) : P.wf rank 4 b (referencePosition) = true := by
  simp [referencePosition, P.wf, P.consumes, rank]
@[simp] theorem consumes_coordSys : P.consumes (coordSys) = true := by
  simp [coordSys, P.consumes, consumes_anyKw]
@[simp] theorem wf_coordSys (b : Nat) : P.wf rank 4 b (coordSys) = true := by
  simp [coordSys, P.wf, P.consumes, rank]
@[simp] theorem consumes_optCoordSys : P.consumes (optCoordSys) = false := by
  simp [optCoordSys, P.consumes, consumes_anyKw]
@[simp] theorem wf_optCoordSys (b : Nat) : P.wf rank 4 b (optCoordSys) = true := by
  simp [optCoordSys, P.wf, P.consumes, rank]
@[simp] theorem consumes_arithOp : P.consumes (arithOp) = true := by
  simp [arithOp, P.consumes, consumes_anyKw]
@[simp] theorem wf_arithOp (b : Nat) : P.wf rank 4 b (arithOp) = true := by
  simp [arithOp, P.wf, P.consumes, rank]
@[simp] theorem consumes_coordExpr : P.consumes (coordExpr) = true := by
  simp [coordExpr, P.consumes, consumes_anyKw]
@[simp] theorem wf_coordExpr_1 : P.wf rank 4 1 (coordExpr) = true := by
  simp [coordExpr, P.wf, P.consumes, rank]
@[simp] theorem wf_coordExpr_2 : P.wf rank 4 2 (coordExpr) = true := by
  simp [coordExpr, P.wf, P.consumes, rank]
@[simp] theorem wf_coordExpr_3 : P.wf rank 4 3 (coordExpr) = true := by
  simp [coordExpr, P.wf, P.consumes, rank]
@[simp] theorem wf_coordExpr_4 : P.wf rank 4 4 (coordExpr) = true := by
  simp [coordExpr, P.wf, P.consumes, rank]
@[simp] theorem consumes_coord : P.consumes (coord) = true := by
  simp [coord, P.consumes, consumes_anyKw]
@[simp] theorem wf_coord_1 : P.wf rank 4 1 (coord) = true := by
  simp [coord, P.wf, P.consumes, rank]
@[simp] theorem wf_coord_2 : P.wf rank 4 2 (coord) = true := by
  simp [coord, P.wf, P.consumes, rank]
@[simp] theorem wf_coord_3 : P.wf rank 4 3 (coord) = true := by
  simp [coord, P.wf, P.consumes, rank]
@[simp] theorem wf_coord_4 : P.wf rank 4 4 (coord) = true := by
  simp [coord, P.wf, P.consumes, rank]
@[simp] theorem consumes_xCoordExpr : P.consumes (xCoordExpr) = true := by
  simp [xCoordExpr, P.consumes, consumes_anyKw]
@[simp] theorem wf_xCoordExpr (b : Nat) : P.wf rank 4 b (xCoordExpr) = true := by
  simp [xCoordExpr, P.wf, P.consumes, rank]
@[simp] theorem consumes_xClose : P.consumes (xClose) = true := by
  simp [xClose, P.consumes, consumes_anyKw]
@[simp] theorem wf_xClose (b : Nat) : P.wf rank 4 b (xClose) = true := by
  simp [xClose, P.wf, P.consumes, rank]
@[simp] theorem consumes_point : P.consumes (point) = true := by
  simp [point, P.consumes, consumes_anyKw]
@[simp] theorem wf_point (b : Nat) : P.wf rank 4 b (point) = true := by
  simp [point, P.wf, P.consumes, rank]
@[simp] theorem consumes_circle : P.consumes (circle) = true := by
  simp [circle, P.consumes, consumes_anyKw]
@[simp] theorem wf_circle (b : Nat) : P.wf rank 4 b (circle) = true := by
  simp [circle, P.wf, P.consumes, rank]
@[simp] theorem consumes_ellipse : P.consumes (ellipse) = true := by
  simp [ellipse, P.consumes, consumes_anyKw]
@[simp] theorem wf_ellipse (b : Nat) : P.wf rank 4 b (ellipse) = true := by
  simp [ellipse, P.wf, P.consumes, rank]
@[simp] theorem consumes_box : P.consumes (box) = true := by
  simp [box, P.consumes, consumes_anyKw]
@[simp] theorem wf_box (b : Nat) : P.wf rank 4 b (box) = true := by
  simp [box, P.wf, P.consumes, rank]
@[simp] theorem consumes_polygon : P.consumes (polygon) = true := by
  simp [polygon, P.consumes, consumes_anyKw]
@[simp] theorem wf_polygon (b : Nat) : P.wf rank 4 b (polygon) = true := by
  simp [polygon, P.wf, P.consumes, rank]
@[simp] theorem consumes_shape : P.consumes (shape) = true := by
  simp [shape, P.consumes, consumes_anyKw]
@[simp] theorem wf_shape (b : Nat) : P.wf rank 4 b (shape) = true := by
  simp [shape, P.wf, P.consumes, rank]
@[simp] theorem consumes_pointOrColumn : P.consumes (pointOrColumn) = true := by
  simp [pointOrColumn, P.consumes, consumes_anyKw]
@[simp] theorem wf_pointOrColumn_1 : P.wf rank 4 1 (pointOrColumn) = true := by
  simp [pointOrColumn, P.wf, P.consumes, rank]
@[simp] theorem wf_pointOrColumn_2 : P.wf rank 4 2 (pointOrColumn) = true := by
  simp [pointOrColumn, P.wf, P.consumes, rank]
@[simp] theorem wf_pointOrColumn_3 : P.wf rank 4 3 (pointOrColumn) = true := by
  simp [pointOrColumn, P.wf, P.consumes, rank]
@[simp] theorem wf_pointOrColumn_4 : P.wf rank 4 4 (pointOrColumn) = true := by
  simp [pointOrColumn, P.wf, P.consumes, rank]
@[simp] theorem consumes_shapeOrColumn : P.consumes (shapeOrColumn) = true := by
  simp [shapeOrColumn, P.consumes, consumes_anyKw]
@[simp] theorem wf_shapeOrColumn_1 : P.wf rank 4 1 (shapeOrColumn) = true := by
  simp [shapeOrColumn, P.wf, P.consumes, rank]
@[simp] theorem wf_shapeOrColumn_2 : P.wf rank 4 2 (shapeOrColumn) = true := by
  simp [shapeOrColumn, P.wf, P.consumes, rank]
@[simp] theorem wf_shapeOrColumn_3 : P.wf rank 4 3 (shapeOrColumn) = true := by
  simp [shapeOrColumn, P.wf, P.consumes, rank]
@[simp] theorem wf_shapeOrColumn_4 : P.wf rank 4 4 (shapeOrColumn) = true := by
  simp [shapeOrColumn, P.wf, P.consumes, rank]
@[simp] theorem consumes_xShapeTail : P.consumes (xShapeTail) = true := by
  simp [xShapeTail, P.consumes, consumes_anyKw]
@[simp] theorem wf_xShapeTail (b : Nat) : P.wf rank 4 b (xShapeTail) = true := by
  simp [xShapeTail, P.wf, P.consumes, rank]
@[simp] theorem consumes_contains : P.consumes (contains) = true := by
  simp [contains, P.consumes, consumes_anyKw]
@[simp] theorem wf_contains (b : Nat) : P.wf rank 4 b (contains) = true := by
  simp [contains, P.wf, P.consumes, rank]
@[simp] theorem consumes_intersects : P.consumes (intersects) = true := by
  simp [intersects, P.consumes, consumes_anyKw]
@[simp] theorem wf_intersects (b : Nat) : P.wf rank 4 b (intersects) = true := by
  simp [intersects, P.wf, P.consumes, rank]
@[simp] theorem consumes_charFlag : P.consumes (charFlag) = true := by
  simp [charFlag, P.consumes, consumes_anyKw]
@[simp] theorem wf_charFlag (b : Nat) : P.wf rank 4 b (charFlag) = true := by
  simp [charFlag, P.wf, P.consumes, rank]
@[simp] theorem consumes_geomPred : P.consumes (geomPred) = true := by
  simp [geomPred, P.consumes, consumes_anyKw]
@[simp] theorem wf_geomPred (b : Nat) : P.wf rank 4 b (geomPred) = true := by
  simp [geomPred, P.wf, P.consumes, rank]
@[simp] theorem consumes_geometry : P.consumes (geometry) = true := by
  simp [geometry, P.consumes, consumes_anyKw]
@[simp] theorem wf_geometry (b : Nat) : P.wf rank 4 b (geometry) = true := by
  simp [geometry, P.wf, P.consumes, rank]
@[simp] theorem consumes_xOpen : P.consumes (xOpen) = true := by
  simp [xOpen, P.consumes, consumes_anyKw]
@[simp] theorem wf_xOpen (b : Nat) : P.wf rank 4 b (xOpen) = true := by
  simp [xOpen, P.wf, P.consumes, rank]
@[simp] theorem consumes_xComma : P.consumes (xComma) = true := by
  simp [xComma, P.consumes, consumes_anyKw]
@[simp] theorem wf_xComma (b : Nat) : P.wf rank 4 b (xComma) = true := by
  simp [xComma, P.wf, P.consumes, rank]
@[simp] theorem consumes_xVe : P.consumes (xVe) = true := by
  simp [xVe, P.consumes, consumes_anyKw]
@[simp] theorem wf_xVe_4 : P.wf rank 4 4 (xVe) = true := by
  simp [xVe, P.wf, P.consumes, rank]
@[simp] theorem consumes_trigNames : P.consumes (trigNames) = true := by
  simp [trigNames, P.consumes, consumes_anyKw]
@[simp] theorem wf_trigNames (b : Nat) : P.wf rank 4 b (trigNames) = true := by
  simp [trigNames, P.wf, P.consumes, rank]
@[simp] theorem consumes_trigFunction : P.consumes (trigFunction) = true := by
  simp [trigFunction, P.consumes, consumes_anyKw]
@[simp] theorem wf_trigFunction (b : Nat) : P.wf rank 4 b (trigFunction) = true := by
  simp [trigFunction, P.wf, P.consumes, rank]
@[simp] theorem consumes_math0Names : P.consumes (math0Names) = true := by
  simp [math0Names, P.consumes, consumes_anyKw]
@[simp] theorem wf_math0Names (b : Nat) : P.wf rank 4 b (math0Names) = true := by
  simp [math0Names, P.wf, P.consumes, rank]
@[simp] theorem consumes_math1Names : P.consumes (math1Names) = true := by
  simp [math1Names, P.consumes, consumes_anyKw]
@[simp] theorem wf_math1Names (b : Nat) : P.wf rank 4 b (math1Names) = true := by
  simp [math1Names, P.wf, P.consumes, rank]
@[simp] theorem consumes_math2Names : P.consumes (math2Names) = true := by
  simp [math2Names, P.consumes, consumes_anyKw]
@[simp] theorem wf_math2Names (b : Nat) : P.wf rank 4 b (math2Names) = true := by
  simp [math2Names, P.wf, P.consumes, rank]
@[simp] theorem consumes_mathFunction : P.consumes (mathFunction) = true := by
  simp [mathFunction, P.consumes, consumes_anyKw]
@[simp] theorem wf_mathFunction (b : Nat) : P.wf rank 4 b (mathFunction) = true := by
  simp [mathFunction, P.wf, P.consumes, rank]
@[simp] theorem consumes_geoFunction : P.consumes (geoFunction) = true := by
  simp [geoFunction, P.consumes, consumes_anyKw]
@[simp] theorem wf_geoFunction (b : Nat) : P.wf rank 4 b (geoFunction) = true := by
  simp [geoFunction, P.wf, P.consumes, rank]
@[simp] theorem consumes_castAs : P.consumes (castAs) = true := by
  simp [castAs, P.consumes, consumes_anyKw]
@[simp] theorem wf_castAs (b : Nat) : P.wf rank 4 b (castAs) = true := by
  simp [castAs, P.wf, P.consumes, rank]
@[simp] theorem consumes_castFunction : P.consumes (castFunction) = true := by
  simp [castFunction, P.consumes, consumes_anyKw]
@[simp] theorem wf_castFunction (b : Nat) : P.wf rank 4 b (castFunction) = true := by
  simp [castFunction, P.wf, P.consumes, rank]
@[simp] theorem consumes_udfName : P.consumes (udfName) = true := by
  simp [udfName, P.consumes, consumes_anyKw]
@[simp] theorem wf_udfName (b : Nat) : P.wf rank 4 b (udfName) = true := by
  simp [udfName, P.wf, P.consumes, rank]
@[simp] theorem consumes_userDefinedFunction : P.consumes (userDefinedFunction) = true := by
  simp [userDefinedFunction, P.consumes, consumes_anyKw]
@[simp] theorem wf_userDefinedFunction (b : Nat) : P.wf rank 4 b (userDefinedFunction) = true := by
  simp [userDefinedFunction, P.wf, P.consumes, rank]
@[simp] theorem consumes_sqlNoArgFunction : P.consumes (sqlNoArgFunction) = true := by
  simp [sqlNoArgFunction, P.consumes, consumes_anyKw]
@[simp] theorem wf_sqlNoArgFunction (b : Nat) : P.wf rank 4 b (sqlNoArgFunction) = true := by
  simp [sqlNoArgFunction, P.wf, P.consumes, rank]
@[simp] theorem consumes_numericValueFunction : P.consumes (numericValueFunction) = true := by
  simp [numericValueFunction, P.consumes, consumes_anyKw]
@[simp] theorem wf_numericValueFunction (b : Nat) : P.wf rank 4 b (numericValueFunction) = true := by
  simp [numericValueFunction, P.wf, P.consumes, rank]
@[simp] theorem consumes_setFunctionType : P.consumes (setFunctionType) = true := by
  simp [setFunctionType, P.consumes, consumes_anyKw]
@[simp] theorem wf_setFunctionType (b : Nat) : P.wf rank 4 b (setFunctionType) = true := by
  simp [setFunctionType, P.wf, P.consumes, rank]
@[simp] theorem consumes_setQuantifier : P.consumes (setQuantifier) = true := by
  simp [setQuantifier, P.consumes, consumes_anyKw]
@[simp] theorem wf_setQuantifier (b : Nat) : P.wf rank 4 b (setQuantifier) = true := by
  simp [setQuantifier, P.wf, P.consumes, rank]
@[simp] theorem consumes_countStar : P.consumes (countStar) = true := by
  simp [countStar, P.consumes, consumes_anyKw]
@[simp] theorem wf_countStar (b : Nat) : P.wf rank 4 b (countStar) = true := by
  simp [countStar, P.wf, P.consumes, rank]
@[simp] theorem consumes_generalSetFunction : P.consumes (generalSetFunction) = true := by
  simp [generalSetFunction, P.consumes, consumes_anyKw]
@[simp] theorem wf_generalSetFunction (b : Nat) : P.wf rank 4 b (generalSetFunction) = true := by
  simp [generalSetFunction, P.wf, P.consumes, rank]
@[simp] theorem consumes_nullLiteral : P.consumes (nullLiteral) = true := by
  simp [nullLiteral, P.consumes, consumes_anyKw]
@[simp] theorem wf_nullLiteral (b : Nat) : P.wf rank 4 b (nullLiteral) = true := by
  simp [nullLiteral, P.wf, P.consumes, rank]
@[simp] theorem consumes_caseResult : P.consumes (caseResult) = true := by
  simp [caseResult, P.consumes, consumes_anyKw]
@[simp] theorem wf_caseResult_4 : P.wf rank 4 4 (caseResult) = true := by
  simp [caseResult, P.wf, P.consumes, rank]
@[simp] theorem consumes_simpleWhen : P.consumes (simpleWhen) = true := by
  simp [simpleWhen, P.consumes, consumes_anyKw]
@[simp] theorem wf_simpleWhen (b : Nat) : P.wf rank 4 b (simpleWhen) = true := by
  simp [simpleWhen, P.wf, P.consumes, rank]
@[simp] theorem consumes_elseClause : P.consumes (elseClause) = true := by
  simp [elseClause, P.consumes, consumes_anyKw]
@[simp] theorem wf_elseClause (b : Nat) : P.wf rank 4 b (elseClause) = true := by
  simp [elseClause, P.wf, P.consumes, rank]
@[simp] theorem consumes_simpleCase : P.consumes (simpleCase) = true := by
  simp [simpleCase, P.consumes, consumes_anyKw]
@[simp] theorem wf_simpleCase_4 : P.wf rank 4 4 (simpleCase) = true := by
  simp [simpleCase, P.wf, P.consumes, rank]
@[simp] theorem consumes_searchedWhen : P.consumes (searchedWhen) = true := by
  simp [searchedWhen, P.consumes, consumes_anyKw]
@[simp] theorem wf_searchedWhen (b : Nat) : P.wf rank 4 b (searchedWhen) = true := by
  simp [searchedWhen, P.wf, P.consumes, rank]
@[simp] theorem consumes_searchedCase : P.consumes (searchedCase) = true := by
  simp [searchedCase, P.consumes, consumes_anyKw]
@[simp] theorem wf_searchedCase (b : Nat) : P.wf rank 4 b (searchedCase) = true := by
  simp [searchedCase, P.wf, P.consumes, rank]
@[simp] theorem consumes_caseSpecification : P.consumes (caseSpecification) = true := by
  simp [caseSpecification, P.consumes, consumes_anyKw]
@[simp] theorem wf_caseSpecification (b : Nat) : P.wf rank 4 b (caseSpecification) = true := by
  simp [caseSpecification, P.wf, P.consumes, rank]
@[simp] theorem consumes_nullif : P.consumes (nullif) = true := by
  simp [nullif, P.consumes, consumes_anyKw]
@[simp] theorem wf_nullif (b : Nat) : P.wf rank 4 b (nullif) = true := by
  simp [nullif, P.wf, P.consumes, rank]
@[simp] theorem consumes_coalesce : P.consumes (coalesce) = true := by
  simp [coalesce, P.consumes, consumes_anyKw]
@[simp] theorem wf_coalesce (b : Nat) : P.wf rank 4 b (coalesce) = true := by
  simp [coalesce, P.wf, P.consumes, rank]
@[simp] theorem consumes_caseExpression : P.consumes (caseExpression) = true := by
  simp [caseExpression, P.consumes, consumes_anyKw]
@[simp] theorem wf_caseExpression (b : Nat) : P.wf rank 4 b (caseExpression) = true := by
  simp [caseExpression, P.wf, P.consumes, rank]
@[simp] theorem consumes_anyExpression : P.consumes (anyExpression) = true := by
  simp [anyExpression, P.consumes, consumes_anyKw]
@[simp] theorem wf_anyExpression (b : Nat) : P.wf rank 4 b (anyExpression) = true := by
  simp [anyExpression, P.wf, P.consumes, rank]
@[simp] theorem consumes_valueSubexpression : P.consumes (valueSubexpression) = true := by
  simp [valueSubexpression, P.consumes, consumes_anyKw]
@[simp] theorem wf_valueSubexpression (b : Nat) : P.wf rank 4 b (valueSubexpression) = true := by
  simp [valueSubexpression, P.wf, P.consumes, rank]
@[simp] theorem consumes_arrayIndex : P.consumes (arrayIndex) = true := by
  simp [arrayIndex, P.consumes, consumes_anyKw]
@[simp] theorem wf_arrayIndex (b : Nat) : P.wf rank 4 b (arrayIndex) = true := by
  simp [arrayIndex, P.wf, P.consumes, rank]
@[simp] theorem consumes_nullCast : P.consumes (nullCast) = true := by
  simp [nullCast, P.consumes, consumes_anyKw]
@[simp] theorem wf_nullCast (b : Nat) : P.wf rank 4 b (nullCast) = true := by
  simp [nullCast, P.wf, P.consumes, rank]
@[simp] theorem consumes_arrayConstructor : P.consumes (arrayConstructor) = true := by
  simp [arrayConstructor, P.consumes, consumes_anyKw]
@[simp] theorem wf_arrayConstructor (b : Nat) : P.wf rank 4 b (arrayConstructor) = true := by
  simp [arrayConstructor, P.wf, P.consumes, rank]
@[simp] theorem consumes_primary : P.consumes (primary) = true := by
  simp [primary, P.consumes, consumes_anyKw]
@[simp] theorem wf_primary_1 : P.wf rank 4 1 (primary) = true := by
  simp [primary, P.wf, P.consumes, rank]
@[simp] theorem wf_primary_2 : P.wf rank 4 2 (primary) = true := by
  simp [primary, P.wf, P.consumes, rank]
@[simp] theorem wf_primary_3 : P.wf rank 4 3 (primary) = true := by
  simp [primary, P.wf, P.consumes, rank]
@[simp] theorem wf_primary_4 : P.wf rank 4 4 (primary) = true := by
  simp [primary, P.wf, P.consumes, rank]
@[simp] theorem consumes_valueExpressionPrimary : P.consumes (valueExpressionPrimary) = true := by
  simp [valueExpressionPrimary, P.consumes, consumes_anyKw]
@[simp] theorem wf_valueExpressionPrimary_1 : P.wf rank 4 1 (valueExpressionPrimary) = true := by
  simp [valueExpressionPrimary, P.wf, P.consumes, rank]
@[simp] theorem wf_valueExpressionPrimary_2 : P.wf rank 4 2 (valueExpressionPrimary) = true := by
  simp [valueExpressionPrimary, P.wf, P.consumes, rank]
@[simp] theorem wf_valueExpressionPrimary_3 : P.wf rank 4 3 (valueExpressionPrimary) = true := by
  simp [valueExpressionPrimary, P.wf, P.consumes, rank]
@[simp] theorem wf_valueExpressionPrimary_4 : P.wf rank 4 4 (valueExpressionPrimary) = true := by
  simp [valueExpressionPrimary, P.wf, P.consumes, rank]
@[simp] theorem consumes_numericPrimary : P.consumes (numericPrimary) = true := by
  simp [numericPrimary, P.consumes, consumes_anyKw]
@[simp] theorem wf_numericPrimary_1 : P.wf rank 4 1 (numericPrimary) = true := by
  simp [numericPrimary, P.wf, P.consumes, rank]
@[simp] theorem wf_numericPrimary_2 : P.wf rank 4 2 (numericPrimary) = true := by
  simp [numericPrimary, P.wf, P.consumes, rank]
@[simp] theorem wf_numericPrimary_3 : P.wf rank 4 3 (numericPrimary) = true := by
  simp [numericPrimary, P.wf, P.consumes, rank]
@[simp] theorem wf_numericPrimary_4 : P.wf rank 4 4 (numericPrimary) = true := by
  simp [numericPrimary, P.wf, P.consumes, rank]
@[simp] theorem consumes_factor : P.consumes (factor) = true := by
  simp [factor, P.consumes, consumes_anyKw]
@[simp] theorem wf_factor_1 : P.wf rank 4 1 (factor) = true := by
  simp [factor, P.wf, P.consumes, rank]
@[simp] theorem wf_factor_2 : P.wf rank 4 2 (factor) = true := by
  simp [factor, P.wf, P.consumes, rank]
@[simp] theorem wf_factor_3 : P.wf rank 4 3 (factor) = true := by
  simp [factor, P.wf, P.consumes, rank]
@[simp] theorem wf_factor_4 : P.wf rank 4 4 (factor) = true := by
  simp [factor, P.wf, P.consumes, rank]
@[simp] theorem consumes_binaryOperators : P.consumes (binaryOperators) = true := by
  simp [binaryOperators, P.consumes, consumes_anyKw]
@[simp] theorem wf_binaryOperators (b : Nat) : P.wf rank 4 b (binaryOperators) = true := by
  simp [binaryOperators, P.wf, P.consumes, rank]
@[simp] theorem consumes_venbTerm : P.consumes (venbTerm) = true := by
  simp [venbTerm, P.consumes, consumes_anyKw]
@[simp] theorem wf_venbTerm (b : Nat) : P.wf rank 4 b (venbTerm) = true := by
  simp [venbTerm, P.wf, P.consumes, rank]
@[simp] theorem consumes_venbBody : P.consumes (venbBody) = true := by
  simp [venbBody, P.consumes, consumes_anyKw]
@[simp] theorem wf_venbBody_1 : P.wf rank 4 1 (venbBody) = true := by
  simp [venbBody, P.wf, P.consumes, rank]
@[simp] theorem wf_venbBody_2 : P.wf rank 4 2 (venbBody) = true := by
  simp [venbBody, P.wf, P.consumes, rank]
@[simp] theorem wf_venbBody_3 : P.wf rank 4 3 (venbBody) = true := by
  simp [venbBody, P.wf, P.consumes, rank]
@[simp] theorem wf_venbBody_4 : P.wf rank 4 4 (venbBody) = true := by
  simp [venbBody, P.wf, P.consumes, rank]
@[simp] theorem consumes_veBody : P.consumes (veBody) = true := by
  simp [veBody, P.consumes, consumes_anyKw]
@[simp] theorem wf_veBody_3 : P.wf rank 4 3 (veBody) = true := by
  simp [veBody, P.wf, P.consumes, rank]
@[simp] theorem wf_veBody_4 : P.wf rank 4 4 (veBody) = true := by
  simp [veBody, P.wf, P.consumes, rank]
@[simp] theorem consumes_compOp : P.consumes (compOp) = true := by
  simp [compOp, P.consumes, consumes_anyKw]
@[simp] theorem wf_compOp (b : Nat) : P.wf rank 4 b (compOp) = true := by
  simp [compOp, P.wf, P.consumes, rank]
@[simp] theorem consumes_comparisonPredicate : P.consumes (comparisonPredicate) = true := by
  simp [comparisonPredicate, P.consumes, consumes_anyKw]
@[simp] theorem wf_comparisonPredicate_2 : P.wf rank 4 2 (comparisonPredicate) = true := by
  simp [comparisonPredicate, P.wf, P.consumes, rank]
@[simp] theorem wf_comparisonPredicate_3 : P.wf rank 4 3 (comparisonPredicate) = true := by
  simp [comparisonPredicate, P.wf, P.consumes, rank]
@[simp] theorem wf_comparisonPredicate_4 : P.wf rank 4 4 (comparisonPredicate) = true := by
  simp [comparisonPredicate, P.wf, P.consumes, rank]
@[simp] theorem consumes_betweenPredicate : P.consumes (betweenPredicate) = true := by
  simp [betweenPredicate, P.consumes, consumes_anyKw]
@[simp] theorem wf_betweenPredicate_2 : P.wf rank 4 2 (betweenPredicate) = true := by
  simp [betweenPredicate, P.wf, P.consumes, rank]
@[simp] theorem wf_betweenPredicate_3 : P.wf rank 4 3 (betweenPredicate) = true := by
  simp [betweenPredicate, P.wf, P.consumes, rank]
@[simp] theorem wf_betweenPredicate_4 : P.wf rank 4 4 (betweenPredicate) = true := by
  simp [betweenPredicate, P.wf, P.consumes, rank]
@[simp] theorem consumes_inNot : P.consumes (inNot) = false := by
  simp [inNot, P.consumes, consumes_anyKw]
@[simp] theorem wf_inNot (b : Nat) : P.wf rank 4 b (inNot) = true := by
  simp [inNot, P.wf, P.consumes, rank]
@[simp] theorem consumes_inPredicate : P.consumes (inPredicate) = true := by
  simp [inPredicate, P.consumes, consumes_anyKw]
@[simp] theorem wf_inPredicate_2 : P.wf rank 4 2 (inPredicate) = true := by
  simp [inPredicate, P.wf, P.consumes, rank]
@[simp] theorem wf_inPredicate_3 : P.wf rank 4 3 (inPredicate) = true := by
  simp [inPredicate, P.wf, P.consumes, rank]
@[simp] theorem wf_inPredicate_4 : P.wf rank 4 4 (inPredicate) = true := by
  simp [inPredicate, P.wf, P.consumes, rank]
@[simp] theorem consumes_nullPredicate : P.consumes (nullPredicate) = true := by
  simp [nullPredicate, P.consumes, consumes_anyKw]
@[simp] theorem wf_nullPredicate_2 : P.wf rank 4 2 (nullPredicate) = true := by
  simp [nullPredicate, P.wf, P.consumes, rank]
@[simp] theorem wf_nullPredicate_3 : P.wf rank 4 3 (nullPredicate) = true := by
  simp [nullPredicate, P.wf, P.consumes, rank]
@[simp] theorem wf_nullPredicate_4 : P.wf rank 4 4 (nullPredicate) = true := by
  simp [nullPredicate, P.wf, P.consumes, rank]
@[simp] theorem consumes_likePredicate : P.consumes (likePredicate) = true := by
  simp [likePredicate, P.consumes, consumes_anyKw]
@[simp] theorem wf_likePredicate_2 : P.wf rank 4 2 (likePredicate) = true := by
  simp [likePredicate, P.wf, P.consumes, rank]
@[simp] theorem wf_likePredicate_3 : P.wf rank 4 3 (likePredicate) = true := by
  simp [likePredicate, P.wf, P.consumes, rank]
@[simp] theorem wf_likePredicate_4 : P.wf rank 4 4 (likePredicate) = true := by
  simp [likePredicate, P.wf, P.consumes, rank]
@[simp] theorem consumes_existsPredicate : P.consumes (existsPredicate) = true := by
  simp [existsPredicate, P.consumes, consumes_anyKw]
@[simp] theorem wf_existsPredicate (b : Nat) : P.wf rank 4 b (existsPredicate) = true := by
  simp [existsPredicate, P.wf, P.consumes, rank]
@[simp] theorem consumes_predicate : P.consumes (predicate) = true := by
  simp [predicate, P.consumes, consumes_anyKw]
@[simp] theorem wf_predicate_2 : P.wf rank 4 2 (predicate) = true := by
  simp [predicate, P.wf, P.consumes, rank]
@[simp] theorem wf_predicate_3 : P.wf rank 4 3 (predicate) = true := by
  simp [predicate, P.wf, P.consumes, rank]
@[simp] theorem wf_predicate_4 : P.wf rank 4 4 (predicate) = true := by
  simp [predicate, P.wf, P.consumes, rank]
@[simp] theorem consumes_booleanPrimary : P.consumes (booleanPrimary) = true := by
  simp [booleanPrimary, P.consumes, consumes_anyKw]
@[simp] theorem wf_booleanPrimary_2 : P.wf rank 4 2 (booleanPrimary) = true := by
  simp [booleanPrimary, P.wf, P.consumes, rank]
@[simp] theorem wf_booleanPrimary_3 : P.wf rank 4 3 (booleanPrimary) = true := by
  simp [booleanPrimary, P.wf, P.consumes, rank]
@[simp] theorem wf_booleanPrimary_4 : P.wf rank 4 4 (booleanPrimary) = true := by
  simp [booleanPrimary, P.wf, P.consumes, rank]
@[simp] theorem consumes_factorNot (residue : Bool) : P.consumes (factorNot residue) = false := by
  cases residue <;> simp [factorNot, P.consumes, consumes_anyKw]
@[simp] theorem wf_factorNot (residue : Bool) (b : Nat) : P.wf rank 4 b (factorNot residue) = true := by
  cases residue <;> simp [factorNot, P.wf, P.consumes, rank]
@[simp] theorem consumes_booleanFactor (residue : Bool) : P.consumes (booleanFactor residue) = true := by
  simp [booleanFactor, P.consumes, consumes_anyKw]
@[simp] theorem wf_booleanFactor_2 (residue : Bool) : P.wf rank 4 2 (booleanFactor residue) = true := by
  simp [booleanFactor, P.wf, P.consumes, rank]
@[simp] theorem wf_booleanFactor_3 (residue : Bool) : P.wf rank 4 3 (booleanFactor residue) = true := by
  simp [booleanFactor, P.wf, P.consumes, rank]
@[simp] theorem wf_booleanFactor_4 (residue : Bool) : P.wf rank 4 4 (booleanFactor residue) = true := by
  simp [booleanFactor, P.wf, P.consumes, rank]
@[simp] theorem consumes_logicalOp : P.consumes (logicalOp) = true := by
  simp [logicalOp, P.consumes, consumes_anyKw]
@[simp] theorem wf_logicalOp (b : Nat) : P.wf rank 4 b (logicalOp) = true := by
  simp [logicalOp, P.wf, P.consumes, rank]
@[simp] theorem consumes_scBody (residue : Bool) : P.consumes (scBody residue) = true := by
  simp [scBody, P.consumes, consumes_anyKw]
@[simp] theorem wf_scBody_2 (residue : Bool) : P.wf rank 4 2 (scBody residue) = true := by
  simp [scBody, P.wf, P.consumes, rank]
@[simp] theorem wf_scBody_3 (residue : Bool) : P.wf rank 4 3 (scBody residue) = true := by
  simp [scBody, P.wf, P.consumes, rank]
@[simp] theorem wf_scBody_4 (residue : Bool) : P.wf rank 4 4 (scBody residue) = true := by
  simp [scBody, P.wf, P.consumes, rank]
@[simp] theorem consumes_correlationSpecification : P.consumes (correlationSpecification) = true := by
  simp [correlationSpecification, P.consumes, consumes_anyKw]
@[simp] theorem wf_correlationSpecification (b : Nat) : P.wf rank 4 b (correlationSpecification) = true := by
  simp [correlationSpecification, P.wf, P.consumes, rank]
@[simp] theorem consumes_tableCorrelation : P.consumes (tableCorrelation) = true := by
  simp [tableCorrelation, P.consumes, consumes_anyKw]
@[simp] theorem wf_tableCorrelation_1 : P.wf rank 4 1 (tableCorrelation) = true := by
  simp [tableCorrelation, P.wf, P.consumes, rank]
@[simp] theorem wf_tableCorrelation_2 : P.wf rank 4 2 (tableCorrelation) = true := by
  simp [tableCorrelation, P.wf, P.consumes, rank]
@[simp] theorem wf_tableCorrelation_3 : P.wf rank 4 3 (tableCorrelation) = true := by
  simp [tableCorrelation, P.wf, P.consumes, rank]
@[simp] theorem wf_tableCorrelation_4 : P.wf rank 4 4 (tableCorrelation) = true := by
  simp [tableCorrelation, P.wf, P.consumes, rank]
@[simp] theorem consumes_joinType : P.consumes (joinType) = true := by
  simp [joinType, P.consumes, consumes_anyKw]
@[simp] theorem wf_joinType (b : Nat) : P.wf rank 4 b (joinType) = true := by
  simp [joinType, P.wf, P.consumes, rank]
@[simp] theorem consumes_joinSpecification : P.consumes (joinSpecification) = true := by
  simp [joinSpecification, P.consumes, consumes_anyKw]
@[simp] theorem wf_joinSpecification (b : Nat) : P.wf rank 4 b (joinSpecification) = true := by
  simp [joinSpecification, P.wf, P.consumes, rank]
@[simp] theorem consumes_joinSuffix : P.consumes (joinSuffix) = true := by
  simp [joinSuffix, P.consumes, consumes_anyKw]
@[simp] theorem wf_joinSuffix (b : Nat) : P.wf rank 4 b (joinSuffix) = true := by
  simp [joinSuffix, P.wf, P.consumes, rank]
@[simp] theorem consumes_parenJoined : P.consumes (parenJoined) = true := by
  simp [parenJoined, P.consumes, consumes_anyKw]
@[simp] theorem wf_parenJoined (b : Nat) : P.wf rank 4 b (parenJoined) = true := by
  simp [parenJoined, P.wf, P.consumes, rank]
@[simp] theorem consumes_qualifiedJoin : P.consumes (qualifiedJoin) = true := by
  simp [qualifiedJoin, P.consumes, consumes_anyKw]
@[simp] theorem wf_qualifiedJoin_1 : P.wf rank 4 1 (qualifiedJoin) = true := by
  simp [qualifiedJoin, P.wf, P.consumes, rank]
@[simp] theorem wf_qualifiedJoin_2 : P.wf rank 4 2 (qualifiedJoin) = true := by
  simp [qualifiedJoin, P.wf, P.consumes, rank]
@[simp] theorem wf_qualifiedJoin_3 : P.wf rank 4 3 (qualifiedJoin) = true := by
  simp [qualifiedJoin, P.wf, P.consumes, rank]
@[simp] theorem wf_qualifiedJoin_4 : P.wf rank 4 4 (qualifiedJoin) = true := by
  simp [qualifiedJoin, P.wf, P.consumes, rank]
@[simp] theorem consumes_jtBody : P.consumes (jtBody) = true := by
  simp [jtBody, P.consumes, consumes_anyKw]
@[simp] theorem wf_jtBody_1 : P.wf rank 4 1 (jtBody) = true := by
  simp [jtBody, P.wf, P.consumes, rank]
@[simp] theorem wf_jtBody_2 : P.wf rank 4 2 (jtBody) = true := by
  simp [jtBody, P.wf, P.consumes, rank]
@[simp] theorem wf_jtBody_3 : P.wf rank 4 3 (jtBody) = true := by
  simp [jtBody, P.wf, P.consumes, rank]
@[simp] theorem wf_jtBody_4 : P.wf rank 4 4 (jtBody) = true := by
  simp [jtBody, P.wf, P.consumes, rank]
@[simp] theorem consumes_derivedCorrelation : P.consumes (derivedCorrelation) = true := by
  simp [derivedCorrelation, P.consumes, consumes_anyKw]
@[simp] theorem wf_derivedCorrelation_1 : P.wf rank 4 1 (derivedCorrelation) = true := by
  simp [derivedCorrelation, P.wf, P.consumes, rank]
@[simp] theorem wf_derivedCorrelation_2 : P.wf rank 4 2 (derivedCorrelation) = true := by
  simp [derivedCorrelation, P.wf, P.consumes, rank]
@[simp] theorem wf_derivedCorrelation_3 : P.wf rank 4 3 (derivedCorrelation) = true := by
  simp [derivedCorrelation, P.wf, P.consumes, rank]
@[simp] theorem wf_derivedCorrelation_4 : P.wf rank 4 4 (derivedCorrelation) = true := by
  simp [derivedCorrelation, P.wf, P.consumes, rank]
@[simp] theorem consumes_tableValuedFunction : P.consumes (tableValuedFunction) = true := by
  simp [tableValuedFunction, P.consumes, consumes_anyKw]
@[simp] theorem wf_tableValuedFunction (b : Nat) : P.wf rank 4 b (tableValuedFunction) = true := by
  simp [tableValuedFunction, P.wf, P.consumes, rank]
@[simp] theorem consumes_trBody : P.consumes (trBody) = true := by
  simp [trBody, P.consumes, consumes_anyKw]
@[simp] theorem wf_trBody_2 : P.wf rank 4 2 (trBody) = true := by
  simp [trBody, P.wf, P.consumes, rank]
@[simp] theorem wf_trBody_3 : P.wf rank 4 3 (trBody) = true := by
  simp [trBody, P.wf, P.consumes, rank]
@[simp] theorem wf_trBody_4 : P.wf rank 4 4 (trBody) = true := by
  simp [trBody, P.wf, P.consumes, rank]
@[simp] theorem consumes_fromClause : P.consumes (fromClause) = true := by
  simp [fromClause, P.consumes, consumes_anyKw]
@[simp] theorem wf_fromClause (b : Nat) : P.wf rank 4 b (fromClause) = true := by
  simp [fromClause, P.wf, P.consumes, rank]
@[simp] theorem consumes_asItem : P.consumes (asItem) = true := by
  simp [asItem, P.consumes, consumes_anyKw]
@[simp] theorem wf_asItem_4 : P.wf rank 4 4 (asItem) = true := by
  simp [asItem, P.wf, P.consumes, rank]
@[simp] theorem consumes_qualifierStar : P.consumes (qualifierStar) = true := by
  simp [qualifierStar, P.consumes, consumes_anyKw]
@[simp] theorem wf_qualifierStar_1 : P.wf rank 4 1 (qualifierStar) = true := by
  simp [qualifierStar, P.wf, P.consumes, rank]
@[simp] theorem wf_qualifierStar_2 : P.wf rank 4 2 (qualifierStar) = true := by
  simp [qualifierStar, P.wf, P.consumes, rank]
@[simp] theorem wf_qualifierStar_3 : P.wf rank 4 3 (qualifierStar) = true := by
  simp [qualifierStar, P.wf, P.consumes, rank]
@[simp] theorem wf_qualifierStar_4 : P.wf rank 4 4 (qualifierStar) = true := by
  simp [qualifierStar, P.wf, P.consumes, rank]
@[simp] theorem consumes_selectItem : P.consumes (selectItem) = true := by
  simp [selectItem, P.consumes, consumes_anyKw]
@[simp] theorem wf_selectItem_4 : P.wf rank 4 4 (selectItem) = true := by
  simp [selectItem, P.wf, P.consumes, rank]
@[simp] theorem consumes_columns : P.consumes (columns) = true := by
  simp [columns, P.consumes, consumes_anyKw]
@[simp] theorem wf_columns_4 : P.wf rank 4 4 (columns) = true := by
  simp [columns, P.wf, P.consumes, rank]
@[simp] theorem consumes_ulongLong : P.consumes (ulongLong) = true := by
  simp [ulongLong, P.consumes, consumes_anyKw]
@[simp] theorem wf_ulongLong (b : Nat) : P.wf rank 4 b (ulongLong) = true := by
  simp [ulongLong, P.wf, P.consumes, rank]
@[simp] theorem consumes_topClause : P.consumes (topClause) = false := by
  simp [topClause, P.consumes, consumes_anyKw]
@[simp] theorem wf_topClause (b : Nat) : P.wf rank 4 b (topClause) = true := by
  simp [topClause, P.wf, P.consumes, rank]
@[simp] theorem consumes_select : P.consumes (select) = true := by
  simp [select, P.consumes, consumes_anyKw]
@[simp] theorem wf_select (b : Nat) : P.wf rank 4 b (select) = true := by
  simp [select, P.wf, P.consumes, rank]
@[simp] theorem consumes_whereClause : P.consumes (whereClause) = true := by
  simp [whereClause, P.consumes, consumes_anyKw]
@[simp] theorem wf_whereClause (b : Nat) : P.wf rank 4 b (whereClause) = true := by
  simp [whereClause, P.wf, P.consumes, rank]
@[simp] theorem consumes_whereNoGeometry : P.consumes (whereNoGeometry) = true := by
  simp [whereNoGeometry, P.consumes, consumes_anyKw]
@[simp] theorem wf_whereNoGeometry (b : Nat) : P.wf rank 4 b (whereNoGeometry) = true := by
  simp [whereNoGeometry, P.wf, P.consumes, rank]
@[simp] theorem consumes_unionOp : P.consumes (unionOp) = true := by
  simp [unionOp, P.consumes, consumes_anyKw]
@[simp] theorem wf_unionOp (b : Nat) : P.wf rank 4 b (unionOp) = true := by
  simp [unionOp, P.wf, P.consumes, rank]
@[simp] theorem consumes_groupByTerm : P.consumes (groupByTerm) = true := by
  simp [groupByTerm, P.consumes, consumes_anyKw]
@[simp] theorem wf_groupByTerm_4 : P.wf rank 4 4 (groupByTerm) = true := by
  simp [groupByTerm, P.wf, P.consumes, rank]
@[simp] theorem consumes_groupBy : P.consumes (groupBy) = true := by
  simp [groupBy, P.consumes, consumes_anyKw]
@[simp] theorem wf_groupBy (b : Nat) : P.wf rank 4 b (groupBy) = true := by
  simp [groupBy, P.wf, P.consumes, rank]
@[simp] theorem consumes_having : P.consumes (having) = true := by
  simp [having, P.consumes, consumes_anyKw]
@[simp] theorem wf_having (b : Nat) : P.wf rank 4 b (having) = true := by
  simp [having, P.wf, P.consumes, rank]
@[simp] theorem consumes_sortSpecification : P.consumes (sortSpecification) = true := by
  simp [sortSpecification, P.consumes, consumes_anyKw]
@[simp] theorem wf_sortSpecification_1 : P.wf rank 4 1 (sortSpecification) = true := by
  simp [sortSpecification, P.wf, P.consumes, rank]
@[simp] theorem wf_sortSpecification_2 : P.wf rank 4 2 (sortSpecification) = true := by
  simp [sortSpecification, P.wf, P.consumes, rank]
@[simp] theorem wf_sortSpecification_3 : P.wf rank 4 3 (sortSpecification) = true := by
  simp [sortSpecification, P.wf, P.consumes, rank]
@[simp] theorem wf_sortSpecification_4 : P.wf rank 4 4 (sortSpecification) = true := by
  simp [sortSpecification, P.wf, P.consumes, rank]
@[simp] theorem consumes_orderBy : P.consumes (orderBy) = true := by
  simp [orderBy, P.consumes, consumes_anyKw]
@[simp] theorem wf_orderBy (b : Nat) : P.wf rank 4 b (orderBy) = true := by
  simp [orderBy, P.wf, P.consumes, rank]
@[simp] theorem consumes_withClause : P.consumes (withClause) = true := by
  simp [withClause, P.consumes, consumes_anyKw]
@[simp] theorem wf_withClause (b : Nat) : P.wf rank 4 b (withClause) = true := by
  simp [withClause, P.wf, P.consumes, rank]
@[simp] theorem consumes_query : P.consumes (query) = true := by
  simp [query, P.consumes, consumes_anyKw]
@[simp] theorem wf_query (b : Nat) : P.wf rank 4 b (query) = true := by
  simp [query, P.wf, P.consumes, rank]
@[simp] theorem consumes_queryNoGeometry : P.consumes (queryNoGeometry) = true := by
  simp [queryNoGeometry, P.consumes, consumes_anyKw]
@[simp] theorem wf_queryNoGeometry (b : Nat) : P.wf rank 4 b (queryNoGeometry) = true := by
  simp [queryNoGeometry, P.wf, P.consumes, rank]
@[simp] theorem consumes_subqBody : P.consumes (subqBody) = true := by
  simp [subqBody, P.consumes, consumes_anyKw]
@[simp] theorem wf_subqBody (b : Nat) : P.wf rank 4 b (subqBody) = true := by
  simp [subqBody, P.wf, P.consumes, rank]

end WF

open WF in
theorem grammar_wf (cfg : Config) : WellFormed (grammar cfg) rank 4 where
  consumes := by intro n; cases n <;> simp [grammar]
  wf := by intro n; cases n <;> simp [grammar, rank]
  rank_lt := by intro n; cases n <;> decide

theorem query_wf : P.wf rank 4 4 query = true := WF.wf_query _

/-- The meaning of the recursive rules of the ADQL grammar. -/
abbrev D (cfg : Config) : (n : Rule) → Bool → Str → Res (Attr n) := den (grammar cfg) 4

/-- The meaning of an ADQL parser expression. -/
abbrev parse (cfg : Config) {α : Type} (p : G α) (sk : Bool) (s : Str) : Res α :=
  step (D cfg) p sk s

theorem parse_nt (cfg : Config) (n : Rule) (sk : Bool) (s : Str) :
    parse cfg (.nt n) sk s = parse cfg (grammar cfg n) sk s := den_eq (grammar_wf cfg) n sk s

theorem parse_suffix {cfg : Config} {α : Type} {p : G α} {sk : Bool} {s : Str} {a : α} {r : Str}
    (h : parse cfg p sk s = .ok a r) : r <:+ s := step_suffix den_suffix p sk s a r h

theorem parse_err_suffix {cfg : Config} {α : Type} {p : G α} {sk : Bool} {s : Str} {w : String}
    {r : Str} (h : parse cfg p sk s = .err (.expect w r)) : r <:+ s :=
  step_err_suffix den_suffix den_err_suffix p sk s w r h

theorem D_consumes (cfg : Config) (n : Rule) (sk : Bool) (s : Str) (a : Attr n) (r : Str)
    (h : D cfg n sk s = .ok a r) : r.length < s.length :=
  run_consumes (grammar_wf cfg).consumes _ n sk s a r h

theorem parse_consumes {cfg : Config} {α : Type} {p : G α} (hp : p.consumes = true) {sk : Bool}
    {s : Str} {a : α} {r : Str} (h : parse cfg p sk s = .ok a r) : r.length < s.length :=
  step_consumes den_suffix (D_consumes cfg) p hp sk s a r h

/-- Every well-formed expression ends on every input. -/
theorem parse_not_oof {cfg : Config} {α : Type} {p : G α} (hp : P.wf rank 4 4 p = true) {sk : Bool}
    {s : Str} : parse cfg p sk s ≠ .oof :=
  step_not_oof den_suffix (D_consumes cfg) p 4 hp sk s
    (fun n sk' t _ => den_not_oof (grammar_wf cfg) n sk' t)

/-- The fuel given by `parseQuery` suffices. -/
theorem parseQuery_eq (cfg : Config) (s : Str) : parseQuery cfg s = parse cfg query true s := by
  apply step_run_eq_den (grammar_wf cfg)
  refine step_not_oof (run_suffix _ _) (run_consumes (grammar_wf cfg).consumes _) query 4
    query_wf true s (fun n sk' t ht => run_not_oof (grammar_wf cfg) _ n sk' t ?_)
  have := (grammar_wf cfg).rank_lt n
  unfold fuelFor
  omega

end Adql
