import Verif.Peg.Head
import Verif.Model.WF

/-!
# Every rule pre-skips

Lemmas per rule: blanks in front of the text make no difference.  Rules that begin with an expectation point
(`xOpen`, `xClose`, ...) or with `no_skip` are never first in another rule and have no lemma.
-/

namespace Adql

set_option linter.unusedSimpArgs false

namespace HeadOK

attribute [local simp] kw sym chS cat manyS plusS optS failP andSpace andNsSpace word wordX ve venb sc subq jt tr tap P.opt P.optD P.plus P.seqL P.seqR P.sepBy P.diff fnHead shapeHead sfwWith sfwList queryWith

theorem headOK_anyKw : ∀ {ws : List Str}, (ws.all fun w => !w.isEmpty) = true →
    P.headOK (anyKw ws) = true
  | [], _ => rfl
  | w :: ws, h => by
    simp only [List.all_cons, Bool.and_eq_true] at h
    simp only [anyKw, P.headOK, kw, h.1, headOK_anyKw h.2, Bool.and_self]

@[simp] theorem headOK_keyword : P.headOK (keyword) = true := by
  simp [keyword, P.headOK, P.consumes, WF.consumes_anyKw]
@[simp] theorem headOK_allIdentifiers : P.headOK (allIdentifiers) = true := by
  simp [allIdentifiers, P.headOK, P.consumes, WF.consumes_anyKw]
@[simp] theorem headOK_regularIdentifier : P.headOK (regularIdentifier) = true := by
  simp [regularIdentifier, P.headOK, P.consumes, WF.consumes_anyKw]
@[simp] theorem headOK_pqIdentifier : P.headOK (pqIdentifier) = true := by
  simp [pqIdentifier, P.headOK, P.consumes, WF.consumes_anyKw]
@[simp] theorem headOK_delimitedPart : P.headOK (delimitedPart) = true := by
  simp [delimitedPart, P.headOK, P.consumes, WF.consumes_anyKw]
@[simp] theorem headOK_delimitedIdentifier : P.headOK (delimitedIdentifier) = true := by
  simp [delimitedIdentifier, P.headOK, P.consumes, WF.consumes_anyKw]
@[simp] theorem headOK_identifier : P.headOK (identifier) = true := by
  simp [identifier, P.headOK, P.consumes, WF.consumes_anyKw]
@[simp] theorem headOK_period : P.headOK (period) = true := by
  simp [period, P.headOK, P.consumes, WF.consumes_anyKw]
@[simp] theorem headOK_tapUploadIdentifier (cfg : Config) : P.headOK (tapUploadIdentifier cfg) = true := by
  simp [tapUploadIdentifier, P.headOK, P.consumes, WF.consumes_anyKw]
@[simp] theorem headOK_tapUpload (cfg : Config) : P.headOK (tapUpload cfg) = true := by
  simp [tapUpload, P.headOK, P.consumes, WF.consumes_anyKw]
@[simp] theorem headOK_tableName : P.headOK (tableName) = true := by
  simp [tableName, P.headOK, P.consumes, WF.consumes_anyKw]
@[simp] theorem headOK_columnReference : P.headOK (columnReference) = true := by
  simp [columnReference, P.headOK, P.consumes, WF.consumes_anyKw]
@[simp] theorem headOK_unsignedInteger : P.headOK (unsignedInteger) = true := by
  simp [unsignedInteger, P.headOK, P.consumes, WF.consumes_anyKw]
@[simp] theorem headOK_exactNumeric : P.headOK (exactNumeric) = true := by
  simp [exactNumeric, P.headOK, P.consumes, WF.consumes_anyKw]
@[simp] theorem headOK_sign : P.headOK (sign) = true := by
  simp [sign, P.headOK, P.consumes, WF.consumes_anyKw]
@[simp] theorem headOK_signedInteger : P.headOK (signedInteger) = true := by
  simp [signedInteger, P.headOK, P.consumes, WF.consumes_anyKw]
@[simp] theorem headOK_approxNumeric : P.headOK (approxNumeric) = true := by
  simp [approxNumeric, P.headOK, P.consumes, WF.consumes_anyKw]
@[simp] theorem headOK_unsignedNumeric : P.headOK (unsignedNumeric) = true := by
  simp [unsignedNumeric, P.headOK, P.consumes, WF.consumes_anyKw]
@[simp] theorem headOK_charRep : P.headOK (charRep) = true := by
  simp [charRep, P.headOK, P.consumes, WF.consumes_anyKw]
@[simp] theorem headOK_quote : P.headOK (quote) = true := by
  simp [quote, P.headOK, P.consumes, WF.consumes_anyKw]
@[simp] theorem headOK_comment : P.headOK (comment) = true := by
  simp [comment, P.headOK, P.consumes, WF.consumes_anyKw]
@[simp] theorem headOK_separator : P.headOK (separator) = true := by
  simp [separator, P.headOK, P.consumes, WF.consumes_anyKw]
@[simp] theorem headOK_charString : P.headOK (charString) = true := by
  simp [charString, P.headOK, P.consumes, WF.consumes_anyKw]
@[simp] theorem headOK_booleanLiteral : P.headOK (booleanLiteral) = true := by
  simp [booleanLiteral, P.headOK, P.consumes, WF.consumes_anyKw]
@[simp] theorem headOK_generalLiteral : P.headOK (generalLiteral) = true := by
  simp [generalLiteral, P.headOK, P.consumes, WF.consumes_anyKw]
@[simp] theorem headOK_unsignedLiteral : P.headOK (unsignedLiteral) = true := by
  simp [unsignedLiteral, P.headOK, P.consumes, WF.consumes_anyKw]
@[simp] theorem headOK_double : P.headOK (double) = true := by
  simp [double, P.headOK, P.consumes, WF.consumes_anyKw]
@[simp] theorem headOK_referenceFrame : P.headOK (referenceFrame) = true := by
  simp [referenceFrame, P.headOK, P.consumes, WF.consumes_anyKw]
@[simp] theorem headOK_referencePosition : P.headOK (referencePosition) = true := by
  simp [referencePosition, P.headOK, P.consumes, WF.consumes_anyKw]
@[simp] theorem headOK_coordSys : P.headOK (coordSys) = true := by
  simp [coordSys, P.headOK, P.consumes, WF.consumes_anyKw]
@[simp] theorem headOK_optCoordSys : P.headOK (optCoordSys) = true := by
  simp [optCoordSys, P.headOK, P.consumes, WF.consumes_anyKw]
@[simp] theorem headOK_arithOp : P.headOK (arithOp) = true := by
  simp [arithOp, P.headOK, P.consumes, WF.consumes_anyKw]
@[simp] theorem headOK_coordExpr : P.headOK (coordExpr) = true := by
  simp [coordExpr, P.headOK, P.consumes, WF.consumes_anyKw]
@[simp] theorem headOK_coord : P.headOK (coord) = true := by
  simp [coord, P.headOK, P.consumes, WF.consumes_anyKw]
@[simp] theorem headOK_point : P.headOK (point) = true := by
  simp [point, P.headOK, P.consumes, WF.consumes_anyKw]
@[simp] theorem headOK_circle : P.headOK (circle) = true := by
  simp [circle, P.headOK, P.consumes, WF.consumes_anyKw]
@[simp] theorem headOK_ellipse : P.headOK (ellipse) = true := by
  simp [ellipse, P.headOK, P.consumes, WF.consumes_anyKw]
@[simp] theorem headOK_box : P.headOK (box) = true := by
  simp [box, P.headOK, P.consumes, WF.consumes_anyKw]
@[simp] theorem headOK_polygon : P.headOK (polygon) = true := by
  simp [polygon, P.headOK, P.consumes, WF.consumes_anyKw]
@[simp] theorem headOK_shape : P.headOK (shape) = true := by
  simp [shape, P.headOK, P.consumes, WF.consumes_anyKw]
@[simp] theorem headOK_pointOrColumn : P.headOK (pointOrColumn) = true := by
  simp [pointOrColumn, P.headOK, P.consumes, WF.consumes_anyKw]
@[simp] theorem headOK_shapeOrColumn : P.headOK (shapeOrColumn) = true := by
  simp [shapeOrColumn, P.headOK, P.consumes, WF.consumes_anyKw]
@[simp] theorem headOK_contains : P.headOK (contains) = true := by
  simp [contains, P.headOK, P.consumes, WF.consumes_anyKw]
@[simp] theorem headOK_intersects : P.headOK (intersects) = true := by
  simp [intersects, P.headOK, P.consumes, WF.consumes_anyKw]
@[simp] theorem headOK_charFlag : P.headOK (charFlag) = true := by
  simp [charFlag, P.headOK, P.consumes, WF.consumes_anyKw]
@[simp] theorem headOK_geomPred : P.headOK (geomPred) = true := by
  simp [geomPred, P.headOK, P.consumes, WF.consumes_anyKw]
@[simp] theorem headOK_geometry : P.headOK (geometry) = true := by
  simp [geometry, P.headOK, P.consumes, WF.consumes_anyKw]
@[simp] theorem headOK_trigNames : P.headOK (trigNames) = true := by
  simp [trigNames, P.headOK, P.consumes, WF.consumes_anyKw]
@[simp] theorem headOK_trigFunction : P.headOK (trigFunction) = true := by
  simp [trigFunction, P.headOK, P.consumes, WF.consumes_anyKw]
@[simp] theorem headOK_math0Names : P.headOK (math0Names) = true := by
  simp [math0Names, P.headOK, P.consumes, WF.consumes_anyKw]
@[simp] theorem headOK_math1Names : P.headOK (math1Names) = true := by
  simp [math1Names, P.headOK, P.consumes, WF.consumes_anyKw]
@[simp] theorem headOK_math2Names : P.headOK (math2Names) = true := by
  simp [math2Names, P.headOK, P.consumes, WF.consumes_anyKw]
@[simp] theorem headOK_mathFunction : P.headOK (mathFunction) = true := by
  simp [mathFunction, P.headOK, P.consumes, WF.consumes_anyKw]
@[simp] theorem headOK_geoFunction : P.headOK (geoFunction) = true := by
  simp [geoFunction, P.headOK, P.consumes, WF.consumes_anyKw]
@[simp] theorem headOK_castAs : P.headOK (castAs) = true := by
  simp [castAs, P.headOK, P.consumes, WF.consumes_anyKw]
@[simp] theorem headOK_castFunction : P.headOK (castFunction) = true := by
  simp [castFunction, P.headOK, P.consumes, WF.consumes_anyKw]
@[simp] theorem headOK_udfName : P.headOK (udfName) = true := by
  simp [udfName, P.headOK, P.consumes, WF.consumes_anyKw]
@[simp] theorem headOK_userDefinedFunction : P.headOK (userDefinedFunction) = true := by
  simp [userDefinedFunction, P.headOK, P.consumes, WF.consumes_anyKw]
@[simp] theorem headOK_sqlNoArgFunction : P.headOK (sqlNoArgFunction) = true := by
  simp [sqlNoArgFunction, P.headOK, P.consumes, WF.consumes_anyKw]
@[simp] theorem headOK_numericValueFunction : P.headOK (numericValueFunction) = true := by
  simp [numericValueFunction, P.headOK, P.consumes, WF.consumes_anyKw]
@[simp] theorem headOK_setFunctionType : P.headOK (setFunctionType) = true := by
  simp [setFunctionType, P.headOK, P.consumes, WF.consumes_anyKw]
@[simp] theorem headOK_setQuantifier : P.headOK (setQuantifier) = true := by
  simp [setQuantifier, P.headOK, P.consumes, WF.consumes_anyKw]
@[simp] theorem headOK_countStar : P.headOK (countStar) = true := by
  simp [countStar, P.headOK, P.consumes, WF.consumes_anyKw]
@[simp] theorem headOK_generalSetFunction : P.headOK (generalSetFunction) = true := by
  simp [generalSetFunction, P.headOK, P.consumes, WF.consumes_anyKw]
@[simp] theorem headOK_nullLiteral : P.headOK (nullLiteral) = true := by
  simp [nullLiteral, P.headOK, P.consumes, WF.consumes_anyKw]
@[simp] theorem headOK_caseResult : P.headOK (caseResult) = true := by
  simp [caseResult, P.headOK, P.consumes, WF.consumes_anyKw]
@[simp] theorem headOK_simpleWhen : P.headOK (simpleWhen) = true := by
  simp [simpleWhen, P.headOK, P.consumes, WF.consumes_anyKw]
@[simp] theorem headOK_elseClause : P.headOK (elseClause) = true := by
  simp [elseClause, P.headOK, P.consumes, WF.consumes_anyKw]
@[simp] theorem headOK_simpleCase : P.headOK (simpleCase) = true := by
  simp [simpleCase, P.headOK, P.consumes, WF.consumes_anyKw]
@[simp] theorem headOK_searchedWhen : P.headOK (searchedWhen) = true := by
  simp [searchedWhen, P.headOK, P.consumes, WF.consumes_anyKw]
@[simp] theorem headOK_searchedCase : P.headOK (searchedCase) = true := by
  simp [searchedCase, P.headOK, P.consumes, WF.consumes_anyKw]
@[simp] theorem headOK_caseSpecification : P.headOK (caseSpecification) = true := by
  simp [caseSpecification, P.headOK, P.consumes, WF.consumes_anyKw]
@[simp] theorem headOK_nullif : P.headOK (nullif) = true := by
  simp [nullif, P.headOK, P.consumes, WF.consumes_anyKw]
@[simp] theorem headOK_coalesce : P.headOK (coalesce) = true := by
  simp [coalesce, P.headOK, P.consumes, WF.consumes_anyKw]
@[simp] theorem headOK_caseExpression : P.headOK (caseExpression) = true := by
  simp [caseExpression, P.headOK, P.consumes, WF.consumes_anyKw]
@[simp] theorem headOK_anyExpression : P.headOK (anyExpression) = true := by
  simp [anyExpression, P.headOK, P.consumes, WF.consumes_anyKw]
@[simp] theorem headOK_valueSubexpression : P.headOK (valueSubexpression) = true := by
  simp [valueSubexpression, P.headOK, P.consumes, WF.consumes_anyKw]
@[simp] theorem headOK_arrayIndex : P.headOK (arrayIndex) = true := by
  simp [arrayIndex, P.headOK, P.consumes, WF.consumes_anyKw]
@[simp] theorem headOK_nullCast : P.headOK (nullCast) = true := by
  simp [nullCast, P.headOK, P.consumes, WF.consumes_anyKw]
@[simp] theorem headOK_arrayConstructor : P.headOK (arrayConstructor) = true := by
  simp [arrayConstructor, P.headOK, P.consumes, WF.consumes_anyKw]
@[simp] theorem headOK_primary : P.headOK (primary) = true := by
  simp [primary, P.headOK, P.consumes, WF.consumes_anyKw]
@[simp] theorem headOK_valueExpressionPrimary : P.headOK (valueExpressionPrimary) = true := by
  simp [valueExpressionPrimary, P.headOK, P.consumes, WF.consumes_anyKw]
@[simp] theorem headOK_numericPrimary : P.headOK (numericPrimary) = true := by
  simp [numericPrimary, P.headOK, P.consumes, WF.consumes_anyKw]
@[simp] theorem headOK_factor : P.headOK (factor) = true := by
  simp [factor, P.headOK, P.consumes, WF.consumes_anyKw]
@[simp] theorem headOK_binaryOperators : P.headOK (binaryOperators) = true := by
  simp [binaryOperators, P.headOK, P.consumes, WF.consumes_anyKw]
@[simp] theorem headOK_venbTerm : P.headOK (venbTerm) = true := by
  simp [venbTerm, P.headOK, P.consumes, WF.consumes_anyKw]
@[simp] theorem headOK_venbBody : P.headOK (venbBody) = true := by
  simp [venbBody, P.headOK, P.consumes, WF.consumes_anyKw]
@[simp] theorem headOK_veBody : P.headOK (veBody) = true := by
  simp [veBody, P.headOK, P.consumes, WF.consumes_anyKw]
@[simp] theorem headOK_compOp : P.headOK (compOp) = true := by
  simp [compOp, P.headOK, P.consumes, WF.consumes_anyKw]
@[simp] theorem headOK_comparisonPredicate : P.headOK (comparisonPredicate) = true := by
  simp [comparisonPredicate, P.headOK, P.consumes, WF.consumes_anyKw]
@[simp] theorem headOK_betweenPredicate : P.headOK (betweenPredicate) = true := by
  simp [betweenPredicate, P.headOK, P.consumes, WF.consumes_anyKw]
@[simp] theorem headOK_inNot : P.headOK (inNot) = true := by
  simp [inNot, P.headOK, P.consumes, WF.consumes_anyKw]
@[simp] theorem headOK_inPredicate : P.headOK (inPredicate) = true := by
  simp [inPredicate, P.headOK, P.consumes, WF.consumes_anyKw]
@[simp] theorem headOK_nullPredicate : P.headOK (nullPredicate) = true := by
  simp [nullPredicate, P.headOK, P.consumes, WF.consumes_anyKw]
@[simp] theorem headOK_likePredicate : P.headOK (likePredicate) = true := by
  simp [likePredicate, P.headOK, P.consumes, WF.consumes_anyKw]
@[simp] theorem headOK_existsPredicate : P.headOK (existsPredicate) = true := by
  simp [existsPredicate, P.headOK, P.consumes, WF.consumes_anyKw]
@[simp] theorem headOK_predicate : P.headOK (predicate) = true := by
  simp [predicate, P.headOK, P.consumes, WF.consumes_anyKw]
@[simp] theorem headOK_booleanPrimary : P.headOK (booleanPrimary) = true := by
  simp [booleanPrimary, P.headOK, P.consumes, WF.consumes_anyKw]
@[simp] theorem headOK_factorNot (residue : Bool) : P.headOK (factorNot residue) = true := by
  cases residue <;> simp [factorNot, P.headOK, P.consumes, WF.consumes_anyKw]
@[simp] theorem headOK_booleanFactor (residue : Bool) : P.headOK (booleanFactor residue) = true := by
  simp [booleanFactor, P.headOK, P.consumes, WF.consumes_anyKw]
@[simp] theorem headOK_logicalOp : P.headOK (logicalOp) = true := by
  simp [logicalOp, P.headOK, P.consumes, WF.consumes_anyKw]
@[simp] theorem headOK_scBody (residue : Bool) : P.headOK (scBody residue) = true := by
  simp [scBody, P.headOK, P.consumes, WF.consumes_anyKw]
@[simp] theorem headOK_correlationSpecification : P.headOK (correlationSpecification) = true := by
  simp [correlationSpecification, P.headOK, P.consumes, WF.consumes_anyKw]
@[simp] theorem headOK_tableCorrelation : P.headOK (tableCorrelation) = true := by
  simp [tableCorrelation, P.headOK, P.consumes, WF.consumes_anyKw]
@[simp] theorem headOK_joinType : P.headOK (joinType) = true := by
  simp [joinType, P.headOK, P.consumes, WF.consumes_anyKw]
@[simp] theorem headOK_joinSpecification : P.headOK (joinSpecification) = true := by
  simp [joinSpecification, P.headOK, P.consumes, WF.consumes_anyKw]
@[simp] theorem headOK_joinSuffix : P.headOK (joinSuffix) = true := by
  simp [joinSuffix, P.headOK, P.consumes, WF.consumes_anyKw]
@[simp] theorem headOK_parenJoined : P.headOK (parenJoined) = true := by
  simp [parenJoined, P.headOK, P.consumes, WF.consumes_anyKw]
@[simp] theorem headOK_qualifiedJoin : P.headOK (qualifiedJoin) = true := by
  simp [qualifiedJoin, P.headOK, P.consumes, WF.consumes_anyKw]
@[simp] theorem headOK_jtBody : P.headOK (jtBody) = true := by
  simp [jtBody, P.headOK, P.consumes, WF.consumes_anyKw]
@[simp] theorem headOK_derivedCorrelation : P.headOK (derivedCorrelation) = true := by
  simp [derivedCorrelation, P.headOK, P.consumes, WF.consumes_anyKw]
@[simp] theorem headOK_tableValuedFunction : P.headOK (tableValuedFunction) = true := by
  simp [tableValuedFunction, P.headOK, P.consumes, WF.consumes_anyKw]
@[simp] theorem headOK_trBody : P.headOK (trBody) = true := by
  simp [trBody, P.headOK, P.consumes, WF.consumes_anyKw]
@[simp] theorem headOK_fromClause : P.headOK (fromClause) = true := by
  simp [fromClause, P.headOK, P.consumes, WF.consumes_anyKw]
@[simp] theorem headOK_asItem : P.headOK (asItem) = true := by
  simp [asItem, P.headOK, P.consumes, WF.consumes_anyKw]
@[simp] theorem headOK_qualifierStar : P.headOK (qualifierStar) = true := by
  simp [qualifierStar, P.headOK, P.consumes, WF.consumes_anyKw]
@[simp] theorem headOK_selectItem : P.headOK (selectItem) = true := by
  simp [selectItem, P.headOK, P.consumes, WF.consumes_anyKw]
@[simp] theorem headOK_columns : P.headOK (columns) = true := by
  simp [columns, P.headOK, P.consumes, WF.consumes_anyKw]
@[simp] theorem headOK_ulongLong : P.headOK (ulongLong) = true := by
  simp [ulongLong, P.headOK, P.consumes, WF.consumes_anyKw]
@[simp] theorem headOK_topClause : P.headOK (topClause) = true := by
  simp [topClause, P.headOK, P.consumes, WF.consumes_anyKw]
@[simp] theorem headOK_select : P.headOK (select) = true := by
  simp [select, P.headOK, P.consumes, WF.consumes_anyKw]
@[simp] theorem headOK_whereClause : P.headOK (whereClause) = true := by
  simp [whereClause, P.headOK, P.consumes, WF.consumes_anyKw]
@[simp] theorem headOK_whereNoGeometry : P.headOK (whereNoGeometry) = true := by
  simp [whereNoGeometry, P.headOK, P.consumes, WF.consumes_anyKw]
@[simp] theorem headOK_unionOp : P.headOK (unionOp) = true := by
  simp [unionOp, P.headOK, P.consumes, WF.consumes_anyKw]
@[simp] theorem headOK_groupByTerm : P.headOK (groupByTerm) = true := by
  simp [groupByTerm, P.headOK, P.consumes, WF.consumes_anyKw]
@[simp] theorem headOK_groupBy : P.headOK (groupBy) = true := by
  simp [groupBy, P.headOK, P.consumes, WF.consumes_anyKw]
@[simp] theorem headOK_having : P.headOK (having) = true := by
  simp [having, P.headOK, P.consumes, WF.consumes_anyKw]
@[simp] theorem headOK_sortSpecification : P.headOK (sortSpecification) = true := by
  simp [sortSpecification, P.headOK, P.consumes, WF.consumes_anyKw]
@[simp] theorem headOK_orderBy : P.headOK (orderBy) = true := by
  simp [orderBy, P.headOK, P.consumes, WF.consumes_anyKw]
@[simp] theorem headOK_withClause : P.headOK (withClause) = true := by
  simp [withClause, P.headOK, P.consumes, WF.consumes_anyKw]
@[simp] theorem headOK_query : P.headOK (query) = true := by
  simp [query, P.headOK, P.consumes, WF.consumes_anyKw]
@[simp] theorem headOK_queryNoGeometry : P.headOK (queryNoGeometry) = true := by
  simp [queryNoGeometry, P.headOK, P.consumes, WF.consumes_anyKw]
@[simp] theorem headOK_subqBody : P.headOK (subqBody) = true := by
  simp [subqBody, P.headOK, P.consumes, WF.consumes_anyKw]

end HeadOK

open HeadOK in
theorem grammar_headOK (cfg : Config) (n : Rule) : P.headOK (grammar cfg n) = true := by
  cases n <;> simp [grammar]

theorem query_headOK : P.headOK query = true := HeadOK.headOK_query

end Adql
