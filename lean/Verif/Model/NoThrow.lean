import Verif.Peg.Rel
import Verif.Model.WF

/-!
# Which rules can throw

No rule but `tap_upload` contains a check that throws.
-/

namespace Adql

set_option linter.unusedSimpArgs false

namespace NoThrow

attribute [local simp] kw sym chS cat manyS plusS optS failP andSpace andNsSpace word wordX ve venb sc subq jt tr tap P.opt P.optD P.plus P.seqL P.seqR P.sepBy P.diff fnHead shapeHead sfwWith sfwList queryWith

@[simp] theorem noThrow_anyKw : ∀ ws, P.noThrow (anyKw ws)
  | [] => trivial
  | _ :: ws => ⟨trivial, noThrow_anyKw ws⟩

@[simp] theorem noThrow_keyword : P.noThrow (keyword) := by
  simp [keyword, P.noThrow]
@[simp] theorem noThrow_andNonId : P.noThrow (andNonId) := by
  simp [andNonId, P.noThrow]
@[simp] theorem noThrow_allIdentifiers : P.noThrow (allIdentifiers) := by
  simp [allIdentifiers, P.noThrow]
@[simp] theorem noThrow_regularIdentifier : P.noThrow (regularIdentifier) := by
  simp [regularIdentifier, P.noThrow]
@[simp] theorem noThrow_pqIdentifier : P.noThrow (pqIdentifier) := by
  simp [pqIdentifier, P.noThrow]
@[simp] theorem noThrow_delimitedPart : P.noThrow (delimitedPart) := by
  simp [delimitedPart, P.noThrow]
@[simp] theorem noThrow_delimitedIdentifier : P.noThrow (delimitedIdentifier) := by
  simp [delimitedIdentifier, P.noThrow]
@[simp] theorem noThrow_identifier : P.noThrow (identifier) := by
  simp [identifier, P.noThrow]
@[simp] theorem noThrow_period : P.noThrow (period) := by
  simp [period, P.noThrow]
@[simp] theorem noThrow_tableName : P.noThrow (tableName) := by
  simp [tableName, P.noThrow]
@[simp] theorem noThrow_columnReference : P.noThrow (columnReference) := by
  simp [columnReference, P.noThrow]
@[simp] theorem noThrow_unsignedInteger : P.noThrow (unsignedInteger) := by
  simp [unsignedInteger, P.noThrow]
@[simp] theorem noThrow_exactNumeric : P.noThrow (exactNumeric) := by
  simp [exactNumeric, P.noThrow]
@[simp] theorem noThrow_sign : P.noThrow (sign) := by
  simp [sign, P.noThrow]
@[simp] theorem noThrow_signedInteger : P.noThrow (signedInteger) := by
  simp [signedInteger, P.noThrow]
@[simp] theorem noThrow_approxNumeric : P.noThrow (approxNumeric) := by
  simp [approxNumeric, P.noThrow]
@[simp] theorem noThrow_unsignedNumeric : P.noThrow (unsignedNumeric) := by
  simp [unsignedNumeric, P.noThrow]
@[simp] theorem noThrow_charRep : P.noThrow (charRep) := by
  simp [charRep, P.noThrow]
@[simp] theorem noThrow_quote : P.noThrow (quote) := by
  simp [quote, P.noThrow]
@[simp] theorem noThrow_comment : P.noThrow (comment) := by
  simp [comment, P.noThrow]
@[simp] theorem noThrow_separator : P.noThrow (separator) := by
  simp [separator, P.noThrow]
@[simp] theorem noThrow_charString : P.noThrow (charString) := by
  simp [charString, P.noThrow]
@[simp] theorem noThrow_booleanLiteral : P.noThrow (booleanLiteral) := by
  simp [booleanLiteral, P.noThrow]
@[simp] theorem noThrow_generalLiteral : P.noThrow (generalLiteral) := by
  simp [generalLiteral, P.noThrow]
@[simp] theorem noThrow_unsignedLiteral : P.noThrow (unsignedLiteral) := by
  simp [unsignedLiteral, P.noThrow]
@[simp] theorem noThrow_double : P.noThrow (double) := by
  simp [double, P.noThrow]
@[simp] theorem noThrow_referenceFrame : P.noThrow (referenceFrame) := by
  simp [referenceFrame, P.noThrow]
@[simp] theorem noThrow_referencePosition : P.noThrow (referencePosition) := by
  simp [referencePosition, P.noThrow]
@[simp] theorem noThrow_coordSys : P.noThrow (coordSys) := by
  simp [coordSys, P.noThrow]
@[simp] theorem noThrow_optCoordSys : P.noThrow (optCoordSys) := by
  simp [optCoordSys, P.noThrow]
@[simp] theorem noThrow_arithOp : P.noThrow (arithOp) := by
  simp [arithOp, P.noThrow]
@[simp] theorem noThrow_coordExpr : P.noThrow (coordExpr) := by
  simp [coordExpr, P.noThrow]
@[simp] theorem noThrow_coord : P.noThrow (coord) := by
  simp [coord, P.noThrow]
@[simp] theorem noThrow_xCoordExpr : P.noThrow (xCoordExpr) := by
  simp [xCoordExpr, P.noThrow]
@[simp] theorem noThrow_xClose : P.noThrow (xClose) := by
  simp [xClose, P.noThrow]
@[simp] theorem noThrow_point : P.noThrow (point) := by
  simp [point, P.noThrow]
@[simp] theorem noThrow_circle : P.noThrow (circle) := by
  simp [circle, P.noThrow]
@[simp] theorem noThrow_ellipse : P.noThrow (ellipse) := by
  simp [ellipse, P.noThrow]
@[simp] theorem noThrow_box : P.noThrow (box) := by
  simp [box, P.noThrow]
@[simp] theorem noThrow_polygon : P.noThrow (polygon) := by
  simp [polygon, P.noThrow]
@[simp] theorem noThrow_shape : P.noThrow (shape) := by
  simp [shape, P.noThrow]
@[simp] theorem noThrow_pointOrColumn : P.noThrow (pointOrColumn) := by
  simp [pointOrColumn, P.noThrow]
@[simp] theorem noThrow_shapeOrColumn : P.noThrow (shapeOrColumn) := by
  simp [shapeOrColumn, P.noThrow]
@[simp] theorem noThrow_xShapeTail : P.noThrow (xShapeTail) := by
  simp [xShapeTail, P.noThrow]
@[simp] theorem noThrow_contains : P.noThrow (contains) := by
  simp [contains, P.noThrow]
@[simp] theorem noThrow_intersects : P.noThrow (intersects) := by
  simp [intersects, P.noThrow]
@[simp] theorem noThrow_charFlag : P.noThrow (charFlag) := by
  simp [charFlag, P.noThrow]
@[simp] theorem noThrow_geomPred : P.noThrow (geomPred) := by
  simp [geomPred, P.noThrow]
@[simp] theorem noThrow_geometry : P.noThrow (geometry) := by
  simp [geometry, P.noThrow]
@[simp] theorem noThrow_xOpen : P.noThrow (xOpen) := by
  simp [xOpen, P.noThrow]
@[simp] theorem noThrow_xComma : P.noThrow (xComma) := by
  simp [xComma, P.noThrow]
@[simp] theorem noThrow_xVe : P.noThrow (xVe) := by
  simp [xVe, P.noThrow]
@[simp] theorem noThrow_trigNames : P.noThrow (trigNames) := by
  simp [trigNames, P.noThrow]
@[simp] theorem noThrow_trigFunction : P.noThrow (trigFunction) := by
  simp [trigFunction, P.noThrow]
@[simp] theorem noThrow_math0Names : P.noThrow (math0Names) := by
  simp [math0Names, P.noThrow]
@[simp] theorem noThrow_math1Names : P.noThrow (math1Names) := by
  simp [math1Names, P.noThrow]
@[simp] theorem noThrow_math2Names : P.noThrow (math2Names) := by
  simp [math2Names, P.noThrow]
@[simp] theorem noThrow_mathFunction : P.noThrow (mathFunction) := by
  simp [mathFunction, P.noThrow]
@[simp] theorem noThrow_geoFunction : P.noThrow (geoFunction) := by
  simp [geoFunction, P.noThrow]
@[simp] theorem noThrow_castAs : P.noThrow (castAs) := by
  simp [castAs, P.noThrow]
@[simp] theorem noThrow_castFunction : P.noThrow (castFunction) := by
  simp [castFunction, P.noThrow]
@[simp] theorem noThrow_udfName : P.noThrow (udfName) := by
  simp [udfName, P.noThrow]
@[simp] theorem noThrow_userDefinedFunction : P.noThrow (userDefinedFunction) := by
  simp [userDefinedFunction, P.noThrow]
@[simp] theorem noThrow_sqlNoArgFunction : P.noThrow (sqlNoArgFunction) := by
  simp [sqlNoArgFunction, P.noThrow]
@[simp] theorem noThrow_numericValueFunction : P.noThrow (numericValueFunction) := by
  simp [numericValueFunction, P.noThrow]
@[simp] theorem noThrow_setFunctionType : P.noThrow (setFunctionType) := by
  simp [setFunctionType, P.noThrow]
@[simp] theorem noThrow_setQuantifier : P.noThrow (setQuantifier) := by
  simp [setQuantifier, P.noThrow]
@[simp] theorem noThrow_countStar : P.noThrow (countStar) := by
  simp [countStar, P.noThrow]
@[simp] theorem noThrow_generalSetFunction : P.noThrow (generalSetFunction) := by
  simp [generalSetFunction, P.noThrow]
@[simp] theorem noThrow_nullLiteral : P.noThrow (nullLiteral) := by
  simp [nullLiteral, P.noThrow]
@[simp] theorem noThrow_caseResult : P.noThrow (caseResult) := by
  simp [caseResult, P.noThrow]
@[simp] theorem noThrow_simpleWhen : P.noThrow (simpleWhen) := by
  simp [simpleWhen, P.noThrow]
@[simp] theorem noThrow_elseClause : P.noThrow (elseClause) := by
  simp [elseClause, P.noThrow]
@[simp] theorem noThrow_simpleCase : P.noThrow (simpleCase) := by
  simp [simpleCase, P.noThrow]
@[simp] theorem noThrow_searchedWhen : P.noThrow (searchedWhen) := by
  simp [searchedWhen, P.noThrow]
@[simp] theorem noThrow_searchedCase : P.noThrow (searchedCase) := by
  simp [searchedCase, P.noThrow]
@[simp] theorem noThrow_caseSpecification : P.noThrow (caseSpecification) := by
  simp [caseSpecification, P.noThrow]
@[simp] theorem noThrow_nullif : P.noThrow (nullif) := by
  simp [nullif, P.noThrow]
@[simp] theorem noThrow_coalesce : P.noThrow (coalesce) := by
  simp [coalesce, P.noThrow]
@[simp] theorem noThrow_caseExpression : P.noThrow (caseExpression) := by
  simp [caseExpression, P.noThrow]
@[simp] theorem noThrow_anyExpression : P.noThrow (anyExpression) := by
  simp [anyExpression, P.noThrow]
@[simp] theorem noThrow_valueSubexpression : P.noThrow (valueSubexpression) := by
  simp [valueSubexpression, P.noThrow]
@[simp] theorem noThrow_arrayIndex : P.noThrow (arrayIndex) := by
  simp [arrayIndex, P.noThrow]
@[simp] theorem noThrow_nullCast : P.noThrow (nullCast) := by
  simp [nullCast, P.noThrow]
@[simp] theorem noThrow_arrayConstructor : P.noThrow (arrayConstructor) := by
  simp [arrayConstructor, P.noThrow]
@[simp] theorem noThrow_primary : P.noThrow (primary) := by
  simp [primary, P.noThrow]
@[simp] theorem noThrow_valueExpressionPrimary : P.noThrow (valueExpressionPrimary) := by
  simp [valueExpressionPrimary, P.noThrow]
@[simp] theorem noThrow_numericPrimary : P.noThrow (numericPrimary) := by
  simp [numericPrimary, P.noThrow]
@[simp] theorem noThrow_factor : P.noThrow (factor) := by
  simp [factor, P.noThrow]
@[simp] theorem noThrow_binaryOperators : P.noThrow (binaryOperators) := by
  simp [binaryOperators, P.noThrow]
@[simp] theorem noThrow_venbTerm : P.noThrow (venbTerm) := by
  simp [venbTerm, P.noThrow]
@[simp] theorem noThrow_venbBody : P.noThrow (venbBody) := by
  simp [venbBody, P.noThrow]
@[simp] theorem noThrow_veBody : P.noThrow (veBody) := by
  simp [veBody, P.noThrow]
@[simp] theorem noThrow_compOp : P.noThrow (compOp) := by
  simp [compOp, P.noThrow]
@[simp] theorem noThrow_comparisonPredicate : P.noThrow (comparisonPredicate) := by
  simp [comparisonPredicate, P.noThrow]
@[simp] theorem noThrow_betweenPredicate : P.noThrow (betweenPredicate) := by
  simp [betweenPredicate, P.noThrow]
@[simp] theorem noThrow_inNot : P.noThrow (inNot) := by
  simp [inNot, P.noThrow]
@[simp] theorem noThrow_inPredicate : P.noThrow (inPredicate) := by
  simp [inPredicate, P.noThrow]
@[simp] theorem noThrow_nullPredicate : P.noThrow (nullPredicate) := by
  simp [nullPredicate, P.noThrow]
@[simp] theorem noThrow_likePredicate : P.noThrow (likePredicate) := by
  simp [likePredicate, P.noThrow]
@[simp] theorem noThrow_existsPredicate : P.noThrow (existsPredicate) := by
  simp [existsPredicate, P.noThrow]
@[simp] theorem noThrow_predicate : P.noThrow (predicate) := by
  simp [predicate, P.noThrow]
@[simp] theorem noThrow_booleanPrimary : P.noThrow (booleanPrimary) := by
  simp [booleanPrimary, P.noThrow]
@[simp] theorem noThrow_factorNot (residue : Bool) : P.noThrow (factorNot residue) := by
  cases residue <;> simp [factorNot, P.noThrow]
@[simp] theorem noThrow_booleanFactor (residue : Bool) : P.noThrow (booleanFactor residue) := by
  simp [booleanFactor, P.noThrow]
@[simp] theorem noThrow_logicalOp : P.noThrow (logicalOp) := by
  simp [logicalOp, P.noThrow]
@[simp] theorem noThrow_scBody (residue : Bool) : P.noThrow (scBody residue) := by
  simp [scBody, P.noThrow]
@[simp] theorem noThrow_correlationSpecification : P.noThrow (correlationSpecification) := by
  simp [correlationSpecification, P.noThrow]
@[simp] theorem noThrow_tableCorrelation : P.noThrow (tableCorrelation) := by
  simp [tableCorrelation, P.noThrow]
@[simp] theorem noThrow_joinType : P.noThrow (joinType) := by
  simp [joinType, P.noThrow]
@[simp] theorem noThrow_joinSpecification : P.noThrow (joinSpecification) := by
  simp [joinSpecification, P.noThrow]
@[simp] theorem noThrow_joinSuffix : P.noThrow (joinSuffix) := by
  simp [joinSuffix, P.noThrow]
@[simp] theorem noThrow_parenJoined : P.noThrow (parenJoined) := by
  simp [parenJoined, P.noThrow]
@[simp] theorem noThrow_qualifiedJoin : P.noThrow (qualifiedJoin) := by
  simp [qualifiedJoin, P.noThrow]
@[simp] theorem noThrow_jtBody : P.noThrow (jtBody) := by
  simp [jtBody, P.noThrow]
@[simp] theorem noThrow_derivedCorrelation : P.noThrow (derivedCorrelation) := by
  simp [derivedCorrelation, P.noThrow]
@[simp] theorem noThrow_tableValuedFunction : P.noThrow (tableValuedFunction) := by
  simp [tableValuedFunction, P.noThrow]
@[simp] theorem noThrow_trBody : P.noThrow (trBody) := by
  simp [trBody, P.noThrow]
@[simp] theorem noThrow_fromClause : P.noThrow (fromClause) := by
  simp [fromClause, P.noThrow]
@[simp] theorem noThrow_asItem : P.noThrow (asItem) := by
  simp [asItem, P.noThrow]
@[simp] theorem noThrow_qualifierStar : P.noThrow (qualifierStar) := by
  simp [qualifierStar, P.noThrow]
@[simp] theorem noThrow_selectItem : P.noThrow (selectItem) := by
  simp [selectItem, P.noThrow]
@[simp] theorem noThrow_columns : P.noThrow (columns) := by
  simp [columns, P.noThrow]
@[simp] theorem noThrow_ulongLong : P.noThrow (ulongLong) := by
  refine ⟨fun a m => ?_, by simp [P.noThrow]⟩
  dsimp only; split <;> simp
@[simp] theorem noThrow_topClause : P.noThrow (topClause) := by
  simp [topClause, P.noThrow]
@[simp] theorem noThrow_select : P.noThrow (select) := by
  simp [select, P.noThrow]
@[simp] theorem noThrow_whereClause : P.noThrow (whereClause) := by
  simp [whereClause, P.noThrow]
@[simp] theorem noThrow_whereNoGeometry : P.noThrow (whereNoGeometry) := by
  simp [whereNoGeometry, P.noThrow]
@[simp] theorem noThrow_unionOp : P.noThrow (unionOp) := by
  simp [unionOp, P.noThrow]
@[simp] theorem noThrow_groupByTerm : P.noThrow (groupByTerm) := by
  simp [groupByTerm, P.noThrow]
@[simp] theorem noThrow_groupBy : P.noThrow (groupBy) := by
  simp [groupBy, P.noThrow]
@[simp] theorem noThrow_having : P.noThrow (having) := by
  simp [having, P.noThrow]
@[simp] theorem noThrow_sortSpecification : P.noThrow (sortSpecification) := by
  simp [sortSpecification, P.noThrow]
@[simp] theorem noThrow_orderBy : P.noThrow (orderBy) := by
  simp [orderBy, P.noThrow]
@[simp] theorem noThrow_withClause : P.noThrow (withClause) := by
  simp [withClause, P.noThrow]
@[simp] theorem noThrow_query : P.noThrow (query) := by
  simp [query, P.noThrow]
@[simp] theorem noThrow_queryNoGeometry : P.noThrow (queryNoGeometry) := by
  simp [queryNoGeometry, P.noThrow]
@[simp] theorem noThrow_subqBody : P.noThrow (subqBody) := by
  simp [subqBody, P.noThrow]

end NoThrow

open NoThrow in
theorem grammar_noThrow (cfg : Config) (n : Rule) : n = .tap ∨ P.noThrow (grammar cfg n) := by
  cases n <;> simp [grammar]

theorem query_noThrow : P.noThrow query := NoThrow.noThrow_query

end Adql
