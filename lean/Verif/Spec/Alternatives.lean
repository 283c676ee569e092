import Verif.Spec.Regular

/-!
# The alternatives of the variants in a query

The classes of a query hold `boost::variant`s.  `Choice` lists all alternatives of all of them, `altsOf` says which
ones a node uses.
-/

namespace Adql.Spec

/-- The alternatives of the variants, grouped by the class that holds the variant. -/
inductive Choice where
  -- Value_Expression.hxx
  | veExpression | veCondition
  -- Numeric_Primary.hxx
  | npValue | npFunction
  -- Numeric_Value_Function.hxx, Trig_Function.hxx, Math_Function.hxx, Non_Predicate_Geometry_Function.hxx
  | fnTrig1 | fnTrig2 | fnMath0 | fnMath1 | fnMath2 | fnCast | fnGeometry1 | fnGeometry2 | fnUser | fnString
  -- Value_Expression_Primary.hxx
  | prArray | prString | prColumn | prCountStar | prSetFunction | prCase | prAny | prParentheses
  -- Case_Expression.hxx, Case_Abbreviation.hxx, Case_Specification.hxx
  | caNullif | caCoalesce | caSimple | caSearched
  -- Result of Case_Specification
  | reString | reValue
  -- Search_Condition.hxx
  | scFactor | scTerm
  -- Boolean_Primary.hxx
  | bpPredicate | bpCondition | bpExpression
  -- Predicate.hxx, In_Predicate.hxx
  | pdComparison | pdBetween | pdInSubquery | pdInList | pdNull | pdLike | pdExists
  -- Subquery.hxx
  | sqJoin | sqQuery
  -- Joined_Table.hxx
  | jtJoin | jtParentheses
  -- Qualified_Join.hxx
  | qjTable | qjJoin
  -- Join_Suffix.hxx
  | tyWord | tyOuter
  | spUsing | spOn
  -- Table_Reference.hxx
  | trTable | trJoin | trSubquery | trFunction
  -- Geometry.hxx
  | gpIntersects | gpContains
  | geLeft | geRight
  -- Select_Item.hxx
  | siAs | siString | siValue
  -- Columns.hxx
  | coStar | coList
  -- Group_By_Term
  | gbColumn | gbValue
  -- Sort_Specification.hxx
  | soOrdinal | soColumn
  -- Column_Reference.hxx
  | cr4 | cr3 | cr2 | cr1
  -- Column_or_Simple_Arithmetic_Expression.hxx
  | ceArithmetic | ceColumn | ceNumber
  -- Shape.hxx
  | shPoint | shCircle | shBox | shEllipse | shPolygon
  -- Point_Or_Column.hxx, Shape_Or_Column
  | pcPoint | pcColumn | scShape | scColumn
deriving DecidableEq

/-- The alternatives that the node uses. -/
def altsOf : Node → List Choice
  | .ve (.nb _) => [.veExpression]
  | .ve (.sc _) => [.veCondition]
  | .numPrim (.vep _) => [.npValue]
  | .numPrim (.nvf _) => [.npFunction]
  | .numFn (.trig1 ..) => [.fnTrig1]
  | .numFn (.trig2 ..) => [.fnTrig2]
  | .numFn (.math0 ..) => [.fnMath0]
  | .numFn (.math1 ..) => [.fnMath1]
  | .numFn (.math2 ..) => [.fnMath2]
  | .numFn (.cast ..) => [.fnCast]
  | .numFn (.geo1 ..) => [.fnGeometry1]
  | .numFn (.geo2 ..) => [.fnGeometry2]
  | .numFn (.udf ..) => [.fnUser]
  | .numFn (.str _) => [.fnString]
  | .prim (.arr _) => [.prArray]
  | .prim (.str _) => [.prString]
  | .prim (.col _) => [.prColumn]
  | .prim (.countStar _) => [.prCountStar]
  | .prim (.setFn ..) => [.prSetFunction]
  | .prim (.case _) => [.prCase]
  | .prim (.any _) => [.prAny]
  | .prim (.sub _) => [.prParentheses]
  | .caseE (.nullif ..) => [.caNullif]
  | .caseE (.coalesce _) => [.caCoalesce]
  | .caseE (.simple ..) => [.caSimple]
  | .caseE (.searched ..) => [.caSearched]
  | .result (.str _) => [.reString]
  | .result (.ve _) => [.reValue]
  | .sc (.factor _) => [.scFactor]
  | .sc (.term ..) => [.scTerm]
  | .bp (.pred _) => [.bpPredicate]
  | .bp (.sc _) => [.bpCondition]
  | .bp (.ve _) => [.bpExpression]
  | .pred (.cmp ..) => [.pdComparison]
  | .pred (.between ..) => [.pdBetween]
  | .pred (.inSub ..) => [.pdInSubquery]
  | .pred (.inList ..) => [.pdInList]
  | .pred (.null ..) => [.pdNull]
  | .pred (.like ..) => [.pdLike]
  | .pred (.exist _) => [.pdExists]
  | .subq (.jt _) => [.sqJoin]
  | .subq (.qs _) => [.sqQuery]
  | .jt (.qj _) => [.jtJoin]
  | .jt (.wrap _) => [.jtParentheses]
  | .head (.tc _) => [.qjTable]
  | .head (.jt _) => [.qjJoin]
  | .suffix (.mk _ (.str _) _ _) => [.tyWord]
  | .suffix (.mk _ (.outer ..) _ _) => [.tyOuter]
  | .spec (.named _) => [.spUsing]
  | .spec (.on _) => [.spOn]
  | .tr (.tc _) => [.trTable]
  | .tr (.jt _) => [.trJoin]
  | .tr (.derived ..) => [.trSubquery]
  | .tr (.tvf ..) => [.trFunction]
  | .gpred (.intersects ..) => [.gpIntersects]
  | .gpred (.contains ..) => [.gpContains]
  | .geom (.left ..) => [.geLeft]
  | .geom (.right ..) => [.geRight]
  | .item (.as ..) => [.siAs]
  | .item (.nonAsStr _) => [.siString]
  | .item (.nonAsVE _) => [.siValue]
  | .columns (.star _) => [.coStar]
  | .columns (.items _) => [.coList]
  | .group (.col _) => [.gbColumn]
  | .group (.ve _) => [.gbValue]
  | .sort ⟨.inl _, _⟩ => [.soOrdinal]
  | .sort ⟨.inr _, _⟩ => [.soColumn]
  | .colRef (.csqc ..) => [.cr4]
  | .colRef (.sqc ..) => [.cr3]
  | .colRef (.qc ..) => [.cr2]
  | .colRef (.col _) => [.cr1]
  | .coordExpr (.bae ..) => [.ceArithmetic]
  | .coordExpr (.col _) => [.ceColumn]
  | .coordExpr (.num _) => [.ceNumber]
  | .shape (.point _) => [.shPoint]
  | .shape (.circle ..) => [.shCircle]
  | .shape (.box ..) => [.shBox]
  | .shape (.ellipse ..) => [.shEllipse]
  | .shape (.polygon ..) => [.shPolygon]
  | .pointOrCol (.point _) => [.pcPoint]
  | .pointOrCol (.col _) => [.pcColumn]
  | .shapeOrCol (.shape _) => [.scShape]
  | .shapeOrCol (.col _) => [.scColumn]
  | _ => []

/-- Joins in a row: a specification belongs to the last join before it that has none, and a table that can take the
joins behind it has taken them. -/
def Row : List JoinSuffix → Prop
  | [] => True
  | [x] => sufOK x
  | x :: y :: l => sufOK x ∧ (hasSpec x = true ∨ takesSuffix x = false) ∧ Row (y :: l)

/-- How values, conditions and joins are attached to each other. -/
def Attached : Node → Prop
  -- the lower bound of a BETWEEN and a pattern are no conditions
  | .pred (.between _ _ (.sc _) _) => False
  | .pred (.like _ _ (.sc _)) => False
  -- an AND or OR after a condition as a value is inside the value
  | .sc (.term b _ _) => condBF b = false
  -- a join that begins another join is in parentheses
  | .qj (.mk h ss) => (∀ q, h ≠ .jt (.qj q)) ∧ Row ss
  | _ => True

/-- The same, and a condition as a value does not begin with an expression, and no INNER follows an expression that
is a condition by itself. -/
def AttachedStrict : Node → Prop
  | .ve (.sc c) => headSC c = .none
  | .qj (.mk h ss) => (∀ q, h ≠ .jt (.qj q)) ∧ sufsOK ss
  | n => Attached n

end Adql.Spec
