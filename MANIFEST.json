{
 "claims": [
  {
   "property": "C01",
   "status": "proved",
   "theorems": [
    "Adql.C01_construct_ends",
    "Adql.C01_fuel_irrelevant"
   ],
   "note": "Termination: no run out of fuel for any text, and more fuel never changes the outcome."
  },
  {
   "property": "C02",
   "status": "proved",
   "theorems": [
    "Adql.C02_success",
    "Adql.C02_unexpected"
   ],
   "note": ""
  },
  {
   "property": "C03",
   "status": "proved",
   "theorems": [
    "Adql.C03_errors",
    "Adql.C03_expectingSelect",
    "Adql.C03_expectingSelect_complete"
   ],
   "note": "Every error with its quoted text; 'Expecting <SELECT>' characterised."
  },
  {
   "property": "C04",
   "status": "proved",
   "theorems": [
    "Adql.C04_regular_identifier",
    "Adql.C04_otherwise_fails"
   ],
   "note": ""
  },
  {
   "property": "C05",
   "status": "partial",
   "theorems": [
    "Adql.C05_reserved_refused_partial",
    "Adql.C05_other_accepted",
    "Adql.C05_missed_accepted"
   ],
   "note": "The full statement is false of the code: TOP, INTERSECTS, ATAN2, ATAN, ASIN, AREA are accepted as identifiers (C05_missed_accepted). All other reserved words are refused in every letter case."
  },
  {
   "property": "C06",
   "status": "proved",
   "theorems": [
    "Adql.C06_delimited_identifier",
    "Adql.C06_otherwise_fails",
    "Adql.C06_identifier"
   ],
   "note": ""
  },
  {
   "property": "C07",
   "status": "proved",
   "theorems": [
    "Adql.C07_string_literal",
    "Adql.C07_otherwise_fails"
   ],
   "note": ""
  },
  {
   "property": "C08",
   "status": "proved",
   "theorems": [
    "Adql.C08_numeric_literal",
    "Adql.C08_otherwise_fails"
   ],
   "note": ""
  },
  {
   "property": "C09",
   "status": "partial",
   "theorems": [
    "Adql.C09_column_partial",
    "Adql.C09_boolean",
    "Adql.C09_timestamp",
    "Adql.C09_violated"
   ],
   "note": "False of the code: names that begin with true, false, null or current_timestamp are split (C09_violated: SELECT false_alarm is refused, SELECT falsefrom t is accepted). C09_boolean and C09_timestamp say exactly what is taken; C09_column_partial is the property for names that begin with none of the words."
  },
  {
   "property": "C10",
   "status": "proved",
   "theorems": [
    "Adql.C10_upload_ok",
    "Adql.C10_upload_unknown",
    "Adql.C10_table",
    "Adql.C10_table_verbatim",
    "Adql.C10_column"
   ],
   "note": ""
  },
  {
   "property": "C11",
   "status": "proved",
   "theorems": [
    "Adql.C11_mapping_irrelevant",
    "Adql.C11_input"
   ],
   "note": "C11_mapping_irrelevant: hypothesis on the preprocessed text. C11_input: hypothesis on the given text, which must contain no dollar sign (with one, preprocessing can create TAP_UPLOAD.; see the example)."
  },
  {
   "property": "C12",
   "status": "proved",
   "theorems": [
    "Adql.C12_extend",
    "Adql.C12_extend_outcome"
   ],
   "note": ""
  },
  {
   "property": "C13",
   "status": "proved",
   "theorems": [
    "Adql.C13_parse",
    "Adql.C13_construct",
    "Adql.C13_letter_case",
    "Adql.C13_accepted",
    "Adql.C13_tap_upload"
   ],
   "note": "For texts whose preprocessed form does not contain TAP_UPLOAD. (C13_construct); in terms of the texts given when there is no $ (C13_letter_case). The printing of doubles is a parameter that must itself not depend on letter case. C13_tap_upload: the exception is real."
  },
  {
   "property": "C14",
   "status": "proved",
   "theorems": [
    "Adql.C14_left",
    "Adql.C14_right",
    "Adql.C14_only",
    "Adql.C14_print"
   ],
   "note": ""
  },
  {
   "property": "C15",
   "status": "proved",
   "theorems": [
    "Adql.C15_nonempty",
    "Adql.C15_shown",
    "Adql.C15_present",
    "Adql.C15_empty_name"
   ],
   "note": "Under the hypothesis that the mapping has no empty name; C15_empty_name shows the hypothesis is needed."
  },
  {
   "property": "C16",
   "status": "proved",
   "theorems": [
    "Adql.C16_faithful",
    "Adql.C16_plain"
   ],
   "note": "The listed rewrites are the constructors of Spec.Edit (Spec/Text.lean); C16_plain spells out what that means for texts without any of the rewritten constructs. Assumes that the table mapping has no empty names (see C15_empty_name)."
  },
  {
   "property": "C17",
   "status": "partial",
   "theorems": [
    "Adql.C17_stars_partial",
    "Adql.C17_weights_partial",
    "Adql.C17_levels_partial",
    "Adql.C17_nan",
    "Adql.C17_mapped"
   ],
   "note": "False of the code in two corners: the argument of a signed not-a-number coordinate may contain a star that is not formatted (C17_nan), and the delimited name of an uploaded table may (C17_mapped). C17_stars_partial is the property without those; C17_weights_partial is the same for any weight of characters."
  },
  {
   "property": "C18",
   "status": "partial",
   "theorems": [
    "Adql.C18_core_language",
    "Adql.C18_core_partial",
    "Adql.C18_construct_partial",
    "Adql.C18_expression_partial",
    "Adql.C18_uploads_partial",
    "Adql.C18_regular_partial",
    "Adql.C18_stable_partial",
    "Adql.C18_accepted_partial",
    "Adql.C18_accepted_stable_partial",
    "Adql.C18_violated",
    "Adql.C18_violated_comment",
    "Adql.C18_violated_mapping"
   ],
   "note": "False of the code: a table function with an empty argument list is formatted to a text that is refused (C18_violated), so is a minus sign before a negated operand after a string (C18_violated_comment), and so is an uploaded table whose mapped name is a reserved word (C18_violated_mapping). C18_core_partial proves the property for every spelling of every query of the core language of Spec/Core.lean, C18_construct_partial for the constructor when no geometric predicate follows an AND in either text. C18_regular_partial proves it for every accepted text, in the core language or not, whose tree satisfies the node-by-node conditions of Spec/Regular.lean. C18_accepted_partial proves it for every accepted text whose tree contains none of the few constructs that Spec.Usual excludes; the other conditions of Spec.Regular are shown to hold of every tree the parser builds (Model/Origin.lean, Model/Reach.lean). Numbers in coordinates are assumed to be formatted as numbers, idempotently (FmtNum). Missing: the rest of the grammar, listed in DESIGN.md."
  },
  {
   "property": "C19",
   "status": "proved",
   "theorems": [
    "Adql.C19_value",
    "Adql.C19_too_big",
    "Adql.C19_none",
    "Adql.C19_only",
    "Adql.C19_decimal",
    "Adql.C19_print"
   ],
   "note": "Includes the finding that TOP 18446744073709551615 is kept but not printed."
  },
  {
   "property": "C20",
   "status": "proved",
   "theorems": [
    "Adql.C20_count",
    "Adql.C20_get_sfw",
    "Adql.C20_parts",
    "Adql.C20_union_op",
    "Adql.C20_is_union",
    "Adql.C20_written"
   ],
   "note": "For queries with fewer than 2^32 components (the count is a 32-bit uint)."
  },
  {
   "property": "C21",
   "status": "proved",
   "theorems": [
    "Adql.C21_combined",
    "Adql.C21_lists"
   ],
   "note": "For queries with fewer than 2^32 components."
  },
  {
   "property": "C22",
   "status": "partial",
   "theorems": [
    "Adql.C22_simple_spatial_partial",
    "Adql.C22_exact",
    "Adql.C22_violated"
   ],
   "note": "False of the code: SELECT all ... is not recognised unless written ALL in upper case (C22_violated). C22_exact says exactly when the answer is true; C22_simple_spatial_partial is the property with that case excluded."
  },
  {
   "property": "C23",
   "status": "proved",
   "theorems": [
    "Adql.C23_simplified",
    "Adql.C23_nonempty"
   ],
   "note": ""
  },
  {
   "property": "C24",
   "status": "proved",
   "theorems": [
    "Adql.C24_double_or_throw",
    "Adql.C24_rule"
   ],
   "note": ""
  },
  {
   "property": "C25",
   "status": "proved",
   "theorems": [
    "Adql.C25_check"
   ],
   "note": ""
  },
  {
   "property": "C26",
   "status": "partial",
   "theorems": [
    "Adql.C26_violated",
    "Adql.C26_witness",
    "Adql.C26_exact",
    "Adql.C26_geometry_cut"
   ],
   "note": "The property is false of the code; the violation is proved in general and for concrete pairs. C25_check is the positive result below the overflow; C26_exact characterises the check for all texts (it counts modulo 65536)."
  },
  {
   "property": "C27",
   "status": "proved",
   "theorems": [
    "Adql.C27_unchanged",
    "Adql.C27_no_geometry_after_and",
    "Adql.C27_no_geometry_word"
   ],
   "note": ""
  },
  {
   "property": "C28",
   "status": "proved",
   "theorems": [
    "Adql.C28_rewrite",
    "Adql.C28_closed",
    "Adql.C28_exact",
    "Adql.C28_cases",
    "Adql.C28_rearranged"
   ],
   "note": "C28_exact and C28_cases determine the result for every text: the leftmost place of the form and the chosen reading there."
  },
  {
   "property": "C29",
   "status": "partial",
   "theorems": [
    "Adql.C29_tail_dropped",
    "Adql.C29_violated"
   ],
   "note": "The property is false of the code; proved: the rewritten text never contains the part T."
  },
  {
   "property": "C30",
   "status": "partial",
   "theorems": [
    "Adql.C30_equivalent_partial",
    "Adql.C30_equivalent_parens_partial",
    "Adql.C30_violated",
    "Adql.C30_text",
    "Adql.C30_preprocess_partial",
    "Adql.C30_witness"
   ],
   "note": "Holds when the left condition has no OR at its outermost level; false otherwise for independent atoms."
  },
  {
   "property": "C31",
   "status": "partial",
   "theorems": [
    "Adql.C31_no_union_partial",
    "Adql.C31_violated"
   ],
   "note": "False of the code for UNION; holds when no UNION follows."
  },
  {
   "property": "C32",
   "status": "partial",
   "theorems": [
    "Adql.C32_no_dollar_partial",
    "Adql.C32_exact",
    "Adql.expands_unique",
    "Adql.C32_violated"
   ],
   "note": "False of the code for dollar signs; holds for texts without. C32_exact says what becomes of every dollar sign."
  },
  {
   "property": "C33",
   "status": "proved",
   "theorems": [
    "Adql.C33_subqueries",
    "Adql.C33_intersects_function"
   ],
   "note": ""
  },
  {
   "property": "C34",
   "status": "proved",
   "theorems": [
    "Adql.C34_ranges"
   ],
   "note": ""
  },
  {
   "property": "C35",
   "status": "proved",
   "theorems": [
    "Adql.C35_written",
    "Adql.C35_only",
    "Adql.C35_missing",
    "Adql.C35_print"
   ],
   "note": ""
  },
  {
   "property": "C36",
   "status": "proved",
   "theorems": [
    "Adql.C36_leading_blanks",
    "Adql.C36_construct",
    "Adql.C36_same_query"
   ],
   "note": "C36_leading_blanks: for the grammar, any text. C36_construct: for the constructor, texts without a dollar sign."
  },
  {
   "property": "C37",
   "status": "partial",
   "theorems": [
    "Adql.C37_negated_partial",
    "Adql.C37_exact",
    "Adql.C37_violated"
   ],
   "note": "C37_exact says when a factor is negated; C37_violated: with the attribute of a failed optional kept (Config.residue), notes > 3 is negated. C37_negated_partial is the property without residue."
  },
  {
   "property": "C38",
   "status": "proved",
   "theorems": [
    "Adql.C38_suffix",
    "Adql.C38_order",
    "Adql.C38_parens",
    "Adql.C38_faithful"
   ],
   "note": ""
  },
  {
   "property": "C39",
   "status": "proved",
   "theorems": [
    "Adql.C39_accepts",
    "Adql.C39_uploads",
    "Adql.C39_construct",
    "Adql.C39_unambiguous",
    "Adql.C39_expression",
    "Adql.C39_expression_unambiguous",
    "Adql.C39_condition"
   ],
   "note": "C39_accepts is for the parser; C39_construct is for the constructor and texts in which no geometric predicate follows an AND. The core language is Spec/Core.lean; what it leaves out is said in DESIGN.md."
  },
  {
   "property": "C40",
   "status": "partial",
   "theorems": [
    "Adql.C40_violated",
    "Adql.C40_partial"
   ],
   "note": "C40_violated: SELECT a - -b FROM t is formatted as SELECT a--b FROM t. C40_partial: no comment arises if no two minus signs outside quotes have only blanks between them."
  },
  {
   "property": "C41",
   "status": "proved",
   "theorems": [
    "Adql.C41_no_comment",
    "Adql.C41_plain"
   ],
   "note": "C41_plain is the instance without uploaded tables and geometric constraints, with numerals formatted as written."
  },
  {
   "property": "C42",
   "status": "proved",
   "theorems": [
    "Adql.C42_moved",
    "Adql.C42_same",
    "Adql.C28_rearranged"
   ],
   "note": "The conditions on the text are those of Spec.Rearranged."
  },
  {
   "property": "C43",
   "status": "partial",
   "theorems": [
    "Adql.C43_violated",
    "Adql.C43_violated_geometry",
    "Adql.C43_cut_right",
    "Adql.C43_cut_geometry"
   ],
   "note": "The property is false of the code (two witnesses); proved: how far the cut reaches, and by C28_rearranged that everything is kept if none of the words occurs."
  },
  {
   "property": "C44",
   "status": "proved",
   "theorems": [
    "Adql.C44_identifiers",
    "Adql.C44_one_argument",
    "Adql.C44_nonempty"
   ],
   "note": ""
  },
  {
   "property": "C45",
   "status": "proved",
   "theorems": [
    "Adql.C45_default",
    "Adql.C45_columns",
    "Adql.C45_print",
    "Adql.C45_not_parsed"
   ],
   "note": ""
  },
  {
   "property": "C46",
   "status": "proved",
   "theorems": [
    "Adql.C46_select",
    "Adql.C46_read",
    "Adql.C46_print",
    "Adql.C46_writes",
    "Adql.C46_component",
    "Adql.C46_emptied",
    "Adql.usable_parsed"
   ],
   "note": "A write through a reference is modelled as a function on what the reference points to."
  },
  {
   "property": "C47",
   "status": "partial",
   "theorems": [
    "Adql.C47_doubling",
    "Adql.C47_exponential",
    "Adql.C47_construct",
    "Adql.C47_not_polynomial",
    "Adql.C47_exists",
    "Adql.C47_subqueries",
    "Adql.C47_violated",
    "Adql.C47_bound",
    "Adql.C47_partial"
   ],
   "note": "The property is false of the code (C47_not_polynomial). Proved: exponential lower bound for all core conditions in parentheses, a bound for all texts, and a polynomial bound for every fixed nesting depth of rule calls. Only calls of the recursive rules are counted."
  },
  {
   "property": "C48",
   "status": "proved",
   "theorems": [
    "Adql.C48_parse",
    "Adql.C48_construct",
    "Adql.C48_tree",
    "Adql.respacedB_sound",
    "Adql.C48_exceptions",
    "Adql.C48_notIn"
   ],
   "note": "Texts with malformed quotes are not related by Respaced."
  },
  {
   "property": "C49",
   "status": "proved",
   "theorems": [
    "Adql.C49_enough",
    "Adql.C49_upper",
    "Adql.C49_lower",
    "Adql.C49_unbounded",
    "Adql.C49_deeper",
    "Adql.C49_cheap"
   ],
   "note": "Calls of the recursive rules of the model only. The upper bound is in the length of the text after the preprocessing."
  },
  {
   "property": "C50",
   "status": "proved",
   "theorems": [
    "Adql.C50_right",
    "Adql.C50_message",
    "Adql.C50_reported"
   ],
   "note": "The model names the expected component; for components that are not named rules the parser prints a description by Boost, which is not modelled."
  },
  {
   "property": "C51",
   "status": "proved",
   "theorems": [
    "Adql.C51_alternatives",
    "Adql.C51_attached",
    "Adql.C51_attached_strict"
   ],
   "note": "C51_alternatives is an equivalence over all 83 alternatives. The hypothesis of C51_attached_strict is needed (example in Props/Shape.lean)."
  },
  {
   "property": "C52",
   "status": "proved",
   "theorems": [
    "Adql.C52_core",
    "Adql.C52_expression",
    "Adql.C52_accepted",
    "Adql.C52_construct",
    "Adql.C52_text"
   ],
   "note": "C52_accepted is about the parser, C52_construct about the constructor when no geometric predicate follows an AND in the formatted text. Hypotheses: the formatter of numbers gives a numeral and formatting twice is formatting once."
  },
  {
   "property": "C53",
   "status": "proved",
   "theorems": [
    "Adql.C53_sealed",
    "Adql.C53_text",
    "Adql.C53_alphabet",
    "Adql.C53_semicolon",
    "Adql.C53_quotes",
    "Adql.C53_brackets",
    "Adql.C53_inside",
    "Adql.C53_comment"
   ],
   "note": "The hypotheses on the mapped names and on the formatter of numbers are needed, as the text contains both unchanged. C53_text has the hypotheses of C41_no_comment."
  },
  {
   "property": "C54",
   "status": "proved",
   "theorems": [
    "Adql.C54_sealed",
    "Adql.C54_refused",
    "Adql.C54_second",
    "Adql.C54_alphabet",
    "Adql.C54_part",
    "Adql.C54_comment",
    "Adql.C54_nan",
    "Adql.C54_rewritten"
   ],
   "note": "The last three theorems show that the hypotheses are needed."
  },
  {
   "property": "C55",
   "status": "proved",
   "theorems": [
    "Adql.C55_core",
    "Adql.C55_union",
    "Adql.C55_nested",
    "Adql.C55_unions",
    "Adql.C55_accepted",
    "Adql.C55_accepted_union",
    "Adql.C55_construct",
    "Adql.C55_geometry",
    "Adql.C55_union_limits"
   ],
   "note": "The last two theorems show that the conditions are needed."
  },
  {
   "property": "C56",
   "status": "proved",
   "theorems": [
    "Adql.C56_tree",
    "Adql.C56_reached",
    "Adql.C56_parsed",
    "Adql.C56_write",
    "Adql.C56_writes",
    "Adql.C56_top",
    "Adql.C56_restrict",
    "Adql.C56_logic",
    "Adql.C56_means",
    "Adql.C56_where",
    "Adql.C56_selected",
    "Adql.C56_same_rows",
    "Adql.C56_by_text",
    "Adql.C56_restricted",
    "Adql.C56_condition",
    "Adql.C56_parentheses"
   ],
   "note": "The last theorem shows that the parentheses are needed. Conditions have the three truth values of SQL."
  },
  {
   "property": "C57",
   "status": "proved",
   "theorems": [
    "Adql.C57_nodes",
    "Adql.C57_same",
    "Adql.C57_tree",
    "Adql.C57_accepted",
    "Adql.C57_tables",
    "Adql.C57_restricted",
    "Adql.C57_nothing_hidden",
    "Adql.C57_table",
    "Adql.C57_with",
    "Adql.C57_exists",
    "Adql.C57_set",
    "Adql.C57_union",
    "Adql.C57_listed",
    "Adql.C57_unlisted"
   ],
   "note": "A number that is formatted as a word (infinity, not-a-number) counts as a column, as it is read as one."
  },
  {
   "property": "C58",
   "status": "proved",
   "theorems": [
    "Adql.C58_tree",
    "Adql.C58_id",
    "Adql.C58_comp",
    "Adql.C58_parts",
    "Adql.C58_tables",
    "Adql.C58_names",
    "Adql.C58_functions",
    "Adql.C58_listed",
    "Adql.C58_keeps",
    "Adql.C58_confined"
   ],
   "note": "C58_comp for exchanges that give no table an empty name."
  },
  {
   "property": "C59",
   "status": "proved",
   "theorems": [
    "Adql.C59_parse",
    "Adql.C59_tree",
    "Adql.C59_outcome",
    "Adql.C59_trees",
    "Adql.C59_text",
    "Adql.C59_empty_name"
   ],
   "note": "C59_text for names that are not empty; C59_empty_name shows why."
  },
  {
   "property": "C60",
   "status": "proved",
   "theorems": [
    "Adql.C60_change",
    "Adql.C60_selects",
    "Adql.C60_guard",
    "Adql.C60_guarded",
    "Adql.C60_tables",
    "Adql.C60_join",
    "Adql.C60_parts",
    "Adql.C60_guarded_parts",
    "Adql.C60_from_part"
   ],
   "note": "C60_join is the exception: a join in the place of a subquery."
  },
  {
   "property": "C61",
   "status": "proved",
   "theorems": [
    "Adql.C61_different",
    "Adql.C61_canonical",
    "Adql.C61_texts",
    "Adql.C61_same",
    "Adql.C61_everywhere",
    "Adql.C61_value",
    "Adql.C61_condition",
    "Adql.C61_needed"
   ],
   "note": "C61_needed: two trees of a program, of which one is not well-made, with the same text."
  },
  {
   "property": "C62",
   "status": "proved",
   "theorems": [
    "Adql.C62_tree",
    "Adql.C62_limited",
    "Adql.C62_accepted"
   ],
   "note": "The limit is for every SELECT; those of subqueries keep their TOP."
  },
  {
   "property": "C63",
   "status": "proved",
   "theorems": [
    "Adql.C63_around",
    "Adql.C63_uses",
    "Adql.C63_shells",
    "Adql.C63_counting",
    "Adql.C63_filtering",
    "Adql.C63_counting_text",
    "Adql.C63_accepted"
   ],
   "note": "For queries without a geometric constraint in their own SELECTs; C55_geometry shows that the others cannot be subqueries."
  },
  {
   "property": "C64",
   "status": "proved",
   "theorems": [
    "Adql.C64_steps",
    "Adql.C64_policy",
    "Adql.C64_accepted",
    "Adql.C64_needed"
   ],
   "note": "For queries without a geometric constraint in their own SELECTs. The SELECTs that are put around the query after the conditions must have no subqueries; C64_needed shows that this is needed."
  },
  {
   "property": "C65",
   "status": "proved",
   "theorems": [
    "Adql.C65_literal",
    "Adql.C65_compared",
    "Adql.C65_among",
    "Adql.C65_restricted",
    "Adql.C65_constructor",
    "Adql.C65_template",
    "Adql.C65_violated",
    "Adql.C65_injection"
   ],
   "note": "For the parser all values are safe. The constructor also rewrites inside of literals: C65_constructor excludes values with one of two words, C65_violated and C65_injection show what such values can do."
  },
  {
   "property": "C66",
   "status": "proved",
   "theorems": [
    "Adql.C66_name",
    "Adql.C66_pick",
    "Adql.C66_lookup",
    "Adql.C66_constructor",
    "Adql.C66_violated"
   ],
   "note": "For the parser all non-empty names are safe. The constructor also rewrites inside of names: C66_constructor excludes names and values with one of two words, C66_violated shows that this is needed."
  },
  {
   "property": "C67",
   "status": "proved",
   "theorems": [
    "Adql.C67_literal",
    "Adql.C67_quoted",
    "Adql.C67_compared",
    "Adql.C67_restricted",
    "Adql.C67_constructor",
    "Adql.C67_lookup"
   ],
   "note": "The value of a literal in several parts is that of SQL-92; libadql itself keeps the text of the literal as it is."
  },
  {
   "property": "C68",
   "status": "proved",
   "theorems": [
    "Adql.C68_conds",
    "Adql.C68_guarded",
    "Adql.C68_accepted",
    "Adql.C68_geometry",
    "Adql.C68_everywhere",
    "Adql.C68_parts"
   ],
   "note": "What Usual excludes is excluded, as in C64; with other changes than conditions and a limit also geometric constraints (PlainSelects). A join in the place of a subquery is read by no SELECT (C60_join). Tables are told apart by their text in the tree."
  },
  {
   "property": "C69",
   "status": "proved",
   "theorems": [
    "Adql.C69_literal",
    "Adql.C69_span",
    "Adql.C69_text",
    "Adql.C69_restricted",
    "Adql.C69_constructor",
    "Adql.C69_template"
   ],
   "note": "C69_constructor excludes texts around the numbers with one of two words, because the constructor rewrites (C28)."
  },
  {
   "property": "C70",
   "status": "proved",
   "theorems": [
    "Adql.C70_step",
    "Adql.C70_steps",
    "Adql.C70_kept",
    "Adql.C70_nothing_hidden",
    "Adql.C70_parsed",
    "Adql.C70_owner",
    "Adql.C70_allowed",
    "Adql.C70_made",
    "Adql.C70_steps_kept",
    "Adql.C70_all_there",
    "Adql.C70_owned",
    "Adql.C70_owned_kept"
   ],
   "note": "What Usual excludes is excluded, as in C64; with other changes than conditions on owners and a limit also geometric constraints (PlainSelects)."
  }
 ]
}