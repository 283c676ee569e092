{"id": "C01", "title": "Construction always ends", "statement": "Constructing a Query from any text and any table mapping ends: it either yields a query or throws one of the documented errors. The grammar has no left recursion and no repetition whose body can succeed without consuming.", "quantifier": "every input string (any length, any nesting), every table mapping", "why_tests_cant": "A test runs finitely many inputs; a left-recursive path or an empty loop shows up only on the input that reaches it.", "anchors": ["src/Query/Query.cxx:parse_it", "src/Query/Query.cxx:ADQL::Query::Query", "src/Query/ADQL_parser/ADQL_parser/init_query.cxx", "src/Query/ADQL_parser/ADQL_parser/init_predicate.cxx:49-88", "src/Query/ADQL_parser/ADQL_parser/init_search_condition.cxx", "src/Query/ADQL_parser/ADQL_parser/init_value_expression.cxx", "src/Query/ADQL_parser/ADQL_parser/init_factor.cxx", "src/Query/ADQL_parser/ADQL_parser/init_join.cxx:30-71", "src/Query/ADQL_parser/ADQL_parser/init_geometry.cxx", "src/Query/ADQL_parser/ADQL_parser/init_identifier.cxx", "src/Query/ADQL_parser/ADQL_parser/init_literals.cxx"]}
{"id": "C02", "title": "The whole text is accounted for", "statement": "If construction succeeds, the grammar consumed all of the (preprocessed) text except trailing blanks. If the grammar stops early, an error is thrown that quotes exactly the unconsumed remainder, which is a non-empty suffix of the text and does not start with a blank.", "quantifier": "every input string and table mapping", "why_tests_cant": "Silently ignoring a tail is invisible unless a test happens to contain that tail.", "anchors": ["src/Query/Query.cxx:parse_it"]}
{"id": "C03", "title": "Which error is reported", "statement": "The outcome of construction is exactly one of: query; a parenthesis error of the preprocessing; 'Expecting <X> here' whose quoted text is a suffix of the preprocessed text; 'Expecting <SELECT>' quoting the whole preprocessed text; 'Unexpected terms at the end'; 'table TAP_UPLOAD.x was not found' where x has no entry in the mapping and 'TAP_UPLOAD.' followed by x occurs in the preprocessed text.", "quantifier": "every input string and table mapping", "why_tests_cant": "Ranges over all malformed inputs.", "anchors": ["src/Query/Query.cxx:parse_it", "src/Query/ADQL_parser/ADQL_parser/init_query.cxx:on_error", "src/Query/ADQL_parser/ADQL_parser/init_column_reference.cxx:checked_mapping"]}
{"id": "C04", "title": "Unquoted identifiers", "statement": "An unquoted identifier is read at a position exactly when a maximal run letter(letter|digit|_)* starts there and that run is not a recognised reserved word; the identifier kept in the query is that run verbatim.", "quantifier": "every text following the position", "why_tests_cant": "Quantifies over all identifiers, including every one that merely starts like a reserved word.", "anchors": ["src/Query/ADQL_parser/ADQL_parser/init_identifier.cxx:regular_identifier", "src/Query/ADQL_parser/ADQL_parser/init_identifier.cxx:keyword"]}
{"id": "C05", "title": "Every reserved word is refused as an identifier", "statement": "No word of the ADQL and SQL reserved word lists, in any letter case, is accepted as an unquoted identifier; every other word is accepted. (Violated by the code for the words that have a shorter reserved word as an earlier-listed prefix; the exact set is determined.)", "quantifier": "all reserved words and all other identifiers, all letter cases", "why_tests_cant": "The exceptions come from ordered choice across about 300 alternatives; a test list that omits one word misses it.", "anchors": ["src/Query/ADQL_parser/ADQL_parser/init_reserved_words.cxx", "src/Query/ADQL_parser/ADQL_parser/init_identifier.cxx:keyword"]}
{"id": "C06", "title": "Delimited identifiers", "statement": "A delimited identifier is a double quote, a non-empty body of characters other than a double quote or doubled double quotes, and a closing double quote; it ends at the first undoubled quote, may contain anything including reserved words and parentheses, and is kept verbatim with its quotes.", "quantifier": "every body text and every continuation", "why_tests_cant": "Infinite set of bodies, including quotes at every position.", "anchors": ["src/Query/ADQL_parser/ADQL_parser/init_identifier.cxx:delimited_identifier"]}
{"id": "C07", "title": "Character string literals", "statement": "A string literal is recognised exactly for the SQL form (quotes doubled inside, adjacent literals separated by blanks, newlines or -- comments are joined) and its text is kept verbatim.", "quantifier": "every literal and continuation", "why_tests_cant": "Infinite set of bodies.", "anchors": ["src/Query/ADQL_parser/ADQL_parser/init_literals.cxx:character_string_literal"]}
{"id": "C08", "title": "Numeric literals", "statement": "An unsigned numeric literal is recognised exactly for the forms digits[.digits][E[sign]digits] and .digits[E[sign]digits], taking the longest such prefix, and its text is kept verbatim.", "quantifier": "every text following the position", "why_tests_cant": "Infinite language; wrong maximal munch only shows on particular continuations.", "anchors": ["src/Query/ADQL_parser/ADQL_parser/init_literals.cxx:unsigned_numeric_literal"]}
{"id": "C09", "title": "Words are not split", "statement": "The words TRUE, FALSE and CURRENT_TIMESTAMP are recognised only as whole words. (Violated: they are recognised as prefixes of longer identifiers, so such columns cannot be selected.)", "quantifier": "every identifier that begins with one of these words", "why_tests_cant": "Depends on the continuation of the identifier.", "anchors": ["src/Query/ADQL_parser/ADQL_parser/init_literals.cxx:boolean_literal", "src/Query/ADQL_parser/ADQL_parser/init_factor.cxx:sql_no_arg_function"]}
{"id": "C10", "title": "TAP_UPLOAD names are replaced by the mapping", "statement": "TAP_UPLOAD.x as a table, and as a column qualifier, becomes exactly the mapped name of x; if x has no mapping the construction throws the error naming x, and no other name is ever replaced.", "quantifier": "every mapping, every identifier x (regular or delimited), every continuation", "why_tests_cant": "Ranges over all maps and names.", "anchors": ["src/Query/ADQL_parser/ADQL_parser/init_column_reference.cxx:tap_upload", "src/Query/ADQL_parser/ADQL_parser/init_column_reference.cxx:checked_mapping"]}
{"id": "C11", "title": "The mapping matters only to TAP_UPLOAD", "statement": "If the text does not contain 'TAP_UPLOAD.', two constructions with different table mappings have the same outcome.", "quantifier": "every text without TAP_UPLOAD., every pair of mappings", "why_tests_cant": "Quantifies over pairs of maps and over all texts.", "anchors": ["src/Query/ADQL_parser/ADQL_parser/init_column_reference.cxx", "src/Query/Query.cxx"]}
{"id": "C12", "title": "Extending the mapping changes nothing that worked", "statement": "If construction succeeds with a mapping, it succeeds with the same query for every mapping that extends it.", "quantifier": "every text, every mapping and extension", "why_tests_cant": "Relational property over pairs of runs.", "anchors": ["src/Query/ADQL_parser/ADQL_parser/init_column_reference.cxx:checked_mapping"]}
{"id": "C13", "title": "Letter case of keywords does not matter", "statement": "Two texts that differ only in the case of ASCII letters, and do not use TAP_UPLOAD, have the same kind of outcome, and the formatted queries also differ only in letter case.", "quantifier": "every pair of texts equal up to case", "why_tests_cant": "Relational over pairs of inputs of any size.", "anchors": ["src/Query/ADQL_parser/ADQL_parser/init_query.cxx", "src/Query/ADQL_parser/ADQL_parser/init_predicate.cxx:49-88", "src/Query/ADQL_parser/ADQL_parser/init_search_condition.cxx", "src/Query/ADQL_parser/ADQL_parser/init_value_expression.cxx", "src/Query/ADQL_parser/ADQL_parser/init_factor.cxx", "src/Query/ADQL_parser/ADQL_parser/init_join.cxx:30-71", "src/Query/ADQL_parser/ADQL_parser/init_geometry.cxx", "src/Query/ADQL_parser/ADQL_parser/init_identifier.cxx", "src/Query/ADQL_parser/ADQL_parser/init_literals.cxx", "src/Query/Query.cxx:search_condition_on_left_of_geometry_regex"]}
{"id": "C14", "title": "Geometry flag", "statement": "A geometric constraint keeps exactly the flag that was written: f=G and G=f mean f, a missing flag means 1; the formatted text is G=f in all cases and f is 0 or 1.", "quantifier": "every geometric constraint text", "why_tests_cant": "Ranges over all constraints and both writings.", "anchors": ["src/Query/ADQL_parser/ADQL_parser/init_geometry.cxx:geometry", "src/Query/Query_Specification/Geometry.hxx"]}
{"id": "C15", "title": "Formatting shows every parsed part", "statement": "No guard of the formatting code hides something that was parsed: every component of a successfully parsed query that holds parsed text is non-empty in the sense of its empty(), so every clause present in the text is present in the formatted query.", "quantifier": "every successfully parsed query, every nested component", "why_tests_cant": "empty() guards occur in about forty classes, each may silently drop output for some nested value.", "anchors": ["src/Query/Query_Specification/With.hxx", "src/Query/Query_Specification/Where.hxx", "src/Query/Query_Specification/Having.hxx", "src/Query/Query_Specification/Value_Expression/ostream.cxx", "src/Query/Query_Specification/Joined_Table/Qualified_Join/ostream.cxx", "src/Query/Query_Specification/Search_Condition/Boolean_Factor/Boolean_Primary/ostream.cxx", "src/Query/Query_Specification/Select.hxx", "src/Query/Query_Specification/Geometry.hxx", "src/Query/Query_Specification.hxx"]}
{"id": "C16", "title": "Formatting is faithful to the text", "statement": "The formatted query is the consumed text up to blanks, letter case of keywords and a fixed, explicitly listed set of rewrites (AS of correlations dropped, AS in WITH added, flag moved to the right, default coordinate system, numerals reformatted, TOP normalised, upload names mapped, table function blanks). No token is added, lost, duplicated or reordered otherwise.", "quantifier": "every successfully parsed text", "why_tests_cant": "Universal over the whole language.", "anchors": ["src/Query/Query_Specification/Value_Expression/ostream.cxx", "src/Query/Query_Specification/Joined_Table/Qualified_Join/ostream.cxx", "src/Query/Query_Specification/Search_Condition/Boolean_Factor/Boolean_Primary/ostream.cxx", "src/Query/Query_Specification/Select.hxx", "src/Query/Query_Specification/Geometry.hxx", "src/Query/Query_Specification.hxx", "src/Query/ADQL_parser/ADQL_parser/init_query.cxx", "src/Query/ADQL_parser/ADQL_parser/init_predicate.cxx:49-88", "src/Query/ADQL_parser/ADQL_parser/init_search_condition.cxx", "src/Query/ADQL_parser/ADQL_parser/init_value_expression.cxx", "src/Query/ADQL_parser/ADQL_parser/init_factor.cxx", "src/Query/ADQL_parser/ADQL_parser/init_join.cxx:30-71", "src/Query/ADQL_parser/ADQL_parser/init_geometry.cxx", "src/Query/ADQL_parser/ADQL_parser/init_identifier.cxx", "src/Query/ADQL_parser/ADQL_parser/init_literals.cxx"]}
{"id": "C17", "title": "The number of stars is preserved", "statement": "The formatted query contains as many '*' characters as the text that was parsed (the check the test suite makes on samples), provided mapped names contain none.", "quantifier": "every successfully parsed text", "why_tests_cant": "The test suite checks this for 255 texts only.", "anchors": ["test/parse_adql.cxx", "src/Query/Query_Specification/Value_Expression/ostream.cxx", "src/Query/Query_Specification/Joined_Table/Qualified_Join/ostream.cxx", "src/Query/Query_Specification/Search_Condition/Boolean_Factor/Boolean_Primary/ostream.cxx", "src/Query/Query_Specification/Select.hxx", "src/Query/Query_Specification/Geometry.hxx", "src/Query/Query_Specification.hxx"]}
{"id": "C18", "title": "Formatting and parsing again is stable", "statement": "Parsing the formatted query succeeds and formats to the same text. (Violated for some queries; counterexamples and the proved fragments are stated.)", "quantifier": "every successfully parsed query", "why_tests_cant": "The test suite checks this for samples only.", "anchors": ["test/parse_adql.cxx", "src/Query/Query_Specification/Value_Expression/ostream.cxx", "src/Query/Query_Specification/Joined_Table/Qualified_Join/ostream.cxx", "src/Query/Query_Specification/Search_Condition/Boolean_Factor/Boolean_Primary/ostream.cxx", "src/Query/Query_Specification/Select.hxx", "src/Query/Query_Specification/Geometry.hxx", "src/Query/Query_Specification.hxx"]}
{"id": "C19", "title": "TOP", "statement": "TOP n is kept as the number n and formatted in decimal; without TOP no limit is reported; a number that does not fit in 64 bits is refused. (TOP 18446744073709551615 is indistinguishable from no TOP and is dropped when formatting.)", "quantifier": "every digit string", "why_tests_cant": "Boundary at 2^64 and leading zeros of any length.", "anchors": ["src/Query/ADQL_parser/ADQL_parser/init_query.cxx:select", "src/Query/Query_Specification/Select.hxx"]}
{"id": "C20", "title": "Access to the components of a UNION", "statement": "With n SELECTs in the text the query reports n components; component i (and its SELECT, WHERE and first table) is returned for every i<n and is the i-th written one; every other index throws. The union operator is returned exactly for 1<=i<n. is_union_query holds iff n>1.", "quantifier": "every parsed query and every index", "why_tests_cant": "All sizes and indices.", "anchors": ["src/Query/Query_Specification/Select_From_Where_List.hxx", "src/Query/Query_Specification.hxx"]}
{"id": "C21", "title": "Combined table lists", "statement": "get_combined_table_list is the concatenation of the table lists of all components in order and get_table_lists_by_sfw lists them separately; neither throws, no table is lost or duplicated.", "quantifier": "every parsed query", "why_tests_cant": "All sizes.", "anchors": ["src/Query/Query_Specification/Select_From_Where_List.hxx"]}
{"id": "C22", "title": "simple_spatial_query", "statement": "simple_spatial_query holds exactly for a single SELECT without DISTINCT, WITH, GROUP BY, HAVING, ORDER BY and without a search condition beside the geometry. (Violated for the quantifier ALL in a letter case other than upper case.)", "quantifier": "every parsed query", "why_tests_cant": "Conjunction over all queries including defaults set by the parser.", "anchors": ["src/Query.hxx:simple_spatial_query"]}
{"id": "C23", "title": "simplified_columns", "statement": "simplified_columns(i) has one entry per select item, in order: formatted expression and alias (or the expression twice); for '*' it has one entry with empty alias.", "quantifier": "every parsed query, every component", "why_tests_cant": "All lists.", "anchors": ["src/Query/simplified_columns.cxx"]}
{"id": "C24", "title": "Numeric values in geometries", "statement": "For every coordinate of a parsed query double_or_throw returns the written number or the result of the written operation, throws for a column (naming it) and for a division by zero, and never reports an unknown operator.", "quantifier": "every parsed coordinate expression", "why_tests_cant": "The operator is an unconstrained char in the class.", "anchors": ["src/Query/Query_Specification/Binary_Arithmetic_Expression.hxx:evaluate", "src/Query/Query_Specification/Geometry/Column_or_Simple_Arithmetic_Expression.hxx:double_or_throw"]}
{"id": "C25", "title": "Parenthesis check of the preprocessing", "statement": "The check accepts a pair (left condition, geometry) exactly when no prefix of their concatenation closes more parentheses than it opens and the geometry starts at depth 0; or when the left condition opens a parenthesis with its very first character, is otherwise balanced, and the geometry either never closes that parenthesis or closes it with its very last character. In the last case exactly this pair is removed; otherwise nothing is changed.", "quantifier": "every pair of texts (with fewer than 65536 open parentheses)", "why_tests_cant": "All nestings.", "anchors": ["src/Query/Query.cxx:check_and_adjust_parens"]}
{"id": "C26", "title": "Parenthesis counter overflow", "statement": "The check does not depend on how deep the parentheses are. (Violated: the depth is a 16-bit counter, 65536 unbalanced open parentheses are accepted.)", "quantifier": "every depth", "why_tests_cant": "Needs 65536 nested parentheses.", "anchors": ["src/Query/Query.cxx:check_and_adjust_parens"]}
{"id": "C27", "title": "Texts without a geometry to the right of AND are not rewritten", "statement": "If the text contains no 'AND' blank* [0= or 1=] CONTAINS/INTERSECTS after a 'WHERE ', preprocessing leaves it unchanged; in particular every text without CONTAINS and INTERSECTS.", "quantifier": "every such text", "why_tests_cant": "Universal over texts.", "anchors": ["src/Query/Query.cxx:search_condition_on_left_of_geometry_regex"]}
{"id": "C28", "title": "What the rewrite produces", "statement": "When preprocessing rewrites, the text is P 'WHERE ' L AND G [AND R] T, and (if L, G, R contain no '$') the result is exactly P 'WHERE ' G AND L [AND R] with at most one enclosing parenthesis pair removed.", "quantifier": "every matching text", "why_tests_cant": "Regex with backtracking over arbitrary text.", "anchors": ["src/Query/Query.cxx:tweak_input_string"]}
{"id": "C29", "title": "The rewrite keeps the rest of the query", "statement": "Clauses after the WHERE condition (GROUP BY, HAVING, ORDER BY) survive the rewrite. (Violated: the part T is dropped for every rewritten text.)", "quantifier": "every matching text", "why_tests_cant": "Universal; the sample tests only check that the result parses.", "anchors": ["src/Query/Query.cxx:tweak_input_string"]}
{"id": "C30", "title": "The rewrite keeps the meaning of the condition", "statement": "Moving the left condition to the right of the geometry gives a logically equivalent condition under AND-before-OR precedence. (Holds when the moved parts are conjunctions of factors; violated when the left part contains OR.)", "quantifier": "every Boolean condition left and right, every truth assignment", "why_tests_cant": "Ranges over truth assignments and formula shapes.", "anchors": ["src/Query/Query.cxx:tweak_input_string"]}
{"id": "C31", "title": "The rewrite stays inside one SELECT", "statement": "A rewrite only permutes parts of one WHERE clause. (Violated: with UNION the geometry of a later SELECT is moved into the WHERE of the first.)", "quantifier": "every text with UNION", "why_tests_cant": "Greedy matching over arbitrary text.", "anchors": ["src/Query/Query.cxx:search_condition_on_left_of_geometry_regex"]}
{"id": "C32", "title": "Dollar signs survive preprocessing", "statement": "Text in the condition reaches the parser verbatim. (Violated for '$': it is interpreted as a replacement reference; holds for texts without '$'.)", "quantifier": "every matching text", "why_tests_cant": "Depends on characters inside literals.", "anchors": ["src/Query/Query.cxx:tweak_input_string"]}
{"id": "C33", "title": "Subqueries have no geometry", "statement": "No subquery (in FROM, IN, EXISTS, WITH, at any depth) of a parsed query has a geometric constraint in a WHERE clause, and the WHERE clause of a component has at most one.", "quantifier": "every parsed query, every nesting depth", "why_tests_cant": "All depths.", "anchors": ["src/Query/ADQL_parser/ADQL_parser/init_query.cxx:subquery", "src/Query/ADQL_parser/ADQL_parser/init_query.cxx:query_no_geometry"]}
{"id": "C34", "title": "Parsed values are in their documented ranges", "statement": "In every parsed query all operators, signs, comparison operators, connectives, quantifiers, orderings, union operators, join types, function names and cast types come from the documented finite sets (up to letter case).", "quantifier": "every parsed query, every nested node", "why_tests_cant": "The classes store arbitrary strings.", "anchors": ["src/Query/ADQL_parser/ADQL_parser/init_query.cxx", "src/Query/ADQL_parser/ADQL_parser/init_predicate.cxx:49-88", "src/Query/ADQL_parser/ADQL_parser/init_search_condition.cxx", "src/Query/ADQL_parser/ADQL_parser/init_value_expression.cxx", "src/Query/ADQL_parser/ADQL_parser/init_factor.cxx", "src/Query/ADQL_parser/ADQL_parser/init_join.cxx:30-71", "src/Query/ADQL_parser/ADQL_parser/init_geometry.cxx", "src/Query/ADQL_parser/ADQL_parser/init_identifier.cxx", "src/Query/ADQL_parser/ADQL_parser/init_literals.cxx"]}
{"id": "C35", "title": "Coordinate systems", "statement": "A missing coordinate system or a missing part of it means ICRS GEOCENTER; each written frame is formatted as that frame.", "quantifier": "every coordinate system text", "why_tests_cant": "All spellings.", "anchors": ["src/Query/ADQL_parser/ADQL_parser/init_point_or_column.cxx:coord_sys", "src/Query/Query_Specification/Geometry/Coord_Sys.hxx"]}
{"id": "C36", "title": "Leading blanks do not matter to the grammar", "statement": "Blanks in front of a text do not change the parsed query.", "quantifier": "every text and every run of blanks", "why_tests_cant": "Universal over texts.", "anchors": ["src/Query/Query.cxx:parse_it"]}
{"id": "C37", "title": "A condition is negated only by the word NOT", "statement": "A condition of a parsed query is marked as negated only if the word NOT followed by a blank is written before it. (Violated by the missing attribute rollback: a column whose name starts with NOT negates its own condition.)", "quantifier": "every parsed condition", "why_tests_cant": "Depends on column names.", "anchors": ["src/Query/ADQL_parser/ADQL_parser/init_search_condition.cxx:boolean_factor"]}
{"id": "C38", "title": "Join structure", "statement": "Every join that is parsed contains at least one join suffix, its operands are formatted in order, and a parenthesised join is formatted with its parentheses exactly once.", "quantifier": "every parsed join, any nesting", "why_tests_cant": "All nestings.", "anchors": ["src/Query/ADQL_parser/ADQL_parser/init_join.cxx:30-71", "src/Query/Query_Specification/Joined_Table.hxx", "src/Query/Query_Specification/Joined_Table/ostream.cxx", "src/Query/Query_Specification/Joined_Table/Qualified_Join/ostream.cxx"]}
{"id": "C39", "title": "Every query of the core language is accepted with the tree it spells", "statement": "For a core of ADQL given by a separate context-free grammar (select lists, TOP, DISTINCT, tables, nested joins, derived tables, WITH, UNION, WHERE, GROUP BY, HAVING, ORDER BY, all predicates, arithmetic, functions, aggregates, CASE, CAST, conditions as values, geometric constraints, shapes and coordinates, names of uploaded tables, table functions), every text of the language is accepted by the parser and the tree is exactly the one the grammar assigns to it; in particular the core language is unambiguous.", "quantifier": "every text of the core language, any nesting, any letter case, any blanks between tokens, every table mapping", "why_tests_cant": "Acceptance of an ordered-choice parser with exceptions depends on every earlier alternative failing without throwing; infinitely many texts.", "anchors": ["src/Query/ADQL_parser/ADQL_parser/init_query.cxx", "src/Query/ADQL_parser/ADQL_parser/init_predicate.cxx:49-88", "src/Query/ADQL_parser/ADQL_parser/init_search_condition.cxx", "src/Query/ADQL_parser/ADQL_parser/init_value_expression.cxx", "src/Query/ADQL_parser/ADQL_parser/init_factor.cxx", "src/Query/ADQL_parser/ADQL_parser/init_join.cxx:30-71", "src/Query/ADQL_parser/ADQL_parser/init_geometry.cxx", "src/Query/ADQL_parser/ADQL_parser/init_identifier.cxx", "src/Query/ADQL_parser/ADQL_parser/init_literals.cxx", "src/Query/Query.cxx:parse_it"]}
{"id": "C40", "title": "Formatting does not comment out a part of the query", "statement": "If the text of a query has no two adjacent minus signs outside string literals and quoted names, then the formatted query has none either; so a database that reads the formatted query, where two minus signs start a comment, does not lose any part of it.", "quantifier": "every accepted text, every table mapping, every formatting of numbers", "why_tests_cant": "Any nesting of operators, signs, literals and quoted names.", "anchors": ["src/Query/ADQL_parser/ADQL_parser/init_value_expression.cxx", "src/Query/Query_Specification/Value_Expression.hxx", "src/Query/Query_Specification/Value_Expression/ostream.cxx", "src/Query/Query_Specification/Value_Expression_Non_Bool.hxx", "src/Query/Query.cxx"]}
{"id": "C41", "title": "A formatted query has a comment only where the text has neighbouring minus signs", "statement": "If the preprocessed text of a query has no two minus signs outside string literals and quoted names with only blanks between them, then the formatted query has no two adjacent minus signs outside string literals and quoted names.", "quantifier": "every accepted text without a not-a-number that has an argument, every table mapping whose names are not blank, have closed quotes and no minus sign at either end and no pair inside, every formatting of numerals that is not blank, has closed quotes, no pair of minus signs, no minus sign at the end, and one at the start only if the numeral has one", "why_tests_cant": "Any nesting of operators, signs, literals, quoted names, shapes and uploaded tables; the condition is about all positions of a text.", "anchors": ["src/Query/ADQL_parser/ADQL_parser/init_value_expression.cxx", "src/Query/Query_Specification/Value_Expression.hxx", "src/Query/Query_Specification/Value_Expression/ostream.cxx", "src/Query/Query_Specification/Value_Expression_Non_Bool.hxx", "src/Query/Query.cxx"]}
{"id": "C42", "title": "A condition before the geometric constraint changes nothing", "statement": "If the text is P WHERE L AND G [AND R] T, where the words the preprocessing looks for (WHERE, AND with a geometric word, HAVING, GROUP, ORDER) occur at no other place than these, parentheses are balanced (or one pair encloses L AND G) and there is no dollar sign, then the constructor accepts it exactly as the text P WHERE G AND L [AND R]: the parser gets that text, and if it is a text of the core language with tree q, the result is q.", "quantifier": "all texts P, L, G, R, T of the described form; all table mappings", "why_tests_cant": "The claim is about every split of every text; the backtracking of the regex may choose another split, and its choice depends on the whole rest of the text.", "anchors": ["src/Query/Query.cxx:19-21", "src/Query/Query.cxx:112-133", "src/Query/Query.cxx:160-175"]}
{"id": "C43", "title": "Names that contain a key word do not change how a query is read", "statement": "A name or string in the condition or the geometry that merely contains the letters of AND, HAVING, GROUP or ORDER does not change the tree. (Violated: the regex has no word boundaries; `WHERE x=1 AND CONTAINS(p,q)=1 AND behaving=1` is read as `... AND x=1 AND be`, and `WHERE x=1 AND CONTAINS(p,band)=1` is refused. Proved in addition: whatever stands around them, none of the words begins inside of what is kept, except in its first characters; if none of them occurs, everything is kept, C42.)", "quantifier": "all texts that are rewritten", "why_tests_cant": "A test has to guess the name; the characterisation holds for every text.", "anchors": ["src/Query/Query.cxx:19-21"]}
{"id": "C44", "title": "The table mapping is consulted for identifiers only", "statement": "Two table mappings that agree on all identifiers (regular or delimited) give the same outcome on every text. In particular the one-argument constructor, whose braces build a mapping with one entry from the empty name to the empty name, behaves exactly as with an empty mapping, and nothing it parses counts as empty.", "quantifier": "all texts; all pairs of mappings; both behaviours of a failed optional", "why_tests_cant": "It compares all mappings on all texts; the extra entry of the one-argument constructor would only show for an identifier that is empty.", "anchors": ["src/Query.hxx:18-20", "src/Query/ADQL_parser/ADQL_parser/init_column_reference.cxx:5-60"]}
{"id": "C45", "title": "The default-constructed query has no components", "statement": "Query() reports 0 components, is empty, is no union and no simple spatial query; get_select, get_where, get_initial_table and get_union_op throw for every index, get_sfw throws for every index but 0 (for 0 it returns the empty component), the table lists are empty, it is formatted as `SELECT  FROM `, a text that is refused, and no text is parsed to it.", "quantifier": "all indexes; all texts and mappings", "why_tests_cant": "Every index and every input text.", "anchors": ["src/Query.hxx:21", "src/Query/Query_Specification/Select_From_Where_List.hxx:35-99"]}
{"id": "C46", "title": "Writes through the mutable accessors are local", "statement": "A write through get_select(i) of a non-empty query with fewer than 2^32 components changes the SELECT of component i and nothing else: every other accessor returns what it returned before, the formatted text changes only in the text of that SELECT, and the query can be written again; for any other index the accessor throws and nothing changes. A sequence of writes ends normally if and only if all its indexes are valid, and then has the effect of the writes in order. A write through get_sfw(i) changes component i only; if it leaves the first component without tables, all components become unreachable through get_select.", "quantifier": "all queries with these properties, in particular all parsed queries; all indexes; all functions written; all finite sequences of writes", "why_tests_cant": "Arbitrary sequences of arbitrary writes.", "anchors": ["src/Query/Query_Specification/Select_From_Where_List.hxx:44-94", "src/Query/Query_Specification.hxx:51-59"]}
{"id": "C47", "title": "The work of the constructor is polynomial in the length of the text", "statement": "The number of calls of grammar rules that the constructor makes is bounded by a polynomial in the length of its argument. (False of the code: a condition in n pairs of parentheses is read at least 2^n times, on texts of 2n+27 characters that are accepted, and so are n subqueries inside each other. What holds: the number is always finite with a bound that depends on the length only, and it is polynomial for the texts whose rule calls are nested at most f deep, for every f.)", "quantifier": "all texts, all table mappings, all numbers of parentheses", "why_tests_cant": "A growth rate is a statement about texts of every length.", "anchors": ["src/Query/ADQL_parser/ADQL_parser/init_search_condition.cxx:25-39", "src/Query/Query.cxx:140-175"]}
{"id": "C48", "title": "How many blanks separate two tokens, and which ones, does not matter", "statement": "If two texts consist of the same characters and the same quoted texts in the same order, with blanks at the same places, then the parser and, if no geometric constraint follows an AND, the constructor have the same outcome on both: the same tree, or an error of the same kind. Exceptions, each with a witness: the blank inside UNION ALL and UNION DISTINCT, the first blank between NOT and IN (it is stored), separators inside a string literal, the argument of nan( ) and the call of a table function.", "quantifier": "all pairs of texts, all table mappings, both treatments of a failed optional", "why_tests_cant": "There are infinitely many layouts of each of infinitely many texts, refused ones included.", "anchors": ["src/Query/ADQL_parser.hxx:40-43", "src/Query/ADQL_parser/ADQL_parser/init_query.cxx:81-131", "src/Query/Query.cxx:140-175"]}
{"id": "C49", "title": "The nesting of rule calls grows linearly with the text", "statement": "While the constructor reads a text, at most 4(length+1) calls of recursive grammar rules are open at the same time. This order is reached, so no constant bounds the nesting and with it the machine stack that the parser needs: for every n a text of 2n+20 characters (a value in n+1 pairs of parentheses) is accepted after only 6n+17 rule calls, at least 2n+2 of which are open at the same time.", "quantifier": "all texts, all table mappings, all numbers of parentheses", "why_tests_cant": "A bound for texts of every length; a test on one machine shows the limit of its stack only.", "anchors": ["src/Query/ADQL_parser/ADQL_parser/init_search_condition.cxx:25-39", "src/Query/Query.cxx:140-175"]}
{"id": "C50", "title": "The component that an error message names is really missing at the quoted text", "statement": "When the constructor reports 'Expecting X here: \"r\"', no X begins at r: the symbol, word or blank X is not the next one in r, or the grammar rule called X does not match there (a WHEN value must also be followed by THEN, an aggregate argument may have a quantifier before it). X is one of 31 components, and each of the 31 is reported for some text; the component 'with columns' is expected by the grammar but can never be reported.", "quantifier": "all texts, all table mappings, both treatments of a failed optional", "why_tests_cant": "A statement about every refused text; tests show single messages only.", "anchors": ["src/Query/ADQL_parser/ADQL_parser/init_query.cxx:25-144", "src/Query/ADQL_parser/ADQL_parser/init_geometry.cxx:27-87", "src/Query/ADQL_parser/ADQL_parser/init_factor.cxx:25-187"]}
{"id": "C51", "title": "Which alternatives of the tree a text can reach, and how its parts are attached", "statement": "The classes of a query hold variants with 83 alternatives. Each of them is used in the tree of some accepted text, except two that the grammar offers but no text reaches: the string of a CASE result (NULL is read as an expression first) and the column of a GROUP BY term (a column is read as an expression first). At every depth of the tree of an accepted text the lower bound of BETWEEN and the pattern of LIKE are expressions, an AND or OR behind a condition that is a value belongs to the value, a join that begins another join is in parentheses, ON and USING belong to the last join before them that has no specification, and no join follows a table that could have taken it. If the parser resets a failed optional, a condition that is a value does not begin with an expression and INNER does not follow an expression that is a condition by itself.", "quantifier": "all texts, all table mappings, all nodes of the tree", "why_tests_cant": "That an alternative is dead is a statement about every text; a test suite can only fail to reach it.", "anchors": ["src/Query/ADQL_parser/ADQL_parser/init_factor.cxx:48-50", "src/Query/ADQL_parser/ADQL_parser/init_query.cxx:52-57", "src/Query/ADQL_parser/ADQL_parser/init_predicate.cxx:49-88", "src/Query/ADQL_parser/ADQL_parser/init_join.cxx:30-71", "src/Query/ADQL_parser/ADQL_parser/init_search_condition.cxx:25-39"]}
{"id": "C52", "title": "The formatted text is read as the same query", "statement": "The text to which a query is formatted is read as the same query, not only formatted to the same text again: the two trees have the same clauses, operators, operands, parentheses, functions, joins and names, and differ only in the letter case of connectives and of the NOT of IN, NULL and LIKE, in the order of a geometric predicate and its flag, in the form of the numbers of coordinates (a number that is formatted as a word is read as a column), and in the parts into which the name of an uploaded table is split. Neither the tree nor the text changes when this is repeated. Trees that differ only in this way have the same text. The statement is for the core language and for every accepted query whose tree has none of the constructs listed in DESIGN.md (C18).", "quantifier": "all queries of the core language; all accepted texts whose tree has none of the listed constructs; all table mappings; all ways to format numbers that give back a numeral", "why_tests_cant": "Trees of every shape and depth have to be compared; comparing the texts, as a test would, does not show that the parser grouped the parts in the same way.", "anchors": ["src/Query.hxx:44-46", "src/Query/Query_Specification.hxx:75-87", "src/Query/ADQL_parser/ADQL_parser/init_query.cxx:25-144", "src/Query/Query_Specification/Geometry.hxx:50-71"]}
{"id": "C53", "title": "The formatted query can be put into another statement", "statement": "What is formatted, the query or any part of it, closes all quotes and all parentheses and square brackets that it opens, each by its counterpart, closes no others, and has outside quotes only brackets, blanks and the characters of names, numbers and operators (no semicolon in particular), unless it has a comment; other characters can only come from the table mapping and from the formatting of numbers. If no two minus signs of the text have only blanks between them, the formatted query has no comment either. So the text may be put in parentheses or in front of other text, and it is one statement.", "quantifier": "all accepted texts; all nodes of their trees; all mappings to table names with this property; all ways to format numbers with this property", "why_tests_cant": "The quotes and brackets come from every class of the tree at any depth and from names and literals of any content; a test sees only the contents that its author thought of.", "anchors": ["src/Query.hxx:44-46", "src/Query/Query_Specification.hxx:75-87", "src/Query/ADQL_parser/ADQL_parser/init_literals.cxx:character_string_literal", "src/Query/ADQL_parser/ADQL_parser/init_identifier.cxx:delimited_identifier"]}
{"id": "C54", "title": "Only closed texts are accepted", "statement": "If a text without comments is accepted, then it closes all quotes, parentheses and square brackets that it opens, each by its counterpart and no others, and outside quotes it has only brackets, blanks, letters, digits, and the characters _ . , * / + - = < > ! | and the colon. In particular no byte above 127 is accepted outside quotes, and a second statement after a semicolon is refused, whatever it is. The text is the one that the parser reads, which is the text of the caller unless a geometric constraint follows an AND; in that case what follows the condition is dropped unread (C29), and the caller's text may have anything there. The argument of a not-a-number is the only other place where anything may be written.", "quantifier": "all texts; all table mappings; all rules of the grammar and what they read", "why_tests_cant": "There are infinitely many texts that are not closed, and the choices and repetitions of the parser can fall back to another reading of the same text at every place.", "anchors": ["src/Query/Query.cxx:parse_it", "src/Query/ADQL_parser/ADQL_parser/init_query.cxx:25-144", "src/Query/ADQL_parser/ADQL_parser/init_factor.cxx", "src/Query/ADQL_parser/ADQL_parser/init_predicate.cxx"]}
{"id": "C55", "title": "A query can be a part of another query", "statement": "If a query has no geometric constraint in its SELECTs, then its text in parentheses is accepted as a table of another query, in WITH, in EXISTS and as the set of IN, to any depth, and the tree of the larger query has the tree of the smaller one at that place. Any number of queries can be connected by UNION, UNION ALL or UNION DISTINCT if only the first one has WITH and only the last one has GROUP BY, HAVING or ORDER BY, and the tree has all their SELECTs in this order. This is so for all texts of the core language and for the formatted text of every accepted query (with the exceptions of C52), which is read in the larger query as the same query. The conditions are needed: CONTAINS is refused in subqueries.", "quantifier": "all queries of the core language and all accepted queries whose tree has none of the exceptions of C52; all names of tables and columns of the core language; all nesting depths and numbers of queries; all table mappings", "why_tests_cant": "Whether a text is read in the same way does not only depend on itself but on what follows, and there are infinitely many queries and infinitely many ways to put them together.", "anchors": ["src/Query/ADQL_parser/ADQL_parser/init_query.cxx:88-135", "src/Query/ADQL_parser/ADQL_parser/init_query.cxx:25-50", "src/Query/Query.cxx:parse_it"]}
{"id": "C56", "title": "A query that a program has built or changed is formatted to a text that is read as this query", "statement": "Every query object whose contents are as documented for the classes (and without the exceptions of C52), whether it was parsed, built by a program or changed by any number of writes through the mutable accessors, is formatted to a text that is accepted and read as the same query up to spelling; from then on neither text nor query change. Every such object is also the result of reading some text. In particular a service can change the TOP clause, or add a condition to every SELECT by connecting the old and the new condition, each in parentheses, with AND: the text then asks in every SELECT for exactly the rows that fulfil the geometric constraint, the old condition as a whole and the new condition, where AND binds tighter than OR and conditions have the three truth values of SQL. Without the parentheses this is false.", "quantifier": "all trees with documented contents, all sequences of writes with valid indices, all conditions that are added, all truth values of the simple conditions that do not depend on spelling, all table mappings", "why_tests_cant": "The objects that programs can build are not the results of parsing texts that a test could list, and the claim on the meaning is about all conditions and all truth values of their parts.", "anchors": ["src/Query/Query_Specification/Select_From_Where_List.hxx:44-94", "src/Query/Query_Specification.hxx:51-59", "src/Query/Query.cxx:parse_it"]}
{"id": "C57", "title": "The tables, columns and functions that the tree names are those of the formatted text", "statement": "A program that walks through the tree of a query, at any depth, finds all tables, columns and functions that the formatted text names, and no others: reading the formatted text again gives a tree with the same list, in the same order and as often (with the exceptions of C52). The names of tables are identifiers with dots or mapped names, and they stand in the formatted text. A condition that is added to all SELECTs adds exactly what it names; a query used as a table of another one is found completely. The lists of tables that the library gives (get_combined_table_list) have only a part of this: tables of subqueries in conditions are missing.", "quantifier": "all accepted texts whose tree has none of the exceptions of C52, all well-made trees however they were built, all conditions that are added, all table mappings, all idempotent number formats", "why_tests_cant": "The claim is about names at every depth of every tree; a test sees a few trees.", "anchors": ["src/Query/Query_Specification/Select_From_Where_List.hxx:96-130", "src/Query/Query_Specification.hxx:62-94", "src/Query/Query.cxx:parse_it"]}
{"id": "C58", "title": "A query can be given other tables", "statement": "If a program exchanges the tables of a well-made tree (in FROM and JOIN, at any depth: in subqueries, WITH, conditions), and optionally its columns and the items t.*, for names that can stand in a text, the changed tree is formatted to a text that is read as the changed tree. The tables of that text are exactly the exchanged ones, in the same places; the functions, and with unchanged columns everything else, are those of the query. So if every table is replaced by one of an allowed set, nobody who reads the text finds a table outside of this set. No exchange changes nothing, two exchanges are one. Columns that name their table are not changed by themselves, so that tables need a correlation name.", "quantifier": "all well-made trees, all accepted texts whose tree has none of the exceptions of C52, all exchanges whose names can stand in a text, all allowed sets, all number formats", "why_tests_cant": "The claim is about all trees at any depth and all functions on names.", "anchors": ["src/Query/Query_Specification/Table_Reference.hxx:14-21", "src/Query/Query_Specification.hxx:12-18", "src/Query/Query.cxx:parse_it"]}
{"id": "C59", "title": "The mapped names are only put in", "statement": "The names that the table mapping gives to uploaded tables are put into the tree at the places of TAP_UPLOAD names (tables, qualifiers of columns, items t.*) and have no other influence: reading a text with a mapping is the same as reading it with a mapping that gives every uploaded table a mark and its own name, and then putting in the mapped names. So two mappings with the same uploaded tables accept the same texts, refuse the others with the same errors, and the trees differ in these names only. The formatted query is a pattern that depends on the text alone, into which the mapped names are put as they are, whatever characters they have. (The empty name is an exception: a condition can vanish with it.)", "quantifier": "all texts, all pairs of mappings with the same uploaded tables, all mapped names (not empty, for the formatted text), both treatments of a failed optional, all formattings of numbers", "why_tests_cant": "It compares two runs on every text for every choice of names; a name that influences the parse would show only on a text and a name that interact.", "anchors": ["src/Query/ADQL_parser/ADQL_parser/init_column_reference.cxx:checked_mapping", "src/Query/ADQL_parser/ADQL_parser/init_column_reference.cxx:tap_upload", "src/Query/Query.cxx:parse_it"]}
{"id": "C60", "title": "A query can be restricted at every depth", "statement": "When a program changes the SELECTs of a well-made query at every depth (in FROM, in conditions, in select lists, in WITH, behind UNION) so that each changed SELECT is well-made and no SELECT of a subquery gets a geometric constraint, the formatted text is accepted and read as the changed query. In particular, if it adds, for certain tables, conditions to all SELECTs that read these tables, then no SELECT of the query that is read from the formatted text gives a row for which the condition for one of its tables does not hold, and SELECTs without such tables are unchanged. Every table of a query is in the FROM clause of a SELECT, with one exception: a join that stands in the place of a subquery.", "quantifier": "all well-made query trees, all changes of SELECTs, all assignments of well-made conditions without subqueries to table names, all assignments of SQL truth values to simple conditions, both treatments of a failed optional, all formattings of numbers", "why_tests_cant": "A row leaks when one nesting of clauses, of which there are infinitely many, is not reached by the change or is read back with another precedence.", "anchors": ["src/Query/Subquery.hxx:11-16", "src/Query/Query_Specification.hxx:12-18", "src/Query/Query_Specification/Select_From_Where.hxx:10-17", "src/Query/Query_Specification/Where.hxx:8-13"]}
{"id": "C61", "title": "The formatted text of a query is a canonical form", "statement": "Two well-made queries are formatted to the same text if and only if they are the same query up to the spelling of keywords and of numbers; the same holds for values and for conditions by themselves. So texts can be compared, or used as keys of a cache, in place of queries: what is formatted to the same text has the same tables, columns and functions, as many SELECTs with the same TOP and quantifier, and asks for the same rows. It holds also between texts that were read with different names for the uploaded tables. Of trees that are not well-made it does not hold.", "quantifier": "all pairs of well-made trees, all pairs of accepted texts whose trees have none of the exceptions of C52 and all pairs of table mappings, all formattings of numbers that change nothing the second time", "why_tests_cant": "It excludes a collision between any two of infinitely many queries.", "anchors": ["src/Query/Query_Specification.hxx:12-18", "src/Query/Query_Specification/Value_Expression/ostream.cxx", "src/Query/Query.cxx:parse_it"]}
{"id": "C62", "title": "The number of rows can be limited", "statement": "When a program sets the TOP of every SELECT of a well-made query (those behind UNION included, those of subqueries not) to the smaller one of its TOP and a limit, the formatted text is accepted and read as a query whose SELECTs have exactly these TOPs, so at most the limit. They ask for the same rows otherwise, and the query names the same tables, columns and functions. A query within the limit is not changed, and two limits are the smaller one.", "quantifier": "all well-made trees, all accepted texts whose tree has none of the exceptions of C52, all limits, both treatments of a failed optional, all formattings of numbers that change nothing the second time", "why_tests_cant": "A SELECT that escapes the limit, or a number that is not printed or read as it is stored, could be in any query and for any number.", "anchors": ["src/Query/Query_Specification/Select.hxx:10-20", "src/Query/Query_Specification/Select_From_Where_List.hxx", "src/Query/Query.cxx:parse_it"]}
{"id": "C63", "title": "What a query gives can be filtered, counted and ordered from outside", "statement": "A program can put a SELECT around a well-made query without a geometric constraint: SELECT s FROM (q) AS x WHERE d GROUP BY g HAVING h ORDER BY o. The formatted text is accepted and read as one SELECT that has the query as its only table and asks for the rows of it for which d holds, whatever is in the query and in d; it names what the parts name and nothing else. The same holds for any number of such SELECTs around each other. Counting (SELECT COUNT(*)) and filtering (SELECT TOP n * ... WHERE ... ORDER BY ...) are of this kind for every name x and every well-made condition.", "quantifier": "all well-made trees and all accepted texts without geometric constraints whose tree has none of the exceptions of C52, all SELECTs around them with well-made parts, any number of them, all assignments of SQL truth values to simple conditions, both treatments of a failed optional, all formattings of numbers", "why_tests_cant": "The text of the query and the one of the condition could interact in any of infinitely many combinations, at any depth.", "anchors": ["src/Query/Query_Specification.hxx:12-18", "src/Query/Subquery.hxx:11-16", "src/Query/Query_Specification/Table_Reference.hxx:14-21", "src/Query/Query_Specification/Derived_Correlation.hxx"]}
{"id": "C64", "title": "Changes of a query can be combined, and a policy stays in force", "statement": "A service can make any number of changes to a well-made query without a geometric constraint, in any order: add conditions for tables to all its SELECTs (C60), limit its rows (C62), put a SELECT around it (C63). The formatted text of the result is accepted and read as the changed query. Whatever was done before, once conditions for tables have been added to all SELECTs, they stay in force under all further conditions, limits, and SELECTs without subqueries around the query: no SELECT at any depth of what is read from the text gives a row for which the condition of a table in its FROM clause does not hold. If a limit comes last, every SELECT of the query is limited by it as well. A SELECT with a subquery that is put around the query afterwards can break this.", "quantifier": "all well-made trees and all accepted texts without geometric constraints whose tree has none of the exceptions of C52, all sequences of changes with well-made parts, all SELECTs at any depth, all assignments of SQL truth values to simple conditions that do not depend on the spelling of the query, both treatments of a failed optional, all formattings of numbers", "why_tests_cant": "There are infinitely many sequences of changes, each of which acts on the result of the others at every depth of an arbitrary query; that a condition cannot be undone by a later change is a statement about all of them and about all rows.", "anchors": ["src/Query/Query_Specification.hxx:12-18", "src/Query/Query_Specification/Select_From_Where.hxx", "src/Query/Subquery.hxx:11-16", "src/Query/Query_Specification/Where.hxx"]}
{"id": "C65", "title": "A value that is put into a query as a literal stays a value", "statement": "A program compares an expression with a value it got from somewhere, one or several of them: it doubles the quotes in the value and puts it between quotes. For every value, whatever characters it has, the condition is well-made, and the parser reads the formatted query with this condition as the query that was meant: the literal has this value, its SELECTs ask for the rows for which the comparison holds too, and different values are read differently. The constructor reads the same text as the parser if neither the value nor the text around it contains one of the words CONTAINS and INTERSECTS. With other values this fails: the constructor moves text out of a literal, and a value can so remove the clauses that follow it, or add OR 1=1 to the condition.", "quantifier": "all values, all well-made trees, all well-made expressions and all comparison operators, all non-empty lists of values, all texts around a literal, all assignments of SQL truth values to simple conditions that do not depend on the spelling of the query, both treatments of a failed optional, all formattings of numbers", "why_tests_cant": "Values are arbitrary texts and come from an adversary; that none of them is read as something else is a statement about all of them, in every position of every query.", "anchors": ["src/Query/ADQL_parser/ADQL_parser/init_literals.cxx:53-55", "src/Query/Query.cxx:18-20", "src/Query/Query.cxx:tweak_input_string", "src/Query/Query_Specification/Where.hxx"]}
{"id": "C66", "title": "Every name can be the name of a table or a column", "statement": "A program asks for columns of a table, and for the rows in which a column has a value: SELECT \"c\", \"d\", ... FROM \"s\".\"t\" WHERE (\"k\" = 'v'), with all names between double quotes, all values between quotes, and the quotes in them doubled. Whatever the names and the value are, key words, blanks, quotes, comments, if only the names are not empty: the parser reads this text as the query that was meant, it asks for the rows for which the comparison holds, and it uses this table and these columns and nothing else. The constructor does the same if none of the names and values contains one of the words CONTAINS and INTERSECTS; with them it can change the names.", "quantifier": "all non-empty names of schema, table and columns, all non-empty lists of columns, all values, all assignments of SQL truth values to simple conditions that do not depend on the spelling of the query, all table mappings, both treatments of a failed optional, all formattings of numbers", "why_tests_cant": "Names and values are arbitrary texts, and there is any number of them; a test tries a few.", "anchors": ["src/Query/ADQL_parser/ADQL_parser/init_identifier.cxx:40-46", "src/Query/ADQL_parser/ADQL_parser/init_literals.cxx:53-55", "src/Query/Query.cxx:18-20", "src/Query/Query_Specification/Select_From_Where.hxx"]}
{"id": "C67", "title": "Every value can be put into a query safely", "statement": "C65 shows that the constructor can rewrite the inside of a string literal, so that a value leaves its literal although its quotes have been doubled. There is a way of writing literals that is safe for every value: one part for every character, 'a' line end 'b' line end .... This text is a string literal for the parser, its value is the value it was made of, the constructor leaves the text as it is if what is around the literal does not contain one of the words CONTAINS and INTERSECTS, and a query restricted by a comparison with it is read as the query that was meant.", "quantifier": "all values, all texts around the literal without the two words, all well-made queries and expressions, all operators of comparison, all assignments of SQL truth values to simple conditions that do not depend on the spelling of the query, all table mappings, both treatments of a failed optional, all formattings of numbers", "why_tests_cant": "The value is an arbitrary text chosen by an adversary; a test tries a few, and the rewriting depends on everything around it.", "anchors": ["src/Query/ADQL_parser/ADQL_parser/init_literals.cxx:53-55", "src/Query/Query.cxx:18-20", "src/Query/Query_Specification/Select_From_Where.hxx"]}
{"id": "C68", "title": "Every user sees only the user's own rows", "statement": "Some tables have a column with the owner of the row. A service parses the text of a user, adds to every SELECT that reads such a table, also in subqueries, the condition that the owner is the user, makes further changes of the kinds of C64, and sends the formatted text to the database. Whatever the user writes, and whatever the name of the user is, also with quotes, comments, or the words that the constructor rewrites: the text is read as a query of which no SELECT gives a row of another owner, and of which every SELECT has the limit that was added last.", "quantifier": "all texts that the constructor accepts and whose trees have nothing that C56 excludes, and no geometric constraint if there are other changes than the conditions and the limit, all names of users, all assignments of owner columns to tables, all well-made changes before, all harmless changes after, all limits, all assignments of SQL truth values to simple conditions that do not depend on the spelling of the query, all table mappings, both treatments of a failed optional, all formattings of numbers", "why_tests_cant": "Both the text and the name of the user are chosen by an adversary, and nothing must be in between; a test tries a few of them.", "anchors": ["src/Query/Query.cxx:18-20", "src/Query/Query_Specification.hxx", "src/Query/Query_Specification/Select_From_Where.hxx", "src/Query/ADQL_parser/ADQL_parser/init_literals.cxx:53-55"]}
{"id": "C69", "title": "Whole numbers that are put into a query stay numbers", "statement": "A program restricts a query to the rows for which an expression is between two whole numbers, e BETWEEN -3 AND 12, with the numbers written in decimal and a minus sign if they are negative. Whatever the numbers are: the digits are a numeric literal, sign and digits have the value of the number, the formatted text is read as the query that was meant, with the AND of BETWEEN not taken for a connective, it asks for the rows for which the condition and the former conditions hold, the two numbers can be got back from what is read, and the constructor does not rewrite the text if what is around the numbers does not contain one of the words CONTAINS and INTERSECTS.", "quantifier": "all whole numbers of any size, all well-made queries and expressions, all texts around the numbers without the two words, all assignments of SQL truth values to simple conditions that do not depend on the spelling of the query, all table mappings, both treatments of a failed optional, all formattings of numbers in geometries", "why_tests_cant": "There are infinitely many numbers and queries; a test tries a few of them.", "anchors": ["src/Query/ADQL_parser/ADQL_parser/init_literals.cxx", "src/Query/Query.cxx:18-20", "src/Query/Query_Specification/Select_From_Where.hxx"]}
{"id": "C70", "title": "Changes bring nothing into a query that is not their own", "statement": "A service looks at the tables, columns and functions that the parsed query of a user names at any depth, lets it through or not, and then changes it: conditions for tables in all SELECTs, limits, SELECTs around it. Whoever reads the formatted text of the changed query finds only names that the query of the user had or that one of the changes names itself; so if the service lets through what it permits, and its changes name only what is permitted, everything in the text is permitted. With conditions on the owner of rows and a limit, the text has no tables and no functions that the user did not name, and no further columns but those of the owners. Nor do the changes take a name out of the query: the text still has all names of the query of the user.", "quantifier": "all texts that the constructor accepts and whose trees have nothing that C56 excludes, and no geometric constraint if there are other changes than the conditions on owners and the limit, all sequences of well-made changes, all predicates on names, all names of users, all table mappings, both treatments of a failed optional, all formattings of numbers", "why_tests_cant": "It is about all queries at all depths and all sequences of changes; a table that slips in somewhere is what a test does not think of.", "anchors": ["src/Query/Query.cxx:18-20", "src/Query/Query_Specification.hxx", "src/Query/Query_Specification/Select_From_Where.hxx"]}
