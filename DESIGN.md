# Formal model of libadql in Lean 4

## 1. What is modelled

| Part of `/repo` | Lean module | Remarks |
|---|---|---|
| Boost.Spirit Qi operators used by the grammar | `Verif/Peg/Core.lean` | deep embedding `P`, interpreter `step`/`run`; *assumed* semantics, see section 3 |
| all classes of `src/Query/Query_Specification/**` (members) | `Verif/Model/Ast.lean` | one inductive type per class, wrappers inlined |
| all `empty()` and `operator<<` | `Verif/Model/Print.lean` | numbers are printed by a parameter `fmt` |
| `init_reserved_words.cxx` | `Verif/Model/Words.lean` | generated, same order |
| all other `init_*.cxx` | `Verif/Model/Grammar.lean` | rule by rule |
| `std::regex` | `Verif/Model/Regex.lean` | assumed semantics, see section 3 |
| `Query.cxx` (preprocessing, `parse_it`, constructor) | `Verif/Model/Query.lean` | |
| `Select_From_Where_List.hxx`, `Query_Specification.hxx`, `Query.hxx`, `simplified_columns.cxx`, `evaluate`, `double_or_throw` | `Verif/Model/Access.lean` | |
| the mutable accessors, the other constructors of `Query.hxx` | `Verif/Model/Update.lean` | a write through a reference is a function on what it points to |
| the number of rule calls of the constructor | `Verif/Peg/Cost.lean`, `Verif/Model/Calls.lean` | counts calls of the recursive rules only, so it is a lower bound of the work |
| the nesting of rule calls of the constructor | `Verif/Peg/Nest.lean`, `Verif/Props/Nest.lean` | counts calls of the recursive rules only, so it is a lower bound of the stack depth; frames of the inlined rules, of copies and of destructors are not counted |

Not modelled: IEEE `double` (a numeral is kept as its text, printing goes through an arbitrary
function `fmt : Str → Str`, arithmetic through an arbitrary structure `Arith`), memory, the machine
stack (very deep nesting overflows the C++ stack, the model has none), debugging nodes, exact
wording of messages other than the quoted text (the model names the expected component; the parser prints
the name of a rule, or a description by Boost of a component without one), `assert`s (compiled out).
`simplified_columns_list` is declared in `Query.hxx` and defined nowhere.

The model is validated against the repository's own test list (`test/parse_adql.cxx`): all 255
accepted and 60 rejected texts behave as the test program demands, including the re-parse check
(`Verif/Test/Suite.lean`; these are tests, not proofs).

## 2. Method

* `Peg/Meta.lean`: metatheory of `P`, once for all grammars: remainders are suffixes, more fuel
  changes nothing, a syntactic check (no left recursion, no empty loop) implies that fuel
  `4·(length+1)` suffices.  `Model/WF.lean` establishes the check for every rule of the grammar.
* `Peg/Inv.lean`: inversion of the interpreter, one lemma per operator and outcome.
* `Peg/Sem.lean`: `sem`, a relational over-approximation of runs (consumed text, attribute, rest);
  `Peg/Post.lean` builds on it the calculus `AP` of postconditions, `Model/Parsed.lean` applies it
  rule by rule.
* `Peg/Rel.lean`, `Peg/Fold.lean`: two runs side by side, with different table mappings and on texts
  that differ in letter case; `Model/FoldRules.lean` applies the latter rule by rule.
* `Peg/Head.lean`, `Calm.lean`, `NoFail.lean`, `Closed.lean`: syntactic checks for "leading blanks do
  not matter", "cannot throw", "cannot fail", "calls no rule".
* `Model/Scan.lean`, `Lex*.lean`, `Upload.lean`: exact equations for the lexical rules.
* `Spec/Text.lean`, `Model/Reading.lean`, `Model/Faithful*.lean`: the consumed text and the formatted
  text are read side by side; everything that may differ is a constructor of `Spec.Edit`.
* `Peg/First.lean`, `Model/Dead.lean`: which first characters and words a rule can start with, and that
  a rule fails on a text that starts otherwise.
* `Spec/Core.lean`: the core language, an inductive relation between texts and trees written like a
  context-free grammar.  `Model/Accept*.lean` show rule by rule that the parser finds the tree that a
  text of the core language spells (induction on the derivation, with what may follow the text as a
  side condition); `Model/Reprint.lean` shows that the formatted text of such a tree is in the core
  language again and spells the same tree up to `Spec/Same.lean`.
* `Model/Origin.lean`: every node of a parsed tree comes from a run of one of the rules; `Model/Reach.lean`
  derives from this what no text can lead to.  `Model/Spell.lean`: every regular tree is spelled by a text
  of the core language.
* `Model/Seal.lean`: what a reader of the formatted text has open, quotes and brackets, after each part;
  `Model/Closes.lean` says the same of the text that the parser reads.
* `Spec/Compose.lean`: the texts and trees of queries that are made of other queries.
* `Peg/Spacing.lean`, `Model/SpacingRules.lean`: two runs on texts that differ in blanks.
* `Peg/Cost.lean`, `Peg/Nest.lean`: the number of rule calls and their nesting; `Peg/Blame.lean`: what the
  failure of an expected component says about the text.
* `Spec/Comment.lean`, `Props/Comment.lean`: an automaton for quotes and pairs of minus signs, run over
  the side-by-side reading of C16.
* `Model/RegexSem.lean`, `RegexGeom.lean`: soundness and completeness of the regex matcher and what
  the expression of Query.cxx matches.
* `Spec/*.lean`: specifications that do not mention the parser.
* `Props/*.lean`: the property theorems, next to each theorem an `example` with a concrete
  non-trivial instance of its hypotheses.
* `Test/Suite.lean`: the test list of the repository, run on the model at compile time (tests, not
  proofs).
* When the code violates a property, the violation is a theorem with a concrete witness evaluated by
  the kernel, accompanied by the theorem describing when the property holds.

## 3. Trusted base

* Lean 4.33.0's kernel.
* Axioms of the theorems of MANIFEST.json, from `#print axioms`; the project declares no axioms of its own.
  None:
  `C61_needed`.
  `propext`:
  `C09_violated`, `C13_tap_upload`, `C15_empty_name`, `C17_mapped`, `C17_nan`, `C19_print`, `C22_violated`, `C29_violated`,
  `C30_equivalent_parens_partial`, `C30_equivalent_partial`, `C30_text`, `C31_violated`, `C32_violated`, `C33_intersects_function`, `C37_violated`,
  `C43_cut_right`, `C45_columns`, `C45_default`, `C45_print`, `C46_emptied`, `C48_exceptions`, `C48_notIn`, `C53_comment`, `C54_comment`, `C54_nan`,
  `C54_rewritten`, `C55_geometry`, `C55_union_limits`, `C56_logic`, `C56_means`, `C56_parentheses`, `C56_restrict`, `C56_selected`, `C56_top`,
  `C56_where`, `C57_table`, `C58_comp`, `C58_id`, `C58_keeps`, `C58_tables`, `C59_empty_name`, `C60_join`, `C60_selects`, `C63_counting`,
  `C63_counting_text`, `C63_filtering`, `C65_compared`, `C65_injection`, `C65_literal`, `C65_violated`, `C66_name`, `C66_violated`, `C67_compared`,
  `C67_quoted`, `C68_guarded`, `C69_text`, `expands_unique`.
  `propext`, `Quot.sound`:
  `C18_violated`, `C18_violated_comment`, `C18_violated_mapping`, `C43_cut_geometry`, `C43_violated`, `C43_violated_geometry`, `C46_print`,
  `C46_select`, `C46_writes`, `C50_reported`, `C52_text`, `C53_alphabet`, `C53_inside`, `C53_quotes`, `C53_semicolon`, `C56_by_text`, `C56_condition`,
  `C56_write`, `C57_listed`, `C57_nodes`, `C57_restricted`, `C57_same`, `C57_unlisted`, `C58_functions`, `C58_listed`, `C58_names`, `C58_parts`,
  `C60_from_part`, `C60_parts`, `C60_tables`, `C62_tree`, `C65_among`, `C66_pick`, `C68_everywhere`, `C70_kept`, `C70_owner`, `C70_step`, `C70_steps`,
  `respacedB_sound`.
  `propext`, `Classical.choice`, `Quot.sound`: all others.
* Faithfulness of the transcription (every definition cites file and lines).
* Assumed semantics of Boost.Spirit Qi:
  - `>>`, `|`, `*`, `+`, `-`, `%`, `!`, `&`, difference are PEG operators; a chosen alternative is
    never revisited; `a > b` throws `expectation_failure` when `b` fails;
  - the exception leaves every rule up to `query`, the only rule with `on_error<fail>`;
    `checked_mapping`'s `runtime_error` is not caught;
  - a rule without skipper called under a skipper pre-skips and then does not skip (`lexeme`);
  - `no_case[string(w)]` yields the text as written; `lit` has no attribute; `hold` rolls back;
    a container attribute of a failed optional is not rolled back: the only place where this is
    observable is the NOT of `boolean_factor`, modelled by `Config.residue` (both behaviours are
    covered by the theorems);
  - `space` is the six ASCII blanks; bytes above 127 belong to no class;
  - `ulong_long` fails above 2^64-1; `double_` accepts the usual numerals, `inf`, `nan`;
  - the quoted rest in an expectation error is the text at the failing component before its
    pre-skip (Qi may quote it after the pre-skip).
* Assumed semantics of `std::regex` (libstdc++, ECMAScript, `icase`): backtracking in priority
  order, leftmost match, `.` excludes `\n` and `\r`, `$` only at the end; format strings of
  `regex_replace` as in libstdc++.

## 4. Properties and how each is proved

| Id | Model | Proof |
|---|---|---|
| C01 | grammar + interpreter | generic termination theorem + kernel evaluation of the static check |
| C02 | `parseIt` | suffix theorem, case analysis |
| C03 | `construct` | invariant on errors (`Peg/Rel.lean`), exact equations for SELECT |
| C04 | `regularIdentifier` | exact characterisation by induction on the text |
| C05 | word tables | kernel evaluation over the complete table, lifted by a lemma to all texts |
| C06, C07, C08 | literal rules | characterisation by induction on the text |
| C09 | literal rules | general theorem about all identifiers with these prefixes + witnesses |
| C10 | `tapUpload`, `tableName`, `columnReference` | exact equations |
| C11, C12 | relational calculus on two runs | induction on fuel and grammar |
| C13 | two-run calculus `Fold`, texts equal up to case | induction on fuel and grammar |
| C14 | `geometry`, printing | `AP` |
| C15 | all rules, all `isEmpty` | `AP` |
| C16 | all rules, all `print` | side-by-side reading, inductive relation `Spec.Edit` |
| C17 | corollary of C16 | |
| C18 | `construct`, `print` | witnesses of violation; C39 and `Model/Reprint.lean` for the core language, `Model/Spell.lean` for all texts with a regular tree, `Model/Reach.lean` for all accepted texts whose tree has none of the constructs excluded by `Spec.Usual` (`_partial`) |
| C19 | `topClause`, `printSelect` | arithmetic of digit strings |
| C20–C23 | accessors, on parsed queries via C15 | induction on lists |
| C24 | `evaluate` + invariant that parsed operators are one of four | `AP` |
| C25, C26 | `checkAndAdjustParens` | induction on the texts; counterexample with 65536 parentheses by computation lemma, not by running; exact characterisation of the check for all texts, with the count taken modulo 65536 |
| C27–C32 | regex matcher | soundness of the matcher (decomposition of the text), witnesses |
| C28, C42, C43 | order in which the matcher tries | `Model/RegexBest.lean`: the first match is the longest left condition, shortest geometry, shortest right condition (`Spec.Chosen`) |
| C33, C34, C38 | all rules | `AP`, side-by-side reading |
| C35 | `coordSys` | exact equations |
| C36 | interpreter | skipping lemma |
| C37 | `booleanFactor` | `AP`, witness with `residue` |
| C39 | all rules, core language | induction on derivations, `Model/Accept*.lean` |
| C40, C41 | all rules, all `print` | C16 and an automaton; witness of violation |
| C44 | two runs with different mappings | `Peg/Rel.lean`, exact equation of `tapUpload` |
| C45, C46 | `Model/Update.lean` | invariant `Spec.Usable`, induction on lists and on sequences of writes |
| C47 | `Peg/Cost.lean`, `Model/Calls.lean` | lower bound from C39 and the order of the alternatives, by induction on the parentheses; upper bound by induction on fuel and grammar (`_partial`) |
| C48 | two-run calculus `Sp`, texts equal up to blanks | `Peg/Spacing.lean`, rule by rule in `Model/SpacingRules.lean`; witnesses for every exception |
| C49 | `Peg/Nest.lean`: maximum instead of sum of rule calls | the number is the least bound with which `run` finishes (`run_enough`); from below as C47, from above by the termination proof |
| C50 | `Peg/Blame.lean`: every expected component of a rule comes with what its failure says | `Spec/Messages.lean` says it without the grammar for symbols and words; one text per message |
| C51 | all rules, `Spec/Alternatives.lean` | `Model/Origin.lean` and `Model/Reach.lean` for what no text reaches, witnesses evaluated by the kernel for the rest |
| C52 | all rules, all `print`, `Spec/Same.lean` | `Model/Reprint.lean` by induction on derivations, `Model/Spell.lean` and `Model/Reach.lean` as in C18; `Model/Normal.lean`: the normal form has the same text |
| C53 | all rules, all `print` | `Model/Seal.lean`: an automaton over quotes and brackets, induction on the tree with the lexical facts of C34; C41 for comments |
| C54 | all rules | `Model/Closes.lean`: one lemma per combinator says how what it reads changes the quotes and brackets that are open; all rules are neutral |
| C55 | `query`, `subquery`, `select_from_where_list`, printing | `Props/Compose.lean`: derivations of the core language are put together (C39), with C52 for formatted texts |
| C56 | printing, writes (`Model/Update.lean`), the whole grammar | `Props/Edited.lean`: well-made trees have a text of the core language (`sp_query`), so C39 and C52 apply; writes and `restrict` keep trees well-made; meaning of conditions in `Spec/Restrict.lean` |
| C57 | the whole tree, printing | `Props/Uses.lean`: `uses` (`Spec/Uses.lean`) is invariant under `norm`, so C52 and C56 apply; it lists what the nodes name (`Model/Named.lean`) |
| C58 | the whole tree, printing, the whole grammar | `Props/Exchange.lean`: `exch` (`Spec/Exchange.lean`) commutes with the parts of a tree (`Model/Exchange.lean`), keeps trees well-made (`Model/ExchangeMade.lean`), so C56 applies, and maps the names (`Model/ExchangeUses.lean`) |
| C59 | the whole grammar, printing | `Props/Mapping.lean`: two runs whose rules differ by a function on the attributes (`Peg/Comm.lean`), rule by rule (`Model/CommRules.lean`); the texts of trees with exchanged names are one pattern with gaps (`Model/Pattern.lean`) |
| C60 | trees changed by a program, printing, the whole grammar | `Props/Deep.lean`: changes of every SELECT at every depth (`Spec/Deep.lean`) keep well-made trees well made (`Model/DeepMade.lean`); every table is read by a SELECT or by a join in the place of a subquery (`Model/DeepReads.lean`). `Props/Everywhere.lean`: the SELECTs of the list are exactly those that are parts of the tree (`Model/SelectsSub.lean`, `Model/SelectsAll.lean`) |
| C61 | printing, the whole grammar | `Props/Canonical.lean`: from C56 (the text is read as the query) and C52 (the normal form has the same text); values and conditions are put into a small query |
| C62 | trees changed by a program, printing, the whole grammar | `Props/Limit.lean`, `Spec/Limit.lean`: from C56, as a change of every SELECT |
| C63 | trees made by a program, printing, the whole grammar | `Props/Around.lean`, `Spec/Around.lean`: the tree is well-made if its parts are, then C56; the parts of what is read by inversion of the normal form |
| C64 | trees made by a program, printing, the whole grammar | `Props/Policy.lean`, `Spec/Policy.lean`, `Model/DeepFlat.lean`, `Model/DeepEmpty.lean`: every change keeps trees well-made, then C56; every change keeps the conditions, by induction over the changes |
| C65 | literals, trees made by a program, the preprocessing | `Props/Value.lean`, `Spec/Value.lean`: the condition is well-made for every value, then C56; a word without a quote that is in the text is in one of its parts, then C27; two values that leave their literal |
| C66 | identifiers, literals, trees made by a program, the preprocessing | `Props/Lookup.lean`, `Spec/Lookup.lean`: the tree is well-made for all names, then C56, C57 and C65; its text by computation; the constructor as in C65 |
| C67 | string literals, trees made by a program, the preprocessing | `Props/Parts.lean`, `Spec/Parts.lean`: induction on the value for the literal, its value (`litValue`, a reading of SQL-92 §5.3 that is not part of libadql) and the words in it; then C27, C56 and C66 |
| C68 | as C64 and C67 | `Props/Owner.lean`, `Spec/Owner.lean`: the conditions on the owners meet the hypotheses of C64 for all names and values; what its guards mean for them; `Props/Everywhere.lean` says it of all SELECTs that are parts of the tree. Tables are told apart by their text in the tree; whether two spellings mean one table is not modelled |
| C69 | numeric literals, trees made by a program, the preprocessing | `Props/Span.lean`, `Spec/Span.lean`: the value of the digits by C19, then C27 and C56; the numbers are got back by comparing trees |
| C70 | as C64 and C57 | `Props/Allowed.lean`, `Spec/Allowed.lean`, `Model/DeepUses.lean`: induction over trees for any relation between lists of names that can be used part by part, induction over the changes, then C57 and C64. That nothing is lost (`C70_kept`, `C70_steps_kept`, `C70_all_there`, `C70_owned_kept`; `Model/DeepGives.lean`) needs that no SELECT hides a condition behind an empty one; no parsed query (`C70_parsed`, C15) and no well-made one (`C70_made`) does, as all their SELECTs are parts of the tree (`Model/SelectsSub.lean`) |

Nothing in the list is outside the model.

What the core language (C18, C39) leaves out, although the code accepts it:

* geometric constraints after an AND, for the constructor: the text is rearranged first (C28; C42 says when
  the result is the tree of the rearranged text);
* table functions with an empty argument list, which C18 refutes;
* `END` in front of `-EXEC`, which is accepted as a name (the six reserved words that are accepted as names,
  C05, are in the language, but only `AREA` as the first name of an expression);
* as the first name of an expression: the words that the code reads as the beginning of something else
  (`Spec.openWords`), and for columns names that begin with `TRUE`, `FALSE` or `CURRENT_TIMESTAMP`
  (`Spec.PlainWord`);
* where the code looks for a word first, names that begin with this word: `EXISTS` at a condition that is an
  expression only, `WITH` and `SELECT` at the list of an IN and at a join that is a subquery, and `NOT` at a condition if the parser has the residue
  of §3 (the field `nots` of `Mode`; `wordText_residue` shows that the condition is negated then).  The functions
  `firstExpr`, `firstBP`, … of `Spec/Core.lean` say with which name a tree begins;
* a WITH clause without AS, `UNION` without the blank before it, and similar texts in which the code does
  not demand the blanks that the core language demands around words;
* negated operands after a string and a minus sign (only for C18, the field `strict` of `Mode`;
  `C18_violated_comment` shows that some of them must be left out).

Conditions as values (arguments of functions, selected columns, right sides of comparisons) are in the
language (`ValT`), as far as they do not begin with an expression: the code tries an expression first and does
not come back to the condition.

Names of uploaded tables are in the language: the field `up` of `Spec.Mode` says what they stand for.  C39
needs the mapping of the parser to say the same (`Fwd.Fits`), and C18 needs it to give names of tables
(`Prints`; the hypothesis is spelt out in `C18_uploads_partial`, and `C18_violated_mapping` shows that it
is needed).

`Spec.Regular` says the same of trees, node by node.  `Model/Spell.lean` shows that every tree with the
documented contents (`Spec.Ranges`, which C34 establishes for every parsed query) and with regular nodes
is spelt by some text of the core language, by structural recursion over the tree.  Since the formatted text
depends on the tree only, C18 follows for every accepted text with a regular tree (`C18_regular_partial`,
`C18_stable_partial`), also for texts outside the core language.

Most of the conditions of `Spec.Regular` hold of every tree that the parser builds.  `Model/Origin.lean` says of
every node of a parsed tree which rule made it (`Came`, `came_query`), and `Model/Reach.lean` derives the
conditions from the rules: for example that the lower bound of a BETWEEN is never a condition, because the code
reads `AND` as the logical operator then.  What is left is `Spec.Usual`, and `C18_accepted_partial` needs
only this.

In the core language the flag `G` says whether a WHERE clause may begin with a geometric constraint; inside
a subquery it may not, as in the code.  C18 assumes of the formatting of doubles only that the text of a
number is a number, an infinity or a not-a-number without argument, and that formatting it again changes
nothing (`Spec.FmtNum`).

Mutation tests (`seeded/LOG.jsonl`): each line is one edit of a definition in a scratch copy, the claim it
breaks and the modules and theorems in which the build failed.  Lake stops at the first failing layer of
modules, so the theorems of later modules are not listed.  `Edit.noTop` was tightened after a review of
this kind: it allowed any list to be dropped after a SELECT.

## 5. Findings

Behaviour of the code that contradicts a property or is surprising.  Each is a consequence of the
model; those with a theorem name are proved.

* Reserved words TOP, INTERSECTS, ATAN2, ATAN, ASIN, AREA are accepted as identifiers: an earlier
  alternative of the keyword rule matches a proper prefix and the choice is not revisited
  (`C05_missed_accepted`).
* `SELECT false_alarm FROM t` is refused and `SELECT falsefrom t` accepted, because TRUE, FALSE, NULL,
  CURRENT_TIMESTAMP have no word boundary (`C09_violated`).
* `TAP_UPLOAD.` is recognised in upper case only (`C13_tap_upload`).
* A mapped table name that is empty hides a WHERE clause (`C15_empty_name`), so that the text is then not the pattern of the other names (`C59_empty_name`).
* A join can stand in the place of a subquery (`EXISTS (t JOIN u USING (k))`).  Its tables are read by no SELECT, so a program that adds a
  condition to the SELECTs of a query, to hide rows of `t`, does not reach them (`C60_join`).
* `SELECT all ...` is not recognised by `is_simple_spatial_with_no_inner_from` (`C22_violated`).
* Parentheses are counted modulo 65536 (`C26_violated`, exactly: `C26_exact`), also inside string literals. After 65536
  of them the geometry `CONTAINS(p,q)` even loses its own closing parenthesis (`C26_geometry_cut`).
* The text after a rewritten geometry predicate (ORDER BY, GROUP BY, ...) is dropped
  (`C29_tail_dropped`), whatever it is, also a second statement after a semicolon (`C54_rewritten`); the rewrite ignores OR (`C30_violated`) and UNION (`C31_violated`), and
  interprets dollar signs of the text as format characters (`C32_violated`).
* The constructor rewrites inside of string literals. A program that puts a value into a query as a literal, with all quotes doubled, is not safe:
  with the value `x AND CONTAINS(POINT(1,2),CIRCLE(1,2,3))=1 AND y` the query gets a constraint and loses GROUP BY and HAVING (`C65_violated`);
  because `$1` in the value is replaced by the text before it, which has an open quote, the value ` AND CONTAINS(POINT(1,2),d)=1 AND $1 OR 1=1 OR $1`
  turns `b = '...' AND c = 'me'` into a condition with `OR 1 = 1`, and another one removes the condition on `c` (`C65_injection`).
  A literal with one part for every character (`'a'` line end `'b'` ...) is safe for every value (C67).
* `get_combined_table_list` and `get_table_lists_by_sfw` have no tables of subqueries in conditions (`C57_unlisted`).
* A query with CONTAINS in its WHERE cannot be a subquery (`C55_geometry`).
* The text of a WHERE clause with a geometric constraint and a condition has no parentheses around the condition: `g AND a OR b` is
  read into a tree that has `g` on one side and `a OR b` on the other, but asks for `(g AND a) OR b` (`C56_parentheses`).
* INTERSECTS inside a subquery is accepted as a user-defined function (`C33_intersects_function`).
* If a failed optional keeps its attribute, `WHERE notes > 3` is negated (`C37_violated`).
* `TOP 18446744073709551615` is stored but not printed (`C19_print`).
* A missing coordinate system is printed as `'ICRS GEOCENTER'` (`C35_print`).
* `x nothing`, `x in(1)`, `exists_flag` and INNER JOIN after a bare boolean condition throw, because
  NOT, IN, EXISTS are followed by an expectation of a blank.
* `table(f(''))` is printed as `table(f())`, which is refused.
* `UNION  ALL` with two blanks is refused; so are two string parts separated by a tab, and a blank after `table(`
  (`C48_exceptions`).  The first blank between NOT and IN is stored in the tree (`C48_notIn`).
* A minus sign before a negated operand is formatted as `--`, which starts a comment in SQL (`C40_violated`:
  `a - -b` becomes `a--b`).  Between strings the library itself reads it as a comment: `SELECT 'a' - -'⏎', 'b' FROM t`, with a line
  end in the second string, is formatted to a text that is refused.
* `SELECT top FROM t` throws, `SELECT a, top FROM t` does not.
* In an IN list, a first element whose name begins with SELECT or WITH throws (`a IN (selection, b)`).
* `f(a=b)` is refused, `SELECT (a=b)` accepted; `WHERE (a) + 1` is refused, `WHERE (a) + 1 > 2` accepted.
* `ON ((a.x=b.x)) INNER JOIN ...` and `ON (NOT a.x=b.x) INNER JOIN ...` throw, `ON (a.x=b.x) INNER JOIN ...`
  does not: after a bare condition the beginning of INNER is read as IN.
* `a JOIN b JOIN c ON p` nests to the right, without a specification for the outer join.
* `x = ANY(SELECT ...)` is refused; USING needs a blank before its parenthesis.
* `simplified_columns_list` is declared but not defined.
* The one-argument constructor passes a mapping with one entry (`""` to `""`), not an empty one; no query can tell (`C44_one_argument`).
* Of a default-constructed query, `get_sfw(0)` returns a component although the count is 0 (`C45_default`); so does
  `simplified_columns()`, which returns one pair of empty texts.
* Emptying the tables of the first component through `get_sfw` makes all other components unreachable (`C46_emptied`).
* `WITH ... (...) foo` reports a missing SELECT and quotes the whole text.
* `WHERE (CONTAINS(...)=1) AND x=3` is refused: a constraint in parentheses may not be followed by AND.
* `INTERSECTS(POINT('ICRS',1,2), CIRCLE(...))` is refused: the first argument must be a value expression
  (init_geometry.cxx L78), so only a column or a function works.
* `AREA(...) > 3` and `CENTROID(...)` are refused; the words are reserved only.
* The coordinates `1- -2` are formatted `1--2`; a lone coordinate `inf` is read as a column, `-inf` as a number.
* HAVING inside of a name or a string cuts the condition to the right of a moved constraint, AND, GROUP and ORDER inside of a
  name or a string cut the constraint (`C43_violated`, `C43_violated_geometry`).
* `WHERE  x=1 AND CONTAINS(...)=1` with two blanks after WHERE is not rearranged and therefore refused; so is a
  condition with a line end inside of it (at its two ends a line end is allowed), and a tab after that AND
  (`C48_exceptions`).
* Of several constraints the last one is moved (`Spec.Chosen` demands the longest condition on the left), and the query is refused.
* `WHERE x=1 AND CONTAINS(...)=1 OR y=2` is refused; a constraint after AND in the WHERE clause of a subquery ends with the
  error of the parenthesis check.
* The two asserts of `tweak_input_string` name variables before their declaration; the file compiles only with NDEBUG.
* Each pair of parentheses around a condition at least doubles the work of the parser, because the condition is read again when no
  AND or OR follows (`C47_construct`, `C47_not_polynomial`): `SELECT a FROM t WHERE ((((a=1))))` is cheap, but forty pairs of
  parentheses, about one hundred characters, mean more than 10^12 rule calls.  So do nested subqueries:
  `n` subqueries `EXISTS (SELECT ... WHERE ...)` inside each other mean at least `2 ^ n` rule calls on `31 n + 25` characters (`C47_subqueries`).
* Nothing limits the nesting of the rule calls: it grows with the number of parentheses (`C49_unbounded`), so a long enough text that
  the grammar accepts exhausts any machine stack.  This needs no time: a value in `n + 1` pairs
  of parentheses is accepted after `6 n + 17` rule calls, of which `2 n + 2` are open at the same time (`C49_cheap`).
