{
 "claims": [
  {
   "property": "C01",
   "status": "proved",
   "theorems": [
    "Verif.C01_tokenize_lossless"
   ],
   "note": "for every dialect and every source text"
  },
  {
   "property": "C02",
   "status": "proved",
   "theorems": [
    "Verif.C02_positions_contiguous"
   ],
   "note": "for every dialect"
  },
  {
   "property": "C03",
   "status": "proved",
   "theorems": [
    "Verif.C03_positions_increase"
   ],
   "note": "for every dialect, with and without comments"
  },
  {
   "property": "C04",
   "status": "partial",
   "theorems": [
    "Verif.C04_lines_false",
    "Verif.C04_lines_partial",
    "Verif.C04_columns_partial",
    "Verif.C04_exact",
    "Verif.C04_lines_iff"
   ],
   "note": "false as stated (line breaks inside literals are not counted): C04_lines_false. Exactly: C04_lines_iff says for which tokens the line is right, and C04_exact gives the position of every token of every text; C04_lines_partial and C04_columns_partial are the texts on which all lines, or all lines and columns, are right"
  },
  {
   "property": "C05",
   "status": "partial",
   "theorems": [
    "Verif.C05_fuel_irrelevant",
    "Verif.C05_unclosed_identifier_diverges",
    "Verif.C05_diverges_iff",
    "Verif.C05_terminates_partial"
   ],
   "note": "false as stated (unclosed identifier quote loops for ever); exact characterisation of divergence proved, and termination for texts without identifier quotes"
  },
  {
   "property": "C06",
   "status": "proved",
   "theorems": [
    "Verif.C06_error_iff",
    "Verif.C06_success_iff"
   ],
   "note": "exact characterisation of error and success for every dialect without overlapping character classes, which includes the three built-in ones"
  },
  {
   "property": "C07",
   "status": "proved",
   "theorems": [
    "Verif.C07_string_literal",
    "Verif.C07_national_literal",
    "Verif.C07_string_alone"
   ],
   "note": "for every text and position"
  },
  {
   "property": "C08",
   "status": "partial",
   "theorems": [
    "Verif.C08_comment_text_exact",
    "Verif.C08_preserved_iff",
    "Verif.C08_comment_text_false",
    "Verif.C08_comment_text_partial",
    "Verif.C08_star_garbled"
   ],
   "note": "False as stated (C08_comment_text_false). C08_comment_text_exact says for every body without */, anywhere in a text, what the text of the token and its end position are: CR LF becomes CR, and of every run of stars that is not at the end of the body one star is lost and the character behind it is doubled (unLf and unStar in Spec/CommentText.lean). C08_preserved_iff: the text is preserved if and only if there is no CR LF and all stars are at the end. C08_comment_text_partial and C08_star_garbled are special cases."
  },
  {
   "property": "C09",
   "status": "proved",
   "theorems": [
    "Verif.C09_disable_comments"
   ],
   "note": "for every dialect and every outcome"
  },
  {
   "property": "C10",
   "status": "proved",
   "theorems": [
    "Verif.C10_longest_match",
    "Verif.C10_word",
    "Verif.C10_number"
   ],
   "note": "longest match at every step, plus the two explicit forms for words and numbers"
  },
  {
   "property": "C11",
   "status": "proved",
   "theorems": [
    "Verif.C11_make_keyword",
    "Verif.C11_case_insensitive"
   ],
   "note": "case-insensitivity for ASCII words; cache transparency for all words"
  },
  {
   "property": "C12",
   "status": "partial",
   "theorems": [
    "Verif.C12_quoted_keyword_false",
    "Verif.C12_quotes_ignored",
    "Verif.C12_quoted_partial"
   ],
   "note": "False of the code: C12_quoted_keyword_false gives a text in which a quoted word is read as a keyword, C12_quotes_ignored shows that quotes never matter to a keyword test. C12_quoted_partial is what holds."
  },
  {
   "property": "C13",
   "status": "proved",
   "theorems": [
    "Verif.C13_comparePos",
    "Verif.C13_comparePos_lex"
   ],
   "note": ""
  },
  {
   "property": "C14",
   "status": "proved",
   "theorems": [
    "Verif.C14_word_string"
   ],
   "note": "for the three built-in dialects"
  },
  {
   "property": "C15",
   "status": "proved",
   "theorems": [
    "Verif.C15_render_tokenize",
    "Verif.C15_blank_separates"
   ],
   "note": "for every dialect without overlapping character classes"
  },
  {
   "property": "C16",
   "status": "proved",
   "theorems": [
    "Verif.C16_trivia_irrelevant",
    "Verif.C16_trivia_irrelevant_state",
    "Verif.C16_entry_points"
   ],
   "note": "for every parser function, both comment modes"
  },
  {
   "property": "C17",
   "status": "proved",
   "theorems": [
    "Verif.C17_comment_mode",
    "Verif.C17_entry_points"
   ],
   "note": "for every parser function, and ParseSQL/ParseFile, which look at the option themselves"
  },
  {
   "property": "C18",
   "status": "proved",
   "theorems": [
    "Verif.C18_comments_complete",
    "Verif.C18_comments_complete_text",
    "Verif.C18_no_comments_without_option",
    "Verif.C18_sort_unique"
   ],
   "note": "also that the arbitrary map order and sort.Slice have a unique outcome"
  },
  {
   "property": "C19",
   "status": "proved",
   "theorems": [
    "Verif.C19_sorted",
    "Verif.C19_no_code_inside",
    "Verif.C19_trailing_comment",
    "Verif.C19_maximal",
    "Verif.C19_tokenized"
   ],
   "note": "sortedness, no code inside a group, trailing-comment rule, maximality"
  },
  {
   "property": "C20",
   "status": "proved",
   "theorems": [
    "Verif.C20_terminates",
    "Verif.C20_budget_irrelevant",
    "Verif.C20_source"
   ],
   "note": "for every token list whose words carry their upper-cased value, hence for every source text, from every parser state"
  },
  {
   "property": "C21",
   "status": "partial",
   "theorems": [
    "Verif.C21_safe_partial",
    "Verif.C21_panic_false",
    "Verif.C21_unknown_partial"
   ],
   "note": "False of the code: C21_panic_false gives three texts on which ParseSQL panics. C21_unknown_partial covers input that does not begin like a statement; C21_safe_partial gives a condition on the tokens under which nothing panics. C65 says where panics happen."
  },
  {
   "property": "C22",
   "status": "proved",
   "theorems": [
    "Verif.C22_precedence",
    "Verif.C22_unique",
    "Verif.C22_levels"
   ],
   "note": "For every sequence of well-formed operands and binary operators: existence and uniqueness of the tree, and ParseExpr returns it. C22_unique extends the absence of ambiguity to prefix, postfix, IN and BETWEEN operators. C22_levels: whatever the tokens, every expression returned respects levels and associativity."
  },
  {
   "property": "C23",
   "status": "partial",
   "theorems": [
    "Verif.C23_expr_roundtrip_partial"
   ],
   "note": "For trees that satisfy wf (Verif/Spec/WellFormed.lean). Missing: what wf excludes although the grammar has it, because the printer or parser gets it wrong (strings containing a quote, floats whose text has no decimal point, identifiers that spell one of the 18 keywords of C64); C27 has the counterexamples."
  },
  {
   "property": "C24",
   "status": "partial",
   "theorems": [
    "Verif.C24_query_roundtrip_partial"
   ],
   "note": "For queries that satisfy wf and start with SELECT or WITH. Missing: what wf excludes (table functions, CROSS JOIN after another join, a natural join before another join, LIMIT or HAVING directly after an unaliased table); C29 and C31 have counterexamples."
  },
  {
   "property": "C25",
   "status": "partial",
   "theorems": [
    "Verif.C25_statement_roundtrip_partial",
    "Verif.C25_type_roundtrip_partial"
   ],
   "note": "For statements that satisfy wf. Missing: what wf excludes (materialized views, more than one table option, several tables in DROP TABLE, types the parser does not read back, COPY); C27 and C30 have counterexamples."
  },
  {
   "property": "C26",
   "status": "proved",
   "theorems": [
    "Verif.C26_splits",
    "Verif.C26_last_semicolon",
    "Verif.C26_statements_roundtrip"
   ],
   "note": "C26_splits characterises the accepted token lists exactly; C26_statements_roundtrip is the printed form, for statements that satisfy wf; C26_last_semicolon is the missing semicolon."
  },
  {
   "property": "C27",
   "status": "partial",
   "theorems": [
    "Verif.C27_reparse_partial",
    "Verif.C27_expr_reparse_partial",
    "Verif.C27_statements_reparse_partial",
    "Verif.C27_string_quote_false",
    "Verif.C27_options_false"
   ],
   "note": "False of the code: C27_string_quote_false and C27_options_false are accepted texts whose printed form is not. The three _partial theorems prove the property for every accepted text in the built-in dialects whose tree satisfies plain (Verif/Spec/Shape.lean): names that are none of the 18 keywords of C64, names of types that do not begin with that of a built-in type, strings without a quote, floats printed with a decimal point, no table function arguments, at most one table option, no empty CREATE TABLE. Missing: the trees that are not plain."
  },
  {
   "property": "C28",
   "status": "partial",
   "theorems": [
    "Verif.C28_overflow_false",
    "Verif.C28_clamped",
    "Verif.C28_value_partial",
    "Verif.C28_denotes"
   ],
   "note": "False of the code beyond 64 bits (C28_overflow_false); C28_clamped describes every digit string, C28_value_partial the property for values below 2^63."
  },
  {
   "property": "C29",
   "status": "partial",
   "theorems": [
    "Verif.C29_cut_partial",
    "Verif.C29_same_tree",
    "Verif.C29_cross_join_false",
    "Verif.C29_no_cross_partial"
   ],
   "note": "False of the code: C29_cross_join_false.  C29_no_cross_partial: without the keyword CROSS every token of the input, hence every table, is accounted for by the tree."
  },
  {
   "property": "C30",
   "status": "partial",
   "theorems": [
    "Verif.C30_materialized_false",
    "Verif.C30_never",
    "Verif.C30_view_partial"
   ],
   "note": "False of the code (C30_materialized_false; C30_never: for no input at all). C30_view_partial is what holds."
  },
  {
   "property": "C31",
   "status": "partial",
   "theorems": [
    "Verif.C31_limit_partial",
    "Verif.C31_limit_only",
    "Verif.C31_having_partial",
    "Verif.C31_having_only",
    "Verif.C31_alias_taken",
    "Verif.C31_limit_false"
   ],
   "note": "False of the code (C31_limit_false, general: C31_alias_taken)."
  },
  {
   "property": "C32",
   "status": "proved",
   "theorems": [
    "Verif.C32_trace_faithful",
    "Verif.C32_count"
   ],
   "note": "Every node type, every writer (counts and errors arbitrary); int64 overflow of the count not modelled."
  },
  {
   "property": "C33",
   "status": "proved",
   "theorems": [
    "Verif.C33_nil_iff",
    "Verif.C33_stops"
   ],
   "note": "nil error iff no call failed; a failed call is the last call and its error is returned."
  },
  {
   "property": "C34",
   "status": "proved",
   "theorems": [
    "Verif.C34_prefix",
    "Verif.C34_offered"
   ],
   "note": "Accepted bytes for writers honouring the io.Writer contract; offered pieces for all writers."
  },
  {
   "property": "C35",
   "status": "proved",
   "theorems": [
    "Verif.C35_agree",
    "Verif.C35_builder"
   ],
   "note": "Every node type including the hand-written ToSQLString methods; time formatting is an opaque text."
  },
  {
   "property": "C36",
   "status": "proved",
   "theorems": [
    "Verif.C36_record",
    "Verif.C36_nesting",
    "Verif.C36_field_order",
    "Verif.C36_cte_order",
    "Verif.C36_typed"
   ],
   "note": "C36_nesting is for every tree and every stateful function; C36_field_order identifies the children with the struct fields in order, which CTE and CROSS JOIN nodes do not follow (C36_cte_order)"
  },
  {
   "property": "C37",
   "status": "proved",
   "theorems": [
    "Verif.C37_siblings",
    "Verif.C37_pruned",
    "Verif.C37_unique"
   ],
   "note": "C37_siblings for every visitor; C37_pruned gives the whole call sequence for trees without the exceptions of C38"
  },
  {
   "property": "C38",
   "status": "partial",
   "theorems": [
    "Verif.C38_nil_iff",
    "Verif.C38_parsed",
    "Verif.C38_all_nodes_partial",
    "Verif.C38_stmt_partial",
    "Verif.C38_panics_iff",
    "Verif.C38_panic_false",
    "Verif.C38_missing_false",
    "Verif.C38_exceptions"
   ],
   "note": "false as stated (C38_panic_false, C38_missing_false); holds without the listed exceptions, each of which is necessary (C38_exceptions); C38_panics_iff says exactly when Inspect panics; C38_nil_iff: when it panics if the function stops at nil, as nodeList does; C38_parsed: for a parsed file that never happens"
  },
  {
   "property": "C39",
   "status": "partial",
   "theorems": [
    "Verif.C39_depth_false",
    "Verif.C39_ignored",
    "Verif.C39_self_partial"
   ],
   "note": "false as stated (C39_depth_false): the returned visitor is compared with nil and dropped (C39_ignored); holds for visitors that return themselves"
  },
  {
   "property": "C40",
   "status": "proved",
   "theorems": [
    "Verif.C40_unchanged",
    "Verif.C40_calls",
    "Verif.C40_order"
   ],
   "note": "Heap unchanged for every heap and outcome; calls for every tree without the exceptions of Tree.Regular and with node types that Apply knows."
  },
  {
   "property": "C41",
   "status": "proved",
   "theorems": [
    "Verif.C41_edits",
    "Verif.C41_returns"
   ],
   "note": "Every list, every script of edits in which nothing follows a Delete of the same element and the list is not reachable from its elements; partial correctness in general, termination when pre prunes."
  },
  {
   "property": "C42",
   "status": "proved",
   "theorems": [
    "Verif.C42_record",
    "Verif.C42_stop"
   ],
   "note": "Every heap, tree, callback."
  },
  {
   "property": "C43",
   "status": "partial",
   "theorems": [
    "Verif.C43_cursor_partial",
    "Verif.C43_replace",
    "Verif.C43_false",
    "Verif.C43_exists_false"
   ],
   "note": "False for five node types whose child is passed with the name QueryStmt (C43_false, C43_exists_false: Replace panics); proved for all other names."
  },
  {
   "property": "C44",
   "status": "partial",
   "theorems": [
    "Verif.C44_parsed_partial",
    "Verif.C44_file_span_false",
    "Verif.C44_plain_column_false",
    "Verif.C44_panic_false",
    "Verif.C44_panics_iff",
    "Verif.C44_parsed_panics_iff",
    "Verif.C44_parsed_otherwise",
    "Verif.C44_last_comment",
    "Verif.C44_distributes_partial",
    "Verif.C44_returns",
    "Verif.C44_comments_only_false"
   ],
   "note": "false as stated (NewCommentMap can panic: C44_panic_false). Exactly: C44_parsed_panics_iff says for every text (below 2^30 - 1 characters) that parses when it panics (a node whose Pos or End panics is asked before the last comment is placed; C44_panics_iff is the same for arbitrary trees and positions), and C44_parsed_otherwise that every comment is attached to exactly one node if it does not. C44_parsed_partial: sufficient condition in terms of the tree alone."
  },
  {
   "property": "C45",
   "status": "partial",
   "theorems": [
    "Verif.C45_bracket_partial",
    "Verif.C45_subquery_exchanged",
    "Verif.C45_source",
    "Verif.C45_exceptions",
    "Verif.C45_false",
    "Verif.C45_statement_partial",
    "Verif.C45_query_partial",
    "Verif.C45_table_ref_partial",
    "Verif.C45_data_type_partial",
    "Verif.C45_statement_pos",
    "Verif.C45_statement_exceptions",
    "Verif.C45_nodes_partial",
    "Verif.C45_reference_key"
   ],
   "note": "False as stated (C45_false); C45_exceptions and C45_statement_exceptions have a witness for each exception (wrong position, or panic: ColumnDef.End without constraints, CREATE TABLE without elements). C45_bracket_partial: for every expression ParseExpr returns, at any place of any token list, Pos and End are right unless the expression begins (Pos) or ends (End) with a parenthesised subquery or a :: cast, or ends with IS [NOT] NULL, .* or OVER. C45_statement_partial, C45_query_partial, C45_table_ref_partial, C45_data_type_partial: the same for statements, queries, table references and types, with the exceptions listed by leftOk and rightOk. C45_statement_pos: for tokenized text the Pos of a statement is right exactly when leftOk. C45_subquery_exchanged: for subqueries the two are always exchanged. C45_source: the hypotheses on tokens hold for tokenized text."
  },
  {
   "property": "C46",
   "status": "proved",
   "theorems": [
    "Verif.C46_local",
    "Verif.C46_statement"
   ],
   "note": "for every parser function: a run that never asks beyond the end of the list is unchanged by appending tokens"
  },
  {
   "property": "C47",
   "status": "proved",
   "theorems": [
    "Verif.C47_statement",
    "Verif.C47_expr",
    "Verif.C47_data_type",
    "Verif.C47_sql"
   ],
   "note": "for every parser entry point; whitespace and comments may differ as well"
  },
  {
   "property": "C48",
   "status": "proved",
   "theorems": [
    "Verif.C48_text_ignores_positions",
    "Verif.C48_reprint"
   ],
   "note": ""
  },
  {
   "property": "C49",
   "status": "proved",
   "theorems": [
    "Verif.C49_statement_shape",
    "Verif.C49_expr_shape",
    "Verif.C49_statements_shape"
   ],
   "note": "For every token list whose words carry their own upper case as keyword (KwOK, which C11 gives for tokenizer output); the names in the tree satisfy whatever property I all words of the input satisfy."
  },
  {
   "property": "C50",
   "status": "proved",
   "theorems": [
    "Verif.C50_statement_grammar",
    "Verif.C50_expr_grammar",
    "Verif.C50_dataType_grammar",
    "Verif.C50_script_grammar",
    "Verif.C50_file_grammar"
   ],
   "note": "The grammar (Spec/Grammar.lean) gives for every tree the token sequences that are read as it, including the position of every token that the tree stores; rules that are more lenient than SQL and positions that are never set are marked there.  KwOK holds for tokenizer output (C11)."
  },
  {
   "property": "C51",
   "status": "proved",
   "theorems": [
    "Verif.C51_statement",
    "Verif.C51_expr",
    "Verif.C51_data_type",
    "Verif.C51_sql"
   ],
   "note": "CaseVariant (Spec/Rename.lean) is the relation on tokens; tokens of the tokenizer have the Keyword field it asks for (C11)."
  },
  {
   "property": "C52",
   "status": "proved",
   "theorems": [
    "Verif.C52_statement",
    "Verif.C52_expr",
    "Verif.C52_data_type",
    "Verif.C52_sql"
   ],
   "note": "relational proof over all parse functions (Proofs/Rename.lean)"
  },
  {
   "property": "C53",
   "status": "proved",
   "theorems": [
    "Verif.C53_parts",
    "Verif.C53_nested",
    "Verif.C53_identifier",
    "Verif.C53_string",
    "Verif.C53_integer"
   ],
   "note": "from C50 by descending into the tree (Spec/Within.lean lists the children of every node; nodes that stand only for a keyword or punctuation are covered by the rule of the node above)"
  },
  {
   "property": "C54",
   "status": "proved",
   "theorems": [
    "Verif.C54_script_complete",
    "Verif.C54_statement_complete",
    "Verif.C54_expr_complete",
    "Verif.C54_dataType_complete",
    "Verif.C54_unambiguous",
    "Verif.C54_file_complete"
   ],
   "note": "converse of C50 for the grammar without the quirks q.cross, q.as and q.odd; `shape freeWord` says that names are not keywords except the 66 of KW.free and that the nodes are such as the parser makes; equality up to positions, which C50 describes"
  },
  {
   "property": "C55",
   "status": "proved",
   "theorems": [
    "Verif.C55_place",
    "Verif.C55_trailing",
    "Verif.C55_leading",
    "Verif.C55_in_order",
    "Verif.C55_parsed",
    "Verif.C55_inside_false"
   ],
   "note": "C55_place for all trees and all results of Pos and End; C55_trailing and C55_leading are the two cases a user expects; C55_in_order and C55_parsed: parsed files meet the hypotheses. Which of several ended statements takes the comment is said for statements that are in no other one; C55_inside_false shows that a comment inside a statement can go to an earlier statement."
  },
  {
   "property": "C56",
   "status": "proved",
   "theorems": [
    "Verif.C56_linear",
    "Verif.C56_at_least",
    "Verif.C56_source"
   ],
   "note": "C56_linear for the four entry points from every parser state; C56_source per character of a text; C56_at_least for every parser program. What is counted is calls of nextToken, peekToken and prevToken (parseKeywords of n keywords as 2n+1); the insignificant tokens a call skips are not counted."
  },
  {
   "property": "C57",
   "status": "proved",
   "theorems": [
    "Verif.C57_expr_shape",
    "Verif.C57_expr_survives_iff",
    "Verif.C57_statement_shape",
    "Verif.C57_statement_survives_iff",
    "Verif.C57_statements_survive_iff",
    "Verif.C57_type_survives_iff",
    "Verif.C57_right_operand",
    "Verif.C57_left_operand"
   ],
   "note": "C57_*_shape: every tree that is read back has the shape; C57_*_iff: among trees with plain parts exactly those of the right shape survive; C57_right_operand and C57_left_operand: the missing parentheses, for all operands. `shape` and `plain` are in Spec/Shape.lean."
  },
  {
   "property": "C58",
   "status": "proved",
   "theorems": [
    "Verif.C58_runes",
    "Verif.C58_decodes",
    "Verif.C58_chunks",
    "Verif.C58_valid",
    "Verif.C58_lossless_iff",
    "Verif.C58_error_ends",
    "Verif.C58_error_ignored"
   ],
   "note": ""
  },
  {
   "property": "C59",
   "status": "proved",
   "theorems": [
    "Verif.C59_expr",
    "Verif.C59_dataType",
    "Verif.C59_statement",
    "Verif.C59_script",
    "Verif.C59_expr_kept",
    "Verif.C59_statement_kept",
    "Verif.C59_script_kept",
    "Verif.C59_places",
    "Verif.C59_names_and_strings",
    "Verif.C59_strings_kept",
    "Verif.C59_kept_false"
   ],
   "note": "that no literal is lost is false with CROSS JOIN after another join (C29) and with two DEFAULT clauses of a column; C59_kept_false has the witnesses"
  },
  {
   "property": "C60",
   "status": "proved",
   "theorems": [
    "Verif.C60_expr_no_quotes",
    "Verif.C60_statement_no_quotes",
    "Verif.C60_quote_never_survives",
    "Verif.C60_statements_no_quotes",
    "Verif.C60_text_with_quote"
   ],
   "note": "C60_*_no_quotes: a tree that is read back has no quote in its literals (expressions, statements, lists of statements); C60_quote_never_survives and C60_text_with_quote are the contrapositives for trees and for accepted texts. The only thing asked of FormatFloat is that it writes no quote."
  },
  {
   "property": "C61",
   "status": "proved",
   "theorems": [
    "Verif.C61_barrier",
    "Verif.C61_stops",
    "Verif.C61_script",
    "Verif.C61_pieces"
   ],
   "note": "C61_barrier and C61_stops for the single calls, C61_script for one semicolon, C61_pieces for all of them."
  },
  {
   "property": "C62",
   "status": "proved",
   "theorems": [
    "Verif.C62_context",
    "Verif.C62_never_backs_out",
    "Verif.C62_semicolon_guards_end"
   ],
   "note": ""
  },
  {
   "property": "C63",
   "status": "proved",
   "theorems": [
    "Verif.C63_expr",
    "Verif.C63_dataType",
    "Verif.C63_statement",
    "Verif.C63_file",
    "Verif.C63_sorted",
    "Verif.C63_exceptions_false"
   ],
   "note": ""
  },
  {
   "property": "C64",
   "status": "proved",
   "theorems": [
    "Verif.C64_names",
    "Verif.C64_keyword_as_name",
    "Verif.C64_keyword_not_a_name"
   ],
   "note": "C64_keyword_as_name is the equivalence (KW.hard and KW.beginsType in Spec/WellFormed.lean are the two lists), C64_keyword_not_a_name has the statements for the others, C64_names the connection with the hypotheses of C23-C27 and C57."
  },
  {
   "property": "C65",
   "status": "proved",
   "theorems": [
    "Verif.C65_panicAt",
    "Verif.C65_causes",
    "Verif.C65_semicolon",
    "Verif.C65_terminated",
    "Verif.C65_mismatch",
    "Verif.C65_source",
    "Verif.C65_table"
   ],
   "note": ""
  },
  {
   "property": "C66",
   "status": "proved",
   "theorems": [
    "Verif.C66_expr_text_iff",
    "Verif.C66_type_text_iff",
    "Verif.C66_statement_text_iff",
    "Verif.C66_script_text_iff",
    "Verif.C66_read_text_iff",
    "Verif.C66_literal_false",
    "Verif.C66_read_false",
    "Verif.C66_copy_data",
    "Verif.C66_copy_false"
   ],
   "note": ""
  },
  {
   "property": "C67",
   "status": "proved",
   "theorems": [
    "Verif.C67_script",
    "Verif.C67_source",
    "Verif.C67_statement",
    "Verif.C67_expr",
    "Verif.C67_dataType",
    "Verif.C67_sym_occurs",
    "Verif.C67_kind_occurs",
    "Verif.C67_unread_false"
   ],
   "note": ""
  },
  {
   "property": "C68",
   "status": "proved",
   "theorems": [
    "Verif.C68_agree",
    "Verif.C68_exact",
    "Verif.C68_mysql",
    "Verif.C68_common",
    "Verif.C68_differ",
    "Verif.C68_statement_false",
    "Verif.C68_alphabets"
   ],
   "note": ""
  },
  {
   "property": "C69",
   "status": "proved",
   "theorems": [
    "Verif.C69_pos",
    "Verif.C69_covers",
    "Verif.C69_end",
    "Verif.C69_span_false"
   ],
   "note": ""
  },
  {
   "property": "C70",
   "status": "proved",
   "theorems": [
    "Verif.C70_kind_string",
    "Verif.C70_kind_string_injective",
    "Verif.C70_token_kinds",
    "Verif.C70_pos_string_injective"
   ],
   "note": ""
  },
  {
   "property": "C71",
   "status": "proved",
   "theorems": [
    "Verif.Genmark.C71_snake",
    "Verif.Genmark.C71_snake_words",
    "Verif.Genmark.C71_file_names",
    "Verif.Genmark.C71_private",
    "Verif.Genmark.C71_run",
    "Verif.Genmark.C71_output"
   ],
   "note": ""
  },
  {
   "property": "C72",
   "status": "proved",
   "theorems": [
    "Verif.C72_forward",
    "Verif.C72_fresh",
    "Verif.C72_comments",
    "Verif.C72_stepwise",
    "Verif.C72_second_statement",
    "Verif.C72_set_tokens",
    "Verif.C72_astprinter"
   ],
   "note": ""
  },
  {
   "property": "C73",
   "status": "proved",
   "theorems": [
    "Verif.C73_pieces",
    "Verif.C73_nested",
    "Verif.C73_prefix",
    "Verif.C73_square",
    "Verif.C73_balanced",
    "Verif.C73_source",
    "Verif.C73_statement",
    "Verif.C73_expr",
    "Verif.C73_dataType",
    "Verif.C73_unclosed"
   ],
   "note": ""
  },
  {
   "property": "C74",
   "status": "proved",
   "theorems": [
    "Verif.C74_shift",
    "Verif.C74_local",
    "Verif.C74_newline",
    "Verif.C74_tokens",
    "Verif.C74_script",
    "Verif.C74_conditions"
   ],
   "note": ""
  },
  {
   "property": "C75",
   "status": "proved",
   "theorems": [
    "Verif.C75_begins",
    "Verif.C75_one_kind",
    "Verif.C75_decides",
    "Verif.C75_script",
    "Verif.C75_source"
   ],
   "note": ""
  },
  {
   "property": "C76",
   "status": "proved",
   "theorems": [
    "Verif.C76_file",
    "Verif.C76_script",
    "Verif.C76_statement",
    "Verif.C76_expr",
    "Verif.C76_dataType",
    "Verif.C76_runes",
    "Verif.C76_bytes",
    "Verif.C76_least"
   ],
   "note": ""
  },
  {
   "property": "C77",
   "status": "proved",
   "theorems": [
    "Verif.C77_nearest",
    "Verif.C77_readback",
    "Verif.C77_parsed",
    "Verif.C77_shortest",
    "Verif.C77_closest",
    "Verif.C77_point",
    "Verif.C77_floatOK",
    "Verif.C77_fraction_survives",
    "Verif.C77_integer_lost",
    "Verif.C77_literal_survives_iff",
    "Verif.C77_file_size",
    "Verif.C77_expr_numbers",
    "Verif.C77_script_numbers",
    "Verif.C77_survives_false"
   ],
   "note": ""
  },
  {
   "property": "C78",
   "status": "proved",
   "theorems": [
    "Verif.C78_file",
    "Verif.C78_script",
    "Verif.C78_statement",
    "Verif.C78_expr",
    "Verif.C78_dataType",
    "Verif.C78_mem",
    "Verif.C78_expr_fractions",
    "Verif.C78_statements_fractions",
    "Verif.C78_integer_never_survives",
    "Verif.C78_least"
   ],
   "note": ""
  },
  {
   "property": "C79",
   "status": "proved",
   "theorems": [
    "Verif.C79_same",
    "Verif.C79_forward",
    "Verif.C79_fresh",
    "Verif.C79_comments",
    "Verif.C79_progress",
    "Verif.C79_statement_stuck",
    "Verif.C79_expr_stuck",
    "Verif.C79_dataType_reads",
    "Verif.C79_drain",
    "Verif.C79_semicolon",
    "Verif.C79_harvest"
   ],
   "note": ""
  },
  {
   "property": "C80",
   "status": "proved",
   "theorems": [
    "Verif.C80_expr",
    "Verif.C80_dataType",
    "Verif.C80_statement",
    "Verif.C80_script",
    "Verif.C80_file",
    "Verif.C80_inspect",
    "Verif.C80_least"
   ],
   "note": ""
  },
  {
   "property": "C81",
   "status": "proved",
   "theorems": [
    "Verif.C81_alike",
    "Verif.C81_same",
    "Verif.C81_panics_iff",
    "Verif.C81_parsed",
    "Verif.C81_calls",
    "Verif.C81_using_false"
   ],
   "note": ""
  },
  {
   "property": "C82",
   "status": "proved",
   "theorems": [
    "Verif.C82_replace",
    "Verif.C82_tree",
    "Verif.C82_case_false"
   ],
   "note": ""
  },
  {
   "property": "C83",
   "status": "proved",
   "theorems": [
    "Verif.C83_edit",
    "Verif.C83_delete"
   ],
   "note": ""
  },
  {
   "property": "C84",
   "status": "proved",
   "theorems": [
    "Verif.C84_typed",
    "Verif.C84_panics",
    "Verif.C84_tree",
    "Verif.C84_file",
    "Verif.C84_through"
   ],
   "note": ""
  },
  {
   "property": "C85",
   "status": "proved",
   "theorems": [
    "Verif.C85_no_panic",
    "Verif.C85_tree",
    "Verif.C85_mild",
    "Verif.C85_twice_false"
   ],
   "note": "C85_no_panic for whole memories; C85_tree: Good trees of known types alone in memory meet the hypothesis; C85_twice_false: the bound on deletions is needed"
  },
  {
   "property": "C86",
   "status": "proved",
   "theorems": [
    "Verif.C86_tour",
    "Verif.C86_once",
    "Verif.C86_all",
    "Verif.C86_orderly",
    "Verif.C86_twice_false",
    "Verif.C86_endless_false"
   ],
   "note": "C86_tour; C86_once: only nodes of the tree, each callback at most once for a node; C86_all: if the answers are true, all nodes; C86_twice_false: after a second Delete a node is visited twice and another never; C86_endless_false: with two deletions Apply may not end at all"
  },
  {
   "property": "C87",
   "status": "proved",
   "theorems": [
    "Verif.C87_memory",
    "Verif.C87_file"
   ],
   "note": "C87_memory"
  },
  {
   "property": "C88",
   "status": "proved",
   "theorems": [
    "Verif.C88_tree",
    "Verif.C88_file"
   ],
   "note": "C88_tree"
  },
  {
   "property": "C89",
   "status": "proved",
   "theorems": [
    "Verif.C89_delete",
    "Verif.C89_insert",
    "Verif.C89_wrong_type",
    "Verif.C89_undone_false",
    "Verif.C89_kept",
    "Verif.C89_model",
    "Verif.C89_edits"
   ],
   "note": "C89_delete, C89_insert, C89_wrong_type; C89_undone_false: no insertion that panics leaves the list as it was; C89_model ties the steps to the list operations used by C40-C43 and C81-C88"
  }
 ]
}