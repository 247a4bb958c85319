{
 "claims": [
  {
   "property": "C01",
   "status": "proved",
   "theorems": [
    "Verif.C01_token_spans_exact",
    "Verif.C01_rest_is_suffix"
   ],
   "note": ""
  },
  {
   "property": "C02",
   "status": "proved",
   "theorems": [
    "Verif.C02_scan_terminates",
    "Verif.C02_scan_progress"
   ],
   "note": ""
  },
  {
   "property": "C03",
   "status": "proved",
   "theorems": [
    "Verif.C03_no_text_lost"
   ],
   "note": ""
  },
  {
   "property": "C04",
   "status": "proved",
   "theorems": [
    "Verif.C04_gap_insignificant",
    "Verif.C04_gap_between_tokens",
    "Verif.C04_comment_after_minus"
   ],
   "note": ""
  },
  {
   "property": "C05",
   "status": "proved",
   "theorems": [
    "Verif.C05_string_grammar",
    "Verif.C05_string_end_unique"
   ],
   "note": ""
  },
  {
   "property": "C06",
   "status": "proved",
   "theorems": [
    "Verif.C06_number_token_is_number",
    "Verif.C06_number_grammar"
   ],
   "note": ""
  },
  {
   "property": "C07",
   "status": "proved",
   "theorems": [
    "Verif.C07_word",
    "Verif.C07_case_insensitive",
    "Verif.C07_quoted",
    "Verif.C07_quoted_unclosed",
    "Verif.C07_ident_forms"
   ],
   "note": ""
  },
  {
   "property": "C08",
   "status": "proved",
   "theorems": [
    "Verif.C08_sign_after_operand",
    "Verif.C08_sign_before_operand"
   ],
   "note": ""
  },
  {
   "property": "C09",
   "status": "partial",
   "theorems": [
    "Verif.C09_lookahead_pure_partial",
    "Verif.C09_lookahead_disturbs_on_error"
   ],
   "note": "Lookahead leaves the state unchanged whenever it succeeds or reaches the end of input; when the next token is malformed it does disturb the state, shown by C09_lookahead_disturbs_on_error."
  },
  {
   "property": "C10",
   "status": "proved",
   "theorems": [
    "Verif.C10_non_ascii_rejected",
    "Verif.C10_unquoted_ascii"
   ],
   "note": ""
  },
  {
   "property": "C11",
   "status": "proved",
   "theorems": [
    "Verif.C11_line_column",
    "Verif.C11_position_injective"
   ],
   "note": ""
  },
  {
   "property": "C12",
   "status": "proved",
   "theorems": [
    "Verif.C12_line_text",
    "Verif.C12_lines_join"
   ],
   "note": ""
  },
  {
   "property": "C13",
   "status": "proved",
   "theorems": [
    "Verif.C13_caret"
   ],
   "note": ""
  },
  {
   "property": "C14",
   "status": "proved",
   "theorems": [
    "Verif.C14_error_position"
   ],
   "note": "The line and column are those of the specification also used for C11. Error texts are not modelled beyond the format string."
  },
  {
   "property": "C15",
   "status": "proved",
   "theorems": [
    "Verif.C15_set",
    "Verif.C15_keyword_sets"
   ],
   "note": ""
  },
  {
   "property": "C16",
   "status": "proved",
   "theorems": [
    "Verif.C16_all_or_nothing",
    "Verif.C16_in_parser"
   ],
   "note": "tryConsumeKeywords takes exactly the given keywords, in any letter case, or leaves the lexer as it was; every use in the parser is this step."
  },
  {
   "property": "C17",
   "status": "proved",
   "theorems": [
    "Verif.C17_parse_ident",
    "Verif.C17_word",
    "Verif.C17_quoted"
   ],
   "note": "parseIdent succeeds iff the current token is an identifier or a keyword that is not reserved; a word is taken as an identifier iff it spells no reserved keyword; quoting makes any word an identifier."
  },
  {
   "property": "C18",
   "status": "proved",
   "theorems": [
    "Verif.C18_terminates"
   ],
   "note": "The model bounds nested calls and loop iterations by fuel; a linear bound that is never reached is proved for all inputs."
  },
  {
   "property": "C19",
   "status": "partial",
   "theorems": [
    "Verif.C19_panic_lines_partial",
    "Verif.C19_each_line_panics"
   ],
   "note": "False: each of 22 source lines can panic (C19_each_line_panics); proved that no other line can."
  },
  {
   "property": "C20",
   "status": "partial",
   "theorems": [
    "Verif.C20_whole_input_partial",
    "Verif.C20_loose_end",
    "Verif.C20_last_token_ignored"
   ],
   "note": "False: a last token at the very end of the text may be dropped (C20_last_token_ignored). Proved for every accepted text without lexical errors: the pieces between ';' are read completely as the returned statements, in order, except such a last token; nothing is dropped if anything stands behind the last token."
  },
  {
   "property": "C21",
   "status": "partial",
   "theorems": [
    "Verif.C21_lexical_error_partial",
    "Verif.C21_at_statement_start_partial",
    "Verif.C21_lexical_errors_ignored",
    "Verif.C21_have_errors"
   ],
   "note": "False for unterminated comments and unclosed quoted identifiers behind a statement (C21_lexical_errors_ignored); proved for all other lexical errors, and for all lexical errors at the start of a statement."
  },
  {
   "property": "C22",
   "status": "proved",
   "theorems": [
    "Verif.C22_memo_transparent",
    "Verif.C22_every_method"
   ],
   "note": "Simulation between the parser and the parser that records nothing (Spec/Memo.lean): same statements, error or panic for every input; also for every method from every state with a correct memo."
  },
  {
   "property": "C23",
   "status": "proved",
   "theorems": [
    "Verif.C23_lookahead",
    "Verif.C23_join_modifiers",
    "Verif.C23_interval"
   ],
   "note": "For INTERVAL the next token must be scannable (otherwise the method sees no INTERVAL and makes no attempt); the memo entry left behind is irrelevant by C22."
  },
  {
   "property": "C24",
   "status": "partial",
   "theorems": [
    "Verif.C24_grouped_partial",
    "Verif.C24_neighbours_partial",
    "Verif.C24_binary",
    "Verif.C24_unique",
    "Verif.C24_literal_fails"
   ],
   "note": "Read literally it is false (C24_literal_fails: `1 + NOT a`). Proved for all parsed trees: wherever two operators compete for an operand the table decides, ties to the left; for binary operators without exception except that -> groups to the right (C24_binary); and that this determines the tree (C24_unique)."
  },
  {
   "property": "C25",
   "status": "partial",
   "theorems": [
    "Verif.C25_positions_partial",
    "Verif.C25_end_beyond_input",
    "Verif.C25_pos_end_values_partial"
   ],
   "note": "False: end positions can exceed the input by up to 4 (C25_end_beyond_input); proved for all fields but 40, with a bound for those, and for the values of Pos() and End()."
  },
  {
   "property": "C26",
   "status": "partial",
   "theorems": [
    "Verif.C26_pos_end_return_partial",
    "Verif.C26_end_panics",
    "Verif.C26_pos_panics"
   ],
   "note": "False for Pos() of RoleSetting and End() of seven types (C26_pos_panics, C26_end_panics); proved for all other nodes."
  },
  {
   "property": "C27",
   "status": "partial",
   "theorems": [
    "Verif.C27_query_partial",
    "Verif.C27_fails",
    "Verif.C27_other_tree",
    "Verif.C27_same_tokens_partial"
   ],
   "note": "False: SELECT 1 .a is formatted as SELECT 1.a, which is rejected (C27_fails), and 1 . 5 comes back as the number 1.5 (C27_other_tree). Proved: for queries of the class V.plain whose text neither gains nor loses one of AS, FORMAT, comma, parenthesis, semicolon, + or - (counted), the text in either mode is accepted again with the same tree up to positions and, unless the source keywords are in capitals already, letter case (C27_query_partial, no exception for panics); for all statements, if the formatted text consists of the same tokens. Missing: the trees after the rewritings of C44; other statements. For the core of SQL of C45 see C46, which needs no condition on the formatted text."
  },
  {
   "property": "C28",
   "status": "partial",
   "theorems": [
    "Verif.C28_query_partial",
    "Verif.C28_fails",
    "Verif.C28_same_tokens_partial"
   ],
   "note": "False for the same statement (C28_fails). Proved: for the queries of C27_query_partial with keywords in capitals, formatting again gives the same text in both modes (C28_query_partial); for all statements, if the formatted text consists of the same tokens. For the core of SQL of C45 see C46, which needs no condition on the formatted text."
  },
  {
   "property": "C29",
   "status": "partial",
   "theorems": [
    "Verif.C29_beautify_compact_partial",
    "Verif.C29_line_feed_in_string"
   ],
   "note": "Equality up to white space is proved for all values; that the white space lies outside tokens is false, shown by C29_line_feed_in_string."
  },
  {
   "property": "C30",
   "status": "proved",
   "theorems": [
    "Verif.C30_level_restored"
   ],
   "note": ""
  },
  {
   "property": "C31",
   "status": "partial",
   "theorems": [
    "Verif.C31_walk_visits_all_partial",
    "Verif.C31_walk_skips_rename_pairs"
   ],
   "note": "Proved for all nodes except TargetPair, which Walk skips: C31_walk_skips_rename_pairs."
  },
  {
   "property": "C32",
   "status": "partial",
   "theorems": [
    "Verif.C32_walk_stops_at_first_false_partial",
    "Verif.C32_false_stops_everything"
   ],
   "note": "Proved that false stops the walk at once; that it only prunes the subtree is false, shown by C32_false_stops_everything."
  },
  {
   "property": "C33",
   "status": "proved",
   "theorems": [
    "Verif.C33_find"
   ],
   "note": ""
  },
  {
   "property": "C34",
   "status": "proved",
   "theorems": [
    "Verif.C34_walk_with_break"
   ],
   "note": ""
  },
  {
   "property": "C35",
   "status": "partial",
   "theorems": [
    "Verif.C35_transform_root_partial",
    "Verif.C35_children_untouched"
   ],
   "note": "Transform maps the root only; that the children are not transformed is C35_children_untouched."
  },
  {
   "property": "C36",
   "status": "proved",
   "theorems": [
    "Verif.C36_accept_visits_like_walk"
   ],
   "note": ""
  },
  {
   "property": "C37",
   "status": "proved",
   "theorems": [
    "Verif.C37_accept_protocol"
   ],
   "note": ""
  },
  {
   "property": "C38",
   "status": "partial",
   "theorems": [
    "Verif.C38_keyword_case_partial",
    "Verif.C38_keyword_case_fails"
   ],
   "note": "Proved for every change of case in keywords other than MIN, MAX, NONE, ROLE, DATABASE, ARRAY, in texts without lexical errors; false for ARRAY JOIN (C38_keyword_case_fails)."
  },
  {
   "property": "C39",
   "status": "partial",
   "theorems": [
    "Verif.C39_statements_partial",
    "Verif.C39_concat_partial",
    "Verif.C39_end_is_not_semicolon"
   ],
   "note": "Proved as an equivalence for 'a; ' and b, exactly with b at its place, and up to positions for b on its own; false for a without ';' (C39_end_is_not_semicolon)."
  },
  {
   "property": "C40",
   "status": "proved",
   "theorems": [
    "Verif.C40_two_byte_operator",
    "Verif.C40_one_byte_operator"
   ],
   "note": ""
  },
  {
   "property": "C41",
   "status": "partial",
   "theorems": [
    "Verif.C41_format_total_partial",
    "Verif.C41_format_parsed_partial",
    "Verif.C41_format_panics"
   ],
   "note": "False: CREATE DICTIONARY with a function call as argument of the source (C41_format_panics); proved for all parsed trees whose function calls have a list of parameters, and for all trees with their required fields."
  },
  {
   "property": "C42",
   "status": "proved",
   "theorems": [
    "Verif.C42_tokens_decide",
    "Verif.C42_needs_tight",
    "Verif.C42_gap"
   ],
   "note": "The condition on the end of the text is needed: foo is accepted, foo followed by a blank is rejected (C42_needs_tight)."
  },
  {
   "property": "C43",
   "status": "proved",
   "theorems": [
    "Verif.C43_layout_free",
    "Verif.C43_needs_tight"
   ],
   "note": "The condition on the end of the text is needed: SELECT is accepted as no statement, SELECT followed by a blank as one (C43_needs_tight)."
  },
  {
   "property": "C44",
   "status": "proved",
   "theorems": [
    "Verif.C44_tokens_compact",
    "Verif.C44_tokens_beautified"
   ],
   "note": "For the class V.plain of trees (Spec/Plain.lean), which is the one described in the statement. The rewritings are the inductive relation Rewritten in Spec/Rewrite.lean."
  },
  {
   "property": "C45",
   "status": "proved",
   "theorems": [
    "Verif.C45_core_accepted",
    "Verif.C45_core_tree",
    "Verif.C45_core_unambiguous",
    "Verif.C45_core_safe"
   ],
   "note": "The grammar is Core and Queries in Spec/Core.lean. C45_core_safe adds that such a text makes the parser neither fail nor crash, C45_core_unambiguous that the grammar gives one tree only."
  },
  {
   "property": "C46",
   "status": "proved",
   "theorems": [
    "Verif.C46_core_formats",
    "Verif.C46_core_compact",
    "Verif.C46_core_beautified",
    "Verif.C46_using_comma",
    "Verif.C46_using_paren",
    "Verif.C46_using_sign",
    "Verif.C46_array_distinct"
   ],
   "note": "C46_core_formats: formatting succeeds. C46_core_compact and C46_core_beautified: the round trip. The exceptions V.kept and PlainUsing are in Spec/Kept.lean; C46_using_comma, C46_using_paren, C46_using_sign and C46_array_distinct show for each of them a query that comes back with another tree."
  },
  {
   "property": "C47",
   "status": "proved",
   "theorems": [
    "Verif.C47_statements_accepted",
    "Verif.C47_statements_tree",
    "Verif.C47_statements_unambiguous",
    "Verif.C47_statements_safe"
   ],
   "note": "The grammar is Piece, Statement and Statements in Spec/Ddl.lean, with the expressions and queries of Spec/Core.lean. C47_statements_safe adds that such a text makes the parser neither fail nor crash, C47_statements_unambiguous that the grammar gives one tree only."
  },
  {
   "property": "C48",
   "status": "partial",
   "theorems": [
    "Verif.C48_statements_format",
    "Verif.C48_statements_compact_partial",
    "Verif.C48_statements_beautified_partial",
    "Verif.C48_detach",
    "Verif.C48_comment_codec",
    "Verif.C48_comment_ttl",
    "Verif.C48_partition_as",
    "Verif.C48_engine_quotes"
   ],
   "note": "C48_statements_format: formatting succeeds, for all statements of the grammar. C48_statements_compact_partial and C48_statements_beautified_partial: the round trip, for all kinds of statements, under V.orderly (a column with COMMENT has no CODEC and no TTL; PARTITION BY is not the last printed clause before AS with a query), PlainEngine (engine names are not quoted) and the restrictions on queries of C46. False of the code without them: C48_comment_codec, C48_comment_ttl (CODEC and TTL are printed before COMMENT), C48_partition_as (PARTITION BY printed directly before AS SELECT), C48_engine_quotes (quotes of an engine's name are dropped). C48_detach: DETACH TABLE t is formatted as DROP TABLE t."
  },
  {
   "property": "C49",
   "status": "partial",
   "theorems": [
    "Verif.C49_cli_prints",
    "Verif.C49_cli_pieces_partial",
    "Verif.C49_cli_again_partial",
    "Verif.C49_statements_merged",
    "Verif.C49_statements_rejected"
   ],
   "note": "The tool is cli in Verif/Cli.lean. C49_cli_prints: it prints something for every text of the grammar. C49_cli_pieces_partial: the output has one piece per statement, each of which is parsed back, under V.orderly, PlainEngine and the restrictions on queries of C46. C49_cli_again_partial: one statement, the output of the tool is printed again unchanged. False of the code for several statements: C49_statements_merged, C49_statements_rejected."
  },
  {
   "property": "C50",
   "status": "partial",
   "theorems": [
    "Verif.C50_list_compact_partial",
    "Verif.C50_list_beautified_partial",
    "Verif.C50_valid_format_partial",
    "Verif.C50_valid_format_fails"
   ],
   "note": "C50_list_compact_partial and C50_list_beautified_partial: lists of statements with a semicolon and at least one blank after each of them, as in validFormatSQL of parser_test.go, under V.orderly, PlainEngine and the restrictions on queries of C46. C50_valid_format_partial: exactly the check validFormatSQL of the tests, for all such texts. False of the code without these restrictions: C50_valid_format_fails and the witnesses of C48."
  },
  {
   "property": "C51",
   "status": "partial",
   "theorems": [
    "Verif.C51_compact_tells_partial",
    "Verif.C51_beautified_tells_partial",
    "Verif.C51_distinct_lost"
   ],
   "note": "C51_compact_tells_partial and C51_beautified_tells_partial: equal texts exactly for equal trees up to positions, under V.orderly, PlainEngine and the restrictions on queries of C46. False of the code without these restrictions: C51_distinct_lost."
  }
 ]
}
