{
 "C09": {
  "status": "partial",
  "note": "Lookahead leaves the state unchanged whenever it succeeds or reaches the end of input; when the next token is malformed it does disturb the state, shown by C09_lookahead_disturbs_on_error."
 },
 "C29": {
  "status": "partial",
  "note": "Equality up to white space is proved for all values; that the white space lies outside tokens is false, shown by C29_line_feed_in_string."
 },
 "C31": {
  "status": "partial",
  "note": "Proved for all nodes except TargetPair, which Walk skips: C31_walk_skips_rename_pairs."
 },
 "C32": {
  "status": "partial",
  "note": "Proved that false stops the walk at once; that it only prunes the subtree is false, shown by C32_false_stops_everything."
 },
 "C35": {
  "status": "partial",
  "note": "Transform maps the root only; that the children are not transformed is C35_children_untouched."
 },
 "C41": {
  "status": "partial",
  "note": "False: CREATE DICTIONARY with a function call as argument of the source (C41_format_panics); proved for all parsed trees whose function calls have a list of parameters, and for all trees with their required fields."
 },
 "C14": {
  "status": "proved",
  "note": "The line and column are those of the specification also used for C11. Error texts are not modelled beyond the format string."
 },
 "C18": {
  "status": "proved",
  "note": "The model bounds nested calls and loop iterations by fuel; a linear bound that is never reached is proved for all inputs."
 },
 "C19": {
  "status": "partial",
  "note": "False: each of 22 source lines can panic (C19_each_line_panics); proved that no other line can."
 },
 "C25": {
  "status": "partial",
  "note": "False: end positions can exceed the input by up to 4 (C25_end_beyond_input); proved for all fields but 40, with a bound for those, and for the values of Pos() and End()."
 },
 "C26": {
  "status": "partial",
  "note": "False for Pos() of RoleSetting and End() of seven types (C26_pos_panics, C26_end_panics); proved for all other nodes."
 },
 "C16": {
  "status": "proved",
  "theorems": [
   "C16_all_or_nothing",
   "C16_in_parser"
  ],
  "note": "tryConsumeKeywords takes exactly the given keywords, in any letter case, or leaves the lexer as it was; every use in the parser is this step."
 },
 "C17": {
  "status": "proved",
  "theorems": [
   "C17_parse_ident",
   "C17_word",
   "C17_quoted"
  ],
  "note": "parseIdent succeeds iff the current token is an identifier or a keyword that is not reserved; a word is taken as an identifier iff it spells no reserved keyword; quoting makes any word an identifier."
 },
 "C22": {
  "status": "proved",
  "theorems": [
   "C22_memo_transparent",
   "C22_every_method"
  ],
  "note": "Simulation between the parser and the parser that records nothing (Spec/Memo.lean): same statements, error or panic for every input; also for every method from every state with a correct memo."
 },
 "C23": {
  "status": "proved",
  "theorems": [
   "C23_lookahead",
   "C23_join_modifiers",
   "C23_interval"
  ],
  "note": "For INTERVAL the next token must be scannable (otherwise the method sees no INTERVAL and makes no attempt); the memo entry left behind is irrelevant by C22."
 },
 "C38": {
  "status": "partial",
  "note": "Proved for every change of case in keywords other than MIN, MAX, NONE, ROLE, DATABASE, ARRAY, in texts without lexical errors; false for ARRAY JOIN (C38_keyword_case_fails)."
 },
 "C42": {
  "status": "proved",
  "note": "The condition on the end of the text is needed: foo is accepted, foo followed by a blank is rejected (C42_needs_tight)."
 },
 "C20": {
  "status": "partial",
  "note": "False: a last token at the very end of the text may be dropped (C20_last_token_ignored). Proved for every accepted text without lexical errors: the pieces between ';' are read completely as the returned statements, in order, except such a last token; nothing is dropped if anything stands behind the last token."
 },
 "C21": {
  "status": "partial",
  "note": "False for unterminated comments and unclosed quoted identifiers behind a statement (C21_lexical_errors_ignored); proved for all other lexical errors, and for all lexical errors at the start of a statement."
 },
 "C39": {
  "status": "partial",
  "note": "Proved as an equivalence for 'a; ' and b, exactly with b at its place, and up to positions for b on its own; false for a without ';' (C39_end_is_not_semicolon)."
 },
 "C24": {
  "status": "partial",
  "note": "Read literally it is false (C24_literal_fails: `1 + NOT a`). Proved for all parsed trees: wherever two operators compete for an operand the table decides, ties to the left; for binary operators without exception except that -> groups to the right (C24_binary); and that this determines the tree (C24_unique)."
 },
 "C27": {
  "status": "partial",
  "note": "False: SELECT 1 .a is formatted as SELECT 1.a, which is rejected (C27_fails), and 1 . 5 comes back as the number 1.5 (C27_other_tree). Proved: for queries of the class V.plain whose text neither gains nor loses one of AS, FORMAT, comma, parenthesis, semicolon, + or - (counted), the text in either mode is accepted again with the same tree up to positions and, unless the source keywords are in capitals already, letter case (C27_query_partial, no exception for panics); for all statements, if the formatted text consists of the same tokens. Missing: the trees after the rewritings of C44; other statements. For the core of SQL of C45 see C46, which needs no condition on the formatted text."
 },
 "C28": {
  "status": "partial",
  "note": "False for the same statement (C28_fails). Proved: for the queries of C27_query_partial with keywords in capitals, formatting again gives the same text in both modes (C28_query_partial); for all statements, if the formatted text consists of the same tokens. For the core of SQL of C45 see C46, which needs no condition on the formatted text."
 },
 "C43": {
  "status": "proved",
  "note": "The condition on the end of the text is needed: SELECT is accepted as no statement, SELECT followed by a blank as one (C43_needs_tight)."
 },
 "C44": {
  "status": "proved",
  "note": "For the class V.plain of trees (Spec/Plain.lean), which is the one described in the statement. The rewritings are the inductive relation Rewritten in Spec/Rewrite.lean."
 },
 "C45": {
  "status": "proved",
  "note": "The grammar is Core and Queries in Spec/Core.lean. C45_core_safe adds that such a text makes the parser neither fail nor crash, C45_core_unambiguous that the grammar gives one tree only."
 },
 "C46": {
  "status": "proved",
  "note": "C46_core_formats: formatting succeeds. C46_core_compact and C46_core_beautified: the round trip. The exceptions V.kept and PlainUsing are in Spec/Kept.lean; C46_using_comma, C46_using_paren, C46_using_sign and C46_array_distinct show for each of them a query that comes back with another tree."
 },
 "C47": {
  "status": "proved",
  "note": "The grammar is Piece, Statement and Statements in Spec/Ddl.lean, with the expressions and queries of Spec/Core.lean. C47_statements_safe adds that such a text makes the parser neither fail nor crash, C47_statements_unambiguous that the grammar gives one tree only."
 },
 "C48": {
  "status": "partial",
  "note": "C48_statements_format: formatting succeeds, for all statements of the grammar. C48_statements_compact_partial and C48_statements_beautified_partial: the round trip, for all kinds of statements, under V.orderly (a column with COMMENT has no CODEC and no TTL; PARTITION BY is not the last printed clause before AS with a query), PlainEngine (engine names are not quoted) and the restrictions on queries of C46. False of the code without them: C48_comment_codec, C48_comment_ttl (CODEC and TTL are printed before COMMENT), C48_partition_as (PARTITION BY printed directly before AS SELECT), C48_engine_quotes (quotes of an engine's name are dropped). C48_detach: DETACH TABLE t is formatted as DROP TABLE t."
 },
 "C49": {
  "status": "partial",
  "note": "The tool is cli in Verif/Cli.lean. C49_cli_prints: it prints something for every text of the grammar. C49_cli_pieces_partial: the output has one piece per statement, each of which is parsed back, under V.orderly, PlainEngine and the restrictions on queries of C46. C49_cli_again_partial: one statement, the output of the tool is printed again unchanged. False of the code for several statements: C49_statements_merged, C49_statements_rejected."
 },
 "C50": {
  "status": "partial",
  "note": "C50_list_compact_partial and C50_list_beautified_partial: lists of statements with a semicolon and at least one blank after each of them, as in validFormatSQL of parser_test.go, under V.orderly, PlainEngine and the restrictions on queries of C46. C50_valid_format_partial: exactly the check validFormatSQL of the tests, for all such texts. False of the code without these restrictions: C50_valid_format_fails and the witnesses of C48."
 },
 "C51": {
  "status": "partial",
  "note": "C51_compact_tells_partial and C51_beautified_tells_partial: equal texts exactly for equal trees up to positions, under V.orderly, PlainEngine and the restrictions on queries of C46. False of the code without these restrictions: C51_distinct_lost."
 }
}
