/- Prints the axioms of every property theorem (generated by tools/manifest.py). -/
import Verif.Props.Again
import Verif.Props.Cli
import Verif.Props.Complete
import Verif.Props.Ddl
import Verif.Props.DdlAgain
import Verif.Props.Distinct
import Verif.Props.Format
import Verif.Props.Grouping
import Verif.Props.Joined
import Verif.Props.Lexer
import Verif.Props.Memo
import Verif.Props.Parser
import Verif.Props.Rewrite
import Verif.Props.RoundTrip
import Verif.Props.Same
import Verif.Props.Source
import Verif.Props.Statements
import Verif.Props.Steps
import Verif.Props.Tree

#print axioms Verif.C01_token_spans_exact
#print axioms Verif.C01_rest_is_suffix
#print axioms Verif.C02_scan_terminates
#print axioms Verif.C02_scan_progress
#print axioms Verif.C03_no_text_lost
#print axioms Verif.C04_gap_insignificant
#print axioms Verif.C04_gap_between_tokens
#print axioms Verif.C04_comment_after_minus
#print axioms Verif.C05_string_grammar
#print axioms Verif.C05_string_end_unique
#print axioms Verif.C06_number_token_is_number
#print axioms Verif.C06_number_grammar
#print axioms Verif.C07_word
#print axioms Verif.C07_case_insensitive
#print axioms Verif.C07_quoted
#print axioms Verif.C07_quoted_unclosed
#print axioms Verif.C07_ident_forms
#print axioms Verif.C08_sign_after_operand
#print axioms Verif.C08_sign_before_operand
#print axioms Verif.C09_lookahead_pure_partial
#print axioms Verif.C09_lookahead_disturbs_on_error
#print axioms Verif.C10_non_ascii_rejected
#print axioms Verif.C10_unquoted_ascii
#print axioms Verif.C11_line_column
#print axioms Verif.C11_position_injective
#print axioms Verif.C12_line_text
#print axioms Verif.C12_lines_join
#print axioms Verif.C13_caret
#print axioms Verif.C14_error_position
#print axioms Verif.C15_set
#print axioms Verif.C15_keyword_sets
#print axioms Verif.C16_all_or_nothing
#print axioms Verif.C16_in_parser
#print axioms Verif.C17_parse_ident
#print axioms Verif.C17_word
#print axioms Verif.C17_quoted
#print axioms Verif.C18_terminates
#print axioms Verif.C19_panic_lines_partial
#print axioms Verif.C19_each_line_panics
#print axioms Verif.C20_whole_input_partial
#print axioms Verif.C20_loose_end
#print axioms Verif.C20_last_token_ignored
#print axioms Verif.C21_lexical_error_partial
#print axioms Verif.C21_at_statement_start_partial
#print axioms Verif.C21_lexical_errors_ignored
#print axioms Verif.C21_have_errors
#print axioms Verif.C22_memo_transparent
#print axioms Verif.C22_every_method
#print axioms Verif.C23_lookahead
#print axioms Verif.C23_join_modifiers
#print axioms Verif.C23_interval
#print axioms Verif.C24_grouped_partial
#print axioms Verif.C24_neighbours_partial
#print axioms Verif.C24_binary
#print axioms Verif.C24_unique
#print axioms Verif.C24_literal_fails
#print axioms Verif.C25_positions_partial
#print axioms Verif.C25_end_beyond_input
#print axioms Verif.C25_pos_end_values_partial
#print axioms Verif.C26_pos_end_return_partial
#print axioms Verif.C26_end_panics
#print axioms Verif.C26_pos_panics
#print axioms Verif.C27_query_partial
#print axioms Verif.C27_fails
#print axioms Verif.C27_other_tree
#print axioms Verif.C27_same_tokens_partial
#print axioms Verif.C28_query_partial
#print axioms Verif.C28_fails
#print axioms Verif.C28_same_tokens_partial
#print axioms Verif.C29_beautify_compact_partial
#print axioms Verif.C29_line_feed_in_string
#print axioms Verif.C30_level_restored
#print axioms Verif.C31_walk_visits_all_partial
#print axioms Verif.C31_walk_skips_rename_pairs
#print axioms Verif.C32_walk_stops_at_first_false_partial
#print axioms Verif.C32_false_stops_everything
#print axioms Verif.C33_find
#print axioms Verif.C34_walk_with_break
#print axioms Verif.C35_transform_root_partial
#print axioms Verif.C35_children_untouched
#print axioms Verif.C36_accept_visits_like_walk
#print axioms Verif.C37_accept_protocol
#print axioms Verif.C38_keyword_case_partial
#print axioms Verif.C38_keyword_case_fails
#print axioms Verif.C39_statements_partial
#print axioms Verif.C39_concat_partial
#print axioms Verif.C39_end_is_not_semicolon
#print axioms Verif.C40_two_byte_operator
#print axioms Verif.C40_one_byte_operator
#print axioms Verif.C41_format_total_partial
#print axioms Verif.C41_format_parsed_partial
#print axioms Verif.C41_format_panics
#print axioms Verif.C42_tokens_decide
#print axioms Verif.C42_needs_tight
#print axioms Verif.C42_gap
#print axioms Verif.C43_layout_free
#print axioms Verif.C43_needs_tight
#print axioms Verif.C44_tokens_compact
#print axioms Verif.C44_tokens_beautified
#print axioms Verif.C45_core_accepted
#print axioms Verif.C45_core_tree
#print axioms Verif.C45_core_unambiguous
#print axioms Verif.C45_core_safe
#print axioms Verif.C46_core_formats
#print axioms Verif.C46_core_compact
#print axioms Verif.C46_core_beautified
#print axioms Verif.C46_using_comma
#print axioms Verif.C46_using_paren
#print axioms Verif.C46_using_sign
#print axioms Verif.C46_array_distinct
#print axioms Verif.C47_statements_accepted
#print axioms Verif.C47_statements_tree
#print axioms Verif.C47_statements_unambiguous
#print axioms Verif.C47_statements_safe
#print axioms Verif.C48_statements_format
#print axioms Verif.C48_statements_compact_partial
#print axioms Verif.C48_statements_beautified_partial
#print axioms Verif.C48_detach
#print axioms Verif.C48_comment_codec
#print axioms Verif.C48_comment_ttl
#print axioms Verif.C48_partition_as
#print axioms Verif.C48_engine_quotes
#print axioms Verif.C49_cli_prints
#print axioms Verif.C49_cli_pieces_partial
#print axioms Verif.C49_cli_again_partial
#print axioms Verif.C49_statements_merged
#print axioms Verif.C49_statements_rejected
#print axioms Verif.C50_list_compact_partial
#print axioms Verif.C50_list_beautified_partial
#print axioms Verif.C50_valid_format_partial
#print axioms Verif.C50_valid_format_fails
#print axioms Verif.C51_compact_tells_partial
#print axioms Verif.C51_beautified_tells_partial
#print axioms Verif.C51_distinct_lost
