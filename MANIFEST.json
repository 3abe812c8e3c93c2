{
 "claims": [
  {
   "property": "C01",
   "status": "proved",
   "theorems": [
    "Giron.C01_more_depth_changes_nothing",
    "Giron.C01_more_rounds_change_nothing",
    "Giron.C01_more_rounds_of_the_scanner_change_nothing",
    "Giron.C01_parsing_terminates"
   ],
   "note": "No call ever runs out of the linear recursion budget; the budget is not part of the Rust code, it makes the model total."
  },
  {
   "property": "C02",
   "status": "proved",
   "theorems": [
    "Giron.C02_panics_only_at_known_sites",
    "Giron.C02_sites_are_reached",
    "Giron.C02_checked_sites_are_reached"
   ],
   "note": "Includes witnesses that every listed site is reached."
  },
  {
   "property": "C03",
   "status": "proved",
   "theorems": [
    "Giron.C03_everything_consumed"
   ],
   "note": ""
  },
  {
   "property": "C04",
   "status": "proved",
   "theorems": [
    "Giron.C04_return_inside_function_body"
   ],
   "note": ""
  },
  {
   "property": "C05",
   "status": "proved",
   "theorems": [
    "Giron.C05_break_continue_inside",
    "Giron.C05_not_reset_by_functions"
   ],
   "note": "Unlabelled break/continue; C05_not_reset_by_functions shows the code does not ask for the same function."
  },
  {
   "property": "C06",
   "status": "proved",
   "theorems": [
    "Giron.C06_no_with_in_strict_code",
    "Giron.C06_no_with_in_modules"
   ],
   "note": ""
  },
  {
   "property": "C07",
   "status": "proved",
   "theorems": [
    "Giron.C07_assignment_left",
    "Giron.C07_pattern_elements",
    "Giron.C07_pattern_properties",
    "Giron.C07_pattern_bindings"
   ],
   "note": ""
  },
  {
   "property": "C08",
   "status": "proved",
   "theorems": [
    "Giron.C08_update_operand"
   ],
   "note": ""
  },
  {
   "property": "C09",
   "status": "partial",
   "theorems": [
    "Giron.C09_strict_targets_partial",
    "Giron.C09_strict_update_partial",
    "Giron.C09_refuted"
   ],
   "note": "C09_refuted: the full statement is false of the code (binding identifiers and shorthand targets are not checked); the partial theorems cover the checked positions."
  },
  {
   "property": "C10",
   "status": "proved",
   "theorems": [
    "Giron.C10_rest_last"
   ],
   "note": ""
  },
  {
   "property": "C11",
   "status": "proved",
   "theorems": [
    "Giron.C11_switch_cases"
   ],
   "note": ""
  },
  {
   "property": "C12",
   "status": "proved",
   "theorems": [
    "Giron.C12_try_has_handler_or_finalizer"
   ],
   "note": ""
  },
  {
   "property": "C13",
   "status": "proved",
   "theorems": [
    "Giron.C13_destructuring_initialised",
    "Giron.C13_declarations_not_empty"
   ],
   "note": ""
  },
  {
   "property": "C14",
   "status": "proved",
   "theorems": [
    "Giron.C14_template_literals",
    "Giron.C14_tagged_templates"
   ],
   "note": ""
  },
  {
   "property": "C15",
   "status": "partial",
   "theorems": [
    "Giron.C15_grouping_partial",
    "Giron.C15_refuted",
    "Giron.C15_unary",
    "Giron.C15_conditional",
    "Giron.C15_callees"
   ],
   "note": "C15_refuted: a*b%c groups to the right in the code because % has its own level; the partial theorem states grouping by the code's table."
  },
  {
   "property": "C16",
   "status": "proved",
   "theorems": [
    "Giron.C16_import_export_top_level",
    "Giron.C16_not_in_scripts"
   ],
   "note": ""
  },
  {
   "property": "C17",
   "status": "partial",
   "theorems": [
    "Giron.C17_names_not_reserved_partial",
    "Giron.C17_refuted"
   ],
   "note": "C17_refuted: shorthand properties may be keywords; the partial theorem covers every other name."
  },
  {
   "property": "C18",
   "status": "proved",
   "theorems": [
    "Giron.C18_slots",
    "Giron.C18_declared_bindings",
    "Giron.C18_property_values"
   ],
   "note": ""
  },
  {
   "property": "C19",
   "status": "proved",
   "theorems": [
    "Giron.C19_longest_punctuator",
    "Giron.C19_scans_punctuator"
   ],
   "note": ""
  },
  {
   "property": "C20",
   "status": "proved",
   "theorems": [
    "Giron.C20_name",
    "Giron.C20_name_kinds",
    "Giron.C20_scans_name"
   ],
   "note": ""
  },
  {
   "property": "C21",
   "status": "proved",
   "theorems": [
    "Giron.C21_round_trip",
    "Giron.C21_delimited"
   ],
   "note": ""
  },
  {
   "property": "C22",
   "status": "proved",
   "theorems": [
    "Giron.C22_scans_number",
    "Giron.C22_number",
    "Giron.C22_decimal_round_trip",
    "Giron.C22_radix_round_trip"
   ],
   "note": ""
  },
  {
   "property": "C23",
   "status": "proved",
   "theorems": [
    "Giron.C23_maximal",
    "Giron.C23_leading_trivia"
   ],
   "note": ""
  },
  {
   "property": "C24",
   "status": "proved",
   "theorems": [
    "Giron.C24_tokens_iff",
    "Giron.C24_offsets",
    "Giron.C24_no_overlap"
   ],
   "note": ""
  },
  {
   "property": "C25",
   "status": "proved",
   "theorems": [
    "Giron.C25_line",
    "Giron.C25_token_line",
    "Giron.C25_newline"
   ],
   "note": ""
  },
  {
   "property": "C26",
   "status": "proved",
   "theorems": [
    "Giron.C26_template"
   ],
   "note": ""
  },
  {
   "property": "C27",
   "status": "proved",
   "theorems": [
    "Giron.C27_regexp"
   ],
   "note": ""
  },
  {
   "property": "C28",
   "status": "proved",
   "theorems": [
    "Giron.C28_reader_is_transparent"
   ],
   "note": ""
  },
  {
   "property": "C29",
   "status": "proved",
   "theorems": [
    "Giron.C29_error_lines"
   ],
   "note": ""
  },
  {
   "property": "C30",
   "status": "proved",
   "theorems": [
    "Giron.C30_constructs_restore_the_context",
    "Giron.C30_directives_only_set_strict",
    "Giron.C30_final_module_context",
    "Giron.C30_final_context"
   ],
   "note": ""
  },
  {
   "property": "C31",
   "status": "proved",
   "theorems": [
    "Giron.C31_module_is_strict_script",
    "Giron.C31_strict_script_is_module",
    "Giron.C31_directive_starts_strict",
    "Giron.C31_use_strict_to_module",
    "Giron.C31_use_strict_to_script",
    "Giron.C31_use_strict_text"
   ],
   "note": "Two-run simulation over every parser function. A string that spells 'use strict' only through escapes also counts as the directive; stated on the text with the plain spelling. The empty source is excluded (it panics when overflow is checked)."
  },
  {
   "property": "C32",
   "status": "proved",
   "theorems": [
    "Giron.C32_words_are_read_back",
    "Giron.C32_scripts_round_trip",
    "Giron.C32_modules_round_trip",
    "Giron.C32_expressions_round_trip"
   ],
   "note": ""
  },
  {
   "property": "C33",
   "status": "proved",
   "theorems": [
    "Giron.C33_leading_trivia_script",
    "Giron.C33_leading_trivia_module"
   ],
   "note": "For every prefix of white space, line terminators and complete comments, and for errors as well as trees. Excluded: the empty source."
  },
  {
   "property": "C34",
   "status": "proved",
   "theorems": [
    "Giron.C34_line_flag",
    "Giron.C34_semicolon"
   ],
   "note": ""
  },
  {
   "property": "C35",
   "status": "proved",
   "theorems": [
    "Giron.C35_declared_names"
   ],
   "note": ""
  },
  {
   "property": "C36",
   "status": "proved",
   "theorems": [
    "Giron.C36_objects_follow_schema",
    "Giron.C36_type_first",
    "Giron.C36_keys_distinct",
    "Giron.C36_root",
    "Giron.C36_wasm",
    "Giron.C36_foreign_types",
    "Giron.C36_estree_names_refuted"
   ],
   "note": "Stated against an explicit table of types and members (Spec/Json.lean, schema). C36_foreign_types lists the type names that are not ESTree's, C36_estree_names_refuted shows one is produced."
  },
  {
   "property": "C37",
   "status": "proved",
   "theorems": [
    "Giron.C37_matching",
    "Giron.C37_unmatched"
   ],
   "note": ""
  },
  {
   "property": "C38",
   "status": "proved",
   "theorems": [
    "Giron.C38_keywords"
   ],
   "note": ""
  },
  {
   "property": "C39",
   "status": "proved",
   "theorems": [
    "Giron.C39_bijection"
   ],
   "note": ""
  },
  {
   "property": "C40",
   "status": "partial",
   "theorems": [
    "Giron.C40_arrow_parameters_partial",
    "Giron.C40_refuted"
   ],
   "note": "C40_refuted: ({a: b.c} = 1) => x is accepted; the partial theorem states what does hold."
  },
  {
   "property": "C41",
   "status": "proved",
   "theorems": [
    "Giron.C41_scripts_are_parsed",
    "Giron.C41_modules_are_parsed",
    "Giron.C41_unambiguous",
    "Giron.C41_layout"
   ],
   "note": ""
  },
  {
   "property": "C42",
   "status": "partial",
   "theorems": [
    "Giron.C42_strict_words_partial",
    "Giron.C42_refuted"
   ],
   "note": "Proved for references, labels and declared names. C42_refuted: shorthand properties of patterns and import specifiers without \"as\" are accepted with such a name in strict code."
  },
  {
   "property": "C43",
   "status": "proved",
   "theorems": [
    "Giron.C43_tree_spells_source",
    "Giron.C43_empty_program"
   ],
   "note": "Spelling relation in Spec/Spells.lean (one clause per node kind, oddities of giron marked)."
  },
  {
   "property": "C44",
   "status": "proved",
   "theorems": [
    "Giron.C44_layout_does_not_matter",
    "Giron.C44_layout_does_not_matter_module",
    "Giron.C44_same_words_same_tree",
    "Giron.C44_line_breaks_count_after_async"
   ],
   "note": "Two-run simulation over every parser function against a family of runs. The number of line breaks counts after async/get/set: C44_line_breaks_count_after_async shows that it must."
  },
  {
   "property": "C45",
   "status": "proved",
   "theorems": [
    "Giron.C45_places_are_in_the_source",
    "Giron.C45_spans_are_those_of_words",
    "Giron.C45_spans_are_in_order",
    "Giron.C45_never_looks_ahead",
    "Giron.C45_spans_do_not_nest",
    "Giron.C45_spans_run_over",
    "Giron.C45_spans_out_of_order"
   ],
   "note": "Invariant walk over every parser function for an arbitrary property of spans (Proofs/Pos), instantiated twice. C45_spans_do_not_nest, C45_spans_run_over, C45_spans_out_of_order show what is false."
  },
  {
   "property": "C46",
   "status": "proved",
   "theorems": [
    "Giron.C46_unexpected_words_are_words",
    "Giron.C46_errors_are_at_words",
    "Giron.C46_the_end_is_called_null"
   ],
   "note": "Same walk as C45, with a property of errors; the lexical errors come from an analysis of every scanner function (Proofs/Pos/Scan). C46_the_end_is_called_null shows a curiosity."
  },
  {
   "property": "C47",
   "status": "proved",
   "theorems": [
    "Giron.C47_json_prints_source",
    "Giron.C47_difference"
   ],
   "note": "Spec/Prints.lean gives the words of a JSON value from its members alone. C47_difference shows that it is tight for a binary expression. The text of the JSON (escapes, number spelling) is not modelled."
  },
  {
   "property": "C48",
   "status": "proved",
   "theorems": [
    "Giron.C48_part_of_source",
    "Giron.C48_for_head",
    "Giron.C48_semicolon",
    "Giron.C48_restricted",
    "Giron.C48_postfix",
    "Giron.C48_else"
   ],
   "note": "Line breaks are counted as the code does; LostCount (after async, get, set) is the only exception and is shown to be real by an example."
  },
  {
   "property": "C49",
   "status": "proved",
   "theorems": [
    "Giron.C49_message_tells_kind",
    "Giron.C49_message_of_token",
    "Giron.C49_text_tells_error",
    "Giron.C49_js_string",
    "Giron.C49_js_tree",
    "Giron.C49_js_tells_error"
   ],
   "note": "Debug of str is modelled with the standard library's table of printable characters as a parameter."
  },
  {
   "property": "C50",
   "status": "proved",
   "theorems": [
    "Giron.C50_script_errors_have_reasons",
    "Giron.C50_module_errors_have_reasons",
    "Giron.C50_no_unary_exponentiation",
    "Giron.C50_no_invalid_rest",
    "Giron.C50_needs_dots",
    "Giron.C50_needs_parentheses",
    "Giron.C50_needs_assignment",
    "Giron.C50_sloppy_scripts",
    "Giron.C50_sloppy_text",
    "Giron.C50_needs_the_word",
    "Giron.C50_comparison_as_assignment",
    "Giron.C50_strings_can_be_reserved"
   ],
   "note": "The table is Spec/Reasons.lean. Nothing is claimed for unexpected tokens (see C46) and lexical errors. Examples show that each other kind occurs."
  },
  {
   "property": "C51",
   "status": "proved",
   "theorems": [
    "Giron.C51_errors_come_from_the_words",
    "Giron.C51_errors_come_from_the_words_module",
    "Giron.C51_unexpected_words_are_final",
    "Giron.C51_unexpected_words_are_final_module",
    "Giron.C51_same_words_same_answer",
    "Giron.C51_nothing_behind_repairs",
    "Giron.C51_nothing_behind_repairs_module",
    "Giron.C51_what_is_not_a_word_is_reported_first"
   ],
   "note": "Not claimed: that the kind of error stays the same if only the words up to the unexpected one stay (C51_what_is_not_a_word_is_reported_first shows that it does not, because giron reads one word on before it reports). For sources with regular expressions, templates or slashes only the forms that speak of the words as giron reads them apply."
  },
  {
   "property": "C52",
   "status": "proved",
   "theorems": [
    "Giron.C52_strict_only_rejects",
    "Giron.C52_script_rejection_is_strict",
    "Giron.C52_module_to_script"
   ],
   "note": "The trees are related by EasedNode (Spec/Eased.lean, generated: one rule per kind of node, all fields equal but assign_target_type). For modules: unless there is an import or an export, and for a source that is not empty. The converse is false (with, eval = a, public as a name, labelled functions): examples beside the theorems."
  },
  {
   "property": "C53",
   "status": "proved",
   "theorems": [
    "Giron.C53_what_follows_does_not_matter",
    "Giron.C53_what_follows_does_not_matter_module",
    "Giron.C53_the_next_word_matters"
   ],
   "note": "C53_the_next_word_matters shows why the word after has to be kept."
  },
  {
   "property": "C54",
   "status": "proved",
   "theorems": [
    "Giron.C54_tree_is_linear",
    "Giron.C54_json_is_linear"
   ],
   "note": "Values are counted, not the characters of strings: numbers are printed by Rust's f64 formatter (Env.showNum)."
  },
  {
   "property": "C55",
   "status": "proved",
   "theorems": [
    "Giron.C55_nearest",
    "Giron.C55_reader_nearest",
    "Giron.C55_value",
    "Giron.C55_literal",
    "Giron.C55_raw",
    "Giron.C55_position_exact"
   ],
   "note": "Rounding and shortest digits of the standard library and of serde_json are modelled by their documented results (Model/Double)."
  },
  {
   "property": "C56",
   "status": "proved",
   "theorems": [
    "Giron.C56_reads_back",
    "Giron.C56_no_member_lost",
    "Giron.C56_ties_unseen",
    "Giron.C56_injective"
   ],
   "note": "serde_json's writer is modelled (Model/JsonText); JSON.parse is a specification (Spec/JsonText)."
  },
  {
   "property": "C57",
   "status": "proved",
   "theorems": [
    "Giron.C57_nothing_lost_or_invented",
    "Giron.C57_words"
   ],
   "note": "Counted as objects of the JSON on one side and words of the source on the other."
  },
  {
   "property": "C58",
   "status": "proved",
   "theorems": [
    "Giron.C58_debug_and_release_agree",
    "Giron.C58_release_keeps_the_outcome",
    "Giron.C58_only_the_characters_of_the_text",
    "Giron.C58_ascii_needs_no_tables",
    "Giron.C58_javascript_gets_the_same",
    "Giron.C58_release_keeps_the_outcome_applies",
    "Giron.C58_overflow_is_an_exception",
    "Giron.C58_tables_matter"
   ],
   "note": "For any two environments that print numbers alike. Debug and release: equal results unless the debug run panics at one of the three overflow sites (each shown to be reached). Tables: equality when they agree on the non-ASCII characters of the source. C58_javascript_gets_the_same carries it to the results of giron-wasm."
  },
  {
   "property": "C59",
   "status": "proved",
   "theorems": [
    "Giron.C59_empty_stack_has_a_cause",
    "Giron.C59_plain_text",
    "Giron.C59_causes_occur"
   ],
   "note": "Every method of the parser has a balance (Marks.At: how many positions it needs on the stack and how many it leaves in place of them); the words are those of the lexical grammar (OpensWith, as in C50). C59_causes_occur: each of the three causes does empty the stack of some source, so none can be dropped from the statement."
  },
  {
   "property": "C60",
   "status": "proved",
   "theorems": [
    "Giron.C60_script_panics_have_causes",
    "Giron.C60_module_panics_have_causes",
    "Giron.C60_needs_import",
    "Giron.C60_plain_text",
    "Giron.C60_causes_occur"
   ],
   "note": "For the four panic sites of C02 whose cause is in the words: Spec.cause says what the words reached must be, Caused that the source begins with such words. All other unwraps of a token's text (operators, names) are shown not to fail. C60_causes_occur: each happens."
  },
  {
   "property": "C61",
   "status": "proved",
   "theorems": [
    "Giron.C61_unterminated_template",
    "Giron.C61_no_backquote",
    "Giron.C61_first_token",
    "Giron.C61_no_first_word",
    "Giron.C61_plain_scripts",
    "Giron.C61_they_happen"
   ],
   "note": "The spec (Spec.Unterminated, Spec.BeginsWithWord) uses the lexical grammar of Spec/Lexical only. C61_first_token and C61_no_first_word are converse to one another except for the template. C61_they_happen: witnesses."
  }
 ]
}