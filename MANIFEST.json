{
 "claims": [
  {
   "property": "C01",
   "status": "proved",
   "theorems": [
    "Fajt.Props.C01_lexing_total",
    "Fajt.Props.C01_read_total"
   ],
   "note": ""
  },
  {
   "property": "C02",
   "status": "proved",
   "theorems": [
    "Fajt.Props.C02_white_space",
    "Fajt.Props.C02_classes_disjoint",
    "Fajt.Props.C02_tokens_tile",
    "Fajt.Props.C02_tokens_unique"
   ],
   "note": ""
  },
  {
   "property": "C03",
   "status": "proved",
   "theorems": [
    "Fajt.Props.C03_spans_ordered"
   ],
   "note": ""
  },
  {
   "property": "C04",
   "status": "proved",
   "theorems": [
    "Fajt.Props.C04_utf16_length",
    "Fajt.Props.C04_span_slices_lexeme",
    "Fajt.Props.C04_nonascii_counterexample",
    "Fajt.Props.C04_span_any_source"
   ],
   "note": "ASCII sources, and for any source the exact condition (C04_span_any_source); the counterexample is a theorem."
  },
  {
   "property": "C05",
   "status": "proved",
   "theorems": [
    "Fajt.Props.C05_line_terminators",
    "Fajt.Props.C05_first_on_line",
    "Fajt.Props.C05_first_on_line_ascii",
    "Fajt.Props.C05_template_counterexample"
   ],
   "note": "The wrong flag after a template continuation is a theorem (C05_template_counterexample)."
  },
  {
   "property": "C06",
   "status": "proved",
   "theorems": [
    "Fajt.Props.C06_filler_irrelevant"
   ],
   "note": ""
  },
  {
   "property": "C07",
   "status": "proved",
   "theorems": [
    "Fajt.Props.C07_longest_match"
   ],
   "note": ""
  },
  {
   "property": "C08",
   "status": "proved",
   "theorems": [
    "Fajt.Props.C08_keyword_spellings",
    "Fajt.Props.C08_punctuator_spellings",
    "Fajt.Props.C08_keywords",
    "Fajt.Props.C08_punctuators",
    "Fajt.Props.C08_binary_operators",
    "Fajt.Props.C08_logical_operators",
    "Fajt.Props.C08_unary_operators",
    "Fajt.Props.C08_update_operators",
    "Fajt.Props.C08_assignment_operators",
    "Fajt.Props.C08_variable_kinds",
    "Fajt.Props.C08_texts_differ",
    "Fajt.Props.C08_disjoint"
   ],
   "note": ""
  },
  {
   "property": "C09",
   "status": "proved",
   "theorems": [
    "Fajt.Props.C09_hex_digits",
    "Fajt.Props.C09_numbers"
   ],
   "note": ""
  },
  {
   "property": "C10",
   "status": "proved",
   "theorems": [
    "Fajt.Props.C10_strings"
   ],
   "note": ""
  },
  {
   "property": "C11",
   "status": "proved",
   "theorems": [
    "Fajt.Props.C11_regexps"
   ],
   "note": ""
  },
  {
   "property": "C12",
   "status": "proved",
   "theorems": [
    "Fajt.Props.C12_template_head",
    "Fajt.Props.C12_template_continuation"
   ],
   "note": ""
  },
  {
   "property": "C13",
   "status": "proved",
   "theorems": [
    "Fajt.Props.C13_line_comment",
    "Fajt.Props.C13_block_comment",
    "Fajt.Props.C13_unterminated_comment",
    "Fajt.Props.C13_html_comment_error",
    "Fajt.Props.C13_html_comment",
    "Fajt.Props.C13_html_deviation"
   ],
   "note": "C13_html_deviation: any `<!` starts a comment."
  },
  {
   "property": "C14",
   "status": "proved",
   "theorems": [
    "Fajt.Props.C14_hex_value",
    "Fajt.Props.C14_identifier_start",
    "Fajt.Props.C14_identifier_part",
    "Fajt.Props.C14_identifiers"
   ],
   "note": ""
  },
  {
   "property": "C15",
   "status": "proved",
   "theorems": [
    "Fajt.Props.C15_lex_print"
   ],
   "note": ""
  },
  {
   "property": "C16",
   "status": "proved",
   "theorems": [
    "Fajt.Props.C16_peek_reader",
    "Fajt.Props.C16_position",
    "Fajt.Props.C16_cursor_refines_reader",
    "Fajt.Props.C16_new_reader"
   ],
   "note": ""
  },
  {
   "property": "C17",
   "status": "proved",
   "theorems": [
    "Fajt.Props.C17_rewind",
    "Fajt.Props.C17_nonascii_counterexample",
    "Fajt.Props.C17_rewind_any_source"
   ],
   "note": "ASCII sources, and for any source the exact condition (C17_rewind_any_source); the counterexample is a theorem."
  },
  {
   "property": "C18",
   "status": "proved",
   "theorems": [
    "Fajt.Props.C18_keyword_as_identifier",
    "Fajt.Props.C18_monotone",
    "Fajt.Props.C18_reserved"
   ],
   "note": ""
  },
  {
   "property": "C19",
   "status": "proved",
   "theorems": [
    "Fajt.Props.C19_parse_terminates",
    "Fajt.Props.C19_entry_points_terminate"
   ],
   "note": "Fuel in the model bounds recursion depth and loop rounds; the theorem says the linear bound is never reached."
  },
  {
   "property": "C20",
   "status": "proved",
   "theorems": [
    "Fajt.Props.C20_panic_cause",
    "Fajt.Props.C20_entry_points_panic_cause",
    "Fajt.Props.C20_script_no_panic",
    "Fajt.Props.C20_entry_points_no_panic",
    "Fajt.Props.C20_module_no_panic",
    "Fajt.Props.C20_no_from_no_panic",
    "Fajt.Props.C20_module_counterexample",
    "Fajt.Props.C20_nonascii_counterexample"
   ],
   "note": "Exact causes of panics proved for every source (any characters, both source types, all entry points); both causes have proved witnesses."
  },
  {
   "property": "C21",
   "status": "proved",
   "theorems": [
    "Fajt.Props.C21_script_sound",
    "Fajt.Props.C21_module_sound"
   ],
   "note": "Soundness against an independent grammar (Spec/Grammar.lean) over an independent tokenization (Spec/Source.lean); departures of fajt from ECMAScript are marked in the grammar."
  },
  {
   "property": "C22",
   "status": "proved",
   "theorems": [
    "Fajt.Props.C22_node_spans",
    "Fajt.Props.C22_covers_tokens",
    "Fajt.Props.C22_nested",
    "Fajt.Props.C22_siblings_ordered",
    "Fajt.Props.C22_statements_ordered",
    "Fajt.Props.C22_program_span",
    "Fajt.Props.C22_every_span",
    "Fajt.Props.C22_spans_in_source"
   ],
   "note": "Every node of every accepted tree: tokens, nesting, order of siblings, program span; and every span that is not that of a node (identifiers, argument lists, parameters, super, specifiers): C22_every_span, C22_spans_in_source. Spans are fajt's positions (posAfter), equal to byte offsets for ASCII."
  },
  {
   "property": "C23",
   "status": "proved",
   "theorems": [
    "Fajt.Props.C23_operands_bind",
    "Fajt.Props.C23_binary",
    "Fajt.Props.C23_left_associative",
    "Fajt.Props.C23_right_associative",
    "Fajt.Props.C23_departures"
   ],
   "note": "For all operators of all accepted trees; departures from ECMAScript are theorems."
  },
  {
   "property": "C24",
   "status": "proved",
   "theorems": [
    "Fajt.Props.C24_expression_statement",
    "Fajt.Props.C24_statement_end",
    "Fajt.Props.C24_departures"
   ],
   "note": "Holds for the statements fajt checks; departures for the others are theorems."
  },
  {
   "property": "C25",
   "status": "proved",
   "theorems": [
    "Fajt.Props.C25_postfix",
    "Fajt.Props.C25_arrow",
    "Fajt.Props.C25_argument",
    "Fajt.Props.C25_label",
    "Fajt.Props.C25_async_function"
   ],
   "note": "All restricted productions that fajt implements; `async` newline `function` declarations are accepted (not claimed)."
  },
  {
   "property": "C26",
   "status": "proved",
   "theorems": [
    "Fajt.Props.C26_return"
   ],
   "note": ""
  },
  {
   "property": "C27",
   "status": "proved",
   "theorems": [
    "Fajt.Props.C27_super_property",
    "Fajt.Props.C27_super_call",
    "Fajt.Props.C27_computed_method_departure"
   ],
   "note": "One departure (computed method names) is a theorem."
  },
  {
   "property": "C28",
   "status": "proved",
   "theorems": [
    "Fajt.Props.C28_script",
    "Fajt.Props.C28_nested_departure"
   ],
   "note": "Scripts; nested declarations in modules are a departure theorem."
  },
  {
   "property": "C29",
   "status": "proved",
   "theorems": [
    "Fajt.Props.C29_yield",
    "Fajt.Props.C29_await"
   ],
   "note": ""
  },
  {
   "property": "C30",
   "status": "proved",
   "theorems": [
    "Fajt.Props.C30_reserved_words",
    "Fajt.Props.C30_import_departure"
   ],
   "note": "All identifiers except unaliased import names, for which the departure is a theorem."
  },
  {
   "property": "C31",
   "status": "proved",
   "theorems": [
    "Fajt.Props.C31_targets",
    "Fajt.Props.C31_pattern_operator",
    "Fajt.Props.C31_target_check",
    "Fajt.Props.C31_checks_agree"
   ],
   "note": "The check is exact (C31_target_check) and every target of every accepted tree passes it."
  },
  {
   "property": "C32",
   "status": "proved",
   "theorems": [
    "Fajt.Props.C32_delete",
    "Fajt.Props.C32_use_strict_params",
    "Fajt.Props.C32_departures",
    "Fajt.Props.C32_delete_check"
   ],
   "note": "Departures (with, arrow functions, modules, functions) are theorems."
  },
  {
   "property": "C33",
   "status": "proved",
   "theorems": [
    "Fajt.Props.C33_parameters",
    "Fajt.Props.C33_departures",
    "Fajt.Props.C33_getter_check",
    "Fajt.Props.C33_setter_check"
   ],
   "note": "Departures (functions, arrow functions, names inside patterns) are theorems."
  },
  {
   "property": "C34",
   "status": "proved",
   "theorems": [
    "Fajt.Props.C34_sorting_unique",
    "Fajt.Props.C34_duplicates_exact",
    "Fajt.Props.C34_method_parameters"
   ],
   "note": ""
  },
  {
   "property": "C35",
   "status": "proved",
   "theorems": [
    "Fajt.Props.C35_try",
    "Fajt.Props.C35_for_await",
    "Fajt.Props.C35_lists",
    "Fajt.Props.C35_switch_departure"
   ],
   "note": "Several default clauses: departure theorem."
  },
  {
   "property": "C36",
   "status": "proved",
   "theorems": [
    "Fajt.Props.C36_program",
    "Fajt.Props.C36_bodies",
    "Fajt.Props.C36_maximality_counterexample"
   ],
   "note": "The original claim (the run is always maximal) is false: C36_maximality_counterexample. Proved: order, tokens, and maximality except where another statement that is not a directive can be read at the same place."
  },
  {
   "property": "C37",
   "status": "proved",
   "theorems": [
    "Fajt.Props.C37_script_error_span",
    "Fajt.Props.C37_module_error_span",
    "Fajt.Props.C37_no_export_error_span",
    "Fajt.Props.C37_entry_points_error_span",
    "Fajt.Props.C37_report_no_panic",
    "Fajt.Props.C37_module_report_no_panic",
    "Fajt.Props.C37_module_counterexample"
   ],
   "note": "Proved for scripts and modules over any source; the one kind of error of modules with a reversed span is located exactly (witness proved). Reporting without panic for ASCII."
  },
  {
   "property": "C38",
   "status": "proved",
   "theorems": [
    "Fajt.Props.C38_output",
    "Fajt.Props.C38_no_panic_iff",
    "Fajt.Props.C38_location",
    "Fajt.Props.C38_multiline_counterexample",
    "Fajt.Props.C38_nonascii_counterexample",
    "Fajt.Props.C38_reversed_counterexample"
   ],
   "note": ""
  },
  {
   "property": "C39",
   "status": "proved",
   "theorems": [
    "Fajt.Props.C39_roundtrip",
    "Fajt.Props.C39_serialize_injective",
    "Fajt.Props.C39_no_colon",
    "Fajt.Props.C39_accepted",
    "Fajt.Props.C39_panic_iff",
    "Fajt.Props.C39_panic_witness"
   ],
   "note": ""
  },
  {
   "property": "C40",
   "status": "proved",
   "theorems": [
    "Fajt.Props.C40_simple_parameters",
    "Fajt.Props.C40_use_strict"
   ],
   "note": ""
  },
  {
   "property": "C41",
   "status": "proved",
   "theorems": [
    "Fajt.Props.C41_balanced",
    "Fajt.Props.C41_calls",
    "Fajt.Props.C41_descending_visitor"
   ],
   "note": ""
  },
  {
   "property": "C42",
   "status": "proved",
   "theorems": [
    "Fajt.Props.C42_children",
    "Fajt.Props.C42_parts",
    "Fajt.Props.C42_conditional_counterexample",
    "Fajt.Props.C42_import_counterexample",
    "Fajt.Props.C42_pattern_counterexample",
    "Fajt.Props.C42_for_binding_counterexample"
   ],
   "note": "The children are characterised exactly for every kind of node (C42_children); the four kinds of nodes where the code deviates from the source order are theorems of their own."
  },
  {
   "property": "C43",
   "status": "proved",
   "theorems": [
    "Fajt.Props.C43_no_underflow",
    "Fajt.Props.C43_minified_single_line",
    "Fajt.Props.C43_pretty_lines"
   ],
   "note": "Generation is a total function of the model (structural recursion)."
  },
  {
   "property": "C44",
   "status": "proved",
   "theorems": [
    "Fajt.Props.C44_round_trip_blanks",
    "Fajt.Props.C44_round_trip",
    "Fajt.Props.C44_round_trip_checked",
    "Fajt.Props.C44_stable",
    "Fajt.Props.C44_minified_and_back",
    "Fajt.Props.C44_minus_counterexample",
    "Fajt.Props.C44_typeof_counterexample",
    "Fajt.Props.C44_quote_counterexample",
    "Fajt.Props.C44_pattern_counterexample",
    "Fajt.Props.C44_for_counterexample",
    "Fajt.Props.C44_regexp_counterexample",
    "Fajt.Props.C44_sign_counterexample",
    "Fajt.Props.C44_hole_counterexample",
    "Fajt.Props.C44_throw_counterexample",
    "Fajt.Props.C44_getter_counterexample",
    "Fajt.Props.C44_async_counterexample",
    "Fajt.Props.C44_template_counterexample",
    "Fajt.Props.C44_class_counterexample",
    "Fajt.Props.C44_plus_counterexample",
    "Fajt.Props.C44_empty_counterexample",
    "Fajt.Props.C44_export_counterexample"
   ],
   "note": "C44_round_trip: for every accepted script or module whose tokens fit (Spec/Printed lists the tokens of a tree with what is demanded of their surroundings, Spec/Fits says when they can be written next to each other, with indentation or minified), the generated code is accepted and gives the same tree up to spans; C44_stable: printing it again gives the same text; C44_minified_and_back: minified code gives the indented text back. Fits is decidable (fits, C44_round_trip_checked). Of the 431 accepted sources of the repository's snapshots 393 fit with indentation and 380 minified; the pretty code of 30 others really does not parse back, and the minified code of 42 others; 8 (9) do although they do not fit (`let`/`async` as identifiers, an expression statement that starts with a string at the start of a body, several `throw` statements in minified code). The property is false without the condition: 16 counterexample theorems."
  },
  {
   "property": "C45",
   "status": "proved",
   "theorems": [
    "Fajt.Props.C45_expressions",
    "Fajt.Props.C45_unambiguous"
   ],
   "note": "All forms of expressions, including functions, classes, methods, templates, regular expressions, arrow functions (plain and async) and destructuring assignments. Where the code reads a token twice (regular expressions, template continuations, arrow parameters, destructuring, for-in/of) the rules of Core require that fajt's position of the token is a byte offset (Seekable, always true in ASCII texts: seekable_ascii); otherwise fajt panics. C45 is about the entry point for expressions, C49 about statements and programs."
  },
  {
   "property": "C46",
   "status": "proved",
   "theorems": [
    "Fajt.Props.C46_module_iff",
    "Fajt.Props.C46_success",
    "Fajt.Props.C46_failure",
    "Fajt.Props.C46_format_again",
    "Fajt.Props.C46_check_formatted",
    "Fajt.Props.C46_format_counterexample",
    "Fajt.Props.C46_no_panic",
    "Fajt.Props.C46_module_no_panic",
    "Fajt.Props.C46_plain_module_no_panic",
    "Fajt.Props.C46_module_counterexample",
    "Fajt.Props.C46_nonascii_counterexample"
   ],
   "note": "Scripts, and modules outside the two panic causes. C46_format_again: formatting the output again (under the condition of C44). Argument parsing (clap) and terminal output are not modelled."
  },
  {
   "property": "C47",
   "status": "proved",
   "theorems": [
    "Fajt.Props.C47_translate",
    "Fajt.Props.C47_translate_compose",
    "Fajt.Props.C47_translate_inverse"
   ],
   "note": ""
  },
  {
   "property": "C48",
   "status": "proved",
   "theorems": [
    "Fajt.Props.C48_minified_same_text"
   ],
   "note": ""
  },
  {
   "property": "C49",
   "status": "proved",
   "theorems": [
    "Fajt.Props.C49_statements",
    "Fajt.Props.C49_programs",
    "Fajt.Props.C49_unambiguous",
    "Fajt.Props.C49_departures"
   ],
   "note": "All statement and declaration forms, scripts and modules. Not derived by Core although fajt accepts them: statements after var/return/throw/break/continue/debugger/do-while without any separator (departure proved in C24_departures), array assignment patterns with a missing comma, parameters of async arrows and for-in/of heads that read differently the second time, and an `async` that is followed by something other than arguments, an arrow or a function. Texts of ECMAScript that fajt rejects: C49_departures. Seekable: see C45."
  },
  {
   "property": "C50",
   "status": "proved",
   "theorems": [
    "Fajt.Props.C50_spans_irrelevant",
    "Fajt.Props.C50_erased"
   ],
   "note": ""
  },
  {
   "property": "C51",
   "status": "proved",
   "theorems": [
    "Fajt.Props.C51_minified_within_pretty",
    "Fajt.Props.C51_statement",
    "Fajt.Props.C51_expression",
    "Fajt.Props.C51_not_longer",
    "Fajt.Props.C51_not_larger",
    "Fajt.Props.C51_line_feed_becomes_blank"
   ],
   "note": "The line feed must count as a blank: C51_line_feed_becomes_blank."
  },
  {
   "property": "C52",
   "status": "proved",
   "theorems": [
    "Fajt.Props.C52_script",
    "Fajt.Props.C52_module",
    "Fajt.Props.C52_entry_points",
    "Fajt.Props.C52_accepted",
    "Fajt.Props.C52_same_tokens",
    "Fajt.Props.C52_ascii",
    "Fajt.Props.C52_leading",
    "Fajt.Props.C52_leading_any",
    "Fajt.Props.C52_equivalence",
    "Fajt.Props.C52_slash_counterexample",
    "Fajt.Props.C52_line_counterexample",
    "Fajt.Props.C52_position_counterexample"
   ],
   "note": "The condition SameForLexer is a bisimulation of the two lexers under what the parser can ask of them: read, go back to a token, read again as a regular expression or as the continuation of a template. It follows from equal plain tokens (C52_same_tokens, C52_ascii) and is checked by a proved checker for given sources, with examples that have divisions, regular expressions and templates. It holds for every source and the same source with blanks, line terminators and comments in front of it (C52_leading_any), and it is an equivalence (C52_equivalence). For templates with substitutions together with `for` statements the condition is stronger (the places after a failed continuation of a template have to correspond too, because there `for` goes on after an error while the lexer stays in the template state); C52_leading_any covers these sources as well. Counterexamples show why the conditions are there: C52_slash_counterexample, C52_line_counterexample, C52_position_counterexample."
  },
  {
   "property": "C53",
   "status": "proved",
   "theorems": [
    "Fajt.Props.C53_accepted",
    "Fajt.Props.C53_round_trip",
    "Fajt.Props.C53_round_trip_stmt",
    "Fajt.Props.C53_round_trip_expr",
    "Fajt.Props.C53_injective",
    "Fajt.Props.C53_panics_only_on_spans",
    "Fajt.Props.C53_field_order",
    "Fajt.Props.C53_unknown_field",
    "Fajt.Props.C53_panic_witness",
    "Fajt.Props.C53_fields_required",
    "Fajt.Props.C53_readable",
    "Fajt.Props.C53_rejected",
    "Fajt.Props.C53_shape_of_objects"
   ],
   "note": "Model/Serde.lean is generated by tools/gen_serde.py from the declarations in /repo/ast/src; its serialiser reproduces the 692 snapshots of the repository. The text of JSON is C58; the messages of serde are not modelled. C53_panic_witness: a span like a:b panics (C39). C53_readable says exactly which values are read."
  },
  {
   "property": "C54",
   "status": "proved",
   "theorems": [
    "Fajt.Props.C54_balanced",
    "Fajt.Props.C54_skip",
    "Fajt.Props.C54_replacement",
    "Fajt.Props.C54_bound",
    "Fajt.Props.C54_terminates",
    "Fajt.Props.C54_read_only",
    "Fajt.Props.C54_bottom_up",
    "Fajt.Props.C54_leaves_reached",
    "Fajt.Props.C54_leaves",
    "Fajt.Props.C54_conditional_witness",
    "Fajt.Props.C54_divergence_witness",
    "Fajt.Props.C54_bottom_up_witness"
   ],
   "note": "Model/Mutate.lean and Spec/TreeMaps.lean are generated by tools/gen_mutate.py from the table in traverse/mod.rs and the declarations of the nodes. A hook that panics or does not return is not modelled. The three witnesses are deviations or show that a hypothesis is needed."
  },
  {
   "property": "C55",
   "status": "proved",
   "theorems": [
    "Fajt.Props.C55_roundtrip",
    "Fajt.Props.C55_reread",
    "Fajt.Props.C55_contents_end",
    "Fajt.Props.C55_fixpoint",
    "Fajt.Props.C55_indented_heading_counterexample",
    "Fajt.Props.C55_fenced_language_counterexample",
    "Fajt.Props.C55_empty_counterexample",
    "Fajt.Props.C55_panic_witnesses"
   ],
   "note": "Model of the testing crate (Markdown snapshots). Four theorems (round trip, rereading, contents end a line, fixed point) and witnesses for the excluded cases: indented heading, fenced language, empty document, empty block, panics of the reader."
  },
  {
   "property": "C56",
   "status": "proved",
   "theorems": [
    "Fajt.Props.C56_set",
    "Fajt.Props.C56_regenerate",
    "Fajt.Props.C56_error_snapshot",
    "Fajt.Props.C56_error_plain",
    "Fajt.Props.C56_multiline_counterexample"
   ],
   "note": "Composes the snapshot model with the error reporter (C38): the regenerated expected error is read back exactly; counterexample for errors over several lines that quote a fence."
  },
  {
   "property": "C57",
   "status": "proved",
   "theorems": [
    "Fajt.Props.C57_lexer",
    "Fajt.Props.C57_programs",
    "Fajt.Props.C57_entry_points",
    "Fajt.Props.C57_same",
    "Fajt.Props.C57_no_async",
    "Fajt.Props.C57_results",
    "Fajt.Props.C57_departure"
   ],
   "note": "The program logic of the parser is proved for any set of blamed causes (class Blame), so it covers release and debug builds. The lexer inside the debug parser is that of the release build, by C57_lexer. Additions do not overflow (usize is Nat). C57_departure: the witness."
  },
  {
   "property": "C58",
   "status": "proved",
   "theorems": [
    "Fajt.Props.C58_text",
    "Fajt.Props.C58_text_injective",
    "Fajt.Props.C58_text_lines",
    "Fajt.Props.C58_tree_text",
    "Fajt.Props.C58_attribute",
    "Fajt.Props.C58_source_type",
    "Fajt.Props.C58_writes",
    "Fajt.Props.C58_rerun",
    "Fajt.Props.C58_rerun_parts",
    "Fajt.Props.C58_pass",
    "Fajt.Props.C58_pass_error",
    "Fajt.Props.C58_vacuous",
    "Fajt.Props.C58_runs",
    "Fajt.Props.C58_vacuous_runs",
    "Fajt.Props.C58_deep_counterexample"
   ],
   "note": "JSON text (serde_json) is a modelled dependency: strings, numbers that occur, pretty printing with two blanks, depth limit 128; floats and the other texts of JSON are not needed. The model of the runner passes on all 692 snapshot files of the repository and its JSON text is byte-equal to the stored text in all 517 files with a tree (tools/run_snapshots.txt). Hypotheses on indented headings as in C55. C58_deep_counterexample: the departure."
  },
  {
   "property": "C59",
   "status": "proved",
   "theorems": [
    "Fajt.Props.C59_extension",
    "Fajt.Props.C59_walk",
    "Fajt.Props.C59_once",
    "Fajt.Props.C59_tests",
    "Fajt.Props.C59_names",
    "Fajt.Props.C59_suite",
    "Fajt.Props.C59_runs",
    "Fajt.Props.C59_counterexamples"
   ],
   "note": "Model of the procedural macro for_each_file over trees of directory entries. The 692 files of the repository satisfy the hypotheses of C59_names. Not modelled: unreadable directories, names that are not Unicode, that the compiler refuses equal names and keywords. C59_counterexamples: files without extension stop the compilation, different files can get tests of the same name."
  },
  {
   "property": "C60",
   "status": "proved",
   "theorems": [
    "Fajt.Props.C60_plain",
    "Fajt.Props.C60_accepted",
    "Fajt.Props.C60_rejected",
    "Fajt.Props.C60_module_no_panic",
    "Fajt.Props.C60_parts",
    "Fajt.Props.C60_differences",
    "Fajt.Props.C60_module_not_strict_counterexample"
   ],
   "note": "PlainSource (Spec/Kind.lean) is the hypothesis; C60_plain gives simple sufficient conditions, C60_differences shows that each of them matters. C60_module_not_strict_counterexample: modules accept what ECMAScript forbids in strict code."
  },
  {
   "property": "C61",
   "status": "proved",
   "theorems": [
    "Fajt.Props.C61_ascii",
    "Fajt.Props.C61_lexer",
    "Fajt.Props.C61_parser",
    "Fajt.Props.C61_accepted",
    "Fajt.Props.C61_differences"
   ],
   "note": "Two instances of UnicodeID with SameChars (Spec/SameChars.lean). C61_accepted transfers every example and counterexample computed with asciiID to the real tables, for sources in ASCII without unicode escapes. C61_differences: both conditions matter. The formatter and the command line are not covered (char::is_alphanumeric in the code generator is another table)."
  }
 ]
}