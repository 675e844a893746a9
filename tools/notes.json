{
 "C04": {
  "note": "ASCII sources, and for any source the exact condition (C04_span_any_source); the counterexample is a theorem."
 },
 "C05": {
  "note": "The wrong flag after a template continuation is a theorem (C05_template_counterexample)."
 },
 "C13": {
  "note": "C13_html_deviation: any `<!` starts a comment."
 },
 "C17": {
  "note": "ASCII sources, and for any source the exact condition (C17_rewind_any_source); the counterexample is a theorem."
 },
 "C42": {
  "note": "The children are characterised exactly for every kind of node (C42_children); the four kinds of nodes where the code deviates from the source order are theorems of their own."
 },
 "C43": {
  "note": "Generation is a total function of the model (structural recursion)."
 },
 "C44": {
  "note": "C44_round_trip: for every accepted script or module whose tokens fit (Spec/Printed lists the tokens of a tree with what is demanded of their surroundings, Spec/Fits says when they can be written next to each other, with indentation or minified), the generated code is accepted and gives the same tree up to spans; C44_stable: printing it again gives the same text; C44_minified_and_back: minified code gives the indented text back. Fits is decidable (fits, C44_round_trip_checked). Of the 431 accepted sources of the repository's snapshots 393 fit with indentation and 380 minified; the pretty code of 30 others really does not parse back, and the minified code of 42 others; 8 (9) do although they do not fit (`let`/`async` as identifiers, an expression statement that starts with a string at the start of a body, several `throw` statements in minified code). The property is false without the condition: 16 counterexample theorems."
 },
 "C46": {
  "note": "Scripts, and modules outside the two panic causes. C46_format_again: formatting the output again (under the condition of C44). Argument parsing (clap) and terminal output are not modelled."
 },
 "C19": {
  "note": "Fuel in the model bounds recursion depth and loop rounds; the theorem says the linear bound is never reached."
 },
 "C20": {
  "note": "Exact causes of panics proved for every source (any characters, both source types, all entry points); both causes have proved witnesses."
 },
 "C21": {
  "note": "Soundness against an independent grammar (Spec/Grammar.lean) over an independent tokenization (Spec/Source.lean); departures of fajt from ECMAScript are marked in the grammar."
 },
 "C37": {
  "note": "Proved for scripts and modules over any source; the one kind of error of modules with a reversed span is located exactly (witness proved). Reporting without panic for ASCII."
 },
 "C22": {
  "note": "Every node of every accepted tree: tokens, nesting, order of siblings, program span; and every span that is not that of a node (identifiers, argument lists, parameters, super, specifiers): C22_every_span, C22_spans_in_source. Spans are fajt's positions (posAfter), equal to byte offsets for ASCII."
 },
 "C23": {
  "note": "For all operators of all accepted trees; departures from ECMAScript are theorems."
 },
 "C24": {
  "note": "Holds for the statements fajt checks; departures for the others are theorems."
 },
 "C25": {
  "note": "All restricted productions that fajt implements; `async` newline `function` declarations are accepted (not claimed)."
 },
 "C27": {
  "note": "One departure (computed method names) is a theorem."
 },
 "C28": {
  "note": "Scripts; nested declarations in modules are a departure theorem."
 },
 "C30": {
  "note": "All identifiers except unaliased import names, for which the departure is a theorem."
 },
 "C31": {
  "note": "The check is exact (C31_target_check) and every target of every accepted tree passes it."
 },
 "C32": {
  "note": "Departures (with, arrow functions, modules, functions) are theorems."
 },
 "C33": {
  "note": "Departures (functions, arrow functions, names inside patterns) are theorems."
 },
 "C35": {
  "note": "Several default clauses: departure theorem."
 },
 "C36": {
  "note": "The original claim (the run is always maximal) is false: C36_maximality_counterexample. Proved: order, tokens, and maximality except where another statement that is not a directive can be read at the same place."
 },
 "C45": {
  "note": "All forms of expressions, including functions, classes, methods, templates, regular expressions, arrow functions (plain and async) and destructuring assignments. Where the code reads a token twice (regular expressions, template continuations, arrow parameters, destructuring, for-in/of) the rules of Core require that fajt's position of the token is a byte offset (Seekable, always true in ASCII texts: seekable_ascii); otherwise fajt panics. C45 is about the entry point for expressions, C49 about statements and programs."
 },
 "C49": {
  "note": "All statement and declaration forms, scripts and modules. Not derived by Core although fajt accepts them: statements after var/return/throw/break/continue/debugger/do-while without any separator (departure proved in C24_departures), array assignment patterns with a missing comma, parameters of async arrows and for-in/of heads that read differently the second time, and an `async` that is followed by something other than arguments, an arrow or a function. Texts of ECMAScript that fajt rejects: C49_departures. Seekable: see C45."
 },
 "C50": {
  "note": ""
 },
 "C51": {
  "note": "The line feed must count as a blank: C51_line_feed_becomes_blank."
 },
 "C52": {
  "note": "The condition SameForLexer is a bisimulation of the two lexers under what the parser can ask of them: read, go back to a token, read again as a regular expression or as the continuation of a template. It follows from equal plain tokens (C52_same_tokens, C52_ascii) and is checked by a proved checker for given sources, with examples that have divisions, regular expressions and templates. It holds for every source and the same source with blanks, line terminators and comments in front of it (C52_leading_any), and it is an equivalence (C52_equivalence). For templates with substitutions together with `for` statements the condition is stronger (the places after a failed continuation of a template have to correspond too, because there `for` goes on after an error while the lexer stays in the template state); C52_leading_any covers these sources as well. Counterexamples show why the conditions are there: C52_slash_counterexample, C52_line_counterexample, C52_position_counterexample."
 },
 "C53": {
  "note": "Model/Serde.lean is generated by tools/gen_serde.py from the declarations in /repo/ast/src; its serialiser reproduces the 692 snapshots of the repository. The text of JSON is C58; the messages of serde are not modelled. C53_panic_witness: a span like a:b panics (C39). C53_readable says exactly which values are read."
 },
 "C54": {
  "note": "Model/Mutate.lean and Spec/TreeMaps.lean are generated by tools/gen_mutate.py from the table in traverse/mod.rs and the declarations of the nodes. A hook that panics or does not return is not modelled. The three witnesses are deviations or show that a hypothesis is needed."
 },
 "C55": {
  "note": "Model of the testing crate (Markdown snapshots). Four theorems (round trip, rereading, contents end a line, fixed point) and witnesses for the excluded cases: indented heading, fenced language, empty document, empty block, panics of the reader."
 },
 "C56": {
  "note": "Composes the snapshot model with the error reporter (C38): the regenerated expected error is read back exactly; counterexample for errors over several lines that quote a fence."
 },
 "C57": {
  "note": "The program logic of the parser is proved for any set of blamed causes (class Blame), so it covers release and debug builds. The lexer inside the debug parser is that of the release build, by C57_lexer. Additions do not overflow (usize is Nat). C57_departure: the witness."
 },
 "C58": {
  "note": "JSON text (serde_json) is a modelled dependency: strings, numbers that occur, pretty printing with two blanks, depth limit 128; floats and the other texts of JSON are not needed. The model of the runner passes on all 692 snapshot files of the repository and its JSON text is byte-equal to the stored text in all 517 files with a tree (tools/run_snapshots.txt). Hypotheses on indented headings as in C55. C58_deep_counterexample: the departure."
 },
 "C59": {
  "note": "Model of the procedural macro for_each_file over trees of directory entries. The 692 files of the repository satisfy the hypotheses of C59_names. Not modelled: unreadable directories, names that are not Unicode, that the compiler refuses equal names and keywords. C59_counterexamples: files without extension stop the compilation, different files can get tests of the same name."
 },
 "C60": {
  "note": "PlainSource (Spec/Kind.lean) is the hypothesis; C60_plain gives simple sufficient conditions, C60_differences shows that each of them matters. C60_module_not_strict_counterexample: modules accept what ECMAScript forbids in strict code."
 },
 "C61": {
  "note": "Two instances of UnicodeID with SameChars (Spec/SameChars.lean). C61_accepted transfers every example and counterexample computed with asciiID to the real tables, for sources in ASCII without unicode escapes. C61_differences: both conditions matter. The formatter and the command line are not covered (char::is_alphanumeric in the code generator is another table)."
 }
}