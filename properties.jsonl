{"id": "C01", "title": "Lexing always terminates and never panics", "statement": "Reading all tokens of any source string, in any lexer state, returns either a token list or a lexer error: it never panics and never loops.", "quantifier": "every source string, every lexer state (html comments allowed or not, regexp allowed or not, inside template or not)", "why_tests_cant": "The input domain is infinite; tests sample a few sources. A loop or panic can hide behind any combination of comments, escapes and end-of-input.", "anchors": ["lexer/src/lib.rs: Lexer::read, read_all, skip_comments_and_white_spaces", "lexer/src/number.rs", "lexer/src/regexp.rs", "lexer/src/string.rs", "lexer/src/unicode_escape_sequence.rs"]}
{"id": "C02", "title": "Tokens tile the source", "statement": "When reading all tokens succeeds, the source text is exactly: trivia, lexeme, trivia, lexeme, ..., trivia, where each lexeme is the text of the corresponding token and each trivia run consists only of white space, line terminators and comments. Nothing is dropped and nothing is read twice.", "quantifier": "every source string that lexes", "why_tests_cant": "The input domain is infinite; tests sample a few sources. Dropped or duplicated characters show only on particular adjacency of tokens and comments.", "anchors": ["lexer/src/lib.rs: Lexer::read_all, Lexer::read"]}
{"id": "C03", "title": "Token spans are ordered, disjoint and in bounds", "statement": "The spans of the tokens read from a source satisfy start < end, each token starts at or after the end of the previous one, and the last ends at or before the byte length of the source.", "quantifier": "every source string that lexes (including non-ASCII ones)", "why_tests_cant": "The input domain is infinite; tests sample a few sources.", "anchors": ["lexer/src/lib.rs: Lexer::read", "common/src/io/char_reader.rs: PeekRead for CharIndices", "common/src/io.rs: PeekReader::consume"]}
{"id": "C04", "title": "Token spans slice the source to the lexeme", "statement": "For a source of ASCII characters the bytes source[span.start..span.end] of every token are exactly the lexeme the token was read from. In any other source the start of a span is wrong exactly for the tokens with a non-ASCII character immediately in front of them, the end exactly for the tokens whose last character is not ASCII (positions advance by UTF-16 length while offsets are UTF-8 bytes); all other spans select the lexeme.", "quantifier": "every ASCII source that lexes; negation witness for non-ASCII", "why_tests_cant": "The input domain is infinite; tests sample a few sources.", "anchors": ["common/src/io/char_reader.rs", "lexer/src/lib.rs: Lexer::read"]}
{"id": "C05", "title": "first_on_line marks exactly the tokens preceded by a line break", "statement": "A token read in the default state has first_on_line set iff it is the first token of the source or a line terminator (or a single-line comment) lies between it and the previous token. After re-reading a template continuation the flag can be wrong (witness proved).", "quantifier": "every source string that lexes, every token", "why_tests_cant": "The input domain is infinite; tests sample a few sources. Automatic semicolon insertion depends on this flag for every layout.", "anchors": ["lexer/src/lib.rs: Lexer::read, skip_whitespaces, skip_multi_line_comment"]}
{"id": "C06", "title": "Trivia does not influence token values", "statement": "Two sources obtained by putting arbitrary white space or complete multi-line comments between the same lexemes yield the same sequence of token values.", "quantifier": "every token list, every choice of separators", "why_tests_cant": "The input domain is infinite; tests sample a few sources.", "anchors": ["lexer/src/lib.rs: skip_comments_and_white_spaces"]}
{"id": "C07", "title": "Punctuators are matched longest first", "statement": "When a punctuator token is read, no longer punctuator of the language table is a prefix of the text at that point, except for the documented look-ahead rules (`?.` before a digit, `..` which is rejected, `<!` and line-initial `-->` which start comments).", "quantifier": "every source position at which a punctuator is read", "why_tests_cant": "54 punctuators and all possible right contexts; the decision tree in the lexer is hand written.", "anchors": ["lexer/src/lib.rs: Lexer::read", "lexer/src/token.rs: Punctuator"]}
{"id": "C08", "title": "Keyword, punctuator and operator tables are inverse bijections", "statement": "For Keyword, Punctuator, BinaryOperator, LogicalOperator, UnaryOperator, UpdateOperator, AssignmentOperator and VariableKind, from_str(as_str(x)) = Ok(x), and from_str(s) = Ok(x) implies as_str(x) = s.", "quantifier": "every enum value and every string", "why_tests_cant": "The second direction quantifies over all strings.", "anchors": ["macros/src/enum_from_string.rs", "lexer/src/token.rs", "ast/src/expr.rs", "ast/src/stmt.rs: VariableKind"]}
{"id": "C09", "title": "Number literals follow the numeric grammar", "statement": "A number token's raw text is its lexeme and has the shape of a hex, octal, binary or decimal literal: after removing numeric separators, digits of the right base, optional fraction and exponent with at least one digit; it never contains two adjacent underscores, never ends with one and is never immediately followed by an identifier start.", "quantifier": "every source position at which a number token is read", "why_tests_cant": "The input domain is infinite; tests sample a few sources.", "anchors": ["lexer/src/number.rs"]}
{"id": "C10", "title": "String literals: delimiters, line breaks and escapes", "statement": "A string token's lexeme starts and ends with the same quote, contains no unescaped quote of that kind and no unescaped CR or LF, and its value is the lexeme body with every escaping backslash removed (escape sequences are not decoded).", "quantifier": "every source position at which a string token is read", "why_tests_cant": "The input domain is infinite; tests sample a few sources.", "anchors": ["lexer/src/string.rs"]}
{"id": "C11", "title": "Regular expression literals", "statement": "A regexp token is read only when regexps are allowed; its value is its lexeme, which starts with `/`, has a body in which `/` only occurs escaped or inside a class, contains no line feed outside classes, and ends with `/` and identifier-part flags that extend as far as possible.", "quantifier": "every source position at which a regexp token is read", "why_tests_cant": "The input domain is infinite; tests sample a few sources.", "anchors": ["lexer/src/regexp.rs"]}
{"id": "C12", "title": "Template parts", "statement": "A template head/middle/tail/no-substitution token's lexeme is delimited by ` or } on the left and ` or ${ on the right, has no unescaped terminator inside, and its value is the body with escaping backslashes removed.", "quantifier": "every source position at which a template token is read", "why_tests_cant": "The input domain is infinite; tests sample a few sources.", "anchors": ["lexer/src/lib.rs: read_template_literal_head, read_template_literal_middle_or_tail, read_until_end_of_template_literal_part"]}
{"id": "C13", "title": "Comments are skipped exactly", "statement": "A single-line comment extends to and includes the next line terminator, a multi-line comment to the first `*/` after its opening; an unterminated multi-line comment is an error and html-like comments are errors when not allowed. (`<!` alone is treated as a comment start: deviation witness.)", "quantifier": "every source position at which a comment starts", "why_tests_cant": "The input domain is infinite; tests sample a few sources.", "anchors": ["lexer/src/lib.rs: skip_comments_and_white_spaces, skip_single_line_comment, skip_multi_line_comment"]}
{"id": "C14", "title": "Identifier tokens denote valid identifier names", "statement": "Every identifier token's name is non-empty, begins with an identifier-start character, continues with identifier-part characters and is not a keyword; unicode escapes are expanded and are only accepted when the denoted character is legal at that position.", "quantifier": "every source position at which an identifier token is read", "why_tests_cant": "The input domain is infinite; tests sample a few sources.", "anchors": ["lexer/src/lib.rs: read_identifier_or_keyword", "lexer/src/unicode_escape_sequence.rs", "lexer/src/code_point.rs"]}
{"id": "C15", "title": "Lexing inverts printing of token lists", "statement": "Writing any list of punctuators, keywords, identifiers, numbers and strings with a space between consecutive tokens and lexing the result gives back the same token values.", "quantifier": "every finite list of printable token values", "why_tests_cant": "The input domain is infinite; tests sample a few sources.", "anchors": ["lexer/src/lib.rs: Lexer::read_all", "lexer/src/token.rs"]}
{"id": "C16", "title": "The peeking reader delivers items in order", "statement": "A peek reader over any source returns, for any interleaving of current, peek and consume, exactly the inner items in order; current and peek are the next and next-but-one item and position() is the end position of the last consumed item.", "quantifier": "every inner sequence, every sequence of operations", "why_tests_cant": "Quantifies over all operation histories.", "anchors": ["common/src/io.rs: PeekReader"]}
{"id": "C17", "title": "Rewinding reproduces tokens", "statement": "For an ASCII source, rewinding the reader to a token it delivered earlier and reading again in the same state delivers the same token followed by the same remaining tokens. In any other source this holds for the tokens that have an ASCII character (or nothing) immediately in front of them; rewinding to any other token panics.", "quantifier": "every ASCII source, every token position", "why_tests_cant": "The input domain is infinite; tests sample a few sources. Backtracking happens at arbitrary points of the source.", "anchors": ["common/src/io.rs: PeekReader::rewind_to", "lexer/src/lib.rs: rewind_before, seek"]}
{"id": "C18", "title": "Keyword-as-identifier table", "statement": "A keyword is accepted as identifier iff it is contextual (as, async, from, get, of, set, target), or await outside await contexts, or yield outside yield and strict contexts, or one of implements/interface/let/package/private/protected/public/static outside strict contexts; enlarging the context never makes more keywords acceptable.", "quantifier": "all 53 keywords times all 8 contexts", "why_tests_cant": "Monotonicity over contexts relates pairs of inputs.", "anchors": ["lexer/src/token.rs: Keyword::is_allowed_as_identifier"]}
{"id": "C19", "title": "Parsing always terminates", "statement": "parse_script and parse_module return for every source string: no infinite loop through loops, recursion or backtracking.", "quantifier": "every source string, script and module", "why_tests_cant": "The input domain is infinite; tests sample a few sources. The parser backtracks (arrow functions, patterns, directives), so termination is not syntactic.", "anchors": ["parser/src/lib.rs: parse", "parser/src/cover.rs", "parser/src/expr.rs"]}
{"id": "C20", "title": "Parsing never panics", "statement": "A call of parse_script or parse_module panics only if some token of the source has a non-ASCII character immediately in front of it, or (modules) a literal other than a string follows the keyword `from`. So parse_script never panics on any ASCII source, and parse_module never panics on an ASCII source without such a `from`. (Both causes do occur: `import a from 1`, and a regular expression behind a no-break space.)", "quantifier": "every ASCII source string", "why_tests_cant": "The input domain is infinite; tests sample a few sources.", "anchors": ["parser/src/lib.rs", "parser/src/module.rs", "lexer/src/lib.rs: seek"]}
{"id": "C21", "title": "Accepted programs are derived by the grammar", "statement": "If parsing a source succeeds, then the source tokenizes and its complete token sequence is derivable as a Script (or Module) from an independent ECMAScript-style grammar, with the returned tree as its derivation: the tree is built from exactly those tokens, in order, with none lost, invented or reordered.", "quantifier": "every source string that is accepted", "why_tests_cant": "The input domain is infinite; tests sample a few sources. Soundness relates every accepted text to its tree.", "anchors": ["parser/src/*.rs"]}
{"id": "C22", "title": "Node spans cover exactly the node's tokens", "statement": "The span of every node of a returned tree starts at the start of its first token and ends at the end of its last token (so child spans are nested in parent spans and siblings are ordered).", "quantifier": "every accepted source, every node", "why_tests_cant": "The input domain is infinite; tests sample a few sources.", "anchors": ["parser/src/lib.rs: span_from, position"]}
{"id": "C23", "title": "Operator precedence and associativity", "statement": "In every returned tree the right operand of a binary or logical operator, unless parenthesised, binds strictly tighter than the operator and the left operand at least as tight, so equal-precedence operators group to the left; conditional and assignment expressions group to the right. (The code also groups ** to the left, accepts -a**b and mixes ?? with ||: deviations from ECMAScript shown by witnesses.)", "quantifier": "every accepted source, every operator node", "why_tests_cant": "The input domain is infinite; tests sample a few sources.", "anchors": ["parser/src/binary_expr.rs", "parser/src/expr.rs"]}
{"id": "C24", "title": "Automatic semicolon insertion", "statement": "An expression statement in a returned tree is followed by a semicolon, by a closing brace, by the end of input, or by a token on a new line - otherwise parsing fails. (Variable, return, throw, break, continue, debugger and do-while statements are accepted without any of these: `var a b` is accepted, witness.)", "quantifier": "every accepted source, every such statement", "why_tests_cant": "The input domain is infinite; tests sample a few sources.", "anchors": ["parser/src/stmt.rs", "parser/src/lib.rs: can_insert_semicolon, stmt_ended"]}
{"id": "C25", "title": "Restricted productions respect line breaks", "statement": "No accepted tree contains a postfix ++/-- whose operator is on a new line, a throw whose argument starts on a new line, an arrow whose => is on a new line, or a return/break/continue that takes an argument from the next line.", "quantifier": "every accepted source", "why_tests_cant": "The input domain is infinite; tests sample a few sources.", "anchors": ["parser/src/expr.rs", "parser/src/stmt.rs", "parser/src/function.rs"]}
{"id": "C26", "title": "return only inside functions", "statement": "A script in which a return statement occurs outside every function body is rejected.", "quantifier": "every accepted source", "why_tests_cant": "The input domain is infinite; tests sample a few sources. Contexts are threaded through some 100 functions; one wrong reset breaks it.", "anchors": ["parser/src/stmt.rs", "parser/src/function.rs", "parser/src/lib.rs: Context"]}
{"id": "C27", "title": "super only inside methods", "statement": "In every accepted tree super property access occurs only inside a method, and super(...) only inside a constructor of a class with a heritage clause. (It is also accepted in methods with computed names of object literals in such a constructor: witness.)", "quantifier": "every accepted source", "why_tests_cant": "The input domain is infinite; tests sample a few sources.", "anchors": ["parser/src/expr.rs", "parser/src/class.rs", "parser/src/method.rs"]}
{"id": "C28", "title": "import and export declarations only in modules", "statement": "An accepted script contains no import or export declaration. (In modules they are also accepted in nested blocks: witness.)", "quantifier": "every accepted source", "why_tests_cant": "The input domain is infinite; tests sample a few sources.", "anchors": ["parser/src/stmt.rs", "parser/src/module.rs"]}
{"id": "C29", "title": "yield and await expressions only where allowed", "statement": "In every accepted tree yield expressions occur only under a generator context and await expressions only under an async context.", "quantifier": "every accepted source", "why_tests_cant": "The input domain is infinite; tests sample a few sources.", "anchors": ["parser/src/expr.rs", "parser/src/function.rs"]}
{"id": "C30", "title": "Reserved words are never identifiers", "statement": "No identifier reference, binding identifier or label in an accepted tree is a reserved word in its context (reserved everywhere, in strict code, in generators, in async functions). (`import { if } from` binds a reserved word: witness.)", "quantifier": "every accepted source", "why_tests_cant": "The input domain is infinite; tests sample a few sources.", "anchors": ["parser/src/lib.rs: parse_identifier", "parser/src/binding.rs"]}
{"id": "C31", "title": "Assignment targets are valid", "statement": "The left side of a compound assignment and the operand of ++/-- in an accepted tree is an identifier or member access (possibly parenthesised as the code allows); the left side of = is such an expression or a pattern.", "quantifier": "every accepted source", "why_tests_cant": "The input domain is infinite; tests sample a few sources.", "anchors": ["parser/src/expr.rs", "parser/src/static_semantics/mod.rs: is_assignment_target_type_simple"]}
{"id": "C32", "title": "Strict mode restrictions", "statement": "A function or script with a \"use strict\" directive has its body parsed with strict rules: delete of an identifier is rejected there; a method or setter with non-simple parameters and a \"use strict\" directive is rejected. (A with statement is accepted in strict code and arrow functions forget strictness: witnesses.)", "quantifier": "every accepted source", "why_tests_cant": "The input domain is infinite; tests sample a few sources.", "anchors": ["parser/src/function.rs", "parser/src/static_semantics/mod.rs"]}
{"id": "C33", "title": "Getter, setter and method parameter rules", "statement": "Accepted getters have no parameters, setters exactly one, and methods have no duplicate simple parameter names. (Functions and arrow functions are not checked: witness.)", "quantifier": "every accepted source", "why_tests_cant": "The input domain is infinite; tests sample a few sources.", "anchors": ["parser/src/method.rs", "parser/src/function.rs", "parser/src/static_semantics/mod.rs"]}
{"id": "C34", "title": "Duplicate detection is exact", "statement": "The duplicate-name check reports a name iff some name occurs twice in the list, and the reported name does occur twice.", "quantifier": "every list of names", "why_tests_cant": "The input domain is infinite; tests sample a few sources.", "anchors": ["parser/src/static_semantics/mod.rs"]}
{"id": "C35", "title": "Statement well-formedness", "statement": "In accepted trees: try has a handler or a finalizer; for-await only occurs with of and under await; variables without initializer are names; variable declarations, sequences, and templates are non-empty lists. (Several default clauses in a switch are accepted: witness.)", "quantifier": "every accepted source", "why_tests_cant": "The input domain is infinite; tests sample a few sources.", "anchors": ["parser/src/stmt.rs", "parser/src/iteration.rs", "parser/src/variable.rs", "parser/src/binding.rs"]}
{"id": "C36", "title": "Directive prologue", "statement": "The tokens of a script, module or function body are first those of its directives, each a string literal with an optional semicolon, in source order, and then those of the statements of the body, in source order. The directives end before a string literal only where a statement that begins with this string but is not a directive can be read as well; in particular they are the maximal initial run if the text can be read in one way only. (Without this restriction the claim is false: a witness is proved in which `/` is read first as division and then as a regular expression.)", "quantifier": "every accepted source, every function body in it", "why_tests_cant": "The input domain is infinite; tests sample a few sources.", "anchors": ["parser/src/lib.rs: parse_directive_prologue", "parser/src/function.rs: parse_function_body", "common/src/io.rs: rewind_to"]}
{"id": "C37", "title": "Error spans are well formed", "statement": "If parse_script rejects a source, the span of the error has start <= end and lies within the source, so that reporting it cannot panic for ASCII sources. The same holds for parse_module, except that the error `Expected statement` behind `export` or `export default` has a span that runs backwards from the next token to that keyword (`export let 1`: witness).", "quantifier": "every rejected ASCII source", "why_tests_cant": "The input domain is infinite; tests sample a few sources.", "anchors": ["parser/src/error/mod.rs", "parser/src/error/emitter.rs"]}
{"id": "C38", "title": "Error reporting never panics and locates the error", "statement": "For every source and every error whose span lies within the source on character boundaries, the emitter returns a text; for spans within one line the reported line is 1 plus the number of preceding line feeds and the marker is placed under the span's columns. Multi-line spans report a wrong line (witness).", "quantifier": "every source, every span", "why_tests_cant": "The input domain is infinite; tests sample a few sources.", "anchors": ["parser/src/error/emitter.rs"]}
{"id": "C39", "title": "Span serialisation round-trips", "statement": "Deserialising the serialised form of any span gives the span back; a string without a colon is rejected with an error.", "quantifier": "every span", "why_tests_cant": "The input domain is infinite; tests sample a few sources.", "anchors": ["ast/src/span.rs"]}
{"id": "C40", "title": "Static semantics: parameter simplicity", "statement": "A parameter list is considered simple iff it has no rest element and every binding is an identifier without initialiser.", "quantifier": "every parameter list", "why_tests_cant": "The input domain is infinite; tests sample a few sources.", "anchors": ["parser/src/static_semantics/mod.rs"]}
{"id": "C41", "title": "Visitor enter/exit balance", "statement": "Traversing any tree with a visitor calls enter and exit hooks as a well-nested sequence: every enter of a node is matched by exactly one exit of the same node after all hooks of its descendants.", "quantifier": "every tree", "why_tests_cant": "The input domain is infinite; tests sample a few sources.", "anchors": ["ast/src/traverse/mod.rs", "ast/src/traverse/macros.rs"]}
{"id": "C42", "title": "Visitors reach every child node", "statement": "Traversal presents to the visitor, below each node that it reaches, exactly a list of children that depends on the kind of the node only: the parts of the construct, each once and in the order of the source text; except for conditional expressions (the condition a second time instead of the alternate), import declarations (the named imports a second time instead of the namespace), assignment patterns and the declarations of for-in and for-of loops (nothing).", "quantifier": "every tree", "why_tests_cant": "The input domain is infinite; tests sample a few sources.", "anchors": ["ast/src/traverse/mod.rs"]}
{"id": "C43", "title": "Code generation is deterministic and total", "statement": "Generating code for any tree returns a string, and the column arithmetic never underflows; minified output contains no line feed when no name or literal of the tree does; pretty output of a non-empty program ends with a line feed.", "quantifier": "every tree", "why_tests_cant": "The input domain is infinite; tests sample a few sources.", "anchors": ["codegen/src/lib.rs"]}
{"id": "C44", "title": "Generated code parses back to the same tree", "statement": "If the tokens of an accepted program can be written next to each other the way the generator writes them (no two signs that merge, no name that is glued to a keyword, no literal whose text needs escapes, no node for which nothing is printed), then the generated code, with indentation or minified, is accepted and gives the same tree up to spans, and generating code for that tree gives the same text again; so minified code contains all that is needed to restore the indented text. Without the condition this is false (16 counterexamples: `- -b`, `typeof _x`, escaped quotes, `[a] = b`, `for (var x of y)`, `[a,,]`, `throw a; (b)`, minified `a + ++b`, ...).", "quantifier": "every accepted script and module that meets the (decidable) condition", "why_tests_cant": "The input domain is infinite; tests sample a few sources.", "anchors": ["codegen/src/lib.rs", "parser/src/lib.rs: parse"]}
{"id": "C45", "title": "Completeness on expressions", "statement": "Every text derivable from the expression grammar of the core (identifiers, literals, regular expressions, templates, arrays, objects, functions, classes, arrow functions, parentheses, members, new, calls, optional chains, update, unary, binary, logical, conditional, assignment, destructuring, yield, await, comma) that the following token does not continue is accepted and gives the tree of that derivation; so no such text has two trees.", "quantifier": "every derivation in the fragment", "why_tests_cant": "The input domain is infinite; tests sample a few sources.", "anchors": ["parser/src/binary_expr.rs", "parser/src/expr.rs"]}
{"id": "C46", "title": "Command line tool: mode, output and exit code", "statement": "The CLI treats a file as a module iff its name ends in .mjs or .module.js; it exits with 0 and the requested output iff the content is accepted, with 1 and the error report otherwise, and never panics on a readable ASCII script, nor on a readable ASCII module that has neither a literal other than a string behind `from` nor a refused declaration behind `export`. Formatting what the tool has formatted gives the same output again, and `--check` accepts it, if the tokens of the tree can be written next to each other (C44).", "quantifier": "every file name", "why_tests_cant": "The input domain is infinite; tests sample a few sources.", "anchors": ["src/main.rs"]}
{"id": "C47", "title": "Moving spans", "statement": "Translating a span by an offset moves both ends by that offset (when they stay in range), translating twice adds the offsets, and translating back restores the span.", "quantifier": "every span and offset", "why_tests_cant": "The input domain is infinite; tests sample a few sources.", "anchors": ["ast/src/span.rs: Span"]}
{"id": "C48", "title": "Minifying changes only blanks, line feeds and semicolons", "statement": "The minified and the pretty text generated for a tree consist of the same characters in the same order once blanks, line feeds and semicolons are removed.", "quantifier": "every tree", "why_tests_cant": "The set of trees is infinite and every pair of adjacent constructs can interact.", "anchors": ["codegen/src/lib.rs: CodeGenerator, GeneratorContext::minified"]}
{"id": "C49", "title": "Completeness on statements and programs", "statement": "Every text derivable from the statement and program grammar of the core (directive prologues, blocks, var/let/const with destructuring, expression statements, labels, break, continue, return, throw, debugger, if, with, try, switch, while, do-while, for, for-in, for-of, for-await, functions including async and generator ones, classes, import and export declarations, with automatic semicolon insertion as the code does it) is accepted as a script and as a module and gives the tree of that derivation; so no such program has two trees.", "quantifier": "every derivation in the fragment, both source types", "why_tests_cant": "The input domain is infinite; tests sample a few sources. A statement form can be rejected or misread only in combination with particular neighbours.", "anchors": ["parser/src/stmt.rs", "parser/src/function.rs", "parser/src/binding.rs", "parser/src/variable.rs", "parser/src/iteration.rs", "parser/src/lib.rs"]}
{"id": "C50", "title": "Generated code does not depend on positions", "statement": "Trees that differ only in their source positions give the same code, pretty and minified; so reformatting a source without changing its tree does not change the generated code.", "quantifier": "every pair of trees equal up to spans", "why_tests_cant": "The input domain is infinite; tests sample a few sources.", "anchors": ["codegen/src/lib.rs"]}
{"id": "C51", "title": "Minifying only leaves characters out", "statement": "The characters of the minified text of a tree occur in the same order in the pretty text of that tree, where line feeds count as blanks; so minified code is never longer than pretty code, neither in characters nor in bytes.", "quantifier": "every tree (program, statement or expression)", "why_tests_cant": "The set of trees is infinite; whether a blank is written depends on the last character of whatever was generated before.", "anchors": ["codegen/src/lib.rs: CodeGenerator::string, end_block, GeneratorContext::minified"]}
{"id": "C52", "title": "Layout does not matter", "statement": "Two sources that the lexer cannot tell apart, wherever the parser leads it (the same tokens, with line terminators in front of the same tokens, also when slashes are read again as regular expressions and braces as continuations of templates), are treated in the same way by every entry point: both accepted with trees that differ only in spans (so the same code is generated), or both refused with the same error up to spans, or both panic. Blanks, comments and the kind and number of line terminators do not matter. For sources without slashes and template heads it is enough that they have the same tokens and are ASCII (or at least have their tokens at byte offsets). Being indistinguishable is an equivalence of sources, and blanks and comments put in front of any source (whatever it contains) are never noticed.", "quantifier": "every pair of sources that the lexer cannot tell apart, both source types", "why_tests_cant": "It compares two runs of the parser on every pair of sources; the parser works with positions (it goes back to tokens by byte offset), so layout can leak into the result anywhere.", "anchors": ["parser/src/lib.rs: Parser, parse", "lexer/src/lib.rs: Lexer", "common/src/io.rs: rewind"]}
{"id": "C53", "title": "Trees survive serialisation", "statement": "Serialising a tree and deserialising the result gives the same tree, for the tree of every accepted source and for every other program, statement or expression; so different trees have different serialised forms. The order of the fields of a node does not matter, other fields are ignored, missing and duplicate fields are errors (optional ones may be missing). Deserialising arbitrary data panics only if the data contains a string on which reading a span panics; it succeeds exactly for the data of the right shape (objects with the fields of the struct, arrays of the fields, names of variants, objects with one variant), everything else is rejected.", "quantifier": "every tree; every value of the data model as input of the deserialisers", "why_tests_cant": "The set of trees is infinite and recursive; a wrong or missing field matters only for some shapes of trees. Snapshot tests cover the shapes that somebody wrote down.", "anchors": ["ast/src/macros/mod.rs: ast_node, ast_struct, ast_mapping", "ast/src/span.rs: Serialize, Deserialize", "ast/src/lib.rs", "ast/src/expr.rs", "ast/src/stmt.rs", "ast/src/literal.rs"]}
{"id": "C54", "title": "Visitors that change the tree", "statement": "Whatever the hooks of a visitor do to the nodes they get, their calls are well-nested, each node becomes what its exit hook returns, and the traversal goes on in the node as the enter hook left it; an enter hook that returns false keeps the traversal out of the node. If no hook makes a node larger the traversal ends and the tree does not grow; a visitor that only looks leaves every tree as it is. A visitor that changes identifiers, literals and operators changes those that are reached, and in a tree without conditional expressions, imports of names, assignment patterns and for-in/for-of declarations exactly all of them, once; in such a tree a visitor with exit hooks only always ends. Elsewhere this is false: a condition is changed twice, an alternate never, and a visitor that only has exit hooks can run forever.", "quantifier": "every visitor (arbitrary hooks with arbitrary state), every node of every type", "why_tests_cant": "It quantifies over all visitors, which are arbitrary programs, and all trees; the traversal looks at nodes that the hooks have produced.", "anchors": ["ast/src/traverse/mod.rs", "ast/src/traverse/macros.rs: generate_fold_and_visit, Visitor, Traverse"]}
{"id": "C55", "title": "Snapshot files survive rewriting", "statement": "A Markdown document made of well-formed sections (one-line trimmed names, trimmed texts, no heading or fence at the start of a line in texts and blocks) is read back from its text with the same names, texts, languages and contents, in the same order (a block that does not end in a line feed gets one). A file that was read is rewritten so that it reads the same, and rewriting it a second time changes no character; except for sections whose text starts with an indented heading or whose language starts with a fence, empty documents and empty blocks.", "quantifier": "every document and every file", "why_tests_cant": "The set of files is infinite; the reader trims and searches for marks at the start of lines, so that a rewriting can move text to the start of a line.", "anchors": ["testing/src/markdown.rs: Markdown::from_string, to_string", "testing/src/markdown/section.rs: MarkdownSection, MarkdownBlock, split_title, split_code_block", "testing/src/lib.rs: write_string"]}
{"id": "C56", "title": "Regenerated outputs are read back", "statement": "Setting the block of a section changes the first section of that name and nothing else. When the output of a section is regenerated and the file rewritten, the next run reads exactly the generated contents, and every other section as before; in particular the report of a parse error is read back exactly, so the regenerated test passes, whenever the report quotes no line that starts with a heading or fence, which holds for every error within one line.", "quantifier": "every file, section, contents, source and error", "why_tests_cant": "It composes writing, reading and error reporting for all files and all errors.", "anchors": ["testing/src/markdown.rs: set_block_content, get_block_content", "testing/src/lib.rs: write_string", "parser/src/error/emitter.rs: emit_error", "tests/verify_snapshots.rs: parse_and_test"]}
{"id": "C57", "title": "Debug builds", "statement": "A debug build (debug assertions on, overflow checks on) lexes every source as a release build does: no assertion or subtraction in the lexer ever fails, in any state and reading mode. Every entry point of the parser returns in a debug build the tree or the error of the release build, or it panics; and it panics only for a cause of a panic of the release build or because the source has `async` with `function` on the next line (a debug build panics on the script `async`, line feed, `function f() {}`, which a release build accepts).", "quantifier": "every source, every entry point, both source types; for the lexer every state", "why_tests_cant": "Tests run as debug builds, users run release builds: that the two agree is a statement about every source, and a test can only show an assertion that fails.", "anchors": ["parser/src/function.rs: parse_async_function_expr, parse_async_function_declaration", "parser/src/expr.rs: parse_regexp_literal, parse_primary_expr", "parser/src/stmt.rs: parse_declaration", "lexer/src/string.rs", "lexer/src/regexp.rs", "lexer/src/unicode_escape_sequence.rs", "lexer/src/lib.rs: read_template_literal_head"]}
{"id": "C58", "title": "Trees as JSON text, and the snapshot runner", "statement": "A JSON value written by the pretty printer is read back as the same value if its arrays and objects are nested less than 128 deep and refused otherwise; different values have different texts. The snapshot runner passes on a file with an expected tree only if the source is accepted with a tree that has the stored form; a missing expectation is written, and when a run has rewritten a file, the next run on it passes, unless the tree is nested too deep (then it fails: the tree of an accepted program is written but cannot be read) or the error quotes a line that looks like a heading or a fence. It passes on a file with an expected error only if the source is rejected with exactly that message; a file that is not understood fails, and a file without a source or without expectations passes whatever the source is (unless the parser panics).", "quantifier": "every JSON value; every snapshot file, source, tree and error", "why_tests_cant": "It composes the parser, the serialisers, the JSON text, the Markdown files and the error reporter for all files; the tests are themselves run by this runner.", "anchors": ["tests/verify_snapshots.rs: run_test, parse_and_test, assert_ast, error_to_message, get_attribute, get_source_type, result_to_string", "testing/src/markdown.rs"]}
{"id": "C59", "title": "Every snapshot file is a test", "statement": "Every Markdown file in a folder of cases, however deep, becomes exactly one test, and nothing else does; the suite passes exactly if the snapshot runner passes on each of them. If names consist of words separated by single dashes the tests have different names. The generation panics exactly if a file has no extension or a name cannot be the name of a test.", "quantifier": "every tree of directories and every contents of the files", "why_tests_cant": "It is about all shapes of directories; a file that is skipped silently makes no test fail.", "anchors": ["macros/src/for_each_file.rs: for_each_file, find_files, to_file, create_identifier", "tests/verify_snapshots.rs: generate_test_cases, generate_test_modules"]}
{"id": "C60", "title": "Scripts and modules agree", "statement": "A source with neither of the marks of HTML comments (<! and -->) in which nothing spells import or export is accepted as a script exactly if it is accepted as a module, the two trees differ in the source type only, the errors are the same, and so are the panics; expressions and statements parsed on their own are the same trees. So the source type decides nothing else; in particular modules are not strict code.", "quantifier": "every such source, every entry point of the parser", "why_tests_cant": "It compares two runs of the whole parser on every source; tests compare one source at a time, and each snapshot fixes one source type.", "anchors": ["parser/src/lib.rs: parse_script, parse_module, parse", "parser/src/stmt.rs: parse_declaration", "lexer/src/lib.rs: skip_comments_and_white_spaces, read, read_with_state"]}
{"id": "C61", "title": "The version of Unicode does not matter for ASCII sources", "statement": "The tables of identifier characters matter at characters of the source that are not ASCII, and at unicode escapes, only: with two tables that agree on the characters of the source that are not ASCII, a source without the text \\u has the same tokens and, in every entry point of the parser, the same tree, error or panic. In particular an ASCII source without \\u is treated alike by builds with any two versions of the Unicode tables.", "quantifier": "every source without unicode escapes, every pair of tables that agree on it, every entry point", "why_tests_cant": "Tests run with the one version of the tables they were built with; the statement is about all tables.", "anchors": ["lexer/src/code_point.rs: is_id_start, is_id_part", "lexer/src/lib.rs: read, read_identifier_or_keyword", "lexer/src/unicode_escape_sequence.rs: read_and_expand_unicode_escape_sequence", "parser/src/lib.rs: parse"]}
