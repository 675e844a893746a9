# A Lean 4 model of fajt (JavaScript lexer, parser, visitor, code generator)

Living document. Section 1: what is modelled. Section 2: trusted base. Section 3: what is not modelled. Section 4: the
specifications the theorems are stated against. Section 5: proof architecture. Section 6: per property plan. Section 7: defects
of fajt found. Section 8: how the model and the theorems were tested.

## 1. Shape of the model (`lean/Verif/Model/`)

| module | Rust code | remarks |
|---|---|---|
| `Basic`, `Token`, `Ast` | `ast/src/*.rs`, `lexer/src/token.rs`, tables of `macros/src/enum_from_string.rs` | enums with their string tables, every syntax tree node with its spans |
| `Reader` | `common/src/io.rs`, `common/src/io/char_reader.rs` | the peeking reader, generic and literal; the lexer and parser models use a cursor that is proved to refine it (C16) |
| `Lexer` | `lexer/src/*.rs` | every function, incl. state (`regex`, `template`, `html`), escapes, HTML-like comments |
| `ParserBase`, `StaticSemantics`, `Parser` | `parser/src/*.rs` | every function of every parser module; rewinding is by re-lexing from a position, as in the code |
| `Emitter` | `parser/src/error/*.rs` | messages and source excerpt |
| `SpanSerde` | `ast/src/span.rs` | `Span`'s own (de)serialiser |
| `Traverse` | `ast/src/traverse/*.rs`, `ast/src/macros` | read-only visitors: visitor calls as a trace |
| `Mutate` | `ast/src/traverse/*.rs` | visitors that change nodes: hooks return the new node; recursion bounded by a parameter, because such a traversal need not end. Written by `tools/gen_mutate.py` |
| `Serde` | `ast/src/macros/mod.rs`, the declarations in `ast/src` | the derived serialisers and deserialisers. Written by `tools/gen_serde.py` |
| `Codegen` | `codegen/src/lib.rs` | all of it, pretty and minified |
| `TestFiles` | `macros/src/for_each_file.rs`, `tests/verify_snapshots.rs` | the walk over the folder of cases, the tests it makes |
| `JsonText` | serde_json as used by `tests/verify_snapshots.rs` | pretty printer, reader of texts without numbers, depth limit |
| `Snapshot` | `tests/verify_snapshots.rs` | the whole runner over file contents |
| `Cli` | `src/main.rs` | the whole of `main` over an abstract file system |

Results distinguish `ok | err | panic | oof`: every Rust `unwrap`, slice index, `unreachable!` and `panic!` that can be reached
is an explicit `panic`; every loop or recursion whose termination is not structural takes fuel and reports `oof` (out of fuel).
Termination is then the theorem "never `oof`" with the fuel the model supplies (linear in the source), *proved*, not assumed
(C01, C19). The state after an error is kept because fajt catches errors, rewinds and goes on with that state.
The semantics is that of a release build: `debug_assert!` is not evaluated, arithmetic that could underflow is checked
explicitly (`C43_no_underflow`). `Model/Debug.lean` has the lexer and parser functions with the checks of a debug build (C57).

## 2. Trusted base

* Lean's kernel. Axioms: at most `propext`, `Quot.sound`, `Classical.choice` (audited by `vcheck`); no `native_decide`,
  no `bv_decide`, no axioms of our own. Counterexample and example computations use `decide +kernel`, i.e. the kernel's evaluator.
* The reading of the Rust code: each definition of the model cites file and lines; simplifications are stated there.
  The model was validated against the repository's 692 snapshot cases (section 8).
* `unicode_id` tables (`is_id_start`, `is_id_continue`) and `char::is_alphanumeric` are parameters (class `UnicodeID`)
  with these laws only: identifier start implies identifier part; on ASCII they agree with `[A-Za-z]`, `[0-9A-Za-z_]` and
  `[0-9A-Za-z]`; white space and line terminators are not identifier parts. `Spec/Ascii.lean` is an instance, so the laws are
  consistent; examples and counterexamples are computed in it. By C61 an outcome of the parser computed so holds for every
  instance if the source is ASCII without unicode escapes.
* `usize` is modelled by `Nat`; source lengths are assumed to fit (true for any Rust `str`).
* Stack depth is not modelled (the Rust parser recurses on the native stack, so deeply nested input can overflow it; C19/C20
  do not speak about that). The recursion *depth* is bounded by the fuel (C19), which is linear in the source.
* Literals are kept as the code keeps them: numbers, strings, regular expressions and template parts as text.

## 3. Not modelled

clap argument parsing, terminal output, real file IO (a function from names to contents instead), serde's error messages and JSON texts with floating point numbers (the derived serialisers and deserialisers are modelled, and so is what `serde_json` does with their values: it is a modelled dependency, see `Model/JsonText.lean`), `Debug` output of trees (a parameter), what the Rust compiler does with the output of the macros (the runner in
`tests/`, the walk of `for_each_file` and the Markdown snapshot library `testing/` are modelled; of the `regex` crate only the two expressions it uses, of file IO only the contents),
memory and native stack consumption.

## 4. Specifications (`lean/Verif/Spec/`)

They do not mention the lexer's or parser's functions; only trees, tokens, tables and character classes are shared, and the classes
and tables are pinned to explicit sets by theorems (`Props/Chars.lean`, `Props/Tables.lean`).

* `Lexical`: trivia, lexemes (`Lexeme regex v w rest`: `w` spells the token value `v` in front of `rest`), template continuations,
  positions (`posAfter`), `Tokens`.
* `Grammar`: `D E ctx g ts`, derivation of token sequences: the grammar of all trees fajt may return (C21–C36 are corollaries).
  Departures from ECMAScript are marked in the rules.
* `Source`, `Text`, `Nodes`, `Accepts`, `Static`, `TreeText`, `Escape`: tokens of a source, text of a node, nodes and their paths, early
  errors, the strings of a tree.
* `Core`: `Derives sty ctx g a b`, derivation of *texts*: what fajt must accept (C45, C49). It is disambiguated as in ECMAScript.
  Not covered by `Core` at present: see the note of C49 in MANIFEST.json (the list shrinks as rules are added).

## 5. Proof architecture (`lean/Verif/Proofs/`)

* Lexer: a program logic for the lexer monad (`LexLogic`), soundness (`LexFns` … `LexRead`: whatever is returned is derived in
  `Lexical`) and completeness (`LexComplete`: `Lexeme` determines the result). Together: `read` is exactly the relation.
* Parser, soundness (`Parse*`): a Hoare-style predicate over runs carrying at once: no `oof`, no panic (scripts over ASCII),
  derivation in `D` for results, well-formed spans for errors, consumption measure. One induction on fuel (`ParseAll`).
* Tree properties (`Node*`, `GrammarFacts`, `GrammarMono`): inductions on `D` derivations.
* Parser, completeness (`Complete*`): `Run sty m a q x b q'` describes a run between two points of a source; every rule of `Core` has a
  lemma, and `complete` is an induction on derivations. Termination of the recursion is again discharged by fuel, not assumed.
* Code generator (`CodegenSim`): simulation between pretty and minified generation.

## 6. Per property plan

| | modelled / statement | proof |
|---|---|---|
| C01 | `read`, `read_all` never panic, never run out of fuel | measure: remaining text |
| C02 | tokens and trivia tile the source (`Tokens`), uniquely | refinement of `Lexical`, list induction |
| C03, C04 | spans ordered and bounded; slices are the lexemes for ASCII; counterexample otherwise | invariant `position ≤ byte offset`, equality on ASCII |
| C05 | `first_on_line` iff line break in the trivia before | line break flag of `Trivia`; counterexample after templates |
| C06, C15 | filler is irrelevant; lexing inverts printing | completeness of the lexer |
| C07–C14 | punctuators longest match; tables; numbers; strings; regexes; templates; comments; identifiers | from `Lexeme`; finite tables by kernel evaluation over the whole enum, strings by case analysis |
| C16 | the peeking reader delivers items in order for arbitrary operation sequences | simulation with a list cursor |
| C17 | rewinding reproduces tokens (ASCII); counterexample otherwise | seek lemma |
| C18 | keyword-as-identifier table | exhaustive over the enum and all contexts |
| C19 | parsing terminates: linear fuel suffices for every source and entry point | measure through the program logic |
| C20 | the causes of a panic, for every source and all entry points (`Spec/PanicCauses.lean`): a token with a non-ASCII character immediately in front of it, or, in modules, a literal that is not a string behind `from`; hence no panic for scripts over ASCII; witnesses for both causes | program logic |
| C21 | accepted ⟹ derivable | program logic, `D` |
| C22–C36 | spans, precedence, ASI, restricted productions, `return`/`super`/`yield`/`await`/`import` placement, reserved words, targets, strict mode, accessor parameters, statement well-formedness, directives | inductions on `D`; departures of fajt are theorems with witnesses |
| C37, C38 | error spans well formed (modules: but for "Expected statement" behind `export`); reporting never panics, exact output | program logic; arithmetic |
| C39, C40, C47 | span serialisation, simple parameters, moving spans | decimal printing/parsing; cases |
| C41, C42 | visitor balance and children | traces as data, mutual induction over trees |
| C43, C48 | generation is total, line structure, minified = pretty up to blanks, line feeds and semicolons | mutual induction |
| C44 | generated code (pretty and minified) of an accepted program that fits parses back to the same tree and is stable; false without the condition (16 counterexamples) | `Print*`: the generator writes the tokens of the tree (`Spec/Printed`); the written text is read as those tokens; induction on the derivation in `D` (soundness, C21) rebuilds a derivation in `Core` of the written text; completeness (C49) |
| C45, C49 | every text derived in `Core` is accepted with the tree the derivation carries; hence unambiguous | induction on derivations |
| C46 | the command line tool | cases, C20 and C37; formatting twice from C44 with a line feed behind the code |
| C50 | generated code does not depend on spans | mutual induction over trees |
| C51 | the minified text is contained in the pretty text (line feeds as blanks), hence never longer | two runs of the generator side by side (`CodegenSim`), relation `Fit` (`CodegenLength`) |
| C52 | sources that the lexer cannot tell apart (`SameForLexer`: a bisimulation of the two lexers under reading, going back to a token, reading again as a regular expression or as a template continuation) end in the same way at every entry point; equal plain tokens and line terminator flags suffice; for trivia in front of the source no condition at all (`C52_leading_any`, by `LexShift`: the lexer does not look back) | two runs of the parser side by side: `Lock W R p q` (`LayoutBase`) relates runs on the two sources that stand at corresponding places; the bisimulation is constructed from equal tokens in `LayoutProgram` and by a checked exploration in `LayoutCheck`; one lemma per parser function (`LayoutFunc` .. `LayoutModule`), results compared after erasing spans (`Spec/Strip`, `Spec/Layout`) |
| C53 | `fromJson (toJson t) = ok t` for accepted programs and for arbitrary trees; field order, unknown fields; panics only on span strings; exactly the values of the right shape (`Spec/JsonShape.lean`) are read | `Model/Serde.lean` and `Proofs/SerdeTrip.lean` are written by `tools/gen_serde.py` from `/repo/ast/src` (77 structs, 29 enums): the derived serialisers are structural functions, the derived deserialisers one interpreter `decode` driven by tables of fields and variants; structural mutual induction over trees, a bound on every span by induction on `D` (`SpansTree`, which also gives `C22_every_span`), induction over values for the panics |
| C54 | visitors that change nodes: calls well-nested, `false` skips, traversal continues in the replaced node, termination (no hook grows a node; or exit hooks only on trees without the constructs of C42), read-only visitors change nothing and act as in C41/C42, changes of leaves reach exactly the leaves that C42 says | `Model/Mutate.lean`: what `traverse` does with a node of each type is a `Plan` (visit children, rebuild); weakest preconditions of plans (`MutateBase`), one lemma per type about its plan (`MutateRead`, `MutateSize`, `MutateRewrite`), induction on the bound |
| C55 | reading the text of a document of well-formed sections gives it back; a file that was read is rewritten to a fixed point; witnesses for the exceptions | `Model/Markdown.lean`; `Spec/Markdown.lean` says what a well-formed section is in terms of lines only; lines are independent for both regular expressions (`clean_lf`), every piece of a split is free of marks (`splitBol_pieces`), induction over sections |
| C56 | after setting a block and writing the file, the file reads with that block and everything else unchanged; the same for the report of an error | C55, `emit_ends` (a report ends a line), `C38_output` for the lines of a report |
| C57 | a debug build lexes every source like a release build; every entry point of the parser does the same or panics for a cause (`Spec/Debug.lean`) | lexer: the checks are true where they are made (`Proofs/Debug.lean`); parser: `Sim` (same outcome or panic), one theorem per function of the parser, `Proofs/DebugSim.lean` written by `tools/gensim.py`; causes: the program logic is proved relative to the causes blamed for panics (class `Blame` in `ParseLogic`), the debug functions satisfy it with `AsyncBreak` added (`DebugParse`) |
| C58 | JSON text is read back exactly below the depth limit; what the runner does with a file, and with the file it has rewritten | induction over values with the fuel of the reader (`Proofs/JsonText.lean`); the runner by cases, C53 for trees, C55/C56 for files, the lines of a JSON text are free of marks (`plain_pretty`) |
| C59 | the tests are exactly the Markdown files, each once, with different names if the names are plain; the suite passes iff every file does | the walk is a list of places (`locs`) mapped by a partial function; decoding of names by a small grammar of paths (`Good`) |
| C60 | a plain source has the same outcome as a script and as a module, in all entry points; trees differ in the source type only | two runs related step by step: `ResR`/`Agree`, one theorem per function of the parser in `Proofs/KindSim.lean`, written by `tools/genkind.py`; lexer: `read_same`, `read_usual` (`Proofs/KindLex.lean`) |
| C61 | two tables of identifier characters that agree on the source give the same outcome in all entry points, if the source has no `\u` | `Tw` (lexer, `Proofs/TablesLex.lean`, written by `tools/gentables.py`) and `Agree` (parser, `Proofs/TablesSim.lean`, written by `tools/gentables2.py`): the computations at two instances of `UnicodeID` are equal from states in which the tables agree on the text; one theorem per function |

## 7. Defects and deviations of fajt found

Each is a theorem with a concrete witness unless marked (s), which are stated as rules of `Spec/Grammar.lean`.

* Positions: the reader computes the position after a character as byte offset + UTF-16 length, so spans are wrong after any non-ASCII character, and
  rewinding into such a text can panic (C04, C17, C20 counterexamples); error reporting can panic (C38, `C46_nonascii_counterexample`).
* `import a from 1` panics; `export let 1` reports a reversed span, on which the emitter panics (C20, C37, C46).
* Any `<!` starts an HTML-like comment (C13).
* A lexer error inside a re-read leaves the regex/template flags changed (C36: a directive prologue that is not maximal).
* A template continuation keeps the wrong `first_on_line` (C05, C24).
* Escapes in strings only drop the backslash, so `"use\ strict"` is a directive (C10, C36).
* Semicolons after `var`, `return`, `throw`, `break`, `continue`, `debugger`, `do-while` are optional even without a line break (C24).
* `**` associates to the left and takes unary operands; `??` mixes with `||` (C23).
* Modules are not strict, arrow functions drop the strictness, `with` is accepted in strict code, function parameters are not checked
  for duplicates (C32, C33). Nested `import`/`export` in modules, several `default` clauses, reserved words as import names (C28, C35, C30).
* `super()`/`import()` cannot be continued; after a call only templates without substitution; `async(1) + 2`, `(async) => 1`, `(a,) => a`, `let a = b in c`,
  `({async(){}})`, `export default class extends A {}` are rejected (s).
* Traversal: four kinds of nodes visit children out of order or not at all (C42). Hence visitors that rename
  change conditions of conditional expressions and named imports twice and alternates and namespace imports never, and a visitor that rewrites in exit hooks
  only can run forever (`C54_conditional_witness`, `C54_bottom_up_witness`). Span deserialisation panics on `"a:b"` (C39).
* The snapshot runner writes trees that it cannot read back: JSON nested 128 deep or more is refused (`C58_deep_counterexample`).
* Code generation: sixteen kinds of trees whose text does not parse back to them (C44).

## 8. Testing the model and the theorems

* Model validation: all snapshot files of `/repo/tests` (692 sources with their tree or error, and the pretty and minified texts) were run
  through the model (outside /verif). All agree; in 3 of them only the JSON name of an operator (`BitwiseOR`/`BitwiseOr`, ...) differs from the
  name the comparison script prints.
* The model of the snapshot runner passes on all 692 files, its JSON text equals the stored text in all 517 files with a tree; rerun with
  `cd lean; find /repo/tests/cases -name '*.md' -print0 | xargs -0 lake env lean --run ../tools/run_snapshots.txt`.
* Theorem validation: `seeded/LOG.jsonl`, realistic bugs seeded into the model, rebuilt against the proofs; survivors led to tightened
  theorems (`Props/Chars.lean`, `Props/Complete.lean`, `Props/Directives.lean` exist because of survivors).
* Non-vacuity: examples beside the theorems, computed in the kernel.
