import Verif.Model.ParserBase
/-!
# Error messages and the error emitter (`/repo/parser/src/error/emitter.rs`, `/repo/parser/src/error/mod.rs`)

Writing to the output cannot fail in the model (`std::io::Result` is dropped): the emitter returns the text it writes,
or `none` when the Rust code panics (string index out of range or not on a character boundary, reversed span).
`usize` does not overflow otherwise, and a formatting width is any natural number (recent Rust releases reject widths above
`u16::MAX`).
-/
namespace Fajt

/-- The `Debug` output of tokens and keywords that occurs in two lexer messages; left abstract. -/
structure DebugFmt where
  token : Token → Str
  keyword : Keyword → Str

/-- Decimal digits of a number (`usize as Display`, `to_string`). -/
def natStr (n : Nat) : Str := Nat.toDigits 10 n

/-- `/repo/ast/src/span.rs:27-29` `is_empty`. -/
def Span.isEmpty (s : Span) : Bool := s.start == 0 && s.stop == 0

namespace Emitter

/-- `/repo/lexer/src/error.rs:74-97` `Display for Error` of the lexer. -/
def lexErrStr (d : DebugFmt) (e : LexErr) : Str :=
  match e.kind with
  | .endOfStream => c!"End of stream"
  | .unexpectedEndOfStream => c!"Unexpected end of stream"
  | .invalidOrUnexpectedToken t => c!"Invalid or unexpected token " ++ d.token t
  | .forbiddenIdentifier k => c!"Keyword '" ++ d.keyword k ++ c!"' is not allowed as identifier in this context."
  | .unrecognizedCodePoint n => c!"Unknown code point " ++ natStr n
  | .syntaxError msg => c!"Syntax Error: " ++ msg

/-- `/repo/parser/src/error/mod.rs:188-196` `expected_token_to_string`. -/
def tokenStr : TokVal → Option Str
  | .keyword k => some k.asStr
  | .ident s => some s
  | .punct p => some p.asStr
  | .lit _ => some c!"literal"
  | _ => none

/-- `/repo/parser/src/error/mod.rs:144-171` `Display for Error`. -/
def errStr (d : DebugFmt) (e : PErr) : Str :=
  match e.kind with
  | .endOfStream => c!"Syntax error: Unexpected end of input"
  | .lexer le => c!"Lexer error '" ++ lexErrStr d le ++ c!"'"
  | .syn msg => c!"Syntax error: " ++ msg
  | .expectedIdent v | .unexpectedToken v _ =>
    match tokenStr v with
    | some s => c!"Syntax error: Unexpected token `" ++ s ++ c!"`"
    | none => c!"Syntax error: Unexpected token"
  | .unexpectedIdent id => c!"Syntax Error: Unexpected identifier `" ++ id.name ++ c!"`"
  | .forbiddenIdent name => c!"Syntax error: Forbidden identifier `" ++ name ++ c!"`"
  | .arrowNotAllowed _ => c!"Syntax error: Arrow function not allowed here"
  | .initializedName => c!"Syntax error: Initializer not allowed here"

/-- `&s[..n]` together with `&s[n..]`; `none` (a panic) unless `n` is a character boundary of `s` (core library). -/
def splitAtByte : Nat → Str → Option (Str × Str)
  | 0, s => some ([], s)
  | _ + 1, [] => none
  | n + 1, c :: cs =>
    if c.utf8Size ≤ n + 1 then (splitAtByte (n + 1 - c.utf8Size) cs).map fun p => (c :: p.1, p.2) else none

/-- `s.rfind('\n').map(|pos| pos + 1).unwrap_or(0)` (core library): the byte index just after the last line feed. -/
def afterLastLF (s : Str) : Nat :=
  byteLen s - byteLen ((s.reverse.takeWhile (· ≠ '\n')).reverse)

/-- `s.find('\n')` with the end of the string as default, as a byte index (core library). -/
def firstLF (s : Str) : Nat := byteLen (s.takeWhile (· ≠ '\n'))

/-- `/repo/parser/src/error/emitter.rs:84-86` `get_line_number`. -/
def lineNumber (source : Str) (span : Span) : Option Nat := do
  let (before, _) ← splitAtByte span.stop source
  pure (before.count '\n' + 1)

/-- `/repo/parser/src/error/emitter.rs:88-99` `get_line_boundaries`. -/
def lineBoundaries (source : Str) (span : Span) : Option Span := do
  let (before, _) ← splitAtByte span.start source
  let (_, after) ← splitAtByte span.stop source
  pure ⟨afterLastLF before, firstLF after + span.stop⟩

/-- `&s[a..b]`. -/
def slice (s : Str) (a b : Nat) : Option Str := do
  let (before, _) ← splitAtByte b s
  let (_, r) ← splitAtByte a before
  pure r

/-- `{:<pad$}`: left aligned in a field of `n` characters. -/
def padRight (s : Str) (n : Nat) : Str := s ++ List.replicate (n - s.length) ' '

/-- `line.replace('\t', "    ")`. -/
def expandTabs (s : Str) : Str := s.flatMap fun c => if c = '\t' then c!"    " else [c]

/-- `/repo/parser/src/error/emitter.rs:101-122` `get_kind_description`. -/
def kindDescription (source : Str) (e : PErr) : Option Str :=
  match e.kind with
  | .forbiddenIdent k => some (c!"`" ++ k ++ c!"` is not allowed as an identifier in this context")
  | .unexpectedToken _ none => some c!"Unexpected token"
  | .unexpectedToken _ (some expected) => do
    let found ← slice source e.span.start e.span.stop
    pure (c!"Unexpected token, found `" ++ found ++ c!"`, expected `" ++ (tokenStr expected).getD [] ++ c!"`")
  | .expectedIdent v =>
    some (c!"Unexpected token, found `" ++ (tokenStr v).getD [] ++ c!"`, expected identifier")
  | _ => some []

/-- `/repo/parser/src/error/emitter.rs:48-82` `emit_diagnostic`.  `err_span.end - err_span.start` underflows for a reversed
span: in release mode the width is then close to 2^64 and formatting aborts; both are `none` here. -/
def diagnostic (source : Str) (e : PErr) (label : Str) (lineNumber : Nat) (lineSpan : Span) : Option Str := do
  let lineNumberStr := natStr lineNumber
  let padding := lineNumberStr.length + 1
  let errStart := e.span.start - lineSpan.start
  if e.span.stop < e.span.start then none
  let errLen := e.span.stop - e.span.start
  let line ← slice source lineSpan.start lineSpan.stop
  let (beforeErr, _) ← splitAtByte errStart line
  let tabIndents := beforeErr.count '\t'
  pure (padRight c!" " padding ++ c!"|\n"
    ++ padRight lineNumberStr padding ++ c!"| " ++ expandTabs line ++ c!"\n"
    ++ padRight [] padding ++ c!"| " ++ padRight [] (errStart + tabIndents * 3)
    ++ List.replicate (max 1 errLen) '^' ++ c!" " ++ label ++ c!"\n")

/-- `/repo/parser/src/error/emitter.rs:22-46` `emit_error`. -/
def emit (d : DebugFmt) (filename source : Str) (e : PErr) : Option Str := do
  let lineSpan ← lineBoundaries source e.span
  let col := e.span.start - lineSpan.start + 1
  let line ← lineNumber source e.span
  let header := errStr d e ++ c!"\n" ++
    (if e.span.isEmpty then c!" --> " ++ filename ++ c!"\n"
     else c!" --> " ++ filename ++ c!":" ++ natStr line ++ c!":" ++ natStr col ++ c!"\n")
  match e.kind with
  | .endOfStream => pure header
  | _ => do
    let label ← kindDescription source e
    let diag ← diagnostic source e label line lineSpan
    pure (header ++ diag)

end Emitter
end Fajt
