import Verif.Model.Parser
/-!
# Debug builds

The model of the lexer and the parser is that of a release build.  A debug build differs in two ways: the macros `debug_assert!` and
`debug_assert_eq!` panic when their condition is false, and arithmetic panics on overflow.  This file repeats the functions of the lexer that
contain such an assertion or a subtraction, with the checks, and everything that calls them, up to `Lexer::read`; and the functions of
the parser that contain an assertion.  Overflow of additions is not modelled (`usize` is `Nat`).
-/
namespace Fajt

/-- `debug_assert!(b)` in a debug build (core library). -/
def debugAssert {σ ε : Type} (b : Bool) : M σ ε Unit := if b then pure () else M.panic c!"assertion failed"

/-- `a - b` for `usize` in a debug build (core library). -/
def checkedSub {σ ε : Type} (a b : Nat) : M σ ε Nat :=
  if b ≤ a then pure (a - b) else M.panic c!"attempt to subtract with overflow"

namespace DebugLexer
variable [UnicodeID]
open Lexer hiding readUntilUnescapedDelimiter readStringLiteral readRegexpLiteral readCodePoint readEscapeDigits readUnicodeEscapeSequence
  readAndExpandUnicodeEscapeSequence readIdentifierWord readIdentifierOrKeyword readTemplateLiteralHead readArms readArms2 readValue readGo read

/-- `/repo/lexer/src/string.rs:18-38,51-61` `read_until_unescaped_delimiter`, `validate_character` (subtraction in line 53). -/
def readUntilUnescapedDelimiter (delimiter : Char) : L Str := do
  loop (fun acc => do
    let c ← consume
    if c = '\\' then
      return .inl (acc ++ (← readEscapeSequence))
    else if c = delimiter then
      return .inr acc
    else
      if c = '\r' ∨ c = '\n' then
        let charPos ← checkedSub (← position) 1
        M.throw (LexErr.syntax c!"String contained unescaped new line" charPos charPos)
      return .inl (acc ++ [c])) (← fuel) []

/-- `/repo/lexer/src/string.rs:5-17` `read_string_literal` (assertion in line 7). -/
def readStringLiteral : L TokVal := do
  let delimiter ← consume
  debugAssert (delimiter == '"' || delimiter == '\'')
  let value ← readUntilUnescapedDelimiter delimiter
  return .lit (.string ⟨value, delimiter⟩)

/-- `/repo/lexer/src/regexp.rs:8-41` `read_regexp_literal` (assertion in line 12, subtraction in line 25). -/
def readRegexpLiteral : L TokVal := do
  let spanStart ← position
  let start ← consume
  debugAssert (start == '/')
  let body ← loop (fun acc => do
    let c ← consume
    let acc := acc ++ [c]
    if c = '\n' then do
      let stop ← checkedSub (← position) 1
      M.throw (LexErr.syntax c!"Unterminated regular expression literal" spanStart stop)
    else if c = '/' then return .inr acc
    else if c = '\\' then
      if !isLT (← current) then return .inl (acc ++ [← consume]) else return .inl acc
    else if c = '[' then return .inl (acc ++ (← readRegexpGroupBody))
    else return .inl acc) (← fuel) [start]
  let flags ← readWhile isIdPart
  return .lit (.regexp (body ++ flags))

/-- `/repo/lexer/src/unicode_escape_sequence.rs:61-85` `read_code_point` (assertion in line 63). -/
def readCodePoint (spanStart : Nat) : L Nat := do
  let openBracket ← consume
  debugAssert (openBracket == '{')
  let hex ← loop (fun acc => do
    let acc := acc ++ [← readHexChar spanStart]
    if (← current) = '}' then
      let _ ← consume
      return .inr acc
    else return .inl acc) (← fuel) []
  if hexVal hex ≤ 0x10FFFF then return hexVal hex
  else M.throw (LexErr.syntax c!"Invalid escape sequence" spanStart (← position))

/-- `/repo/lexer/src/unicode_escape_sequence.rs:45-48`: the two forms of `read_unicode_escape_sequence`. -/
def readEscapeDigits (spanStart : Nat) : L Nat := do
  if (← current) = '{' then readCodePoint spanStart else read4DigitHex spanStart

/-- `/repo/lexer/src/unicode_escape_sequence.rs:31-59` `read_unicode_escape_sequence` (assertion in line 35). -/
def readUnicodeEscapeSequence : L Char := do
  let spanStart ← position
  let slash ← consume
  debugAssert (slash == '\\')
  let u ← consume
  if u ≠ 'u' then do
    M.throw (LexErr.syntax c!"Invalid escape sequence" spanStart (← position))
  else do
    let codePoint ← readEscapeDigits spanStart
    match charOfNat? codePoint with
    | some c => return c
    | none =>
      let position ← position
      M.throw ⟨⟨position, position⟩, .unrecognizedCodePoint codePoint⟩

/-- `/repo/lexer/src/unicode_escape_sequence.rs:8-29` `read_and_expand_unicode_escape_sequence`. -/
def readAndExpandUnicodeEscapeSequence (isStart : Bool) : L Char := do
  let spanStart ← position
  let c ← readUnicodeEscapeSequence
  let valid := if isStart then isIdStart c else isIdPart c
  if !valid then
    M.throw (LexErr.syntax c!"Invalid escape sequence" spanStart (← position))
  return c

/-- `/repo/lexer/src/lib.rs:349-364` `read_identifier_or_keyword_expand_unicode`. -/
def readIdentifierWord : L Str := do
  loop (fun word => do
    match ← cur? with
    | some c =>
      if isIdPart c then return .inl (word ++ [← consume])
      else if c = '\\' then return .inl (word ++ [← readAndExpandUnicodeEscapeSequence word.isEmpty])
      else return .inr word
    | none => return .inr word) (← fuel) []

/-- `/repo/lexer/src/lib.rs:338-347` `read_identifier_or_keyword`. -/
def readIdentifierOrKeyword : L TokVal := do
  let word ← readIdentifierWord
  match Keyword.fromStr word with
  | some k => return .keyword k
  | none => return .ident word

/-- `/repo/lexer/src/lib.rs:366-380` `read_template_literal_head` (assertion in line 368). -/
def readTemplateLiteralHead : L TokVal := do
  let delimiter ← consume
  debugAssert (delimiter == '`')
  let (value, subst) ← readTemplatePart
  if subst then return .templateHead value else return .lit (.template value)

/-- The arms of `Lexer::read` (`/repo/lexer/src/lib.rs:121-233`) that call functions of this file; the other arms are those of
`Lexer.readArms`, in which nothing is checked. -/
def readArms (start : Nat) (c : Char) (p : Option Char) : L TokVal :=
  match c with
  | '"' => readStringLiteral
  | '\'' => readStringLiteral
  | '`' => readTemplateLiteralHead
  | '\\' => readIdentifierOrKeyword
  | c => if c.isDigit = false ∧ isIdStart c then readIdentifierOrKeyword else Lexer.readArms start c p

/-- As `Lexer.readArms2` (`/repo/lexer/src/lib.rs:121-233`): the arm for `/` in the regexp state, the arms for two characters (in
which nothing is checked), and the others. -/
def readArms2 (st : LexState) (start : Nat) (c : Char) (p : Option Char) : L TokVal :=
  if c = '/' ∧ st.regex then readRegexpLiteral
  else if (p = some '=' ∧ c ∈ ['/', '*', '%', '+', '-', '|', '^', '&', '<', '>', '=']) ∨ (c = '<' ∧ p = some '<')
      ∨ (c = '>' ∧ p = some '>') ∨ (c = '!' ∧ p = some '=') then Lexer.readArms2 st start c p
  else readArms start c p

/-- As `Lexer.readValue` (`/repo/lexer/src/lib.rs:121-233`). -/
def readValue (st : LexState) (start : Nat) : L TokVal := do
  let c ← current
  let p ← peek?
  readArms2 st start c p

/-- `/repo/lexer/src/lib.rs:108-256` `Lexer::read`. -/
def readGo (st : LexState) : Nat → L Token
  | 0 => M.oof
  | n + 1 => do
    if st.template then readTemplateLiteralMiddleOrTail
    else do
      skipCommentsAndWhiteSpaces st
      if (← cur?).isNone then M.throw LexErr.endOfStream
      let start ← position
      let value ← readValue st start
      let stop ← position
      let fol ← M.gets Cursor.fol
      if fol = true ∧ value = .punct p!"--" ∧ (← cur?) = some '>' then
        if !st.html then
          M.throw (LexErr.syntax c!"HTML comments are not allowed in this context" start (start + 3))
        skipRestOfLine
        setFol true
        readGo st n
      else do
        setFol false
        return { value, fol, span := ⟨start, stop⟩ }

@[inherit_doc readGo]
def read (st : LexState) : L Token := fun s => readGo st (s.rest.length + 1) s

/-- `/repo/lexer/src/lib.rs:570-577` `PeekRead<Token>::next`. -/
def next : M LexerS LexErr Token := fun lx =>
  match read lx.st lx.cursor with
  | .ok t c => .ok t { lx with cursor := c }
  | .err e c => .err e { lx with cursor := c }
  | .panic w => .panic w
  | .oof => .oof

end DebugLexer

namespace DebugParser
variable [UnicodeID]
open Parser
variable (r : Rec)

/-- `/repo/parser/src/function.rs:121-138` `parse_async_function_expr` (assertion in line 126). -/
def asyncFunctionExpr (ctx : Ctx) : P Expr := do
  let spanStart ← position
  let _ ← consumeAssert (.keyword k!"async")
  let functionToken ← consumeAssert (.keyword k!"function")
  debugAssert (!functionToken.fol)
  let generator ← maybeConsume (.punct p!"*")
  functionExprContent r (functionCtx ctx generator true) spanStart

/-- `/repo/parser/src/function.rs:178-196` `parse_async_function_declaration` (assertion in line 183). -/
def asyncFunctionDeclaration (ctx : Ctx) : P Stmt := do
  let spanStart ← position
  let _ ← consumeAssert (.keyword k!"async")
  let functionToken ← consumeAssert (.keyword k!"function")
  debugAssert (!functionToken.fol)
  let generator ← maybeConsume (.punct p!"*")
  let id ← functionIdentifier ctx
  functionDeclContent r (functionCtx ctx generator true) spanStart id

/-- `/repo/parser/src/expr.rs:791-803` `parse_regexp_literal` after re-reading (`/repo/parser/src/expr.rs:766-774,780-785`; assertion in
line 793). -/
def rereadRegexp : P Expr := do
  rereadWithState LexState.regexAllowed
  let e ← literal
  debugAssert (match e with | .literal _ (.regexp _) => true | _ => false)
  pure e

/-- `/repo/parser/src/expr.rs:752-788` `parse_primary_expr`. -/
def primaryExpr (ctx : Ctx) : P Expr := do
  let t ← current
  match t.value with
  | .keyword k!"this" => thisExpr
  | .keyword k!"null" => consumeLiteral .null
  | .keyword k!"true" => consumeLiteral (.boolean true)
  | .keyword k!"false" => consumeLiteral (.boolean false)
  | .lit _ => literal
  | .punct p!"[" => arrayLiteral r ctx
  | .punct p!"{" => objectLiteral r ctx
  | .keyword k!"function" => functionExpr r ctx
  | .keyword k!"class" => classExpr r { ctx with strict := true }
  | .punct p!"/" => rereadRegexp
  | .templateHead _ => templateLiteralExpr r ctx
  | .punct p!"(" => coverParenthesizedAndArrowParameters r ctx
  | v =>
    if v = .keyword k!"async" ∧ !(← followedByNewLine) then asyncFunctionExpr r ctx
    else if ← isIdent {} then do
      let id ← parseIdent ctx
      pure (.ident id)
    else rereadRegexp

/-- `/repo/parser/src/expr.rs:607-622` `parse_member_expr_from_terminal`. -/
def memberExprFromTerminal (ctx : Ctx) : P Expr := do
  let t ← current
  let peekDot ← peekMatches (.punct p!".")
  if t.value = .keyword k!"super" then superProperty r ctx
  else if t.value = .keyword k!"new" then
    if peekDot then metaProperty ctx c!"new" c!"target" else newExpr r ctx
  else if t.value = .keyword k!"import" ∧ peekDot = true then metaProperty ctx c!"import" c!"meta"
  else primaryExpr r ctx

/-- `/repo/parser/src/expr.rs:576-592` `parse_new_or_member_expr`. -/
def newOrMember (ctx : Ctx) : P Expr := do
  let spanStart ← position
  let e ← memberExprFromTerminal r ctx
  loop (fun e => do
    match ← curVal? with
    | some (.punct p!".") | some (.punct p!"[") => do
      let e ← memberExprRightSide r ctx spanStart (.expr e)
      pure (.inl e)
    | some (.templateHead _) | some (.lit (.template _)) => do
      let e ← taggedTemplate r ctx spanStart e
      pure (.inl e)
    | _ => pure (.inr e)) r.fuel e

/-- `/repo/parser/src/stmt.rs:69-107` `parse_declaration`. -/
def declaration (ctx : Ctx) : P (Option Stmt) := do
  let t ← current
  let peekFunction ← peekMatches (.keyword k!"function")
  let lexical ← peekMatchesLexicalBinding ctx
  if t.value = .keyword k!"function" then do
    let st ← functionDeclaration r ctx
    pure (some st)
  else if t.value = .keyword k!"async" ∧ peekFunction = true then do
    let st ← asyncFunctionDeclaration r ctx
    pure (some st)
  else if t.value = .keyword k!"class" then do
    let st ← classDecl r { ctx with strict := true }
    pure (some st)
  else if t.value = .keyword k!"import" then
    if ← isScript then M.throw (PErr.syn c!"Cannot use `import` statement outside a module" t.span)
    else do
      let st ← importDeclaration r ctx
      pure (some st)
  else if t.value = .keyword k!"export" then
    if ← isScript then M.throw (PErr.syn c!"Cannot use `export` statement outside a module" t.span)
    else do
      let st ← exportDeclaration r ctx
      pure (some st)
  else if t.value = .keyword k!"const" then do
    let st ← variableStmt r ctx .const
    pure (some st)
  else if t.value = .keyword k!"let" ∧ lexical = true then do
    let st ← variableStmt r ctx .let_
    pure (some st)
  else pure none

/-- The parser of a debug build: as `mkRec`, where `parse_new_or_member_expr` and `parse_declaration` are the functions of this file;
all other functions call `parse_primary_expr`, `parse_async_function_expr` and `parse_async_function_declaration` only through
these two (`/repo/parser/src/expr.rs:607-622,752-788`, `/repo/parser/src/stmt.rs:69-107`). -/
def mkRecD : Nat → Rec
  | 0 => mkRec 0
  | n + 1 =>
    let r := mkRecD n
    { fuel := n + 1, assignExpr := assignExpr r, unary := unary r, newOrMember := newOrMember r,
      bindingPattern := bindingPattern r, assignPattern := assignPattern r, stmt := stmt r,
      declOrStmt := declOrStmt r, declaration := declaration r }

/-- `/repo/parser/src/lib.rs:63-74` `parse::<T>` in a debug build; as `Parser.parse`. -/
def parse {α : Type} (p : Rec → P α) (source : Str) (sourceType : SourceType) : Res PState PErr α :=
  match start source sourceType with
  | .ok () s => p (mkRecD (enoughFuel source)) s
  | .err e s => .err e s
  | .panic w => .panic w
  | .oof => .oof

/-- `/repo/parser/src/lib.rs:54-56` `parse_script` in a debug build. -/
def parseScript (source : Str) : Res PState PErr Program := parse program source .script

/-- `/repo/parser/src/lib.rs:58-60` `parse_module` in a debug build. -/
def parseModule (source : Str) : Res PState PErr Program := parse program source .module

/-- `/repo/parser/src/lib.rs:166-176` `parse::<Expr>` in a debug build. -/
def parseExpr (source : Str) (sourceType : SourceType) : Res PState PErr Expr := parse (fun r => expr r { in_ := true }) source sourceType

/-- `/repo/parser/src/lib.rs:178-186` `parse::<Stmt>` in a debug build. -/
def parseStmt (source : Str) (sourceType : SourceType) : Res PState PErr Stmt := parse (fun r => declOrStmt r {}) source sourceType

end DebugParser
end Fajt
