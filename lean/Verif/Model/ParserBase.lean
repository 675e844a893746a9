import Verif.Model.Lexer
/-!
# Parser state, errors, context and token level helpers (`/repo/parser/src/lib.rs`, `/repo/parser/src/error/mod.rs`)
-/
namespace Fajt

variable [UnicodeID]

/-! ## Spans of nodes (`Spanned`, generated by `/repo/ast/src/macros/mod.rs:1-64`) -/

/-- `Spanned::span` of `Expr` (`/repo/ast/src/macros/mod.rs:24-30`). -/
def Expr.span : Expr → Span
  | .arrow sp .. | .assign sp .. | .await sp .. | .binary sp .. | .call sp .. | .classE sp .. | .conditional sp ..
  | .function sp .. | .literal sp .. | .logical sp .. | .member sp .. | .metaProp sp .. | .new sp .. | .optCall sp ..
  | .optMember sp .. | .paren sp .. | .sequence sp .. | .tagged sp .. | .this sp | .unary sp .. | .update sp ..
  | .yield sp .. => sp
  | .ident id => id.span

/-- `Spanned::span` of `AssignmentPattern`. -/
def AssignPattern.span : AssignPattern → Span
  | .array sp .. | .object sp .. => sp

/-- `Spanned::span` of `PatternOrExpr`. -/
def PatternOrExpr.span : PatternOrExpr → Span
  | .expr e => e.span
  | .pattern p => p.span

/-- `Spanned::span` of `BindingPattern`. -/
def BindingPattern.span : BindingPattern → Span
  | .ident id => id.span
  | .array sp .. | .object sp .. => sp

/-- `/repo/ast/src/lib.rs:84-86` `Ident::dummy`. -/
def Ident.dummy (position : Nat) : Ident := ⟨⟨position, position⟩, []⟩

/-! ## Errors -/

/-- `/repo/parser/src/error/mod.rs:122-142` `ErrorKind`. -/
inductive PErrKind where
  | endOfStream
  | lexer (e : LexErr)
  | syn (msg : Str)
  | expectedIdent (v : TokVal)
  | unexpectedToken (v : TokVal) (expected : Option TokVal)
  | unexpectedIdent (id : Ident)
  | forbiddenIdent (name : Str)
  | arrowNotAllowed (e : Expr)
  | initializedName

/-- `/repo/parser/src/error/mod.rs:16-20` `Error`. -/
structure PErr where
  kind : PErrKind
  span : Span

namespace PErr
/-- `/repo/parser/src/error/mod.rs:29-44` `lexer_error`. -/
def lexer (e : LexErr) : PErr :=
  match e.kind with
  | .endOfStream => ⟨.endOfStream, Span.empty⟩
  | .syntaxError msg => ⟨.syn msg, e.span⟩
  | _ => ⟨.lexer e, e.span⟩
/-- `/repo/parser/src/error/mod.rs:46-51` -/
def syn (msg : Str) (span : Span) : PErr := ⟨.syn msg, span⟩
/-- `/repo/parser/src/error/mod.rs:53-59` -/
def unexpectedIdent (id : Ident) : PErr := ⟨.unexpectedIdent id, id.span⟩
/-- `/repo/parser/src/error/mod.rs:61-67` -/
def unexpectedToken (t : Token) : PErr := ⟨.unexpectedToken t.value none, t.span⟩
/-- `/repo/parser/src/error/mod.rs:69-75` -/
def expectedOther (t : Token) (expected : TokVal) : PErr := ⟨.unexpectedToken t.value (some expected), t.span⟩
/-- `/repo/parser/src/error/mod.rs:77-83` -/
def expectedIdent (t : Token) : PErr := ⟨.expectedIdent t.value, t.span⟩
/-- `/repo/parser/src/error/mod.rs:85-90` -/
def forbiddenIdent (name : Str) (span : Span) : PErr := ⟨.forbiddenIdent name, span⟩
/-- `/repo/parser/src/error/mod.rs:92-97` -/
def arrowNotAllowed (e : Expr) : PErr := ⟨.arrowNotAllowed e, e.span⟩
/-- `/repo/parser/src/error/mod.rs:99-104` -/
def initializedName (span : Span) : PErr := ⟨.initializedName, span⟩
end PErr

/-! ## Context -/

/-- `/repo/parser/src/lib.rs:77-105` `Context`. -/
structure Ctx where
  await : Bool := false
  yield : Bool := false
  in_ : Bool := false
  strict : Bool := false
  default : Bool := false
  return_ : Bool := false
  inMethod : Bool := false
  superCall : Bool := false
  staticMethod : Bool := false
deriving DecidableEq, Repr, Inhabited

/-- `/repo/parser/src/lib.rs:132-139` `reset_parameters`. -/
def Ctx.reset (c : Ctx) : Ctx :=
  { inMethod := c.inMethod, superCall := c.superCall, staticMethod := c.staticMethod }

/-- `/repo/parser/src/lib.rs:141-156` `keyword_context`. -/
def Ctx.kw (c : Ctx) : KwCtx := ⟨c.await, c.yield, c.strict⟩

/-! ## State -/

/-- `/repo/parser/src/lib.rs:217-224` `Parser` with its `PeekReader<Token, Lexer>` (`/repo/common/src/io.rs:34-43`) flattened:
the lexer, the current and the next token (or the error in their place) and the end of the last consumed token.  The
context is an argument of every parse function. -/
structure PState where
  lx : LexerS
  cur : Except LexErr Token
  nxt : Except LexErr Token
  pos : Nat
  sourceType : SourceType

/-- The parser monad. -/
abbrev P (α : Type) := M PState PErr α

/-- Run the lexer. -/
def liftLx {α : Type} (m : M LexerS LexErr α) : P α := fun s =>
  match m s.lx with
  | .ok a lx => .ok a { s with lx := lx }
  | .err e lx => .err (PErr.lexer e) { s with lx := lx }
  | .panic w => .panic w
  | .oof => .oof

/-- `self.inner.next()` with its `Result` kept as a value. -/
def LexerS.pull : M LexerS LexErr (Except LexErr Token) :=
  M.attempt LexerS.next (fun t => pure (.ok t)) (fun e => pure (.error e))

/-- `Result::Err(e)?` / `Ok(a)`. -/
def M.ofExcept {σ ε α : Type} : Except ε α → M σ ε α
  | .ok a => pure a
  | .error e => M.throw e

namespace Parser

/-- `/repo/parser/src/lib.rs:248-250` `current()?`. -/
def current : P Token := fun s =>
  match s.cur with
  | .ok t => .ok t s
  | .error e => .err (PErr.lexer e) s

/-- `self.current().ok()`. -/
def cur? : P (Option Token) := M.gets fun s => s.cur.toOption

/-- `/repo/parser/src/lib.rs:256-258` `peek`. -/
def peek? : P (Option Token) := M.gets fun s => s.nxt.toOption

/-- The value of the current token, for `match self.current() { token_matches!(ok: ..) => .. }`. -/
def curVal? : P (Option TokVal) := M.gets fun s => s.cur.toOption.map Token.value

/-- `/repo/parser/src/lib.rs:252-254` `consume` (`/repo/common/src/io.rs:111-126`). -/
def consume : P Token := do
  let n ← liftLx LexerS.pull
  let s ← M.get
  M.set { s with cur := s.nxt, nxt := n }
  match s.cur with
  | .ok t => do
    M.modify fun s => { s with pos := t.span.stop }
    pure t
  | .error e => M.throw (PErr.lexer e)

/-- `/repo/common/src/io.rs:49-54` `rewind_to`.  The position of the reader is not reset. -/
def rewindTo (t : Token) : P Unit := do
  let s ← M.get
  match s.lx.rewindBefore t with
  | none => M.panic c!"byte index is not a char boundary"
  | some lx => do
    M.set { s with lx := lx }
    let c ← liftLx LexerS.pull
    M.modify fun s => { s with cur := c }
    let n ← liftLx LexerS.pull
    M.modify fun s => { s with nxt := n }

/-- `/repo/common/src/io.rs:57-66` `reread_with_state`. -/
def rereadWithState (st : LexState) : P Unit := do
  let s ← M.get
  match s.cur with
  | .error _ => pure ()
  | .ok t =>
    match s.lx.rewindBefore t with
    | none => M.panic c!"byte index is not a char boundary"
    | some lx => do
      M.set { s with lx := lx }
      let c ← liftLx (M.attempt (LexerS.readWithState st) (fun t => pure (.ok t)) (fun e => pure (.error e)))
      M.modify fun s => { s with cur := c }
      let n ← liftLx LexerS.pull
      M.modify fun s => { s with nxt := n }

/-- `/repo/parser/src/lib.rs:260-265` `is_end`. -/
def isEnd : P Bool := M.gets fun s =>
  match s.cur with
  | .ok _ => false
  | .error e => e.kind = .endOfStream

/-- `/repo/parser/src/lib.rs:267-271` `position`. -/
def position : P Nat := M.gets fun s =>
  match s.cur with
  | .ok t => t.span.start
  | .error _ => s.pos

/-- `/repo/parser/src/lib.rs:274-276` `span_from`. -/
def spanFrom (start : Nat) : P Span := M.gets fun s => ⟨start, s.pos⟩

/-- `/repo/parser/src/lib.rs:288-294` `current_matches`. -/
def curMatches (v : TokVal) : P Bool := M.gets fun s =>
  match s.cur with
  | .ok t => t.value = v
  | .error _ => false

/-- `/repo/parser/src/lib.rs:297-305` `current_matches_string_literal`. -/
def curMatchesString : P Bool := M.gets fun s =>
  match s.cur with
  | .ok { value := .lit (.string _), .. } => true
  | _ => false

/-- `/repo/parser/src/lib.rs:309-321` `current_matches_identifier_or_literal`. -/
def curMatchesIdentOrLiteral (v : Str) : P Bool := M.gets fun s =>
  match s.cur with
  | .ok { value := .ident name, .. } => v = name
  | .ok { value := .lit (.string l), .. } => v = l.value
  | _ => false

/-- `/repo/parser/src/lib.rs:324-330` `peek_matches`. -/
def peekMatches (v : TokVal) : P Bool := M.gets fun s =>
  match s.nxt with
  | .ok t => t.value = v
  | .error _ => false

/-- `/repo/parser/src/lib.rs:333-339` `consume_assert`. -/
def consumeAssert (expected : TokVal) : P Token := do
  let token ← consume
  if token.value ≠ expected then M.throw (PErr.expectedOther token expected) else pure token

/-- `/repo/parser/src/lib.rs:342-349` `maybe_consume`. -/
def maybeConsume (v : TokVal) : P Bool := do
  if ← curMatches v then do
    let _ ← consume
    pure true
  else pure false

/-- `/repo/parser/src/lib.rs:352-354` `followed_by_new_line`. -/
def followedByNewLine : P Bool := M.gets fun s =>
  match s.nxt with
  | .ok t => t.fol
  | .error _ => false

/-- `/repo/parser/src/lib.rs:357-359` `first_on_line`. -/
def firstOnLine : P Bool := M.gets fun s =>
  match s.cur with
  | .ok t => t.fol
  | .error _ => false

/-- `/repo/parser/src/lib.rs:501-513` `is_identifier` (the free function). -/
def isIdentTok (t : Except LexErr Token) (kw : KwCtx) : Bool :=
  match t with
  | .ok { value := .ident _, .. } => true
  | .ok { value := .keyword k, .. } => k.allowedAsIdent kw
  | _ => false

/-- `/repo/parser/src/lib.rs:362-364` `peek_is_identifier`. -/
def peekIsIdent (ctx : Ctx) : P Bool := M.gets fun s => isIdentTok s.nxt ctx.kw

/-- `/repo/parser/src/lib.rs:367-369` `is_identifier`. -/
def isIdent (ctx : Ctx) : P Bool := M.gets fun s => isIdentTok s.cur ctx.kw

/-- `/repo/parser/src/lib.rs:372-380` `is_identifier_name`. -/
def isIdentName : P Bool := M.gets fun s =>
  match s.cur with
  | .ok { value := .ident _, .. } => true
  | .ok { value := .keyword _, .. } => true
  | _ => false

/-- `/repo/parser/src/lib.rs:384-397` `parse_identifier`. -/
def parseIdent (ctx : Ctx) : P Ident := do
  let token ← consume
  match token.value with
  | .ident name => pure ⟨token.span, name⟩
  | .keyword k =>
    if k.allowedAsIdent ctx.kw then pure ⟨token.span, k.asStr⟩
    else M.throw (PErr.forbiddenIdent k.asStr token.span)
  | _ => M.throw (PErr.expectedIdent token)

/-- `/repo/parser/src/lib.rs:400-407` `parse_identifier_name`. -/
def parseIdentName : P Ident := do
  let token ← consume
  match token.value with
  | .ident name => pure ⟨token.span, name⟩
  | .keyword k => pure ⟨token.span, k.asStr⟩
  | _ => M.throw (PErr.expectedIdent token)

/-- `/repo/parser/src/lib.rs:470-477` `consume_list_delimiter`. -/
def consumeListDelimiter (listEnd : TokVal) : P Unit := do
  if ← maybeConsume (.punct p!",") then pure ()
  else if ← curMatches listEnd then pure ()
  else do
    let token ← consume
    M.throw (PErr.expectedOther token (.punct p!","))

/-- `/repo/parser/src/lib.rs:488-496` `can_insert_semicolon`. -/
def canInsertSemicolon : P Bool := do
  return (← isEnd) || (← curMatches (.punct p!"}")) || (← firstOnLine)

/-- `/repo/parser/src/lib.rs:480-485` `stmt_ended`. -/
def stmtEnded : P Bool := do
  match ← curVal? with
  | some v => if v = .punct p!";" then pure true else canInsertSemicolon
  | none => pure true

/-- `/repo/parser/src/stmt.rs:450-456` `consume_optional_semicolon`. -/
def consumeOptionalSemicolon : P Unit := do
  if ← maybeConsume (.punct p!";") then pure ()
  else if ← canInsertSemicolon then pure ()
  else do
    let token ← consume
    M.throw (PErr.unexpectedToken token)

/-- `/repo/parser/src/lib.rs:41-52` `ThenTry::then_try`. -/
def thenTry {α : Type} (b : Bool) (m : P α) : P (Option α) :=
  if b then do let a ← m; pure (some a) else pure none

end Parser
end Fajt
