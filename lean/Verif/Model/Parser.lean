import Verif.Model.StaticSemantics
/-!
# The parser (`/repo/parser/src`)

Every Rust method `parse_x` is a function `x` of the context.  Recursion goes through the record `Rec` ("open recursion"):
a function that (directly or indirectly) calls itself does so through a field of `Rec`, and `mkRec` ties the knot with
fuel.  `Res.oof` is the result when the fuel is used up; the theorem of termination says that this never happens with the
fuel that `parse` supplies.

Simplifications: `Box`/`clone` are identities, `debug_assert!`s are absent (release build), `Stmt::unwrap_block_stmt` after
`parse_block_stmt` is modelled by a function that returns the block.
-/
namespace Fajt
variable [UnicodeID]

/-- The mutually recursive entry points. -/
structure Rec where
  fuel : Nat
  /-- `parse_assignment_expr` -/
  assignExpr : Ctx → P Expr
  /-- `parse_unary_expr` -/
  unary : Ctx → P Expr
  /-- `parse_new_or_member_expr` -/
  newOrMember : Ctx → P Expr
  /-- `parse_binding_pattern` -/
  bindingPattern : Ctx → P BindingPattern
  /-- `parse_assignment_pattern` -/
  assignPattern : Ctx → P AssignPattern
  /-- `parse_stmt` -/
  stmt : Ctx → P Stmt
  /-- `parse_declaration_or_statement` -/
  declOrStmt : Ctx → P Stmt
  /-- `parse_declaration` -/
  declaration : Ctx → P (Option Stmt)

namespace Parser
variable (r : Rec)

/-! ## Expressions (`expr.rs`) -/

/-- `/repo/parser/src/expr.rs:39-53` `parse_expr_sequence`. -/
def exprSequence (ctx : Ctx) (spanStart : Nat) (initial : Expr) : P Expr := do
  let exprs ← loop (fun acc => do
    if ← maybeConsume (.punct p!",") then do
      let e ← r.assignExpr ctx
      pure (.inl (acc ++ [e]))
    else pure (.inr acc)) r.fuel [initial]
  let span ← spanFrom spanStart
  pure (.sequence span exprs)

/-- `/repo/parser/src/expr.rs:27-36` `parse_expr`. -/
def expr (ctx : Ctx) : P Expr := do
  let spanStart ← position
  let e ← r.assignExpr ctx
  if ← curMatches (.punct p!",") then exprSequence r ctx spanStart e else pure e

/-- `/repo/parser/src/expr.rs:817-820` `parse_initializer`. -/
def initializer (ctx : Ctx) : P Expr := do
  let _ ← consumeAssert (.punct p!"=")
  r.assignExpr ctx

/-- `/repo/parser/src/lib.rs:410-435` `parse_property_name`. -/
def propertyName (ctx : Ctx) : P PropName := do
  let t ← current
  match t.value with
  | .lit _ => do
    let token ← consume
    match token.value with
    | .lit (.string s) => pure (.string s)
    | .lit (.number n) => pure (.number n)
    | _ => M.throw (PErr.unexpectedToken token)
  | .punct p!"[" => do
    let _ ← consume
    let e ← r.assignExpr ctx
    let _ ← consumeAssert (.punct p!"]")
    pure (.computed e)
  | _ =>
    if ← isIdentName then do
      let id ← parseIdentName
      pure (.ident id)
    else do
      let token ← consume
      M.throw (PErr.unexpectedToken token)

/-! ## Arguments -/

/-- `/repo/parser/src/expr.rs:733-739` `parse_argument`. -/
def argument (ctx : Ctx) : P Argument := do
  if ← maybeConsume (.punct p!"...") then do
    let e ← r.assignExpr ctx
    pure (.spread e)
  else do
    let e ← r.assignExpr ctx
    pure (.expr e)

/-- `/repo/parser/src/expr.rs:712-731` `parse_arguments`. -/
def arguments (ctx : Ctx) : P (Span × List Argument) := do
  let spanStart ← position
  let _ ← consumeAssert (.punct p!"(")
  let args ← loop (fun acc => do
    if ← maybeConsume (.punct p!")") then pure (.inr acc)
    else do
      let a ← argument r { ctx with in_ := true }
      consumeListDelimiter (.punct p!")")
      pure (.inl (acc ++ [a]))) r.fuel []
  let span ← spanFrom spanStart
  pure (span, args)

/-- `/repo/parser/src/expr.rs:742-749` `parse_optional_arguments`. -/
def optionalArguments (ctx : Ctx) : P (Option Span × List Argument) := do
  if ← curMatches (.punct p!"(") then do
    let (span, args) ← arguments r ctx
    pure (some span, args)
  else pure (none, [])

/-- `/repo/parser/src/expr.rs:511-521` `parse_call_expr`. -/
def callExpr (ctx : Ctx) (spanStart : Nat) (callee : Expr) : P Expr := do
  let (argumentsSpan, args) ← arguments r ctx
  let span ← spanFrom spanStart
  pure (.call span (.expr callee) argumentsSpan args)

/-! ## Binding patterns (`binding.rs`) -/

/-- `/repo/parser/src/binding.rs:65-80` `parse_single_name_binding`. -/
def singleNameBinding (ctx : Ctx) : P BindingProp := do
  let spanStart ← position
  let id ← parseIdent ctx
  let init ← thenTry (← curMatches (.punct p!"=")) (initializer r { ctx with in_ := true })
  let span ← spanFrom spanStart
  pure (.single span id init)

/-- `/repo/parser/src/binding.rs:145-159` `parse_binding_element`. -/
def bindingElement (ctx : Ctx) : P BindingElement := do
  let spanStart ← position
  let pattern ← r.bindingPattern ctx
  let init ← thenTry (← curMatches (.punct p!"=")) (initializer r { ctx with in_ := true })
  let span ← spanFrom spanStart
  pure (.mk span pattern init)

/-- `/repo/parser/src/binding.rs:83-96` `parse_named_binding`. -/
def namedBinding (ctx : Ctx) : P BindingProp := do
  let spanStart ← position
  let name ← propertyName r ctx
  let _ ← consumeAssert (.punct p!":")
  let binding ← bindingElement r ctx
  let span ← spanFrom spanStart
  pure (.named span name binding)

/-- `/repo/parser/src/binding.rs:162-165` `parse_binding_rest_element`. -/
def bindingRestElement (ctx : Ctx) : P BindingPattern := do
  let _ ← consumeAssert (.punct p!"...")
  r.bindingPattern ctx

/-- `/repo/parser/src/binding.rs:169-189` `parse_rest_binding_ident` (always `Some` when it succeeds). -/
def restBindingIdent (ctx : Ctx) (expectedEnd : Punct) : P BindingPattern := do
  let dots ← consumeAssert (.punct p!"...")
  let pattern ← r.bindingPattern ctx
  let endToken ← consume
  if endToken.value = .punct expectedEnd then pure pattern
  else M.throw (PErr.syn c!"Rest element must be last element" ⟨dots.span.start, pattern.span.stop⟩)

/-- `/repo/parser/src/binding.rs:32-62` `parse_object_binding_pattern`.  (`BracketClose` is the name of `}`.) -/
def objectBindingPattern (ctx : Ctx) : P BindingPattern := do
  let spanStart ← position
  let _ ← consumeAssert (.punct p!"{")
  let (props, rest) ← loop (fun acc => do
    let t ← current
    if t.value = .punct p!"}" then do
      let _ ← consume
      pure (.inr (acc, none))
    else if t.value = .punct p!"..." then do
      let rest ← restBindingIdent r ctx p!"}"
      pure (.inr (acc, some rest))
    else if t.value = .punct p!"[" ∨ (← peekMatches (.punct p!":")) = true then do
      let prop ← namedBinding r ctx
      consumeListDelimiter (.punct p!"}")
      pure (.inl (acc ++ [prop]))
    else do
      let prop ← singleNameBinding r ctx
      consumeListDelimiter (.punct p!"}")
      pure (.inl (acc ++ [prop]))) r.fuel []
  let span ← spanFrom spanStart
  pure (.object span props rest)

/-- `/repo/parser/src/binding.rs:136-142` `is_binding_element`. -/
def isBindingElement (ctx : Ctx) : P Bool := do
  let t ← current
  if t.value = .punct p!"{" ∨ t.value = .punct p!"[" then pure true else isIdent ctx

/-- `/repo/parser/src/binding.rs:99-134` `parse_array_binding_pattern`.  (`BraceClose` is the name of `]`.) -/
def arrayBindingPattern (ctx : Ctx) : P BindingPattern := do
  let spanStart ← position
  let _ ← consumeAssert (.punct p!"[")
  let (elements, rest) ← loop (fun acc => do
    let t ← current
    if t.value = .punct p!"]" then do
      let _ ← consume
      pure (.inr (acc, none))
    else if t.value = .punct p!"," then do
      let _ ← consume
      pure (.inl (acc ++ [none]))
    else if t.value = .punct p!"..." then do
      let rest ← restBindingIdent r ctx p!"]"
      pure (.inr (acc, some rest))
    else if ← isBindingElement ctx then do
      let e ← bindingElement r ctx
      consumeListDelimiter (.punct p!"]")
      pure (.inl (acc ++ [some e]))
    else do
      let token ← consume
      M.throw (PErr.unexpectedToken token)) r.fuel []
  let span ← spanFrom spanStart
  pure (.array span elements rest)

/-- `/repo/parser/src/binding.rs:19-29` `parse_binding_pattern`. -/
def bindingPattern (ctx : Ctx) : P BindingPattern := do
  let t ← current
  if t.value = .punct p!"{" then objectBindingPattern r ctx
  else if t.value = .punct p!"[" then arrayBindingPattern r ctx
  else do
    let id ← parseIdent ctx
    pure (.ident id)

/-! ## Functions (`function.rs`) -/

/-- `/repo/parser/src/function.rs:233-264` `parse_formal_parameters`. -/
def formalParameters (ctx : Ctx) : P FormalParams := do
  let spanStart ← position
  let _ ← consumeAssert (.punct p!"(")
  let (bindings, rest) ← loop (fun acc => do
    let t ← current
    if t.value = .punct p!")" then do
      let _ ← consume
      pure (.inr (acc, none))
    else if t.value = .punct p!"..." then do
      let rest ← bindingRestElement r ctx
      let _ ← consumeAssert (.punct p!")")
      pure (.inr (acc, some rest))
    else do
      let b ← bindingElement r ctx
      consumeListDelimiter (.punct p!")")
      pure (.inl (acc ++ [b]))) r.fuel []
  let span ← spanFrom spanStart
  pure (.mk span bindings rest)

/-- `/repo/parser/src/lib.rs:446-455`: the string of an expression statement that is a string literal. -/
def directiveOf : Stmt → Option LitString
  | .expr _ (.literal _ (.string s)) => some s
  | _ => none

/-- `/repo/parser/src/lib.rs:437-466` `parse_directive_prologue`. -/
def directivePrologue (ctx : Ctx) : P (List LitString) :=
  loop (fun acc => do
    if ← curMatchesString then do
      let startToken ← current
      let stmt ← r.declOrStmt ctx
      match directiveOf stmt with
      | some s => pure (.inl (acc ++ [s]))
      | none => do
        rewindTo startToken
        pure (.inr acc)
    else pure (.inr acc)) r.fuel []

/-- `/repo/parser/src/function.rs:286-296` `parse_function_body_stmt_list`. -/
def functionBodyStmtList (ctx : Ctx) : P (List Stmt) :=
  loop (fun acc => do
    if ← maybeConsume (.punct p!"}") then pure (.inr acc)
    else do
      let st ← r.declOrStmt ctx
      pure (.inl (acc ++ [st]))) r.fuel []

/-- `/repo/parser/src/function.rs:267-284` `parse_function_body`. -/
def functionBody (ctx : Ctx) : P Body := do
  let spanStart ← position
  let _ ← consumeAssert (.punct p!"{")
  let directives ← directivePrologue r ctx
  let statements ←
    functionBodyStmtList r { ctx with strict := ctx.strict || containsStrict directives, return_ := true }
  let span ← spanFrom spanStart
  pure (.mk span directives statements)

/-- `/repo/parser/src/function.rs:78-86` `parse_concise_body`. -/
def conciseBody (ctx : Ctx) : P ArrowBody := do
  if ← curMatches (.punct p!"{") then do
    let b ← functionBody r ctx
    pure (.body b)
  else do
    let e ← r.assignExpr ctx
    pure (.expr e)

/-- `/repo/parser/src/function.rs:89-102` `parse_arrow_identifier_argument`. -/
def arrowIdentifierArgument (ctx : Ctx) : P FormalParams := do
  let spanStart ← position
  let id ← parseIdent ctx
  let span ← spanFrom spanStart
  pure (.mk span [.mk span (.ident id) none] none)

/-- `/repo/parser/src/function.rs:67-75` `parse_arrow_function_parameters`. -/
def arrowFunctionParameters (ctx : Ctx) : P (Bool × FormalParams) := do
  if ← isIdent ctx then do
    let ps ← arrowIdentifierArgument ctx
    pure (true, ps)
  else do
    let ps ← formalParameters r ctx
    pure (false, ps)

/-- `/repo/parser/src/function.rs:33-63` `parse_arrow_function`. -/
def arrowFunction (ctx : Ctx) (spanStart : Nat) (asynchronous : Bool) : P Expr := do
  let (bindingParameter, parameters) ← arrowFunctionParameters r ctx
  let arrow ← consumeAssert (.punct p!"=>")
  if arrow.fol then M.throw (PErr.unexpectedToken arrow)
  else do
    let body ← conciseBody r { ctx.reset with in_ := ctx.in_, await := asynchronous }
    let span ← spanFrom spanStart
    pure (.arrow span asynchronous bindingParameter parameters body)

/-- `/repo/parser/src/function.rs:19-23` `parse_arrow_function_expr`. -/
def arrowFunctionExpr (ctx : Ctx) : P Expr := do
  let spanStart ← position
  arrowFunction r ctx spanStart false

/-- `/repo/parser/src/function.rs:26-31` `parse_async_arrow_function_expr`. -/
def asyncArrowFunctionExpr (ctx : Ctx) : P Expr := do
  let spanStart ← position
  let _ ← consumeAssert (.keyword k!"async")
  arrowFunction r ctx spanStart true

/-- `/repo/parser/src/function.rs:142-157` `parse_function_expr_content`. -/
def functionExprContent (ctx : Ctx) (spanStart : Nat) : P Expr := do
  let id ← thenTry (← isIdent ctx) (parseIdent ctx)
  let parameters ← formalParameters r ctx
  let body ← functionBody r ctx
  let span ← spanFrom spanStart
  pure (.function span ctx.await ctx.yield id parameters body)

/-- The context of the inside of a function (`/repo/parser/src/function.rs:110-116,129-136,167-173,187-194`). -/
def functionCtx (ctx : Ctx) (generator asynchronous : Bool) : Ctx :=
  { ctx with yield := generator, await := asynchronous, inMethod := false, superCall := false }

/-- `/repo/parser/src/function.rs:105-118` `parse_function_expr`. -/
def functionExpr (ctx : Ctx) : P Expr := do
  let spanStart ← position
  let _ ← consumeAssert (.keyword k!"function")
  let generator ← maybeConsume (.punct p!"*")
  functionExprContent r (functionCtx ctx generator false) spanStart

/-- `/repo/parser/src/function.rs:121-138` `parse_async_function_expr`. -/
def asyncFunctionExpr (ctx : Ctx) : P Expr := do
  let spanStart ← position
  let _ ← consumeAssert (.keyword k!"async")
  let _ ← consumeAssert (.keyword k!"function")
  let generator ← maybeConsume (.punct p!"*")
  functionExprContent r (functionCtx ctx generator true) spanStart

/-- `/repo/parser/src/function.rs:200-218` `parse_function_decl_content`. -/
def functionDeclContent (ctx : Ctx) (spanStart : Nat) (id : Ident) : P Stmt := do
  let parameters ← formalParameters r ctx
  let body ← functionBody r ctx
  let span ← spanFrom spanStart
  pure (.functionDecl span ctx.await ctx.yield id parameters body)

/-- `self.current().unwrap().span.start` (`/repo/parser/src/function.rs:225-226`, `class.rs:35-36`). -/
def currentUnwrapStart : P Nat := fun s =>
  match s.cur with
  | .ok t => .ok t.span.start s
  | .error _ => .panic c!"called `Result::unwrap()` on an `Err` value"

/-- `/repo/parser/src/function.rs:222-230` `parse_function_identifier`. -/
def functionIdentifier (ctx : Ctx) : P Ident := do
  if ctx.default && (← curMatches (.punct p!"(")) then do
    let start ← currentUnwrapStart
    pure (Ident.dummy start)
  else parseIdent ctx

/-- `/repo/parser/src/function.rs:160-175` `parse_function_declaration`. -/
def functionDeclaration (ctx : Ctx) : P Stmt := do
  let spanStart ← position
  let _ ← consumeAssert (.keyword k!"function")
  let generator ← maybeConsume (.punct p!"*")
  let id ← functionIdentifier ctx
  functionDeclContent r (functionCtx ctx generator false) spanStart id

/-- `/repo/parser/src/function.rs:178-196` `parse_async_function_declaration`. -/
def asyncFunctionDeclaration (ctx : Ctx) : P Stmt := do
  let spanStart ← position
  let _ ← consumeAssert (.keyword k!"async")
  let _ ← consumeAssert (.keyword k!"function")
  let generator ← maybeConsume (.punct p!"*")
  let id ← functionIdentifier ctx
  functionDeclContent r (functionCtx ctx generator true) spanStart id

/-! ## Methods (`method.rs`) -/

/-- `/repo/parser/src/method.rs:86-93`: the early errors of a method. -/
def methodEarlyErrors (kind : MethodKind) (ps : FormalParams) (directives : List LitString) : Except PErr Unit :=
  match kind with
  | .method => ps.earlyErrorsMethod directives
  | .get => ps.earlyErrorsGetter
  | .set => ps.earlyErrorsSetter directives

/-- The directives of a body. -/
def _root_.Fajt.Body.directives : Body → List LitString
  | .mk _ ds _ => ds

/-- `/repo/parser/src/method.rs:74-106` `parse_method`. -/
def method (ctx : Ctx) (spanStart : Nat) (isStatic : Bool) (name : PropName) (kind : MethodKind) : P MethodDef := do
  let parameters ← formalParameters r { ctx with yield := false }
  let body ← functionBody r ctx
  M.ofExcept (methodEarlyErrors kind parameters body.directives)
  let span ← spanFrom spanStart
  pure (.mk span name kind parameters body ctx.yield ctx.await isStatic)

/-- `/repo/parser/src/method.rs:42-49` `parse_generator_method`. -/
def generatorMethod (ctx : Ctx) (isStatic : Bool) : P MethodDef := do
  let spanStart ← position
  let _ ← consumeAssert (.punct p!"*")
  let name ← propertyName r ctx
  method r { ctx with yield := true, await := false } spanStart isStatic name .method

/-- `/repo/parser/src/method.rs:51-61` `parse_getter_or_setter`. -/
def getterOrSetter (ctx : Ctx) (isStatic : Bool) (kind : MethodKind) : P MethodDef := do
  let spanStart ← position
  let _ ← consume
  let name ← propertyName r ctx
  method r ctx spanStart isStatic name kind

/-- `/repo/parser/src/method.rs:64-72` `parse_async_method`. -/
def asyncMethod (ctx : Ctx) (isStatic : Bool) : P MethodDef := do
  let spanStart ← position
  let _ ← consumeAssert (.keyword k!"async")
  let generator ← maybeConsume (.punct p!"*")
  let name ← propertyName r ctx
  method r { ctx with yield := generator, await := true } spanStart isStatic name .method

/-- `/repo/parser/src/method.rs:24-38`: the part of `parse_method_definition` after the optional `static`. -/
def methodDefinitionRest (ctx : Ctx) (isStatic : Bool) : P MethodDef := do
  let t ← current
  let peekParen ← peekMatches (.punct p!"(")
  let newLine ← followedByNewLine
  if t.value = .punct p!"*" then generatorMethod r ctx isStatic
  else if t.value = .keyword k!"get" ∧ !peekParen then getterOrSetter r ctx isStatic .get
  else if t.value = .keyword k!"set" ∧ !peekParen then getterOrSetter r ctx isStatic .set
  else if t.value = .keyword k!"async" ∧ !newLine then asyncMethod r ctx isStatic
  else do
    let spanStart ← position
    let name ← propertyName r ctx
    method r ctx spanStart isStatic name .method

/-- `/repo/parser/src/method.rs:17-39` `parse_method_definition`. -/
def methodDefinition (ctx : Ctx) : P MethodDef := do
  let peekParen ← peekMatches (.punct p!"(")
  if ctx.staticMethod && !peekParen then do
    let isStatic ← maybeConsume (.keyword k!"static")
    methodDefinitionRest r ctx isStatic
  else methodDefinitionRest r ctx false

/-! ## Literals (`literal.rs`) -/

/-- `/repo/parser/src/literal.rs:19-26` `consume_literal`. -/
def consumeLiteral (l : Literal) : P Expr := do
  let token ← consume
  pure (.literal token.span l)

/-- `/repo/parser/src/literal.rs:29-40` `parse_literal`, with the literal of the token still in the lexer's form. -/
def literalTok : P (Span × TLit) := do
  let token ← consume
  match token.value with
  | .lit l => pure (token.span, l)
  | _ => M.throw (PErr.unexpectedToken token)

/-- `/repo/parser/src/literal.rs:29-40` `parse_literal`. -/
def literal : P Expr := do
  let (span, l) ← literalTok
  pure (.literal span l.toLiteral)

/-- `if !s.is_empty() { parts.push(TemplatePart::String(s)) }`. -/
def pushString (parts : List TemplatePart) (s : Str) : List TemplatePart :=
  if s.isEmpty then parts else parts ++ [.string s]

/-- `/repo/parser/src/literal.rs:80-83`: re-read the current token as a template continuation and consume it. -/
def consumeTemplateContinuation : P Token := do
  rereadWithState LexState.insideTemplate
  consume

/-- `/repo/parser/src/literal.rs:73-100` `parse_template_literal_parts`. -/
def templateLiteralParts (ctx : Ctx) (parts : List TemplatePart) : P (List TemplatePart) :=
  loop (fun acc => do
    let e ← expr r ctx
    let token ← consumeTemplateContinuation
    match token.value with
    | .templateMiddle s => pure (.inl (pushString (acc ++ [.expr e]) s))
    | .templateTail s => pure (.inr (pushString (acc ++ [.expr e]) s))
    | _ => M.throw (PErr.unexpectedToken token)) r.fuel parts

/-- `/repo/parser/src/literal.rs:103-110` `parse_non_substitution_template`. -/
def nonSubstitutionTemplate : P (List TemplatePart) := do
  let token ← consume
  match token.value with
  | .lit (.template s) => pure [.string s]
  | _ => M.throw (PErr.unexpectedToken token)

/-- `/repo/parser/src/literal.rs:113-119` `parse_template_literal_head_string`. -/
def templateHeadString : P Str := do
  let token ← consume
  match token.value with
  | .templateHead s => pure s
  | _ => M.throw (PErr.unexpectedToken token)

/-- `TokenValue::Literal(_)` (`token_matches!(@literal)`, `/repo/lexer/src/token.rs:25-27`). -/
def _root_.Fajt.TokVal.isLit : TokVal → Bool
  | .lit _ => true
  | _ => false

/-- `/repo/parser/src/literal.rs:56-71` `parse_template_literal`. -/
def templateLiteral (ctx : Ctx) : P (List TemplatePart) := do
  let t ← current
  if t.value.isLit then nonSubstitutionTemplate
  else do
    let head ← templateHeadString
    templateLiteralParts r ctx (pushString [] head)

/-- `/repo/parser/src/literal.rs:43-53` `parse_template_literal_expr`. -/
def templateLiteralExpr (ctx : Ctx) : P Expr := do
  let spanStart ← position
  let parts ← templateLiteral r ctx
  let span ← spanFrom spanStart
  pure (.literal span (.template parts))

/-- `/repo/parser/src/literal.rs:148-164` `parse_array_element`. -/
def arrayElement (ctx : Ctx) : P ArrayElement := do
  let t ← current
  if t.value = .punct p!"," then do
    let _ ← consume
    pure .elision
  else if t.value = .punct p!"..." then do
    let _ ← consume
    let e ← r.assignExpr ctx
    pure (.spread e)
  else do
    let e ← r.assignExpr ctx
    pure (.expr e)

/-- `element != ArrayElement::Elision`. -/
def _root_.Fajt.ArrayElement.isElision : ArrayElement → Bool
  | .elision => true
  | _ => false

/-- `/repo/parser/src/literal.rs:122-146` `parse_array_literal`. -/
def arrayLiteral (ctx : Ctx) : P Expr := do
  let spanStart ← position
  let _ ← consumeAssert (.punct p!"[")
  let elements ← loop (fun acc => do
    if ← maybeConsume (.punct p!"]") then pure (.inr acc)
    else do
      let e ← arrayElement r ctx
      if e.isElision then pure (.inl (acc ++ [e]))
      else do
        consumeListDelimiter (.punct p!"]")
        pure (.inl (acc ++ [e]))) r.fuel []
  let span ← spanFrom spanStart
  pure (.literal span (.array elements))

/-- `/repo/parser/src/literal.rs:246-260` `parse_named_property_definition`. -/
def namedPropertyDefinition (ctx : Ctx) (spanStart : Nat) (name : PropName) : P PropDef := do
  let _ ← consumeAssert (.punct p!":")
  let value ← r.assignExpr ctx
  let span ← spanFrom spanStart
  pure (.named span name value)

/-- `/repo/parser/src/literal.rs:234-244` `parse_property_definition_with_computed_name`. -/
def propertyDefinitionWithComputedName (ctx : Ctx) : P PropDef := do
  let spanStart ← position
  let name ← propertyName r ctx
  if ← curMatches (.punct p!":") then namedPropertyDefinition r ctx spanStart name
  else do
    let m ← method r ctx spanStart false name .method
    pure (.method m)

/-- `/repo/parser/src/literal.rs:262-270` `is_object_method_definition`. -/
def isObjectMethodDefinition : P Bool := do
  let peekColon ← peekMatches (.punct p!":")
  let peekParen ← peekMatches (.punct p!"(")
  match ← curVal? with
  | some (.punct p!"*") | some (.punct p!"[") | some (.keyword k!"static") => pure true
  | some (.keyword k!"async") => pure (if !peekColon then true else peekParen)
  | some (.keyword k!"get") | some (.keyword k!"set") => pure true
  | _ => pure peekParen

/-- `/repo/parser/src/literal.rs:203-232` `parse_property_definition`. -/
def propertyDefinition (ctx : Ctx) : P PropDef := do
  let t ← current
  if t.value = .punct p!"..." then do
    let _ ← consume
    let e ← r.assignExpr ctx
    pure (.spread e)
  else if ← peekMatches (.punct p!":") then do
    let spanStart ← position
    let name ← propertyName r ctx
    namedPropertyDefinition r ctx spanStart name
  else if t.value = .punct p!"[" then propertyDefinitionWithComputedName r ctx
  else if ← isObjectMethodDefinition then do
    let m ← methodDefinition r { ctx with inMethod := true, staticMethod := false, superCall := false }
    pure (.method m)
  else do
    let id ← parseIdent ctx
    pure (.identRef id)

/-- `matches!(&prop, PropertyDefinition::IdentRef(_))`. -/
def _root_.Fajt.PropDef.isIdentRef : PropDef → Bool
  | .identRef _ => true
  | _ => false

/-- `/repo/parser/src/literal.rs:167-200` `parse_object_literal`. -/
def objectLiteral (ctx : Ctx) : P Expr := do
  let spanStart ← position
  let _ ← consumeAssert (.punct p!"{")
  let props ← loop (fun acc => do
    if ← maybeConsume (.punct p!"}") then pure (.inr acc)
    else do
      let prop ← propertyDefinition r ctx
      if (← curMatches (.punct p!"=")) && prop.isIdentRef then do
        let t ← current
        M.throw (PErr.initializedName t.span)
      else do
        consumeListDelimiter (.punct p!"}")
        pure (.inl (acc ++ [prop]))) r.fuel []
  let span ← spanFrom spanStart
  pure (.literal span (.object props))

/-! ## Member access (`member_access.rs`) -/

/-- `/repo/parser/src/member_access.rs:149-155` `parse_computed_property`. -/
def computedProperty (ctx : Ctx) : P Expr := do
  let _ ← consumeAssert (.punct p!"[")
  let e ← expr r ctx
  let _ ← consumeAssert (.punct p!"]")
  pure e

/-- `/repo/parser/src/member_access.rs:132-147` `parse_member_property`. -/
def memberProperty (ctx : Ctx) : P MemberProp := do
  match ← curVal? with
  | some (.punct p!".") => do
    let _ ← consume
    let id ← parseIdentName
    pure (.ident id)
  | some (.punct p!"[") => do
    let e ← computedProperty r { ctx with in_ := true }
    pure (.expr e)
  | _ => M.panic c!"internal error: entered unreachable code"

/-- `/repo/parser/src/member_access.rs:17-30` `parse_member_expr_right_side`. -/
def memberExprRightSide (ctx : Ctx) (spanStart : Nat) (left : MemberObject) : P Expr := do
  let property ← memberProperty r ctx
  let span ← spanFrom spanStart
  pure (.member span left property)

/-- `/repo/parser/src/member_access.rs:69-81` `validate_no_template_in_optional_chain`. -/
def validateNoTemplate (t : Token) : P Unit :=
  match t.value with
  | .templateHead _ => M.throw (PErr.syn c!"Invalid tagged template on optional chain" t.span)
  | .lit (.template _) => M.throw (PErr.syn c!"Invalid tagged template on optional chain" t.span)
  | _ => pure ()

/-- `/repo/parser/src/member_access.rs:83-96` `parse_optional_call_expr`. -/
def optionalCallExpr (ctx : Ctx) (spanStart : Nat) (callee : Expr) : P Expr := do
  let optional ← maybeConsume (.punct p!"?.")
  let (argumentsSpan, args) ← arguments r ctx
  let span ← spanFrom spanStart
  pure (.optCall span callee argumentsSpan args optional)

/-- `/repo/parser/src/member_access.rs:112-130` `parse_optional_member_property`. -/
def optionalMemberProperty (ctx : Ctx) : P MemberProp := do
  let peekBracket ← peekMatches (.punct p!"[")
  match ← curVal? with
  | some (.punct p!"?.") =>
    if peekBracket then do
      let _ ← consume
      let e ← computedProperty r ctx
      pure (.expr e)
    else do
      let _ ← consume
      let id ← parseIdent ctx
      pure (.ident id)
  | some (.punct p!"[") => do
    let e ← computedProperty r ctx
    pure (.expr e)
  | some (.punct p!".") => do
    let _ ← consume
    let id ← parseIdent ctx
    pure (.ident id)
  | _ => M.panic c!"internal error: entered unreachable code"

/-- `/repo/parser/src/member_access.rs:98-110` `parse_optional_member_expr`. -/
def optionalMemberExpr (ctx : Ctx) (spanStart : Nat) (object : Expr) : P Expr := do
  let optional ← curMatches (.punct p!"?.")
  let property ← optionalMemberProperty r ctx
  let span ← spanFrom spanStart
  pure (.optMember span object property optional)

/-- `/repo/parser/src/member_access.rs:33-66` `parse_optional_expr`. -/
def optionalExpr (ctx : Ctx) (spanStart : Nat) (left : Expr) : P Expr :=
  loop (fun object => do
    let peekParen ← peekMatches (.punct p!"(")
    match ← cur? with
    | none => pure (.inr object)
    | some t =>
      if t.value = .punct p!"?." then
        if peekParen then do
          let e ← optionalCallExpr r ctx spanStart object
          pure (.inl e)
        else do
          match ← peek? with
          | some p => validateNoTemplate p
          | none => pure ()
          let e ← optionalMemberExpr r ctx spanStart object
          pure (.inl e)
      else if t.value = .punct p!"." ∨ t.value = .punct p!"[" then do
        let e ← optionalMemberExpr r ctx spanStart object
        pure (.inl e)
      else if t.value = .punct p!"(" then do
        let e ← optionalCallExpr r ctx spanStart object
        pure (.inl e)
      else do
        validateNoTemplate t
        pure (.inr object)) r.fuel left

/-! ## Primary expressions -/

/-- `/repo/parser/src/expr.rs:805-808` `parse_this_expr`. -/
def thisExpr : P Expr := do
  let token ← consumeAssert (.keyword k!"this")
  pure (.this token.span)

/-- `/repo/parser/src/expr.rs:244-257` `parse_parenthesized_expr`. -/
def parenthesizedExpr (ctx : Ctx) : P Expr := do
  let spanStart ← position
  let _ ← consumeAssert (.punct p!"(")
  let e ← expr r { ctx with in_ := true }
  let _ ← consumeAssert (.punct p!")")
  let span ← spanFrom spanStart
  pure (.paren span e)

/-- `&UnexpectedToken(punct!("..."), _) | InitializedNameNotAllowed` (`/repo/parser/src/cover.rs:37`). -/
def _root_.Fajt.PErrKind.isCoverRetry : PErrKind → Bool
  | .unexpectedToken (.punct p!"...") _ => true
  | .initializedName => true
  | _ => false

/-- `Err(Error::arrow_function_not_allowed(self.parse_arrow_function_expr()?))`. -/
def throwArrow (ctx : Ctx) : P Expr := do
  let e ← arrowFunctionExpr r ctx
  M.throw (PErr.arrowNotAllowed e)

/-- `/repo/parser/src/cover.rs:18-46` `parse_cover_parenthesized_and_arrow_parameters`. -/
def coverParenthesizedAndArrowParameters (ctx : Ctx) : P Expr := do
  let startToken ← current
  if ← peekMatches (.punct p!")") then throwArrow r ctx
  else
    M.attempt (parenthesizedExpr r ctx)
      (fun e => do
        if ← curMatches (.punct p!"=>") then do
          rewindTo startToken
          throwArrow r ctx
        else pure e)
      (fun err =>
        if err.kind.isCoverRetry then do
          rewindTo startToken
          throwArrow r ctx
        else M.throw err)

/-- `/repo/parser/src/cover.rs:62-66` `parse_covered_call_expression`. -/
def coveredCallExpression (ctx : Ctx) : P Expr := do
  let spanStart ← position
  let id ← parseIdent ctx
  callExpr r ctx spanStart (.ident id)

/-- `/repo/parser/src/cover.rs:49-59` `parse_cover_call_or_async_arrow_head`. -/
def coverCallOrAsyncArrowHead (ctx : Ctx) : P Expr := do
  let startToken ← current
  let e ← coveredCallExpression r ctx
  if ← curMatches (.punct p!"=>") then do
    rewindTo startToken
    asyncArrowFunctionExpr r ctx
  else pure e

/-! ## Classes (`class.rs`) -/

/-- `/repo/parser/src/class.rs:96-106` `parse_class_element`. -/
def classElement (ctx : Ctx) (hasSuper : Bool) : P MethodDef := do
  let isConstructor ← curMatchesIdentOrLiteral c!"constructor"
  methodDefinition r { ctx with inMethod := true, staticMethod := true, superCall := hasSuper && isConstructor }

/-- `/repo/parser/src/class.rs:74-93` `parse_class_body`. -/
def classBody (ctx : Ctx) (hasSuper : Bool) : P (List MethodDef) := do
  let _ ← consumeAssert (.punct p!"{")
  loop (fun acc => do
    if ← maybeConsume (.punct p!"}") then pure (.inr acc)
    else if ← maybeConsume (.punct p!";") then pure (.inl acc)
    else do
      let e ← classElement r ctx hasSuper
      pure (.inl (acc ++ [e]))) r.fuel []

/-- `/repo/parser/src/expr.rs:595-604` `parse_tagged_template`. -/
def taggedTemplate (ctx : Ctx) (spanStart : Nat) (callee : Expr) : P Expr := do
  let template ← templateLiteral r ctx
  let span ← spanFrom spanStart
  pure (.tagged span callee template)

/-- `/repo/parser/src/expr.rs:487-508` `parse_recursive_call_expression`. -/
def recursiveCallExpression (ctx : Ctx) (spanStart : Nat) (previous : Expr) : P Expr :=
  loop (fun e => do
    match ← curVal? with
    | some (.punct p!"(") => do
      let e ← callExpr r ctx spanStart e
      pure (.inl e)
    | some (.punct p!".") | some (.punct p!"[") => do
      let e ← memberExprRightSide r ctx spanStart (.expr e)
      pure (.inl e)
    | some (.lit (.template _)) => do
      let e ← taggedTemplate r ctx spanStart e
      pure (.inl e)
    | _ => pure (.inr e)) r.fuel previous

/-- `/repo/parser/src/expr.rs:524-545` `parse_super_call_expr`. -/
def superCallExpr (ctx : Ctx) : P Expr := do
  let spanStart ← position
  let _ ← consumeAssert (.keyword k!"super")
  let (argumentsSpan, args) ← arguments r ctx
  let span ← spanFrom spanStart
  if !ctx.superCall then M.throw (PErr.syn c!"super() now allowed here" span)
  else pure (.call span .super argumentsSpan args)

/-- `/repo/parser/src/expr.rs:564-573` `parse_import_argument`. -/
def importArgument (ctx : Ctx) : P (Span × List Argument) := do
  let spanStart ← position
  let _ ← consumeAssert (.punct p!"(")
  let e ← r.assignExpr ctx
  let _ ← consumeAssert (.punct p!")")
  let span ← spanFrom spanStart
  pure (span, [.expr e])

/-- `/repo/parser/src/expr.rs:548-562` `parse_import_call_expr`. -/
def importCallExpr (ctx : Ctx) : P Expr := do
  let spanStart ← position
  let _ ← consume
  let (argumentsSpan, args) ← importArgument r ctx
  let span ← spanFrom spanStart
  pure (.call span .import argumentsSpan args)

/-- `/repo/parser/src/expr.rs:460-472`: the first half of `parse_left_hand_side_expr`. -/
def callOrMemberExpr (ctx : Ctx) : P Expr := do
  let peekParen ← peekMatches (.punct p!"(")
  let v ← curVal?
  if v = some (.keyword k!"super") ∧ peekParen = true then superCallExpr r ctx
  else if v = some (.keyword k!"import") ∧ peekParen = true then importCallExpr r ctx
  else do
    let spanStart ← position
    let e ← r.newOrMember ctx
    recursiveCallExpression r ctx spanStart e

/-- `/repo/parser/src/expr.rs:456-484` `parse_left_hand_side_expr`. -/
def leftHandSideExpr (ctx : Ctx) : P Expr := do
  let spanStart ← position
  let e ← callOrMemberExpr r ctx
  if ← curMatches (.punct p!"?.") then
    if e.isNestedNew then do
      let token ← consume
      M.throw (PErr.unexpectedToken token)
    else optionalExpr r ctx spanStart e
  else pure e

/-- `/repo/parser/src/class.rs:63-71` `parse_class_tail`. -/
def classTail (ctx : Ctx) : P (Option Expr × List MethodDef) := do
  let superClass ← thenTry (← maybeConsume (.keyword k!"extends")) (leftHandSideExpr r ctx)
  let body ← classBody r ctx superClass.isSome
  pure (superClass, body)

/-- `self.is_identifier().then(|| self.parse_identifier().unwrap())` (`/repo/parser/src/class.rs:47-49`). -/
def optionalIdentUnwrap (ctx : Ctx) : P (Option Ident) := do
  if ← isIdent ctx then
    M.attempt (parseIdent ctx) (fun id => pure (some id))
      (fun _ => M.panic c!"called `Result::unwrap()` on an `Err` value")
  else pure none

/-- `/repo/parser/src/class.rs:43-60` `parse_class_expr`. -/
def classExpr (ctx : Ctx) : P Expr := do
  let spanStart ← position
  let _ ← consumeAssert (.keyword k!"class")
  let id ← optionalIdentUnwrap ctx
  let (superClass, body) ← classTail r ctx
  let span ← spanFrom spanStart
  pure (.classE span id superClass body)

/-- `/repo/parser/src/class.rs:33-40` `parse_optional_class_identifier`. -/
def optionalClassIdentifier (ctx : Ctx) : P Ident := do
  if ctx.default && (← curMatches (.punct p!"{")) then do
    let start ← currentUnwrapStart
    pure (Ident.dummy start)
  else parseIdent ctx

/-- `/repo/parser/src/class.rs:15-30` `parse_class_decl`. -/
def classDecl (ctx : Ctx) : P Stmt := do
  let spanStart ← position
  let _ ← consumeAssert (.keyword k!"class")
  let id ← optionalClassIdentifier ctx
  let (superClass, body) ← classTail r ctx
  let span ← spanFrom spanStart
  pure (.classDecl span id superClass body)

/-! ## Primary and member expressions -/

/-- `/repo/parser/src/expr.rs:766-774,780-785`: re-read the current token as a regular expression and parse it as a literal. -/
def rereadRegexp : P Expr := do
  rereadWithState LexState.regexAllowed
  literal

/-- `/repo/parser/src/expr.rs:752-788` `parse_primary_expr`. -/
def primaryExpr (ctx : Ctx) : P Expr := do
  let t ← current
  match t.value with
  | .keyword k!"this" => thisExpr
  | .keyword k!"null" => consumeLiteral .null
  | .keyword k!"true" => consumeLiteral (.boolean true)
  | .keyword k!"false" => consumeLiteral (.boolean false)
  | .lit _ => literal
  | .punct p!"[" => arrayLiteral r ctx
  | .punct p!"{" => objectLiteral r ctx
  | .keyword k!"function" => functionExpr r ctx
  | .keyword k!"class" => classExpr r { ctx with strict := true }
  | .punct p!"/" => rereadRegexp
  | .templateHead _ => templateLiteralExpr r ctx
  | .punct p!"(" => coverParenthesizedAndArrowParameters r ctx
  | v =>
    if v = .keyword k!"async" ∧ !(← followedByNewLine) then asyncFunctionExpr r ctx
    else if ← isIdent {} then do
      let id ← parseIdent ctx
      pure (.ident id)
    else rereadRegexp

/-- `/repo/parser/src/expr.rs:643-669` `parse_super_property`. -/
def superProperty (ctx : Ctx) : P Expr := do
  let spanStart ← position
  let superToken ← consume
  let v ← curVal?
  if v ≠ some (.punct p!".") ∧ v ≠ some (.punct p!"[") then do
    let span ← spanFrom spanStart
    M.throw (PErr.syn c!"`super` keyword not expected here" span)
  else if !ctx.inMethod then do
    let span ← spanFrom spanStart
    M.throw (PErr.syn c!"`super` property access only valid inside methods" span)
  else memberExprRightSide r ctx spanStart (.super superToken.span)

/-- `/repo/parser/src/expr.rs:672-689,692-709` `parse_import_meta`, `parse_new_target`: the same code with different names. -/
def metaProperty (ctx : Ctx) (object property : Str) : P Expr := do
  let spanStart ← position
  let token ← consume
  let _ ← consume
  let p ← parseIdent ctx
  if p.name ≠ property then M.throw (PErr.unexpectedIdent p)
  else do
    let span ← spanFrom spanStart
    pure (.metaProp span ⟨token.span, object⟩ p)

/-- `/repo/parser/src/expr.rs:625-640` `parse_new_expr`. -/
def newExpr (ctx : Ctx) : P Expr := do
  let spanStart ← position
  let _ ← consume
  let callee ← r.newOrMember ctx
  let (argumentsSpan, args) ← optionalArguments r ctx
  let span ← spanFrom spanStart
  pure (.new span callee argumentsSpan args)

/-- `/repo/parser/src/expr.rs:607-622` `parse_member_expr_from_terminal`. -/
def memberExprFromTerminal (ctx : Ctx) : P Expr := do
  let t ← current
  let peekDot ← peekMatches (.punct p!".")
  if t.value = .keyword k!"super" then superProperty r ctx
  else if t.value = .keyword k!"new" then
    if peekDot then metaProperty ctx c!"new" c!"target" else newExpr r ctx
  else if t.value = .keyword k!"import" ∧ peekDot = true then metaProperty ctx c!"import" c!"meta"
  else primaryExpr r ctx

/-- `/repo/parser/src/expr.rs:576-592` `parse_new_or_member_expr`. -/
def newOrMember (ctx : Ctx) : P Expr := do
  let spanStart ← position
  let e ← memberExprFromTerminal r ctx
  loop (fun e => do
    match ← curVal? with
    | some (.punct p!".") | some (.punct p!"[") => do
      let e ← memberExprRightSide r ctx spanStart (.expr e)
      pure (.inl e)
    | some (.templateHead _) | some (.lit (.template _)) => do
      let e ← taggedTemplate r ctx spanStart e
      pure (.inl e)
    | _ => pure (.inr e)) r.fuel e

/-! ## Unary and update expressions -/

/-- `self.consume().unwrap()` (the token is not used). -/
def consumeUnwrap : P Unit :=
  M.attempt consume (fun _ => pure ()) (fun _ => M.panic c!"called `Result::unwrap()` on an `Err` value")

/-- The common shape of `parse_optional_*_operator`: consume the current token if it is an operator. -/
def optionalOperator {α : Type} (f : TokVal → Option α) : P (Option α) := do
  match (← curVal?).bind f with
  | some op => do
    consumeUnwrap
    pure (some op)
  | none => pure none

/-- `/repo/parser/src/expr.rs:440-452` `parse_optional_update_operator`. -/
def updateOpOf : TokVal → Option UpdateOp
  | .punct p!"++" => some .incr
  | .punct p!"--" => some .decr
  | _ => none

/-- `/repo/parser/src/expr.rs:347-364` `parse_optional_unary_operator`. -/
def unaryOpOf : TokVal → Option UnaryOp
  | .punct p!"+" => some .plus
  | .punct p!"-" => some .minus
  | .punct p!"~" => some .bitNot
  | .punct p!"!" => some .not
  | .keyword k!"delete" => some .delete
  | .keyword k!"void" => some .void
  | .keyword k!"typeof" => some .typeof
  | _ => none

/-- `/repo/parser/src/expr.rs:218-241` `parse_optional_assignment_operator`. -/
def assignOpOf : TokVal → Option AssignOp
  | .punct p!"=" => some .assign
  | .punct p!"*=" => some .mul
  | .punct p!"/=" => some .div
  | .punct p!"%=" => some .mod
  | .punct p!"+=" => some .add
  | .punct p!"-=" => some .sub
  | .punct p!"<<=" => some .shl
  | .punct p!">>=" => some .shr
  | .punct p!">>>=" => some .ushr
  | .punct p!"&=" => some .bitAnd
  | .punct p!"^=" => some .bitXor
  | .punct p!"|=" => some .bitOr
  | .punct p!"**=" => some .pow
  | _ => none

/-- `/repo/parser/src/expr.rs:403-419` `parse_prefix_update_expr`. -/
def prefixUpdateExpr (ctx : Ctx) (spanStart : Nat) (op : UpdateOp) : P Expr := do
  let argument ← r.unary ctx
  M.ofExcept (argument.earlyErrorsUpdate ctx)
  let span ← spanFrom spanStart
  pure (.update span op true argument)

/-- `/repo/parser/src/expr.rs:422-437` `parse_postfix_update_expr`. -/
def postfixUpdateExpr (ctx : Ctx) (argument : Expr) (op : UpdateOp) : P Expr := do
  M.ofExcept (argument.earlyErrorsUpdate ctx)
  let span ← spanFrom argument.span.start
  pure (.update span op false argument)

/-- `/repo/parser/src/expr.rs:378-400` `parse_update_expr`. -/
def updateExpr (ctx : Ctx) : P Expr := do
  let spanStart ← position
  match ← optionalOperator updateOpOf with
  | some op => prefixUpdateExpr r ctx spanStart op
  | none => do
    let e ← leftHandSideExpr r ctx
    if ← firstOnLine then pure e
    else do
      match ← optionalOperator updateOpOf with
      | some op => postfixUpdateExpr ctx e op
      | none => pure e

/-- `/repo/parser/src/expr.rs:327-345` `parse_unary_expr_with_operator`. -/
def unaryExprWithOperator (ctx : Ctx) (spanStart : Nat) (op : UnaryOp) : P Expr := do
  let argument ← r.unary ctx
  M.ofExcept (if op = .delete then argument.earlyErrorsDelete ctx else .ok ())
  let span ← spanFrom spanStart
  pure (.unary span op argument)

/-- `/repo/parser/src/expr.rs:367-375` `parse_await_expr`. -/
def awaitExpr (ctx : Ctx) : P Expr := do
  let spanStart ← position
  let _ ← consumeAssert (.keyword k!"await")
  let argument ← r.unary ctx
  let span ← spanFrom spanStart
  pure (.await span argument)

/-- `/repo/parser/src/expr.rs:319-323`: the part of `parse_unary_expr` without operator. -/
def awaitOrUpdateExpr (ctx : Ctx) : P Expr := do
  if ctx.await then do
    let t ← current
    if t.value = .keyword k!"await" then awaitExpr r ctx else updateExpr r ctx
  else updateExpr r ctx

/-- `/repo/parser/src/expr.rs:311-324` `parse_unary_expr`. -/
def unary (ctx : Ctx) : P Expr := do
  let spanStart ← position
  match ← optionalOperator unaryOpOf with
  | some op => unaryExprWithOperator r ctx spanStart op
  | none => awaitOrUpdateExpr r ctx

/-! ## Binary expressions (`binary_expr.rs`) -/

/-- `/repo/parser/src/binary_expr.rs:196-222` `parse_recursive_binary_expr`. -/
def recursiveBinaryExpr {α : Type} (next : P Expr) (mapOp : TokVal → Option α) (create : Span → Expr → Expr → α → Expr) :
    P Expr := do
  let spanStart ← position
  let e ← next
  loop (fun e => do
    match (← curVal?).bind mapOp with
    | some op => do
      let _ ← consume
      let right ← next
      let span ← spanFrom spanStart
      pure (.inl (create span e right op))
    | none => pure (.inr e)) r.fuel e

/-- `/repo/parser/src/binary_expr.rs:154-171` `parse_binary_expr`. -/
def binaryExpr (next : P Expr) (mapOp : TokVal → Option BinaryOp) : P Expr :=
  recursiveBinaryExpr r next mapOp fun span left right op => .binary span op left right

/-- `/repo/parser/src/binary_expr.rs:179-193` `parse_logical_expr`. -/
def logicalExpr (next : P Expr) (mapOp : TokVal → Option LogicalOp) : P Expr :=
  recursiveBinaryExpr r next mapOp fun span left right op => .logical span op left right

/-- `/repo/parser/src/binary_expr.rs:139-145` -/
def expOpOf : TokVal → Option BinaryOp
  | .punct p!"**" => some .exp
  | _ => none
/-- `/repo/parser/src/binary_expr.rs:129-134` -/
def mulOpOf : TokVal → Option BinaryOp
  | .punct p!"*" => some .mul
  | .punct p!"/" => some .div
  | .punct p!"%" => some .mod
  | _ => none
/-- `/repo/parser/src/binary_expr.rs:120-124` -/
def addOpOf : TokVal → Option BinaryOp
  | .punct p!"+" => some .plus
  | .punct p!"-" => some .minus
  | _ => none
/-- `/repo/parser/src/binary_expr.rs:110-115` -/
def shiftOpOf : TokVal → Option BinaryOp
  | .punct p!"<<" => some .shl
  | .punct p!">>" => some .shr
  | .punct p!">>>" => some .ushr
  | _ => none
/-- `/repo/parser/src/binary_expr.rs:97-105` -/
def relOpOf (inAllowed : Bool) : TokVal → Option BinaryOp
  | .punct p!"<" => some .lt
  | .punct p!">" => some .gt
  | .punct p!"<=" => some .le
  | .punct p!">=" => some .ge
  | .keyword k!"instanceof" => some .instanceof
  | .keyword k!"in" => if inAllowed then some .in_ else none
  | _ => none
/-- `/repo/parser/src/binary_expr.rs:85-91` -/
def eqOpOf : TokVal → Option BinaryOp
  | .punct p!"==" => some .eq
  | .punct p!"!=" => some .ne
  | .punct p!"===" => some .seq
  | .punct p!"!==" => some .sne
  | _ => none
/-- `/repo/parser/src/binary_expr.rs:74-80` -/
def bitAndOpOf : TokVal → Option BinaryOp
  | .punct p!"&" => some .bitAnd
  | _ => none
/-- `/repo/parser/src/binary_expr.rs:63-69` -/
def bitXorOpOf : TokVal → Option BinaryOp
  | .punct p!"^" => some .bitXor
  | _ => none
/-- `/repo/parser/src/binary_expr.rs:52-58` -/
def bitOrOpOf : TokVal → Option BinaryOp
  | .punct p!"|" => some .bitOr
  | _ => none
/-- `/repo/parser/src/binary_expr.rs:41-47` -/
def andOpOf : TokVal → Option LogicalOp
  | .punct p!"&&" => some .and
  | _ => none
/-- `/repo/parser/src/binary_expr.rs:30-36` -/
def orOpOf : TokVal → Option LogicalOp
  | .punct p!"||" => some .or
  | _ => none
/-- `/repo/parser/src/binary_expr.rs:19-25` -/
def coalesceOpOf : TokVal → Option LogicalOp
  | .punct p!"??" => some .coalesce
  | _ => none

/-- `/repo/parser/src/binary_expr.rs:138-146` `parse_exponentiation_expr`. -/
def exponentiationExpr (ctx : Ctx) : P Expr := binaryExpr r (r.unary ctx) expOpOf
/-- `/repo/parser/src/binary_expr.rs:128-135` `parse_multiplicative_expr`. -/
def multiplicativeExpr (ctx : Ctx) : P Expr := binaryExpr r (exponentiationExpr r ctx) mulOpOf
/-- `/repo/parser/src/binary_expr.rs:119-125` `parse_additive_expr`. -/
def additiveExpr (ctx : Ctx) : P Expr := binaryExpr r (multiplicativeExpr r ctx) addOpOf
/-- `/repo/parser/src/binary_expr.rs:109-116` `parse_shift_expr`. -/
def shiftExpr (ctx : Ctx) : P Expr := binaryExpr r (additiveExpr r ctx) shiftOpOf
/-- `/repo/parser/src/binary_expr.rs:95-106` `parse_relational_expr`. -/
def relationalExpr (ctx : Ctx) : P Expr := binaryExpr r (shiftExpr r ctx) (relOpOf ctx.in_)
/-- `/repo/parser/src/binary_expr.rs:84-92` `parse_equality_expr`. -/
def equalityExpr (ctx : Ctx) : P Expr := binaryExpr r (relationalExpr r ctx) eqOpOf
/-- `/repo/parser/src/binary_expr.rs:73-81` `parse_bitwise_and_expr`. -/
def bitwiseAndExpr (ctx : Ctx) : P Expr := binaryExpr r (equalityExpr r ctx) bitAndOpOf
/-- `/repo/parser/src/binary_expr.rs:62-70` `parse_bitwise_xor_expr`. -/
def bitwiseXorExpr (ctx : Ctx) : P Expr := binaryExpr r (bitwiseAndExpr r ctx) bitXorOpOf
/-- `/repo/parser/src/binary_expr.rs:51-59` `parse_bitwise_or_expr`. -/
def bitwiseOrExpr (ctx : Ctx) : P Expr := binaryExpr r (bitwiseXorExpr r ctx) bitOrOpOf
/-- `/repo/parser/src/binary_expr.rs:40-48` `parse_logical_and_expr`. -/
def logicalAndExpr (ctx : Ctx) : P Expr := logicalExpr r (bitwiseOrExpr r ctx) andOpOf
/-- `/repo/parser/src/binary_expr.rs:29-37` `parse_logical_or_expr`. -/
def logicalOrExpr (ctx : Ctx) : P Expr := logicalExpr r (logicalAndExpr r ctx) orOpOf
/-- `/repo/parser/src/binary_expr.rs:18-26` `parse_short_circuit_expr`. -/
def shortCircuitExpr (ctx : Ctx) : P Expr := logicalExpr r (logicalOrExpr r ctx) coalesceOpOf

/-! ## Conditional and assignment expressions -/

/-- `/repo/parser/src/expr.rs:286-308` `parse_conditional_expr`. -/
def conditionalExpr (ctx : Ctx) : P Expr := do
  let spanStart ← position
  let condition ← shortCircuitExpr r ctx
  if ← curMatches (.punct p!"?") then do
    let _ ← consume
    let consequent ← r.assignExpr ctx
    let _ ← consumeAssert (.punct p!":")
    let alternate ← r.assignExpr ctx
    let span ← spanFrom spanStart
    pure (.conditional span condition consequent alternate)
  else pure condition

/-- `/repo/parser/src/expr.rs:165-182` `parse_conditional_expr_or_arrow_function`. -/
def conditionalExprOrArrowFunction (ctx : Ctx) : P Expr := do
  let spanStart ← position
  M.attempt (conditionalExpr r ctx) pure fun err =>
    if err.span.start = spanStart then
      match err.kind with
      | .arrowNotAllowed e => pure e
      | _ => M.throw err
    else M.throw err

/-- `/repo/parser/src/expr.rs:822-826` `expr_ended`. -/
def exprEnded : P Bool := do
  return (← stmtEnded) || (← curMatches (.punct p!")")) || (← curMatches (.punct p!"]"))

/-- `/repo/parser/src/expr.rs:260-283` `parse_yield_expr`. -/
def yieldExpr (ctx : Ctx) : P Expr := do
  let spanStart ← position
  let _ ← consumeAssert (.keyword k!"yield")
  if (← isEnd) || (← exprEnded) then do
    let span ← spanFrom spanStart
    pure (.yield span none false)
  else do
    let delegate ← maybeConsume (.punct p!"*")
    let argument ← r.assignExpr ctx
    let span ← spanFrom spanStart
    pure (.yield span (some argument) delegate)

/-- `/repo/parser/src/expr.rs:190-197` `parse_assignment_expr_async`. -/
def assignmentExprAsync (ctx : Ctx) : P Expr := do
  if ← peekMatches (.punct p!"=>") then arrowFunctionExpr r ctx
  else if ← peekMatches (.punct p!"(") then coverCallOrAsyncArrowHead r ctx
  else if ← peekIsIdent ctx then asyncArrowFunctionExpr r ctx
  else conditionalExpr r ctx

/-- `/repo/parser/src/expr.rs:200-216` `parse_assignment`. -/
def assignment (ctx : Ctx) (spanStart : Nat) (left : PatternOrExpr) (op : AssignOp) : P Expr := do
  let right ← r.assignExpr ctx
  let span ← spanFrom spanStart
  pure (.assign span op left right)

/-- `/repo/parser/src/expr.rs:140-160` `normalize_left_side_assignment`. -/
def normalizeLeftSideAssignment (ctx : Ctx) (startToken : Token) (e : Expr) : P PatternOrExpr :=
  match e with
  | .literal _ (.object _) | .literal _ (.array _) => do
    rewindTo startToken
    let pattern ← r.assignPattern ctx
    let _ ← consumeAssert (.punct p!"=")
    pure (.pattern pattern)
  | e => do
    M.ofExcept (e.earlyErrorsLhs ctx)
    pure (.expr e)

/-- `/repo/parser/src/expr.rs:103-135` after an expression was parsed. -/
def assignmentAfterExpr (ctx : Ctx) (spanStart : Nat) (startToken : Token) (e : Expr) : P Expr := do
  match ← optionalOperator assignOpOf with
  | some .assign => do
    let left ← normalizeLeftSideAssignment r ctx startToken e
    assignment r ctx spanStart left .assign
  | some op => do
    M.ofExcept (e.earlyErrorsLhs ctx)
    assignment r ctx spanStart (.expr e) op
  | none => pure e

/-- `/repo/parser/src/expr.rs:103-135` after a pattern was recovered, with the error `err` of the expression. -/
def assignmentAfterPattern (ctx : Ctx) (spanStart : Nat) (p : AssignPattern) (err : PErr) : P Expr := do
  match ← optionalOperator assignOpOf with
  | some .assign => assignment r ctx spanStart (.pattern p) .assign
  | _ => M.throw err

/-- `ErrorKind::InitializedNameNotAllowed`. -/
def _root_.Fajt.PErrKind.isInitializedName : PErrKind → Bool
  | .initializedName => true
  | _ => false

/-- `/repo/parser/src/expr.rs:66-135`: the general case of `parse_assignment_expr`. -/
def assignmentExprGeneral (ctx : Ctx) : P Expr := do
  let spanStart ← position
  let startToken ← current
  M.attempt (conditionalExprOrArrowFunction r ctx)
    (fun e => assignmentAfterExpr r ctx spanStart startToken e)
    (fun err =>
      if err.kind.isInitializedName then do
        rewindTo startToken
        if !(← curMatches (.punct p!"{")) && !(← curMatches (.punct p!"[")) then M.throw err
        else do
          let p ← r.assignPattern ctx
          assignmentAfterPattern r ctx spanStart p err
      else M.throw err)

/-- `/repo/parser/src/expr.rs:56-136` `parse_assignment_expr`. -/
def assignExpr (ctx : Ctx) : P Expr := do
  let v ← curVal?
  if v = some (.keyword k!"yield") ∧ ctx.yield = true then yieldExpr r ctx
  else if v = some (.keyword k!"async") then assignmentExprAsync r ctx
  else if (← isIdent ctx) && (← peekMatches (.punct p!"=>")) then arrowFunctionExpr r ctx
  else assignmentExprGeneral r ctx

/-! ## Assignment patterns (`assignment_pattern.rs`) -/

/-- `/repo/parser/src/assignment_pattern.rs:95-113` `parse_destructuring_assignment_target`. -/
def destructuringAssignmentTarget (ctx : Ctx) : P PatternOrExpr := do
  let t ← current
  if t.value = .punct p!"{" ∨ t.value = .punct p!"[" then do
    let p ← r.assignPattern ctx
    pure (.pattern p)
  else do
    let e ← leftHandSideExpr r ctx
    M.ofExcept (e.earlyErrorsTarget ctx c!"Invalid destructuring assignment target")
    pure (.expr e)

/-- `/repo/parser/src/assignment_pattern.rs:75-93` `parse_assignment_element`. -/
def assignmentElement (ctx : Ctx) : P AssignElement := do
  let spanStart ← position
  let target ← destructuringAssignmentTarget r ctx
  let init ← thenTry (← curMatches (.punct p!"=")) (initializer r { ctx with in_ := true })
  let span ← spanFrom spanStart
  pure (.mk span target init)

/-- `/repo/parser/src/assignment_pattern.rs:43-56,131-143`: the rest element and the closing token. -/
def assignmentRest (ctx : Ctx) (close : Punct) : P PatternOrExpr := do
  let _ ← consume
  let rest ← destructuringAssignmentTarget r ctx
  if ← maybeConsume (.punct close) then pure rest
  else M.throw (PErr.syn c!"Rest element must be last element" rest.span)

/-- `/repo/parser/src/assignment_pattern.rs:30-73` `parse_array_assignment_pattern`. -/
def arrayAssignmentPattern (ctx : Ctx) : P AssignPattern := do
  let spanStart ← position
  let _ ← consumeAssert (.punct p!"[")
  let (elements, rest) ← loop (fun acc => do
    let t ← current
    if t.value = .punct p!"]" then do
      let _ ← consume
      pure (.inr (acc, none))
    else if t.value = .punct p!"..." then do
      let rest ← assignmentRest r ctx p!"]"
      pure (.inr (acc, some rest))
    else if t.value = .punct p!"," then do
      let _ ← consume
      pure (.inl (acc ++ [none]))
    else do
      let e ← assignmentElement r ctx
      pure (.inl (acc ++ [some e]))) r.fuel []
  let span ← spanFrom spanStart
  pure (.array span elements rest)

/-- `/repo/parser/src/assignment_pattern.rs:164-182` `parse_named_assignment_prop`. -/
def namedAssignmentProp (ctx : Ctx) : P AssignProp := do
  let spanStart ← position
  let name ← propertyName r ctx
  let _ ← consumeAssert (.punct p!":")
  let (.mk _ target init) ← assignmentElement r ctx
  let span ← spanFrom spanStart
  pure (.named span name target init)

/-- `/repo/parser/src/assignment_pattern.rs:185-199` `parse_single_name_assignment_prop`. -/
def singleNameAssignmentProp (ctx : Ctx) : P AssignProp := do
  let spanStart ← position
  let id ← parseIdent ctx
  let init ← thenTry (← curMatches (.punct p!"=")) (initializer r ctx)
  let span ← spanFrom spanStart
  pure (.single span id init)

/-- `/repo/parser/src/assignment_pattern.rs:116-161` `parse_object_assignment_pattern`. -/
def objectAssignmentPattern (ctx : Ctx) : P AssignPattern := do
  let spanStart ← position
  let _ ← consumeAssert (.punct p!"{")
  let (props, rest) ← loop (fun acc => do
    let t ← current
    if t.value = .punct p!"}" then do
      let _ ← consume
      pure (.inr (acc, none))
    else if t.value = .punct p!"..." then do
      let rest ← assignmentRest r ctx p!"}"
      pure (.inr (acc, some rest))
    else if t.value = .punct p!"[" ∨ (← peekMatches (.punct p!":")) = true then do
      let prop ← namedAssignmentProp r ctx
      consumeListDelimiter (.punct p!"}")
      pure (.inl (acc ++ [prop]))
    else do
      let prop ← singleNameAssignmentProp r ctx
      consumeListDelimiter (.punct p!"}")
      pure (.inl (acc ++ [prop]))) r.fuel []
  let span ← spanFrom spanStart
  pure (.object span props rest)

/-- `/repo/parser/src/assignment_pattern.rs:22-28` `parse_assignment_pattern`. -/
def assignPattern (ctx : Ctx) : P AssignPattern := do
  let t ← current
  if t.value = .punct p!"[" then arrayAssignmentPattern r ctx
  else if t.value = .punct p!"{" then objectAssignmentPattern r ctx
  else M.panic c!"internal error: entered unreachable code: Expected to parse assignment pattern"

/-! ## Variables (`variable.rs`) -/

/-- `/repo/parser/src/variable.rs:49-53` `peek_matches_lexical_binding`. -/
def peekMatchesLexicalBinding (ctx : Ctx) : P Bool := do
  return (← peekMatches (.punct p!"{")) || (← peekMatches (.punct p!"[")) || (← peekIsIdent ctx)

/-- `matches!(pattern, BindingPattern::Ident(_))`. -/
def _root_.Fajt.BindingPattern.isIdent : BindingPattern → Bool
  | .ident _ => true
  | _ => false

/-- `/repo/parser/src/variable.rs:56-77` `parse_variable_declaration`. -/
def variableDeclaration (ctx : Ctx) : P VarDecl := do
  let spanStart ← position
  let pattern ← r.bindingPattern ctx
  let hasInit ← curMatches (.punct p!"=")
  if !pattern.isIdent && !hasInit then do
    let span ← spanFrom spanStart
    M.throw (PErr.syn c!"Missing initializer in destructuring declaration" span)
  else do
    let init ← thenTry hasInit (initializer r ctx)
    let span ← spanFrom spanStart
    pure (.mk span pattern init)

/-- `/repo/parser/src/variable.rs:35-47` `parse_variable_declarations`. -/
def variableDeclarations (ctx : Ctx) : P (List VarDecl) := do
  let first ← variableDeclaration r ctx
  loop (fun acc => do
    if ← maybeConsume (.punct p!",") then do
      let d ← variableDeclaration r ctx
      pure (.inl (acc ++ [d]))
    else pure (.inr acc)) r.fuel [first]

/-- `/repo/parser/src/variable.rs:14-33` `parse_variable_stmt`. -/
def variableStmt (ctx : Ctx) (kind : VarKind) : P Stmt := do
  let token ← consume
  let declarations ← variableDeclarations r (if kind = .var then { ctx with in_ := true } else ctx)
  let _ ← maybeConsume (.punct p!";")
  let span ← spanFrom token.span.start
  pure (.variable (.mk span kind declarations))

/-! ## Statements (`stmt.rs`) -/

/-- `/repo/parser/src/stmt.rs:131-147` `parse_block_stmt`. -/
def block (ctx : Ctx) : P Block := do
  let spanStart ← position
  let _ ← consumeAssert (.punct p!"{")
  let statements ← loop (fun acc => do
    if ← maybeConsume (.punct p!"}") then pure (.inr acc)
    else do
      let st ← r.declOrStmt ctx
      pure (.inl (acc ++ [st]))) r.fuel []
  let span ← spanFrom spanStart
  pure (.mk span statements)

/-- `/repo/parser/src/stmt.rs:111-128` `is_expr_stmt`. -/
def isExprStmt : P Bool := do
  let t ← current
  if t.value = .punct p!"{" ∨ t.value = .keyword k!"function" ∨ t.value = .keyword k!"class" then pure false
  else if t.value = .keyword k!"let" ∧ (← peekMatches (.punct p!"[")) = true then pure false
  else if t.value = .keyword k!"async" ∧ (← peekMatches (.keyword k!"function")) = true then followedByNewLine
  else pure true

/-- `/repo/parser/src/stmt.rs:150-162` `parse_expr_stmt`. -/
def exprStmt (ctx : Ctx) : P Stmt := do
  let spanStart ← position
  let e ← expr r { ctx with in_ := true }
  consumeOptionalSemicolon
  let span ← spanFrom spanStart
  pure (.expr span e)

/-- `/repo/parser/src/stmt.rs:165-177` `parse_labeled_stmt`. -/
def labeledStmt (ctx : Ctx) : P Stmt := do
  let spanStart ← position
  let label ← parseIdent ctx
  let _ ← consumeAssert (.punct p!":")
  let body ← r.stmt ctx
  let span ← spanFrom spanStart
  pure (.labeled span label body)

/-- `/repo/parser/src/stmt.rs:180-183` `parse_empty_stmt`. -/
def emptyStmt : P Stmt := do
  let token ← consumeAssert (.punct p!";")
  pure (.empty token.span)

/-- `/repo/parser/src/stmt.rs:186-195` `parse_break_stmt`. -/
def breakStmt (ctx : Ctx) : P Stmt := do
  let spanStart ← position
  let _ ← consumeAssert (.keyword k!"break")
  let label ← thenTry (!(← stmtEnded)) (parseIdent ctx)
  let _ ← maybeConsume (.punct p!";")
  let span ← spanFrom spanStart
  pure (.break span label)

/-- `/repo/parser/src/stmt.rs:198-207` `parse_continue_stmt`. -/
def continueStmt (ctx : Ctx) : P Stmt := do
  let spanStart ← position
  let _ ← consumeAssert (.keyword k!"continue")
  let label ← thenTry (!(← stmtEnded)) (parseIdent ctx)
  let _ ← maybeConsume (.punct p!";")
  let span ← spanFrom spanStart
  pure (.continue span label)

/-- `/repo/parser/src/stmt.rs:210-231` `parse_return_stmt`. -/
def returnStmt (ctx : Ctx) : P Stmt := do
  let spanStart ← position
  let _ ← consumeAssert (.keyword k!"return")
  if !ctx.return_ then do
    let span ← spanFrom spanStart
    M.throw (PErr.syn c!"Illegal return statement" span)
  else do
    let argument ← thenTry (!(← stmtEnded)) (expr r { ctx with in_ := true })
    let _ ← maybeConsume (.punct p!";")
    let span ← spanFrom spanStart
    pure (.return span argument)

/-- `/repo/parser/src/stmt.rs:238-249`: the checks on the token after `throw`. -/
def throwCheck (throwSpan : Span) : P Unit := do
  match ← cur? with
  | none => do
    let token ← consume
    M.throw (PErr.unexpectedToken token)
  | some t =>
    if t.value = .punct p!";" then do
      let token ← consume
      M.throw (PErr.unexpectedToken token)
    else if t.fol then M.throw (PErr.syn c!"Illegal newline after throw" throwSpan)
    else pure ()

/-- `/repo/parser/src/stmt.rs:234-260` `parse_throw_stmt`. -/
def throwStmt (ctx : Ctx) : P Stmt := do
  let spanStart ← position
  let throwTok ← consumeAssert (.keyword k!"throw")
  throwCheck throwTok.span
  let argument ← expr r { ctx with in_ := true }
  let _ ← maybeConsume (.punct p!";")
  let span ← spanFrom spanStart
  pure (.throw span argument)

/-- `/repo/parser/src/stmt.rs:263-271` `parse_debugger_stmt`. -/
def debuggerStmt : P Stmt := do
  let spanStart ← position
  let _ ← consumeAssert (.keyword k!"debugger")
  let _ ← maybeConsume (.punct p!";")
  let span ← spanFrom spanStart
  pure (.debugger span)

/-- `/repo/parser/src/stmt.rs:274-295` `parse_if_stmt`. -/
def ifStmt (ctx : Ctx) : P Stmt := do
  let spanStart ← position
  let _ ← consumeAssert (.keyword k!"if")
  let _ ← consumeAssert (.punct p!"(")
  let condition ← expr r { ctx with in_ := true }
  let _ ← consumeAssert (.punct p!")")
  let consequent ← r.stmt ctx
  let alternate ← thenTry (← maybeConsume (.keyword k!"else")) (r.stmt ctx)
  let span ← spanFrom spanStart
  pure (.if span condition consequent alternate)

/-- `/repo/parser/src/stmt.rs:298-315` `parse_with_stmt`. -/
def withStmt (ctx : Ctx) : P Stmt := do
  let spanStart ← position
  let _ ← consumeAssert (.keyword k!"with")
  let _ ← consumeAssert (.punct p!"(")
  let object ← expr r ctx
  let _ ← consumeAssert (.punct p!")")
  let body ← r.stmt ctx
  let span ← spanFrom spanStart
  pure (.with span object body)

/-- `/repo/parser/src/stmt.rs:354-358`: the optional parameter of a catch clause. -/
def catchParameter (ctx : Ctx) : P (Option BindingPattern) := do
  if ← maybeConsume (.punct p!"(") then do
    let pattern ← r.bindingPattern ctx
    let _ ← consumeAssert (.punct p!")")
    pure (some pattern)
  else pure none

/-- `/repo/parser/src/stmt.rs:350-368` `parse_catch_clause`. -/
def catchClause (ctx : Ctx) : P CatchClause := do
  let spanStart ← position
  let _ ← consumeAssert (.keyword k!"catch")
  let parameter ← catchParameter r ctx
  let body ← block r ctx
  let span ← spanFrom spanStart
  pure (.mk span parameter body)

/-- `/repo/parser/src/stmt.rs:318-347` `parse_try_stmt`. -/
def tryStmt (ctx : Ctx) : P Stmt := do
  let spanStart ← position
  let _ ← consumeAssert (.keyword k!"try")
  let b ← block r ctx
  let handler ← thenTry (← curMatches (.keyword k!"catch")) (catchClause r ctx)
  let finalizer ← thenTry (← maybeConsume (.keyword k!"finally")) (block r ctx)
  let span ← spanFrom spanStart
  if handler.isNone && finalizer.isNone then
    M.throw (PErr.syn c!"Missing catch or finally after try" span)
  else pure (.try span b handler finalizer)

/-- `/repo/parser/src/stmt.rs:431-446` `parse_switch_case_stmt_list`. -/
def switchCaseStmtList (ctx : Ctx) : P (List Stmt) :=
  loop (fun acc => do
    let v ← curVal?
    if v = some (.punct p!"}") ∨ v = some (.keyword k!"case") ∨ v = some (.keyword k!"default") then pure (.inr acc)
    else do
      let st ← r.declOrStmt ctx
      pure (.inl (acc ++ [st]))) r.fuel []

/-- `/repo/parser/src/stmt.rs:412-420`: `case e:` or `default:`. -/
def caseHead (ctx : Ctx) : P (Option Expr) := do
  if ← maybeConsume (.keyword k!"case") then do
    let test ← expr r { ctx with in_ := true }
    let _ ← consumeAssert (.punct p!":")
    pure (some test)
  else do
    let _ ← consumeAssert (.keyword k!"default")
    let _ ← consumeAssert (.punct p!":")
    pure none

/-- `/repo/parser/src/stmt.rs:410-429` `parse_case_clause`. -/
def caseClause (ctx : Ctx) : P SwitchCase := do
  let spanStart ← position
  let test ← caseHead r ctx
  let consequent ← switchCaseStmtList r ctx
  let span ← spanFrom spanStart
  pure (.mk span test consequent)

/-- `/repo/parser/src/stmt.rs:392-407` `parse_case_block`. -/
def caseBlock (ctx : Ctx) : P (List SwitchCase) := do
  let _ ← consumeAssert (.punct p!"{")
  let cases ← loop (fun acc => do
    if ← curMatches (.punct p!"}") then pure (.inr acc)
    else do
      let c ← caseClause r ctx
      pure (.inl (acc ++ [c]))) r.fuel []
  let _ ← consumeAssert (.punct p!"}")
  pure cases

/-- `/repo/parser/src/stmt.rs:371-389` `parse_switch_stmt`. -/
def switchStmt (ctx : Ctx) : P Stmt := do
  let spanStart ← position
  let _ ← consumeAssert (.keyword k!"switch")
  let _ ← consumeAssert (.punct p!"(")
  let discriminant ← expr r { ctx with in_ := true }
  let _ ← consumeAssert (.punct p!")")
  let cases ← caseBlock r ctx
  let span ← spanFrom spanStart
  pure (.switch span discriminant cases)

/-! ## Iteration (`iteration.rs`) -/

/-- `/repo/parser/src/iteration.rs:20-41` `parse_do_while_stmt`. -/
def doWhileStmt (ctx : Ctx) : P Stmt := do
  let spanStart ← position
  let _ ← consumeAssert (.keyword k!"do")
  let body ← r.stmt ctx
  let _ ← consumeAssert (.keyword k!"while")
  let _ ← consumeAssert (.punct p!"(")
  let test ← expr r { ctx with in_ := true }
  let _ ← consumeAssert (.punct p!")")
  let _ ← maybeConsume (.punct p!";")
  let span ← spanFrom spanStart
  pure (.doWhile span body test)

/-- `/repo/parser/src/iteration.rs:44-62` `parse_while_stmt`. -/
def whileStmt (ctx : Ctx) : P Stmt := do
  let spanStart ← position
  let _ ← consumeAssert (.keyword k!"while")
  let _ ← consumeAssert (.punct p!"(")
  let test ← expr r { ctx with in_ := true }
  let _ ← consumeAssert (.punct p!")")
  let body ← r.stmt ctx
  let span ← spanFrom spanStart
  pure (.while span test body)

/-- `/repo/parser/src/iteration.rs:261-276` `parse_optional_variable_kind`. -/
def optionalVariableKind (ctx : Ctx) : P (Option VarKind) := do
  let t ← current
  let lexical ← peekMatchesLexicalBinding ctx
  if t.value = .keyword k!"var" then do
    let _ ← consume
    pure (some .var)
  else if t.value = .keyword k!"let" ∧ lexical = true then do
    let _ ← consume
    pure (some .let_)
  else if t.value = .keyword k!"const" then do
    let _ ← consume
    pure (some .const)
  else pure none

/-- `/repo/parser/src/iteration.rs:244-259` `parse_for_init_variable_declaration`. -/
def forInitVariableDeclaration (ctx : Ctx) (spanStart : Nat) (kind : VarKind) : P ForInit := do
  let declarations ← variableDeclarations r { ctx with in_ := false }
  let span ← spanFrom spanStart
  pure (.declaration (.mk span kind declarations))

/-- `/repo/parser/src/iteration.rs:230-242` `parse_for_init`. -/
def forInit (ctx : Ctx) : P ForInit := do
  let spanStart ← position
  match ← optionalVariableKind ctx with
  | some kind => forInitVariableDeclaration r ctx spanStart kind
  | none => do
    let e ← expr r { ctx with in_ := false }
    pure (.expr e)

/-- `/repo/parser/src/iteration.rs:222-228` `parse_optional_for_init`. -/
def optionalForInit (ctx : Ctx) : P (Option ForInit) := do
  if ← curMatches (.punct p!";") then pure none
  else do
    let i ← forInit r ctx
    pure (some i)

/-- `/repo/parser/src/iteration.rs:103-123`: the part of `try_parse_for` after the first `;`. -/
def forRest (ctx : Ctx) (spanStart : Nat) (init : Option ForInit) : P Stmt := do
  let test ← thenTry (!(← curMatches (.punct p!";"))) (expr r { ctx with in_ := true })
  let _ ← consumeAssert (.punct p!";")
  let update ← thenTry (!(← curMatches (.punct p!")"))) (expr r { ctx with in_ := true })
  let _ ← consumeAssert (.punct p!")")
  let body ← r.stmt ctx
  let span ← spanFrom spanStart
  pure (.for span init test update body)

/-- `/repo/parser/src/iteration.rs:85-124` `try_parse_for`. -/
def tryFor (ctx : Ctx) (spanStart : Nat) (asynchronous : Bool) : P (Option Stmt) :=
  M.attempt (optionalForInit r ctx)
    (fun init => do
      if ← maybeConsume (.punct p!";") then
        if asynchronous then do
          let span ← spanFrom spanStart
          M.throw (PErr.syn c!"'for await' loops must be used with 'of'" span)
        else do
          let st ← forRest r ctx spanStart init
          pure (some st)
      else pure none)
    (fun _ => pure none)

/-- `/repo/parser/src/iteration.rs:193-218` `parse_for_declaration`. -/
def forDeclaration (ctx : Ctx) : P ForDecl := do
  let spanStart ← position
  match ← optionalVariableKind ctx with
  | some kind => do
    let binding ← r.bindingPattern ctx
    let span ← spanFrom spanStart
    pure (.declaration span kind binding)
  | none => do
    let t ← current
    if t.value = .punct p!"[" ∨ t.value = .punct p!"{" then do
      let p ← r.assignPattern ctx
      pure (.pattern p)
    else do
      let e ← leftHandSideExpr r ctx
      M.ofExcept (e.earlyErrorsLhs ctx)
      pure (.expr e)

/-- `/repo/parser/src/iteration.rs:150-166` `parse_for_in`. -/
def forIn (ctx : Ctx) (spanStart : Nat) (left : ForDecl) : P Stmt := do
  let _ ← consumeAssert (.keyword k!"in")
  let right ← expr r { ctx with in_ := true }
  let _ ← consumeAssert (.punct p!")")
  let body ← r.stmt ctx
  let span ← spanFrom spanStart
  pure (.forIn span left right body)

/-- `/repo/parser/src/iteration.rs:168-190` `parse_for_of`. -/
def forOf (ctx : Ctx) (spanStart : Nat) (left : ForDecl) (asynchronous : Bool) : P Stmt := do
  let _ ← consumeAssert (.keyword k!"of")
  let right ← expr r { ctx with in_ := true }
  let _ ← consumeAssert (.punct p!")")
  let body ← r.stmt ctx
  let span ← spanFrom spanStart
  pure (.forOf span left right body asynchronous)

/-- `/repo/parser/src/iteration.rs:128-148` `parse_for_in_of`. -/
def forInOf (ctx : Ctx) (spanStart : Nat) (asynchronous : Bool) : P Stmt := do
  let left ← forDeclaration r ctx
  let t ← current
  if t.value = .keyword k!"of" then forOf r ctx spanStart left asynchronous
  else if t.value = .keyword k!"in" then
    if asynchronous then do
      let span ← spanFrom spanStart
      M.throw (PErr.syn c!"'for await' loops must be used with 'of'" span)
    else forIn r ctx spanStart left
  else do
    let token ← consume
    M.throw (PErr.unexpectedToken token)

/-- `/repo/parser/src/iteration.rs:72-79`: the part of `parse_for_stmt` after `for (`. -/
def forAfterParen (ctx : Ctx) (spanStart : Nat) (asynchronous : Bool) : P Stmt := do
  let startToken ← current
  match ← tryFor r ctx spanStart asynchronous with
  | some st => pure st
  | none => do
    rewindTo startToken
    forInOf r ctx spanStart asynchronous

/-- `/repo/parser/src/iteration.rs:65-80` `parse_for_stmt`. -/
def forStmt (ctx : Ctx) : P Stmt := do
  let spanStart ← position
  let _ ← consumeAssert (.keyword k!"for")
  let asynchronous ← if ctx.await then maybeConsume (.keyword k!"await") else pure false
  let _ ← consumeAssert (.punct p!"(")
  forAfterParen r ctx spanStart asynchronous

/-- `/repo/parser/src/stmt.rs:42-67` `parse_stmt`. -/
def stmt (ctx : Ctx) : P Stmt := do
  let t ← current
  match t.value with
  | .punct p!";" => emptyStmt
  | .punct p!"{" => do
    let b ← block r ctx
    pure (.block b)
  | .keyword k!"var" => variableStmt r ctx .var
  | .keyword k!"if" => ifStmt r ctx
  | .keyword k!"break" => breakStmt ctx
  | .keyword k!"continue" => continueStmt ctx
  | .keyword k!"return" => returnStmt r ctx
  | .keyword k!"with" => withStmt r ctx
  | .keyword k!"throw" => throwStmt r ctx
  | .keyword k!"try" => tryStmt r ctx
  | .keyword k!"debugger" => debuggerStmt
  | .keyword k!"do" => doWhileStmt r ctx
  | .keyword k!"while" => whileStmt r ctx
  | .keyword k!"for" => forStmt r ctx
  | .keyword k!"switch" => switchStmt r ctx
  | _ =>
    if (← isIdent ctx) && (← peekMatches (.punct p!":")) then labeledStmt r ctx
    else if ← isExprStmt then exprStmt r { ctx with in_ := true }
    else M.throw (PErr.unexpectedToken t)

/-! ## Modules (`module.rs`) -/

/-- `/repo/parser/src/module.rs:203-210` `parse_module_specifier`: `unwrap_string` panics on another literal
(`/repo/ast/src/literal.rs`). -/
def moduleSpecifier : P LitString := do
  let (_, l) ← literalTok
  match l with
  | .string s => pure s
  | _ => M.panic c!"Tried to unwrap literal as string"

/-- `/repo/parser/src/module.rs:213-217` `parse_namespace_import`. -/
def namespaceImport (ctx : Ctx) : P Ident := do
  let _ ← consumeAssert (.punct p!"*")
  let _ ← consumeAssert (.keyword k!"as")
  parseIdent ctx

/-- `/repo/parser/src/module.rs:238-246` `parse_import_specifier`. -/
def importSpecifier (ctx : Ctx) : P NamedImport := do
  let spanStart ← position
  let name ← parseIdentName
  let a ← thenTry (← maybeConsume (.keyword k!"as")) (parseIdent ctx)
  let span ← spanFrom spanStart
  pure ⟨span, name, a⟩

/-- `/repo/parser/src/module.rs:220-235` `parse_named_imports`. -/
def namedImports (ctx : Ctx) : P (List NamedImport) := do
  let _ ← consumeAssert (.punct p!"{")
  loop (fun acc => do
    if ← maybeConsume (.punct p!"}") then pure (.inr acc)
    else do
      let i ← importSpecifier ctx
      consumeListDelimiter (.punct p!"}")
      pure (.inl (acc ++ [i]))) r.fuel []

/-- `/repo/parser/src/module.rs:266-283` `parse_export_specifier`. -/
def exportSpecifier : P NamedExport := do
  let spanStart ← position
  let name ← parseIdentName
  let a ← thenTry (← maybeConsume (.keyword k!"as")) parseIdentName
  let span ← spanFrom spanStart
  match a with
  | some a => pure ⟨span, a, some name⟩
  | none => pure ⟨span, name, none⟩

/-- `/repo/parser/src/module.rs:249-264` `parse_named_exports`. -/
def namedExports : P (List NamedExport) := do
  let _ ← consumeAssert (.punct p!"{")
  loop (fun acc => do
    if ← maybeConsume (.punct p!"}") then pure (.inr acc)
    else do
      let e ← exportSpecifier
      consumeListDelimiter (.punct p!"}")
      pure (.inl (acc ++ [e]))) r.fuel []

/-- `/repo/parser/src/module.rs:171-182`: the second part of `parse_import_clause`. -/
def importClauseRest (ctx : Ctx) : P (Option Ident × Option (List NamedImport)) := do
  match ← curVal? with
  | some (.punct p!"*") => do
    let id ← namespaceImport ctx
    pure (some id, none)
  | some (.punct p!"{") => do
    let is ← namedImports r ctx
    pure (none, some is)
  | _ => do
    let token ← consume
    M.throw (PErr.unexpectedToken token)

/-- `/repo/parser/src/module.rs:164-185` `parse_import_clause`. -/
def importClause (ctx : Ctx) : P (Option Ident × Option Ident × Option (List NamedImport)) := do
  let defaultBinding ← thenTry (← isIdent ctx) (parseIdent ctx)
  if defaultBinding.isNone then do
    let (ns, is) ← importClauseRest r ctx
    pure (defaultBinding, ns, is)
  else if ← maybeConsume (.punct p!",") then do
    let (ns, is) ← importClauseRest r ctx
    pure (defaultBinding, ns, is)
  else pure (defaultBinding, none, none)

/-- `/repo/parser/src/module.rs:187-200` `parse_module_import`. -/
def moduleImport (spanStart : Nat) : P Stmt := do
  let source ← moduleSpecifier
  consumeOptionalSemicolon
  let span ← spanFrom spanStart
  pure (.importDecl span none none none source)

/-- `/repo/parser/src/module.rs:136-161` `parse_import_declaration`. -/
def importDeclaration (ctx : Ctx) : P Stmt := do
  let spanStart ← position
  let _ ← consumeAssert (.keyword k!"import")
  if ← curMatchesString then moduleImport spanStart
  else do
    let (defaultBinding, ns, is) ← importClause r ctx
    let _ ← consumeAssert (.keyword k!"from")
    let source ← moduleSpecifier
    consumeOptionalSemicolon
    let span ← spanFrom spanStart
    pure (.importDecl span defaultBinding ns is source)

/-- `/repo/parser/src/module.rs:120-133` `parse_named_export`. -/
def namedExport (spanStart : Nat) : P Stmt := do
  let es ← namedExports r
  let source ← thenTry (← maybeConsume (.keyword k!"from")) moduleSpecifier
  consumeOptionalSemicolon
  let span ← spanFrom spanStart
  pure (.exportDecl (.named span es source))

/-- `/repo/parser/src/module.rs:107-117` `parse_namespace_export`. -/
def namespaceExport (spanStart : Nat) : P Stmt := do
  let _ ← consumeAssert (.punct p!"*")
  let a ← thenTry (← maybeConsume (.keyword k!"as")) parseIdentName
  let _ ← consumeAssert (.keyword k!"from")
  let source ← moduleSpecifier
  consumeOptionalSemicolon
  let span ← spanFrom spanStart
  pure (.exportDecl (.namespace span a source))

/-- `/repo/parser/src/module.rs:96-104` `parse_required_declaration`. -/
def requiredDeclaration (ctx : Ctx) : P Stmt := do
  match ← r.declaration ctx with
  | some d => pure d
  | none => do
    let p ← position
    let span ← spanFrom p
    M.throw (PErr.syn c!"Expected statement" span)

/-- `/repo/parser/src/module.rs:75-83` `parse_declaration_export`. -/
def declarationExport (ctx : Ctx) (spanStart : Nat) : P Stmt := do
  let d ← requiredDeclaration r ctx
  let span ← spanFrom spanStart
  pure (.exportDecl (.decl span d))

/-- `/repo/parser/src/module.rs:86-94` `parse_declaration_default_export`. -/
def declarationDefaultExport (ctx : Ctx) (spanStart : Nat) : P Stmt := do
  let d ← requiredDeclaration r ctx
  let span ← spanFrom spanStart
  pure (.exportDecl (.defaultDecl span d))

/-- `/repo/parser/src/module.rs:64-72` `parse_varible_statement_export`. -/
def variableStatementExport (ctx : Ctx) (spanStart : Nat) : P Stmt := do
  let st ← variableStmt r ctx .var
  let span ← spanFrom spanStart
  pure (.exportDecl (.decl span st))

/-- `/repo/parser/src/module.rs:39-61` `parse_default_export`. -/
def defaultExport (ctx : Ctx) (spanStart : Nat) : P Stmt := do
  let _ ← consumeAssert (.keyword k!"default")
  let t ← current
  let peekFunction ← peekMatches (.keyword k!"function")
  if t.value = .keyword k!"class" ∨ t.value = .keyword k!"function" ∨
      (t.value = .keyword k!"async" ∧ peekFunction = true) then
    declarationDefaultExport r { ctx with default := true } spanStart
  else do
    let e ← r.assignExpr { ctx with in_ := true }
    consumeOptionalSemicolon
    let span ← spanFrom spanStart
    pure (.exportDecl (.defaultExpr span e))

/-- `/repo/parser/src/module.rs:19-37` `parse_export_declaration`. -/
def exportDeclaration (ctx : Ctx) : P Stmt := do
  let spanStart ← position
  let _ ← consumeAssert (.keyword k!"export")
  let peekFunction ← peekMatches (.keyword k!"function")
  let v ← curVal?
  if v = some (.punct p!"{") then namedExport r spanStart
  else if v = some (.punct p!"*") then namespaceExport spanStart
  else if v = some (.keyword k!"var") then variableStatementExport r ctx spanStart
  else if v = some (.keyword k!"let") ∨ v = some (.keyword k!"const") ∨ v = some (.keyword k!"function") ∨
      v = some (.keyword k!"class") then declarationExport r ctx spanStart
  else if v = some (.keyword k!"async") ∧ peekFunction = true then declarationExport r ctx spanStart
  else if v = some (.keyword k!"default") then defaultExport r ctx spanStart
  else do
    let token ← consume
    M.throw (PErr.unexpectedToken token)

/-- `self.source_type == SourceType::Script`. -/
def isScript : P Bool := M.gets fun s => s.sourceType = .script

/-- `/repo/parser/src/stmt.rs:69-107` `parse_declaration`. -/
def declaration (ctx : Ctx) : P (Option Stmt) := do
  let t ← current
  let peekFunction ← peekMatches (.keyword k!"function")
  let lexical ← peekMatchesLexicalBinding ctx
  if t.value = .keyword k!"function" then do
    let st ← functionDeclaration r ctx
    pure (some st)
  else if t.value = .keyword k!"async" ∧ peekFunction = true then do
    let st ← asyncFunctionDeclaration r ctx
    pure (some st)
  else if t.value = .keyword k!"class" then do
    let st ← classDecl r { ctx with strict := true }
    pure (some st)
  else if t.value = .keyword k!"import" then
    if ← isScript then M.throw (PErr.syn c!"Cannot use `import` statement outside a module" t.span)
    else do
      let st ← importDeclaration r ctx
      pure (some st)
  else if t.value = .keyword k!"export" then
    if ← isScript then M.throw (PErr.syn c!"Cannot use `export` statement outside a module" t.span)
    else do
      let st ← exportDeclaration r ctx
      pure (some st)
  else if t.value = .keyword k!"const" then do
    let st ← variableStmt r ctx .const
    pure (some st)
  else if t.value = .keyword k!"let" ∧ lexical = true then do
    let st ← variableStmt r ctx .let_
    pure (some st)
  else pure none

/-- `/repo/parser/src/stmt.rs:33-40` `parse_declaration_or_statement`. -/
def declOrStmt (ctx : Ctx) : P Stmt := do
  match ← r.declaration ctx with
  | some d => pure d
  | none => r.stmt ctx

end Parser

open Parser in
/-- Tying the knot: with fuel `n + 1` every entry point runs its body with entry points that have fuel `n`. -/
def mkRec : Nat → Rec
  | 0 =>
    { fuel := 0, assignExpr := fun _ => M.oof, unary := fun _ => M.oof, newOrMember := fun _ => M.oof,
      bindingPattern := fun _ => M.oof, assignPattern := fun _ => M.oof, stmt := fun _ => M.oof,
      declOrStmt := fun _ => M.oof, declaration := fun _ => M.oof }
  | n + 1 =>
    let r := mkRec n
    { fuel := n + 1, assignExpr := assignExpr r, unary := unary r, newOrMember := newOrMember r,
      bindingPattern := bindingPattern r, assignPattern := assignPattern r, stmt := stmt r,
      declOrStmt := declOrStmt r, declaration := declaration r }

namespace Parser
variable (r : Rec)

/-- `/repo/parser/src/stmt.rs:20-31` `parse_all_stmts`. -/
def allStmts (ctx : Ctx) : P (List Stmt) :=
  loop (fun acc => do
    if ← isEnd then pure (.inr acc)
    else do
      let st ← r.declOrStmt ctx
      pure (.inl (acc ++ [st]))) r.fuel []

/-- `/repo/parser/src/lib.rs:189-215` `Parse for Program`. -/
def program : P Program := do
  let spanStart ← position
  let directives ← directivePrologue r {}
  let body ← allStmts r { strict := containsStrict directives }
  let span ← spanFrom spanStart
  let sourceType ← M.gets fun s => s.sourceType
  pure ⟨sourceType, span, directives, body⟩

/-- The initial parser state: `/repo/parser/src/lib.rs:67-73` (`Lexer::new`, `set_state`) and `PeekReader::new`
(`/repo/common/src/io.rs:76-91`), which reads two tokens. -/
def start (source : Str) (sourceType : SourceType) : Res PState PErr Unit :=
  let lx := { LexerS.new source with
    st := { LexState.default with html := sourceType = .script } }
  (do
    let c ← liftLx LexerS.pull
    let n ← liftLx LexerS.pull
    M.modify fun s => { s with cur := c, nxt := n } : P Unit)
    ⟨lx, .error LexErr.endOfStream, .error LexErr.endOfStream, 0, sourceType⟩

/-- Fuel that is enough for a source (`Verif.Props.Parser`: `C19_…`). -/
def enoughFuel (source : Str) : Nat := 8 * (byteLen source + 2) + 16

/-- `/repo/parser/src/lib.rs:63-74` `parse::<T>`. -/
def parse {α : Type} (p : Rec → P α) (source : Str) (sourceType : SourceType) : Res PState PErr α :=
  match start source sourceType with
  | .ok () s => p (mkRec (enoughFuel source)) s
  | .err e s => .err e s
  | .panic w => .panic w
  | .oof => .oof

/-- `/repo/parser/src/lib.rs:54-56` `parse_script`. -/
def parseScript (source : Str) : Res PState PErr Program := parse program source .script

/-- `/repo/parser/src/lib.rs:58-60` `parse_module`. -/
def parseModule (source : Str) : Res PState PErr Program := parse program source .module

/-- `/repo/parser/src/lib.rs:166-176` `parse::<Expr>`. -/
def parseExpr (source : Str) (sourceType : SourceType) : Res PState PErr Expr :=
  parse (fun r => expr r { in_ := true }) source sourceType

/-- `/repo/parser/src/lib.rs:178-186` `parse::<Stmt>`. -/
def parseStmt (source : Str) (sourceType : SourceType) : Res PState PErr Stmt :=
  parse (fun r => declOrStmt r {}) source sourceType

end Parser
end Fajt
