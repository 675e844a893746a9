import Verif.Model.Basic
/-!
# The syntax tree (`/repo/ast/src`)

Rust structs that occur in exactly one enum variant are inlined into the constructor of that variant (the field
order is the Rust field order); `Box` is dropped, `Vec` is `List`.  `ClassElement` (`ast/src/class.rs:21-25`), an enum
with the single variant `Method`, is identified with `MethodDef`.
-/
namespace Fajt

-- Only structural recursion is used on these types; `SizeOf` instances are not needed.
set_option genSizeOf false
set_option genSizeOfSpec false

/-- `/repo/ast/src/lib.rs:62-67` `Ident`. -/
structure Ident where
  span : Span
  name : Str
deriving DecidableEq, Repr, Inhabited

/-- `/repo/ast/src/literal.rs:33-38` `LitString`. -/
structure LitString where
  value : Str
  delimiter : Char
deriving DecidableEq, Repr, Inhabited

/-- `/repo/ast/src/expr.rs:94-150` `BinaryOperator`. -/
inductive BinaryOp where
  | plus | minus | mul | div | mod | exp | shl | shr | ushr | lt | gt | le | ge | instanceof | in_
  | eq | ne | seq | sne | bitAnd | bitXor | bitOr
deriving DecidableEq, Repr, Inhabited

/-- `/repo/ast/src/expr.rs:161-177` `LogicalOperator`. -/
inductive LogicalOp where
  | and | or | coalesce
deriving DecidableEq, Repr, Inhabited

/-- `/repo/ast/src/expr.rs:187-211` `UnaryOperator`. -/
inductive UnaryOp where
  | delete | void | typeof | plus | minus | bitNot | not
deriving DecidableEq, Repr, Inhabited

/-- `/repo/ast/src/expr.rs:222-236` `UpdateOperator`. -/
inductive UpdateOp where
  | incr | decr
deriving DecidableEq, Repr, Inhabited

/-- `/repo/ast/src/expr.rs:376-412` `AssignmentOperator`. -/
inductive AssignOp where
  | assign | mul | pow | div | mod | add | sub | shl | shr | ushr | bitAnd | bitXor | bitOr
deriving DecidableEq, Repr, Inhabited

/-- `/repo/ast/src/stmt.rs:124-134` `VariableKind`. -/
inductive VarKind where
  | const | let_ | var
deriving DecidableEq, Repr, Inhabited

/-- `/repo/ast/src/method.rs:16-22` `MethodKind`. -/
inductive MethodKind where
  | method | get | set
deriving DecidableEq, Repr, Inhabited

/-- `/repo/ast/src/stmt.rs:314-318` `NamedImport`. -/
structure NamedImport where
  span : Span
  name : Ident
  «alias» : Option Ident
deriving DecidableEq, Repr, Inhabited

/-- `/repo/ast/src/stmt.rs:385-390` `NamedExport`. -/
structure NamedExport where
  span : Span
  name : Ident
  aliasOf : Option Ident
deriving DecidableEq, Repr, Inhabited

mutual

/-- `/repo/ast/src/expr.rs:6-32` `Expr` with the structs of its variants. -/
inductive Expr where
  /-- `ExprArrowFunction`, expr.rs:282-290 -/
  | arrow (span : Span) (asynchronous bindingParameter : Bool) (parameters : FormalParams) (body : ArrowBody)
  /-- `ExprAssignment`, expr.rs:367-374 -/
  | assign (span : Span) (op : AssignOp) (left : PatternOrExpr) (right : Expr)
  /-- `ExprAwait`, expr.rs:256-261 -/
  | await (span : Span) (argument : Expr)
  /-- `ExprBinary`, expr.rs:85-92 -/
  | binary (span : Span) (op : BinaryOp) (left right : Expr)
  /-- `ExprCall`, expr.rs:414-421 -/
  | call (span : Span) (callee : Callee) (argumentsSpan : Span) (arguments : List Argument)
  /-- `ExprClass`, class.rs:12-19 -/
  | classE (span : Span) (identifier : Option Ident) (superClass : Option Expr) (body : List MethodDef)
  /-- `ExprConditional`, expr.rs:247-254 -/
  | conditional (span : Span) (condition consequent alternate : Expr)
  /-- `ExprFunction`, expr.rs:270-280 -/
  | function (span : Span) (asynchronous generator : Bool) (identifier : Option Ident) (parameters : FormalParams)
      (body : Body)
  /-- `Ident` -/
  | ident (id : Ident)
  /-- `ExprLiteral`, expr.rs:63-68 -/
  | literal (span : Span) (lit : Literal)
  /-- `ExprLogical`, expr.rs:152-159 -/
  | logical (span : Span) (op : LogicalOp) (left right : Expr)
  /-- `ExprMember`, expr.rs:306-312 -/
  | member (span : Span) (object : MemberObject) (property : MemberProp)
  /-- `ExprMetaProperty`, expr.rs:343-349 -/
  | metaProp (span : Span) (object property : Ident)
  /-- `ExprNew`, expr.rs:351-358 -/
  | new (span : Span) (callee : Expr) (argumentsSpan : Option Span) (arguments : List Argument)
  /-- `ExprOptionalCall`, expr.rs:423-431 -/
  | optCall (span : Span) (callee : Expr) (argumentsSpan : Span) (arguments : List Argument) (optional : Bool)
  /-- `ExprOptionalMember`, expr.rs:314-321 -/
  | optMember (span : Span) (object : Expr) (property : MemberProp) (optional : Bool)
  /-- `ExprParenthesized`, expr.rs:299-304 -/
  | paren (span : Span) (expression : Expr)
  /-- `ExprSequence`, expr.rs:263-268 -/
  | sequence (span : Span) (exprs : List Expr)
  /-- `ExprTaggedTemplate`, expr.rs:441-446; the template is its list of parts -/
  | tagged (span : Span) (callee : Expr) (template : List TemplatePart)
  /-- `ExprThis`, expr.rs:70-74 -/
  | this (span : Span)
  /-- `ExprUnary`, expr.rs:179-185 -/
  | unary (span : Span) (op : UnaryOp) (argument : Expr)
  /-- `ExprUpdate`, expr.rs:213-220 -/
  | update (span : Span) (op : UpdateOp) (pre : Bool) (argument : Expr)
  /-- `ExprYield`, expr.rs:238-245 -/
  | yield (span : Span) (argument : Option Expr) (delegate : Bool)

/-- `/repo/ast/src/literal.rs:3-14` `Literal`; `LitArray`, `LitObject`, `LitTemplate`, `LitNumber` inlined. -/
inductive Literal where
  | null
  | boolean (b : Bool)
  | string (s : LitString)
  | number (raw : Str)
  | array (elements : List ArrayElement)
  | object (props : List PropDef)
  | regexp (s : Str)
  | template (parts : List TemplatePart)

/-- `/repo/ast/src/literal.rs:16-21` `TemplatePart`. -/
inductive TemplatePart where
  | string (s : Str)
  | expr (e : Expr)

/-- `/repo/ast/src/literal.rs:52-58` `ArrayElement`. -/
inductive ArrayElement where
  | elision
  | expr (e : Expr)
  | spread (e : Expr)

/-- `/repo/ast/src/literal.rs:66-81` `PropertyDefinition`, `NamedProperty` inlined. -/
inductive PropDef where
  | identRef (id : Ident)
  | spread (e : Expr)
  | named (span : Span) (name : PropName) (value : Expr)
  | method (m : MethodDef)

/-- `/repo/ast/src/binding.rs:51-58` `PropertyName`. -/
inductive PropName where
  | ident (id : Ident)
  | string (s : LitString)
  | number (raw : Str)
  | computed (e : Expr)

/-- `/repo/ast/src/method.rs:3-14` `MethodDefinition`. -/
inductive MethodDef where
  | mk (span : Span) (name : PropName) (kind : MethodKind) (parameters : FormalParams) (body : Body)
      (generator asynchronous isStatic : Bool)

/-- `/repo/ast/src/stmt.rs:84-91` `FormalParameters`. -/
inductive FormalParams where
  | mk (span : Span) (bindings : List BindingElement) (rest : Option BindingPattern)

/-- `/repo/ast/src/stmt.rs:75-82` `Body`. -/
inductive Body where
  | mk (span : Span) (directives : List LitString) (statements : List Stmt)

/-- `/repo/ast/src/expr.rs:292-297` `ArrowFunctionBody`. -/
inductive ArrowBody where
  | expr (e : Expr)
  | body (b : Body)

/-- `/repo/ast/src/expr.rs:323-334` `MemberObject`, `Super`. -/
inductive MemberObject where
  | expr (e : Expr)
  | super (span : Span)

/-- `/repo/ast/src/expr.rs:336-341` `MemberProperty`. -/
inductive MemberProp where
  | ident (id : Ident)
  | expr (e : Expr)

/-- `/repo/ast/src/expr.rs:360-365` `Argument`. -/
inductive Argument where
  | expr (e : Expr)
  | spread (e : Expr)

/-- `/repo/ast/src/expr.rs:433-439` `Callee`. -/
inductive Callee where
  | super
  | import
  | expr (e : Expr)

/-- `/repo/ast/src/binding.rs:3-27` `BindingPattern`, `ArrayBinding`, `ObjectBinding`. -/
inductive BindingPattern where
  | ident (id : Ident)
  | array (span : Span) (elements : List (Option BindingElement)) (rest : Option BindingPattern)
  | object (span : Span) (props : List BindingProp) (rest : Option BindingPattern)

/-- `/repo/ast/src/binding.rs:29-49` `ObjectBindingProp`, `SingleNameBinding`, `NamedBinding`. -/
inductive BindingProp where
  | single (span : Span) (ident : Ident) (initializer : Option Expr)
  | named (span : Span) (property : PropName) (binding : BindingElement)

/-- `/repo/ast/src/binding.rs:60-66` `BindingElement`. -/
inductive BindingElement where
  | mk (span : Span) (pattern : BindingPattern) (initializer : Option Expr)

/-- `/repo/ast/src/assignment.rs:3-8` `PatternOrExpr`. -/
inductive PatternOrExpr where
  | expr (e : Expr)
  | pattern (p : AssignPattern)

/-- `/repo/ast/src/assignment.rs:10-39` `AssignmentPattern`. -/
inductive AssignPattern where
  | array (span : Span) (elements : List (Option AssignElement)) (rest : Option PatternOrExpr)
  | object (span : Span) (props : List AssignProp) (rest : Option PatternOrExpr)

/-- `/repo/ast/src/assignment.rs:25-31` `AssignmentElement`. -/
inductive AssignElement where
  | mk (span : Span) (target : PatternOrExpr) (initializer : Option Expr)

/-- `/repo/ast/src/assignment.rs:41-63` `AssignmentProp`. -/
inductive AssignProp where
  | single (span : Span) (ident : Ident) (initializer : Option Expr)
  | named (span : Span) (name : PropName) (value : PatternOrExpr) (initializer : Option Expr)

/-- `/repo/ast/src/stmt.rs:6-33` `Stmt` with the structs of its variants. -/
inductive Stmt where
  | block (b : Block)
  /-- `StmtBreak`, stmt.rs:143-148 -/
  | break (span : Span) (label : Option Ident)
  /-- `StmtContinue`, stmt.rs:150-155 -/
  | continue (span : Span) (label : Option Ident)
  | debugger (span : Span)
  /-- `StmtDoWhile`, stmt.rs:221-227 -/
  | doWhile (span : Span) (body : Stmt) (test : Expr)
  | empty (span : Span)
  | expr (span : Span) (e : Expr)
  /-- `StmtFor`, stmt.rs:237-245 -/
  | for (span : Span) (init : Option ForInit) (test update : Option Expr) (body : Stmt)
  /-- `StmtForIn`, stmt.rs:254-261 -/
  | forIn (span : Span) (left : ForDecl) (right : Expr) (body : Stmt)
  /-- `StmtForOf`, stmt.rs:263-271 -/
  | forOf (span : Span) (left : ForDecl) (right : Expr) (body : Stmt) (asynchronous : Bool)
  /-- `StmtIf`, stmt.rs:170-177 -/
  | if (span : Span) (condition : Expr) (consequent : Stmt) (alternate : Option Stmt)
  | labeled (span : Span) (label : Ident) (body : Stmt)
  | return (span : Span) (argument : Option Expr)
  /-- `StmtSwitch`, stmt.rs:205-211 -/
  | switch (span : Span) (discriminant : Expr) (cases : List SwitchCase)
  | throw (span : Span) (argument : Expr)
  /-- `StmtTry`, stmt.rs:187-194 -/
  | try (span : Span) (block : Block) (handler : Option CatchClause) (finalizer : Option Block)
  | variable (v : VarStmt)
  | while (span : Span) (test : Expr) (body : Stmt)
  | with (span : Span) (object : Expr) (body : Stmt)
  /-- `DeclClass`, class.rs:3-10 -/
  | classDecl (span : Span) (identifier : Ident) (superClass : Option Expr) (body : List MethodDef)
  /-- `DeclFunction`, stmt.rs:64-73 -/
  | functionDecl (span : Span) (asynchronous generator : Bool) (identifier : Ident) (parameters : FormalParams)
      (body : Body)
  /-- `DeclImport`, stmt.rs:297-305 -/
  | importDecl (span : Span) (defaultBinding namespaceBinding : Option Ident)
      (namedImports : Option (List NamedImport)) (source : LitString)
  | exportDecl (d : ExportDecl)

/-- `/repo/ast/src/stmt.rs:104-109` `StmtBlock`. -/
inductive Block where
  | mk (span : Span) (statements : List Stmt)

/-- `/repo/ast/src/stmt.rs:117-122` `StmtVariable`. -/
inductive VarStmt where
  | mk (span : Span) (kind : VarKind) (declarations : List VarDecl)

/-- `/repo/ast/src/stmt.rs:126-131` `VariableDeclaration`. -/
inductive VarDecl where
  | mk (span : Span) (pattern : BindingPattern) (initializer : Option Expr)

/-- `/repo/ast/src/stmt.rs:196-203` `CatchClause`. -/
inductive CatchClause where
  | mk (span : Span) (parameter : Option BindingPattern) (body : Block)

/-- `/repo/ast/src/stmt.rs:213-219` `SwitchCase`. -/
inductive SwitchCase where
  | mk (span : Span) (test : Option Expr) (consequent : List Stmt)

/-- `/repo/ast/src/stmt.rs:247-252` `ForInit`. -/
inductive ForInit where
  | expr (e : Expr)
  | declaration (v : VarStmt)

/-- `/repo/ast/src/stmt.rs:273-287` `ForDeclaration`, `ForBinding`. -/
inductive ForDecl where
  | expr (e : Expr)
  | pattern (p : AssignPattern)
  | declaration (span : Span) (kind : VarKind) (binding : BindingPattern)

/-- `/repo/ast/src/stmt.rs:320-375` `DeclExport` and the structs of its variants. -/
inductive ExportDecl where
  | decl (span : Span) (d : Stmt)
  | defaultExpr (span : Span) (e : Expr)
  | defaultDecl (span : Span) (d : Stmt)
  | named (span : Span) (namedExports : List NamedExport) (source : Option LitString)
  | namespace (span : Span) («alias» : Option Ident) (source : LitString)

end

/-- `/repo/ast/src/lib.rs:25-29` `SourceType`. -/
inductive SourceType where
  | module | script
deriving DecidableEq, Repr, Inhabited

/-- `/repo/ast/src/lib.rs:35-46` `Program`, `StmtList<Stmt>`. -/
structure Program where
  sourceType : SourceType
  span : Span
  directives : List LitString
  body : List Stmt

end Fajt
