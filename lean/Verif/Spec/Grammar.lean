import Verif.Spec.Static
/-!
# The grammar

`D E ctx g ts`: the tokens `ts` are derived from the grammar symbol `g`, which carries the tree that stands for them, in the
context `ctx`.  The context are the grammar's parameters (`[In, Yield, Await, Return]` of ECMAScript, the strictness of the
code and the kind of enclosing method).  Expressions carry a level of binding strength, 0 is the weakest:

| level | expressions |
|---|---|
| 0 | comma |
| 1 | assignment, arrow function, yield |
| 2 | conditional |
| 3 | `??` |
| 4 | `\|\|` |
| 5 | `&&` |
| 6 – 8 | `\|`, `^`, `&` |
| 9, 10 | equality, relations |
| 11 | shifts |
| 12, 13 | `+ -`, `* / %` |
| 14 | `**` |
| 15 | unary operators, await |
| 16 | `++`, `--` |
| 17 | optional chains |
| 18 | `new` without arguments, `super(..)`, `import(..)` |
| 19 | calls and what follows them |
| 20 | member accesses, `new` with arguments |
| 21 | primary expressions |

The grammar is the one that fajt implements.  It follows ECMAScript 2021; the rules in which it departs from the standard are
marked with "Departure".  The spans of the nodes are part of the rules: `Spans sp ts` says that `sp` goes from the start of
the first token of `ts` to the end of its last token.
-/
namespace Fajt.Spec
open Fajt

/-! ## Vocabulary -/

/-- The end of the last token. -/
def lastEnd (ts : List Token) : Nat := (ts.getLast?.map fun t => t.span.stop).getD 0

/-- The span from the start of the first to the end of the last token. -/
def Spans (sp : Span) (ts : List Token) : Prop :=
  ∃ a b, ts.head? = some a ∧ ts.getLast? = some b ∧ sp = ⟨a.span.start, b.span.stop⟩

/-- The text of a punctuator or keyword. -/
def symbol : TokVal → Option Str
  | .punct p => some p.asStr
  | .keyword k => some k.asStr
  | _ => none

/-- The token is an identifier name: an identifier or any keyword. -/
inductive NameTok : Token → Ident → Prop
  | ident {t : Token} {n : Str} : t.value = .ident n → NameTok t ⟨t.span, n⟩
  | keyword {t : Token} {k : Keyword} : t.value = .keyword k → NameTok t ⟨t.span, k.asStr⟩

/-- The token is an identifier: not a keyword, or a keyword that is no reserved word in this context (C18 lists them). -/
inductive IdentTok (ctx : Ctx) : Token → Ident → Prop
  | ident {t : Token} {n : Str} : t.value = .ident n → IdentTok ctx t ⟨t.span, n⟩
  | keyword {t : Token} {k : Keyword} : t.value = .keyword k → k.allowedAsIdent ctx.kw = true →
      IdentTok ctx t ⟨t.span, k.asStr⟩

/-- The binding strength of the binary operators. -/
def binaryLevel : BinaryOp → Nat
  | .exp => 14
  | .mul | .div | .mod => 13
  | .plus | .minus => 12
  | .shl | .shr | .ushr => 11
  | .lt | .gt | .le | .ge | .instanceof | .in_ => 10
  | .eq | .ne | .seq | .sne => 9
  | .bitAnd => 8
  | .bitXor => 7
  | .bitOr => 6

/-- The binding strength of the logical operators. -/
def logicalLevel : LogicalOp → Nat
  | .and => 5
  | .or => 4
  | .coalesce => 3

/-- Items (with their tokens) separated by commas: `Sep false items ts` when `ts` ends with an item, `Sep true items ts` when
another item may follow. -/
inductive Sep {α : Type} : Bool → List (α × List Token) → List Token → Prop
  | nil : Sep true [] []
  | item {ps : List (α × List Token)} {ts us : List Token} {a : α} : Sep true ps ts → Sep false (ps ++ [(a, us)]) (ts ++ us)
  | comma {ps : List (α × List Token)} {ts : List Token} {t : Token} : Sep false ps ts → t.value = .punct p!"," →
      Sep true ps (ts ++ [t])

/-- The same with holes: a comma where an item could be. -/
inductive SepHoles {α : Type} : Bool → List (Option (α × List Token)) → List Token → Prop
  | nil : SepHoles true [] []
  | item {ps : List (Option (α × List Token))} {ts us : List Token} {a : α} : SepHoles true ps ts →
      SepHoles false (ps ++ [some (a, us)]) (ts ++ us)
  | comma {ps : List (Option (α × List Token))} {ts : List Token} {t : Token} : SepHoles false ps ts →
      t.value = .punct p!"," → SepHoles true ps (ts ++ [t])
  | hole {ps : List (Option (α × List Token))} {ts : List Token} {t : Token} : SepHoles true ps ts →
      t.value = .punct p!"," → SepHoles true (ps ++ [none]) (ts ++ [t])

/-- The trees of a list of items. -/
def trees {α : Type} (ps : List (α × List Token)) : List α := ps.map (·.1)

/-- The tokens of a list of items without separators. -/
def toks {α : Type} (ps : List (α × List Token)) : List Token := (ps.map (·.2)).flatten

/-- The string parts of templates are omitted when they are empty. -/
def strPart (s : Str) : List TemplatePart := if s.isEmpty then [] else [.string s]

/-- `;` or nothing. -/
def OptSemi (us : List Token) : Prop := us = [] ∨ ∃ t : Token, t.value = .punct p!";" ∧ us = [t]

/-- What the grammar needs to know of the source: where a semicolon may be inserted (a property of the position after a
token), whether the source is a module, and where a statement that is not a directive can be read. -/
structure GEnv where
  asi : Nat → Prop
  isModule : Prop
  other : Nat → Prop

/-- The end of a statement with the tokens `ts`: `;`, or a place where a semicolon may be inserted. -/
def Semi (E : GEnv) (ts us : List Token) : Prop :=
  us = [] ∧ E.asi (lastEnd ts) ∨ ∃ t : Token, t.value = .punct p!";" ∧ us = [t]

/-- `e` is `new` of a `new` expression. -/
def nestedNew : Expr → Bool
  | .new _ (.new ..) _ _ => true
  | _ => false

/-- The token names a constructor: an identifier or a string. -/
def ctorTok (t : Token) : Bool :=
  match t.value with
  | .ident n => c!"constructor" = n
  | .lit (.string s) => c!"constructor" = s.value
  | _ => false

/-- The element of a class that begins with this token. -/
def elementCtx (ctx : Ctx) (hasSuper : Bool) (ts : List Token) : Ctx :=
  { ctx with inMethod := true, staticMethod := true, superCall := hasSuper && ts.head?.any ctorTok }

/-- The context of parameters and body of a function. -/
def insideFunction (ctx : Ctx) (generator asynchronous : Bool) : Ctx :=
  { ctx with yield := generator, await := asynchronous, inMethod := false, superCall := false }

/-- The context of the body of an arrow function.  Departure: the code inside is not strict, `return` and `yield` are
reset. -/
def insideArrow (ctx : Ctx) (asynchronous : Bool) : Ctx :=
  { in_ := ctx.in_, await := asynchronous, inMethod := ctx.inMethod, superCall := ctx.superCall,
    staticMethod := ctx.staticMethod }

/-- The statements behind the directives begin with a string literal only where (also) a statement that is not a directive can be
read. -/
def BehindDirectives (E : GEnv) (ts : List Token) : Prop :=
  ∀ t ∈ ts.head?, ∀ l, t.value = .lit (.string l) → E.other t.span.start

/-- The string of a statement that is a string literal. -/
inductive IsDirective : Stmt → LitString → Prop
  | intro {sp sp' : Span} {s : LitString} : IsDirective (.expr sp (.literal sp' (.string s))) s

/-- The statements are directives with these strings. -/
inductive Directives : List Stmt → List LitString → Prop
  | nil : Directives [] []
  | snoc {ss : List Stmt} {ds : List LitString} {s : Stmt} {d : LitString} : Directives ss ds → IsDirective s d →
      Directives (ss ++ [s]) (ds ++ [d])

/-- The context of the statements after a directive prologue. -/
def afterDirectives (ctx : Ctx) (ds : List LitString) : Ctx :=
  { ctx with strict := ctx.strict || ds.any (fun d => d.value = c!"use strict") }

/-- The name of a function or class declaration: an identifier, or nothing in a default export (then the tree has a nameless
identifier in front of the next token, `start`).  Departure: every declaration inside of one that is exported as default may
be nameless. -/
inductive DeclName (ctx : Ctx) (start : Nat) : Ident → List Token → Prop
  | ident {t : Token} {id : Ident} : IdentTok ctx t id → DeclName ctx start id [t]
  | none : ctx.default = true → DeclName ctx start ⟨⟨start, start⟩, []⟩ []

/-- The grammar symbols, with the tree they stand for. -/
inductive GNode where
  /-- an expression that binds at least as tightly as the level -/
  | expr (level : Nat) (e : Expr)
  /-- `new` without arguments, or a member expression -/
  | newE (e : Expr)
  /-- an optional chain -/
  | chain (e : Expr)
  | args (span : Span) (as : List Argument)
  | arg (a : Argument)
  | template (parts : List TemplatePart)
  | templateRest (parts : List TemplatePart)
  | memberProp (p : MemberProp)
  | optProp (optional : Bool) (p : MemberProp)
  | propName (n : PropName)
  | element (a : ArrayElement)
  | propDef (p : PropDef)
  /-- a method with its optional `static` -/
  | classElement (m : MethodDef)
  | method (m : MethodDef)
  | params (p : FormalParams)
  | body (b : Body)
  | arrowParams (bindingParameter : Bool) (p : FormalParams)
  | arrowBody (b : ArrowBody)
  | classTail (superClass : Option Expr) (body : List MethodDef)
  | binding (p : BindingPattern)
  | bindingProp (p : BindingProp)
  | bindingElement (e : BindingElement)
  | initializer (e : Option Expr)
  | assignPattern (p : AssignPattern)
  | target (t : PatternOrExpr)
  | assignElement (e : AssignElement)
  | assignProp (p : AssignProp)
  | varDecl (v : VarDecl)
  | varDecls (vs : List VarDecl)
  | optExpr (e : Option Expr)
  | stmt (s : Stmt)
  | decl (s : Stmt)
  /-- a statement or declaration -/
  | item (s : Stmt)
  | block (b : Block)
  | catchClause (c : CatchClause)
  | case (c : SwitchCase)
  | forInit (f : ForInit)
  | forDecl (f : ForDecl)

/-- A named import: `name` or `name as alias`. -/
inductive ImportSpec (ctx : Ctx) : NamedImport → List Token → Prop
  | plain {t : Token} {sp : Span} {id : Ident} : NameTok t id → Spans sp [t] → ImportSpec ctx ⟨sp, id, none⟩ [t]
  | renamed {t a u : Token} {sp : Span} {id id' : Ident} : NameTok t id → a.value = .keyword k!"as" → IdentTok ctx u id' →
      Spans sp [t, a, u] → ImportSpec ctx ⟨sp, id, some id'⟩ [t, a, u]

/-- A named export: `name` or `name as alias`. -/
inductive ExportSpec : NamedExport → List Token → Prop
  | plain {t : Token} {sp : Span} {id : Ident} : NameTok t id → Spans sp [t] → ExportSpec ⟨sp, id, none⟩ [t]
  | renamed {t a u : Token} {sp : Span} {id id' : Ident} : NameTok t id → a.value = .keyword k!"as" → NameTok u id' →
      Spans sp [t, a, u] → ExportSpec ⟨sp, id', some id⟩ [t, a, u]

/-- `{ a, b as c }` of an import. -/
inductive NamedImports (ctx : Ctx) : List NamedImport → List Token → Prop
  | intro {lb rb : Token} {b : Bool} {ps : List (NamedImport × List Token)} {ts : List Token} :
      lb.value = .punct p!"{" → (∀ p ∈ ps, ImportSpec ctx p.1 p.2) → Sep b ps ts → rb.value = .punct p!"}" →
      NamedImports ctx (trees ps) (lb :: ts ++ [rb])

/-- `{ a, b as c }` of an export. -/
inductive NamedExports : List NamedExport → List Token → Prop
  | intro {lb rb : Token} {b : Bool} {ps : List (NamedExport × List Token)} {ts : List Token} :
      lb.value = .punct p!"{" → (∀ p ∈ ps, ExportSpec p.1 p.2) → Sep b ps ts → rb.value = .punct p!"}" →
      NamedExports (trees ps) (lb :: ts ++ [rb])

/-- `* as name` or `{ .. }`. -/
inductive ImportRest (ctx : Ctx) : Option Ident → Option (List NamedImport) → List Token → Prop
  | namespace {st a u : Token} {id : Ident} : st.value = .punct p!"*" → a.value = .keyword k!"as" → IdentTok ctx u id →
      ImportRest ctx (some id) none [st, a, u]
  | named {is : List NamedImport} {ts : List Token} : NamedImports ctx is ts → ImportRest ctx none (some is) ts

/-- What stands between `import` and `from`. -/
inductive ImportClause (ctx : Ctx) : Option Ident → Option Ident → Option (List NamedImport) → List Token → Prop
  | default {t : Token} {id : Ident} : IdentTok ctx t id → ImportClause ctx (some id) none none [t]
  | both {t c : Token} {id : Ident} {ns : Option Ident} {is : Option (List NamedImport)} {ts : List Token} :
      IdentTok ctx t id → c.value = .punct p!"," → ImportRest ctx ns is ts → ImportClause ctx (some id) ns is (t :: c :: ts)
  | rest {ns : Option Ident} {is : Option (List NamedImport)} {ts : List Token} :
      ImportRest ctx ns is ts → ImportClause ctx none ns is ts

/-! ## The rules -/

/-- Derivations. -/
inductive D (E : GEnv) : Ctx → GNode → List Token → Prop where
  /-- What binds tighter may stand where something weaker is allowed. -/
  | weaken {ctx : Ctx} {l k : Nat} {e : Expr} {ts : List Token} : D E ctx (.expr l e) ts → k ≤ l → D E ctx (.expr k e) ts
  -- Primary expressions
  | this {ctx : Ctx} {t : Token} : t.value = .keyword k!"this" → D E ctx (.expr 21 (.this t.span)) [t]
  | identRef {ctx : Ctx} {t : Token} {id : Ident} : IdentTok ctx t id → D E ctx (.expr 21 (.ident id)) [t]
  | null {ctx : Ctx} {t : Token} : t.value = .keyword k!"null" → D E ctx (.expr 21 (.literal t.span .null)) [t]
  | true {ctx : Ctx} {t : Token} : t.value = .keyword k!"true" → D E ctx (.expr 21 (.literal t.span (.boolean true))) [t]
  | false {ctx : Ctx} {t : Token} : t.value = .keyword k!"false" →
      D E ctx (.expr 21 (.literal t.span (.boolean false))) [t]
  | string {ctx : Ctx} {t : Token} {s : LitString} : t.value = .lit (.string s) →
      D E ctx (.expr 21 (.literal t.span (.string s))) [t]
  | number {ctx : Ctx} {t : Token} {s : Str} : t.value = .lit (.number s) →
      D E ctx (.expr 21 (.literal t.span (.number s))) [t]
  | regexp {ctx : Ctx} {t : Token} {s : Str} : t.value = .lit (.regexp s) →
      D E ctx (.expr 21 (.literal t.span (.regexp s))) [t]
  | templateE {ctx : Ctx} {sp : Span} {ps : List TemplatePart} {ts : List Token} :
      D E ctx (.template ps) ts → Spans sp ts → D E ctx (.expr 21 (.literal sp (.template ps))) ts
  | array {ctx : Ctx} {lb rb : Token} {b : Bool} {sp : Span} {ps : List (Option (ArrayElement × List Token))}
      {ts : List Token} : lb.value = .punct p!"[" → (∀ p, some p ∈ ps → D E ctx (.element p.1) p.2) → SepHoles b ps ts →
      rb.value = .punct p!"]" → Spans sp (lb :: ts ++ [rb]) →
      D E ctx (.expr 21 (.literal sp (.array (ps.map fun | none => .elision | some p => p.1)))) (lb :: ts ++ [rb])
  | elementExpr {ctx : Ctx} {e : Expr} {ts : List Token} : D E ctx (.expr 1 e) ts → D E ctx (.element (.expr e)) ts
  | elementSpread {ctx : Ctx} {t : Token} {e : Expr} {ts : List Token} : t.value = .punct p!"..." →
      D E ctx (.expr 1 e) ts → D E ctx (.element (.spread e)) (t :: ts)
  | object {ctx : Ctx} {lb rb : Token} {b : Bool} {sp : Span} {ps : List (PropDef × List Token)}
      {ts : List Token} : lb.value = .punct p!"{" → (∀ p ∈ ps, D E ctx (.propDef p.1) p.2) → Sep b ps ts →
      rb.value = .punct p!"}" → Spans sp (lb :: ts ++ [rb]) →
      D E ctx (.expr 21 (.literal sp (.object (trees ps)))) (lb :: ts ++ [rb])
  | propIdent {ctx : Ctx} {t : Token} {id : Ident} : IdentTok ctx t id → D E ctx (.propDef (.identRef id)) [t]
  | propSpread {ctx : Ctx} {t : Token} {e : Expr} {ts : List Token} : t.value = .punct p!"..." →
      D E ctx (.expr 1 e) ts → D E ctx (.propDef (.spread e)) (t :: ts)
  | propNamed {ctx : Ctx} {c : Token} {n : PropName} {e : Expr} {sp : Span} {ts us : List Token} :
      D E ctx (.propName n) ts → c.value = .punct p!":" → D E ctx (.expr 1 e) us → Spans sp (ts ++ c :: us) →
      D E ctx (.propDef (.named sp n e)) (ts ++ c :: us)
  | propMethod {ctx : Ctx} {m : MethodDef} {ts : List Token} :
      D E { ctx with inMethod := Bool.true, staticMethod := Bool.false, superCall := Bool.false } (.classElement m) ts →
      (∀ t ∈ ts.head?, t.value ≠ .punct p!"[") → D E ctx (.propDef (.method m)) ts
  /-- Departure: the context of a method with a computed name is that of the object literal. -/
  | propComputedMethod {ctx : Ctx} {n : Expr} {sp : Span} {ps : FormalParams} {b : Body} {g a : Bool} {ts : List Token} :
      D E ctx (.method (.mk sp (.computed n) .method ps b g a Bool.false)) ts →
      D E ctx (.propDef (.method (.mk sp (.computed n) .method ps b g a Bool.false))) ts
  | nameIdent {ctx : Ctx} {t : Token} {id : Ident} : NameTok t id → D E ctx (.propName (.ident id)) [t]
  | nameString {ctx : Ctx} {t : Token} {s : LitString} : t.value = .lit (.string s) → D E ctx (.propName (.string s)) [t]
  | nameNumber {ctx : Ctx} {t : Token} {s : Str} : t.value = .lit (.number s) → D E ctx (.propName (.number s)) [t]
  | nameComputed {ctx : Ctx} {lb rb : Token} {e : Expr} {ts : List Token} : lb.value = .punct p!"[" →
      D E ctx (.expr 1 e) ts → rb.value = .punct p!"]" → D E ctx (.propName (.computed e)) (lb :: ts ++ [rb])
  | paren {ctx : Ctx} {lp rp : Token} {e : Expr} {sp : Span} {ts : List Token} : lp.value = .punct p!"(" →
      D E { ctx with in_ := Bool.true } (.expr 0 e) ts → rp.value = .punct p!")" → Spans sp (lp :: ts ++ [rp]) →
      D E ctx (.expr 21 (.paren sp e)) (lp :: ts ++ [rp])
  /-- `star` is the optional `*`, `nm` the optional name. -/
  | function {ctx : Ctx} {f : Token} {generator : Bool} {id : Option Ident} {ps : FormalParams} {b : Body} {sp : Span}
      {star nm ts us : List Token} : f.value = .keyword k!"function" →
      (if generator then ∃ s : Token, s.value = .punct p!"*" ∧ star = [s] else star = []) →
      (match id with | some id => ∃ t, IdentTok (insideFunction ctx generator Bool.false) t id ∧ nm = [t] | none => nm = []) →
      D E (insideFunction ctx generator Bool.false) (.params ps) ts →
      D E (insideFunction ctx generator Bool.false) (.body b) us → Spans sp (f :: star ++ nm ++ ts ++ us) →
      D E ctx (.expr 21 (.function sp Bool.false generator id ps b)) (f :: star ++ nm ++ ts ++ us)
  | asyncFunction {ctx : Ctx} {a f : Token} {generator : Bool} {id : Option Ident} {ps : FormalParams} {b : Body} {sp : Span}
      {star nm ts us : List Token} : a.value = .keyword k!"async" → f.value = .keyword k!"function" → f.fol = Bool.false →
      (if generator then ∃ s : Token, s.value = .punct p!"*" ∧ star = [s] else star = []) →
      (match id with | some id => ∃ t, IdentTok (insideFunction ctx generator Bool.true) t id ∧ nm = [t] | none => nm = []) →
      D E (insideFunction ctx generator Bool.true) (.params ps) ts →
      D E (insideFunction ctx generator Bool.true) (.body b) us → Spans sp (a :: f :: star ++ nm ++ ts ++ us) →
      D E ctx (.expr 21 (.function sp Bool.true generator id ps b)) (a :: f :: star ++ nm ++ ts ++ us)
  | classE {ctx : Ctx} {c : Token} {id : Option Ident} {sup : Option Expr} {ms : List MethodDef} {sp : Span}
      {nm ts : List Token} : c.value = .keyword k!"class" →
      (match id with | some id => ∃ t, IdentTok { ctx with strict := Bool.true } t id ∧ nm = [t] | none => nm = []) →
      D E { ctx with strict := Bool.true } (.classTail sup ms) ts → Spans sp (c :: nm ++ ts) →
      D E ctx (.expr 21 (.classE sp id sup ms)) (c :: nm ++ ts)
  -- Templates
  | templatePlain {ctx : Ctx} {t : Token} {s : Str} : t.value = .lit (.template s) → D E ctx (.template [.string s]) [t]
  | templateHead {ctx : Ctx} {t : Token} {s : Str} {ps : List TemplatePart} {ts : List Token} : t.value = .templateHead s →
      D E ctx (.templateRest ps) ts → D E ctx (.template (strPart s ++ ps)) (t :: ts)
  | templateMiddle {ctx : Ctx} {t : Token} {s : Str} {e : Expr} {ps : List TemplatePart} {ts us : List Token} :
      D E ctx (.expr 0 e) ts → t.value = .templateMiddle s → D E ctx (.templateRest ps) us →
      D E ctx (.templateRest (.expr e :: strPart s ++ ps)) (ts ++ t :: us)
  | templateTail {ctx : Ctx} {t : Token} {s : Str} {e : Expr} {ts : List Token} :
      D E ctx (.expr 0 e) ts → t.value = .templateTail s → D E ctx (.templateRest (.expr e :: strPart s)) (ts ++ [t])
  -- Member and call expressions
  | member {ctx : Ctx} {l : Nat} {e : Expr} {p : MemberProp} {sp : Span} {ts us : List Token} : l = 19 ∨ l = 20 →
      D E ctx (.expr l e) ts → D E ctx (.memberProp p) us → Spans sp (ts ++ us) →
      D E ctx (.expr l (.member sp (.expr e) p)) (ts ++ us)
  | superMember {ctx : Ctx} {t : Token} {p : MemberProp} {sp : Span} {us : List Token} : ctx.inMethod = Bool.true →
      t.value = .keyword k!"super" → D E ctx (.memberProp p) us → Spans sp (t :: us) →
      D E ctx (.expr 20 (.member sp (.super t.span) p)) (t :: us)
  | memberName {ctx : Ctx} {d t : Token} {id : Ident} : d.value = .punct p!"." → NameTok t id →
      D E ctx (.memberProp (.ident id)) [d, t]
  | memberComputed {ctx : Ctx} {lb rb : Token} {e : Expr} {ts : List Token} : lb.value = .punct p!"[" →
      D E { ctx with in_ := Bool.true } (.expr 0 e) ts → rb.value = .punct p!"]" →
      D E ctx (.memberProp (.expr e)) (lb :: ts ++ [rb])
  | tagged {ctx : Ctx} {e : Expr} {ps : List TemplatePart} {sp : Span} {ts us : List Token} :
      D E ctx (.expr 20 e) ts → D E ctx (.template ps) us → Spans sp (ts ++ us) →
      D E ctx (.expr 20 (.tagged sp e ps)) (ts ++ us)
  /-- Departure: after a call only templates without substitutions are allowed. -/
  | taggedCall {ctx : Ctx} {e : Expr} {t : Token} {s : Str} {sp : Span} {ts : List Token} :
      D E ctx (.expr 19 e) ts → t.value = .lit (.template s) → Spans sp (ts ++ [t]) →
      D E ctx (.expr 19 (.tagged sp e [.string s])) (ts ++ [t])
  | newTarget {ctx : Ctx} {n d t : Token} {id : Ident} {sp : Span} : n.value = .keyword k!"new" → d.value = .punct p!"." →
      IdentTok ctx t id → id.name = c!"target" → Spans sp [n, d, t] →
      D E ctx (.expr 20 (.metaProp sp ⟨n.span, c!"new"⟩ id)) [n, d, t]
  | importMeta {ctx : Ctx} {n d t : Token} {id : Ident} {sp : Span} : n.value = .keyword k!"import" → d.value = .punct p!"." →
      IdentTok ctx t id → id.name = c!"meta" → Spans sp [n, d, t] →
      D E ctx (.expr 20 (.metaProp sp ⟨n.span, c!"import"⟩ id)) [n, d, t]
  | newArgs {ctx : Ctx} {n : Token} {e : Expr} {sp asp : Span} {as : List Argument} {ts us : List Token} :
      n.value = .keyword k!"new" → D E ctx (.newE e) ts → D E ctx (.args asp as) us → Spans sp (n :: ts ++ us) →
      D E ctx (.expr 20 (.new sp e (some asp) as)) (n :: ts ++ us)
  | newMember {ctx : Ctx} {e : Expr} {ts : List Token} : D E ctx (.expr 20 e) ts → D E ctx (.newE e) ts
  | newPlain {ctx : Ctx} {n : Token} {e : Expr} {sp : Span} {ts : List Token} :
      n.value = .keyword k!"new" → D E ctx (.newE e) ts → Spans sp (n :: ts) → D E ctx (.newE (.new sp e none [])) (n :: ts)
  | newLhs {ctx : Ctx} {e : Expr} {ts : List Token} : D E ctx (.newE e) ts → D E ctx (.expr 18 e) ts
  | call {ctx : Ctx} {e : Expr} {sp asp : Span} {as : List Argument} {ts us : List Token} :
      D E ctx (.expr 19 e) ts → D E ctx (.args asp as) us → Spans sp (ts ++ us) →
      D E ctx (.expr 19 (.call sp (.expr e) asp as)) (ts ++ us)
  /-- Departure: nothing but an optional chain may follow. -/
  | superCall {ctx : Ctx} {t : Token} {sp asp : Span} {as : List Argument} {us : List Token} : ctx.superCall = Bool.true →
      t.value = .keyword k!"super" → D E ctx (.args asp as) us → Spans sp (t :: us) →
      D E ctx (.expr 18 (.call sp .super asp as)) (t :: us)
  /-- Departure: nothing but an optional chain may follow. -/
  | importCall {ctx : Ctx} {t lp rp : Token} {e : Expr} {sp asp : Span} {ts : List Token} :
      t.value = .keyword k!"import" → lp.value = .punct p!"(" → D E ctx (.expr 1 e) ts → rp.value = .punct p!")" →
      Spans asp (lp :: ts ++ [rp]) → Spans sp (t :: lp :: ts ++ [rp]) →
      D E ctx (.expr 18 (.call sp .import asp [.expr e])) (t :: lp :: ts ++ [rp])
  | args {ctx : Ctx} {lp rp : Token} {b : Bool} {sp : Span} {ps : List (Argument × List Token)} {ts : List Token} :
      lp.value = .punct p!"(" → (∀ p ∈ ps, D E { ctx with in_ := Bool.true } (.arg p.1) p.2) → Sep b ps ts →
      rp.value = .punct p!")" → Spans sp (lp :: ts ++ [rp]) → D E ctx (.args sp (trees ps)) (lp :: ts ++ [rp])
  | argExpr {ctx : Ctx} {e : Expr} {ts : List Token} : D E ctx (.expr 1 e) ts → D E ctx (.arg (.expr e)) ts
  | argSpread {ctx : Ctx} {t : Token} {e : Expr} {ts : List Token} : t.value = .punct p!"..." →
      D E ctx (.expr 1 e) ts → D E ctx (.arg (.spread e)) (t :: ts)
  -- Optional chains
  /-- Departure: `new` without arguments may be the start of an optional chain, but not `new new`. -/
  | chainFirstMember {ctx : Ctx} {e : Expr} {p : MemberProp} {sp : Span} {ts us : List Token} : D E ctx (.expr 18 e) ts →
      nestedNew e = Bool.false → D E ctx (.optProp Bool.true p) us → Spans sp (ts ++ us) →
      D E ctx (.chain (.optMember sp e p Bool.true)) (ts ++ us)
  | chainFirstCall {ctx : Ctx} {q : Token} {e : Expr} {sp asp : Span} {as : List Argument} {ts us : List Token} :
      D E ctx (.expr 18 e) ts → nestedNew e = Bool.false → q.value = .punct p!"?." → D E ctx (.args asp as) us →
      Spans sp (ts ++ q :: us) → D E ctx (.chain (.optCall sp e asp as Bool.true)) (ts ++ q :: us)
  | chainMember {ctx : Ctx} {optional : Bool} {e : Expr} {p : MemberProp} {sp : Span} {ts us : List Token} :
      D E ctx (.chain e) ts → D E ctx (.optProp optional p) us → Spans sp (ts ++ us) →
      D E ctx (.chain (.optMember sp e p optional)) (ts ++ us)
  | chainOptCall {ctx : Ctx} {q : Token} {e : Expr} {sp asp : Span} {as : List Argument} {ts us : List Token} :
      D E ctx (.chain e) ts → q.value = .punct p!"?." → D E ctx (.args asp as) us →
      Spans sp (ts ++ q :: us) → D E ctx (.chain (.optCall sp e asp as Bool.true)) (ts ++ q :: us)
  | chainCall {ctx : Ctx} {e : Expr} {sp asp : Span} {as : List Argument} {ts us : List Token} :
      D E ctx (.chain e) ts → D E ctx (.args asp as) us →
      Spans sp (ts ++ us) → D E ctx (.chain (.optCall sp e asp as Bool.false)) (ts ++ us)
  | chainExpr {ctx : Ctx} {e : Expr} {ts : List Token} : D E ctx (.chain e) ts → D E ctx (.expr 17 e) ts
  /-- Departure: the name must be an identifier; keywords are not allowed. -/
  | optName {ctx : Ctx} {q t : Token} {id : Ident} : q.value = .punct p!"?." → IdentTok ctx t id →
      D E ctx (.optProp Bool.true (.ident id)) [q, t]
  | optDotName {ctx : Ctx} {d t : Token} {id : Ident} : d.value = .punct p!"." → IdentTok ctx t id →
      D E ctx (.optProp Bool.false (.ident id)) [d, t]
  | optComputed {ctx : Ctx} {q lb rb : Token} {e : Expr} {ts : List Token} : q.value = .punct p!"?." →
      lb.value = .punct p!"[" → D E ctx (.expr 0 e) ts → rb.value = .punct p!"]" →
      D E ctx (.optProp Bool.true (.expr e)) (q :: lb :: ts ++ [rb])
  | optIndex {ctx : Ctx} {lb rb : Token} {e : Expr} {ts : List Token} : lb.value = .punct p!"[" →
      D E ctx (.expr 0 e) ts → rb.value = .punct p!"]" → D E ctx (.optProp Bool.false (.expr e)) (lb :: ts ++ [rb])
  -- Operators
  | prefixUpdate {ctx : Ctx} {t : Token} {op : UpdateOp} {e : Expr} {sp : Span} {ts : List Token} :
      symbol t.value = some op.asStr → D E ctx (.expr 15 e) ts → TargetOK ctx.strict e → Spans sp (t :: ts) →
      D E ctx (.expr 16 (.update sp op Bool.true e)) (t :: ts)
  /-- No line terminator before the operator. -/
  | postfixUpdate {ctx : Ctx} {t : Token} {op : UpdateOp} {e : Expr} {sp : Span} {ts : List Token} :
      D E ctx (.expr 17 e) ts → TargetOK ctx.strict e → symbol t.value = some op.asStr → t.fol = Bool.false →
      Spans sp (ts ++ [t]) → D E ctx (.expr 16 (.update sp op Bool.false e)) (ts ++ [t])
  | unary {ctx : Ctx} {t : Token} {op : UnaryOp} {e : Expr} {sp : Span} {ts : List Token} :
      symbol t.value = some op.asStr → D E ctx (.expr 15 e) ts → (op = .delete → DeleteOK ctx.strict e) →
      Spans sp (t :: ts) → D E ctx (.expr 15 (.unary sp op e)) (t :: ts)
  | await {ctx : Ctx} {t : Token} {e : Expr} {sp : Span} {ts : List Token} : ctx.await = Bool.true →
      t.value = .keyword k!"await" → D E ctx (.expr 15 e) ts → Spans sp (t :: ts) →
      D E ctx (.expr 15 (.await sp e)) (t :: ts)
  /-- Departure: `**` groups to the left and its operands may be any unary expressions. -/
  | binary {ctx : Ctx} {t : Token} {op : BinaryOp} {a b : Expr} {sp : Span} {ts us : List Token} :
      D E ctx (.expr (binaryLevel op) a) ts → symbol t.value = some op.asStr → (op = .in_ → ctx.in_ = Bool.true) →
      D E ctx (.expr (binaryLevel op + 1) b) us → Spans sp (ts ++ t :: us) →
      D E ctx (.expr (binaryLevel op) (.binary sp op a b)) (ts ++ t :: us)
  /-- Departure: `??` may be mixed with `||` and `&&`. -/
  | logical {ctx : Ctx} {t : Token} {op : LogicalOp} {a b : Expr} {sp : Span} {ts us : List Token} :
      D E ctx (.expr (logicalLevel op) a) ts → symbol t.value = some op.asStr →
      D E ctx (.expr (logicalLevel op + 1) b) us → Spans sp (ts ++ t :: us) →
      D E ctx (.expr (logicalLevel op) (.logical sp op a b)) (ts ++ t :: us)
  /-- Departure: `in` is not re-enabled between `?` and `:`. -/
  | conditional {ctx : Ctx} {q c : Token} {a b d : Expr} {sp : Span} {ts us vs : List Token} :
      D E ctx (.expr 3 a) ts → q.value = .punct p!"?" → D E ctx (.expr 1 b) us → c.value = .punct p!":" →
      D E ctx (.expr 1 d) vs → Spans sp (ts ++ q :: us ++ c :: vs) →
      D E ctx (.expr 2 (.conditional sp a b d)) (ts ++ q :: us ++ c :: vs)
  | assign {ctx : Ctx} {t : Token} {op : AssignOp} {a b : Expr} {sp : Span} {ts us : List Token} :
      D E ctx (.expr 17 a) ts → TargetOK ctx.strict a → symbol t.value = some op.asStr →
      D E ctx (.expr 1 b) us → Spans sp (ts ++ t :: us) →
      D E ctx (.expr 1 (.assign sp op (.expr a) b)) (ts ++ t :: us)
  | assignPattern {ctx : Ctx} {t : Token} {a : AssignPattern} {b : Expr} {sp : Span} {ts us : List Token} :
      D E ctx (.assignPattern a) ts → t.value = .punct p!"=" →
      D E ctx (.expr 1 b) us → Spans sp (ts ++ t :: us) →
      D E ctx (.expr 1 (.assign sp .assign (.pattern a) b)) (ts ++ t :: us)
  | yieldNone {ctx : Ctx} {t : Token} {sp : Span} : ctx.yield = Bool.true → t.value = .keyword k!"yield" → Spans sp [t] →
      D E ctx (.expr 1 (.yield sp none Bool.false)) [t]
  /-- No line terminator after `yield`. -/
  | yield {ctx : Ctx} {t : Token} {e : Expr} {sp : Span} {ts : List Token} : ctx.yield = Bool.true →
      t.value = .keyword k!"yield" → D E ctx (.expr 1 e) ts → (∀ u ∈ ts.head?, u.fol = Bool.false) → Spans sp (t :: ts) →
      D E ctx (.expr 1 (.yield sp (some e) Bool.false)) (t :: ts)
  | yieldStar {ctx : Ctx} {t s : Token} {e : Expr} {sp : Span} {ts : List Token} : ctx.yield = Bool.true →
      t.value = .keyword k!"yield" → s.value = .punct p!"*" → s.fol = Bool.false → D E ctx (.expr 1 e) ts →
      Spans sp (t :: s :: ts) → D E ctx (.expr 1 (.yield sp (some e) Bool.true)) (t :: s :: ts)
  /-- No line terminator before `=>`. -/
  | arrow {ctx : Ctx} {t : Token} {bp : Bool} {ps : FormalParams} {b : ArrowBody} {sp : Span} {ts us : List Token} :
      D E ctx (.arrowParams bp ps) ts → t.value = .punct p!"=>" → t.fol = Bool.false →
      D E (insideArrow ctx Bool.false) (.arrowBody b) us → Spans sp (ts ++ t :: us) →
      D E ctx (.expr 1 (.arrow sp Bool.false bp ps b)) (ts ++ t :: us)
  /-- Departure: a line terminator is allowed after `async`. -/
  | asyncArrow {ctx : Ctx} {a t : Token} {bp : Bool} {ps : FormalParams} {b : ArrowBody} {sp : Span} {ts us : List Token} :
      a.value = .keyword k!"async" → D E ctx (.arrowParams bp ps) ts → t.value = .punct p!"=>" → t.fol = Bool.false →
      D E (insideArrow ctx Bool.true) (.arrowBody b) us → Spans sp (a :: ts ++ t :: us) →
      D E ctx (.expr 1 (.arrow sp Bool.true bp ps b)) (a :: ts ++ t :: us)
  | arrowIdent {ctx : Ctx} {t : Token} {id : Ident} {sp : Span} : IdentTok ctx t id → Spans sp [t] →
      D E ctx (.arrowParams Bool.true (.mk sp [.mk sp (.ident id) none] none)) [t]
  | arrowList {ctx : Ctx} {ps : FormalParams} {ts : List Token} : D E ctx (.params ps) ts →
      D E ctx (.arrowParams Bool.false ps) ts
  | arrowExpr {ctx : Ctx} {e : Expr} {ts : List Token} : D E ctx (.expr 1 e) ts →
      (∀ t ∈ ts.head?, t.value ≠ .punct p!"{") → D E ctx (.arrowBody (.expr e)) ts
  | arrowBlock {ctx : Ctx} {b : Body} {ts : List Token} : D E ctx (.body b) ts → D E ctx (.arrowBody (.body b)) ts
  | comma {ctx : Ctx} {sp : Span} {ps : List (Expr × List Token)} {ts : List Token} :
      (∀ p ∈ ps, D E ctx (.expr 1 p.1) p.2) → Sep Bool.false ps ts → 2 ≤ ps.length → Spans sp ts →
      D E ctx (.expr 0 (.sequence sp (trees ps))) ts
  -- Functions, methods and classes
  | params {ctx : Ctx} {lp rp : Token} {b : Bool} {sp : Span} {ps : List (BindingElement × List Token)} {ts : List Token} :
      lp.value = .punct p!"(" → (∀ p ∈ ps, D E ctx (.bindingElement p.1) p.2) → Sep b ps ts →
      rp.value = .punct p!")" → Spans sp (lp :: ts ++ [rp]) →
      D E ctx (.params (.mk sp (trees ps) none)) (lp :: ts ++ [rp])
  | paramsRest {ctx : Ctx} {lp d rp : Token} {sp : Span} {ps : List (BindingElement × List Token)} {rest : BindingPattern}
      {ts us : List Token} :
      lp.value = .punct p!"(" → (∀ p ∈ ps, D E ctx (.bindingElement p.1) p.2) → Sep Bool.true ps ts →
      d.value = .punct p!"..." → D E ctx (.binding rest) us → rp.value = .punct p!")" →
      Spans sp (lp :: ts ++ d :: us ++ [rp]) →
      D E ctx (.params (.mk sp (trees ps) (some rest))) (lp :: ts ++ d :: us ++ [rp])
  /-- `{ directives statements }`: the directives are read in the context of the function, the statements after them are
  strict if one of the directives says so, and may return. -/
  | body {ctx : Ctx} {lb rb : Token} {sp : Span} {ds : List LitString} {ps qs : List (Stmt × List Token)} :
      lb.value = .punct p!"{" → (∀ p ∈ ps, D E ctx (.item p.1) p.2) → Directives (trees ps) ds →
      (∀ q ∈ qs, D E { afterDirectives ctx ds with return_ := Bool.true } (.item q.1) q.2) →
      BehindDirectives E (toks qs) → rb.value = .punct p!"}" → Spans sp (lb :: toks ps ++ toks qs ++ [rb]) →
      D E ctx (.body (.mk sp ds (trees qs))) (lb :: toks ps ++ toks qs ++ [rb])
  | elementPlain {ctx : Ctx} {n : PropName} {k : MethodKind} {sp : Span} {ps : FormalParams} {b : Body} {g a : Bool}
      {ts : List Token} : D E ctx (.method (.mk sp n k ps b g a Bool.false)) ts →
      D E ctx (.classElement (.mk sp n k ps b g a Bool.false)) ts
  /-- The span of a static method does not include `static`. -/
  | elementStatic {ctx : Ctx} {t : Token} {n : PropName} {k : MethodKind} {sp : Span} {ps : FormalParams} {b : Body}
      {g a : Bool} {ts : List Token} : ctx.staticMethod = Bool.true → t.value = .keyword k!"static" →
      D E ctx (.method (.mk sp n k ps b g a Bool.true)) ts →
      D E ctx (.classElement (.mk sp n k ps b g a Bool.true)) (t :: ts)
  /-- Departure: a plain method counts as a generator (async) when it stands in the code of a generator (async function). -/
  | method {ctx : Ctx} {n : PropName} {ps : FormalParams} {b : Body} {sp bsp : Span} {ds : List LitString} {ss : List Stmt}
      {isStatic : Bool} {ns ts us : List Token} :
      D E ctx (.propName n) ns → D E { ctx with yield := Bool.false } (.params ps) ts → D E ctx (.body b) us →
      b = .mk bsp ds ss → ParamsOK .method ps ds → Spans sp (ns ++ ts ++ us) →
      D E ctx (.method (.mk sp n .method ps b ctx.yield ctx.await isStatic)) (ns ++ ts ++ us)
  | generatorMethod {ctx : Ctx} {s : Token} {n : PropName} {ps : FormalParams} {b : Body} {sp bsp : Span}
      {ds : List LitString} {ss : List Stmt} {isStatic : Bool} {ns ts us : List Token} : s.value = .punct p!"*" →
      D E ctx (.propName n) ns → D E { ctx with yield := Bool.false, await := Bool.false } (.params ps) ts →
      D E { ctx with yield := Bool.true, await := Bool.false } (.body b) us →
      b = .mk bsp ds ss → ParamsOK .method ps ds → Spans sp (s :: ns ++ ts ++ us) →
      D E ctx (.method (.mk sp n .method ps b Bool.true Bool.false isStatic)) (s :: ns ++ ts ++ us)
  /-- `star` is the optional `*`; no line terminator after `async`. -/
  | asyncMethod {ctx : Ctx} {s : Token} {g : Bool} {n : PropName} {ps : FormalParams} {b : Body} {sp bsp : Span}
      {ds : List LitString} {ss : List Stmt} {isStatic : Bool} {star ns ts us : List Token} :
      s.value = .keyword k!"async" → (if g then ∃ s : Token, s.value = .punct p!"*" ∧ star = [s] else star = []) →
      D E ctx (.propName n) ns → (∀ t ∈ (star ++ ns).head?, t.fol = Bool.false) →
      D E { ctx with yield := Bool.false, await := Bool.true } (.params ps) ts →
      D E { ctx with yield := g, await := Bool.true } (.body b) us →
      b = .mk bsp ds ss → ParamsOK .method ps ds → Spans sp (s :: star ++ ns ++ ts ++ us) →
      D E ctx (.method (.mk sp n .method ps b g Bool.true isStatic)) (s :: star ++ ns ++ ts ++ us)
  | getter {ctx : Ctx} {s : Token} {n : PropName} {ps : FormalParams} {b : Body} {sp bsp : Span}
      {ds : List LitString} {ss : List Stmt} {isStatic : Bool} {ns ts us : List Token} : s.value = .keyword k!"get" →
      D E ctx (.propName n) ns → D E { ctx with yield := Bool.false } (.params ps) ts → D E ctx (.body b) us →
      b = .mk bsp ds ss → ParamsOK .get ps ds → Spans sp (s :: ns ++ ts ++ us) →
      D E ctx (.method (.mk sp n .get ps b ctx.yield ctx.await isStatic)) (s :: ns ++ ts ++ us)
  | setter {ctx : Ctx} {s : Token} {n : PropName} {ps : FormalParams} {b : Body} {sp bsp : Span}
      {ds : List LitString} {ss : List Stmt} {isStatic : Bool} {ns ts us : List Token} : s.value = .keyword k!"set" →
      D E ctx (.propName n) ns → D E { ctx with yield := Bool.false } (.params ps) ts → D E ctx (.body b) us →
      b = .mk bsp ds ss → ParamsOK .set ps ds → Spans sp (s :: ns ++ ts ++ us) →
      D E ctx (.method (.mk sp n .set ps b ctx.yield ctx.await isStatic)) (s :: ns ++ ts ++ us)
  /-- A class body: methods and `;`. -/
  | classTail {ctx : Ctx} {lb rb : Token} {ps : List (Option MethodDef × List Token)} : lb.value = .punct p!"{" →
      (∀ m us, (some m, us) ∈ ps → D E (elementCtx ctx Bool.false us) (.classElement m) us) →
      (∀ us, (none, us) ∈ ps → ∃ t : Token, t.value = .punct p!";" ∧ us = [t]) → rb.value = .punct p!"}" →
      D E ctx (.classTail none ((trees ps).filterMap id)) (lb :: toks ps ++ [rb])
  | classHeritage {ctx : Ctx} {x lb rb : Token} {e : Expr} {ps : List (Option MethodDef × List Token)} {ts : List Token} :
      x.value = .keyword k!"extends" → D E ctx (.expr 17 e) ts → lb.value = .punct p!"{" →
      (∀ m us, (some m, us) ∈ ps → D E (elementCtx ctx Bool.true us) (.classElement m) us) →
      (∀ us, (none, us) ∈ ps → ∃ t : Token, t.value = .punct p!";" ∧ us = [t]) → rb.value = .punct p!"}" →
      D E ctx (.classTail (some e) ((trees ps).filterMap id)) (x :: ts ++ lb :: toks ps ++ [rb])
  -- Binding patterns
  | bindingIdent {ctx : Ctx} {t : Token} {id : Ident} : IdentTok ctx t id → D E ctx (.binding (.ident id)) [t]
  | bindingObject {ctx : Ctx} {lb rb : Token} {b : Bool} {sp : Span} {ps : List (BindingProp × List Token)}
      {ts : List Token} : lb.value = .punct p!"{" → (∀ p ∈ ps, D E ctx (.bindingProp p.1) p.2) → Sep b ps ts →
      rb.value = .punct p!"}" → Spans sp (lb :: ts ++ [rb]) →
      D E ctx (.binding (.object sp (trees ps) none)) (lb :: ts ++ [rb])
  | bindingObjectRest {ctx : Ctx} {lb d rb : Token} {sp : Span} {ps : List (BindingProp × List Token)}
      {rest : BindingPattern} {ts us : List Token} : lb.value = .punct p!"{" →
      (∀ p ∈ ps, D E ctx (.bindingProp p.1) p.2) → Sep Bool.true ps ts → d.value = .punct p!"..." →
      D E ctx (.binding rest) us → rb.value = .punct p!"}" → Spans sp (lb :: ts ++ d :: us ++ [rb]) →
      D E ctx (.binding (.object sp (trees ps) (some rest))) (lb :: ts ++ d :: us ++ [rb])
  | bindingArray {ctx : Ctx} {lb rb : Token} {b : Bool} {sp : Span} {ps : List (Option (BindingElement × List Token))}
      {ts : List Token} : lb.value = .punct p!"[" → (∀ p, some p ∈ ps → D E ctx (.bindingElement p.1) p.2) →
      SepHoles b ps ts → rb.value = .punct p!"]" → Spans sp (lb :: ts ++ [rb]) →
      D E ctx (.binding (.array sp (ps.map (Option.map (·.1))) none)) (lb :: ts ++ [rb])
  | bindingArrayRest {ctx : Ctx} {lb d rb : Token} {sp : Span} {ps : List (Option (BindingElement × List Token))}
      {rest : BindingPattern} {ts us : List Token} : lb.value = .punct p!"[" →
      (∀ p, some p ∈ ps → D E ctx (.bindingElement p.1) p.2) → SepHoles Bool.true ps ts → d.value = .punct p!"..." →
      D E ctx (.binding rest) us → rb.value = .punct p!"]" → Spans sp (lb :: ts ++ d :: us ++ [rb]) →
      D E ctx (.binding (.array sp (ps.map (Option.map (·.1))) (some rest))) (lb :: ts ++ d :: us ++ [rb])
  | bindingSingle {ctx : Ctx} {t : Token} {id : Ident} {init : Option Expr} {sp : Span} {us : List Token} :
      IdentTok ctx t id → D E { ctx with in_ := Bool.true } (.initializer init) us → Spans sp (t :: us) →
      D E ctx (.bindingProp (.single sp id init)) (t :: us)
  | bindingNamed {ctx : Ctx} {c : Token} {n : PropName} {e : BindingElement} {sp : Span} {ts us : List Token} :
      D E ctx (.propName n) ts → c.value = .punct p!":" → D E ctx (.bindingElement e) us → Spans sp (ts ++ c :: us) →
      D E ctx (.bindingProp (.named sp n e)) (ts ++ c :: us)
  | bindingElement {ctx : Ctx} {p : BindingPattern} {init : Option Expr} {sp : Span} {ts us : List Token} :
      D E ctx (.binding p) ts → D E { ctx with in_ := Bool.true } (.initializer init) us → Spans sp (ts ++ us) →
      D E ctx (.bindingElement (.mk sp p init)) (ts ++ us)
  | noInitializer {ctx : Ctx} : D E ctx (.initializer none) []
  | initializer {ctx : Ctx} {t : Token} {e : Expr} {ts : List Token} : t.value = .punct p!"=" → D E ctx (.expr 1 e) ts →
      D E ctx (.initializer (some e)) (t :: ts)
  -- Assignment patterns
  | assignObject {ctx : Ctx} {lb rb : Token} {b : Bool} {sp : Span} {ps : List (AssignProp × List Token)}
      {ts : List Token} : lb.value = .punct p!"{" → (∀ p ∈ ps, D E ctx (.assignProp p.1) p.2) → Sep b ps ts →
      rb.value = .punct p!"}" → Spans sp (lb :: ts ++ [rb]) →
      D E ctx (.assignPattern (.object sp (trees ps) none)) (lb :: ts ++ [rb])
  | assignObjectRest {ctx : Ctx} {lb d rb : Token} {sp : Span} {ps : List (AssignProp × List Token)}
      {rest : PatternOrExpr} {ts us : List Token} : lb.value = .punct p!"{" →
      (∀ p ∈ ps, D E ctx (.assignProp p.1) p.2) → Sep Bool.true ps ts → d.value = .punct p!"..." →
      D E ctx (.target rest) us → rb.value = .punct p!"}" → Spans sp (lb :: ts ++ d :: us ++ [rb]) →
      D E ctx (.assignPattern (.object sp (trees ps) (some rest))) (lb :: ts ++ d :: us ++ [rb])
  /-- Departure: every comma is an element of its own, and no comma is needed between elements. -/
  | assignArray {ctx : Ctx} {lb rb : Token} {sp : Span} {ps : List (Option AssignElement × List Token)} :
      lb.value = .punct p!"[" → (∀ e us, (some e, us) ∈ ps → D E ctx (.assignElement e) us) →
      (∀ us, (none, us) ∈ ps → ∃ t : Token, t.value = .punct p!"," ∧ us = [t]) →
      rb.value = .punct p!"]" → Spans sp (lb :: toks ps ++ [rb]) →
      D E ctx (.assignPattern (.array sp (trees ps) none)) (lb :: toks ps ++ [rb])
  | assignArrayRest {ctx : Ctx} {lb d rb : Token} {sp : Span} {ps : List (Option AssignElement × List Token)}
      {rest : PatternOrExpr} {us : List Token} :
      lb.value = .punct p!"[" → (∀ e us, (some e, us) ∈ ps → D E ctx (.assignElement e) us) →
      (∀ us, (none, us) ∈ ps → ∃ t : Token, t.value = .punct p!"," ∧ us = [t]) → d.value = .punct p!"..." →
      D E ctx (.target rest) us → rb.value = .punct p!"]" → Spans sp (lb :: toks ps ++ d :: us ++ [rb]) →
      D E ctx (.assignPattern (.array sp (trees ps) (some rest))) (lb :: toks ps ++ d :: us ++ [rb])
  | targetPattern {ctx : Ctx} {p : AssignPattern} {ts : List Token} : D E ctx (.assignPattern p) ts →
      D E ctx (.target (.pattern p)) ts
  | targetExpr {ctx : Ctx} {e : Expr} {ts : List Token} : D E ctx (.expr 17 e) ts → TargetOK ctx.strict e →
      D E ctx (.target (.expr e)) ts
  | assignElement {ctx : Ctx} {t : PatternOrExpr} {init : Option Expr} {sp : Span} {ts us : List Token} :
      D E ctx (.target t) ts → D E { ctx with in_ := Bool.true } (.initializer init) us → Spans sp (ts ++ us) →
      D E ctx (.assignElement (.mk sp t init)) (ts ++ us)
  | assignSingle {ctx : Ctx} {t : Token} {id : Ident} {init : Option Expr} {sp : Span} {us : List Token} :
      IdentTok ctx t id → D E ctx (.initializer init) us → Spans sp (t :: us) →
      D E ctx (.assignProp (.single sp id init)) (t :: us)
  | assignNamed {ctx : Ctx} {c : Token} {n : PropName} {t : PatternOrExpr} {init : Option Expr} {sp : Span}
      {ts us vs : List Token} :
      D E ctx (.propName n) ts → c.value = .punct p!":" → D E ctx (.target t) us →
      D E { ctx with in_ := Bool.true } (.initializer init) vs → Spans sp (ts ++ c :: us ++ vs) →
      D E ctx (.assignProp (.named sp n t init)) (ts ++ c :: us ++ vs)
  -- Variables
  /-- A pattern needs an initializer. -/
  | varDecl {ctx : Ctx} {p : BindingPattern} {init : Option Expr} {sp : Span} {ts us : List Token} :
      D E ctx (.binding p) ts → D E ctx (.initializer init) us → (init = none → ∃ id, p = .ident id) →
      Spans sp (ts ++ us) → D E ctx (.varDecl (.mk sp p init)) (ts ++ us)
  | varDecls {ctx : Ctx} {ps : List (VarDecl × List Token)} {ts : List Token} :
      (∀ p ∈ ps, D E ctx (.varDecl p.1) p.2) → Sep Bool.false ps ts → D E ctx (.varDecls (trees ps)) ts
  -- Statements
  | empty {ctx : Ctx} {t : Token} : t.value = .punct p!";" → D E ctx (.stmt (.empty t.span)) [t]
  | blockS {ctx : Ctx} {b : Block} {ts : List Token} : D E ctx (.block b) ts → D E ctx (.stmt (.block b)) ts
  | block {ctx : Ctx} {lb rb : Token} {sp : Span} {ps : List (Stmt × List Token)} : lb.value = .punct p!"{" →
      (∀ p ∈ ps, D E ctx (.item p.1) p.2) → rb.value = .punct p!"}" → Spans sp (lb :: toks ps ++ [rb]) →
      D E ctx (.block (.mk sp (trees ps))) (lb :: toks ps ++ [rb])
  /-- Departure: the end of the statement is not checked. -/
  | var {ctx : Ctx} {t : Token} {ds : List VarDecl} {sp : Span} {ts us : List Token} : t.value = .keyword k!"var" →
      D E { ctx with in_ := Bool.true } (.varDecls ds) ts → OptSemi us → Spans sp (t :: ts ++ us) →
      D E ctx (.stmt (.variable (.mk sp .var ds))) (t :: ts ++ us)
  /-- An expression statement does not begin with `{`, `function` or `class`. -/
  | exprStmt {ctx : Ctx} {e : Expr} {sp : Span} {ts us : List Token} :
      D E { ctx with in_ := Bool.true } (.expr 0 e) ts → Semi E ts us →
      (∀ t ∈ ts.head?, t.value ≠ .punct p!"{" ∧ t.value ≠ .keyword k!"function" ∧ t.value ≠ .keyword k!"class") →
      Spans sp (ts ++ us) → D E ctx (.stmt (.expr sp e)) (ts ++ us)
  | labeled {ctx : Ctx} {t c : Token} {id : Ident} {s : Stmt} {sp : Span} {ts : List Token} : IdentTok ctx t id →
      c.value = .punct p!":" → D E ctx (.stmt s) ts → Spans sp (t :: c :: ts) →
      D E ctx (.stmt (.labeled sp id s)) (t :: c :: ts)
  /-- Departure: the end of the statement is not checked. -/
  | break {ctx : Ctx} {t : Token} {sp : Span} {us : List Token} : t.value = .keyword k!"break" → OptSemi us →
      Spans sp (t :: us) → D E ctx (.stmt (.break sp none)) (t :: us)
  /-- No line terminator before the label. -/
  | breakLabel {ctx : Ctx} {t l : Token} {id : Ident} {sp : Span} {us : List Token} : t.value = .keyword k!"break" →
      IdentTok ctx l id → l.fol = Bool.false → OptSemi us → Spans sp (t :: l :: us) →
      D E ctx (.stmt (.break sp (some id))) (t :: l :: us)
  | continue {ctx : Ctx} {t : Token} {sp : Span} {us : List Token} : t.value = .keyword k!"continue" → OptSemi us →
      Spans sp (t :: us) → D E ctx (.stmt (.continue sp none)) (t :: us)
  | continueLabel {ctx : Ctx} {t l : Token} {id : Ident} {sp : Span} {us : List Token} : t.value = .keyword k!"continue" →
      IdentTok ctx l id → l.fol = Bool.false → OptSemi us → Spans sp (t :: l :: us) →
      D E ctx (.stmt (.continue sp (some id))) (t :: l :: us)
  | return {ctx : Ctx} {t : Token} {sp : Span} {us : List Token} : ctx.return_ = Bool.true → t.value = .keyword k!"return" →
      OptSemi us → Spans sp (t :: us) → D E ctx (.stmt (.return sp none)) (t :: us)
  /-- No line terminator before the operand. -/
  | returnExpr {ctx : Ctx} {t : Token} {e : Expr} {sp : Span} {ts us : List Token} : ctx.return_ = Bool.true →
      t.value = .keyword k!"return" → D E { ctx with in_ := Bool.true } (.expr 0 e) ts →
      (∀ u ∈ ts.head?, u.fol = Bool.false) → OptSemi us → Spans sp (t :: ts ++ us) →
      D E ctx (.stmt (.return sp (some e))) (t :: ts ++ us)
  /-- No line terminator before the operand. -/
  | throw {ctx : Ctx} {t : Token} {e : Expr} {sp : Span} {ts us : List Token} :
      t.value = .keyword k!"throw" → D E { ctx with in_ := Bool.true } (.expr 0 e) ts →
      (∀ u ∈ ts.head?, u.fol = Bool.false) → OptSemi us → Spans sp (t :: ts ++ us) →
      D E ctx (.stmt (.throw sp e)) (t :: ts ++ us)
  | debugger {ctx : Ctx} {t : Token} {sp : Span} {us : List Token} : t.value = .keyword k!"debugger" → OptSemi us →
      Spans sp (t :: us) → D E ctx (.stmt (.debugger sp)) (t :: us)
  | if {ctx : Ctx} {t lp rp : Token} {e : Expr} {a : Stmt} {sp : Span} {ts us : List Token} : t.value = .keyword k!"if" →
      lp.value = .punct p!"(" → D E { ctx with in_ := Bool.true } (.expr 0 e) ts → rp.value = .punct p!")" →
      D E ctx (.stmt a) us → Spans sp (t :: lp :: ts ++ rp :: us) →
      D E ctx (.stmt (.if sp e a none)) (t :: lp :: ts ++ rp :: us)
  | ifElse {ctx : Ctx} {t lp rp el : Token} {e : Expr} {a b : Stmt} {sp : Span} {ts us vs : List Token} :
      t.value = .keyword k!"if" → lp.value = .punct p!"(" → D E { ctx with in_ := Bool.true } (.expr 0 e) ts →
      rp.value = .punct p!")" → D E ctx (.stmt a) us → el.value = .keyword k!"else" → D E ctx (.stmt b) vs →
      Spans sp (t :: lp :: ts ++ rp :: us ++ el :: vs) →
      D E ctx (.stmt (.if sp e a (some b))) (t :: lp :: ts ++ rp :: us ++ el :: vs)
  /-- Departure: allowed in strict code. -/
  | with {ctx : Ctx} {t lp rp : Token} {e : Expr} {a : Stmt} {sp : Span} {ts us : List Token} :
      t.value = .keyword k!"with" → lp.value = .punct p!"(" → D E ctx (.expr 0 e) ts → rp.value = .punct p!")" →
      D E ctx (.stmt a) us → Spans sp (t :: lp :: ts ++ rp :: us) →
      D E ctx (.stmt (.with sp e a)) (t :: lp :: ts ++ rp :: us)
  | tryCatch {ctx : Ctx} {t : Token} {b : Block} {c : CatchClause} {sp : Span} {ts us : List Token} :
      t.value = .keyword k!"try" → D E ctx (.block b) ts → D E ctx (.catchClause c) us → Spans sp (t :: ts ++ us) →
      D E ctx (.stmt (.try sp b (some c) none)) (t :: ts ++ us)
  | tryFinally {ctx : Ctx} {t f : Token} {b d : Block} {sp : Span} {ts vs : List Token} :
      t.value = .keyword k!"try" → D E ctx (.block b) ts → f.value = .keyword k!"finally" → D E ctx (.block d) vs →
      Spans sp (t :: ts ++ f :: vs) → D E ctx (.stmt (.try sp b none (some d))) (t :: ts ++ f :: vs)
  | tryBoth {ctx : Ctx} {t f : Token} {b d : Block} {c : CatchClause} {sp : Span} {ts us vs : List Token} :
      t.value = .keyword k!"try" → D E ctx (.block b) ts → D E ctx (.catchClause c) us → f.value = .keyword k!"finally" →
      D E ctx (.block d) vs → Spans sp (t :: ts ++ us ++ f :: vs) →
      D E ctx (.stmt (.try sp b (some c) (some d))) (t :: ts ++ us ++ f :: vs)
  | catch {ctx : Ctx} {t : Token} {b : Block} {sp : Span} {ts : List Token} : t.value = .keyword k!"catch" →
      D E ctx (.block b) ts → Spans sp (t :: ts) → D E ctx (.catchClause (.mk sp none b)) (t :: ts)
  | catchParam {ctx : Ctx} {t lp rp : Token} {p : BindingPattern} {b : Block} {sp : Span} {ts us : List Token} :
      t.value = .keyword k!"catch" → lp.value = .punct p!"(" → D E ctx (.binding p) ts → rp.value = .punct p!")" →
      D E ctx (.block b) us → Spans sp (t :: lp :: ts ++ rp :: us) →
      D E ctx (.catchClause (.mk sp (some p) b)) (t :: lp :: ts ++ rp :: us)
  /-- Departure: several `default` clauses are allowed. -/
  | switch {ctx : Ctx} {t lp rp lb rb : Token} {e : Expr} {ps : List (SwitchCase × List Token)} {sp : Span}
      {ts : List Token} :
      t.value = .keyword k!"switch" → lp.value = .punct p!"(" → D E { ctx with in_ := Bool.true } (.expr 0 e) ts →
      rp.value = .punct p!")" → lb.value = .punct p!"{" → (∀ p ∈ ps, D E ctx (.case p.1) p.2) → rb.value = .punct p!"}" →
      Spans sp (t :: lp :: ts ++ rp :: lb :: toks ps ++ [rb]) →
      D E ctx (.stmt (.switch sp e (trees ps))) (t :: lp :: ts ++ rp :: lb :: toks ps ++ [rb])
  | case {ctx : Ctx} {t c : Token} {e : Expr} {ps : List (Stmt × List Token)} {sp : Span} {ts : List Token} :
      t.value = .keyword k!"case" → D E { ctx with in_ := Bool.true } (.expr 0 e) ts → c.value = .punct p!":" →
      (∀ p ∈ ps, D E ctx (.item p.1) p.2) → Spans sp (t :: ts ++ c :: toks ps) →
      D E ctx (.case (.mk sp (some e) (trees ps))) (t :: ts ++ c :: toks ps)
  | default {ctx : Ctx} {t c : Token} {ps : List (Stmt × List Token)} {sp : Span} :
      t.value = .keyword k!"default" → c.value = .punct p!":" →
      (∀ p ∈ ps, D E ctx (.item p.1) p.2) → Spans sp (t :: c :: toks ps) →
      D E ctx (.case (.mk sp none (trees ps))) (t :: c :: toks ps)
  /-- Departure: the end of the statement is not checked. -/
  | doWhile {ctx : Ctx} {t w lp rp : Token} {e : Expr} {a : Stmt} {sp : Span} {ts us vs : List Token} :
      t.value = .keyword k!"do" → D E ctx (.stmt a) ts → w.value = .keyword k!"while" → lp.value = .punct p!"(" →
      D E { ctx with in_ := Bool.true } (.expr 0 e) us → rp.value = .punct p!")" → OptSemi vs →
      Spans sp (t :: ts ++ w :: lp :: us ++ rp :: vs) →
      D E ctx (.stmt (.doWhile sp a e)) (t :: ts ++ w :: lp :: us ++ rp :: vs)
  | while {ctx : Ctx} {t lp rp : Token} {e : Expr} {a : Stmt} {sp : Span} {ts us : List Token} :
      t.value = .keyword k!"while" → lp.value = .punct p!"(" → D E { ctx with in_ := Bool.true } (.expr 0 e) ts →
      rp.value = .punct p!")" → D E ctx (.stmt a) us → Spans sp (t :: lp :: ts ++ rp :: us) →
      D E ctx (.stmt (.while sp e a)) (t :: lp :: ts ++ rp :: us)
  | forNone {ctx : Ctx} {t lp s1 s2 rp : Token} {a b : Option Expr} {s : Stmt} {sp : Span} {ts us vs : List Token} :
      t.value = .keyword k!"for" → lp.value = .punct p!"(" → s1.value = .punct p!";" →
      D E { ctx with in_ := Bool.true } (.optExpr a) ts → s2.value = .punct p!";" →
      D E { ctx with in_ := Bool.true } (.optExpr b) us → rp.value = .punct p!")" → D E ctx (.stmt s) vs →
      Spans sp (t :: lp :: s1 :: ts ++ s2 :: us ++ rp :: vs) →
      D E ctx (.stmt (.for sp none a b s)) (t :: lp :: s1 :: ts ++ s2 :: us ++ rp :: vs)
  | for {ctx : Ctx} {t lp s1 s2 rp : Token} {i : ForInit} {a b : Option Expr} {s : Stmt} {sp : Span}
      {is ts us vs : List Token} :
      t.value = .keyword k!"for" → lp.value = .punct p!"(" → D E { ctx with in_ := Bool.false } (.forInit i) is →
      s1.value = .punct p!";" → D E { ctx with in_ := Bool.true } (.optExpr a) ts → s2.value = .punct p!";" →
      D E { ctx with in_ := Bool.true } (.optExpr b) us → rp.value = .punct p!")" → D E ctx (.stmt s) vs →
      Spans sp (t :: lp :: is ++ s1 :: ts ++ s2 :: us ++ rp :: vs) →
      D E ctx (.stmt (.for sp (some i) a b s)) (t :: lp :: is ++ s1 :: ts ++ s2 :: us ++ rp :: vs)
  | noExpr {ctx : Ctx} : D E ctx (.optExpr none) []
  | someExpr {ctx : Ctx} {e : Expr} {ts : List Token} : D E ctx (.expr 0 e) ts → D E ctx (.optExpr (some e)) ts
  | forInitExpr {ctx : Ctx} {e : Expr} {ts : List Token} : D E ctx (.expr 0 e) ts → D E ctx (.forInit (.expr e)) ts
  | forInitDecl {ctx : Ctx} {t : Token} {k : VarKind} {ds : List VarDecl} {sp : Span} {ts : List Token} :
      symbol t.value = some k.asStr → D E ctx (.varDecls ds) ts → Spans sp (t :: ts) →
      D E ctx (.forInit (.declaration (.mk sp k ds))) (t :: ts)
  | forIn {ctx : Ctx} {t lp i rp : Token} {d : ForDecl} {e : Expr} {s : Stmt} {sp : Span} {ts us vs : List Token} :
      t.value = .keyword k!"for" → lp.value = .punct p!"(" → D E ctx (.forDecl d) ts → i.value = .keyword k!"in" →
      D E { ctx with in_ := Bool.true } (.expr 0 e) us → rp.value = .punct p!")" → D E ctx (.stmt s) vs →
      Spans sp (t :: lp :: ts ++ i :: us ++ rp :: vs) →
      D E ctx (.stmt (.forIn sp d e s)) (t :: lp :: ts ++ i :: us ++ rp :: vs)
  /-- Departure: the right side may be a comma expression. -/
  | forOf {ctx : Ctx} {t lp i rp : Token} {d : ForDecl} {e : Expr} {s : Stmt} {sp : Span} {ts us vs : List Token} :
      t.value = .keyword k!"for" → lp.value = .punct p!"(" → D E ctx (.forDecl d) ts → i.value = .keyword k!"of" →
      D E { ctx with in_ := Bool.true } (.expr 0 e) us → rp.value = .punct p!")" → D E ctx (.stmt s) vs →
      Spans sp (t :: lp :: ts ++ i :: us ++ rp :: vs) →
      D E ctx (.stmt (.forOf sp d e s Bool.false)) (t :: lp :: ts ++ i :: us ++ rp :: vs)
  | forAwait {ctx : Ctx} {t w lp i rp : Token} {d : ForDecl} {e : Expr} {s : Stmt} {sp : Span} {ts us vs : List Token} :
      t.value = .keyword k!"for" → ctx.await = Bool.true → w.value = .keyword k!"await" → lp.value = .punct p!"(" →
      D E ctx (.forDecl d) ts → i.value = .keyword k!"of" → D E { ctx with in_ := Bool.true } (.expr 0 e) us →
      rp.value = .punct p!")" → D E ctx (.stmt s) vs → Spans sp (t :: w :: lp :: ts ++ i :: us ++ rp :: vs) →
      D E ctx (.stmt (.forOf sp d e s Bool.true)) (t :: w :: lp :: ts ++ i :: us ++ rp :: vs)
  | forDeclVar {ctx : Ctx} {t : Token} {k : VarKind} {p : BindingPattern} {sp : Span} {ts : List Token} :
      symbol t.value = some k.asStr → D E ctx (.binding p) ts → Spans sp (t :: ts) →
      D E ctx (.forDecl (.declaration sp k p)) (t :: ts)
  | forDeclPattern {ctx : Ctx} {p : AssignPattern} {ts : List Token} : D E ctx (.assignPattern p) ts →
      D E ctx (.forDecl (.pattern p)) ts
  | forDeclExpr {ctx : Ctx} {e : Expr} {ts : List Token} : D E ctx (.expr 17 e) ts → TargetOK ctx.strict e →
      D E ctx (.forDecl (.expr e)) ts
  -- Declarations
  | itemStmt {ctx : Ctx} {s : Stmt} {ts : List Token} : D E ctx (.stmt s) ts → D E ctx (.item s) ts
  | itemDecl {ctx : Ctx} {s : Stmt} {ts : List Token} : D E ctx (.decl s) ts → D E ctx (.item s) ts
  /-- Departure: the name of a function is resolved in the context around the function. -/
  | functionDecl {ctx : Ctx} {f : Token} {generator : Bool} {id : Ident} {ps : FormalParams} {b : Body} {sp : Span}
      {star nm ts us : List Token} {start : Nat} : f.value = .keyword k!"function" →
      (if generator then ∃ s : Token, s.value = .punct p!"*" ∧ star = [s] else star = []) →
      DeclName ctx start id nm → (∀ t ∈ ts.head?, start = t.span.start) →
      D E (insideFunction ctx generator Bool.false) (.params ps) ts →
      D E (insideFunction ctx generator Bool.false) (.body b) us → Spans sp (f :: star ++ nm ++ ts ++ us) →
      D E ctx (.decl (.functionDecl sp Bool.false generator id ps b)) (f :: star ++ nm ++ ts ++ us)
  /-- Departure: a line terminator is allowed after `async`. -/
  | asyncFunctionDecl {ctx : Ctx} {a f : Token} {generator : Bool} {id : Ident} {ps : FormalParams} {b : Body} {sp : Span}
      {star nm ts us : List Token} {start : Nat} : a.value = .keyword k!"async" → f.value = .keyword k!"function" →
      (if generator then ∃ s : Token, s.value = .punct p!"*" ∧ star = [s] else star = []) →
      DeclName ctx start id nm → (∀ t ∈ ts.head?, start = t.span.start) →
      D E (insideFunction ctx generator Bool.true) (.params ps) ts →
      D E (insideFunction ctx generator Bool.true) (.body b) us → Spans sp (a :: f :: star ++ nm ++ ts ++ us) →
      D E ctx (.decl (.functionDecl sp Bool.true generator id ps b)) (a :: f :: star ++ nm ++ ts ++ us)
  | classDecl {ctx : Ctx} {c : Token} {id : Ident} {sup : Option Expr} {ms : List MethodDef} {sp : Span}
      {nm ts : List Token} {start : Nat} : c.value = .keyword k!"class" →
      DeclName { ctx with strict := Bool.true } start id nm → (∀ t ∈ ts.head?, start = t.span.start) →
      D E { ctx with strict := Bool.true } (.classTail sup ms) ts → Spans sp (c :: nm ++ ts) →
      D E ctx (.decl (.classDecl sp id sup ms)) (c :: nm ++ ts)
  /-- Departure: the end of the statement is not checked; `in` is not enabled in the initializers. -/
  | lexical {ctx : Ctx} {t : Token} {k : VarKind} {ds : List VarDecl} {sp : Span} {ts us : List Token} : k ≠ .var →
      symbol t.value = some k.asStr → D E ctx (.varDecls ds) ts → OptSemi us → Spans sp (t :: ts ++ us) →
      D E ctx (.decl (.variable (.mk sp k ds))) (t :: ts ++ us)
  | importModule {ctx : Ctx} {t u : Token} {s : LitString} {sp : Span} {us : List Token} : E.isModule →
      t.value = .keyword k!"import" → u.value = .lit (.string s) → Semi E [t, u] us → Spans sp (t :: u :: us) →
      D E ctx (.decl (.importDecl sp none none none s)) (t :: u :: us)
  | importFrom {ctx : Ctx} {t f u : Token} {d ns : Option Ident} {is : Option (List NamedImport)} {s : LitString} {sp : Span}
      {ts us : List Token} : E.isModule →
      t.value = .keyword k!"import" → ImportClause ctx d ns is ts → f.value = .keyword k!"from" →
      u.value = .lit (.string s) → Semi E (t :: ts ++ [f, u]) us → Spans sp (t :: ts ++ f :: u :: us) →
      D E ctx (.decl (.importDecl sp d ns is s)) (t :: ts ++ f :: u :: us)
  | exportNamed {ctx : Ctx} {t : Token} {es : List NamedExport} {sp : Span} {ts us : List Token} : E.isModule →
      t.value = .keyword k!"export" → NamedExports es ts → Semi E (t :: ts) us → Spans sp (t :: ts ++ us) →
      D E ctx (.decl (.exportDecl (.named sp es none))) (t :: ts ++ us)
  | exportFrom {ctx : Ctx} {t f u : Token} {es : List NamedExport} {s : LitString} {sp : Span} {ts us : List Token} :
      E.isModule → t.value = .keyword k!"export" → NamedExports es ts → f.value = .keyword k!"from" →
      u.value = .lit (.string s) → Semi E (t :: ts ++ [f, u]) us → Spans sp (t :: ts ++ f :: u :: us) →
      D E ctx (.decl (.exportDecl (.named sp es (some s)))) (t :: ts ++ f :: u :: us)
  | exportAll {ctx : Ctx} {t st f u : Token} {s : LitString} {sp : Span} {us : List Token} :
      E.isModule → t.value = .keyword k!"export" → st.value = .punct p!"*" → f.value = .keyword k!"from" →
      u.value = .lit (.string s) → Semi E [t, st, f, u] us → Spans sp (t :: st :: f :: u :: us) →
      D E ctx (.decl (.exportDecl (.namespace sp none s))) (t :: st :: f :: u :: us)
  | exportAllAs {ctx : Ctx} {t st a n f u : Token} {id : Ident} {s : LitString} {sp : Span} {us : List Token} :
      E.isModule → t.value = .keyword k!"export" → st.value = .punct p!"*" → a.value = .keyword k!"as" → NameTok n id →
      f.value = .keyword k!"from" → u.value = .lit (.string s) → Semi E [t, st, a, n, f, u] us →
      Spans sp (t :: st :: a :: n :: f :: u :: us) →
      D E ctx (.decl (.exportDecl (.namespace sp (some id) s))) (t :: st :: a :: n :: f :: u :: us)
  | exportVar {ctx : Ctx} {t : Token} {v : VarStmt} {sp : Span} {ts : List Token} : E.isModule →
      t.value = .keyword k!"export" → D E ctx (.stmt (.variable v)) ts → Spans sp (t :: ts) →
      D E ctx (.decl (.exportDecl (.decl sp (.variable v)))) (t :: ts)
  | exportDecl {ctx : Ctx} {t : Token} {d : Stmt} {sp : Span} {ts : List Token} : E.isModule →
      t.value = .keyword k!"export" → D E ctx (.decl d) ts → Spans sp (t :: ts) →
      D E ctx (.decl (.exportDecl (.decl sp d))) (t :: ts)
  | exportDefaultDecl {ctx : Ctx} {t x : Token} {d : Stmt} {sp : Span} {ts : List Token} : E.isModule →
      t.value = .keyword k!"export" → x.value = .keyword k!"default" → D E { ctx with default := Bool.true } (.decl d) ts →
      Spans sp (t :: x :: ts) → D E ctx (.decl (.exportDecl (.defaultDecl sp d))) (t :: x :: ts)
  | exportDefaultExpr {ctx : Ctx} {t x : Token} {e : Expr} {sp : Span} {ts us : List Token} : E.isModule →
      t.value = .keyword k!"export" → x.value = .keyword k!"default" → D E { ctx with in_ := Bool.true } (.expr 1 e) ts →
      Semi E (t :: x :: ts) us → Spans sp (t :: x :: ts ++ us) →
      D E ctx (.decl (.exportDecl (.defaultExpr sp e))) (t :: x :: ts ++ us)

/-- The tokens of a program. -/
structure IsProgram (E : GEnv) (p : Program) (ts : List Token) : Prop where
  /-- the directives and the other statements -/
  parts : ∃ ps qs : List (Stmt × List Token), ts = toks ps ++ toks qs ∧ (∀ d ∈ ps, D E {} (.item d.1) d.2) ∧
    Directives (trees ps) p.directives ∧
    (∀ q ∈ qs, D E (afterDirectives {} p.directives) (.item q.1) q.2) ∧ p.body = trees qs ∧
    BehindDirectives E (toks qs)
  span : if ts = [] then p.span = ⟨0, 0⟩ else Spans p.span ts

end Fajt.Spec
