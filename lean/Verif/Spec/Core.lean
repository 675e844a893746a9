import Verif.Spec.Grammar
import Verif.Spec.Lexical
/-!
# A core grammar on source texts

`Spec.Grammar` describes every tree the parser can return.  This file describes texts that the parser must accept.
`Derives sty ctx g a b`: the text between the points `a` and `b` of a source is derived from the grammar symbol `g`, which
carries the tree that stands for it.  In contrast to `Spec.Grammar` the rules speak about the text itself, and they are
disambiguated as in ECMAScript: binary operators associate to the left, an expression statement does not start with `{` or
`function`, `else` belongs to the nearest `if`, and so on.  Where a semicolon is left out (and only there) a rule looks at the
token that follows.

Levels of expressions are those of `Spec.Grammar`.  Texts not covered are listed in the note on C49 in MANIFEST.json.
-/
namespace Fajt.Spec
open Fajt
variable [UnicodeID]

/-! ## Points in a source -/

/-- A place in a source between two tokens: the text before it, the text after it and whether no token precedes it on its
line. -/
structure Point where
  pre : Str
  rest : Str
  fol : Bool

/-- The position of a point, as reported in spans. -/
def Point.fin (a : Point) : Nat := posAfter 0 0 a.pre

/-- From the point `a` the next token is `t`, and `b` is the point after it.  `html` tells whether HTML-like comments are
comments, `regex` whether a `/` starts a regular expression. -/
inductive Reads (html regex : Bool) : Point → Token → Point → Prop
  | intro {pre tr w rest : Str} {fol : Bool} {t : Token} : Trivia html fol tr (w ++ rest) t.fol → NoTrivia t.fol (w ++ rest) →
      w ≠ [] → Lexeme regex t.value w rest →
      t.span = ⟨posAfter 0 0 (pre ++ tr), posAfter 0 0 (pre ++ tr ++ w)⟩ →
      Reads html regex ⟨pre, tr ++ (w ++ rest), fol⟩ t ⟨pre ++ tr ++ w, rest, false⟩

/-- The next token, in a script or module. -/
def Next (sty : SourceType) : Point → Token → Point → Prop := Reads (decide (sty = .script)) false

/-- Nothing but trivia follows. -/
def AtEnd (sty : SourceType) (a : Point) : Prop := ∃ f, Trivia (decide (sty = .script)) a.fol a.rest [] f

/-- The next token is `v`. -/
def Tok (sty : SourceType) (v : TokVal) (a b : Point) : Prop := ∃ t, Next sty a t b ∧ t.value = v

/-- The next token is the punctuator `p`. -/
abbrev Sym (sty : SourceType) (p : Punct) (a b : Point) : Prop := Tok sty (.punct p) a b

/-- The next token is the keyword `k`. -/
abbrev Key (sty : SourceType) (k : Keyword) (a b : Point) : Prop := Tok sty (.keyword k) a b

/-- The span of the text between two points, without the trivia at its start. -/
def From (sty : SourceType) (a b : Point) (sp : Span) : Prop := ∃ t c, Next sty a t c ∧ sp = ⟨t.span.start, b.fin⟩

/-- If a token follows, it satisfies `p`. -/
def Look (sty : SourceType) (a : Point) (p : Token → Prop) : Prop := ∀ t b, Next sty a t b → p t

/-- The level of the expressions that the token continues: after an expression of this level or a tighter one, the token
belongs to a larger expression.  Operators that must not follow a line terminator do not continue an expression if they do;
`in` is an operator only where the context says so. -/
def contLevel (ctx : Ctx) (t : Token) : Option Nat :=
  match t.value with
  | .punct p!"," => some 0
  | .punct p!"=" | .punct p!"*=" | .punct p!"/=" | .punct p!"%=" | .punct p!"+=" | .punct p!"-=" | .punct p!"<<="
  | .punct p!">>=" | .punct p!">>>=" | .punct p!"&=" | .punct p!"^=" | .punct p!"|=" | .punct p!"**=" => some 1
  | .punct p!"?" => some 2
  | .punct p!"??" => some 3
  | .punct p!"||" => some 4
  | .punct p!"&&" => some 5
  | .punct p!"|" => some 6
  | .punct p!"^" => some 7
  | .punct p!"&" => some 8
  | .punct p!"==" | .punct p!"!=" | .punct p!"===" | .punct p!"!==" => some 9
  | .punct p!"<" | .punct p!">" | .punct p!"<=" | .punct p!">=" | .keyword k!"instanceof" => some 10
  | .keyword k!"in" => if ctx.in_ then some 10 else none
  | .punct p!"<<" | .punct p!">>" | .punct p!">>>" => some 11
  | .punct p!"+" | .punct p!"-" => some 12
  | .punct p!"*" | .punct p!"/" | .punct p!"%" => some 13
  | .punct p!"**" => some 14
  | .punct p!"++" | .punct p!"--" => if t.fol then none else some 16
  | .punct p!"?." => some 17
  | .punct p!"(" => some 19
  | .punct p!"." | .punct p!"[" | .lit (.template _) | .templateHead _ => some 20
  | .punct p!"=>" => some 21
  | _ => none

/-- The token that follows does not continue an expression of level `k`. -/
def Ends (sty : SourceType) (ctx : Ctx) (k : Nat) (a : Point) : Prop :=
  Look sty a fun t => ∀ l, contLevel ctx t = some l → l < k

/-- The token `v` or nothing. -/
def OptTok (sty : SourceType) (v : TokVal) (present : Bool) (a b : Point) : Prop := if present then Tok sty v a b else b = a

/-- The name of a function or class expression, or nothing. -/
def OptName (sty : SourceType) (ctx : Ctx) (id : Option Ident) (a b : Point) : Prop :=
  match id with
  | some id => ∃ t, Next sty a t b ∧ IdentTok ctx t id
  | none => b = a

/-- The name of a function or class declaration: an identifier, or nothing in a default export (then the tree has a nameless
identifier in front of the next token, which is one of `vs`). -/
def NameAt (sty : SourceType) (ctx : Ctx) (vs : List TokVal) (id : Ident) (a b : Point) : Prop :=
  (∃ t, Next sty a t b ∧ IdentTok ctx t id) ∨
  (ctx.default = true ∧ b = a ∧ ∃ t c, Next sty a t c ∧ t.value ∈ vs ∧ id = ⟨⟨t.span.start, t.span.start⟩, []⟩)

/-- The end of a statement: `;`, or nothing where a semicolon is inserted: at the end, in front of `}`, or in front of another
token on a new line. -/
def EndOfStmt (sty : SourceType) (a b : Point) : Prop :=
  Sym sty p!";" a b ∨
  (b = a ∧ (AtEnd sty a ∨ ∃ t c, Next sty a t c ∧ t.value ≠ .punct p!";" ∧ (t.value = .punct p!"}" ∨ t.fol = true)))

/-- What follows `let` makes it a declaration. -/
def lexicalStart (ctx : Ctx) (t : Token) : Prop :=
  t.value = .punct p!"{" ∨ t.value = .punct p!"[" ∨ ∃ id, IdentTok ctx t id

/-- The parser can read the next token again: the position that fajt reports for it is the byte offset of a character.  This
is so if the character in front of the token, if any, is an ASCII character.  Otherwise fajt panics. -/
def Seekable (sty : SourceType) (a : Point) : Prop :=
  Look sty a fun t => ∃ p r, a.pre ++ a.rest = p ++ r ∧ byteLen p = t.span.start

/-- A regular expression follows. -/
def RegexAt (sty : SourceType) (w : Str) (t : Token) (a b : Point) : Prop :=
  Reads (decide (sty = .script)) true a t b ∧ t.value = .lit (.regexp w)

/-- The part of a template after a substitution follows.  Departure: the point after it is regarded as the start of a line
if `}` is the first token on its line. -/
inductive Continues (sty : SourceType) : Point → Token → Point → Prop
  | intro {pre tr w rest : Str} {fol f : Bool} {t : Token} : Trivia (decide (sty = .script)) fol tr (w ++ rest) f →
      Continuation t.value w → t.fol = false →
      t.span = ⟨posAfter 0 0 (pre ++ tr), posAfter 0 0 (pre ++ tr ++ w)⟩ →
      Continues sty ⟨pre, tr ++ (w ++ rest), fol⟩ t ⟨pre ++ tr ++ w, rest, f⟩

/-- Empty strings of templates are left out. -/
def stringPart (s : Str) : List TemplatePart := if s = [] then [] else [.string s]

/-- The start of an expression statement: not `{`, `function`, `class`, `async function`, a `let` declaration or a label.
Departure: not `import` either. -/
def StmtStart (sty : SourceType) (ctx : Ctx) (a : Point) : Prop :=
  ∃ t b, Next sty a t b ∧
    t.value ∉ [.punct p!"{", .keyword k!"function", .keyword k!"class", .keyword k!"import"] ∧
    (t.value = .keyword k!"async" → Look sty b fun u => u.value ≠ .keyword k!"function") ∧
    (t.value = .keyword k!"let" → Look sty b fun u => ¬ lexicalStart ctx u) ∧
    ((∃ id, IdentTok ctx t id) → Look sty b fun u => u.value ≠ .punct p!":")

/-! ## Grammar symbols -/

/-- Why a text in the place of an expression is not an expression: because of the token `...`, or because of the `=` at the
given place that follows a name in an object: `{ a = b }`. -/
inductive Stop where
  | dots (t : Token)
  | init (at_ : Span)

/-- The grammar symbols, with the tree they stand for. -/
inductive CNode where
  /-- an expression that binds at least as tightly as the level -/
  | expr (level : Nat) (e : Expr)
  /-- `, e, ..., e` -/
  | exprs (es : List Expr)
  /-- `new` without arguments, or a member expression -/
  | newE (e : Expr)
  /-- a call and what follows it -/
  | callE (e : Expr)
  /-- an optional chain -/
  | chain (e : Expr)
  | args (span : Span) (as : List Argument)
  /-- arguments with the closing parenthesis -/
  | argList (as : List Argument)
  | arg (a : Argument)
  | template (ps : List TemplatePart)
  /-- the parts of a template from the first expression to the end -/
  | templateRest (ps : List TemplatePart)
  | memberProp (p : MemberProp)
  | optProp (optional : Bool) (p : MemberProp)
  /-- the elements of an array with the closing bracket -/
  | elements (es : List ArrayElement)
  | element (e : ArrayElement)
  /-- the properties of an object with the closing brace -/
  | props (ps : List PropDef)
  | prop (p : PropDef)
  | propName (n : PropName)
  /-- `= e` or nothing -/
  | initializer (e : Option Expr)
  | binding (p : BindingPattern)
  | bindingElement (e : BindingElement)
  | bindingProp (p : BindingProp)
  /-- the properties of an object pattern with the closing brace -/
  | bindingProps (ps : List BindingProp) (rest : Option BindingPattern)
  /-- the elements of an array pattern with the closing bracket -/
  | bindingElements (es : List (Option BindingElement)) (rest : Option BindingPattern)
  | assignPattern (p : AssignPattern)
  /-- the target of an assignment in a pattern -/
  | target (t : PatternOrExpr)
  | assignElement (e : AssignElement)
  | assignProp (p : AssignProp)
  /-- the properties of an object assignment pattern with the closing brace -/
  | assignProps (ps : List AssignProp) (rest : Option PatternOrExpr)
  /-- the elements of an array assignment pattern with the closing bracket -/
  | assignElements (es : List (Option AssignElement)) (rest : Option PatternOrExpr)
  /-- the start of an object or array that is not a literal because of an initialized name -/
  | initLit (at_ : Span)
  /-- the properties in front of the initialized name -/
  | initProps (at_ : Span)
  /-- the elements in front of the initialized name -/
  | initElements (at_ : Span)
  /-- what stands in the place of an expression but can only be a parameter or pattern -/
  | stop (s : Stop)
  /-- expressions separated by commas up to the first one that can only be a parameter -/
  | stops (s : Stop)
  /-- the parameters of an arrow function, as far as it is necessary to read on to know that they are not an expression -/
  | arrowAhead
  | arrowBody (b : ArrowBody)
  /-- the first part of `for (.. in ..)` and `for (.. of ..)` -/
  | forDecl (d : ForDecl)
  | params (p : FormalParams)
  /-- the parameters with the closing parenthesis -/
  | paramList (es : List BindingElement) (rest : Option BindingPattern)
  | body (b : Body)
  /-- a method without `static`; whether the tree says static depends on what stands in front -/
  | method (m : MethodDef)
  /-- a method of a class, with `static` -/
  | classElement (m : MethodDef)
  /-- the methods of a class with the closing brace; `hasSuper`: the class extends another one -/
  | classBody (hasSuper : Bool) (ms : List MethodDef)
  /-- what follows the name of a class -/
  | classTail (sup : Option Expr) (ms : List MethodDef)
  /-- a directive prologue -/
  | directives (ds : List LitString)
  | varDecl (v : VarDecl)
  | varDecls (vs : List VarDecl)
  | optExpr (e : Option Expr)
  | stmt (s : Stmt)
  | decl (s : Stmt)
  /-- a statement or declaration -/
  | item (s : Stmt)
  /-- statements and declarations with the closing brace -/
  | stmts (ss : List Stmt)
  /-- statements and declarations up to the end of the source -/
  | items (ss : List Stmt)
  | block (b : Block)
  | catchClause (c : CatchClause)
  | case (c : SwitchCase)
  /-- the statements of a case -/
  | caseStmts (ss : List Stmt)
  /-- the cases with the closing brace -/
  | cases (cs : List SwitchCase)
  /-- the first part of `for (..; ..; ..)` -/
  | forInit (i : Option ForInit)

/-- The words that start something else than a shorthand property `{ x }`. -/
def specialProp (t : Token) : Prop := t.value ∈ [.keyword k!"async", .keyword k!"get", .keyword k!"set", .keyword k!"static"]

/-! ## Import and export lists -/

/-- A named import: `name` or `name as alias`. -/
inductive ImportItem (sty : SourceType) (ctx : Ctx) : NamedImport → Point → Point → Prop
  | plain {t : Token} {sp : Span} {id : Ident} {a b : Point} : Next sty a t b → NameTok t id → From sty a b sp →
      ImportItem sty ctx ⟨sp, id, none⟩ a b
  | renamed {t u : Token} {sp : Span} {id id' : Ident} {a m o b : Point} : Next sty a t m → NameTok t id → Key sty k!"as" m o →
      Next sty o u b → IdentTok ctx u id' → From sty a b sp → ImportItem sty ctx ⟨sp, id, some id'⟩ a b

/-- A named export: `name` or `name as alias`; the tree has the exported name first. -/
inductive ExportItem (sty : SourceType) : NamedExport → Point → Point → Prop
  | plain {t : Token} {sp : Span} {id : Ident} {a b : Point} : Next sty a t b → NameTok t id → From sty a b sp →
      ExportItem sty ⟨sp, id, none⟩ a b
  | renamed {t u : Token} {sp : Span} {id id' : Ident} {a m o b : Point} : Next sty a t m → NameTok t id → Key sty k!"as" m o →
      Next sty o u b → NameTok u id' → From sty a b sp → ExportItem sty ⟨sp, id', some id⟩ a b

/-- A list separated by commas, with an optional comma at the end, and the closing brace. -/
inductive CommaList {α : Type} (sty : SourceType) (p : α → Point → Point → Prop) : List α → Point → Point → Prop
  | close {a b : Point} : Sym sty p!"}" a b → CommaList sty p [] a b
  | last {x : α} {a m b : Point} : p x a m → Sym sty p!"}" m b → CommaList sty p [x] a b
  | more {x : α} {xs : List α} {a m o b : Point} : p x a m → Sym sty p!"," m o → CommaList sty p xs o b →
      CommaList sty p (x :: xs) a b

/-- `* as name` or `{ .. }`. -/
inductive ImportNames (sty : SourceType) (ctx : Ctx) : Option Ident → Option (List NamedImport) → Point → Point → Prop
  | namespace {u : Token} {id : Ident} {a m o b : Point} : Sym sty p!"*" a m → Key sty k!"as" m o → Next sty o u b →
      IdentTok ctx u id → ImportNames sty ctx (some id) none a b
  | named {is : List NamedImport} {a m b : Point} : Sym sty p!"{" a m → CommaList sty (ImportItem sty ctx) is m b →
      ImportNames sty ctx none (some is) a b

/-- What stands between `import` and `from`. -/
inductive ImportWhat (sty : SourceType) (ctx : Ctx) :
    Option Ident → Option Ident → Option (List NamedImport) → Point → Point → Prop
  | default {t : Token} {id : Ident} {a b : Point} : Next sty a t b → IdentTok ctx t id →
      ImportWhat sty ctx (some id) none none a b
  | both {t : Token} {id : Ident} {ns : Option Ident} {is : Option (List NamedImport)} {a m o b : Point} : Next sty a t m →
      IdentTok ctx t id → Sym sty p!"," m o → ImportNames sty ctx ns is o b → ImportWhat sty ctx (some id) ns is a b
  | names {ns : Option Ident} {is : Option (List NamedImport)} {a b : Point} : ImportNames sty ctx ns is a b →
      ImportWhat sty ctx none ns is a b

/-! ## The rules -/

/-- Derivations. -/
inductive Derives (sty : SourceType) : Ctx → CNode → Point → Point → Prop where
  /-- What binds tighter may stand where something weaker is allowed. -/
  | up {ctx : Ctx} {l : Nat} {e : Expr} {a b : Point} : l ≤ 17 ∨ l = 20 → Derives sty ctx (.expr (l + 1) e) a b →
      Derives sty ctx (.expr l e) a b
  -- Primary expressions
  | this {ctx : Ctx} {t : Token} {a b : Point} : Next sty a t b → t.value = .keyword k!"this" →
      Derives sty ctx (.expr 21 (.this t.span)) a b
  | identRef {ctx : Ctx} {t : Token} {id : Ident} {a b : Point} : Next sty a t b → IdentTok ctx t id →
      t.value ≠ .keyword k!"async" → Derives sty ctx (.expr 21 (.ident id)) a b
  | null {ctx : Ctx} {t : Token} {a b : Point} : Next sty a t b → t.value = .keyword k!"null" →
      Derives sty ctx (.expr 21 (.literal t.span .null)) a b
  | true {ctx : Ctx} {t : Token} {a b : Point} : Next sty a t b → t.value = .keyword k!"true" →
      Derives sty ctx (.expr 21 (.literal t.span (.boolean true))) a b
  | false {ctx : Ctx} {t : Token} {a b : Point} : Next sty a t b → t.value = .keyword k!"false" →
      Derives sty ctx (.expr 21 (.literal t.span (.boolean false))) a b
  | string {ctx : Ctx} {t : Token} {s : LitString} {a b : Point} : Next sty a t b → t.value = .lit (.string s) →
      Derives sty ctx (.expr 21 (.literal t.span (.string s))) a b
  | number {ctx : Ctx} {t : Token} {s : Str} {a b : Point} : Next sty a t b → t.value = .lit (.number s) →
      Derives sty ctx (.expr 21 (.literal t.span (.number s))) a b
  | regexE {ctx : Ctx} {w : Str} {t : Token} {a b : Point} : RegexAt sty w t a b → Seekable sty a →
      Derives sty ctx (.expr 21 (.literal t.span (.regexp w))) a b
  | templateE {ctx : Ctx} {sp : Span} {ps : List TemplatePart} {a b : Point} : Derives sty ctx (.template ps) a b →
      From sty a b sp → Derives sty ctx (.expr 21 (.literal sp (.template ps))) a b
  | paren {ctx : Ctx} {e : Expr} {sp : Span} {a m o b : Point} : Sym sty p!"(" a m →
      Derives sty { ctx with in_ := Bool.true } (.expr 0 e) m o → Sym sty p!")" o b → From sty a b sp →
      Derives sty ctx (.expr 21 (.paren sp e)) a b
  | array {ctx : Ctx} {es : List ArrayElement} {sp : Span} {a m b : Point} : Sym sty p!"[" a m →
      Derives sty ctx (.elements es) m b → From sty a b sp → Derives sty ctx (.expr 21 (.literal sp (.array es))) a b
  | elementsEnd {ctx : Ctx} {a b : Point} : Sym sty p!"]" a b → Derives sty ctx (.elements []) a b
  | elementsHole {ctx : Ctx} {es : List ArrayElement} {a m b : Point} : Sym sty p!"," a m →
      Derives sty ctx (.elements es) m b → Derives sty ctx (.elements (.elision :: es)) a b
  | elementsLast {ctx : Ctx} {e : ArrayElement} {a m b : Point} : Derives sty ctx (.element e) a m → Sym sty p!"]" m b →
      Derives sty ctx (.elements [e]) a b
  | elementsMore {ctx : Ctx} {e : ArrayElement} {es : List ArrayElement} {a m o b : Point} :
      Derives sty ctx (.element e) a m → Sym sty p!"," m o → Derives sty ctx (.elements es) o b →
      Derives sty ctx (.elements (e :: es)) a b
  | elementExpr {ctx : Ctx} {e : Expr} {a b : Point} : Derives sty ctx (.expr 1 e) a b →
      Derives sty ctx (.element (.expr e)) a b
  | elementSpread {ctx : Ctx} {e : Expr} {a m b : Point} : Sym sty p!"..." a m → Derives sty ctx (.expr 1 e) m b →
      Derives sty ctx (.element (.spread e)) a b
  | object {ctx : Ctx} {ps : List PropDef} {sp : Span} {a m b : Point} : Sym sty p!"{" a m →
      Derives sty ctx (.props ps) m b → From sty a b sp → Derives sty ctx (.expr 21 (.literal sp (.object ps))) a b
  | propsEnd {ctx : Ctx} {a b : Point} : Sym sty p!"}" a b → Derives sty ctx (.props []) a b
  | propsLast {ctx : Ctx} {p : PropDef} {a m b : Point} : Derives sty ctx (.prop p) a m → Sym sty p!"}" m b →
      Derives sty ctx (.props [p]) a b
  | propsMore {ctx : Ctx} {p : PropDef} {ps : List PropDef} {a m o b : Point} :
      Derives sty ctx (.prop p) a m → Sym sty p!"," m o → Derives sty ctx (.props ps) o b →
      Derives sty ctx (.props (p :: ps)) a b
  | propIdent {ctx : Ctx} {t : Token} {id : Ident} {a b : Point} : Next sty a t b → IdentTok ctx t id → ¬ specialProp t →
      Derives sty ctx (.prop (.identRef id)) a b
  | propSpread {ctx : Ctx} {e : Expr} {a m b : Point} : Sym sty p!"..." a m → Derives sty ctx (.expr 1 e) m b →
      Derives sty ctx (.prop (.spread e)) a b
  | propNamed {ctx : Ctx} {n : PropName} {e : Expr} {sp : Span} {a m o b : Point} : Derives sty ctx (.propName n) a m →
      Sym sty p!":" m o → Derives sty ctx (.expr 1 e) o b → From sty a b sp → Derives sty ctx (.prop (.named sp n e)) a b
  | propMethod {ctx : Ctx} {n : PropName} {k : MethodKind} {sp : Span} {ps : FormalParams} {bd : Body} {g y : Bool} {a b : Point} :
      Look sty a (fun t => t.value ≠ .punct p!"[") →
      Derives sty { ctx with inMethod := Bool.true, staticMethod := Bool.false, superCall := Bool.false }
        (.method (.mk sp n k ps bd g y Bool.false)) a b →
      Derives sty ctx (.prop (.method (.mk sp n k ps bd g y Bool.false))) a b
  /-- Departure: the context of a method that starts with a computed name is that of the object literal. -/
  | propComputedMethod {ctx : Ctx} {n : Expr} {sp bsp : Span} {ps : FormalParams} {ds : List LitString} {ss : List Stmt}
      {a m o b : Point} : Derives sty ctx (.propName (.computed n)) a m →
      Derives sty { ctx with yield := Bool.false } (.params ps) m o → Derives sty ctx (.body (.mk bsp ds ss)) o b →
      ParamsOK .method ps ds → From sty a b sp →
      Derives sty ctx (.prop (.method (.mk sp (.computed n) .method ps (.mk bsp ds ss) ctx.yield ctx.await Bool.false))) a b
  | nameIdent {ctx : Ctx} {t : Token} {id : Ident} {a b : Point} : Next sty a t b → NameTok t id →
      Derives sty ctx (.propName (.ident id)) a b
  | nameString {ctx : Ctx} {t : Token} {s : LitString} {a b : Point} : Next sty a t b → t.value = .lit (.string s) →
      Derives sty ctx (.propName (.string s)) a b
  | nameNumber {ctx : Ctx} {t : Token} {s : Str} {a b : Point} : Next sty a t b → t.value = .lit (.number s) →
      Derives sty ctx (.propName (.number s)) a b
  | nameComputed {ctx : Ctx} {e : Expr} {a m o b : Point} : Sym sty p!"[" a m → Derives sty ctx (.expr 1 e) m o →
      Sym sty p!"]" o b → Derives sty ctx (.propName (.computed e)) a b
  -- Templates
  | templatePlain {ctx : Ctx} {s : Str} {a b : Point} : Tok sty (.lit (.template s)) a b →
      Derives sty ctx (.template [.string s]) a b
  | templateHead {ctx : Ctx} {s : Str} {ps : List TemplatePart} {a m b : Point} : Tok sty (.templateHead s) a m →
      Derives sty ctx (.templateRest ps) m b → Derives sty ctx (.template (stringPart s ++ ps)) a b
  | templateMiddle {ctx : Ctx} {e : Expr} {s : Str} {ps : List TemplatePart} {t : Token} {a m o b : Point} :
      Derives sty ctx (.expr 0 e) a m → Seekable sty m → Continues sty m t o → t.value = .templateMiddle s →
      Derives sty ctx (.templateRest ps) o b → Derives sty ctx (.templateRest (.expr e :: (stringPart s ++ ps))) a b
  | templateTail {ctx : Ctx} {e : Expr} {s : Str} {t : Token} {a m b : Point} :
      Derives sty ctx (.expr 0 e) a m → Seekable sty m → Continues sty m t b → t.value = .templateTail s →
      Derives sty ctx (.templateRest (.expr e :: stringPart s)) a b
  -- Member and call expressions
  | member {ctx : Ctx} {e : Expr} {p : MemberProp} {sp : Span} {a m b : Point} :
      Derives sty ctx (.expr 20 e) a m → Derives sty ctx (.memberProp p) m b → From sty a b sp →
      Derives sty ctx (.expr 20 (.member sp (.expr e) p)) a b
  | tagged {ctx : Ctx} {e : Expr} {ps : List TemplatePart} {sp : Span} {a m b : Point} :
      Derives sty ctx (.expr 20 e) a m → Derives sty ctx (.template ps) m b → From sty a b sp →
      Derives sty ctx (.expr 20 (.tagged sp e ps)) a b
  | superMember {ctx : Ctx} {t : Token} {p : MemberProp} {sp : Span} {a m b : Point} : ctx.inMethod = Bool.true →
      Next sty a t m → t.value = .keyword k!"super" → Derives sty ctx (.memberProp p) m b → From sty a b sp →
      Derives sty ctx (.expr 20 (.member sp (.super t.span) p)) a b
  | newTarget {ctx : Ctx} {n t : Token} {id : Ident} {sp : Span} {a m o b : Point} : Next sty a n m →
      n.value = .keyword k!"new" → Sym sty p!"." m o → Next sty o t b → IdentTok ctx t id → id.name = c!"target" →
      From sty a b sp → Derives sty ctx (.expr 20 (.metaProp sp ⟨n.span, c!"new"⟩ id)) a b
  | importMeta {ctx : Ctx} {n t : Token} {id : Ident} {sp : Span} {a m o b : Point} : Next sty a n m →
      n.value = .keyword k!"import" → Sym sty p!"." m o → Next sty o t b → IdentTok ctx t id → id.name = c!"meta" →
      From sty a b sp → Derives sty ctx (.expr 20 (.metaProp sp ⟨n.span, c!"import"⟩ id)) a b
  | newArgs {ctx : Ctx} {e : Expr} {sp asp : Span} {as : List Argument} {a m o b : Point} : Key sty k!"new" a m →
      Derives sty ctx (.expr 20 e) m o → Derives sty ctx (.args asp as) o b → From sty a b sp →
      Derives sty ctx (.expr 20 (.new sp e (some asp) as)) a b
  | memberName {ctx : Ctx} {t : Token} {id : Ident} {a m b : Point} : Sym sty p!"." a m → Next sty m t b → NameTok t id →
      Derives sty ctx (.memberProp (.ident id)) a b
  | memberComputed {ctx : Ctx} {e : Expr} {a m o b : Point} : Sym sty p!"[" a m →
      Derives sty { ctx with in_ := Bool.true } (.expr 0 e) m o → Sym sty p!"]" o b →
      Derives sty ctx (.memberProp (.expr e)) a b
  | newMember {ctx : Ctx} {e : Expr} {a b : Point} : Derives sty ctx (.expr 20 e) a b → Derives sty ctx (.newE e) a b
  | newPlain {ctx : Ctx} {e : Expr} {sp : Span} {a m b : Point} : Key sty k!"new" a m → Derives sty ctx (.newE e) m b →
      From sty a b sp → Derives sty ctx (.newE (.new sp e none [])) a b
  | newLhs {ctx : Ctx} {e : Expr} {a b : Point} : Derives sty ctx (.newE e) a b → Derives sty ctx (.expr 18 e) a b
  | call {ctx : Ctx} {e : Expr} {sp asp : Span} {as : List Argument} {a m b : Point} : Derives sty ctx (.expr 20 e) a m →
      Derives sty ctx (.args asp as) m b → From sty a b sp → Derives sty ctx (.callE (.call sp (.expr e) asp as)) a b
  | callAgain {ctx : Ctx} {e : Expr} {sp asp : Span} {as : List Argument} {a m b : Point} : Derives sty ctx (.callE e) a m →
      Derives sty ctx (.args asp as) m b → From sty a b sp → Derives sty ctx (.callE (.call sp (.expr e) asp as)) a b
  | callMember {ctx : Ctx} {e : Expr} {p : MemberProp} {sp : Span} {a m b : Point} :
      Derives sty ctx (.callE e) a m → Derives sty ctx (.memberProp p) m b → From sty a b sp →
      Derives sty ctx (.callE (.member sp (.expr e) p)) a b
  /-- Departure: after a call only templates without substitutions are allowed. -/
  | callTagged {ctx : Ctx} {e : Expr} {s : Str} {sp : Span} {a m b : Point} :
      Derives sty ctx (.callE e) a m → Tok sty (.lit (.template s)) m b → From sty a b sp →
      Derives sty ctx (.callE (.tagged sp e [.string s])) a b
  | callLhs {ctx : Ctx} {e : Expr} {a b : Point} : Derives sty ctx (.callE e) a b → Derives sty ctx (.expr 18 e) a b
  /-- Departure: nothing but an optional chain may follow. -/
  | superCall {ctx : Ctx} {sp asp : Span} {as : List Argument} {a m b : Point} : ctx.superCall = Bool.true →
      Key sty k!"super" a m → Derives sty ctx (.args asp as) m b → From sty a b sp →
      Derives sty ctx (.expr 18 (.call sp .super asp as)) a b
  /-- Departure: nothing but an optional chain may follow. -/
  | importCall {ctx : Ctx} {e : Expr} {sp asp : Span} {a m o p b : Point} : Key sty k!"import" a m → Sym sty p!"(" m o →
      Derives sty ctx (.expr 1 e) o p → Sym sty p!")" p b → From sty m b asp → From sty a b sp →
      Derives sty ctx (.expr 18 (.call sp .import asp [.expr e])) a b
  | args {ctx : Ctx} {sp : Span} {as : List Argument} {a m b : Point} : Sym sty p!"(" a m →
      Derives sty { ctx with in_ := Bool.true } (.argList as) m b → From sty a b sp → Derives sty ctx (.args sp as) a b
  | argsEnd {ctx : Ctx} {a b : Point} : Sym sty p!")" a b → Derives sty ctx (.argList []) a b
  | argsLast {ctx : Ctx} {x : Argument} {a m b : Point} : Derives sty ctx (.arg x) a m → Sym sty p!")" m b →
      Derives sty ctx (.argList [x]) a b
  | argsMore {ctx : Ctx} {x : Argument} {xs : List Argument} {a m o b : Point} :
      Derives sty ctx (.arg x) a m → Sym sty p!"," m o → Derives sty ctx (.argList xs) o b →
      Derives sty ctx (.argList (x :: xs)) a b
  | argExpr {ctx : Ctx} {e : Expr} {a b : Point} : Derives sty ctx (.expr 1 e) a b → Derives sty ctx (.arg (.expr e)) a b
  | argSpread {ctx : Ctx} {e : Expr} {a m b : Point} : Sym sty p!"..." a m → Derives sty ctx (.expr 1 e) m b →
      Derives sty ctx (.arg (.spread e)) a b
  -- Optional chains
  | chainFirstMember {ctx : Ctx} {e : Expr} {p : MemberProp} {sp : Span} {a m b : Point} : Derives sty ctx (.expr 18 e) a m →
      nestedNew e = Bool.false → Derives sty ctx (.optProp Bool.true p) m b → From sty a b sp →
      Derives sty ctx (.chain (.optMember sp e p Bool.true)) a b
  | chainFirstCall {ctx : Ctx} {e : Expr} {sp asp : Span} {as : List Argument} {a m o b : Point} :
      Derives sty ctx (.expr 18 e) a m → nestedNew e = Bool.false → Sym sty p!"?." m o → Derives sty ctx (.args asp as) o b →
      From sty a b sp → Derives sty ctx (.chain (.optCall sp e asp as Bool.true)) a b
  | chainMember {ctx : Ctx} {optional : Bool} {e : Expr} {p : MemberProp} {sp : Span} {a m b : Point} :
      Derives sty ctx (.chain e) a m → Derives sty ctx (.optProp optional p) m b → From sty a b sp →
      Derives sty ctx (.chain (.optMember sp e p optional)) a b
  | chainOptCall {ctx : Ctx} {e : Expr} {sp asp : Span} {as : List Argument} {a m o b : Point} :
      Derives sty ctx (.chain e) a m → Sym sty p!"?." m o → Derives sty ctx (.args asp as) o b → From sty a b sp →
      Derives sty ctx (.chain (.optCall sp e asp as Bool.true)) a b
  | chainCall {ctx : Ctx} {e : Expr} {sp asp : Span} {as : List Argument} {a m b : Point} :
      Derives sty ctx (.chain e) a m → Derives sty ctx (.args asp as) m b → From sty a b sp →
      Derives sty ctx (.chain (.optCall sp e asp as Bool.false)) a b
  | chainExpr {ctx : Ctx} {e : Expr} {a b : Point} : Derives sty ctx (.chain e) a b → Derives sty ctx (.expr 17 e) a b
  /-- Departure: the name must be an identifier; keywords are not allowed. -/
  | optName {ctx : Ctx} {t : Token} {id : Ident} {a m b : Point} : Sym sty p!"?." a m → Next sty m t b → IdentTok ctx t id →
      Derives sty ctx (.optProp Bool.true (.ident id)) a b
  | optDotName {ctx : Ctx} {t : Token} {id : Ident} {a m b : Point} : Sym sty p!"." a m → Next sty m t b →
      IdentTok ctx t id → Derives sty ctx (.optProp Bool.false (.ident id)) a b
  | optComputed {ctx : Ctx} {e : Expr} {a m o p b : Point} : Sym sty p!"?." a m → Sym sty p!"[" m o →
      Derives sty ctx (.expr 0 e) o p → Sym sty p!"]" p b → Derives sty ctx (.optProp Bool.true (.expr e)) a b
  | optIndex {ctx : Ctx} {e : Expr} {a m o b : Point} : Sym sty p!"[" a m →
      Derives sty ctx (.expr 0 e) m o → Sym sty p!"]" o b → Derives sty ctx (.optProp Bool.false (.expr e)) a b
  -- Operators
  | prefixUpdate {ctx : Ctx} {t : Token} {op : UpdateOp} {e : Expr} {sp : Span} {a m b : Point} : Next sty a t m →
      symbol t.value = some op.asStr → Derives sty ctx (.expr 15 e) m b → TargetOK ctx.strict e → From sty a b sp →
      Derives sty ctx (.expr 16 (.update sp op Bool.true e)) a b
  /-- No line terminator before the operator. -/
  | postfixUpdate {ctx : Ctx} {t : Token} {op : UpdateOp} {e : Expr} {sp : Span} {a m b : Point} :
      Derives sty ctx (.expr 17 e) a m → TargetOK ctx.strict e → Next sty m t b → symbol t.value = some op.asStr →
      t.fol = Bool.false → From sty a b sp → Derives sty ctx (.expr 16 (.update sp op Bool.false e)) a b
  | unary {ctx : Ctx} {t : Token} {op : UnaryOp} {e : Expr} {sp : Span} {a m b : Point} : Next sty a t m →
      symbol t.value = some op.asStr → Derives sty ctx (.expr 15 e) m b → (op = .delete → DeleteOK ctx.strict e) →
      From sty a b sp → Derives sty ctx (.expr 15 (.unary sp op e)) a b
  | await {ctx : Ctx} {e : Expr} {sp : Span} {a m b : Point} : ctx.await = Bool.true → Key sty k!"await" a m →
      Derives sty ctx (.expr 15 e) m b → From sty a b sp → Derives sty ctx (.expr 15 (.await sp e)) a b
  /-- Departure: `**` groups to the left and its operands may be any unary expressions. -/
  | binary {ctx : Ctx} {t : Token} {op : BinaryOp} {x y : Expr} {sp : Span} {a m o b : Point} :
      Derives sty ctx (.expr (binaryLevel op) x) a m → Next sty m t o → symbol t.value = some op.asStr →
      (op = .in_ → ctx.in_ = Bool.true) → Derives sty ctx (.expr (binaryLevel op + 1) y) o b → From sty a b sp →
      Derives sty ctx (.expr (binaryLevel op) (.binary sp op x y)) a b
  /-- Departure: `??` may be mixed with `||` and `&&`. -/
  | logical {ctx : Ctx} {t : Token} {op : LogicalOp} {x y : Expr} {sp : Span} {a m o b : Point} :
      Derives sty ctx (.expr (logicalLevel op) x) a m → Next sty m t o → symbol t.value = some op.asStr →
      Derives sty ctx (.expr (logicalLevel op + 1) y) o b → From sty a b sp →
      Derives sty ctx (.expr (logicalLevel op) (.logical sp op x y)) a b
  /-- Departure: `in` is not re-enabled between `?` and `:`. -/
  | conditional {ctx : Ctx} {x y z : Expr} {sp : Span} {a m o p q b : Point} :
      Derives sty ctx (.expr 3 x) a m → Sym sty p!"?" m o → Derives sty ctx (.expr 1 y) o p → Sym sty p!":" p q →
      Derives sty ctx (.expr 1 z) q b → From sty a b sp → Derives sty ctx (.expr 2 (.conditional sp x y z)) a b
  /-- Departure: the left side must not start with `async`. -/
  | assign {ctx : Ctx} {t : Token} {op : AssignOp} {x y : Expr} {sp : Span} {a m o b : Point} :
      Derives sty ctx (.expr 17 x) a m → Look sty a (fun t => t.value ≠ .keyword k!"async") → TargetOK ctx.strict x →
      Next sty m t o → symbol t.value = some op.asStr → Derives sty ctx (.expr 1 y) o b → From sty a b sp →
      Derives sty ctx (.expr 1 (.assign sp op (.expr x) y)) a b
  /-- `yield` without an operand.  Departure: `,`, `:` and `in` do not end it. -/
  | yieldNone {ctx : Ctx} {sp : Span} {a b : Point} : ctx.yield = Bool.true → Key sty k!"yield" a b →
      Look sty b (fun t => t.fol = Bool.true ∨
        t.value ∈ [.punct p!";", .punct p!"}", .punct p!")", .punct p!"]"]) → From sty a b sp →
      Derives sty ctx (.expr 1 (.yield sp none Bool.false)) a b
  /-- No line terminator after `yield`. -/
  | yield {ctx : Ctx} {e : Expr} {sp : Span} {a m b : Point} : ctx.yield = Bool.true → Key sty k!"yield" a m →
      Look sty m (fun t => t.fol = Bool.false) → Derives sty ctx (.expr 1 e) m b → From sty a b sp →
      Derives sty ctx (.expr 1 (.yield sp (some e) Bool.false)) a b
  | yieldStar {ctx : Ctx} {e : Expr} {sp : Span} {a m o b : Point} : ctx.yield = Bool.true → Key sty k!"yield" a m →
      Look sty m (fun t => t.fol = Bool.false) → Sym sty p!"*" m o → Derives sty ctx (.expr 1 e) o b → From sty a b sp →
      Derives sty ctx (.expr 1 (.yield sp (some e) Bool.true)) a b
  | comma {ctx : Ctx} {e : Expr} {es : List Expr} {sp : Span} {a m b : Point} : Derives sty ctx (.expr 1 e) a m →
      Derives sty ctx (.exprs es) m b → From sty a b sp → Derives sty ctx (.expr 0 (.sequence sp (e :: es))) a b
  | exprsLast {ctx : Ctx} {e : Expr} {a m b : Point} : Sym sty p!"," a m → Derives sty ctx (.expr 1 e) m b →
      Derives sty ctx (.exprs [e]) a b
  | exprsMore {ctx : Ctx} {e : Expr} {es : List Expr} {a m o b : Point} : Sym sty p!"," a m →
      Derives sty ctx (.expr 1 e) m o → Derives sty ctx (.exprs es) o b → Derives sty ctx (.exprs (e :: es)) a b
  -- Functions
  /-- Departure: the name is resolved in the context of the inside. -/
  | function {ctx : Ctx} {generator : Bool} {id : Option Ident} {ps : FormalParams} {bd : Body} {sp : Span}
      {a m o p q b : Point} : Key sty k!"function" a m → OptTok sty (.punct p!"*") generator m o →
      OptName sty (insideFunction ctx generator Bool.false) id o p →
      Derives sty (insideFunction ctx generator Bool.false) (.params ps) p q →
      Derives sty (insideFunction ctx generator Bool.false) (.body bd) q b → From sty a b sp →
      Derives sty ctx (.expr 21 (.function sp Bool.false generator id ps bd)) a b
  /-- No line terminator after `async`. -/
  | asyncFunction {ctx : Ctx} {generator : Bool} {id : Option Ident} {ps : FormalParams} {bd : Body} {sp : Span}
      {a l m o p q b : Point} : Key sty k!"async" a l → Look sty l (fun t => t.fol = Bool.false) → Key sty k!"function" l m →
      OptTok sty (.punct p!"*") generator m o → OptName sty (insideFunction ctx generator Bool.true) id o p →
      Derives sty (insideFunction ctx generator Bool.true) (.params ps) p q →
      Derives sty (insideFunction ctx generator Bool.true) (.body bd) q b → From sty a b sp →
      Derives sty ctx (.expr 21 (.function sp Bool.true generator id ps bd)) a b
  | classE {ctx : Ctx} {id : Option Ident} {sup : Option Expr} {ms : List MethodDef} {sp : Span} {a m o b : Point} :
      Key sty k!"class" a m → OptName sty { ctx with strict := Bool.true } id m o →
      Derives sty { ctx with strict := Bool.true } (.classTail sup ms) o b → From sty a b sp →
      Derives sty ctx (.expr 21 (.classE sp id sup ms)) a b
  | classPlain {ctx : Ctx} {ms : List MethodDef} {a m b : Point} : Sym sty p!"{" a m →
      Derives sty ctx (.classBody Bool.false ms) m b → Derives sty ctx (.classTail none ms) a b
  | classExtends {ctx : Ctx} {e : Expr} {ms : List MethodDef} {a m o p b : Point} : Key sty k!"extends" a m →
      Derives sty ctx (.expr 17 e) m o → Sym sty p!"{" o p → Derives sty ctx (.classBody Bool.true ms) p b →
      Derives sty ctx (.classTail (some e) ms) a b
  | classEnd {ctx : Ctx} {hasSuper : Bool} {a b : Point} : Sym sty p!"}" a b → Derives sty ctx (.classBody hasSuper []) a b
  | classSemi {ctx : Ctx} {hasSuper : Bool} {ms : List MethodDef} {a m b : Point} : Sym sty p!";" a m →
      Derives sty ctx (.classBody hasSuper ms) m b → Derives sty ctx (.classBody hasSuper ms) a b
  /-- `super()` is allowed in the constructor of a class that extends another one.  Departure: what matters is the first
  token. -/
  | classMore {ctx : Ctx} {hasSuper : Bool} {x : MethodDef} {ms : List MethodDef} {t : Token} {a c m b : Point} : Next sty a t c →
      Derives sty { ctx with inMethod := Bool.true, staticMethod := Bool.true, superCall := hasSuper && ctorTok t }
        (.classElement x) a m →
      Derives sty ctx (.classBody hasSuper ms) m b → Derives sty ctx (.classBody hasSuper (x :: ms)) a b
  | elementPlain {ctx : Ctx} {n : PropName} {k : MethodKind} {sp : Span} {ps : FormalParams} {bd : Body} {g y : Bool}
      {a b : Point} : Derives sty ctx (.method (.mk sp n k ps bd g y Bool.false)) a b →
      Derives sty ctx (.classElement (.mk sp n k ps bd g y Bool.false)) a b
  /-- Departure: the span does not include `static`. -/
  | elementStatic {ctx : Ctx} {n : PropName} {k : MethodKind} {sp : Span} {ps : FormalParams} {bd : Body} {g y : Bool}
      {a m b : Point} : ctx.staticMethod = Bool.true → Key sty k!"static" a m →
      Derives sty ctx (.method (.mk sp n k ps bd g y Bool.true)) m b →
      Derives sty ctx (.classElement (.mk sp n k ps bd g y Bool.true)) a b
  /-- Departures: a method in the code of a generator or an async function counts as one, too; `async` is not the name of a
  method unless a line terminator follows. -/
  | method {ctx : Ctx} {n : PropName} {ps : FormalParams} {sp bsp : Span} {ds : List LitString} {ss : List Stmt}
      {isStatic : Bool} {a m o b : Point} :
      (∀ t c, Next sty a t c → t.value = .keyword k!"async" → Look sty c fun u => u.fol = Bool.true) →
      Derives sty ctx (.propName n) a m → Derives sty { ctx with yield := Bool.false } (.params ps) m o →
      Derives sty ctx (.body (.mk bsp ds ss)) o b → ParamsOK .method ps ds → From sty a b sp →
      Derives sty ctx (.method (.mk sp n .method ps (.mk bsp ds ss) ctx.yield ctx.await isStatic)) a b
  | generatorMethod {ctx : Ctx} {n : PropName} {ps : FormalParams} {sp bsp : Span} {ds : List LitString} {ss : List Stmt}
      {isStatic : Bool} {a l m o b : Point} : Sym sty p!"*" a l →
      Derives sty ctx (.propName n) l m → Derives sty { ctx with yield := Bool.false, await := Bool.false } (.params ps) m o →
      Derives sty { ctx with yield := Bool.true, await := Bool.false } (.body (.mk bsp ds ss)) o b → ParamsOK .method ps ds →
      From sty a b sp → Derives sty ctx (.method (.mk sp n .method ps (.mk bsp ds ss) Bool.true Bool.false isStatic)) a b
  /-- No line terminator after `async`. -/
  | asyncMethod {ctx : Ctx} {n : PropName} {ps : FormalParams} {sp bsp : Span} {ds : List LitString} {ss : List Stmt}
      {g isStatic : Bool} {a l m o p b : Point} : Key sty k!"async" a l → Look sty l (fun u => u.fol = Bool.false) →
      OptTok sty (.punct p!"*") g l m →
      Derives sty ctx (.propName n) m o → Derives sty { ctx with yield := Bool.false, await := Bool.true } (.params ps) o p →
      Derives sty { ctx with yield := g, await := Bool.true } (.body (.mk bsp ds ss)) p b → ParamsOK .method ps ds →
      From sty a b sp → Derives sty ctx (.method (.mk sp n .method ps (.mk bsp ds ss) g Bool.true isStatic)) a b
  | getter {ctx : Ctx} {n : PropName} {ps : FormalParams} {sp bsp : Span} {ds : List LitString} {ss : List Stmt}
      {isStatic : Bool} {a l m o b : Point} : Key sty k!"get" a l →
      Derives sty ctx (.propName n) l m → Derives sty { ctx with yield := Bool.false } (.params ps) m o →
      Derives sty ctx (.body (.mk bsp ds ss)) o b → ParamsOK .get ps ds → From sty a b sp →
      Derives sty ctx (.method (.mk sp n .get ps (.mk bsp ds ss) ctx.yield ctx.await isStatic)) a b
  | setter {ctx : Ctx} {n : PropName} {ps : FormalParams} {sp bsp : Span} {ds : List LitString} {ss : List Stmt}
      {isStatic : Bool} {a l m o b : Point} : Key sty k!"set" a l →
      Derives sty ctx (.propName n) l m → Derives sty { ctx with yield := Bool.false } (.params ps) m o →
      Derives sty ctx (.body (.mk bsp ds ss)) o b → ParamsOK .set ps ds → From sty a b sp →
      Derives sty ctx (.method (.mk sp n .set ps (.mk bsp ds ss) ctx.yield ctx.await isStatic)) a b
  | params {ctx : Ctx} {es : List BindingElement} {rest : Option BindingPattern} {sp : Span} {a m b : Point} :
      Sym sty p!"(" a m → Derives sty ctx (.paramList es rest) m b → From sty a b sp →
      Derives sty ctx (.params (.mk sp es rest)) a b
  | paramsEnd {ctx : Ctx} {a b : Point} : Sym sty p!")" a b → Derives sty ctx (.paramList [] none) a b
  | paramsRest {ctx : Ctx} {p : BindingPattern} {a m o b : Point} : Sym sty p!"..." a m → Derives sty ctx (.binding p) m o →
      Sym sty p!")" o b → Derives sty ctx (.paramList [] (some p)) a b
  | paramsLast {ctx : Ctx} {e : BindingElement} {a m b : Point} : Derives sty ctx (.bindingElement e) a m →
      Sym sty p!")" m b → Derives sty ctx (.paramList [e] none) a b
  | paramsMore {ctx : Ctx} {e : BindingElement} {es : List BindingElement} {rest : Option BindingPattern} {a m o b : Point} :
      Derives sty ctx (.bindingElement e) a m → Sym sty p!"," m o → Derives sty ctx (.paramList es rest) o b →
      Derives sty ctx (.paramList (e :: es) rest) a b
  | body {ctx : Ctx} {ds : List LitString} {ss : List Stmt} {sp : Span} {a m o b : Point} : Sym sty p!"{" a m →
      Derives sty ctx (.directives ds) m o →
      Derives sty { afterDirectives ctx ds with return_ := Bool.true } (.stmts ss) o b → From sty a b sp →
      Derives sty ctx (.body (.mk sp ds ss)) a b
  | directivesEnd {ctx : Ctx} {a : Point} : Look sty a (fun t => ∀ s, t.value ≠ .lit (.string s)) →
      Derives sty ctx (.directives []) a a
  /-- The first statement starts with a string but is not a directive. -/
  | directivesStop {ctx : Ctx} {t : Token} {l : LitString} {s : Stmt} {a b c : Point} : Next sty a t c →
      t.value = .lit (.string l) → Seekable sty a → Derives sty ctx (.item s) a b →
      (∀ sp tsp l', s ≠ .expr sp (.literal tsp (.string l'))) → Derives sty ctx (.directives []) a a
  | directivesMore {ctx : Ctx} {t : Token} {s : LitString} {ds : List LitString} {a m o b : Point} : Next sty a t m →
      t.value = .lit (.string s) → Ends sty { ctx with in_ := Bool.true } 0 m → EndOfStmt sty m o →
      Derives sty ctx (.directives ds) o b → Derives sty ctx (.directives (s :: ds)) a b
  -- Arrow functions
  | arrowIdent {ctx : Ctx} {t u : Token} {id : Ident} {bd : ArrowBody} {sp : Span} {a m o b : Point} : Next sty a t m →
      IdentTok ctx t id → Next sty m u o → u.value = .punct p!"=>" → u.fol = Bool.false →
      Derives sty (insideArrow ctx Bool.false) (.arrowBody bd) o b → From sty a b sp →
      Derives sty ctx (.expr 1 (.arrow sp Bool.false Bool.true (.mk t.span [.mk t.span (.ident id) none] none) bd)) a b
  /-- The parameters must be recognizable, see `arrowAhead`. -/
  | arrow {ctx : Ctx} {u : Token} {ps : FormalParams} {bd : ArrowBody} {sp : Span} {a x m o b : Point} :
      Derives sty ctx .arrowAhead a x → Derives sty ctx (.params ps) a m → Next sty m u o → u.value = .punct p!"=>" →
      u.fol = Bool.false → Derives sty (insideArrow ctx Bool.false) (.arrowBody bd) o b → From sty a b sp →
      Derives sty ctx (.expr 1 (.arrow sp Bool.false Bool.false ps bd)) a b
  /-- Departure: a line terminator is allowed after `async`. -/
  | asyncArrowIdent {ctx : Ctx} {t u : Token} {id : Ident} {bd : ArrowBody} {sp : Span} {a l m o b : Point} :
      Key sty k!"async" a l → Next sty l t m → IdentTok ctx t id → Next sty m u o → u.value = .punct p!"=>" →
      u.fol = Bool.false → Derives sty (insideArrow ctx Bool.true) (.arrowBody bd) o b → From sty a b sp →
      Derives sty ctx (.expr 1 (.arrow sp Bool.true Bool.true (.mk t.span [.mk t.span (.ident id) none] none) bd)) a b
  /-- Departures: a line terminator is allowed after `async`; the parameters must also be arguments of a call. -/
  | asyncArrow {ctx : Ctx} {u : Token} {ps : FormalParams} {bd : ArrowBody} {sp asp : Span} {as : List Argument}
      {a l m o b : Point} : Seekable sty a → Key sty k!"async" a l → Derives sty ctx (.args asp as) l m →
      Derives sty ctx (.params ps) l m → Next sty m u o → u.value = .punct p!"=>" →
      u.fol = Bool.false → Derives sty (insideArrow ctx Bool.true) (.arrowBody bd) o b → From sty a b sp →
      Derives sty ctx (.expr 1 (.arrow sp Bool.true Bool.false ps bd)) a b
  /-- A call of a function with the name `async`.  Departure: nothing may follow. -/
  | asyncCall {ctx : Ctx} {t : Token} {id : Ident} {sp asp : Span} {as : List Argument} {a m b : Point} : Next sty a t m →
      t.value = .keyword k!"async" → IdentTok ctx t id → Derives sty ctx (.args asp as) m b → From sty a b sp →
      Derives sty ctx (.expr 1 (.call sp (.expr (.ident id)) asp as)) a b
  | arrowExpr {ctx : Ctx} {e : Expr} {a b : Point} : Look sty a (fun t => t.value ≠ .punct p!"{") →
      Derives sty ctx (.expr 1 e) a b → Derives sty ctx (.arrowBody (.expr e)) a b
  | arrowBlock {ctx : Ctx} {bd : Body} {a b : Point} : Derives sty ctx (.body bd) a b →
      Derives sty ctx (.arrowBody (.body bd)) a b
  | aheadEmpty {ctx : Ctx} {a m b : Point} : Sym sty p!"(" a m → Sym sty p!")" m b → Derives sty ctx .arrowAhead a b
  /-- The parameters could be an expression in parentheses, but `=>` follows. -/
  | aheadParen {ctx : Ctx} {e : Expr} {a m o p b : Point} : Seekable sty a → Sym sty p!"(" a m →
      Derives sty { ctx with in_ := Bool.true } (.expr 0 e) m o → Sym sty p!")" o p → Sym sty p!"=>" p b →
      Derives sty ctx .arrowAhead a b
  | aheadStop {ctx : Ctx} {s : Stop} {a m b : Point} : Seekable sty a → Sym sty p!"(" a m →
      Derives sty { ctx with in_ := Bool.true } (.stops s) m b → Derives sty ctx .arrowAhead a b
  | stopsHere {ctx : Ctx} {s : Stop} {a b : Point} : Derives sty ctx (.stop s) a b → Derives sty ctx (.stops s) a b
  | stopsMore {ctx : Ctx} {e : Expr} {s : Stop} {a m o b : Point} : Derives sty ctx (.expr 1 e) a m → Sym sty p!"," m o →
      Derives sty ctx (.stops s) o b → Derives sty ctx (.stops s) a b
  | stopDots {ctx : Ctx} {t : Token} {a b : Point} : Seekable sty a → Next sty a t b → t.value = .punct p!"..." →
      Derives sty ctx (.stop (.dots t)) a b
  | stopInit {ctx : Ctx} {i : Span} {p : AssignPattern} {a x b : Point} : Seekable sty a → Derives sty ctx (.initLit i) a x →
      Derives sty ctx (.assignPattern p) a b → Ends sty ctx 1 b → Derives sty ctx (.stop (.init i)) a b
  | initObject {ctx : Ctx} {i : Span} {a m b : Point} : Sym sty p!"{" a m → Derives sty ctx (.initProps i) m b →
      Derives sty ctx (.initLit i) a b
  | initArray {ctx : Ctx} {i : Span} {a m b : Point} : Sym sty p!"[" a m → Derives sty ctx (.initElements i) m b →
      Derives sty ctx (.initLit i) a b
  | initPropsHere {ctx : Ctx} {t u : Token} {id : Ident} {a b c : Point} : Next sty a t b → IdentTok ctx t id → ¬ specialProp t →
      Next sty b u c → u.value = .punct p!"=" → Derives sty ctx (.initProps u.span) a b
  | initPropsValue {ctx : Ctx} {n : PropName} {i : Span} {a m o b : Point} : Derives sty ctx (.propName n) a m →
      Sym sty p!":" m o → Derives sty ctx (.stop (.init i)) o b → Derives sty ctx (.initProps i) a b
  | initPropsMore {ctx : Ctx} {p : PropDef} {i : Span} {a m o b : Point} : Derives sty ctx (.prop p) a m → Sym sty p!"," m o →
      Derives sty ctx (.initProps i) o b → Derives sty ctx (.initProps i) a b
  | initElementsHere {ctx : Ctx} {i : Span} {a b : Point} : Derives sty ctx (.stop (.init i)) a b →
      Derives sty ctx (.initElements i) a b
  | initElementsSpread {ctx : Ctx} {i : Span} {a m b : Point} : Sym sty p!"..." a m → Derives sty ctx (.stop (.init i)) m b →
      Derives sty ctx (.initElements i) a b
  | initElementsHole {ctx : Ctx} {i : Span} {a m b : Point} : Sym sty p!"," a m → Derives sty ctx (.initElements i) m b →
      Derives sty ctx (.initElements i) a b
  | initElementsMore {ctx : Ctx} {e : ArrayElement} {i : Span} {a m o b : Point} : Derives sty ctx (.element e) a m →
      Sym sty p!"," m o → Derives sty ctx (.initElements i) o b → Derives sty ctx (.initElements i) a b
  -- Destructuring assignments
  /-- The pattern must be a literal, too, unless it has an initialized name. -/
  | assignLiteral {ctx : Ctx} {l : Literal} {p : AssignPattern} {y : Expr} {sp lsp : Span} {a m o b : Point} : Seekable sty a →
      Derives sty ctx (.expr 21 (.literal lsp l)) a m → (∃ ps, l = .object ps) ∨ (∃ es, l = .array es) →
      Derives sty ctx (.assignPattern p) a m → Sym sty p!"=" m o → Derives sty ctx (.expr 1 y) o b → From sty a b sp →
      Derives sty ctx (.expr 1 (.assign sp .assign (.pattern p) y)) a b
  | assignInit {ctx : Ctx} {i : Span} {p : AssignPattern} {y : Expr} {sp : Span} {a x m o b : Point} : Seekable sty a →
      Derives sty ctx (.initLit i) a x → Derives sty ctx (.assignPattern p) a m → Sym sty p!"=" m o →
      Derives sty ctx (.expr 1 y) o b → From sty a b sp → Derives sty ctx (.expr 1 (.assign sp .assign (.pattern p) y)) a b
  | assignObject {ctx : Ctx} {ps : List AssignProp} {rest : Option PatternOrExpr} {sp : Span} {a m b : Point} :
      Sym sty p!"{" a m → Derives sty ctx (.assignProps ps rest) m b → From sty a b sp →
      Derives sty ctx (.assignPattern (.object sp ps rest)) a b
  | assignArray {ctx : Ctx} {es : List (Option AssignElement)} {rest : Option PatternOrExpr} {sp : Span} {a m b : Point} :
      Sym sty p!"[" a m → Derives sty ctx (.assignElements es rest) m b → From sty a b sp →
      Derives sty ctx (.assignPattern (.array sp es rest)) a b
  | assignPropsEnd {ctx : Ctx} {a b : Point} : Sym sty p!"}" a b → Derives sty ctx (.assignProps [] none) a b
  | assignPropsRest {ctx : Ctx} {t : PatternOrExpr} {a m o b : Point} : Sym sty p!"..." a m → Derives sty ctx (.target t) m o →
      Sym sty p!"}" o b → Derives sty ctx (.assignProps [] (some t)) a b
  | assignPropsLast {ctx : Ctx} {p : AssignProp} {a m b : Point} : Derives sty ctx (.assignProp p) a m → Sym sty p!"}" m b →
      Derives sty ctx (.assignProps [p] none) a b
  | assignPropsMore {ctx : Ctx} {p : AssignProp} {ps : List AssignProp} {rest : Option PatternOrExpr} {a m o b : Point} :
      Derives sty ctx (.assignProp p) a m → Sym sty p!"," m o → Derives sty ctx (.assignProps ps rest) o b →
      Derives sty ctx (.assignProps (p :: ps) rest) a b
  | assignElementsEnd {ctx : Ctx} {a b : Point} : Sym sty p!"]" a b → Derives sty ctx (.assignElements [] none) a b
  | assignElementsRest {ctx : Ctx} {t : PatternOrExpr} {a m o b : Point} : Sym sty p!"..." a m →
      Derives sty ctx (.target t) m o → Sym sty p!"]" o b → Derives sty ctx (.assignElements [] (some t)) a b
  /-- Departure: every comma leaves a hole in the tree. -/
  | assignElementsComma {ctx : Ctx} {es : List (Option AssignElement)} {rest : Option PatternOrExpr} {a m b : Point} :
      Sym sty p!"," a m → Derives sty ctx (.assignElements es rest) m b → Derives sty ctx (.assignElements (none :: es) rest) a b
  /-- A comma or the closing bracket follows. -/
  | assignElementsMore {ctx : Ctx} {e : AssignElement} {es : List (Option AssignElement)} {rest : Option PatternOrExpr}
      {v : TokVal} {a m c b : Point} : Derives sty ctx (.assignElement e) a m → v ∈ [.punct p!",", .punct p!"]"] → Tok sty v m c →
      Derives sty ctx (.assignElements es rest) m b → Derives sty ctx (.assignElements (some e :: es) rest) a b
  | assignElement {ctx : Ctx} {t : PatternOrExpr} {init : Option Expr} {sp : Span} {a m b : Point} :
      Derives sty ctx (.target t) a m → Derives sty { ctx with in_ := Bool.true } (.initializer init) m b → From sty a b sp →
      Derives sty ctx (.assignElement (.mk sp t init)) a b
  | targetPattern {ctx : Ctx} {p : AssignPattern} {a b : Point} : Derives sty ctx (.assignPattern p) a b →
      Derives sty ctx (.target (.pattern p)) a b
  /-- Departure: the target must not start with an object or array literal. -/
  | targetExpr {ctx : Ctx} {e : Expr} {a b : Point} : Look sty a (fun t => t.value ∉ [.punct p!"{", .punct p!"["]) →
      Derives sty ctx (.expr 17 e) a b → TargetOK ctx.strict e → Derives sty ctx (.target (.expr e)) a b
  | assignSingle {ctx : Ctx} {t : Token} {id : Ident} {init : Option Expr} {sp : Span} {a m b : Point} : Next sty a t m →
      IdentTok ctx t id → Derives sty ctx (.initializer init) m b → From sty a b sp →
      Derives sty ctx (.assignProp (.single sp id init)) a b
  | assignNamed {ctx : Ctx} {n : PropName} {t : PatternOrExpr} {init : Option Expr} {sp esp : Span} {a m o b : Point} :
      Derives sty ctx (.propName n) a m → Sym sty p!":" m o → Derives sty ctx (.assignElement (.mk esp t init)) o b →
      From sty a b sp → Derives sty ctx (.assignProp (.named sp n t init)) a b
  -- Binding patterns
  | noInitializer {ctx : Ctx} {a : Point} : Derives sty ctx (.initializer none) a a
  | initializer {ctx : Ctx} {e : Expr} {a m b : Point} : Sym sty p!"=" a m → Derives sty ctx (.expr 1 e) m b →
      Derives sty ctx (.initializer (some e)) a b
  | bindingIdent {ctx : Ctx} {t : Token} {id : Ident} {a b : Point} : Next sty a t b → IdentTok ctx t id →
      Derives sty ctx (.binding (.ident id)) a b
  | bindingObject {ctx : Ctx} {ps : List BindingProp} {rest : Option BindingPattern} {sp : Span} {a m b : Point} :
      Sym sty p!"{" a m → Derives sty ctx (.bindingProps ps rest) m b → From sty a b sp →
      Derives sty ctx (.binding (.object sp ps rest)) a b
  | bindingArray {ctx : Ctx} {es : List (Option BindingElement)} {rest : Option BindingPattern} {sp : Span} {a m b : Point} :
      Sym sty p!"[" a m → Derives sty ctx (.bindingElements es rest) m b → From sty a b sp →
      Derives sty ctx (.binding (.array sp es rest)) a b
  | bindingPropsEnd {ctx : Ctx} {a b : Point} : Sym sty p!"}" a b → Derives sty ctx (.bindingProps [] none) a b
  | bindingPropsRest {ctx : Ctx} {p : BindingPattern} {a m o b : Point} : Sym sty p!"..." a m →
      Derives sty ctx (.binding p) m o → Sym sty p!"}" o b → Derives sty ctx (.bindingProps [] (some p)) a b
  | bindingPropsLast {ctx : Ctx} {p : BindingProp} {a m b : Point} : Derives sty ctx (.bindingProp p) a m →
      Sym sty p!"}" m b → Derives sty ctx (.bindingProps [p] none) a b
  | bindingPropsMore {ctx : Ctx} {p : BindingProp} {ps : List BindingProp} {rest : Option BindingPattern} {a m o b : Point} :
      Derives sty ctx (.bindingProp p) a m → Sym sty p!"," m o → Derives sty ctx (.bindingProps ps rest) o b →
      Derives sty ctx (.bindingProps (p :: ps) rest) a b
  | bindingElementsEnd {ctx : Ctx} {a b : Point} : Sym sty p!"]" a b → Derives sty ctx (.bindingElements [] none) a b
  | bindingElementsHole {ctx : Ctx} {es : List (Option BindingElement)} {rest : Option BindingPattern} {a m b : Point} :
      Sym sty p!"," a m → Derives sty ctx (.bindingElements es rest) m b →
      Derives sty ctx (.bindingElements (none :: es) rest) a b
  | bindingElementsRest {ctx : Ctx} {p : BindingPattern} {a m o b : Point} : Sym sty p!"..." a m →
      Derives sty ctx (.binding p) m o → Sym sty p!"]" o b → Derives sty ctx (.bindingElements [] (some p)) a b
  | bindingElementsLast {ctx : Ctx} {e : BindingElement} {a m b : Point} : Derives sty ctx (.bindingElement e) a m →
      Sym sty p!"]" m b → Derives sty ctx (.bindingElements [some e] none) a b
  | bindingElementsMore {ctx : Ctx} {e : BindingElement} {es : List (Option BindingElement)} {rest : Option BindingPattern}
      {a m o b : Point} : Derives sty ctx (.bindingElement e) a m → Sym sty p!"," m o →
      Derives sty ctx (.bindingElements es rest) o b → Derives sty ctx (.bindingElements (some e :: es) rest) a b
  | bindingElement {ctx : Ctx} {p : BindingPattern} {init : Option Expr} {sp : Span} {a m b : Point} :
      Derives sty ctx (.binding p) a m → Derives sty { ctx with in_ := Bool.true } (.initializer init) m b → From sty a b sp →
      Derives sty ctx (.bindingElement (.mk sp p init)) a b
  | bindingSingle {ctx : Ctx} {t : Token} {id : Ident} {init : Option Expr} {sp : Span} {a m b : Point} : Next sty a t m →
      IdentTok ctx t id → Derives sty { ctx with in_ := Bool.true } (.initializer init) m b → From sty a b sp →
      Derives sty ctx (.bindingProp (.single sp id init)) a b
  | bindingNamed {ctx : Ctx} {n : PropName} {e : BindingElement} {sp : Span} {a m o b : Point} :
      Derives sty ctx (.propName n) a m → Sym sty p!":" m o → Derives sty ctx (.bindingElement e) o b → From sty a b sp →
      Derives sty ctx (.bindingProp (.named sp n e)) a b
  -- Variables
  /-- A pattern needs an initializer. -/
  | varDecl {ctx : Ctx} {p : BindingPattern} {init : Option Expr} {sp : Span} {a m b : Point} :
      Derives sty ctx (.binding p) a m → Derives sty ctx (.initializer init) m b → (init = none → ∃ id, p = .ident id) →
      From sty a b sp → Derives sty ctx (.varDecl (.mk sp p init)) a b
  | varDeclsLast {ctx : Ctx} {v : VarDecl} {a b : Point} : Derives sty ctx (.varDecl v) a b →
      Derives sty ctx (.varDecls [v]) a b
  | varDeclsMore {ctx : Ctx} {v : VarDecl} {vs : List VarDecl} {a m o b : Point} : Derives sty ctx (.varDecl v) a m →
      Sym sty p!"," m o → Derives sty ctx (.varDecls vs) o b → Derives sty ctx (.varDecls (v :: vs)) a b
  -- Statements
  | empty {ctx : Ctx} {t : Token} {a b : Point} : Next sty a t b → t.value = .punct p!";" →
      Derives sty ctx (.stmt (.empty t.span)) a b
  | blockS {ctx : Ctx} {k : Block} {a b : Point} : Derives sty ctx (.block k) a b → Derives sty ctx (.stmt (.block k)) a b
  | block {ctx : Ctx} {ss : List Stmt} {sp : Span} {a m b : Point} : Sym sty p!"{" a m → Derives sty ctx (.stmts ss) m b →
      From sty a b sp → Derives sty ctx (.block (.mk sp ss)) a b
  | stmtsEnd {ctx : Ctx} {a b : Point} : Sym sty p!"}" a b → Derives sty ctx (.stmts []) a b
  | stmtsMore {ctx : Ctx} {s : Stmt} {ss : List Stmt} {a m b : Point} : Derives sty ctx (.item s) a m →
      Derives sty ctx (.stmts ss) m b → Derives sty ctx (.stmts (s :: ss)) a b
  | itemsEnd {ctx : Ctx} {a : Point} : AtEnd sty a → Derives sty ctx (.items []) a a
  | itemsMore {ctx : Ctx} {s : Stmt} {ss : List Stmt} {a m b : Point} : Derives sty ctx (.item s) a m →
      Derives sty ctx (.items ss) m b → Derives sty ctx (.items (s :: ss)) a b
  | var {ctx : Ctx} {vs : List VarDecl} {sp : Span} {a m o b : Point} : Key sty k!"var" a m →
      Derives sty { ctx with in_ := Bool.true } (.varDecls vs) m o → Ends sty { ctx with in_ := Bool.true } 0 o →
      EndOfStmt sty o b → From sty a b sp → Derives sty ctx (.stmt (.variable (.mk sp .var vs))) a b
  | exprStmt {ctx : Ctx} {e : Expr} {sp : Span} {a m b : Point} : StmtStart sty ctx a →
      Derives sty { ctx with in_ := Bool.true } (.expr 0 e) a m → Ends sty { ctx with in_ := Bool.true } 0 m →
      EndOfStmt sty m b → From sty a b sp → Derives sty ctx (.stmt (.expr sp e)) a b
  | labeled {ctx : Ctx} {t : Token} {id : Ident} {s : Stmt} {sp : Span} {a m o b : Point} : Next sty a t m →
      IdentTok ctx t id → Sym sty p!":" m o → Derives sty ctx (.stmt s) o b → From sty a b sp →
      Derives sty ctx (.stmt (.labeled sp id s)) a b
  | break {ctx : Ctx} {sp : Span} {a m b : Point} : Key sty k!"break" a m → EndOfStmt sty m b → From sty a b sp →
      Derives sty ctx (.stmt (.break sp none)) a b
  /-- No line terminator before the label. -/
  | breakLabel {ctx : Ctx} {t : Token} {id : Ident} {sp : Span} {a m o b : Point} : Key sty k!"break" a m → Next sty m t o →
      IdentTok ctx t id → t.fol = Bool.false → EndOfStmt sty o b → From sty a b sp →
      Derives sty ctx (.stmt (.break sp (some id))) a b
  | continue {ctx : Ctx} {sp : Span} {a m b : Point} : Key sty k!"continue" a m → EndOfStmt sty m b → From sty a b sp →
      Derives sty ctx (.stmt (.continue sp none)) a b
  /-- No line terminator before the label. -/
  | continueLabel {ctx : Ctx} {t : Token} {id : Ident} {sp : Span} {a m o b : Point} : Key sty k!"continue" a m →
      Next sty m t o → IdentTok ctx t id → t.fol = Bool.false → EndOfStmt sty o b → From sty a b sp →
      Derives sty ctx (.stmt (.continue sp (some id))) a b
  | return {ctx : Ctx} {sp : Span} {a m b : Point} : ctx.return_ = Bool.true → Key sty k!"return" a m → EndOfStmt sty m b →
      From sty a b sp → Derives sty ctx (.stmt (.return sp none)) a b
  /-- No line terminator before the operand. -/
  | returnExpr {ctx : Ctx} {e : Expr} {sp : Span} {a m o b : Point} : ctx.return_ = Bool.true → Key sty k!"return" a m →
      Look sty m (fun t => t.fol = Bool.false) → Derives sty { ctx with in_ := Bool.true } (.expr 0 e) m o →
      Ends sty { ctx with in_ := Bool.true } 0 o → EndOfStmt sty o b → From sty a b sp →
      Derives sty ctx (.stmt (.return sp (some e))) a b
  /-- No line terminator before the operand. -/
  | throw {ctx : Ctx} {e : Expr} {sp : Span} {a m o b : Point} : Key sty k!"throw" a m →
      Look sty m (fun t => t.fol = Bool.false) → Derives sty { ctx with in_ := Bool.true } (.expr 0 e) m o →
      Ends sty { ctx with in_ := Bool.true } 0 o → EndOfStmt sty o b → From sty a b sp →
      Derives sty ctx (.stmt (.throw sp e)) a b
  | debugger {ctx : Ctx} {sp : Span} {a m b : Point} : Key sty k!"debugger" a m → EndOfStmt sty m b → From sty a b sp →
      Derives sty ctx (.stmt (.debugger sp)) a b
  /-- `else` belongs to the nearest `if`. -/
  | if {ctx : Ctx} {e : Expr} {s : Stmt} {sp : Span} {a m o p q b : Point} : Key sty k!"if" a m → Sym sty p!"(" m o →
      Derives sty { ctx with in_ := Bool.true } (.expr 0 e) o p → Sym sty p!")" p q → Derives sty ctx (.stmt s) q b →
      Look sty b (fun t => t.value ≠ .keyword k!"else") → From sty a b sp → Derives sty ctx (.stmt (.if sp e s none)) a b
  | ifElse {ctx : Ctx} {e : Expr} {s s' : Stmt} {sp : Span} {a m o p q u v b : Point} : Key sty k!"if" a m →
      Sym sty p!"(" m o → Derives sty { ctx with in_ := Bool.true } (.expr 0 e) o p → Sym sty p!")" p q →
      Derives sty ctx (.stmt s) q u → Key sty k!"else" u v → Derives sty ctx (.stmt s') v b → From sty a b sp →
      Derives sty ctx (.stmt (.if sp e s (some s'))) a b
  /-- Departure: allowed in strict code; `in` is not enabled in the object. -/
  | with {ctx : Ctx} {e : Expr} {s : Stmt} {sp : Span} {a m o p q b : Point} : Key sty k!"with" a m → Sym sty p!"(" m o →
      Derives sty ctx (.expr 0 e) o p → Sym sty p!")" p q → Derives sty ctx (.stmt s) q b → From sty a b sp →
      Derives sty ctx (.stmt (.with sp e s)) a b
  | tryCatch {ctx : Ctx} {k : Block} {c : CatchClause} {sp : Span} {a m o b : Point} : Key sty k!"try" a m →
      Derives sty ctx (.block k) m o → Derives sty ctx (.catchClause c) o b →
      Look sty b (fun t => t.value ≠ .keyword k!"finally") → From sty a b sp →
      Derives sty ctx (.stmt (.try sp k (some c) none)) a b
  | tryFinally {ctx : Ctx} {k l : Block} {sp : Span} {a m o p b : Point} : Key sty k!"try" a m →
      Derives sty ctx (.block k) m o → Key sty k!"finally" o p → Derives sty ctx (.block l) p b → From sty a b sp →
      Derives sty ctx (.stmt (.try sp k none (some l))) a b
  | tryCatchFinally {ctx : Ctx} {k l : Block} {c : CatchClause} {sp : Span} {a m o p q b : Point} : Key sty k!"try" a m →
      Derives sty ctx (.block k) m o → Derives sty ctx (.catchClause c) o p → Key sty k!"finally" p q →
      Derives sty ctx (.block l) q b → From sty a b sp → Derives sty ctx (.stmt (.try sp k (some c) (some l))) a b
  | catch {ctx : Ctx} {k : Block} {sp : Span} {a m b : Point} : Key sty k!"catch" a m → Derives sty ctx (.block k) m b →
      From sty a b sp → Derives sty ctx (.catchClause (.mk sp none k)) a b
  | catchParam {ctx : Ctx} {x : BindingPattern} {k : Block} {sp : Span} {a m o p q b : Point} : Key sty k!"catch" a m →
      Sym sty p!"(" m o → Derives sty ctx (.binding x) o p → Sym sty p!")" p q → Derives sty ctx (.block k) q b →
      From sty a b sp → Derives sty ctx (.catchClause (.mk sp (some x) k)) a b
  | switch {ctx : Ctx} {e : Expr} {cs : List SwitchCase} {sp : Span} {a m o p q r b : Point} : Key sty k!"switch" a m →
      Sym sty p!"(" m o → Derives sty { ctx with in_ := Bool.true } (.expr 0 e) o p → Sym sty p!")" p q →
      Sym sty p!"{" q r → Derives sty ctx (.cases cs) r b → From sty a b sp → Derives sty ctx (.stmt (.switch sp e cs)) a b
  | casesEnd {ctx : Ctx} {a b : Point} : Sym sty p!"}" a b → Derives sty ctx (.cases []) a b
  | casesMore {ctx : Ctx} {c : SwitchCase} {cs : List SwitchCase} {a m b : Point} : Derives sty ctx (.case c) a m →
      Derives sty ctx (.cases cs) m b → Derives sty ctx (.cases (c :: cs)) a b
  | case {ctx : Ctx} {e : Expr} {ss : List Stmt} {sp : Span} {a m o p b : Point} : Key sty k!"case" a m →
      Derives sty { ctx with in_ := Bool.true } (.expr 0 e) m o → Sym sty p!":" o p → Derives sty ctx (.caseStmts ss) p b →
      From sty a b sp → Derives sty ctx (.case (.mk sp (some e) ss)) a b
  | default {ctx : Ctx} {ss : List Stmt} {sp : Span} {a m o b : Point} : Key sty k!"default" a m → Sym sty p!":" m o →
      Derives sty ctx (.caseStmts ss) o b → From sty a b sp → Derives sty ctx (.case (.mk sp none ss)) a b
  | caseStmtsEnd {ctx : Ctx} {t : Token} {a b : Point} : Next sty a t b →
      t.value ∈ [.punct p!"}", .keyword k!"case", .keyword k!"default"] → Derives sty ctx (.caseStmts []) a a
  | caseStmtsMore {ctx : Ctx} {s : Stmt} {ss : List Stmt} {a m b : Point} : Derives sty ctx (.item s) a m →
      Derives sty ctx (.caseStmts ss) m b → Derives sty ctx (.caseStmts (s :: ss)) a b
  | while {ctx : Ctx} {e : Expr} {s : Stmt} {sp : Span} {a m o p q b : Point} : Key sty k!"while" a m → Sym sty p!"(" m o →
      Derives sty { ctx with in_ := Bool.true } (.expr 0 e) o p → Sym sty p!")" p q → Derives sty ctx (.stmt s) q b →
      From sty a b sp → Derives sty ctx (.stmt (.while sp e s)) a b
  /-- The semicolon may always be left out. -/
  | doWhile {ctx : Ctx} {e : Expr} {s : Stmt} {sp : Span} {a m o p q r u b : Point} : Key sty k!"do" a m →
      Derives sty ctx (.stmt s) m o → Key sty k!"while" o p → Sym sty p!"(" p q →
      Derives sty { ctx with in_ := Bool.true } (.expr 0 e) q r → Sym sty p!")" r u →
      Sym sty p!";" u b ∨ (b = u ∧ Look sty u fun t => t.value ≠ .punct p!";") → From sty a b sp →
      Derives sty ctx (.stmt (.doWhile sp s e)) a b
  | for {ctx : Ctx} {i : Option ForInit} {x y : Option Expr} {s : Stmt} {sp : Span} {a m o p q r u v w b : Point} :
      Key sty k!"for" a m → Sym sty p!"(" m o → Derives sty ctx (.forInit i) o p → Sym sty p!";" p q →
      Derives sty { ctx with in_ := Bool.true } (.optExpr x) q r → Sym sty p!";" r u →
      Derives sty { ctx with in_ := Bool.true } (.optExpr y) u v → Sym sty p!")" v w → Derives sty ctx (.stmt s) w b →
      From sty a b sp → Derives sty ctx (.stmt (.for sp i x y s)) a b
  | noExpr {ctx : Ctx} {a : Point} : Derives sty ctx (.optExpr none) a a
  | someExpr {ctx : Ctx} {e : Expr} {a b : Point} : Derives sty ctx (.expr 0 e) a b → Derives sty ctx (.optExpr (some e)) a b
  | noForInit {ctx : Ctx} {a : Point} : Derives sty ctx (.forInit none) a a
  | forInitExpr {ctx : Ctx} {t : Token} {e : Expr} {a b c : Point} : Next sty a t c →
      (t.value = .keyword k!"let" → Look sty c fun u => ¬ lexicalStart ctx u) →
      Derives sty { ctx with in_ := Bool.false } (.expr 0 e) a b → Derives sty ctx (.forInit (some (.expr e))) a b
  | forInitDecl {ctx : Ctx} {t : Token} {k : VarKind} {vs : List VarDecl} {sp : Span} {a m b : Point} : Next sty a t m →
      symbol t.value = some k.asStr → Derives sty { ctx with in_ := Bool.false } (.varDecls vs) m b → From sty a b sp →
      Derives sty ctx (.forInit (some (.declaration (.mk sp k vs)))) a b
  | forIn {ctx : Ctx} {d : ForDecl} {e : Expr} {s : Stmt} {sp : Span} {a m o p q r u b : Point} : Key sty k!"for" a m →
      Sym sty p!"(" m o → Seekable sty o → Derives sty ctx (.forDecl d) o p → Key sty k!"in" p q →
      Derives sty { ctx with in_ := Bool.true } (.expr 0 e) q r → Sym sty p!")" r u → Derives sty ctx (.stmt s) u b →
      From sty a b sp → Derives sty ctx (.stmt (.forIn sp d e s)) a b
  /-- Departure: the right side may be a comma expression. -/
  | forOf {ctx : Ctx} {d : ForDecl} {e : Expr} {s : Stmt} {sp : Span} {a m o p q r u b : Point} : Key sty k!"for" a m →
      Sym sty p!"(" m o → Seekable sty o → Derives sty ctx (.forDecl d) o p → Key sty k!"of" p q →
      Derives sty { ctx with in_ := Bool.true } (.expr 0 e) q r → Sym sty p!")" r u → Derives sty ctx (.stmt s) u b →
      From sty a b sp → Derives sty ctx (.stmt (.forOf sp d e s Bool.false)) a b
  | forAwait {ctx : Ctx} {d : ForDecl} {e : Expr} {s : Stmt} {sp : Span} {a l m o p q r u b : Point} : Key sty k!"for" a l →
      ctx.await = Bool.true → Key sty k!"await" l m →
      Sym sty p!"(" m o → Seekable sty o → Derives sty ctx (.forDecl d) o p → Key sty k!"of" p q →
      Derives sty { ctx with in_ := Bool.true } (.expr 0 e) q r → Sym sty p!")" r u → Derives sty ctx (.stmt s) u b →
      From sty a b sp → Derives sty ctx (.stmt (.forOf sp d e s Bool.true)) a b
  /-- The texts must have the same reading whether or not `in` is an operator. -/
  | forDeclVar {ctx : Ctx} {t : Token} {k : VarKind} {p : BindingPattern} {sp : Span} {a m b : Point} : Next sty a t m →
      symbol t.value = some k.asStr → Derives sty ctx (.binding p) m b → Derives sty { ctx with in_ := Bool.false } (.binding p) m b →
      From sty a b sp → Derives sty ctx (.forDecl (.declaration sp k p)) a b
  | forDeclExpr {ctx : Ctx} {t : Token} {e : Expr} {a b c : Point} : Next sty a t c →
      t.value ∉ [.punct p!"{", .punct p!"["] → (t.value = .keyword k!"let" → Look sty c fun u => ¬ lexicalStart ctx u) →
      Derives sty ctx (.expr 17 e) a b → Derives sty { ctx with in_ := Bool.false } (.expr 17 e) a b → TargetOK ctx.strict e →
      Derives sty ctx (.forDecl (.expr e)) a b
  | forDeclLiteral {ctx : Ctx} {p : AssignPattern} {l : Literal} {lsp : Span} {a b : Point} :
      Derives sty { ctx with in_ := Bool.false } (.expr 21 (.literal lsp l)) a b → Derives sty ctx (.assignPattern p) a b →
      Derives sty ctx (.forDecl (.pattern p)) a b
  | forDeclInit {ctx : Ctx} {p : AssignPattern} {i : Span} {a x b : Point} :
      Derives sty { ctx with in_ := Bool.false } (.stop (.init i)) a x → Derives sty ctx (.assignPattern p) a b →
      Derives sty ctx (.forDecl (.pattern p)) a b
  -- Declarations
  | itemStmt {ctx : Ctx} {s : Stmt} {a b : Point} : Derives sty ctx (.stmt s) a b → Derives sty ctx (.item s) a b
  | itemDecl {ctx : Ctx} {s : Stmt} {a b : Point} : Derives sty ctx (.decl s) a b → Derives sty ctx (.item s) a b
  /-- Departure: `in` is not enabled in the initializers. -/
  | lexical {ctx : Ctx} {t : Token} {k : VarKind} {vs : List VarDecl} {sp : Span} {a m o b : Point} : Next sty a t m →
      k ≠ .var → symbol t.value = some k.asStr → Derives sty ctx (.varDecls vs) m o → Ends sty ctx 0 o →
      EndOfStmt sty o b → From sty a b sp → Derives sty ctx (.decl (.variable (.mk sp k vs))) a b
  /-- Departure: the name is resolved in the context around the function. -/
  | functionDecl {ctx : Ctx} {generator : Bool} {id : Ident} {ps : FormalParams} {bd : Body} {sp : Span}
      {a m o p q b : Point} : Key sty k!"function" a m → OptTok sty (.punct p!"*") generator m o →
      NameAt sty ctx [.punct p!"("] id o p → Derives sty (insideFunction ctx generator Bool.false) (.params ps) p q →
      Derives sty (insideFunction ctx generator Bool.false) (.body bd) q b → From sty a b sp →
      Derives sty ctx (.decl (.functionDecl sp Bool.false generator id ps bd)) a b
  /-- Departure: a line terminator is allowed after `async`. -/
  | asyncFunctionDecl {ctx : Ctx} {generator : Bool} {id : Ident} {ps : FormalParams} {bd : Body} {sp : Span}
      {a l m o p q b : Point} : Key sty k!"async" a l → Key sty k!"function" l m →
      OptTok sty (.punct p!"*") generator m o → NameAt sty ctx [.punct p!"("] id o p →
      Derives sty (insideFunction ctx generator Bool.true) (.params ps) p q →
      Derives sty (insideFunction ctx generator Bool.true) (.body bd) q b → From sty a b sp →
      Derives sty ctx (.decl (.functionDecl sp Bool.true generator id ps bd)) a b
  /-- Departure: in a default export `extends` cannot follow `class` directly. -/
  | classDecl {ctx : Ctx} {id : Ident} {sup : Option Expr} {ms : List MethodDef} {sp : Span} {a m o b : Point} :
      Key sty k!"class" a m → NameAt sty { ctx with strict := Bool.true } [.punct p!"{"] id m o →
      Derives sty { ctx with strict := Bool.true } (.classTail sup ms) o b → From sty a b sp →
      Derives sty ctx (.decl (.classDecl sp id sup ms)) a b
  -- Modules
  | importModule {ctx : Ctx} {s : LitString} {sp : Span} {a m o b : Point} : sty = .module → Key sty k!"import" a m →
      Tok sty (.lit (.string s)) m o → EndOfStmt sty o b → From sty a b sp →
      Derives sty ctx (.decl (.importDecl sp none none none s)) a b
  | importFrom {ctx : Ctx} {d ns : Option Ident} {is : Option (List NamedImport)} {s : LitString} {sp : Span}
      {a m o p q b : Point} : sty = .module → Key sty k!"import" a m → ImportWhat sty ctx d ns is m o →
      Key sty k!"from" o p → Tok sty (.lit (.string s)) p q → EndOfStmt sty q b → From sty a b sp →
      Derives sty ctx (.decl (.importDecl sp d ns is s)) a b
  | exportNamed {ctx : Ctx} {es : List NamedExport} {sp : Span} {a m o p b : Point} : sty = .module →
      Key sty k!"export" a m → Sym sty p!"{" m o → CommaList sty (ExportItem sty) es o p →
      Look sty p (fun t => t.value ≠ .keyword k!"from") → EndOfStmt sty p b → From sty a b sp →
      Derives sty ctx (.decl (.exportDecl (.named sp es none))) a b
  | exportFrom {ctx : Ctx} {es : List NamedExport} {s : LitString} {sp : Span} {a m o p q r b : Point} : sty = .module →
      Key sty k!"export" a m → Sym sty p!"{" m o → CommaList sty (ExportItem sty) es o p → Key sty k!"from" p q →
      Tok sty (.lit (.string s)) q r → EndOfStmt sty r b → From sty a b sp →
      Derives sty ctx (.decl (.exportDecl (.named sp es (some s)))) a b
  | exportAll {ctx : Ctx} {s : LitString} {sp : Span} {a m o p q b : Point} : sty = .module → Key sty k!"export" a m →
      Sym sty p!"*" m o → Key sty k!"from" o p → Tok sty (.lit (.string s)) p q → EndOfStmt sty q b → From sty a b sp →
      Derives sty ctx (.decl (.exportDecl (.namespace sp none s))) a b
  | exportAllAs {ctx : Ctx} {t : Token} {id : Ident} {s : LitString} {sp : Span} {a m o p q r u b : Point} : sty = .module →
      Key sty k!"export" a m → Sym sty p!"*" m o → Key sty k!"as" o p → Next sty p t q → NameTok t id →
      Key sty k!"from" q r → Tok sty (.lit (.string s)) r u → EndOfStmt sty u b → From sty a b sp →
      Derives sty ctx (.decl (.exportDecl (.namespace sp (some id) s))) a b
  | exportVar {ctx : Ctx} {vs : List VarDecl} {sp vsp : Span} {a m o p b : Point} : sty = .module →
      Key sty k!"export" a m → Key sty k!"var" m o → Derives sty { ctx with in_ := Bool.true } (.varDecls vs) o p →
      Ends sty { ctx with in_ := Bool.true } 0 p → EndOfStmt sty p b → From sty m b vsp → From sty a b sp →
      Derives sty ctx (.decl (.exportDecl (.decl sp (.variable (.mk vsp .var vs))))) a b
  | exportDecl {ctx : Ctx} {d : Stmt} {sp : Span} {a m b : Point} : sty = .module → Key sty k!"export" a m →
      Look sty m (fun t => t.value ∉ [.keyword k!"import", .keyword k!"export"]) → Derives sty ctx (.decl d) m b →
      From sty a b sp → Derives sty ctx (.decl (.exportDecl (.decl sp d))) a b
  | exportDefaultDecl {ctx : Ctx} {d : Stmt} {sp : Span} {a m o b : Point} : sty = .module → Key sty k!"export" a m →
      Key sty k!"default" m o →
      Look sty o (fun t => t.value ∈ [.keyword k!"function", .keyword k!"async", .keyword k!"class"]) →
      Derives sty { ctx with default := Bool.true } (.decl d) o b → From sty a b sp →
      Derives sty ctx (.decl (.exportDecl (.defaultDecl sp d))) a b
  | exportDefaultExpr {ctx : Ctx} {e : Expr} {sp : Span} {a m o p b : Point} : sty = .module → Key sty k!"export" a m →
      Key sty k!"default" m o →
      (∀ t c, Next sty o t c → t.value ∉ [.keyword k!"function", .keyword k!"class"] ∧
        (t.value = .keyword k!"async" → Look sty c fun u => u.value ≠ .keyword k!"function")) →
      Derives sty { ctx with in_ := Bool.true } (.expr 1 e) o p → Ends sty { ctx with in_ := Bool.true } 1 p →
      EndOfStmt sty p b → From sty a b sp → Derives sty ctx (.decl (.exportDecl (.defaultExpr sp e))) a b

/-- The source is a program with this tree. -/
structure DerivesProgram (sty : SourceType) (source : Str) (p : Program) : Prop where
  type : p.sourceType = sty
  parts : ∃ m b, Derives sty {} (.directives p.directives) ⟨[], source, true⟩ m ∧
    Derives sty (afterDirectives {} p.directives) (.items p.body) m b ∧
    (From sty ⟨[], source, true⟩ b p.span ∨ AtEnd sty ⟨[], source, true⟩ ∧ p.span = ⟨0, 0⟩)

end Fajt.Spec
