import Verif.Spec.Grammar
/-!
# The nodes of a tree

`Node` is any node of a syntax tree, `Node.children` lists what stands directly below a node, `Path p ns` says that `ns` are the
nodes from a node (the first of `ns`) up to a statement of the program `p`.  `Derived` says that a node is derived from tokens.
`along` computes a property of the place of a node from its path.
-/
namespace Fajt.Spec
open Fajt

/-- The nodes of a tree. -/
inductive Node where
  | expr (e : Expr)
  | stmt (s : Stmt)
  | args (span : Span) (as : List Argument)
  | propName (n : PropName)
  | propDef (p : PropDef)
  | method (m : MethodDef)
  | params (p : FormalParams)
  | body (b : Body)
  | binding (p : BindingPattern)
  | bindingProp (p : BindingProp)
  | bindingElement (e : BindingElement)
  | assignPattern (p : AssignPattern)
  | assignElement (e : AssignElement)
  | assignProp (p : AssignProp)
  | varDecl (v : VarDecl)
  | block (b : Block)
  | catchClause (c : CatchClause)
  | case (c : SwitchCase)
  | forInit (f : ForInit)
  | forDecl (f : ForDecl)

/-- The expression of an argument. -/
def argNode : Argument → Node
  | .expr e => .expr e
  | .spread e => .expr e

/-- The expressions of template parts. -/
def partNode : TemplatePart → Option Node
  | .string _ => none
  | .expr e => some (.expr e)

/-- The expressions of array elements. -/
def elementNode : ArrayElement → Option Node
  | .elision => none
  | .expr e => some (.expr e)
  | .spread e => some (.expr e)

/-- The node of an assignment target. -/
def targetNode : PatternOrExpr → Node
  | .expr e => .expr e
  | .pattern p => .assignPattern p

/-- The node of an arrow function's body. -/
def arrowBodyNode : ArrowBody → Node
  | .expr e => .expr e
  | .body b => .body b

/-- The expression of a computed member access. -/
def memberNode : MemberProp → List Node
  | .ident _ => []
  | .expr e => [.expr e]

/-- The expression in front of a member access. -/
def objectNode : MemberObject → List Node
  | .super _ => []
  | .expr e => [.expr e]

/-- An optional expression. -/
def optNode : Option Expr → List Node
  | none => []
  | some e => [.expr e]

/-- The children of an expression. -/
def exprChildren : Expr → List Node
  | .arrow _ _ _ ps b => [.params ps, arrowBodyNode b]
  | .assign _ _ l r => [targetNode l, .expr r]
  | .await _ a => [.expr a]
  | .binary _ _ a b => [.expr a, .expr b]
  | .call _ (.expr e) asp as => [.expr e, .args asp as]
  | .call _ .super asp as => [.args asp as]
  | .call _ .import _ as => as.map argNode
  | .classE _ _ sup ms => optNode sup ++ ms.map .method
  | .conditional _ a b c => [.expr a, .expr b, .expr c]
  | .function _ _ _ _ ps b => [.params ps, .body b]
  | .ident _ => []
  | .literal _ (.array es) => es.filterMap elementNode
  | .literal _ (.object ps) => ps.map .propDef
  | .literal _ (.template ps) => ps.filterMap partNode
  | .literal _ _ => []
  | .logical _ _ a b => [.expr a, .expr b]
  | .member _ o p => objectNode o ++ memberNode p
  | .metaProp _ _ _ => []
  | .new _ c none as => .expr c :: as.map argNode
  | .new _ c (some asp) as => [.expr c, .args asp as]
  | .optCall _ c asp as _ => [.expr c, .args asp as]
  | .optMember _ o p _ => .expr o :: memberNode p
  | .paren _ e => [.expr e]
  | .sequence _ es => es.map .expr
  | .tagged _ c ps => .expr c :: ps.filterMap partNode
  | .this _ => []
  | .unary _ _ a => [.expr a]
  | .update _ _ _ a => [.expr a]
  | .yield _ a _ => optNode a

/-- The declarations of a variable statement. -/
def declNodes : VarStmt → List Node
  | .mk _ _ ds => ds.map .varDecl

/-- The children of a statement. -/
def stmtChildren : Stmt → List Node
  | .block b => [.block b]
  | .break _ _ => []
  | .continue _ _ => []
  | .debugger _ => []
  | .doWhile _ b t => [.stmt b, .expr t]
  | .empty _ => []
  | .expr _ e => [.expr e]
  | .for _ i t u b => i.toList.map .forInit ++ optNode t ++ optNode u ++ [.stmt b]
  | .forIn _ l r b => [.forDecl l, .expr r, .stmt b]
  | .forOf _ l r b _ => [.forDecl l, .expr r, .stmt b]
  | .if _ c a b => .expr c :: .stmt a :: b.toList.map .stmt
  | .labeled _ _ b => [.stmt b]
  | .return _ a => optNode a
  | .switch _ d cs => .expr d :: cs.map .case
  | .throw _ a => [.expr a]
  | .try _ b h f => .block b :: (h.toList.map .catchClause ++ f.toList.map .block)
  | .variable v => declNodes v
  | .while _ t b => [.expr t, .stmt b]
  | .with _ o b => [.expr o, .stmt b]
  | .classDecl _ _ sup ms => optNode sup ++ ms.map .method
  | .functionDecl _ _ _ _ ps b => [.params ps, .body b]
  | .importDecl _ _ _ _ _ => []
  | .exportDecl (.decl _ d) => [.stmt d]
  | .exportDecl (.defaultExpr _ e) => [.expr e]
  | .exportDecl (.defaultDecl _ d) => [.stmt d]
  | .exportDecl (.named _ _ _) => []
  | .exportDecl (.namespace _ _ _) => []

/-- What stands directly below a node. -/
def Node.children : Node → List Node
  | .expr e => exprChildren e
  | .stmt s => stmtChildren s
  | .args _ as => as.map argNode
  | .propName (.computed e) => [.expr e]
  | .propName _ => []
  | .propDef (.identRef _) => []
  | .propDef (.spread e) => [.expr e]
  | .propDef (.named _ n v) => [.propName n, .expr v]
  | .propDef (.method m) => [.method m]
  | .method (.mk _ n _ ps b _ _ _) => [.propName n, .params ps, .body b]
  | .params (.mk _ bs r) => bs.map .bindingElement ++ r.toList.map .binding
  | .body (.mk _ _ ss) => ss.map .stmt
  | .binding (.ident _) => []
  | .binding (.array _ es r) => es.filterMap (Option.map .bindingElement) ++ r.toList.map .binding
  | .binding (.object _ ps r) => ps.map .bindingProp ++ r.toList.map .binding
  | .bindingProp (.single _ _ i) => optNode i
  | .bindingProp (.named _ n e) => [.propName n, .bindingElement e]
  | .bindingElement (.mk _ p i) => .binding p :: optNode i
  | .assignPattern (.array _ es r) => es.filterMap (Option.map .assignElement) ++ r.toList.map targetNode
  | .assignPattern (.object _ ps r) => ps.map .assignProp ++ r.toList.map targetNode
  | .assignElement (.mk _ t i) => targetNode t :: optNode i
  | .assignProp (.single _ _ i) => optNode i
  | .assignProp (.named _ n t i) => .propName n :: targetNode t :: optNode i
  | .varDecl (.mk _ p i) => .binding p :: optNode i
  | .block (.mk _ ss) => ss.map .stmt
  | .catchClause (.mk _ p b) => p.toList.map .binding ++ [.block b]
  | .case (.mk _ t ss) => optNode t ++ ss.map .stmt
  | .forInit (.expr e) => [.expr e]
  | .forInit (.declaration v) => declNodes v
  | .forDecl (.expr e) => [.expr e]
  | .forDecl (.pattern p) => [.assignPattern p]
  | .forDecl (.declaration _ _ b) => [.binding b]

/-- The nodes from a node of the program (the first of the list) up to one of its statements (the last of the list). -/
inductive Path (p : Program) : List Node → Prop where
  | root {s : Stmt} : s ∈ p.body → Path p [.stmt s]
  | step {N c : Node} {ns : List Node} : Path p (N :: ns) → c ∈ N.children → Path p (c :: N :: ns)

/-- The value at the start of a path: `top` at the program, changed by `f parent child` on every step down. -/
def along {β : Type} (f : Node → Node → β → β) (top : β) : List Node → β
  | c :: N :: ns => f N c (along f top (N :: ns))
  | _ => top

/-- The node of a grammar symbol that stands for one. -/
def GNode.top : GNode → Option Node
  | .expr _ e => some (.expr e)
  | .newE e => some (.expr e)
  | .chain e => some (.expr e)
  | .args sp as => some (.args sp as)
  | .propName n => some (.propName n)
  | .propDef p => some (.propDef p)
  | .method m => some (.method m)
  | .params p => some (.params p)
  | .arrowParams _ p => some (.params p)
  | .body b => some (.body b)
  | .binding p => some (.binding p)
  | .bindingProp p => some (.bindingProp p)
  | .bindingElement e => some (.bindingElement e)
  | .assignPattern p => some (.assignPattern p)
  | .assignElement e => some (.assignElement e)
  | .assignProp p => some (.assignProp p)
  | .varDecl v => some (.varDecl v)
  | .stmt s => some (.stmt s)
  | .decl s => some (.stmt s)
  | .item s => some (.stmt s)
  | .block b => some (.block b)
  | .catchClause c => some (.catchClause c)
  | .case c => some (.case c)
  | .forInit f => some (.forInit f)
  | .forDecl f => some (.forDecl f)
  | _ => none

/-- The node is derived from the tokens in the context. -/
def Derived (E : GEnv) (ctx : Ctx) (n : Node) (us : List Token) : Prop := ∃ g, GNode.top g = some n ∧ D E ctx g us

/-! ## Spans -/

/-- The span of an expression. -/
def exprSpan : Expr → Span
  | .arrow sp .. | .assign sp .. | .await sp _ | .binary sp .. | .call sp .. | .classE sp .. | .conditional sp .. |
    .function sp .. | .literal sp _ | .logical sp .. | .member sp .. | .metaProp sp .. | .new sp .. | .optCall sp .. |
    .optMember sp .. | .paren sp _ | .sequence sp _ | .tagged sp .. | .this sp | .unary sp .. | .update sp .. | .yield sp .. => sp
  | .ident id => id.span

/-- The span of a statement. -/
def stmtSpan : Stmt → Span
  | .block (.mk sp _) | .break sp _ | .continue sp _ | .debugger sp | .doWhile sp .. | .empty sp | .expr sp _ | .for sp .. |
    .forIn sp .. | .forOf sp .. | .if sp .. | .labeled sp .. | .return sp _ | .switch sp .. | .throw sp _ | .try sp .. |
    .variable (.mk sp _ _) | .while sp .. | .with sp .. | .classDecl sp .. | .functionDecl sp .. | .importDecl sp .. => sp
  | .exportDecl (.decl sp _) | .exportDecl (.defaultExpr sp _) | .exportDecl (.defaultDecl sp _) | .exportDecl (.named sp _ _) |
    .exportDecl (.namespace sp _ _) => sp

/-- The span that a node carries, if any. -/
def Node.span? : Node → Option Span
  | .expr e => some (exprSpan e)
  | .stmt s => some (stmtSpan s)
  | .args sp _ => some sp
  | .propName (.ident id) => some id.span
  | .propName _ => none
  | .propDef (.identRef id) => some id.span
  | .propDef (.spread _) => none
  | .propDef (.named sp _ _) => some sp
  | .propDef (.method _) => none
  | .method (.mk sp _ _ _ _ _ _ _) => some sp
  | .params (.mk sp _ _) => some sp
  | .body (.mk sp _ _) => some sp
  | .binding (.ident id) => some id.span
  | .binding (.array sp _ _) => some sp
  | .binding (.object sp _ _) => some sp
  | .bindingProp (.single sp _ _) => some sp
  | .bindingProp (.named sp _ _) => some sp
  | .bindingElement (.mk sp _ _) => some sp
  | .assignPattern (.array sp _ _) => some sp
  | .assignPattern (.object sp _ _) => some sp
  | .assignElement (.mk sp _ _) => some sp
  | .assignProp (.single sp _ _) => some sp
  | .assignProp (.named sp _ _ _) => some sp
  | .varDecl (.mk sp _ _) => some sp
  | .block (.mk sp _) => some sp
  | .catchClause (.mk sp _ _) => some sp
  | .case (.mk sp _ _) => some sp
  | .forInit (.expr e) => some (exprSpan e)
  | .forInit (.declaration (.mk sp _ _)) => some sp
  | .forDecl (.expr e) => some (exprSpan e)
  | .forDecl (.pattern (.array sp _ _)) => some sp
  | .forDecl (.pattern (.object sp _ _)) => some sp
  | .forDecl (.declaration sp _ _) => some sp

/-! ## Binding strength -/

/-- How tightly an expression binds, as listed in `Spec/Grammar.lean`; 21 is the tightest. -/
def level : Expr → Nat
  | .sequence .. => 0
  | .assign .. | .arrow .. | .yield .. => 1
  | .conditional .. => 2
  | .logical _ op _ _ => logicalLevel op
  | .binary _ op _ _ => binaryLevel op
  | .unary .. | .await .. => 15
  | .update .. => 16
  | .optCall .. | .optMember .. => 17
  | .new _ _ none _ => 18
  | .call _ .super _ _ | .call _ .import _ _ => 18
  | .call _ (.expr _) _ _ => 19
  | .member _ (.expr e) _ => min 20 (level e)
  | .tagged _ e _ => min 20 (level e)
  | .member _ (.super _) _ | .metaProp .. | .new _ _ (some _) _ => 20
  | .classE .. | .function .. | .ident _ | .literal .. | .paren .. | .this _ => 21

/-- The operands of an operator bind tightly enough: the left operand of a binary operator at least as tightly as the operator, the
right one more tightly (so operators of equal precedence group to the left); conditional expressions, assignments, arrow functions and
`yield` group to the right. -/
def OperandsBind : Expr → Prop
  | .sequence _ es => ∀ e ∈ es, 1 ≤ level e
  | .assign _ _ (.expr l) r => 17 ≤ level l ∧ 1 ≤ level r
  | .assign _ _ (.pattern _) r => 1 ≤ level r
  | .arrow _ _ _ _ (.expr e) => 1 ≤ level e
  | .yield _ (some e) _ => 1 ≤ level e
  | .conditional _ c a b => 3 ≤ level c ∧ 1 ≤ level a ∧ 1 ≤ level b
  | .logical _ op a b => logicalLevel op ≤ level a ∧ logicalLevel op < level b
  | .binary _ op a b => binaryLevel op ≤ level a ∧ binaryLevel op < level b
  | .unary _ _ e => 15 ≤ level e
  | .await _ e => 15 ≤ level e
  | .update _ _ true e => 15 ≤ level e
  | .update _ _ false e => 17 ≤ level e
  | .call _ (.expr e) _ _ => 19 ≤ level e
  | .member _ (.expr e) _ => 19 ≤ level e
  | .tagged _ e _ => 19 ≤ level e
  | .new _ e (some _) _ => 18 ≤ level e
  | .new _ e none _ => 18 ≤ level e
  | .optCall _ e _ _ optional => if optional then 17 ≤ level e else level e = 17
  | .optMember _ e _ optional => if optional then 17 ≤ level e else level e = 17
  | _ => True

/-! ## Where a node stands -/

/-- One of the directives is `use strict`. -/
def useStrict (ds : List LitString) : Bool := ds.any fun d => d.value = c!"use strict"

/-- Strictness: classes are strict, and the statements after a `use strict` directive.  Departure: the code of an arrow function
is not strict unless it says so itself. -/
def strictEdge : Node → Node → Bool → Bool
  | .expr (.arrow ..), .params _, outer => outer
  | .expr (.arrow ..), _, _ => false
  | .expr (.classE ..), _, _ => true
  | .stmt (.classDecl ..), _, _ => true
  | .body (.mk _ ds _), _, outer => outer || useStrict ds
  | _, _, outer => outer

/-- Being in the code of a generator.  Departure: the parameters of an arrow function belong to the code around it. -/
def yieldEdge : Node → Node → Bool → Bool
  | .expr (.function _ _ generator _ _ _), _, _ => generator
  | .stmt (.functionDecl _ _ generator _ _ _), _, _ => generator
  | .method _, .params _, _ => false
  | .method (.mk _ _ _ _ _ generator _ _), .body _, _ => generator
  | .expr (.arrow ..), .params _, outer => outer
  | .expr (.arrow ..), _, _ => false
  | _, _, outer => outer

/-- Being in the code of an async function. -/
def awaitEdge : Node → Node → Bool → Bool
  | .expr (.function _ asynchronous _ _ _ _), _, _ => asynchronous
  | .stmt (.functionDecl _ asynchronous _ _ _ _), _, _ => asynchronous
  | .method (.mk _ _ _ _ _ _ asynchronous _), .params _, _ => asynchronous
  | .method (.mk _ _ _ _ _ _ asynchronous _), .body _, _ => asynchronous
  | .expr (.arrow ..), .params _, outer => outer
  | .expr (.arrow _ asynchronous _ _ _), _, _ => asynchronous
  | _, _, outer => outer

/-- Being in the body of a function. -/
def returnEdge : Node → Node → Bool → Bool
  | .body _, _, _ => true
  | .expr (.arrow ..), .params _, outer => outer
  | .expr (.arrow ..), _, _ => false
  | _, _, outer => outer

/-- Being in a method, not in a function that is no arrow function inside of it. -/
def methodEdge : Node → Node → Prop → Prop
  | .propDef _, .method _, _ => True
  | .expr (.classE ..), .method _, _ => True
  | .stmt (.classDecl ..), .method _, _ => True
  | .expr (.function ..), _, _ => False
  | .stmt (.functionDecl ..), _, _ => False
  | _, _, outer => outer

/-- The method is a constructor: a plain, not static method named `constructor`. -/
def isConstructor : MethodDef → Prop
  | .mk _ n k _ _ _ _ isStatic => isStatic = false ∧ k = .method ∧
      ((∃ sp, n = .ident ⟨sp, c!"constructor"⟩) ∨ ∃ d, n = .string ⟨c!"constructor", d⟩)

/-- The method has a computed name. -/
def hasComputedName : MethodDef → Prop
  | .mk _ n _ _ _ _ _ _ => ∃ e, n = .computed e

/-- Being in the constructor of a class that extends another one, not in a function or method inside of it.  Departure: being in a
method with a computed name of an object literal in such a constructor. -/
def superEdge : Node → Node → Prop → Prop
  | .propDef _, .method m, outer => hasComputedName m ∧ outer
  | .expr (.classE _ _ sup _), .method m, _ => sup.isSome ∧ isConstructor m
  | .stmt (.classDecl _ _ sup _), .method m, _ => sup.isSome ∧ isConstructor m
  | .expr (.function ..), _, _ => False
  | .stmt (.functionDecl ..), _, _ => False
  | _, _, outer => outer

/-! ## Identifiers -/

/-- What decides whether a word is reserved. -/
structure WordCtx where
  strict : Bool
  yield : Bool
  await : Bool

/-- The words that are reserved everywhere. -/
def reservedWords : List Str :=
  [c!"break", c!"case", c!"catch", c!"class", c!"const", c!"continue", c!"debugger", c!"default", c!"delete", c!"do", c!"else",
   c!"enum", c!"export", c!"extends", c!"false", c!"finally", c!"for", c!"function", c!"if", c!"import", c!"in", c!"instanceof",
   c!"new", c!"null", c!"return", c!"super", c!"switch", c!"this", c!"throw", c!"true", c!"try", c!"typeof", c!"var", c!"void",
   c!"while", c!"with"]

/-- The words that are reserved in strict code. -/
def strictReserved : List Str :=
  [c!"implements", c!"interface", c!"let", c!"package", c!"private", c!"protected", c!"public", c!"static", c!"yield"]

/-- The word must not be an identifier here. -/
def Reserved (w : WordCtx) (n : Str) : Prop :=
  n ∈ reservedWords ∨ w.strict = true ∧ n ∈ strictReserved ∨ w.yield = true ∧ n = c!"yield" ∨ w.await = true ∧ n = c!"await"

/-- The local names of named imports that are written after `as`. -/
def aliases (is : List NamedImport) : List Ident := is.filterMap fun i => i.alias

/-- The identifiers of a node, each with the context that decides about reserved words: references, bindings and labels.  The name of a
function expression belongs to its own code, the names of classes are in strict code, the name of a function declaration belongs to the
code around it.  (`import { name }` without `as` is missing: fajt accepts every name there.) -/
def Node.identifiers (w : WordCtx) : Node → List (Ident × WordCtx)
  | .expr (.ident id) => [(id, w)]
  | .expr (.function _ asynchronous generator (some id) _ _) => [(id, ⟨w.strict, generator, asynchronous⟩)]
  | .expr (.classE _ (some id) _ _) => [(id, { w with strict := true })]
  | .propDef (.identRef id) => [(id, w)]
  | .binding (.ident id) => [(id, w)]
  | .bindingProp (.single _ id _) => [(id, w)]
  | .assignProp (.single _ id _) => [(id, w)]
  | .stmt (.labeled _ id _) => [(id, w)]
  | .stmt (.break _ (some id)) => [(id, w)]
  | .stmt (.continue _ (some id)) => [(id, w)]
  | .stmt (.functionDecl _ _ _ id _ _) => [(id, w)]
  | .stmt (.classDecl _ id _ _) => [(id, { w with strict := true })]
  | .stmt (.importDecl _ d n is _) => (d.toList ++ n.toList ++ (is.map aliases).getD []).map fun id => (id, w)
  | _ => []

/-- The expressions that a node assigns to. -/
def targetExpr : PatternOrExpr → List Expr
  | .expr e => [e]
  | .pattern _ => []

/-- The expressions that a node assigns to. -/
def Node.targets : Node → List Expr
  | .expr (.update _ _ _ e) => [e]
  | .expr (.assign _ _ t _) => targetExpr t
  | .assignPattern (.array _ _ r) => r.toList.flatMap targetExpr
  | .assignPattern (.object _ _ r) => r.toList.flatMap targetExpr
  | .assignElement (.mk _ t _) => targetExpr t
  | .assignProp (.named _ _ t _) => targetExpr t
  | .forDecl (.expr e) => [e]
  | _ => []

end Fajt.Spec
