import Verif.Model.Ast
/-!
# Traversal of syntax trees (`/repo/ast/src/traverse/mod.rs`, `/repo/ast/src/traverse/macros.rs`)

The macro `generate_fold_and_visit!` generates, for every type of the table in `mod.rs:33-539`, an implementation of
`Traverse`: call the enter hook; if it returns `true` traverse the listed variants or fields in order; call the exit hook.
`Vec`, `Box` and `Option` traverse their contents (`mod.rs:10-28`).

The model splits this in two: the *traversal tree* of a syntax tree (which nodes are reached from which, in which order:
the table of `mod.rs`), and the generic `traverse` of a traversal tree (the code in `macros.rs:22-57`).

Simplification: hooks get `&mut` access to nodes in Rust and may change them; here a visitor only changes its own state
(`Verif.Model.Mutate` models hooks that change nodes).
Rust has two types for most nodes (the enum and the struct in its variant), each with its own hooks; the Lean tree inlines
the struct, so that the node carried by the two labels is the same (`expr`/`exprNode`, `stmt`/`stmtNode`, ...).
-/
namespace Fajt

/-- The nodes for which the generated `Visitor` trait has hooks. -/
inductive Node where
  | program (p : Program)
  | stmtList (span : Span) (directives : List LitString) (body : List Stmt)
  | expr (e : Expr)
  /-- the struct inside a variant of `Expr` -/
  | exprNode (e : Expr)
  | stmt (s : Stmt)
  /-- the struct inside a variant of `Stmt` -/
  | stmtNode (s : Stmt)
  | block (b : Block)
  | varStmt (v : VarStmt)
  | varDecl (v : VarDecl)
  | catchClause (c : CatchClause)
  | switchCase (c : SwitchCase)
  | forInit (f : ForInit)
  | forDecl (f : ForDecl)
  | forBinding (f : ForDecl)
  | «export» (d : ExportDecl)
  /-- the struct inside a variant of `DeclExport` -/
  | exportNode (d : ExportDecl)
  | namedExport (n : NamedExport)
  | namedImport (n : NamedImport)
  | bindingPattern (p : BindingPattern)
  /-- `ArrayBinding`, `ObjectBinding` -/
  | bindingNode (p : BindingPattern)
  | bindingProp (p : BindingProp)
  /-- `SingleNameBinding`, `NamedBinding` -/
  | bindingPropNode (p : BindingProp)
  | bindingElement (e : BindingElement)
  | formalParams (p : FormalParams)
  | body (b : Body)
  | method (m : MethodDef)
  | classElement (m : MethodDef)
  | literal (l : Literal)
  /-- `LitArray`, `LitObject` -/
  | literalNode (l : Literal)
  | template (parts : List TemplatePart)
  | templatePart (t : TemplatePart)
  | arrayElement (a : ArrayElement)
  | propDef (p : PropDef)
  | namedProp (p : PropDef)
  | propName (n : PropName)
  | arrowBody (b : ArrowBody)
  | memberObject (o : MemberObject)
  | super (o : MemberObject)
  | memberProp (p : MemberProp)
  | argument (a : Argument)
  | callee (c : Callee)
  | patternOrExpr (p : PatternOrExpr)
  | assignPattern (p : AssignPattern)
  | ident (i : Ident)
  | string (s : LitString)
  | number (raw : Str)
  | binaryOp (o : BinaryOp)
  | logicalOp (o : LogicalOp)
  | assignOp (o : AssignOp)
  | unaryOp (o : UnaryOp)
  | updateOp (o : UpdateOp)

/-- A tree of nodes in the order of traversal. -/
inductive TTree where
  | node (n : Node) (children : List TTree)

namespace TTree

/-- The node at the root. -/
def root : TTree → Node
  | .node n _ => n

/-- The subtrees of the root. -/
def kids : TTree → List TTree
  | .node _ cs => cs

end TTree

/-- A visitor with state `σ`: `/repo/ast/src/traverse/macros.rs:59-75`, the trait `Visitor`. -/
structure Visitor (σ : Type) where
  enter : Node → σ → Bool × σ
  exit : Node → σ → σ

mutual
/-- `/repo/ast/src/traverse/macros.rs:26-39,46-54`, the body of the generated `traverse` methods. -/
def TTree.traverse {σ : Type} (v : Visitor σ) : TTree → σ → σ
  | .node n cs, s =>
    match v.enter n s with
    | (true, s) => v.exit n (TTree.traverseAll v cs s)
    | (false, s) => v.exit n s
termination_by structural t => t
/-- Traversal of the listed fields in order (`$( self.$field.traverse(visitor); )*`, and `Vec`: `mod.rs:10-14`). -/
def TTree.traverseAll {σ : Type} (v : Visitor σ) : List TTree → σ → σ
  | [], s => s
  | t :: ts, s => TTree.traverseAll v ts (t.traverse v s)
termination_by structural ts => ts
end

/-- A node without children. -/
def leaf (n : Node) : TTree := .node n []

/-- `Option<Ident>` fields. -/
def optIdent : Option Ident → List TTree
  | some i => [leaf (.ident i)]
  | none => []

/-- `/repo/ast/src/traverse/mod.rs:520-523` `NamedExport`. -/
def NamedExport.ttree (n : NamedExport) : TTree := .node (.namedExport n) (leaf (.ident n.name) :: optIdent n.aliasOf)

/-- `/repo/ast/src/traverse/mod.rs:525-528` `NamedImport`. -/
def NamedImport.ttree (n : NamedImport) : TTree := .node (.namedImport n) (leaf (.ident n.name) :: optIdent n.alias)

/-- `Option<LitString>` fields. -/
def optString : Option LitString → List TTree
  | some s => [leaf (.string s)]
  | none => []

/-- `Option<Vec<NamedImport>>` fields. -/
def optImports : Option (List NamedImport) → List TTree
  | some l => l.map NamedImport.ttree
  | none => []

mutual

/-- `Expr`, mod.rs:40-64, and the structs of its variants. -/
def Expr.ttree (e : Expr) : TTree :=
  match e with
  -- mod.rs:318-321
  | .arrow _ _ _ ps b => .node (.expr e) [.node (.exprNode e) [ps.ttree, b.ttree]]
  -- mod.rs:280-284
  | .assign _ op l r => .node (.expr e) [.node (.exprNode e) [l.ttree, leaf (.assignOp op), r.ttree]]
  -- mod.rs:323-325
  | .await _ a => .node (.expr e) [.node (.exprNode e) [a.ttree]]
  -- mod.rs:235-239
  | .binary _ op l r => .node (.expr e) [.node (.exprNode e) [l.ttree, leaf (.binaryOp op), r.ttree]]
  -- mod.rs:252-255
  | .call _ c _ as => .node (.expr e) [.node (.exprNode e) (c.ttree :: argTrees as)]
  -- mod.rs:332-336
  | .classE _ i sc b => .node (.expr e) [.node (.exprNode e) (optIdent i ++ (optExprTrees sc ++ elementTrees b))]
  -- mod.rs:290-294: the condition twice, the alternate never
  | .conditional _ c t _ => .node (.expr e) [.node (.exprNode e) [c.ttree, t.ttree, c.ttree]]
  -- mod.rs:307-311
  | .function _ _ _ i ps b => .node (.expr e) [.node (.exprNode e) (optIdent i ++ [ps.ttree, b.ttree])]
  -- `IdentRef`, mod.rs:530
  | .ident i => .node (.expr e) [leaf (.ident i)]
  -- mod.rs:276-278
  | .literal _ l => .node (.expr e) [.node (.exprNode e) [l.ttree]]
  -- mod.rs:241-245
  | .logical _ op l r => .node (.expr e) [.node (.exprNode e) [l.ttree, leaf (.logicalOp op), r.ttree]]
  -- mod.rs:257-260
  | .member _ o p => .node (.expr e) [.node (.exprNode e) [o.ttree, p.ttree]]
  -- mod.rs:327-330
  | .metaProp _ o p => .node (.expr e) [.node (.exprNode e) [leaf (.ident o), leaf (.ident p)]]
  -- mod.rs:313-316
  | .new _ c _ as => .node (.expr e) [.node (.exprNode e) (c.ttree :: argTrees as)]
  -- mod.rs:267-270
  | .optCall _ c _ as _ => .node (.expr e) [.node (.exprNode e) (c.ttree :: argTrees as)]
  -- mod.rs:262-265
  | .optMember _ o p _ => .node (.expr e) [.node (.exprNode e) [o.ttree, p.ttree]]
  -- mod.rs:272-274
  | .paren _ x => .node (.expr e) [.node (.exprNode e) [x.ttree]]
  -- mod.rs:301-303
  | .sequence _ xs => .node (.expr e) [.node (.exprNode e) (exprTrees xs)]
  -- mod.rs:505-508
  | .tagged _ c t => .node (.expr e) [.node (.exprNode e) [c.ttree, .node (.template t) (partTrees t)]]
  -- mod.rs:305
  | .this _ => .node (.expr e) [.node (.exprNode e) []]
  -- mod.rs:247-250
  | .unary _ op a => .node (.expr e) [.node (.exprNode e) [leaf (.unaryOp op), a.ttree]]
  -- mod.rs:296-299
  | .update _ op _ a => .node (.expr e) [.node (.exprNode e) [a.ttree, leaf (.updateOp op)]]
  -- mod.rs:286-288
  | .yield _ a _ => .node (.expr e) [.node (.exprNode e) (optExprTrees a)]
termination_by structural e

/-- `Vec<Expr>`. -/
def exprTrees : List Expr → List TTree
  | [] => []
  | e :: es => e.ttree :: exprTrees es
termination_by structural es => es

/-- `Option<Expr>`. -/
def optExprTrees : Option Expr → List TTree
  | some e => [e.ttree]
  | none => []
termination_by structural e => e

/-- `Literal`, mod.rs:98-104 (no children for the other variants), `LitArray`, 444-446, `LitObject`, 448-450, `LitTemplate`
440-442. -/
def Literal.ttree (l : Literal) : TTree :=
  match l with
  | .null => leaf (.literal l)
  | .boolean _ => leaf (.literal l)
  | .string s => .node (.literal l) [leaf (.string s)]
  | .number raw => .node (.literal l) [leaf (.number raw)]
  | .array es => .node (.literal l) [.node (.literalNode l) (arrayElementTrees es)]
  | .object ps => .node (.literal l) [.node (.literalNode l) (propDefTrees ps)]
  | .regexp _ => leaf (.literal l)
  | .template parts => .node (.literal l) [.node (.template parts) (partTrees parts)]
termination_by structural l

/-- `Vec<TemplatePart>`; `TemplatePart`, mod.rs:108-110. -/
def partTrees : List TemplatePart → List TTree
  | [] => []
  | t :: ts => t.ttree :: partTrees ts
termination_by structural ts => ts

/-- `TemplatePart`, mod.rs:108-110. -/
def TemplatePart.ttree (t : TemplatePart) : TTree :=
  match t with
  | .string _ => leaf (.templatePart t)
  | .expr e => .node (.templatePart t) [e.ttree]
termination_by structural t

/-- `ArrayElement`, mod.rs:160-163. -/
def ArrayElement.ttree (a : ArrayElement) : TTree :=
  match a with
  | .elision => leaf (.arrayElement a)
  | .expr e => .node (.arrayElement a) [e.ttree]
  | .spread e => .node (.arrayElement a) [e.ttree]
termination_by structural a

/-- `Vec<ArrayElement>`. -/
def arrayElementTrees : List ArrayElement → List TTree
  | [] => []
  | a :: as => a.ttree :: arrayElementTrees as
termination_by structural as => as

/-- `PropertyDefinition`, mod.rs:170-175; `NamedProperty`, 472-475. -/
def PropDef.ttree (p : PropDef) : TTree :=
  match p with
  | .identRef i => .node (.propDef p) [leaf (.ident i)]
  | .spread e => .node (.propDef p) [e.ttree]
  | .named _ n v => .node (.propDef p) [.node (.namedProp p) [n.ttree, v.ttree]]
  | .method m => .node (.propDef p) [m.ttree]
termination_by structural p

/-- `Vec<PropertyDefinition>`. -/
def propDefTrees : List PropDef → List TTree
  | [] => []
  | p :: ps => p.ttree :: propDefTrees ps
termination_by structural ps => ps

/-- `PropertyName`, mod.rs:117-122. -/
def PropName.ttree (n : PropName) : TTree :=
  match n with
  | .ident i => .node (.propName n) [leaf (.ident i)]
  | .string s => .node (.propName n) [leaf (.string s)]
  | .number raw => .node (.propName n) [leaf (.number raw)]
  | .computed e => .node (.propName n) [e.ttree]
termination_by structural n

/-- `MethodDefinition`, mod.rs:477-481. -/
def MethodDef.ttree (m : MethodDef) : TTree :=
  match m with
  | .mk _ n _ ps b _ _ _ => .node (.method m) [n.ttree, ps.ttree, b.ttree]
termination_by structural m

/-- `Vec<ClassElement>`; `ClassElement`, mod.rs:124-126. -/
def elementTrees : List MethodDef → List TTree
  | [] => []
  | m :: ms => .node (.classElement m) [m.ttree] :: elementTrees ms
termination_by structural ms => ms

/-- `FormalParameters`, mod.rs:428-431. -/
def FormalParams.ttree (p : FormalParams) : TTree :=
  match p with
  | .mk _ bs r => .node (.formalParams p) (bindingElementTrees bs ++ optPatternTrees r)
termination_by structural p

/-- `Vec<BindingElement>`. -/
def bindingElementTrees : List BindingElement → List TTree
  | [] => []
  | b :: bs => b.ttree :: bindingElementTrees bs
termination_by structural bs => bs

/-- `Option<BindingPattern>`. -/
def optPatternTrees : Option BindingPattern → List TTree
  | some p => [p.ttree]
  | none => []
termination_by structural p => p

/-- `Body`, mod.rs:532-535. -/
def Body.ttree (b : Body) : TTree :=
  match b with
  | .mk _ ds ss => .node (.body b) (ds.map (fun d => leaf (.string d)) ++ stmtTrees ss)
termination_by structural b

/-- `ArrowFunctionBody`, mod.rs:165-168. -/
def ArrowBody.ttree (b : ArrowBody) : TTree :=
  match b with
  | .expr e => .node (.arrowBody b) [e.ttree]
  | .body x => .node (.arrowBody b) [x.ttree]
termination_by structural b

/-- `MemberObject`, mod.rs:148-151; `Super`, 153. -/
def MemberObject.ttree (o : MemberObject) : TTree :=
  match o with
  | .expr e => .node (.memberObject o) [e.ttree]
  | .super _ => .node (.memberObject o) [leaf (.super o)]
termination_by structural o

/-- `MemberProperty`, mod.rs:155-158. -/
def MemberProp.ttree (p : MemberProp) : TTree :=
  match p with
  | .ident i => .node (.memberProp p) [leaf (.ident i)]
  | .expr e => .node (.memberProp p) [e.ttree]
termination_by structural p

/-- `Argument`, mod.rs:143-146. -/
def Argument.ttree (a : Argument) : TTree :=
  match a with
  | .expr e => .node (.argument a) [e.ttree]
  | .spread e => .node (.argument a) [e.ttree]
termination_by structural a

/-- `Vec<Argument>`. -/
def argTrees : List Argument → List TTree
  | [] => []
  | a :: as => a.ttree :: argTrees as
termination_by structural as => as

/-- `Callee`, mod.rs:139-141. -/
def Callee.ttree (c : Callee) : TTree :=
  match c with
  | .super => leaf (.callee c)
  | .import => leaf (.callee c)
  | .expr e => .node (.callee c) [e.ttree]
termination_by structural c

/-- `BindingPattern`, mod.rs:92-96; `ArrayBinding`, 452-455; `ObjectBinding`, 457-460. -/
def BindingPattern.ttree (p : BindingPattern) : TTree :=
  match p with
  | .ident i => .node (.bindingPattern p) [leaf (.ident i)]
  | .array _ es r => .node (.bindingPattern p) [.node (.bindingNode p) (optElementTrees es ++ optPatternTrees r)]
  | .object _ ps r => .node (.bindingPattern p) [.node (.bindingNode p) (bindingPropTrees ps ++ optPatternTrees r)]
termination_by structural p

/-- `Vec<Option<BindingElement>>`. -/
def optElementTrees : List (Option BindingElement) → List TTree
  | [] => []
  | o :: os => optElementTree o ++ optElementTrees os
termination_by structural os => os

/-- `Option<BindingElement>`. -/
def optElementTree : Option BindingElement → List TTree
  | some b => [b.ttree]
  | none => []
termination_by structural o => o

/-- `ObjectBindingProp`, mod.rs:112-115; `SingleNameBinding`, 462-465; `NamedBinding`, 467-470. -/
def BindingProp.ttree (p : BindingProp) : TTree :=
  match p with
  | .single _ i init => .node (.bindingProp p) [.node (.bindingPropNode p) (leaf (.ident i) :: optExprTrees init)]
  | .named _ n b => .node (.bindingProp p) [.node (.bindingPropNode p) [n.ttree, b.ttree]]
termination_by structural p

/-- `Vec<ObjectBindingProp>`. -/
def bindingPropTrees : List BindingProp → List TTree
  | [] => []
  | p :: ps => p.ttree :: bindingPropTrees ps
termination_by structural ps => ps

/-- `BindingElement`, mod.rs:423-426. -/
def BindingElement.ttree (b : BindingElement) : TTree :=
  match b with
  | .mk _ p init => .node (.bindingElement b) (p.ttree :: optExprTrees init)
termination_by structural b

/-- `PatternOrExpr`, mod.rs:195-198; `AssignmentPattern`, 200-202: no children ("TODO"). -/
def PatternOrExpr.ttree (p : PatternOrExpr) : TTree :=
  match p with
  | .expr e => .node (.patternOrExpr p) [e.ttree]
  | .pattern a => .node (.patternOrExpr p) [leaf (.assignPattern a)]
termination_by structural p

/-- `Stmt`, mod.rs:66-90, and the structs of its variants. -/
def Stmt.ttree (s : Stmt) : TTree :=
  match s with
  | .block b => .node (.stmt s) [b.ttree]
  -- mod.rs:374-376
  | .break _ l => .node (.stmt s) [.node (.stmtNode s) (optIdent l)]
  -- mod.rs:370-372
  | .continue _ l => .node (.stmt s) [.node (.stmtNode s) (optIdent l)]
  -- mod.rs:354
  | .debugger _ => .node (.stmt s) [.node (.stmtNode s) []]
  -- mod.rs:413-416
  | .doWhile _ b t => .node (.stmt s) [.node (.stmtNode s) [b.ttree, t.ttree]]
  -- mod.rs:346
  | .empty _ => .node (.stmt s) [.node (.stmtNode s) []]
  -- mod.rs:227-229
  | .expr _ e => .node (.stmt s) [.node (.stmtNode s) [e.ttree]]
  -- mod.rs:389-394
  | .for _ i t u b =>
    .node (.stmt s) [.node (.stmtNode s) (optForInitTrees i ++ (optExprTrees t ++ (optExprTrees u ++ [b.ttree])))]
  -- mod.rs:402-406
  | .forIn _ l r b => .node (.stmt s) [.node (.stmtNode s) [l.ttree, r.ttree, b.ttree]]
  -- mod.rs:396-400
  | .forOf _ l r b _ => .node (.stmt s) [.node (.stmtNode s) [l.ttree, r.ttree, b.ttree]]
  -- mod.rs:383-387
  | .if _ c t a => .node (.stmt s) [.node (.stmtNode s) (c.ttree :: t.ttree :: optStmtTrees a)]
  -- mod.rs:360-363
  | .labeled _ l b => .node (.stmt s) [.node (.stmtNode s) [leaf (.ident l), b.ttree]]
  -- mod.rs:338-340
  | .return _ a => .node (.stmt s) [.node (.stmtNode s) (optExprTrees a)]
  -- mod.rs:378-381
  | .switch _ d cs => .node (.stmt s) [.node (.stmtNode s) (d.ttree :: caseTrees cs)]
  -- mod.rs:356-358
  | .throw _ a => .node (.stmt s) [.node (.stmtNode s) [a.ttree]]
  -- mod.rs:348-352
  | .try _ b h f => .node (.stmt s) [.node (.stmtNode s) (b.ttree :: (optCatchTrees h ++ optBlockTrees f))]
  | .variable v => .node (.stmt s) [v.ttree]
  -- mod.rs:408-411
  | .while _ t b => .node (.stmt s) [.node (.stmtNode s) [t.ttree, b.ttree]]
  -- mod.rs:365-368
  | .with _ o b => .node (.stmt s) [.node (.stmtNode s) [o.ttree, b.ttree]]
  -- mod.rs:214-218
  | .classDecl _ i sc b => .node (.stmt s) [.node (.stmtNode s) (leaf (.ident i) :: (optExprTrees sc ++ elementTrees b))]
  -- mod.rs:208-212
  | .functionDecl _ _ _ i ps b => .node (.stmt s) [.node (.stmtNode s) [leaf (.ident i), ps.ttree, b.ttree]]
  -- mod.rs:220-225: the named imports twice, the namespace binding never
  | .importDecl _ d _ n src =>
    .node (.stmt s) [.node (.stmtNode s) (optIdent d ++ (optImports n ++ (optImports n ++ [leaf (.string src)])))]
  | .exportDecl d => .node (.stmt s) [d.ttree]
termination_by structural s

/-- `Vec<Stmt>`. -/
def stmtTrees : List Stmt → List TTree
  | [] => []
  | s :: ss => s.ttree :: stmtTrees ss
termination_by structural ss => ss

/-- `Option<Stmt>`. -/
def optStmtTrees : Option Stmt → List TTree
  | some s => [s.ttree]
  | none => []
termination_by structural s => s

/-- `StmtBlock`, mod.rs:231-233. -/
def Block.ttree (b : Block) : TTree :=
  match b with
  | .mk _ ss => .node (.block b) (stmtTrees ss)
termination_by structural b

/-- `Option<StmtBlock>`. -/
def optBlockTrees : Option Block → List TTree
  | some b => [b.ttree]
  | none => []
termination_by structural b => b

/-- `StmtVariable`, mod.rs:342-344. -/
def VarStmt.ttree (v : VarStmt) : TTree :=
  match v with
  | .mk _ _ ds => .node (.varStmt v) (varDeclTrees ds)
termination_by structural v

/-- `VariableDeclaration`, mod.rs:433-436. -/
def VarDecl.ttree (v : VarDecl) : TTree :=
  match v with
  | .mk _ p init => .node (.varDecl v) (p.ttree :: optExprTrees init)
termination_by structural v

/-- `Vec<VariableDeclaration>`. -/
def varDeclTrees : List VarDecl → List TTree
  | [] => []
  | v :: vs => v.ttree :: varDeclTrees vs
termination_by structural vs => vs

/-- `CatchClause`, mod.rs:483-486. -/
def CatchClause.ttree (c : CatchClause) : TTree :=
  match c with
  | .mk _ p b => .node (.catchClause c) (optPatternTrees p ++ [b.ttree])
termination_by structural c

/-- `Option<CatchClause>`. -/
def optCatchTrees : Option CatchClause → List TTree
  | some c => [c.ttree]
  | none => []
termination_by structural c => c

/-- `SwitchCase`, mod.rs:488-491. -/
def SwitchCase.ttree (c : SwitchCase) : TTree :=
  match c with
  | .mk _ t ss => .node (.switchCase c) (optExprTrees t ++ stmtTrees ss)
termination_by structural c

/-- `Vec<SwitchCase>`. -/
def caseTrees : List SwitchCase → List TTree
  | [] => []
  | c :: cs => c.ttree :: caseTrees cs
termination_by structural cs => cs

/-- `ForInit`, mod.rs:128-131. -/
def ForInit.ttree (f : ForInit) : TTree :=
  match f with
  | .expr e => .node (.forInit f) [e.ttree]
  | .declaration v => .node (.forInit f) [v.ttree]
termination_by structural f

/-- `Option<ForInit>`. -/
def optForInitTrees : Option ForInit → List TTree
  | some f => [f.ttree]
  | none => []
termination_by structural f => f

/-- `ForDeclaration`, mod.rs:133-137; `ForBinding`, 537: no children. -/
def ForDecl.ttree (f : ForDecl) : TTree :=
  match f with
  | .expr e => .node (.forDecl f) [e.ttree]
  | .pattern p => .node (.forDecl f) [leaf (.assignPattern p)]
  | .declaration .. => .node (.forDecl f) [leaf (.forBinding f)]
termination_by structural f

/-- `DeclExport`, mod.rs:187-193; `ExportDecl`, 493-495; `ExportDefaultDecl`, 497-499; `ExportDefaultExpr`, 501-503;
`ExportNamed`, 510-513; `ExportNamespace`, 515-518. -/
def ExportDecl.ttree (d : ExportDecl) : TTree :=
  match d with
  | .decl _ s => .node (.export d) [.node (.exportNode d) [s.ttree]]
  | .defaultExpr _ e => .node (.export d) [.node (.exportNode d) [e.ttree]]
  | .defaultDecl _ s => .node (.export d) [.node (.exportNode d) [s.ttree]]
  | .named _ ns src => .node (.export d) [.node (.exportNode d) (ns.map NamedExport.ttree ++ optString src)]
  | .namespace _ a src => .node (.export d) [.node (.exportNode d) (optIdent a ++ [leaf (.string src)])]
termination_by structural d

end

/-- `Program`, mod.rs:35-38; `StmtList<Stmt>`, 418-421. -/
def Program.ttree (p : Program) : TTree :=
  .node (.program p) [.node (.stmtList p.span p.directives p.body) (p.directives.map (fun d => leaf (.string d)) ++ stmtTrees p.body)]

end Fajt
