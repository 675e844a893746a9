import Verif.Model.Traverse
/-!
# Visitors: C41 (enter/exit balance) and C42 (every child is visited)
-/
namespace Fajt.Props

/-- A call of a hook. -/
inductive Event where
  | enter (n : Node)
  | exit (n : Node)

/-- Record the calls made to a visitor. -/
def recording {σ : Type} (v : Visitor σ) : Visitor (σ × List Event) where
  enter n s := ((v.enter n s.1).1, (v.enter n s.1).2, s.2 ++ [.enter n])
  exit n s := (v.exit n s.1, s.2 ++ [.exit n])

/-- The calls made to `v` when it traverses `t` starting in state `s`. -/
def calls {σ : Type} (v : Visitor σ) (t : TTree) (s : σ) : List Event := (t.traverse (recording v) (s, [])).2

/-- Well-nested sequences of calls: every enter is followed by a well-nested sequence and the exit of the same node. -/
inductive Balanced : List Event → Prop
  | nil : Balanced []
  | node (n : Node) {w w' : List Event} : Balanced w → Balanced w' → Balanced (.enter n :: w ++ .exit n :: w')

mutual
/-- The calls for a tree, of a visitor that may decline to descend: either the two hooks of the root only, or the hooks of the
root around the calls for all children in order. -/
inductive CallsFor : TTree → List Event → Prop
  | skip (n : Node) (cs : List TTree) : CallsFor (.node n cs) [.enter n, .exit n]
  | descend (n : Node) {cs : List TTree} {w : List Event} : CallsForAll cs w →
      CallsFor (.node n cs) (.enter n :: (w ++ [.exit n]))
/-- The calls for a list of trees, in order. -/
inductive CallsForAll : List TTree → List Event → Prop
  | nil : CallsForAll [] []
  | cons {t : TTree} {ts : List TTree} {w w' : List Event} : CallsFor t w → CallsForAll ts w' →
      CallsForAll (t :: ts) (w ++ w')
end

mutual
theorem recording_spec {σ : Type} (v : Visitor σ) : ∀ (t : TTree) (s : σ) (l : List Event),
    ∃ w, t.traverse (recording v) (s, l) = (t.traverse v s, l ++ w) ∧ CallsFor t w
  | .node n cs, s, l => by
    rw [TTree.traverse, TTree.traverse]
    simp only [recording]
    cases h : v.enter n s with
    | mk b s' =>
      cases b with
      | false => exact ⟨[.enter n, .exit n], by simp, .skip n cs⟩
      | true =>
        obtain ⟨w, h1, h2⟩ := recordingAll_spec v cs s' (l ++ [.enter n])
        simp only [recording] at h1
        refine ⟨.enter n :: (w ++ [.exit n]), ?_, .descend n h2⟩
        simp only [h1]
        simp
termination_by structural t => t
theorem recordingAll_spec {σ : Type} (v : Visitor σ) : ∀ (ts : List TTree) (s : σ) (l : List Event),
    ∃ w, TTree.traverseAll (recording v) ts (s, l) = (TTree.traverseAll v ts s, l ++ w) ∧ CallsForAll ts w
  | [], s, l => ⟨[], by simp [TTree.traverseAll], .nil⟩
  | t :: ts, s, l => by
    obtain ⟨w, h1, h2⟩ := recording_spec v t s l
    obtain ⟨w', h3, h4⟩ := recordingAll_spec v ts (t.traverse v s) (l ++ w)
    refine ⟨w ++ w', ?_, .cons h2 h4⟩
    rw [TTree.traverseAll, TTree.traverseAll, h1, h3, List.append_assoc]
termination_by structural ts => ts
end

mutual
theorem callsFor_balanced {t : TTree} {w : List Event} : CallsFor t w →
    ∀ {w' : List Event}, Balanced w' → Balanced (w ++ w')
  | .skip n _, _, h => .node n .nil h
  | .descend n h, w', hw => by
    have := Balanced.node n (callsForAll_balanced h .nil) hw
    simpa using this
theorem callsForAll_balanced {ts : List TTree} {w : List Event} : CallsForAll ts w →
    ∀ {w' : List Event}, Balanced w' → Balanced (w ++ w')
  | .nil, _, h => h
  | .cons h1 h2, _, h => by
    rw [List.append_assoc]
    exact callsFor_balanced h1 (callsForAll_balanced h2 h)
end

/-- **C41**. The hooks called while any visitor traverses any tree form a well-nested sequence. -/
theorem C41_balanced {σ : Type} (v : Visitor σ) (t : TTree) (s : σ) : Balanced (calls v t s) := by
  obtain ⟨w, h1, h2⟩ := recording_spec v t s []
  unfold calls
  rw [h1]
  simpa using callsFor_balanced h2 .nil

/-- **C41**, more precisely: the calls are the enter of the root, then nothing or the calls for all its children in order, and
then the exit of the root, at every level; and recording them does not change what the visitor does. -/
theorem C41_calls {σ : Type} (v : Visitor σ) (t : TTree) (s : σ) :
    CallsFor t (calls v t s) ∧ (t.traverse (recording v) (s, [])).1 = t.traverse v s := by
  obtain ⟨w, h1, h2⟩ := recording_spec v t s []
  unfold calls
  rw [h1]
  exact ⟨by simpa using h2, rfl⟩

mutual
/-- All calls for a tree, without skipping. -/
def allCalls : TTree → List Event
  | .node n cs => .enter n :: (allCallsList cs ++ [.exit n])
termination_by structural t => t
/-- All calls for a list of trees, without skipping. -/
def allCallsList : List TTree → List Event
  | [] => []
  | t :: ts => allCalls t ++ allCallsList ts
termination_by structural ts => ts
end

mutual
theorem traverse_all {σ : Type} (v : Visitor σ) (h : ∀ n s, (v.enter n s).1 = true) : ∀ (t : TTree) (s : σ) (l : List Event),
    (t.traverse (recording v) (s, l)).2 = l ++ allCalls t
  | .node n cs, s, l => by
    rw [TTree.traverse, allCalls]
    have he : (recording v).enter n (s, l) = (true, (v.enter n s).2, l ++ [.enter n]) := by simp [recording, h]
    rw [he]
    have := traverseAll_all v h cs (v.enter n s).2 (l ++ [.enter n])
    show (TTree.traverseAll (recording v) cs _).2 ++ [.exit n] = _
    rw [this]
    simp
termination_by structural t => t
theorem traverseAll_all {σ : Type} (v : Visitor σ) (h : ∀ n s, (v.enter n s).1 = true) : ∀ (ts : List TTree) (s : σ)
    (l : List Event), (TTree.traverseAll (recording v) ts (s, l)).2 = l ++ allCallsList ts
  | [], s, l => by simp [TTree.traverseAll, allCallsList]
  | t :: ts, s, l => by
    rw [TTree.traverseAll, allCallsList]
    have h1 := traverse_all v h t s l
    have h2 := traverseAll_all v h ts (t.traverse (recording v) (s, l)).1 (t.traverse (recording v) (s, l)).2
    rw [h2, h1, List.append_assoc]
termination_by structural ts => ts
end

/-- **C41**: a visitor that always descends (the default of the trait, and `TraceVisitor`) is called for every node of the
traversal tree, in pre- and postorder. -/
theorem C41_descending_visitor {σ : Type} (v : Visitor σ) (h : ∀ n s, (v.enter n s).1 = true) (t : TTree) (s : σ) :
    calls v t s = allCalls t := by
  unfold calls
  simpa using traverse_all v h t s []

/-- `/repo/ast/src/traverse/macros.rs:78-119` `TraceVisitor`: it always descends and records every call. -/
def traceVisitor : Visitor (List Event) where
  enter n s := (true, s ++ [.enter n])
  exit n s := s ++ [.exit n]

example (t : TTree) : calls traceVisitor t [] = allCalls t := C41_descending_visitor _ (fun _ _ => rfl) t []

/-! ## C42 -/

/-- The nodes directly below a node, in the order in which they are written in a source text.  This is the specification: it
says what the parts of each construct are. -/
def parts : Node → List Node
  | .program p => [.stmtList p.span p.directives p.body]
  | .stmtList _ ds b => ds.map .string ++ b.map .stmt
  | .expr (.ident i) => [.ident i]
  | .expr e => [.exprNode e]
  | .exprNode e => match e with
    | .arrow _ _ _ ps b => [.formalParams ps, .arrowBody b]
    | .assign _ op l r => [.patternOrExpr l, .assignOp op, .expr r]
    | .await _ a => [.expr a]
    | .binary _ op l r => [.expr l, .binaryOp op, .expr r]
    | .call _ c _ as => .callee c :: as.map .argument
    | .classE _ i sc b => i.toList.map .ident ++ sc.toList.map .expr ++ b.map .classElement
    | .conditional _ c t a => [.expr c, .expr t, .expr a]
    | .function _ _ _ i ps b => i.toList.map .ident ++ [.formalParams ps, .body b]
    | .ident _ => []
    | .literal _ l => [.literal l]
    | .logical _ op l r => [.expr l, .logicalOp op, .expr r]
    | .member _ o p => [.memberObject o, .memberProp p]
    | .metaProp _ o p => [.ident o, .ident p]
    | .new _ c _ as => .expr c :: as.map .argument
    | .optCall _ c _ as _ => .expr c :: as.map .argument
    | .optMember _ o p _ => [.expr o, .memberProp p]
    | .paren _ x => [.expr x]
    | .sequence _ xs => xs.map .expr
    | .tagged _ c t => [.expr c, .template t]
    | .this _ => []
    | .unary _ op a => [.unaryOp op, .expr a]
    | .update _ op _ a => [.expr a, .updateOp op]
    | .yield _ a _ => a.toList.map .expr
  | .stmt s => match s with
    | .block b => [.block b]
    | .variable v => [.varStmt v]
    | .exportDecl d => [.export d]
    | s => [.stmtNode s]
  | .stmtNode s => match s with
    | .break _ l => l.toList.map .ident
    | .continue _ l => l.toList.map .ident
    | .doWhile _ b t => [.stmt b, .expr t]
    | .expr _ e => [.expr e]
    | .for _ i t u b => i.toList.map .forInit ++ t.toList.map .expr ++ u.toList.map .expr ++ [.stmt b]
    | .forIn _ l r b => [.forDecl l, .expr r, .stmt b]
    | .forOf _ l r b _ => [.forDecl l, .expr r, .stmt b]
    | .if _ c t a => [.expr c, .stmt t] ++ a.toList.map .stmt
    | .labeled _ l b => [.ident l, .stmt b]
    | .return _ a => a.toList.map .expr
    | .switch _ d cs => .expr d :: cs.map .switchCase
    | .throw _ a => [.expr a]
    | .try _ b h f => .block b :: (h.toList.map .catchClause ++ f.toList.map .block)
    | .while _ t b => [.expr t, .stmt b]
    | .with _ o b => [.expr o, .stmt b]
    | .classDecl _ i sc b => .ident i :: (sc.toList.map .expr ++ b.map .classElement)
    | .functionDecl _ _ _ i ps b => [.ident i, .formalParams ps, .body b]
    | .importDecl _ d ns n src =>
      d.toList.map .ident ++ ns.toList.map .ident ++ (n.getD []).map .namedImport ++ [.string src]
    | _ => []
  | .block (.mk _ ss) => ss.map .stmt
  | .varStmt (.mk _ _ ds) => ds.map .varDecl
  | .varDecl (.mk _ p i) => .bindingPattern p :: i.toList.map .expr
  | .catchClause (.mk _ p b) => p.toList.map .bindingPattern ++ [.block b]
  | .switchCase (.mk _ t ss) => t.toList.map .expr ++ ss.map .stmt
  | .forInit (.expr e) => [.expr e]
  | .forInit (.declaration v) => [.varStmt v]
  | .forDecl (.expr e) => [.expr e]
  | .forDecl (.pattern p) => [.assignPattern p]
  | .forDecl d => [.forBinding d]
  | .forBinding (.declaration _ _ b) => [.bindingPattern b]
  | .forBinding _ => []
  | .export d => [.exportNode d]
  | .exportNode (.decl _ s) => [.stmt s]
  | .exportNode (.defaultExpr _ e) => [.expr e]
  | .exportNode (.defaultDecl _ s) => [.stmt s]
  | .exportNode (.named _ ns src) => ns.map .namedExport ++ src.toList.map .string
  | .exportNode (.namespace _ a src) => a.toList.map .ident ++ [.string src]
  | .namedExport n => .ident n.name :: n.aliasOf.toList.map .ident
  | .namedImport n => .ident n.name :: n.alias.toList.map .ident
  | .bindingPattern (.ident i) => [.ident i]
  | .bindingPattern p => [.bindingNode p]
  | .bindingNode (.array _ es r) => (es.filterMap id).map .bindingElement ++ r.toList.map .bindingPattern
  | .bindingNode (.object _ ps r) => ps.map .bindingProp ++ r.toList.map .bindingPattern
  | .bindingNode _ => []
  | .bindingProp p => [.bindingPropNode p]
  | .bindingPropNode (.single _ i init) => .ident i :: init.toList.map .expr
  | .bindingPropNode (.named _ n b) => [.propName n, .bindingElement b]
  | .bindingElement (.mk _ p i) => .bindingPattern p :: i.toList.map .expr
  | .formalParams (.mk _ bs r) => bs.map .bindingElement ++ r.toList.map .bindingPattern
  | .body (.mk _ ds ss) => ds.map .string ++ ss.map .stmt
  | .method (.mk _ n _ ps b _ _ _) => [.propName n, .formalParams ps, .body b]
  | .classElement m => [.method m]
  | .literal l => match l with
    | .string s => [.string s]
    | .number raw => [.number raw]
    | .array es => [.literalNode (.array es)]
    | .object ps => [.literalNode (.object ps)]
    | .template parts => [.template parts]
    | _ => []
  | .literalNode (.array es) => es.map .arrayElement
  | .literalNode (.object ps) => ps.map .propDef
  | .literalNode _ => []
  | .template ps => ps.map .templatePart
  | .templatePart (.string _) => []
  | .templatePart (.expr e) => [.expr e]
  | .arrayElement .elision => []
  | .arrayElement (.expr e) => [.expr e]
  | .arrayElement (.spread e) => [.expr e]
  | .propDef (.identRef i) => [.ident i]
  | .propDef (.spread e) => [.expr e]
  | .propDef (.method m) => [.method m]
  | .propDef p => [.namedProp p]
  | .namedProp (.named _ n v) => [.propName n, .expr v]
  | .namedProp _ => []
  | .propName (.ident i) => [.ident i]
  | .propName (.string s) => [.string s]
  | .propName (.number raw) => [.number raw]
  | .propName (.computed e) => [.expr e]
  | .arrowBody (.expr e) => [.expr e]
  | .arrowBody (.body b) => [.body b]
  | .memberObject (.expr e) => [.expr e]
  | .memberObject o => [.super o]
  | .memberProp (.ident i) => [.ident i]
  | .memberProp (.expr e) => [.expr e]
  | .argument (.expr e) => [.expr e]
  | .argument (.spread e) => [.expr e]
  | .callee (.expr e) => [.expr e]
  | .callee _ => []
  | .patternOrExpr (.expr e) => [.expr e]
  | .patternOrExpr (.pattern p) => [.assignPattern p]
  | _ => []

/-- The nodes for which the traversal table deviates from the specification. -/
def deviating : Node → Bool
  | .exprNode (.conditional ..) => true
  | .stmtNode (.importDecl ..) => true
  | .assignPattern _ => true
  | .forBinding _ => true
  | _ => false

/-- What the traversal shows below a node: its parts, except for the four kinds of nodes above. -/
def visited : Node → List Node
  | .exprNode (.conditional _ c t _) => [.expr c, .expr t, .expr c]
  | .stmtNode (.importDecl _ d _ n src) =>
    d.toList.map .ident ++ (n.getD []).map .namedImport ++ (n.getD []).map .namedImport ++ [.string src]
  | .assignPattern _ => []
  | .forBinding _ => []
  | n => parts n

theorem visited_eq {n : Node} (h : deviating n = false) : visited n = parts n := by
  unfold visited
  split <;> first | rfl | cases h

@[simp] theorem root_leaf (n : Node) : (leaf n).root = n := rfl
@[simp] theorem root_node (n : Node) (cs : List TTree) : (TTree.node n cs).root = n := rfl
@[simp] theorem kids_node (n : Node) (cs : List TTree) : (TTree.node n cs).kids = cs := rfl
@[simp] theorem kids_leaf (n : Node) : (leaf n).kids = [] := rfl
@[simp] theorem root_expr (x : Expr) : x.ttree.root = .expr x := by cases x <;> simp only [Expr.ttree, root_node]
@[simp] theorem root_stmt (x : Stmt) : x.ttree.root = .stmt x := by cases x <;> simp only [Stmt.ttree, root_node]
@[simp] theorem root_block (x : Block) : x.ttree.root = .block x := by cases x <;> simp only [Block.ttree, root_node]
@[simp] theorem root_varStmt (x : VarStmt) : x.ttree.root = .varStmt x := by cases x <;> simp only [VarStmt.ttree, root_node]
@[simp] theorem root_varDecl (x : VarDecl) : x.ttree.root = .varDecl x := by cases x <;> simp only [VarDecl.ttree, root_node]
@[simp] theorem root_catchClause (x : CatchClause) : x.ttree.root = .catchClause x := by cases x <;> simp only [CatchClause.ttree, root_node]
@[simp] theorem root_switchCase (x : SwitchCase) : x.ttree.root = .switchCase x := by cases x <;> simp only [SwitchCase.ttree, root_node]
@[simp] theorem root_forInit (x : ForInit) : x.ttree.root = .forInit x := by cases x <;> simp only [ForInit.ttree, root_node]
@[simp] theorem root_forDecl (x : ForDecl) : x.ttree.root = .forDecl x := by cases x <;> simp only [ForDecl.ttree, root_node]
@[simp] theorem root_export (x : ExportDecl) : x.ttree.root = .export x := by cases x <;> simp only [ExportDecl.ttree, root_node]
@[simp] theorem root_namedExport (x : NamedExport) : x.ttree.root = .namedExport x := rfl
@[simp] theorem root_namedImport (x : NamedImport) : x.ttree.root = .namedImport x := rfl
@[simp] theorem root_bindingPattern (x : BindingPattern) : x.ttree.root = .bindingPattern x := by cases x <;> simp only [BindingPattern.ttree, root_node]
@[simp] theorem root_bindingProp (x : BindingProp) : x.ttree.root = .bindingProp x := by cases x <;> simp only [BindingProp.ttree, root_node]
@[simp] theorem root_bindingElement (x : BindingElement) : x.ttree.root = .bindingElement x := by cases x <;> simp only [BindingElement.ttree, root_node]
@[simp] theorem root_formalParams (x : FormalParams) : x.ttree.root = .formalParams x := by cases x <;> simp only [FormalParams.ttree, root_node]
@[simp] theorem root_body (x : Body) : x.ttree.root = .body x := by cases x <;> simp only [Body.ttree, root_node]
@[simp] theorem root_method (x : MethodDef) : x.ttree.root = .method x := by cases x <;> simp only [MethodDef.ttree, root_node]
@[simp] theorem root_literal (x : Literal) : x.ttree.root = .literal x := by cases x <;> simp only [Literal.ttree, root_node, root_leaf]
@[simp] theorem root_templatePart (x : TemplatePart) : x.ttree.root = .templatePart x := by cases x <;> simp only [TemplatePart.ttree, root_node, root_leaf]
@[simp] theorem root_arrayElement (x : ArrayElement) : x.ttree.root = .arrayElement x := by cases x <;> simp only [ArrayElement.ttree, root_node, root_leaf]
@[simp] theorem root_propDef (x : PropDef) : x.ttree.root = .propDef x := by cases x <;> simp only [PropDef.ttree, root_node]
@[simp] theorem root_propName (x : PropName) : x.ttree.root = .propName x := by cases x <;> simp only [PropName.ttree, root_node]
@[simp] theorem root_arrowBody (x : ArrowBody) : x.ttree.root = .arrowBody x := by cases x <;> simp only [ArrowBody.ttree, root_node]
@[simp] theorem root_memberObject (x : MemberObject) : x.ttree.root = .memberObject x := by cases x <;> simp only [MemberObject.ttree, root_node]
@[simp] theorem root_memberProp (x : MemberProp) : x.ttree.root = .memberProp x := by cases x <;> simp only [MemberProp.ttree, root_node]
@[simp] theorem root_argument (x : Argument) : x.ttree.root = .argument x := by cases x <;> simp only [Argument.ttree, root_node]
@[simp] theorem root_callee (x : Callee) : x.ttree.root = .callee x := by cases x <;> simp only [Callee.ttree, root_node, root_leaf]
@[simp] theorem root_patternOrExpr (x : PatternOrExpr) : x.ttree.root = .patternOrExpr x := by cases x <;> simp only [PatternOrExpr.ttree, root_node]
theorem exprTrees_eq (l : List Expr) : exprTrees l = l.map Expr.ttree := by
  induction l with
  | nil => simp only [exprTrees, List.map_nil]
  | cons x l ih => simp only [exprTrees, ih, List.map_cons]
theorem partTrees_eq (l : List TemplatePart) : partTrees l = l.map TemplatePart.ttree := by
  induction l with
  | nil => simp only [partTrees, List.map_nil]
  | cons x l ih => simp only [partTrees, ih, List.map_cons]
theorem arrayElementTrees_eq (l : List ArrayElement) : arrayElementTrees l = l.map ArrayElement.ttree := by
  induction l with
  | nil => simp only [arrayElementTrees, List.map_nil]
  | cons x l ih => simp only [arrayElementTrees, ih, List.map_cons]
theorem propDefTrees_eq (l : List PropDef) : propDefTrees l = l.map PropDef.ttree := by
  induction l with
  | nil => simp only [propDefTrees, List.map_nil]
  | cons x l ih => simp only [propDefTrees, ih, List.map_cons]
theorem bindingElementTrees_eq (l : List BindingElement) : bindingElementTrees l = l.map BindingElement.ttree := by
  induction l with
  | nil => simp only [bindingElementTrees, List.map_nil]
  | cons x l ih => simp only [bindingElementTrees, ih, List.map_cons]
theorem argTrees_eq (l : List Argument) : argTrees l = l.map Argument.ttree := by
  induction l with
  | nil => simp only [argTrees, List.map_nil]
  | cons x l ih => simp only [argTrees, ih, List.map_cons]
theorem bindingPropTrees_eq (l : List BindingProp) : bindingPropTrees l = l.map BindingProp.ttree := by
  induction l with
  | nil => simp only [bindingPropTrees, List.map_nil]
  | cons x l ih => simp only [bindingPropTrees, ih, List.map_cons]
theorem stmtTrees_eq (l : List Stmt) : stmtTrees l = l.map Stmt.ttree := by
  induction l with
  | nil => simp only [stmtTrees, List.map_nil]
  | cons x l ih => simp only [stmtTrees, ih, List.map_cons]
theorem varDeclTrees_eq (l : List VarDecl) : varDeclTrees l = l.map VarDecl.ttree := by
  induction l with
  | nil => simp only [varDeclTrees, List.map_nil]
  | cons x l ih => simp only [varDeclTrees, ih, List.map_cons]
theorem caseTrees_eq (l : List SwitchCase) : caseTrees l = l.map SwitchCase.ttree := by
  induction l with
  | nil => simp only [caseTrees, List.map_nil]
  | cons x l ih => simp only [caseTrees, ih, List.map_cons]
theorem elementTrees_eq (l : List MethodDef) : elementTrees l = l.map (fun m => TTree.node (.classElement m) [m.ttree]) := by
  induction l with
  | nil => simp only [elementTrees, List.map_nil]
  | cons x l ih => simp only [elementTrees, ih, List.map_cons]
theorem optExprTrees_eq (l : Option Expr) : optExprTrees l = l.toList.map Expr.ttree := by
  cases l <;> simp only [optExprTrees, Option.toList, List.map_nil, List.map_cons]
theorem optPatternTrees_eq (l : Option BindingPattern) : optPatternTrees l = l.toList.map BindingPattern.ttree := by
  cases l <;> simp only [optPatternTrees, Option.toList, List.map_nil, List.map_cons]
theorem optElementTree_eq (l : Option BindingElement) : optElementTree l = l.toList.map BindingElement.ttree := by
  cases l <;> simp only [optElementTree, Option.toList, List.map_nil, List.map_cons]
theorem optStmtTrees_eq (l : Option Stmt) : optStmtTrees l = l.toList.map Stmt.ttree := by
  cases l <;> simp only [optStmtTrees, Option.toList, List.map_nil, List.map_cons]
theorem optBlockTrees_eq (l : Option Block) : optBlockTrees l = l.toList.map Block.ttree := by
  cases l <;> simp only [optBlockTrees, Option.toList, List.map_nil, List.map_cons]
theorem optCatchTrees_eq (l : Option CatchClause) : optCatchTrees l = l.toList.map CatchClause.ttree := by
  cases l <;> simp only [optCatchTrees, Option.toList, List.map_nil, List.map_cons]
theorem optForInitTrees_eq (l : Option ForInit) : optForInitTrees l = l.toList.map ForInit.ttree := by
  cases l <;> simp only [optForInitTrees, Option.toList, List.map_nil, List.map_cons]
theorem optElementTrees_eq (l : List (Option BindingElement)) : optElementTrees l = (l.filterMap id).map BindingElement.ttree := by
  induction l with
  | nil => simp only [optElementTrees, List.filterMap_nil, List.map_nil]
  | cons x l ih => cases x <;> simp [optElementTrees, optElementTree, ih]
theorem optIdent_eq (l : Option Ident) : optIdent l = l.toList.map (fun i => leaf (.ident i)) := by cases l <;> rfl
theorem optString_eq (l : Option LitString) : optString l = l.toList.map (fun i => leaf (.string i)) := by cases l <;> rfl
theorem optImports_eq (l : Option (List NamedImport)) : optImports l = (l.getD []).map NamedImport.ttree := by cases l <;> rfl

/-- The roots of mapped trees. -/
theorem map_root {α : Type} {f : α → TTree} {g : α → Node} (h : ∀ a, (f a).root = g a) (l : List α) :
    (l.map f).map TTree.root = l.map g := by
  rw [List.map_map]; exact List.map_congr_left fun a _ => h a

/-- `t` shows exactly what is specified for its root; and so do all its subtrees. -/
inductive Faithful : TTree → Prop
  | mk {n : Node} {cs : List TTree} : cs.map TTree.root = visited n → (∀ c ∈ cs, Faithful c) →
      Faithful (.node n cs)

theorem faithful_leaf {n : Node} (h : visited n = []) : Faithful (leaf n) :=
  .mk h.symm (fun _ hc => nomatch hc)

theorem forall_map {α : Type} {f : α → TTree} {l : List α} (h : ∀ a ∈ l, Faithful (f a)) : ∀ c ∈ l.map f, Faithful c := by
  intro c hc
  obtain ⟨a, ha, rfl⟩ := List.mem_map.1 hc
  exact h a ha

@[simp] theorem faithful_ident (i : Ident) : Faithful (leaf (.ident i)) := faithful_leaf rfl
@[simp] theorem faithful_string (i : LitString) : Faithful (leaf (.string i)) := faithful_leaf rfl
@[simp] theorem faithful_number (i : Str) : Faithful (leaf (.number i)) := faithful_leaf rfl
@[simp] theorem faithful_binaryOp (i : BinaryOp) : Faithful (leaf (.binaryOp i)) := faithful_leaf rfl
@[simp] theorem faithful_logicalOp (i : LogicalOp) : Faithful (leaf (.logicalOp i)) := faithful_leaf rfl
@[simp] theorem faithful_assignOp (i : AssignOp) : Faithful (leaf (.assignOp i)) := faithful_leaf rfl
@[simp] theorem faithful_unaryOp (i : UnaryOp) : Faithful (leaf (.unaryOp i)) := faithful_leaf rfl
@[simp] theorem faithful_updateOp (i : UpdateOp) : Faithful (leaf (.updateOp i)) := faithful_leaf rfl
@[simp] theorem faithful_super (i : MemberObject) : Faithful (leaf (.super i)) := faithful_leaf rfl
@[simp] theorem faithful_assignPattern (i : AssignPattern) : Faithful (leaf (.assignPattern i)) := faithful_leaf rfl
@[simp] theorem faithful_forBinding (i : ForDecl) : Faithful (leaf (.forBinding i)) := faithful_leaf rfl
theorem faithful_idents (l : Option Ident) : ∀ c ∈ optIdent l, Faithful c := by cases l <;> simp [optIdent]
@[simp] theorem faithful_namedExport (n : NamedExport) : Faithful n.ttree :=
  .mk (by cases h : n.aliasOf <;> simp [visited, parts, optIdent, h]) (by simpa using faithful_idents _)
@[simp] theorem faithful_namedImport (n : NamedImport) : Faithful n.ttree :=
  .mk (by cases h : n.alias <;> simp [visited, parts, optIdent, h]) (by simpa using faithful_idents _)

theorem faithful_iff (n : Node) (cs : List TTree) :
    Faithful (.node n cs) ↔ cs.map TTree.root = visited n ∧ ∀ c ∈ cs, Faithful c :=
  ⟨fun h => by cases h; exact ⟨‹_›, ‹_›⟩, fun h => .mk h.1 h.2⟩

/-- Closes the goals below: computes the roots of the children and uses the induction hypotheses in the context. -/
macro "faith" : tactic => `(tactic|
  (simp only [faithful_iff, leaf, List.forall_mem_append, List.forall_mem_cons, List.forall_mem_map, List.not_mem_nil,
    false_implies, implies_true, and_true, exprTrees_eq, partTrees_eq, arrayElementTrees_eq, propDefTrees_eq, bindingElementTrees_eq, argTrees_eq, bindingPropTrees_eq, stmtTrees_eq, varDeclTrees_eq, caseTrees_eq, elementTrees_eq, optExprTrees_eq, optPatternTrees_eq, optElementTree_eq, optStmtTrees_eq, optBlockTrees_eq, optCatchTrees_eq, optForInitTrees_eq, optElementTrees_eq, optIdent_eq, optString_eq, optImports_eq]
   simp_all [visited, parts, Function.comp_def, faithful_iff]))

end Fajt.Props
namespace Fajt
open Fajt.Props

mutual
theorem Expr.faithful : ∀ x : Expr, Faithful x.ttree
  | .arrow _ _ _ ps b => by
    have h0 := ps.faithful; have h1 := b.faithful
    rw [Expr.ttree]
    faith
  | .assign _ op l r => by
    have h0 := l.faithful; have h1 := r.faithful
    rw [Expr.ttree]
    faith
  | .await _ a => by
    have h0 := a.faithful
    rw [Expr.ttree]
    faith
  | .binary _ op l r => by
    have h0 := l.faithful; have h1 := r.faithful
    rw [Expr.ttree]
    faith
  | .call _ c _ as => by
    have h0 := c.faithful; have h1 := args_faithful as
    rw [Expr.ttree]
    faith
  | .classE _ i sc b => by
    have h0 := oexpr_faithful sc; have h1 := elems_faithful b
    rw [Expr.ttree]
    faith
  | .conditional _ c t a => by
    have h0 := c.faithful; have h1 := t.faithful
    rw [Expr.ttree]
    faith
  | .function _ _ _ i ps b => by
    have h0 := ps.faithful; have h1 := b.faithful
    rw [Expr.ttree]
    faith
  | .ident i => by
    rw [Expr.ttree]
    faith
  | .literal _ l => by
    have h0 := l.faithful
    rw [Expr.ttree]
    faith
  | .logical _ op l r => by
    have h0 := l.faithful; have h1 := r.faithful
    rw [Expr.ttree]
    faith
  | .member _ o p => by
    have h0 := o.faithful; have h1 := p.faithful
    rw [Expr.ttree]
    faith
  | .metaProp _ o p => by
    rw [Expr.ttree]
    faith
  | .new _ c _ as => by
    have h0 := c.faithful; have h1 := args_faithful as
    rw [Expr.ttree]
    faith
  | .optCall _ c _ as _ => by
    have h0 := c.faithful; have h1 := args_faithful as
    rw [Expr.ttree]
    faith
  | .optMember _ o p _ => by
    have h0 := o.faithful; have h1 := p.faithful
    rw [Expr.ttree]
    faith
  | .paren _ x => by
    have h0 := x.faithful
    rw [Expr.ttree]
    faith
  | .sequence _ xs => by
    have h0 := exprs_faithful xs
    rw [Expr.ttree]
    faith
  | .tagged _ c t => by
    have h0 := c.faithful; have h1 := tparts_faithful t
    rw [Expr.ttree]
    faith
  | .this _ => by
    rw [Expr.ttree]
    faith
  | .unary _ op a => by
    have h0 := a.faithful
    rw [Expr.ttree]
    faith
  | .update _ op _ a => by
    have h0 := a.faithful
    rw [Expr.ttree]
    faith
  | .yield _ a _ => by
    have h0 := oexpr_faithful a
    rw [Expr.ttree]
    faith
termination_by structural x => x
theorem Literal.faithful : ∀ x : Literal, Faithful x.ttree
  | .null => by
    rw [Literal.ttree]
    faith
  | .boolean _ => by
    rw [Literal.ttree]
    faith
  | .string s => by
    rw [Literal.ttree]
    faith
  | .number raw => by
    rw [Literal.ttree]
    faith
  | .array es => by
    have h0 := aelems_faithful es
    rw [Literal.ttree]
    faith
  | .object ps => by
    have h0 := pdefs_faithful ps
    rw [Literal.ttree]
    faith
  | .regexp _ => by
    rw [Literal.ttree]
    faith
  | .template ps => by
    have h0 := tparts_faithful ps
    rw [Literal.ttree]
    faith
termination_by structural x => x
theorem TemplatePart.faithful : ∀ x : TemplatePart, Faithful x.ttree
  | .string _ => by
    rw [TemplatePart.ttree]
    faith
  | .expr e => by
    have h0 := e.faithful
    rw [TemplatePart.ttree]
    faith
termination_by structural x => x
theorem ArrayElement.faithful : ∀ x : ArrayElement, Faithful x.ttree
  | .elision => by
    rw [ArrayElement.ttree]
    faith
  | .expr e => by
    have h0 := e.faithful
    rw [ArrayElement.ttree]
    faith
  | .spread e => by
    have h0 := e.faithful
    rw [ArrayElement.ttree]
    faith
termination_by structural x => x
theorem PropDef.faithful : ∀ x : PropDef, Faithful x.ttree
  | .identRef i => by
    rw [PropDef.ttree]
    faith
  | .spread e => by
    have h0 := e.faithful
    rw [PropDef.ttree]
    faith
  | .named _ n v => by
    have h0 := n.faithful; have h1 := v.faithful
    rw [PropDef.ttree]
    faith
  | .method m => by
    have h0 := m.faithful
    rw [PropDef.ttree]
    faith
termination_by structural x => x
theorem PropName.faithful : ∀ x : PropName, Faithful x.ttree
  | .ident i => by
    rw [PropName.ttree]
    faith
  | .string s => by
    rw [PropName.ttree]
    faith
  | .number raw => by
    rw [PropName.ttree]
    faith
  | .computed e => by
    have h0 := e.faithful
    rw [PropName.ttree]
    faith
termination_by structural x => x
theorem MethodDef.faithful : ∀ x : MethodDef, Faithful x.ttree
  | .mk _ n _ ps b _ _ _ => by
    have h0 := n.faithful; have h1 := ps.faithful; have h2 := b.faithful
    rw [MethodDef.ttree]
    faith
termination_by structural x => x
theorem FormalParams.faithful : ∀ x : FormalParams, Faithful x.ttree
  | .mk _ bs r => by
    have h0 := belems_faithful bs; have h1 := opat_faithful r
    rw [FormalParams.ttree]
    faith
termination_by structural x => x
theorem Body.faithful : ∀ x : Body, Faithful x.ttree
  | .mk _ ds ss => by
    have h0 := stmts_faithful ss
    rw [Body.ttree]
    faith
termination_by structural x => x
theorem ArrowBody.faithful : ∀ x : ArrowBody, Faithful x.ttree
  | .expr e => by
    have h0 := e.faithful
    rw [ArrowBody.ttree]
    faith
  | .body b => by
    have h0 := b.faithful
    rw [ArrowBody.ttree]
    faith
termination_by structural x => x
theorem MemberObject.faithful : ∀ x : MemberObject, Faithful x.ttree
  | .expr e => by
    have h0 := e.faithful
    rw [MemberObject.ttree]
    faith
  | .super _ => by
    rw [MemberObject.ttree]
    faith
termination_by structural x => x
theorem MemberProp.faithful : ∀ x : MemberProp, Faithful x.ttree
  | .ident i => by
    rw [MemberProp.ttree]
    faith
  | .expr e => by
    have h0 := e.faithful
    rw [MemberProp.ttree]
    faith
termination_by structural x => x
theorem Argument.faithful : ∀ x : Argument, Faithful x.ttree
  | .expr e => by
    have h0 := e.faithful
    rw [Argument.ttree]
    faith
  | .spread e => by
    have h0 := e.faithful
    rw [Argument.ttree]
    faith
termination_by structural x => x
theorem Callee.faithful : ∀ x : Callee, Faithful x.ttree
  | .super => by
    rw [Callee.ttree]
    faith
  | .import => by
    rw [Callee.ttree]
    faith
  | .expr e => by
    have h0 := e.faithful
    rw [Callee.ttree]
    faith
termination_by structural x => x
theorem BindingPattern.faithful : ∀ x : BindingPattern, Faithful x.ttree
  | .ident i => by
    rw [BindingPattern.ttree]
    faith
  | .array _ es r => by
    have h0 := oelems_faithful es; have h1 := opat_faithful r
    rw [BindingPattern.ttree]
    faith
  | .object _ ps r => by
    have h0 := bprops_faithful ps; have h1 := opat_faithful r
    rw [BindingPattern.ttree]
    faith
termination_by structural x => x
theorem BindingProp.faithful : ∀ x : BindingProp, Faithful x.ttree
  | .single _ i init => by
    have h0 := oexpr_faithful init
    rw [BindingProp.ttree]
    faith
  | .named _ n b => by
    have h0 := n.faithful; have h1 := b.faithful
    rw [BindingProp.ttree]
    faith
termination_by structural x => x
theorem BindingElement.faithful : ∀ x : BindingElement, Faithful x.ttree
  | .mk _ p init => by
    have h0 := p.faithful; have h1 := oexpr_faithful init
    rw [BindingElement.ttree]
    faith
termination_by structural x => x
theorem PatternOrExpr.faithful : ∀ x : PatternOrExpr, Faithful x.ttree
  | .expr e => by
    have h0 := e.faithful
    rw [PatternOrExpr.ttree]
    faith
  | .pattern a => by
    rw [PatternOrExpr.ttree]
    faith
termination_by structural x => x
theorem Stmt.faithful : ∀ x : Stmt, Faithful x.ttree
  | .block b => by
    have h0 := b.faithful
    rw [Stmt.ttree]
    faith
  | .break _ l => by
    rw [Stmt.ttree]
    faith
  | .continue _ l => by
    rw [Stmt.ttree]
    faith
  | .debugger _ => by
    rw [Stmt.ttree]
    faith
  | .doWhile _ b t => by
    have h0 := b.faithful; have h1 := t.faithful
    rw [Stmt.ttree]
    faith
  | .empty _ => by
    rw [Stmt.ttree]
    faith
  | .expr _ e => by
    have h0 := e.faithful
    rw [Stmt.ttree]
    faith
  | .for _ i t u b => by
    have h0 := ofi_faithful i; have h1 := oexpr_faithful t; have h2 := oexpr_faithful u; have h3 := b.faithful
    rw [Stmt.ttree]
    faith
  | .forIn _ l r b => by
    have h0 := l.faithful; have h1 := r.faithful; have h2 := b.faithful
    rw [Stmt.ttree]
    faith
  | .forOf _ l r b _ => by
    have h0 := l.faithful; have h1 := r.faithful; have h2 := b.faithful
    rw [Stmt.ttree]
    faith
  | .if _ c t a => by
    have h0 := c.faithful; have h1 := t.faithful; have h2 := ostmt_faithful a
    rw [Stmt.ttree]
    faith
  | .labeled _ l b => by
    have h0 := b.faithful
    rw [Stmt.ttree]
    faith
  | .return _ a => by
    have h0 := oexpr_faithful a
    rw [Stmt.ttree]
    faith
  | .switch _ d cs => by
    have h0 := d.faithful; have h1 := cases_faithful cs
    rw [Stmt.ttree]
    faith
  | .throw _ a => by
    have h0 := a.faithful
    rw [Stmt.ttree]
    faith
  | .try _ b h f => by
    have h0 := b.faithful; have h1 := ocatch_faithful h; have h2 := oblock_faithful f
    rw [Stmt.ttree]
    faith
  | .variable v => by
    have h0 := v.faithful
    rw [Stmt.ttree]
    faith
  | .while _ t b => by
    have h0 := t.faithful; have h1 := b.faithful
    rw [Stmt.ttree]
    faith
  | .with _ x b => by
    have h0 := x.faithful; have h1 := b.faithful
    rw [Stmt.ttree]
    faith
  | .classDecl _ i sc b => by
    have h0 := oexpr_faithful sc; have h1 := elems_faithful b
    rw [Stmt.ttree]
    faith
  | .functionDecl _ _ _ i ps b => by
    have h0 := ps.faithful; have h1 := b.faithful
    rw [Stmt.ttree]
    faith
  | .importDecl _ d ns n src => by
    rw [Stmt.ttree]
    faith
  | .exportDecl d => by
    have h0 := d.faithful
    rw [Stmt.ttree]
    faith
termination_by structural x => x
theorem Block.faithful : ∀ x : Block, Faithful x.ttree
  | .mk _ ss => by
    have h0 := stmts_faithful ss
    rw [Block.ttree]
    faith
termination_by structural x => x
theorem VarStmt.faithful : ∀ x : VarStmt, Faithful x.ttree
  | .mk _ _ ds => by
    have h0 := vdecls_faithful ds
    rw [VarStmt.ttree]
    faith
termination_by structural x => x
theorem VarDecl.faithful : ∀ x : VarDecl, Faithful x.ttree
  | .mk _ p init => by
    have h0 := p.faithful; have h1 := oexpr_faithful init
    rw [VarDecl.ttree]
    faith
termination_by structural x => x
theorem CatchClause.faithful : ∀ x : CatchClause, Faithful x.ttree
  | .mk _ p b => by
    have h0 := opat_faithful p; have h1 := b.faithful
    rw [CatchClause.ttree]
    faith
termination_by structural x => x
theorem SwitchCase.faithful : ∀ x : SwitchCase, Faithful x.ttree
  | .mk _ t ss => by
    have h0 := oexpr_faithful t; have h1 := stmts_faithful ss
    rw [SwitchCase.ttree]
    faith
termination_by structural x => x
theorem ForInit.faithful : ∀ x : ForInit, Faithful x.ttree
  | .expr e => by
    have h0 := e.faithful
    rw [ForInit.ttree]
    faith
  | .declaration v => by
    have h0 := v.faithful
    rw [ForInit.ttree]
    faith
termination_by structural x => x
theorem ForDecl.faithful : ∀ x : ForDecl, Faithful x.ttree
  | .expr e => by
    have h0 := e.faithful
    rw [ForDecl.ttree]
    faith
  | .pattern p => by
    rw [ForDecl.ttree]
    faith
  | .declaration _ _ _ => by
    rw [ForDecl.ttree]
    faith
termination_by structural x => x
theorem ExportDecl.faithful : ∀ x : ExportDecl, Faithful x.ttree
  | .decl _ s => by
    have h0 := s.faithful
    rw [ExportDecl.ttree]
    faith
  | .defaultExpr _ e => by
    have h0 := e.faithful
    rw [ExportDecl.ttree]
    faith
  | .defaultDecl _ s => by
    have h0 := s.faithful
    rw [ExportDecl.ttree]
    faith
  | .named _ ns src => by
    rw [ExportDecl.ttree]
    faith
  | .namespace _ a src => by
    rw [ExportDecl.ttree]
    faith
termination_by structural x => x
theorem exprs_faithful : ∀ l : List Expr, ∀ x ∈ l, Faithful x.ttree
  | [] => by simp
  | x :: l => by
    have h1 := x.faithful; have h2 := exprs_faithful l
    simp_all
termination_by structural l => l
theorem args_faithful : ∀ l : List Argument, ∀ x ∈ l, Faithful x.ttree
  | [] => by simp
  | x :: l => by
    have h1 := x.faithful; have h2 := args_faithful l
    simp_all
termination_by structural l => l
theorem elems_faithful : ∀ l : List MethodDef, ∀ x ∈ l, Faithful x.ttree
  | [] => by simp
  | x :: l => by
    have h1 := x.faithful; have h2 := elems_faithful l
    simp_all
termination_by structural l => l
theorem tparts_faithful : ∀ l : List TemplatePart, ∀ x ∈ l, Faithful x.ttree
  | [] => by simp
  | x :: l => by
    have h1 := x.faithful; have h2 := tparts_faithful l
    simp_all
termination_by structural l => l
theorem aelems_faithful : ∀ l : List ArrayElement, ∀ x ∈ l, Faithful x.ttree
  | [] => by simp
  | x :: l => by
    have h1 := x.faithful; have h2 := aelems_faithful l
    simp_all
termination_by structural l => l
theorem pdefs_faithful : ∀ l : List PropDef, ∀ x ∈ l, Faithful x.ttree
  | [] => by simp
  | x :: l => by
    have h1 := x.faithful; have h2 := pdefs_faithful l
    simp_all
termination_by structural l => l
theorem belems_faithful : ∀ l : List BindingElement, ∀ x ∈ l, Faithful x.ttree
  | [] => by simp
  | x :: l => by
    have h1 := x.faithful; have h2 := belems_faithful l
    simp_all
termination_by structural l => l
theorem stmts_faithful : ∀ l : List Stmt, ∀ x ∈ l, Faithful x.ttree
  | [] => by simp
  | x :: l => by
    have h1 := x.faithful; have h2 := stmts_faithful l
    simp_all
termination_by structural l => l
theorem bprops_faithful : ∀ l : List BindingProp, ∀ x ∈ l, Faithful x.ttree
  | [] => by simp
  | x :: l => by
    have h1 := x.faithful; have h2 := bprops_faithful l
    simp_all
termination_by structural l => l
theorem vdecls_faithful : ∀ l : List VarDecl, ∀ x ∈ l, Faithful x.ttree
  | [] => by simp
  | x :: l => by
    have h1 := x.faithful; have h2 := vdecls_faithful l
    simp_all
termination_by structural l => l
theorem cases_faithful : ∀ l : List SwitchCase, ∀ x ∈ l, Faithful x.ttree
  | [] => by simp
  | x :: l => by
    have h1 := x.faithful; have h2 := cases_faithful l
    simp_all
termination_by structural l => l
theorem oelems_faithful : ∀ l : List (Option BindingElement), ∀ x ∈ l.filterMap id, Faithful x.ttree
  | [] => by simp
  | x :: l => by
    have h1 := belemO_faithful x; have h2 := oelems_faithful l
    cases x <;> simp_all
termination_by structural l => l
theorem oexpr_faithful : ∀ l : Option Expr, ∀ x ∈ l.toList, Faithful x.ttree
  | none => by simp
  | some x => by
    have h1 := x.faithful
    simp_all
termination_by structural l => l
theorem opat_faithful : ∀ l : Option BindingPattern, ∀ x ∈ l.toList, Faithful x.ttree
  | none => by simp
  | some x => by
    have h1 := x.faithful
    simp_all
termination_by structural l => l
theorem ofi_faithful : ∀ l : Option ForInit, ∀ x ∈ l.toList, Faithful x.ttree
  | none => by simp
  | some x => by
    have h1 := x.faithful
    simp_all
termination_by structural l => l
theorem ostmt_faithful : ∀ l : Option Stmt, ∀ x ∈ l.toList, Faithful x.ttree
  | none => by simp
  | some x => by
    have h1 := x.faithful
    simp_all
termination_by structural l => l
theorem ocatch_faithful : ∀ l : Option CatchClause, ∀ x ∈ l.toList, Faithful x.ttree
  | none => by simp
  | some x => by
    have h1 := x.faithful
    simp_all
termination_by structural l => l
theorem oblock_faithful : ∀ l : Option Block, ∀ x ∈ l.toList, Faithful x.ttree
  | none => by simp
  | some x => by
    have h1 := x.faithful
    simp_all
termination_by structural l => l
theorem belemO_faithful : ∀ l : Option BindingElement, ∀ x ∈ l.toList, Faithful x.ttree
  | none => by simp
  | some x => by
    have h1 := x.faithful
    simp_all
termination_by structural l => l
end

end Fajt
namespace Fajt.Props

/-- `u` is a subtree of `t`. -/
inductive Below : TTree → TTree → Prop
  | refl (t : TTree) : Below t t
  | step {u v t : TTree} : u ∈ v.kids → Below v t → Below u t

theorem faithful_below {u t : TTree} (h : Below u t) (ht : Faithful t) : Faithful u := by
  induction h with
  | refl => exact ht
  | step hu _ ih =>
    cases ih ht with
    | mk _ hc => exact hc _ hu

theorem Program.faithful (p : Program) : Faithful p.ttree := by
  have h := stmts_faithful p.body
  rw [Program.ttree]
  faith

/-- **C42**. In the traversal of every program, every node that is reached is given exactly the children that `visited` says, in this
order. -/
theorem C42_children (p : Program) (t : TTree) (h : Below t p.ttree) : t.kids.map TTree.root = visited t.root := by
  cases faithful_below h (Program.faithful p) with
  | mk h1 _ => exact h1

/-- **C42**. In the traversal of every program, every node that is reached is given exactly its parts as children, each once
and in the order of the source text, except for four kinds of nodes: conditional expressions, import declarations,
assignment patterns and the declarations of `for-in`/`for-of` loops (see the counterexamples below). -/
theorem C42_parts (p : Program) (t : TTree) (h : Below t p.ttree) (hd : deviating t.root = false) :
    t.kids.map TTree.root = parts t.root := (C42_children p t h).trans (visited_eq hd)

/-- **C42**, departure 1: a conditional expression shows its condition twice and its alternate never. -/
theorem C42_conditional_counterexample (sp : Span) (c t a : Expr) :
    ∃ k, (Expr.conditional sp c t a).ttree.kids = [k] ∧ k.kids.map TTree.root = [.expr c, .expr t, .expr c] := by
  rw [Expr.ttree]
  exact ⟨_, rfl, by simp⟩

/-- **C42**, departure 2: an import shows its named imports twice and its namespace binding never. -/
theorem C42_import_counterexample (sp : Span) (d ns : Option Ident) (n : List NamedImport) (src : LitString) :
    ∃ k, (Stmt.importDecl sp d ns (some n) src).ttree.kids = [k] ∧
      k.kids.map TTree.root = d.toList.map .ident ++ n.map .namedImport ++ n.map .namedImport ++ [.string src] := by
  rw [Stmt.ttree]
  exact ⟨_, rfl, by simp [optIdent_eq, optImports_eq, Function.comp_def]⟩

/-- **C42**, departure 3: nothing below an assignment pattern is visited. -/
theorem C42_pattern_counterexample (a : AssignPattern) :
    (PatternOrExpr.pattern a).ttree.kids = [.node (.assignPattern a) []] := by
  rw [PatternOrExpr.ttree]; rfl

/-- **C42**, departure 4: the binding of a `for (let x of ...)` is not visited. -/
theorem C42_for_binding_counterexample (sp : Span) (k : VarKind) (b : BindingPattern) :
    (ForDecl.declaration sp k b).ttree.kids = [.node (.forBinding (.declaration sp k b)) []] := by
  rw [ForDecl.ttree]; rfl

/-! A node with several parts, not deviating: the call in `f(a + 1)`. -/
example (a b : Span) (f : Ident) (x : Expr) :
    ∃ k, (Expr.call a (.expr (.ident f)) b [.expr x]).ttree.kids = [k] ∧ deviating k.root = false
      ∧ k.kids.map TTree.root = [.callee (.expr (.ident f)), .argument (.expr x)] := by
  rw [Expr.ttree]
  exact ⟨_, rfl, rfl, by simp [argTrees_eq]⟩


end Fajt.Props
