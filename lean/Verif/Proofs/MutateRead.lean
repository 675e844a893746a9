import Verif.Props.Traverse
import Verif.Spec.Reading
import Verif.Proofs.MutateBase
/-!
# Traversals that change nothing
-/
namespace Fajt
open Fajt.Props

theorem plan_stay : ∀ (k : Kind) (a : k.Val), (plan k a).stay = a := by
  intro k a
  fun_cases plan k a <;> simp only [plan, Plan.stay_visit, Plan.stay_opt, Plan.stay_list, Plan.stay_listOpt, Plan.stay_optList,
    Plan.stay_ret]

/-- The trees of the visited nodes. -/
def Plan.trees {α : Type} (p : Plan α) : List TTree := p.visits.map (fun x => x.1.tree x.2)

section
variable {α : Type} {k : Kind}
theorem trees_ret (a : α) : (Plan.ret a).trees = [] := rfl
theorem trees_visit (x : k.Val) (c : k.Val → Plan α) : (Plan.visit k x c).trees = k.tree x :: (c x).trees := rfl
theorem trees_list (x : List k.Val) (c : List k.Val → Plan α) : (Plan.list k x c).trees = x.map k.tree ++ (c x).trees := by
  simp [Plan.trees]
theorem trees_opt (x : Option k.Val) (c : Option k.Val → Plan α) :
    (Plan.opt k x c).trees = x.toList.map k.tree ++ (c x).trees := by
  simp [Plan.trees]
theorem trees_listOpt (x : List (Option k.Val)) (c : List (Option k.Val) → Plan α) :
    (Plan.listOpt k x c).trees = (x.filterMap id).map k.tree ++ (c x).trees := by
  simp [Plan.trees]
theorem trees_optList (x : Option (List k.Val)) (c : Option (List k.Val) → Plan α) :
    (Plan.optList k x c).trees = (x.getD []).map k.tree ++ (c x).trees := by
  simp [Plan.trees]
end

theorem tree_litString : Kind.tree .litString = fun s => leaf (.string s) := rfl
theorem tree_ident : Kind.tree .ident = fun s => leaf (.ident s) := rfl
theorem tree_classElement : Kind.tree .classElement = fun m => .node (.classElement m) [m.ttree] := rfl
theorem tree_stmt : Kind.tree .stmt = Stmt.ttree := rfl
theorem tree_expr : Kind.tree .expr = Expr.ttree := rfl
theorem tree_argument : Kind.tree .argument = Argument.ttree := rfl
theorem tree_namedImport : Kind.tree .namedImport = NamedImport.ttree := rfl
theorem tree_namedExport : Kind.tree .namedExport = NamedExport.ttree := rfl
theorem tree_bindingElement : Kind.tree .bindingElement = BindingElement.ttree := rfl
theorem tree_bindingPattern : Kind.tree .bindingPattern = BindingPattern.ttree := rfl
theorem tree_templatePart : Kind.tree .templatePart = TemplatePart.ttree := rfl
theorem tree_arrayElement : Kind.tree .arrayElement = ArrayElement.ttree := rfl
theorem tree_propertyDefinition : Kind.tree .propertyDefinition = PropDef.ttree := rfl
theorem tree_variableDeclaration : Kind.tree .variableDeclaration = VarDecl.ttree := rfl
theorem tree_switchCase : Kind.tree .switchCase = SwitchCase.ttree := rfl
theorem tree_objectBindingProp : Kind.tree .objectBindingProp = BindingProp.ttree := rfl
theorem tree_catchClause : Kind.tree .catchClause = CatchClause.ttree := rfl
theorem tree_stmtBlock : Kind.tree .stmtBlock = Block.ttree := rfl
theorem tree_forInit : Kind.tree .forInit = ForInit.ttree := rfl

macro "tree_tac" : tactic => `(tactic| simp only [plan, trees_visit, trees_ret, trees_list, trees_opt, trees_listOpt, trees_optList,
    tree_litString, tree_ident, tree_classElement, tree_stmt, tree_expr, tree_argument, tree_namedImport, tree_namedExport, tree_bindingElement, tree_bindingPattern, tree_templatePart, tree_arrayElement, tree_propertyDefinition, tree_variableDeclaration, tree_switchCase, tree_objectBindingProp, tree_catchClause, tree_stmtBlock, tree_forInit,
    Kind.tree, TTree.grandkids, TTree.kids, leaf, List.flatMap_cons, List.flatMap_nil, List.append_nil, List.nil_append, List.cons_append,
    List.append_assoc, Expr.ttree, Literal.ttree, TemplatePart.ttree, ArrayElement.ttree, PropDef.ttree, PropName.ttree, MethodDef.ttree, FormalParams.ttree, Body.ttree, ArrowBody.ttree, MemberObject.ttree, MemberProp.ttree, Argument.ttree, Callee.ttree, BindingPattern.ttree, BindingProp.ttree, BindingElement.ttree, PatternOrExpr.ttree, Stmt.ttree, Block.ttree, VarStmt.ttree, VarDecl.ttree, CatchClause.ttree, SwitchCase.ttree, ForInit.ttree, ForDecl.ttree, ExportDecl.ttree, NamedImport.ttree, NamedExport.ttree, Program.ttree,
    exprTrees_eq, partTrees_eq, arrayElementTrees_eq, propDefTrees_eq, bindingElementTrees_eq, argTrees_eq, bindingPropTrees_eq, stmtTrees_eq, varDeclTrees_eq, caseTrees_eq, elementTrees_eq, optExprTrees_eq, optPatternTrees_eq, optStmtTrees_eq, optBlockTrees_eq, optCatchTrees_eq, optForInitTrees_eq, optElementTrees_eq, optIdent_eq, optString_eq, optImports_eq])

theorem trees_expr (a : Expr) : (plan .expr a).trees = a.ttree.kids := by
  cases a <;> simp only [plan, trees_visit, trees_ret, Kind.tree, TTree.grandkids, Expr.ttree, TTree.kids,
    List.flatMap_cons, List.flatMap_nil, List.append_nil]

theorem trees_stmt (a : Stmt) : (plan .stmt a).trees = a.ttree.kids := by
  cases a <;> simp only [plan, trees_visit, trees_ret, Kind.tree, TTree.grandkids, Stmt.ttree, TTree.kids,
    List.flatMap_cons, List.flatMap_nil, List.append_nil]

theorem trees_program (a : Kind.Val .program) : (plan .program a).trees = (Kind.tree .program a).kids := by
  cases a <;> tree_tac
theorem trees_bindingPattern (a : Kind.Val .bindingPattern) : (plan .bindingPattern a).trees = (Kind.tree .bindingPattern a).kids := by
  cases a <;> tree_tac
theorem trees_literal (a : Kind.Val .literal) : (plan .literal a).trees = (Kind.tree .literal a).kids := by
  cases a <;> tree_tac
theorem trees_litNumber (a : Kind.Val .litNumber) : (plan .litNumber a).trees = (Kind.tree .litNumber a).kids := by
  rfl
theorem trees_templatePart (a : Kind.Val .templatePart) : (plan .templatePart a).trees = (Kind.tree .templatePart a).kids := by
  cases a <;> tree_tac
theorem trees_objectBindingProp (a : Kind.Val .objectBindingProp) : (plan .objectBindingProp a).trees = (Kind.tree .objectBindingProp a).kids := by
  cases a <;> tree_tac
theorem trees_propertyName (a : Kind.Val .propertyName) : (plan .propertyName a).trees = (Kind.tree .propertyName a).kids := by
  cases a <;> tree_tac
theorem trees_classElement (a : Kind.Val .classElement) : (plan .classElement a).trees = (Kind.tree .classElement a).kids := by
  rfl
theorem trees_forInit (a : Kind.Val .forInit) : (plan .forInit a).trees = (Kind.tree .forInit a).kids := by
  cases a <;> tree_tac
theorem trees_forDeclaration (a : Kind.Val .forDeclaration) : (plan .forDeclaration a).trees = (Kind.tree .forDeclaration a).kids := by
  cases a <;> tree_tac
theorem trees_callee (a : Kind.Val .callee) : (plan .callee a).trees = (Kind.tree .callee a).kids := by
  cases a <;> tree_tac
theorem trees_argument (a : Kind.Val .argument) : (plan .argument a).trees = (Kind.tree .argument a).kids := by
  cases a <;> tree_tac
theorem trees_memberObject (a : Kind.Val .memberObject) : (plan .memberObject a).trees = (Kind.tree .memberObject a).kids := by
  cases a <;> tree_tac
theorem trees_super (a : Kind.Val .super) : (plan .super a).trees = (Kind.tree .super a).kids := by
  rfl
theorem trees_memberProperty (a : Kind.Val .memberProperty) : (plan .memberProperty a).trees = (Kind.tree .memberProperty a).kids := by
  cases a <;> tree_tac
theorem trees_arrayElement (a : Kind.Val .arrayElement) : (plan .arrayElement a).trees = (Kind.tree .arrayElement a).kids := by
  cases a <;> tree_tac
theorem trees_arrowFunctionBody (a : Kind.Val .arrowFunctionBody) : (plan .arrowFunctionBody a).trees = (Kind.tree .arrowFunctionBody a).kids := by
  cases a <;> tree_tac
theorem trees_propertyDefinition (a : Kind.Val .propertyDefinition) : (plan .propertyDefinition a).trees = (Kind.tree .propertyDefinition a).kids := by
  cases a <;> tree_tac
theorem trees_binaryOperator (a : Kind.Val .binaryOperator) : (plan .binaryOperator a).trees = (Kind.tree .binaryOperator a).kids := by
  rfl
theorem trees_logicalOperator (a : Kind.Val .logicalOperator) : (plan .logicalOperator a).trees = (Kind.tree .logicalOperator a).kids := by
  rfl
theorem trees_assignmentOperator (a : Kind.Val .assignmentOperator) : (plan .assignmentOperator a).trees = (Kind.tree .assignmentOperator a).kids := by
  rfl
theorem trees_unaryOperator (a : Kind.Val .unaryOperator) : (plan .unaryOperator a).trees = (Kind.tree .unaryOperator a).kids := by
  rfl
theorem trees_updateOperator (a : Kind.Val .updateOperator) : (plan .updateOperator a).trees = (Kind.tree .updateOperator a).kids := by
  rfl
theorem trees_declExport (a : Kind.Val .declExport) : (plan .declExport a).trees = (Kind.tree .declExport a).kids := by
  cases a <;> tree_tac
theorem trees_patternOrExpr (a : Kind.Val .patternOrExpr) : (plan .patternOrExpr a).trees = (Kind.tree .patternOrExpr a).kids := by
  cases a <;> tree_tac
theorem trees_assignmentPattern (a : Kind.Val .assignmentPattern) : (plan .assignmentPattern a).trees = (Kind.tree .assignmentPattern a).kids := by
  rfl
theorem trees_declFunction (a : Kind.Val .declFunction) : (plan .declFunction a).trees = (Kind.tree .declFunction a).kids := by
  obtain ⟨x1, x2, x3, x4, x5, x6⟩ := a; tree_tac
theorem trees_declClass (a : Kind.Val .declClass) : (plan .declClass a).trees = (Kind.tree .declClass a).kids := by
  obtain ⟨x1, x2, x3, x4⟩ := a; tree_tac
theorem trees_declImport (a : Kind.Val .declImport) : (plan .declImport a).trees = (Kind.tree .declImport a).kids := by
  obtain ⟨x1, x2, x3, x4, x5⟩ := a; tree_tac
theorem trees_stmtExpr (a : Kind.Val .stmtExpr) : (plan .stmtExpr a).trees = (Kind.tree .stmtExpr a).kids := by
  obtain ⟨x1, x2⟩ := a; tree_tac
theorem trees_stmtBlock (a : Kind.Val .stmtBlock) : (plan .stmtBlock a).trees = (Kind.tree .stmtBlock a).kids := by
  cases a; tree_tac
theorem trees_exprBinary (a : Kind.Val .exprBinary) : (plan .exprBinary a).trees = (Kind.tree .exprBinary a).kids := by
  obtain ⟨x1, x2, x3, x4⟩ := a; tree_tac
theorem trees_exprLogical (a : Kind.Val .exprLogical) : (plan .exprLogical a).trees = (Kind.tree .exprLogical a).kids := by
  obtain ⟨x1, x2, x3, x4⟩ := a; tree_tac
theorem trees_exprUnary (a : Kind.Val .exprUnary) : (plan .exprUnary a).trees = (Kind.tree .exprUnary a).kids := by
  obtain ⟨x1, x2, x3⟩ := a; tree_tac
theorem trees_exprCall (a : Kind.Val .exprCall) : (plan .exprCall a).trees = (Kind.tree .exprCall a).kids := by
  obtain ⟨x1, x2, x3, x4⟩ := a; tree_tac
theorem trees_exprMember (a : Kind.Val .exprMember) : (plan .exprMember a).trees = (Kind.tree .exprMember a).kids := by
  obtain ⟨x1, x2, x3⟩ := a; tree_tac
theorem trees_exprOptionalMember (a : Kind.Val .exprOptionalMember) : (plan .exprOptionalMember a).trees = (Kind.tree .exprOptionalMember a).kids := by
  obtain ⟨x1, x2, x3, x4⟩ := a; tree_tac
theorem trees_exprOptionalCall (a : Kind.Val .exprOptionalCall) : (plan .exprOptionalCall a).trees = (Kind.tree .exprOptionalCall a).kids := by
  obtain ⟨x1, x2, x3, x4, x5⟩ := a; tree_tac
theorem trees_exprParenthesized (a : Kind.Val .exprParenthesized) : (plan .exprParenthesized a).trees = (Kind.tree .exprParenthesized a).kids := by
  obtain ⟨x1, x2⟩ := a; tree_tac
theorem trees_exprLiteral (a : Kind.Val .exprLiteral) : (plan .exprLiteral a).trees = (Kind.tree .exprLiteral a).kids := by
  obtain ⟨x1, x2⟩ := a; tree_tac
theorem trees_exprAssignment (a : Kind.Val .exprAssignment) : (plan .exprAssignment a).trees = (Kind.tree .exprAssignment a).kids := by
  obtain ⟨x1, x2, x3, x4⟩ := a; tree_tac
theorem trees_exprYield (a : Kind.Val .exprYield) : (plan .exprYield a).trees = (Kind.tree .exprYield a).kids := by
  obtain ⟨x1, x2, x3⟩ := a; tree_tac
theorem trees_exprConditional (a : Kind.Val .exprConditional) : (plan .exprConditional a).trees = (Kind.tree .exprConditional a).kids := by
  obtain ⟨x1, x2, x3, x4⟩ := a; tree_tac
theorem trees_exprUpdate (a : Kind.Val .exprUpdate) : (plan .exprUpdate a).trees = (Kind.tree .exprUpdate a).kids := by
  obtain ⟨x1, x2, x3, x4⟩ := a; tree_tac
theorem trees_exprSequence (a : Kind.Val .exprSequence) : (plan .exprSequence a).trees = (Kind.tree .exprSequence a).kids := by
  obtain ⟨x1, x2⟩ := a; tree_tac
theorem trees_exprThis (a : Kind.Val .exprThis) : (plan .exprThis a).trees = (Kind.tree .exprThis a).kids := by
  rfl
theorem trees_exprFunction (a : Kind.Val .exprFunction) : (plan .exprFunction a).trees = (Kind.tree .exprFunction a).kids := by
  obtain ⟨x1, x2, x3, x4, x5, x6⟩ := a; tree_tac
theorem trees_exprNew (a : Kind.Val .exprNew) : (plan .exprNew a).trees = (Kind.tree .exprNew a).kids := by
  obtain ⟨x1, x2, x3, x4⟩ := a; tree_tac
theorem trees_exprArrowFunction (a : Kind.Val .exprArrowFunction) : (plan .exprArrowFunction a).trees = (Kind.tree .exprArrowFunction a).kids := by
  obtain ⟨x1, x2, x3, x4, x5⟩ := a; tree_tac
theorem trees_exprAwait (a : Kind.Val .exprAwait) : (plan .exprAwait a).trees = (Kind.tree .exprAwait a).kids := by
  obtain ⟨x1, x2⟩ := a; tree_tac
theorem trees_exprMetaProperty (a : Kind.Val .exprMetaProperty) : (plan .exprMetaProperty a).trees = (Kind.tree .exprMetaProperty a).kids := by
  obtain ⟨x1, x2, x3⟩ := a; tree_tac
theorem trees_exprClass (a : Kind.Val .exprClass) : (plan .exprClass a).trees = (Kind.tree .exprClass a).kids := by
  obtain ⟨x1, x2, x3, x4⟩ := a; tree_tac
theorem trees_stmtReturn (a : Kind.Val .stmtReturn) : (plan .stmtReturn a).trees = (Kind.tree .stmtReturn a).kids := by
  obtain ⟨x1, x2⟩ := a; tree_tac
theorem trees_stmtVariable (a : Kind.Val .stmtVariable) : (plan .stmtVariable a).trees = (Kind.tree .stmtVariable a).kids := by
  cases a; tree_tac
theorem trees_stmtEmpty (a : Kind.Val .stmtEmpty) : (plan .stmtEmpty a).trees = (Kind.tree .stmtEmpty a).kids := by
  rfl
theorem trees_stmtTry (a : Kind.Val .stmtTry) : (plan .stmtTry a).trees = (Kind.tree .stmtTry a).kids := by
  obtain ⟨x1, x2, x3, x4⟩ := a; tree_tac
theorem trees_stmtDebugger (a : Kind.Val .stmtDebugger) : (plan .stmtDebugger a).trees = (Kind.tree .stmtDebugger a).kids := by
  rfl
theorem trees_stmtThrow (a : Kind.Val .stmtThrow) : (plan .stmtThrow a).trees = (Kind.tree .stmtThrow a).kids := by
  obtain ⟨x1, x2⟩ := a; tree_tac
theorem trees_stmtLabeled (a : Kind.Val .stmtLabeled) : (plan .stmtLabeled a).trees = (Kind.tree .stmtLabeled a).kids := by
  obtain ⟨x1, x2, x3⟩ := a; tree_tac
theorem trees_stmtWith (a : Kind.Val .stmtWith) : (plan .stmtWith a).trees = (Kind.tree .stmtWith a).kids := by
  obtain ⟨x1, x2, x3⟩ := a; tree_tac
theorem trees_stmtContinue (a : Kind.Val .stmtContinue) : (plan .stmtContinue a).trees = (Kind.tree .stmtContinue a).kids := by
  obtain ⟨x1, x2⟩ := a; tree_tac
theorem trees_stmtBreak (a : Kind.Val .stmtBreak) : (plan .stmtBreak a).trees = (Kind.tree .stmtBreak a).kids := by
  obtain ⟨x1, x2⟩ := a; tree_tac
theorem trees_stmtSwitch (a : Kind.Val .stmtSwitch) : (plan .stmtSwitch a).trees = (Kind.tree .stmtSwitch a).kids := by
  obtain ⟨x1, x2, x3⟩ := a; tree_tac
theorem trees_stmtIf (a : Kind.Val .stmtIf) : (plan .stmtIf a).trees = (Kind.tree .stmtIf a).kids := by
  obtain ⟨x1, x2, x3, x4⟩ := a; tree_tac
theorem trees_stmtFor (a : Kind.Val .stmtFor) : (plan .stmtFor a).trees = (Kind.tree .stmtFor a).kids := by
  obtain ⟨x1, x2, x3, x4, x5⟩ := a; tree_tac
theorem trees_stmtForOf (a : Kind.Val .stmtForOf) : (plan .stmtForOf a).trees = (Kind.tree .stmtForOf a).kids := by
  obtain ⟨x1, x2, x3, x4, x5⟩ := a; tree_tac
theorem trees_stmtForIn (a : Kind.Val .stmtForIn) : (plan .stmtForIn a).trees = (Kind.tree .stmtForIn a).kids := by
  obtain ⟨x1, x2, x3, x4⟩ := a; tree_tac
theorem trees_stmtWhile (a : Kind.Val .stmtWhile) : (plan .stmtWhile a).trees = (Kind.tree .stmtWhile a).kids := by
  obtain ⟨x1, x2, x3⟩ := a; tree_tac
theorem trees_stmtDoWhile (a : Kind.Val .stmtDoWhile) : (plan .stmtDoWhile a).trees = (Kind.tree .stmtDoWhile a).kids := by
  obtain ⟨x1, x2, x3⟩ := a; tree_tac
theorem trees_stmtList (a : Kind.Val .stmtList) : (plan .stmtList a).trees = (Kind.tree .stmtList a).kids := by
  obtain ⟨x1, x2, x3⟩ := a; tree_tac
theorem trees_bindingElement (a : Kind.Val .bindingElement) : (plan .bindingElement a).trees = (Kind.tree .bindingElement a).kids := by
  cases a; tree_tac
theorem trees_formalParameters (a : Kind.Val .formalParameters) : (plan .formalParameters a).trees = (Kind.tree .formalParameters a).kids := by
  cases a; tree_tac
theorem trees_variableDeclaration (a : Kind.Val .variableDeclaration) : (plan .variableDeclaration a).trees = (Kind.tree .variableDeclaration a).kids := by
  cases a; tree_tac
theorem trees_litString (a : Kind.Val .litString) : (plan .litString a).trees = (Kind.tree .litString a).kids := by
  rfl
theorem trees_litTemplate (a : Kind.Val .litTemplate) : (plan .litTemplate a).trees = (Kind.tree .litTemplate a).kids := by
  tree_tac
theorem trees_litArray (a : Kind.Val .litArray) : (plan .litArray a).trees = (Kind.tree .litArray a).kids := by
  tree_tac
theorem trees_litObject (a : Kind.Val .litObject) : (plan .litObject a).trees = (Kind.tree .litObject a).kids := by
  tree_tac
theorem trees_arrayBinding (a : Kind.Val .arrayBinding) : (plan .arrayBinding a).trees = (Kind.tree .arrayBinding a).kids := by
  obtain ⟨x1, x2, x3⟩ := a; tree_tac
theorem trees_objectBinding (a : Kind.Val .objectBinding) : (plan .objectBinding a).trees = (Kind.tree .objectBinding a).kids := by
  obtain ⟨x1, x2, x3⟩ := a; tree_tac
theorem trees_singleNameBinding (a : Kind.Val .singleNameBinding) : (plan .singleNameBinding a).trees = (Kind.tree .singleNameBinding a).kids := by
  obtain ⟨x1, x2, x3⟩ := a; tree_tac
theorem trees_namedBinding (a : Kind.Val .namedBinding) : (plan .namedBinding a).trees = (Kind.tree .namedBinding a).kids := by
  obtain ⟨x1, x2, x3⟩ := a; tree_tac
theorem trees_namedProperty (a : Kind.Val .namedProperty) : (plan .namedProperty a).trees = (Kind.tree .namedProperty a).kids := by
  obtain ⟨x1, x2, x3⟩ := a; tree_tac
theorem trees_methodDefinition (a : Kind.Val .methodDefinition) : (plan .methodDefinition a).trees = (Kind.tree .methodDefinition a).kids := by
  cases a; tree_tac
theorem trees_catchClause (a : Kind.Val .catchClause) : (plan .catchClause a).trees = (Kind.tree .catchClause a).kids := by
  cases a; tree_tac
theorem trees_switchCase (a : Kind.Val .switchCase) : (plan .switchCase a).trees = (Kind.tree .switchCase a).kids := by
  cases a; tree_tac
theorem trees_exportDecl (a : Kind.Val .exportDecl) : (plan .exportDecl a).trees = (Kind.tree .exportDecl a).kids := by
  obtain ⟨x1, x2⟩ := a; tree_tac
theorem trees_exportDefaultDecl (a : Kind.Val .exportDefaultDecl) : (plan .exportDefaultDecl a).trees = (Kind.tree .exportDefaultDecl a).kids := by
  obtain ⟨x1, x2⟩ := a; tree_tac
theorem trees_exportDefaultExpr (a : Kind.Val .exportDefaultExpr) : (plan .exportDefaultExpr a).trees = (Kind.tree .exportDefaultExpr a).kids := by
  obtain ⟨x1, x2⟩ := a; tree_tac
theorem trees_exprTaggedTemplate (a : Kind.Val .exprTaggedTemplate) : (plan .exprTaggedTemplate a).trees = (Kind.tree .exprTaggedTemplate a).kids := by
  obtain ⟨x1, x2, x3⟩ := a; tree_tac
theorem trees_exportNamed (a : Kind.Val .exportNamed) : (plan .exportNamed a).trees = (Kind.tree .exportNamed a).kids := by
  obtain ⟨x1, x2, x3⟩ := a; tree_tac
theorem trees_exportNamespace (a : Kind.Val .exportNamespace) : (plan .exportNamespace a).trees = (Kind.tree .exportNamespace a).kids := by
  obtain ⟨x1, x2, x3⟩ := a; tree_tac
theorem trees_namedExport (a : Kind.Val .namedExport) : (plan .namedExport a).trees = (Kind.tree .namedExport a).kids := by
  cases a; tree_tac
theorem trees_namedImport (a : Kind.Val .namedImport) : (plan .namedImport a).trees = (Kind.tree .namedImport a).kids := by
  cases a; tree_tac
theorem trees_ident (a : Kind.Val .ident) : (plan .ident a).trees = (Kind.tree .ident a).kids := by
  rfl
theorem trees_body (a : Kind.Val .body) : (plan .body a).trees = (Kind.tree .body a).kids := by
  cases a; tree_tac
theorem trees_forBinding (a : Kind.Val .forBinding) : (plan .forBinding a).trees = (Kind.tree .forBinding a).kids := by
  rfl

theorem plan_trees : ∀ (k : Kind) (a : k.Val), (plan k a).trees = (k.tree a).kids
  | .program, a => trees_program a
  | .expr, a => trees_expr a
  | .stmt, a => trees_stmt a
  | .bindingPattern, a => trees_bindingPattern a
  | .literal, a => trees_literal a
  | .litNumber, a => trees_litNumber a
  | .templatePart, a => trees_templatePart a
  | .objectBindingProp, a => trees_objectBindingProp a
  | .propertyName, a => trees_propertyName a
  | .classElement, a => trees_classElement a
  | .forInit, a => trees_forInit a
  | .forDeclaration, a => trees_forDeclaration a
  | .callee, a => trees_callee a
  | .argument, a => trees_argument a
  | .memberObject, a => trees_memberObject a
  | .super, a => trees_super a
  | .memberProperty, a => trees_memberProperty a
  | .arrayElement, a => trees_arrayElement a
  | .arrowFunctionBody, a => trees_arrowFunctionBody a
  | .propertyDefinition, a => trees_propertyDefinition a
  | .binaryOperator, a => trees_binaryOperator a
  | .logicalOperator, a => trees_logicalOperator a
  | .assignmentOperator, a => trees_assignmentOperator a
  | .unaryOperator, a => trees_unaryOperator a
  | .updateOperator, a => trees_updateOperator a
  | .declExport, a => trees_declExport a
  | .patternOrExpr, a => trees_patternOrExpr a
  | .assignmentPattern, a => trees_assignmentPattern a
  | .declFunction, a => trees_declFunction a
  | .declClass, a => trees_declClass a
  | .declImport, a => trees_declImport a
  | .stmtExpr, a => trees_stmtExpr a
  | .stmtBlock, a => trees_stmtBlock a
  | .exprBinary, a => trees_exprBinary a
  | .exprLogical, a => trees_exprLogical a
  | .exprUnary, a => trees_exprUnary a
  | .exprCall, a => trees_exprCall a
  | .exprMember, a => trees_exprMember a
  | .exprOptionalMember, a => trees_exprOptionalMember a
  | .exprOptionalCall, a => trees_exprOptionalCall a
  | .exprParenthesized, a => trees_exprParenthesized a
  | .exprLiteral, a => trees_exprLiteral a
  | .exprAssignment, a => trees_exprAssignment a
  | .exprYield, a => trees_exprYield a
  | .exprConditional, a => trees_exprConditional a
  | .exprUpdate, a => trees_exprUpdate a
  | .exprSequence, a => trees_exprSequence a
  | .exprThis, a => trees_exprThis a
  | .exprFunction, a => trees_exprFunction a
  | .exprNew, a => trees_exprNew a
  | .exprArrowFunction, a => trees_exprArrowFunction a
  | .exprAwait, a => trees_exprAwait a
  | .exprMetaProperty, a => trees_exprMetaProperty a
  | .exprClass, a => trees_exprClass a
  | .stmtReturn, a => trees_stmtReturn a
  | .stmtVariable, a => trees_stmtVariable a
  | .stmtEmpty, a => trees_stmtEmpty a
  | .stmtTry, a => trees_stmtTry a
  | .stmtDebugger, a => trees_stmtDebugger a
  | .stmtThrow, a => trees_stmtThrow a
  | .stmtLabeled, a => trees_stmtLabeled a
  | .stmtWith, a => trees_stmtWith a
  | .stmtContinue, a => trees_stmtContinue a
  | .stmtBreak, a => trees_stmtBreak a
  | .stmtSwitch, a => trees_stmtSwitch a
  | .stmtIf, a => trees_stmtIf a
  | .stmtFor, a => trees_stmtFor a
  | .stmtForOf, a => trees_stmtForOf a
  | .stmtForIn, a => trees_stmtForIn a
  | .stmtWhile, a => trees_stmtWhile a
  | .stmtDoWhile, a => trees_stmtDoWhile a
  | .stmtList, a => trees_stmtList a
  | .bindingElement, a => trees_bindingElement a
  | .formalParameters, a => trees_formalParameters a
  | .variableDeclaration, a => trees_variableDeclaration a
  | .litString, a => trees_litString a
  | .litTemplate, a => trees_litTemplate a
  | .litArray, a => trees_litArray a
  | .litObject, a => trees_litObject a
  | .arrayBinding, a => trees_arrayBinding a
  | .objectBinding, a => trees_objectBinding a
  | .singleNameBinding, a => trees_singleNameBinding a
  | .namedBinding, a => trees_namedBinding a
  | .namedProperty, a => trees_namedProperty a
  | .methodDefinition, a => trees_methodDefinition a
  | .catchClause, a => trees_catchClause a
  | .switchCase, a => trees_switchCase a
  | .exportDecl, a => trees_exportDecl a
  | .exportDefaultDecl, a => trees_exportDefaultDecl a
  | .exportDefaultExpr, a => trees_exportDefaultExpr a
  | .exprTaggedTemplate, a => trees_exprTaggedTemplate a
  | .exportNamed, a => trees_exportNamed a
  | .exportNamespace, a => trees_exportNamespace a
  | .namedExport, a => trees_namedExport a
  | .namedImport, a => trees_namedImport a
  | .ident, a => trees_ident a
  | .body, a => trees_body a
  | .forBinding, a => trees_forBinding a

theorem tree_root : ∀ (k : Kind) (a : k.Val), (k.tree a).root = k.node a := by
  intro k a
  cases k
  all_goals first
    | rfl
    | simp only [Kind.tree, Kind.node, root_expr, root_stmt, root_block, root_varStmt, root_varDecl, root_catchClause, root_switchCase, root_forInit, root_forDecl, root_export, root_bindingPattern, root_bindingProp, root_bindingElement, root_formalParams, root_body, root_method, root_literal, root_templatePart, root_arrayElement, root_propDef, root_propName, root_arrowBody, root_memberObject, root_memberProp, root_argument, root_callee, root_patternOrExpr]

/-- The state after a plan whose visits change nothing. -/
theorem run_reading {σ α : Type} (v : Visitor σ) {tr : (k : Kind) → k.Val → σ → Option (k.Val × σ)}
    (h : ∀ k x s r, tr k x s = some r → r = (x, (k.tree x).traverse v s)) (p : Plan α) (s : σ) (r : α × σ)
    (hr : p.run tr s = some r) : r = (p.stay, TTree.traverseAll v p.trees s) := by
  induction p generalizing s with
  | ret a =>
    simp only [Plan.run, Option.some.injEq] at hr
    exact hr.symm
  | visit k x c ih =>
    simp only [Plan.run] at hr
    cases hx : tr k x s with
    | none => rw [hx] at hr; cases hr
    | some y =>
      rw [hx] at hr
      have := h _ _ _ _ hx
      subst this
      rw [ih _ _ hr, Plan.stay_visit, trees_visit, TTree.traverseAll]

theorem traverse_reading {σ : Type} (v : Visitor σ) : ∀ (n : Nat) (k : Kind) (a : k.Val) (s : σ) (r : k.Val × σ),
    v.reading.traverse n k a s = some r → r = (a, (k.tree a).traverse v s)
  | 0, _, _, _, _, h => by cases h
  | n + 1, k, a, s, r, h => by
    rw [MVisitor.traverse_succ] at h
    have ht : k.tree a = .node (k.node a) (k.tree a).kids := by
      rw [← tree_root]
      cases k.tree a; rfl
    rw [ht, TTree.traverse]
    rcases he : v.enter (k.node a) s with ⟨b, s1⟩
    have he' : v.reading.enter k a s = (b, a, s1) := by simp [Visitor.reading, he]
    rw [he'] at h
    cases b with
    | false =>
      simp only [Option.some.injEq] at h
      exact h.symm
    | true =>
      simp only at h
      cases hr : (plan k a).run (v.reading.traverse n) s1 with
      | none => rw [hr] at h; cases h
      | some r1 =>
        rw [hr] at h
        have := run_reading v (traverse_reading v n) _ _ _ hr
        rw [plan_stay, plan_trees] at this
        subst this
        simp only [Option.some.injEq] at h
        exact h.symm

end Fajt
