import Verif.Proofs.Debug
import Lean.Elab.Tactic.ElabTerm
/-!
# A debug build does the same or panics

`Sim m m'`: `m'` has the outcome of `m`, or panics.  Each function of the parser of a debug build is in this relation with the function
of a release build; one theorem per function of `Verif.Model.Parser` that calls another entry point.  Written by `tools/gensim.py`.
-/
namespace Fajt.Debug
open Lean Elab Tactic Meta
set_option linter.unusedSectionVars false
set_option linter.unusedVariables false
variable [UnicodeID]

/-- The second computation has the outcome of the first, or panics. -/
def Sim {α : Type} (m m' : P α) : Prop := ∀ s, m' s = m s ∨ ∃ w, m' s = .panic w

section
variable {α β : Type}

theorem Sim.refl (m : P α) : Sim m m := fun _ => .inl rfl

theorem Sim.bind {m m' : P α} {f f' : α → P β} (h1 : Sim m m') (h2 : ∀ x, Sim (f x) (f' x)) : Sim (m >>= f) (m' >>= f') := by
  intro s
  show M.bind m' f' s = M.bind m f s ∨ ∃ w, M.bind m' f' s = .panic w
  unfold M.bind
  rcases h1 s with h | ⟨w, h⟩
  · rw [h]
    cases m s
    · exact h2 _ _
    all_goals exact .inl rfl
  · rw [h]; exact .inr ⟨w, rfl⟩

theorem Sim.attempt {m m' : P α} {f f' : α → P β} {g g' : PErr → P β} (h1 : Sim m m') (h2 : ∀ x, Sim (f x) (f' x))
    (h3 : ∀ e, Sim (g e) (g' e)) : Sim (M.attempt m f g) (M.attempt m' f' g') := by
  intro s
  unfold M.attempt
  rcases h1 s with h | ⟨w, h⟩
  · rw [h]
    cases m s
    · exact h2 _ _
    · exact h3 _ _
    all_goals exact .inl rfl
  · rw [h]; exact .inr ⟨w, rfl⟩

theorem Sim.ite {p : Prop} [Decidable p] {a a' b b' : P α} (h1 : Sim a a') (h2 : Sim b b') :
    Sim (if p then a else b) (if p then a' else b') := by split <;> assumption

theorem Sim.loop {f f' : β → P (β ⊕ α)} (h : ∀ b, Sim (f b) (f' b)) {n n' : Nat} (hn : n' = n) {b : β} :
    Sim (Fajt.loop f n b) (Fajt.loop f' n' b) := by
  subst hn
  induction n' generalizing b with
  | zero => exact Sim.refl _
  | succ n ih =>
    refine Sim.bind (h b) fun x => ?_
    cases x
    · exact ih
    · exact Sim.refl _

theorem Sim.thenTry {b : Bool} {m m' : P α} (h : Sim m m') : Sim (Parser.thenTry b m) (Parser.thenTry b m') := by
  unfold Parser.thenTry
  exact Sim.ite (Sim.bind h fun _ => Sim.refl _) (Sim.refl _)

theorem Sim.assert {c : Bool} {m m' : P α} (h : Sim m m') : Sim m (debugAssert c >>= fun _ => m') := by
  intro s
  cases c
  · exact .inr ⟨_, rfl⟩
  · exact h s
end

/-- The entry points of the second record do what those of the first do, or panic. -/
structure Sims (r r' : Rec) : Prop where
  fuel : r'.fuel = r.fuel
  assignExpr : ∀ ctx, Sim (r.assignExpr ctx) (r'.assignExpr ctx)
  unary : ∀ ctx, Sim (r.unary ctx) (r'.unary ctx)
  newOrMember : ∀ ctx, Sim (r.newOrMember ctx) (r'.newOrMember ctx)
  bindingPattern : ∀ ctx, Sim (r.bindingPattern ctx) (r'.bindingPattern ctx)
  assignPattern : ∀ ctx, Sim (r.assignPattern ctx) (r'.assignPattern ctx)
  stmt : ∀ ctx, Sim (r.stmt ctx) (r'.stmt ctx)
  declOrStmt : ∀ ctx, Sim (r.declOrStmt ctx) (r'.declOrStmt ctx)
  declaration : ∀ ctx, Sim (r.declaration ctx) (r'.declaration ctx)

/-- Use the theorem about the function at the head of the goal. -/
elab "sm_known" : tactic => withMainContext do
  let g ← getMainGoal
  let t ← whnfR (← instantiateMVars (← g.getType))
  unless t.isAppOf ``Sim do throwError "not a Sim"
  let args := t.getAppArgs
  let .const n _ := (args[args.size - 2]!.headBeta).getAppFn | throwError "no head"
  let .str p b := n | throwError "no name"
  let lem := if p == `Fajt.Rec then `Fajt.Debug.Sims ++ Name.mkSimple b else `Fajt.Debug ++ Name.mkSimple (b ++ "_sim")
  let c ← mkConstWithFreshMVarLevels lem
  let gs ← withReducible (g.apply c)

  replaceMainGoal gs

/-- Name the result of the first of two computations. -/
elab "sm_intro" : tactic => withMainContext do
  let t ← whnfR (← instantiateMVars (← (← getMainGoal).getType))
  unless t.isForall do throwError "no quantifier"
  let (_, g) ← (← getMainGoal).intro1
  replaceMainGoal [g]

/-- One step. -/
macro "sm_step" : tactic => `(tactic| first
  | with_reducible exact Sim.refl _
  | (sm_known <;> assumption)
  | sm_intro
  | with_reducible (refine Sim.bind ?_ ?_)
  | with_reducible (refine Sim.attempt ?_ ?_ ?_)
  | with_reducible (refine Sim.loop ?_ (Sims.fuel ‹_›))
  | with_reducible (refine Sim.thenTry ?_)
  | with_reducible (refine Sim.ite ?_ ?_)
  | split)

/-- Prove that a computation has the outcome of another one or panics. -/
macro "sm" : tactic => `(tactic| repeat' sm_step)

section
open Parser
variable {r r' : Rec}

theorem exprSequence_sim (hr : Sims r r') {ctx : Ctx} {spanStart : Nat} {initial : Expr} : Sim (exprSequence r ctx spanStart initial) (exprSequence r' ctx spanStart initial) := by
  unfold Parser.exprSequence
  sm

theorem expr_sim (hr : Sims r r') {ctx : Ctx} : Sim (expr r ctx) (expr r' ctx) := by
  unfold Parser.expr
  sm

theorem initializer_sim (hr : Sims r r') {ctx : Ctx} : Sim (initializer r ctx) (initializer r' ctx) := by
  unfold Parser.initializer
  sm

theorem propertyName_sim (hr : Sims r r') {ctx : Ctx} : Sim (propertyName r ctx) (propertyName r' ctx) := by
  unfold Parser.propertyName
  sm

theorem argument_sim (hr : Sims r r') {ctx : Ctx} : Sim (argument r ctx) (argument r' ctx) := by
  unfold Parser.argument
  sm

theorem arguments_sim (hr : Sims r r') {ctx : Ctx} : Sim (arguments r ctx) (arguments r' ctx) := by
  unfold Parser.arguments
  sm

theorem optionalArguments_sim (hr : Sims r r') {ctx : Ctx} : Sim (optionalArguments r ctx) (optionalArguments r' ctx) := by
  unfold Parser.optionalArguments
  sm

theorem callExpr_sim (hr : Sims r r') {ctx : Ctx} {spanStart : Nat} {callee : Expr} : Sim (callExpr r ctx spanStart callee) (callExpr r' ctx spanStart callee) := by
  unfold Parser.callExpr
  sm

theorem singleNameBinding_sim (hr : Sims r r') {ctx : Ctx} : Sim (singleNameBinding r ctx) (singleNameBinding r' ctx) := by
  unfold Parser.singleNameBinding
  sm

theorem bindingElement_sim (hr : Sims r r') {ctx : Ctx} : Sim (bindingElement r ctx) (bindingElement r' ctx) := by
  unfold Parser.bindingElement
  sm

theorem namedBinding_sim (hr : Sims r r') {ctx : Ctx} : Sim (namedBinding r ctx) (namedBinding r' ctx) := by
  unfold Parser.namedBinding
  sm

theorem bindingRestElement_sim (hr : Sims r r') {ctx : Ctx} : Sim (bindingRestElement r ctx) (bindingRestElement r' ctx) := by
  unfold Parser.bindingRestElement
  sm

theorem restBindingIdent_sim (hr : Sims r r') {ctx : Ctx} {expectedEnd : Punct} : Sim (restBindingIdent r ctx expectedEnd) (restBindingIdent r' ctx expectedEnd) := by
  unfold Parser.restBindingIdent
  sm

theorem objectBindingPattern_sim (hr : Sims r r') {ctx : Ctx} : Sim (objectBindingPattern r ctx) (objectBindingPattern r' ctx) := by
  unfold Parser.objectBindingPattern
  sm

theorem arrayBindingPattern_sim (hr : Sims r r') {ctx : Ctx} : Sim (arrayBindingPattern r ctx) (arrayBindingPattern r' ctx) := by
  unfold Parser.arrayBindingPattern
  sm

theorem bindingPattern_sim (hr : Sims r r') {ctx : Ctx} : Sim (bindingPattern r ctx) (bindingPattern r' ctx) := by
  unfold Parser.bindingPattern
  sm

theorem formalParameters_sim (hr : Sims r r') {ctx : Ctx} : Sim (formalParameters r ctx) (formalParameters r' ctx) := by
  unfold Parser.formalParameters
  sm

theorem directivePrologue_sim (hr : Sims r r') {ctx : Ctx} : Sim (directivePrologue r ctx) (directivePrologue r' ctx) := by
  unfold Parser.directivePrologue
  sm

theorem functionBodyStmtList_sim (hr : Sims r r') {ctx : Ctx} : Sim (functionBodyStmtList r ctx) (functionBodyStmtList r' ctx) := by
  unfold Parser.functionBodyStmtList
  sm

theorem functionBody_sim (hr : Sims r r') {ctx : Ctx} : Sim (functionBody r ctx) (functionBody r' ctx) := by
  unfold Parser.functionBody
  sm

theorem conciseBody_sim (hr : Sims r r') {ctx : Ctx} : Sim (conciseBody r ctx) (conciseBody r' ctx) := by
  unfold Parser.conciseBody
  sm

theorem arrowFunctionParameters_sim (hr : Sims r r') {ctx : Ctx} : Sim (arrowFunctionParameters r ctx) (arrowFunctionParameters r' ctx) := by
  unfold Parser.arrowFunctionParameters
  sm

theorem arrowFunction_sim (hr : Sims r r') {ctx : Ctx} {spanStart : Nat} {asynchronous : Bool} : Sim (arrowFunction r ctx spanStart asynchronous) (arrowFunction r' ctx spanStart asynchronous) := by
  unfold Parser.arrowFunction
  sm

theorem arrowFunctionExpr_sim (hr : Sims r r') {ctx : Ctx} : Sim (arrowFunctionExpr r ctx) (arrowFunctionExpr r' ctx) := by
  unfold Parser.arrowFunctionExpr
  sm

theorem asyncArrowFunctionExpr_sim (hr : Sims r r') {ctx : Ctx} : Sim (asyncArrowFunctionExpr r ctx) (asyncArrowFunctionExpr r' ctx) := by
  unfold Parser.asyncArrowFunctionExpr
  sm

theorem functionExprContent_sim (hr : Sims r r') {ctx : Ctx} {spanStart : Nat} : Sim (functionExprContent r ctx spanStart) (functionExprContent r' ctx spanStart) := by
  unfold Parser.functionExprContent
  sm

theorem functionExpr_sim (hr : Sims r r') {ctx : Ctx} : Sim (functionExpr r ctx) (functionExpr r' ctx) := by
  unfold Parser.functionExpr
  sm

theorem asyncFunctionExpr_sim (hr : Sims r r') {ctx : Ctx} : Sim (asyncFunctionExpr r ctx) (asyncFunctionExpr r' ctx) := by
  unfold Parser.asyncFunctionExpr
  sm

theorem functionDeclContent_sim (hr : Sims r r') {ctx : Ctx} {spanStart : Nat} {id : Ident} : Sim (functionDeclContent r ctx spanStart id) (functionDeclContent r' ctx spanStart id) := by
  unfold Parser.functionDeclContent
  sm

theorem functionDeclaration_sim (hr : Sims r r') {ctx : Ctx} : Sim (functionDeclaration r ctx) (functionDeclaration r' ctx) := by
  unfold Parser.functionDeclaration
  sm

theorem asyncFunctionDeclaration_sim (hr : Sims r r') {ctx : Ctx} : Sim (asyncFunctionDeclaration r ctx) (asyncFunctionDeclaration r' ctx) := by
  unfold Parser.asyncFunctionDeclaration
  sm

theorem method_sim (hr : Sims r r') {ctx : Ctx} {spanStart : Nat} {isStatic : Bool} {name : PropName} {kind : MethodKind} : Sim (method r ctx spanStart isStatic name kind) (method r' ctx spanStart isStatic name kind) := by
  unfold Parser.method
  sm

theorem generatorMethod_sim (hr : Sims r r') {ctx : Ctx} {isStatic : Bool} : Sim (generatorMethod r ctx isStatic) (generatorMethod r' ctx isStatic) := by
  unfold Parser.generatorMethod
  sm

theorem getterOrSetter_sim (hr : Sims r r') {ctx : Ctx} {isStatic : Bool} {kind : MethodKind} : Sim (getterOrSetter r ctx isStatic kind) (getterOrSetter r' ctx isStatic kind) := by
  unfold Parser.getterOrSetter
  sm

theorem asyncMethod_sim (hr : Sims r r') {ctx : Ctx} {isStatic : Bool} : Sim (asyncMethod r ctx isStatic) (asyncMethod r' ctx isStatic) := by
  unfold Parser.asyncMethod
  sm

theorem methodDefinitionRest_sim (hr : Sims r r') {ctx : Ctx} {isStatic : Bool} : Sim (methodDefinitionRest r ctx isStatic) (methodDefinitionRest r' ctx isStatic) := by
  unfold Parser.methodDefinitionRest
  sm

theorem methodDefinition_sim (hr : Sims r r') {ctx : Ctx} : Sim (methodDefinition r ctx) (methodDefinition r' ctx) := by
  unfold Parser.methodDefinition
  sm

theorem templateLiteralParts_sim (hr : Sims r r') {ctx : Ctx} {parts : List TemplatePart} : Sim (templateLiteralParts r ctx parts) (templateLiteralParts r' ctx parts) := by
  unfold Parser.templateLiteralParts
  sm

theorem templateLiteral_sim (hr : Sims r r') {ctx : Ctx} : Sim (templateLiteral r ctx) (templateLiteral r' ctx) := by
  unfold Parser.templateLiteral
  sm

theorem templateLiteralExpr_sim (hr : Sims r r') {ctx : Ctx} : Sim (templateLiteralExpr r ctx) (templateLiteralExpr r' ctx) := by
  unfold Parser.templateLiteralExpr
  sm

theorem arrayElement_sim (hr : Sims r r') {ctx : Ctx} : Sim (arrayElement r ctx) (arrayElement r' ctx) := by
  unfold Parser.arrayElement
  sm

theorem arrayLiteral_sim (hr : Sims r r') {ctx : Ctx} : Sim (arrayLiteral r ctx) (arrayLiteral r' ctx) := by
  unfold Parser.arrayLiteral
  sm

theorem namedPropertyDefinition_sim (hr : Sims r r') {ctx : Ctx} {spanStart : Nat} {name : PropName} : Sim (namedPropertyDefinition r ctx spanStart name) (namedPropertyDefinition r' ctx spanStart name) := by
  unfold Parser.namedPropertyDefinition
  sm

theorem propertyDefinitionWithComputedName_sim (hr : Sims r r') {ctx : Ctx} : Sim (propertyDefinitionWithComputedName r ctx) (propertyDefinitionWithComputedName r' ctx) := by
  unfold Parser.propertyDefinitionWithComputedName
  sm

theorem propertyDefinition_sim (hr : Sims r r') {ctx : Ctx} : Sim (propertyDefinition r ctx) (propertyDefinition r' ctx) := by
  unfold Parser.propertyDefinition
  sm

theorem objectLiteral_sim (hr : Sims r r') {ctx : Ctx} : Sim (objectLiteral r ctx) (objectLiteral r' ctx) := by
  unfold Parser.objectLiteral
  sm

theorem computedProperty_sim (hr : Sims r r') {ctx : Ctx} : Sim (computedProperty r ctx) (computedProperty r' ctx) := by
  unfold Parser.computedProperty
  sm

theorem memberProperty_sim (hr : Sims r r') {ctx : Ctx} : Sim (memberProperty r ctx) (memberProperty r' ctx) := by
  unfold Parser.memberProperty
  sm

theorem memberExprRightSide_sim (hr : Sims r r') {ctx : Ctx} {spanStart : Nat} {left : MemberObject} : Sim (memberExprRightSide r ctx spanStart left) (memberExprRightSide r' ctx spanStart left) := by
  unfold Parser.memberExprRightSide
  sm

theorem optionalCallExpr_sim (hr : Sims r r') {ctx : Ctx} {spanStart : Nat} {callee : Expr} : Sim (optionalCallExpr r ctx spanStart callee) (optionalCallExpr r' ctx spanStart callee) := by
  unfold Parser.optionalCallExpr
  sm

theorem optionalMemberProperty_sim (hr : Sims r r') {ctx : Ctx} : Sim (optionalMemberProperty r ctx) (optionalMemberProperty r' ctx) := by
  unfold Parser.optionalMemberProperty
  sm

theorem optionalMemberExpr_sim (hr : Sims r r') {ctx : Ctx} {spanStart : Nat} {object : Expr} : Sim (optionalMemberExpr r ctx spanStart object) (optionalMemberExpr r' ctx spanStart object) := by
  unfold Parser.optionalMemberExpr
  sm

theorem optionalExpr_sim (hr : Sims r r') {ctx : Ctx} {spanStart : Nat} {left : Expr} : Sim (optionalExpr r ctx spanStart left) (optionalExpr r' ctx spanStart left) := by
  unfold Parser.optionalExpr
  sm

theorem parenthesizedExpr_sim (hr : Sims r r') {ctx : Ctx} : Sim (parenthesizedExpr r ctx) (parenthesizedExpr r' ctx) := by
  unfold Parser.parenthesizedExpr
  sm

theorem throwArrow_sim (hr : Sims r r') {ctx : Ctx} : Sim (throwArrow r ctx) (throwArrow r' ctx) := by
  unfold Parser.throwArrow
  sm

theorem coverParenthesizedAndArrowParameters_sim (hr : Sims r r') {ctx : Ctx} : Sim (coverParenthesizedAndArrowParameters r ctx) (coverParenthesizedAndArrowParameters r' ctx) := by
  unfold Parser.coverParenthesizedAndArrowParameters
  sm

theorem coveredCallExpression_sim (hr : Sims r r') {ctx : Ctx} : Sim (coveredCallExpression r ctx) (coveredCallExpression r' ctx) := by
  unfold Parser.coveredCallExpression
  sm

theorem coverCallOrAsyncArrowHead_sim (hr : Sims r r') {ctx : Ctx} : Sim (coverCallOrAsyncArrowHead r ctx) (coverCallOrAsyncArrowHead r' ctx) := by
  unfold Parser.coverCallOrAsyncArrowHead
  sm

theorem classElement_sim (hr : Sims r r') {ctx : Ctx} {hasSuper : Bool} : Sim (classElement r ctx hasSuper) (classElement r' ctx hasSuper) := by
  unfold Parser.classElement
  sm

theorem classBody_sim (hr : Sims r r') {ctx : Ctx} {hasSuper : Bool} : Sim (classBody r ctx hasSuper) (classBody r' ctx hasSuper) := by
  unfold Parser.classBody
  sm

theorem taggedTemplate_sim (hr : Sims r r') {ctx : Ctx} {spanStart : Nat} {callee : Expr} : Sim (taggedTemplate r ctx spanStart callee) (taggedTemplate r' ctx spanStart callee) := by
  unfold Parser.taggedTemplate
  sm

theorem recursiveCallExpression_sim (hr : Sims r r') {ctx : Ctx} {spanStart : Nat} {previous : Expr} : Sim (recursiveCallExpression r ctx spanStart previous) (recursiveCallExpression r' ctx spanStart previous) := by
  unfold Parser.recursiveCallExpression
  sm

theorem superCallExpr_sim (hr : Sims r r') {ctx : Ctx} : Sim (superCallExpr r ctx) (superCallExpr r' ctx) := by
  unfold Parser.superCallExpr
  sm

theorem importArgument_sim (hr : Sims r r') {ctx : Ctx} : Sim (importArgument r ctx) (importArgument r' ctx) := by
  unfold Parser.importArgument
  sm

theorem importCallExpr_sim (hr : Sims r r') {ctx : Ctx} : Sim (importCallExpr r ctx) (importCallExpr r' ctx) := by
  unfold Parser.importCallExpr
  sm

theorem callOrMemberExpr_sim (hr : Sims r r') {ctx : Ctx} : Sim (callOrMemberExpr r ctx) (callOrMemberExpr r' ctx) := by
  unfold Parser.callOrMemberExpr
  sm

theorem leftHandSideExpr_sim (hr : Sims r r') {ctx : Ctx} : Sim (leftHandSideExpr r ctx) (leftHandSideExpr r' ctx) := by
  unfold Parser.leftHandSideExpr
  sm

theorem classTail_sim (hr : Sims r r') {ctx : Ctx} : Sim (classTail r ctx) (classTail r' ctx) := by
  unfold Parser.classTail
  sm

theorem classExpr_sim (hr : Sims r r') {ctx : Ctx} : Sim (classExpr r ctx) (classExpr r' ctx) := by
  unfold Parser.classExpr
  sm

theorem classDecl_sim (hr : Sims r r') {ctx : Ctx} : Sim (classDecl r ctx) (classDecl r' ctx) := by
  unfold Parser.classDecl
  sm

theorem primaryExpr_sim (hr : Sims r r') {ctx : Ctx} : Sim (primaryExpr r ctx) (primaryExpr r' ctx) := by
  unfold Parser.primaryExpr
  sm

theorem superProperty_sim (hr : Sims r r') {ctx : Ctx} : Sim (superProperty r ctx) (superProperty r' ctx) := by
  unfold Parser.superProperty
  sm

theorem newExpr_sim (hr : Sims r r') {ctx : Ctx} : Sim (newExpr r ctx) (newExpr r' ctx) := by
  unfold Parser.newExpr
  sm

theorem memberExprFromTerminal_sim (hr : Sims r r') {ctx : Ctx} : Sim (memberExprFromTerminal r ctx) (memberExprFromTerminal r' ctx) := by
  unfold Parser.memberExprFromTerminal
  sm

theorem newOrMember_sim (hr : Sims r r') {ctx : Ctx} : Sim (newOrMember r ctx) (newOrMember r' ctx) := by
  unfold Parser.newOrMember
  sm

theorem prefixUpdateExpr_sim (hr : Sims r r') {ctx : Ctx} {spanStart : Nat} {op : UpdateOp} : Sim (prefixUpdateExpr r ctx spanStart op) (prefixUpdateExpr r' ctx spanStart op) := by
  unfold Parser.prefixUpdateExpr
  sm

theorem updateExpr_sim (hr : Sims r r') {ctx : Ctx} : Sim (updateExpr r ctx) (updateExpr r' ctx) := by
  unfold Parser.updateExpr
  sm

theorem unaryExprWithOperator_sim (hr : Sims r r') {ctx : Ctx} {spanStart : Nat} {op : UnaryOp} : Sim (unaryExprWithOperator r ctx spanStart op) (unaryExprWithOperator r' ctx spanStart op) := by
  unfold Parser.unaryExprWithOperator
  sm

theorem awaitExpr_sim (hr : Sims r r') {ctx : Ctx} : Sim (awaitExpr r ctx) (awaitExpr r' ctx) := by
  unfold Parser.awaitExpr
  sm

theorem awaitOrUpdateExpr_sim (hr : Sims r r') {ctx : Ctx} : Sim (awaitOrUpdateExpr r ctx) (awaitOrUpdateExpr r' ctx) := by
  unfold Parser.awaitOrUpdateExpr
  sm

theorem unary_sim (hr : Sims r r') {ctx : Ctx} : Sim (unary r ctx) (unary r' ctx) := by
  unfold Parser.unary
  sm

theorem recursiveBinaryExpr_sim (hr : Sims r r') {α : Type} {next next' : P Expr} (hn : Sim next next') {mapOp : TokVal → Option α}
    {create : Span → Expr → Expr → α → Expr} : Sim (recursiveBinaryExpr r next mapOp create) (recursiveBinaryExpr r' next' mapOp create) := by
  unfold recursiveBinaryExpr
  repeat' (first | exact hn | sm_step)

theorem binaryExpr_sim (hr : Sims r r') {next next' : P Expr} (hn : Sim next next') {mapOp : TokVal → Option BinaryOp} :
    Sim (binaryExpr r next mapOp) (binaryExpr r' next' mapOp) := by
  unfold binaryExpr
  exact recursiveBinaryExpr_sim hr hn

theorem logicalExpr_sim (hr : Sims r r') {next next' : P Expr} (hn : Sim next next') {mapOp : TokVal → Option LogicalOp} :
    Sim (logicalExpr r next mapOp) (logicalExpr r' next' mapOp) := by
  unfold logicalExpr
  exact recursiveBinaryExpr_sim hr hn

theorem exponentiationExpr_sim (hr : Sims r r') {ctx : Ctx} : Sim (exponentiationExpr r ctx) (exponentiationExpr r' ctx) := by
  unfold Parser.exponentiationExpr
  exact binaryExpr_sim hr (hr.unary _)

theorem multiplicativeExpr_sim (hr : Sims r r') {ctx : Ctx} : Sim (multiplicativeExpr r ctx) (multiplicativeExpr r' ctx) := by
  unfold Parser.multiplicativeExpr
  exact binaryExpr_sim hr (exponentiationExpr_sim hr)

theorem additiveExpr_sim (hr : Sims r r') {ctx : Ctx} : Sim (additiveExpr r ctx) (additiveExpr r' ctx) := by
  unfold Parser.additiveExpr
  exact binaryExpr_sim hr (multiplicativeExpr_sim hr)

theorem shiftExpr_sim (hr : Sims r r') {ctx : Ctx} : Sim (shiftExpr r ctx) (shiftExpr r' ctx) := by
  unfold Parser.shiftExpr
  exact binaryExpr_sim hr (additiveExpr_sim hr)

theorem relationalExpr_sim (hr : Sims r r') {ctx : Ctx} : Sim (relationalExpr r ctx) (relationalExpr r' ctx) := by
  unfold Parser.relationalExpr
  exact binaryExpr_sim hr (shiftExpr_sim hr)

theorem equalityExpr_sim (hr : Sims r r') {ctx : Ctx} : Sim (equalityExpr r ctx) (equalityExpr r' ctx) := by
  unfold Parser.equalityExpr
  exact binaryExpr_sim hr (relationalExpr_sim hr)

theorem bitwiseAndExpr_sim (hr : Sims r r') {ctx : Ctx} : Sim (bitwiseAndExpr r ctx) (bitwiseAndExpr r' ctx) := by
  unfold Parser.bitwiseAndExpr
  exact binaryExpr_sim hr (equalityExpr_sim hr)

theorem bitwiseXorExpr_sim (hr : Sims r r') {ctx : Ctx} : Sim (bitwiseXorExpr r ctx) (bitwiseXorExpr r' ctx) := by
  unfold Parser.bitwiseXorExpr
  exact binaryExpr_sim hr (bitwiseAndExpr_sim hr)

theorem bitwiseOrExpr_sim (hr : Sims r r') {ctx : Ctx} : Sim (bitwiseOrExpr r ctx) (bitwiseOrExpr r' ctx) := by
  unfold Parser.bitwiseOrExpr
  exact binaryExpr_sim hr (bitwiseXorExpr_sim hr)

theorem logicalAndExpr_sim (hr : Sims r r') {ctx : Ctx} : Sim (logicalAndExpr r ctx) (logicalAndExpr r' ctx) := by
  unfold Parser.logicalAndExpr
  exact logicalExpr_sim hr (bitwiseOrExpr_sim hr)

theorem logicalOrExpr_sim (hr : Sims r r') {ctx : Ctx} : Sim (logicalOrExpr r ctx) (logicalOrExpr r' ctx) := by
  unfold Parser.logicalOrExpr
  exact logicalExpr_sim hr (logicalAndExpr_sim hr)

theorem shortCircuitExpr_sim (hr : Sims r r') {ctx : Ctx} : Sim (shortCircuitExpr r ctx) (shortCircuitExpr r' ctx) := by
  unfold Parser.shortCircuitExpr
  exact logicalExpr_sim hr (logicalOrExpr_sim hr)

theorem conditionalExpr_sim (hr : Sims r r') {ctx : Ctx} : Sim (conditionalExpr r ctx) (conditionalExpr r' ctx) := by
  unfold Parser.conditionalExpr
  sm

theorem conditionalExprOrArrowFunction_sim (hr : Sims r r') {ctx : Ctx} : Sim (conditionalExprOrArrowFunction r ctx) (conditionalExprOrArrowFunction r' ctx) := by
  unfold Parser.conditionalExprOrArrowFunction
  sm

theorem yieldExpr_sim (hr : Sims r r') {ctx : Ctx} : Sim (yieldExpr r ctx) (yieldExpr r' ctx) := by
  unfold Parser.yieldExpr
  sm

theorem assignmentExprAsync_sim (hr : Sims r r') {ctx : Ctx} : Sim (assignmentExprAsync r ctx) (assignmentExprAsync r' ctx) := by
  unfold Parser.assignmentExprAsync
  sm

theorem assignment_sim (hr : Sims r r') {ctx : Ctx} {spanStart : Nat} {left : PatternOrExpr} {op : AssignOp} : Sim (assignment r ctx spanStart left op) (assignment r' ctx spanStart left op) := by
  unfold Parser.assignment
  sm

theorem normalizeLeftSideAssignment_sim (hr : Sims r r') {ctx : Ctx} {startToken : Token} {e : Expr} : Sim (normalizeLeftSideAssignment r ctx startToken e) (normalizeLeftSideAssignment r' ctx startToken e) := by
  unfold Parser.normalizeLeftSideAssignment
  sm

theorem assignmentAfterExpr_sim (hr : Sims r r') {ctx : Ctx} {spanStart : Nat} {startToken : Token} {e : Expr} : Sim (assignmentAfterExpr r ctx spanStart startToken e) (assignmentAfterExpr r' ctx spanStart startToken e) := by
  unfold Parser.assignmentAfterExpr
  sm

theorem assignmentAfterPattern_sim (hr : Sims r r') {ctx : Ctx} {spanStart : Nat} {p : AssignPattern} {err : PErr} : Sim (assignmentAfterPattern r ctx spanStart p err) (assignmentAfterPattern r' ctx spanStart p err) := by
  unfold Parser.assignmentAfterPattern
  sm

theorem assignmentExprGeneral_sim (hr : Sims r r') {ctx : Ctx} : Sim (assignmentExprGeneral r ctx) (assignmentExprGeneral r' ctx) := by
  unfold Parser.assignmentExprGeneral
  sm

theorem assignExpr_sim (hr : Sims r r') {ctx : Ctx} : Sim (assignExpr r ctx) (assignExpr r' ctx) := by
  unfold Parser.assignExpr
  sm

theorem destructuringAssignmentTarget_sim (hr : Sims r r') {ctx : Ctx} : Sim (destructuringAssignmentTarget r ctx) (destructuringAssignmentTarget r' ctx) := by
  unfold Parser.destructuringAssignmentTarget
  sm

theorem assignmentElement_sim (hr : Sims r r') {ctx : Ctx} : Sim (assignmentElement r ctx) (assignmentElement r' ctx) := by
  unfold Parser.assignmentElement
  sm

theorem assignmentRest_sim (hr : Sims r r') {ctx : Ctx} {close : Punct} : Sim (assignmentRest r ctx close) (assignmentRest r' ctx close) := by
  unfold Parser.assignmentRest
  sm

theorem arrayAssignmentPattern_sim (hr : Sims r r') {ctx : Ctx} : Sim (arrayAssignmentPattern r ctx) (arrayAssignmentPattern r' ctx) := by
  unfold Parser.arrayAssignmentPattern
  sm

theorem namedAssignmentProp_sim (hr : Sims r r') {ctx : Ctx} : Sim (namedAssignmentProp r ctx) (namedAssignmentProp r' ctx) := by
  unfold Parser.namedAssignmentProp
  sm

theorem singleNameAssignmentProp_sim (hr : Sims r r') {ctx : Ctx} : Sim (singleNameAssignmentProp r ctx) (singleNameAssignmentProp r' ctx) := by
  unfold Parser.singleNameAssignmentProp
  sm

theorem objectAssignmentPattern_sim (hr : Sims r r') {ctx : Ctx} : Sim (objectAssignmentPattern r ctx) (objectAssignmentPattern r' ctx) := by
  unfold Parser.objectAssignmentPattern
  sm

theorem assignPattern_sim (hr : Sims r r') {ctx : Ctx} : Sim (assignPattern r ctx) (assignPattern r' ctx) := by
  unfold Parser.assignPattern
  sm

theorem variableDeclaration_sim (hr : Sims r r') {ctx : Ctx} : Sim (variableDeclaration r ctx) (variableDeclaration r' ctx) := by
  unfold Parser.variableDeclaration
  sm

theorem variableDeclarations_sim (hr : Sims r r') {ctx : Ctx} : Sim (variableDeclarations r ctx) (variableDeclarations r' ctx) := by
  unfold Parser.variableDeclarations
  sm

theorem variableStmt_sim (hr : Sims r r') {ctx : Ctx} {kind : VarKind} : Sim (variableStmt r ctx kind) (variableStmt r' ctx kind) := by
  unfold Parser.variableStmt
  sm

theorem block_sim (hr : Sims r r') {ctx : Ctx} : Sim (block r ctx) (block r' ctx) := by
  unfold Parser.block
  sm

theorem exprStmt_sim (hr : Sims r r') {ctx : Ctx} : Sim (exprStmt r ctx) (exprStmt r' ctx) := by
  unfold Parser.exprStmt
  sm

theorem labeledStmt_sim (hr : Sims r r') {ctx : Ctx} : Sim (labeledStmt r ctx) (labeledStmt r' ctx) := by
  unfold Parser.labeledStmt
  sm

theorem returnStmt_sim (hr : Sims r r') {ctx : Ctx} : Sim (returnStmt r ctx) (returnStmt r' ctx) := by
  unfold Parser.returnStmt
  sm

theorem throwStmt_sim (hr : Sims r r') {ctx : Ctx} : Sim (throwStmt r ctx) (throwStmt r' ctx) := by
  unfold Parser.throwStmt
  sm

theorem ifStmt_sim (hr : Sims r r') {ctx : Ctx} : Sim (ifStmt r ctx) (ifStmt r' ctx) := by
  unfold Parser.ifStmt
  sm

theorem withStmt_sim (hr : Sims r r') {ctx : Ctx} : Sim (withStmt r ctx) (withStmt r' ctx) := by
  unfold Parser.withStmt
  sm

theorem catchParameter_sim (hr : Sims r r') {ctx : Ctx} : Sim (catchParameter r ctx) (catchParameter r' ctx) := by
  unfold Parser.catchParameter
  sm

theorem catchClause_sim (hr : Sims r r') {ctx : Ctx} : Sim (catchClause r ctx) (catchClause r' ctx) := by
  unfold Parser.catchClause
  sm

theorem tryStmt_sim (hr : Sims r r') {ctx : Ctx} : Sim (tryStmt r ctx) (tryStmt r' ctx) := by
  unfold Parser.tryStmt
  sm

theorem switchCaseStmtList_sim (hr : Sims r r') {ctx : Ctx} : Sim (switchCaseStmtList r ctx) (switchCaseStmtList r' ctx) := by
  unfold Parser.switchCaseStmtList
  sm

theorem caseHead_sim (hr : Sims r r') {ctx : Ctx} : Sim (caseHead r ctx) (caseHead r' ctx) := by
  unfold Parser.caseHead
  sm

theorem caseClause_sim (hr : Sims r r') {ctx : Ctx} : Sim (caseClause r ctx) (caseClause r' ctx) := by
  unfold Parser.caseClause
  sm

theorem caseBlock_sim (hr : Sims r r') {ctx : Ctx} : Sim (caseBlock r ctx) (caseBlock r' ctx) := by
  unfold Parser.caseBlock
  sm

theorem switchStmt_sim (hr : Sims r r') {ctx : Ctx} : Sim (switchStmt r ctx) (switchStmt r' ctx) := by
  unfold Parser.switchStmt
  sm

theorem doWhileStmt_sim (hr : Sims r r') {ctx : Ctx} : Sim (doWhileStmt r ctx) (doWhileStmt r' ctx) := by
  unfold Parser.doWhileStmt
  sm

theorem whileStmt_sim (hr : Sims r r') {ctx : Ctx} : Sim (whileStmt r ctx) (whileStmt r' ctx) := by
  unfold Parser.whileStmt
  sm

theorem forInitVariableDeclaration_sim (hr : Sims r r') {ctx : Ctx} {spanStart : Nat} {kind : VarKind} : Sim (forInitVariableDeclaration r ctx spanStart kind) (forInitVariableDeclaration r' ctx spanStart kind) := by
  unfold Parser.forInitVariableDeclaration
  sm

theorem forInit_sim (hr : Sims r r') {ctx : Ctx} : Sim (forInit r ctx) (forInit r' ctx) := by
  unfold Parser.forInit
  sm

theorem optionalForInit_sim (hr : Sims r r') {ctx : Ctx} : Sim (optionalForInit r ctx) (optionalForInit r' ctx) := by
  unfold Parser.optionalForInit
  sm

theorem forRest_sim (hr : Sims r r') {ctx : Ctx} {spanStart : Nat} {init : Option ForInit} : Sim (forRest r ctx spanStart init) (forRest r' ctx spanStart init) := by
  unfold Parser.forRest
  sm

theorem tryFor_sim (hr : Sims r r') {ctx : Ctx} {spanStart : Nat} {asynchronous : Bool} : Sim (tryFor r ctx spanStart asynchronous) (tryFor r' ctx spanStart asynchronous) := by
  unfold Parser.tryFor
  sm

theorem forDeclaration_sim (hr : Sims r r') {ctx : Ctx} : Sim (forDeclaration r ctx) (forDeclaration r' ctx) := by
  unfold Parser.forDeclaration
  sm

theorem forIn_sim (hr : Sims r r') {ctx : Ctx} {spanStart : Nat} {left : ForDecl} : Sim (forIn r ctx spanStart left) (forIn r' ctx spanStart left) := by
  unfold Parser.forIn
  sm

theorem forOf_sim (hr : Sims r r') {ctx : Ctx} {spanStart : Nat} {left : ForDecl} {asynchronous : Bool} : Sim (forOf r ctx spanStart left asynchronous) (forOf r' ctx spanStart left asynchronous) := by
  unfold Parser.forOf
  sm

theorem forInOf_sim (hr : Sims r r') {ctx : Ctx} {spanStart : Nat} {asynchronous : Bool} : Sim (forInOf r ctx spanStart asynchronous) (forInOf r' ctx spanStart asynchronous) := by
  unfold Parser.forInOf
  sm

theorem forAfterParen_sim (hr : Sims r r') {ctx : Ctx} {spanStart : Nat} {asynchronous : Bool} : Sim (forAfterParen r ctx spanStart asynchronous) (forAfterParen r' ctx spanStart asynchronous) := by
  unfold Parser.forAfterParen
  sm

theorem forStmt_sim (hr : Sims r r') {ctx : Ctx} : Sim (forStmt r ctx) (forStmt r' ctx) := by
  unfold Parser.forStmt
  sm

theorem stmt_sim (hr : Sims r r') {ctx : Ctx} : Sim (stmt r ctx) (stmt r' ctx) := by
  unfold Parser.stmt
  sm

theorem namedImports_sim (hr : Sims r r') {ctx : Ctx} : Sim (namedImports r ctx) (namedImports r' ctx) := by
  unfold Parser.namedImports
  sm

theorem namedExports_sim (hr : Sims r r')  : Sim (namedExports r) (namedExports r') := by
  unfold Parser.namedExports
  sm

theorem importClauseRest_sim (hr : Sims r r') {ctx : Ctx} : Sim (importClauseRest r ctx) (importClauseRest r' ctx) := by
  unfold Parser.importClauseRest
  sm

theorem importClause_sim (hr : Sims r r') {ctx : Ctx} : Sim (importClause r ctx) (importClause r' ctx) := by
  unfold Parser.importClause
  sm

theorem importDeclaration_sim (hr : Sims r r') {ctx : Ctx} : Sim (importDeclaration r ctx) (importDeclaration r' ctx) := by
  unfold Parser.importDeclaration
  sm

theorem namedExport_sim (hr : Sims r r') {spanStart : Nat} : Sim (namedExport r spanStart) (namedExport r' spanStart) := by
  unfold Parser.namedExport
  sm

theorem requiredDeclaration_sim (hr : Sims r r') {ctx : Ctx} : Sim (requiredDeclaration r ctx) (requiredDeclaration r' ctx) := by
  unfold Parser.requiredDeclaration
  sm

theorem declarationExport_sim (hr : Sims r r') {ctx : Ctx} {spanStart : Nat} : Sim (declarationExport r ctx spanStart) (declarationExport r' ctx spanStart) := by
  unfold Parser.declarationExport
  sm

theorem declarationDefaultExport_sim (hr : Sims r r') {ctx : Ctx} {spanStart : Nat} : Sim (declarationDefaultExport r ctx spanStart) (declarationDefaultExport r' ctx spanStart) := by
  unfold Parser.declarationDefaultExport
  sm

theorem variableStatementExport_sim (hr : Sims r r') {ctx : Ctx} {spanStart : Nat} : Sim (variableStatementExport r ctx spanStart) (variableStatementExport r' ctx spanStart) := by
  unfold Parser.variableStatementExport
  sm

theorem defaultExport_sim (hr : Sims r r') {ctx : Ctx} {spanStart : Nat} : Sim (defaultExport r ctx spanStart) (defaultExport r' ctx spanStart) := by
  unfold Parser.defaultExport
  sm

theorem exportDeclaration_sim (hr : Sims r r') {ctx : Ctx} : Sim (exportDeclaration r ctx) (exportDeclaration r' ctx) := by
  unfold Parser.exportDeclaration
  sm

theorem declaration_sim (hr : Sims r r') {ctx : Ctx} : Sim (declaration r ctx) (declaration r' ctx) := by
  unfold Parser.declaration
  sm

theorem declOrStmt_sim (hr : Sims r r') {ctx : Ctx} : Sim (declOrStmt r ctx) (declOrStmt r' ctx) := by
  unfold Parser.declOrStmt
  sm

theorem allStmts_sim (hr : Sims r r') {ctx : Ctx} : Sim (allStmts r ctx) (allStmts r' ctx) := by
  unfold Parser.allStmts
  sm

theorem program_sim (hr : Sims r r')  : Sim (program r) (program r') := by
  unfold Parser.program
  sm

/-! ## The functions with assertions -/

theorem asyncFunctionExpr_debug (hr : Sims r r') {ctx : Ctx} : Sim (asyncFunctionExpr r ctx) (DebugParser.asyncFunctionExpr r' ctx) := by
  unfold Parser.asyncFunctionExpr DebugParser.asyncFunctionExpr
  refine Sim.bind (Sim.refl _) fun _ => Sim.bind (Sim.refl _) fun _ => Sim.bind (Sim.refl _) fun _ => Sim.assert ?_
  sm

theorem asyncFunctionDeclaration_debug (hr : Sims r r') {ctx : Ctx} :
    Sim (asyncFunctionDeclaration r ctx) (DebugParser.asyncFunctionDeclaration r' ctx) := by
  unfold Parser.asyncFunctionDeclaration DebugParser.asyncFunctionDeclaration
  refine Sim.bind (Sim.refl _) fun _ => Sim.bind (Sim.refl _) fun _ => Sim.bind (Sim.refl _) fun _ => Sim.assert ?_
  sm

theorem rereadRegexp_debug : Sim rereadRegexp DebugParser.rereadRegexp := by
  unfold Parser.rereadRegexp DebugParser.rereadRegexp
  refine Sim.bind (Sim.refl _) fun _ => ?_
  intro s
  show M.bind _ _ s = _ ∨ ∃ w, M.bind _ _ s = _
  unfold M.bind
  cases literal s with
  | ok e s' => exact Sim.assert (c := _) (Sim.refl (Pure.pure e)) s'
  | _ => exact .inl rfl

theorem primaryExpr_debug (hr : Sims r r') {ctx : Ctx} : Sim (primaryExpr r ctx) (DebugParser.primaryExpr r' ctx) := by
  unfold Parser.primaryExpr DebugParser.primaryExpr
  refine Sim.bind (Sim.refl _) fun t => ?_
  generalize t.value = v
  split
  case h_13 h1 h2 h3 h4 h5 h6 h7 h8 h9 h10 h11 h12 =>
    split
    case h_13 => repeat' (first | with_reducible exact asyncFunctionExpr_debug hr | exact rereadRegexp_debug | sm_step)
    case h_5 => exact absurd rfl (h5 _)
    case h_11 => exact absurd rfl (h11 _)
    all_goals contradiction
  all_goals
    dsimp only
    first
    | exact rereadRegexp_debug
    | sm

theorem memberExprFromTerminal_debug (hr : Sims r r') {ctx : Ctx} :
    Sim (memberExprFromTerminal r ctx) (DebugParser.memberExprFromTerminal r' ctx) := by
  unfold Parser.memberExprFromTerminal DebugParser.memberExprFromTerminal
  repeat' (first | with_reducible exact primaryExpr_debug hr | sm_step)

theorem newOrMember_debug (hr : Sims r r') {ctx : Ctx} : Sim (newOrMember r ctx) (DebugParser.newOrMember r' ctx) := by
  unfold Parser.newOrMember DebugParser.newOrMember
  repeat' (first | with_reducible exact memberExprFromTerminal_debug hr | sm_step)
  all_goals (exfalso; simp_all; done)

theorem declaration_debug (hr : Sims r r') {ctx : Ctx} : Sim (declaration r ctx) (DebugParser.declaration r' ctx) := by
  unfold Parser.declaration DebugParser.declaration
  repeat' (first | with_reducible exact asyncFunctionDeclaration_debug hr | sm_step)

theorem mkRec_sim (n : Nat) : Sims (mkRec n) (DebugParser.mkRecD n) := by
  induction n with
  | zero =>
    rw [show DebugParser.mkRecD 0 = mkRec 0 from rfl]
    exact ⟨rfl, fun _ => Sim.refl _, fun _ => Sim.refl _, fun _ => Sim.refl _, fun _ => Sim.refl _, fun _ => Sim.refl _,
      fun _ => Sim.refl _, fun _ => Sim.refl _, fun _ => Sim.refl _⟩
  | succ n ih =>
    rw [mkRec, DebugParser.mkRecD]
    generalize mkRec n = r at ih ⊢
    generalize DebugParser.mkRecD n = r' at ih ⊢
    exact ⟨rfl, fun _ => assignExpr_sim ih, fun _ => unary_sim ih, fun _ => newOrMember_debug ih, fun _ => bindingPattern_sim ih,
      fun _ => assignPattern_sim ih, fun _ => stmt_sim ih, fun _ => declOrStmt_sim ih, fun _ => declaration_debug ih⟩

/-- Parsing in a debug build ends as in a release build, or panics. -/
theorem parse_sim {α : Type} {m : Rec → P α} (hm : ∀ r r', Sims r r' → Sim (m r) (m r')) (src : Str) (styp : SourceType) :
    DebugParser.parse m src styp = Parser.parse m src styp ∨ ∃ w, DebugParser.parse m src styp = .panic w := by
  unfold DebugParser.parse Parser.parse
  have h := mkRec_sim (enoughFuel src)
  generalize mkRec (enoughFuel src) = r at h ⊢
  generalize DebugParser.mkRecD (enoughFuel src) = r' at h ⊢
  cases start src styp with
  | ok u s => exact hm _ _ h _
  | _ => exact .inl rfl

end

end Fajt.Debug
