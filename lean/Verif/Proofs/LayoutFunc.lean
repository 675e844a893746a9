import Verif.Proofs.LayoutTac
/-!
# Layout: bindings and functions

For every function of the parser: two runs over the same tokens are in step.
-/
namespace Fajt
open Spec Complete
set_option linter.unusedSectionVars false
set_option linter.unusedVariables false
variable [UnicodeID]

namespace Layout
open Fajt.Parser

section
variable {W : World} {r r' : Rec}

theorem exprSequence_lock (hr : Locks W r r') {ctx : Ctx} {spanStart spanStart' : Nat} {initial initial' : Expr} (hinitial : Expr.strip initial = Expr.strip initial') : Lock W (On Expr.strip) (exprSequence r ctx spanStart initial) (exprSequence r' ctx spanStart' initial') := by
  unfold exprSequence; lk

theorem expr_lock (hr : Locks W r r') {ctx : Ctx} : Lock W (On Expr.strip) (expr r ctx) (expr r' ctx) := by
  unfold expr; lk

theorem initializer_lock (hr : Locks W r r') {ctx : Ctx} : Lock W (On Expr.strip) (initializer r ctx) (initializer r' ctx) := by
  unfold initializer; lk

theorem propertyName_lock (hr : Locks W r r') {ctx : Ctx} : Lock W (On PropName.strip) (propertyName r ctx) (propertyName r' ctx) := by
  unfold propertyName; lk

theorem argument_lock (hr : Locks W r r') {ctx : Ctx} : Lock W (On Argument.strip) (argument r ctx) (argument r' ctx) := by
  unfold argument; lk

theorem arguments_lock (hr : Locks W r r') {ctx : Ctx} : Lock W (Both (fun _ _ => True) (On (List.map Argument.strip))) (arguments r ctx) (arguments r' ctx) := by
  unfold arguments; lk

theorem optionalArguments_lock (hr : Locks W r r') {ctx : Ctx} : Lock W (Both (On (Option.map fun _ : Span => nowhere)) (On (List.map Argument.strip))) (optionalArguments r ctx) (optionalArguments r' ctx) := by
  unfold optionalArguments; lk

theorem callExpr_lock (hr : Locks W r r') {ctx : Ctx} {spanStart spanStart' : Nat} {callee callee' : Expr} (hcallee : Expr.strip callee = Expr.strip callee') : Lock W (On Expr.strip) (callExpr r ctx spanStart callee) (callExpr r' ctx spanStart' callee') := by
  unfold callExpr; lk

theorem singleNameBinding_lock (hr : Locks W r r') {ctx : Ctx} : Lock W (On BindingProp.strip) (singleNameBinding r ctx) (singleNameBinding r' ctx) := by
  unfold singleNameBinding; lk

theorem bindingElement_lock (hr : Locks W r r') {ctx : Ctx} : Lock W (On BindingElement.strip) (bindingElement r ctx) (bindingElement r' ctx) := by
  unfold bindingElement; lk

theorem namedBinding_lock (hr : Locks W r r') {ctx : Ctx} : Lock W (On BindingProp.strip) (namedBinding r ctx) (namedBinding r' ctx) := by
  unfold namedBinding; lk

theorem bindingRestElement_lock (hr : Locks W r r') {ctx : Ctx} : Lock W (On BindingPattern.strip) (bindingRestElement r ctx) (bindingRestElement r' ctx) := by
  unfold bindingRestElement; lk

theorem restBindingIdent_lock (hr : Locks W r r') {ctx : Ctx} {expectedEnd : Punct} : Lock W (On BindingPattern.strip) (restBindingIdent r ctx expectedEnd) (restBindingIdent r' ctx expectedEnd) := by
  unfold restBindingIdent; lk

theorem objectBindingPattern_lock (hr : Locks W r r') {ctx : Ctx} : Lock W (On BindingPattern.strip) (objectBindingPattern r ctx) (objectBindingPattern r' ctx) := by
  unfold objectBindingPattern; lk

theorem isBindingElement_lock {ctx : Ctx} : Lock W Eq (isBindingElement ctx) (isBindingElement ctx) := by
  unfold isBindingElement; lk

theorem arrayBindingPattern_lock (hr : Locks W r r') {ctx : Ctx} : Lock W (On BindingPattern.strip) (arrayBindingPattern r ctx) (arrayBindingPattern r' ctx) := by
  unfold arrayBindingPattern; lk

theorem bindingPattern_lock (hr : Locks W r r') {ctx : Ctx} : Lock W (On BindingPattern.strip) (bindingPattern r ctx) (bindingPattern r' ctx) := by
  unfold bindingPattern; lk

theorem formalParameters_lock (hr : Locks W r r') {ctx : Ctx} : Lock W (On FormalParams.strip) (formalParameters r ctx) (formalParameters r' ctx) := by
  unfold formalParameters; lk

theorem directivePrologue_lock (hr : Locks W r r') {ctx : Ctx} : Lock W Eq (directivePrologue r ctx) (directivePrologue r' ctx) := by
  unfold directivePrologue; lk

theorem functionBodyStmtList_lock (hr : Locks W r r') {ctx : Ctx} : Lock W (On (List.map Stmt.strip)) (functionBodyStmtList r ctx) (functionBodyStmtList r' ctx) := by
  unfold functionBodyStmtList; lk

theorem functionBody_lock (hr : Locks W r r') {ctx : Ctx} : Lock W (On Body.strip) (functionBody r ctx) (functionBody r' ctx) := by
  unfold functionBody; lk

theorem conciseBody_lock (hr : Locks W r r') {ctx : Ctx} : Lock W (On ArrowBody.strip) (conciseBody r ctx) (conciseBody r' ctx) := by
  unfold conciseBody; lk

theorem arrowIdentifierArgument_lock {ctx : Ctx} : Lock W (On FormalParams.strip) (arrowIdentifierArgument ctx) (arrowIdentifierArgument ctx) := by
  unfold arrowIdentifierArgument; lk

theorem arrowFunctionParameters_lock (hr : Locks W r r') {ctx : Ctx} : Lock W (Both Eq (On FormalParams.strip)) (arrowFunctionParameters r ctx) (arrowFunctionParameters r' ctx) := by
  unfold arrowFunctionParameters; lk

theorem arrowFunction_lock' (hr : Locks W r r') {ctx : Ctx} {spanStart spanStart' : Nat} {asynchronous : Bool} :
    Lock W (fun e e' => e.strip = e'.strip ∧ e.span.start = spanStart ∧ e'.span.start = spanStart')
      (arrowFunction r ctx spanStart asynchronous) (arrowFunction r' ctx spanStart' asynchronous) := by
  unfold arrowFunction
  refine Lock.bind (arrowFunctionParameters_lock hr) ?_
  lk_intro
  refine Lock.bind consumeAssert_lock ?_
  lk_intro
  refine Lock.ite Iff.rfl (fun _ => ?_) fun _ => ?_
  · lk
  refine Lock.bind (conciseBody_lock hr) ?_
  lk_intro
  refine Lock.bind spanFrom_lock ?_
  intro sp sp' hsp
  refine Lock.pure ⟨?_, hsp⟩
  lk_val

theorem arrowFunction_lock (hr : Locks W r r') {ctx : Ctx} {spanStart spanStart' : Nat} {asynchronous : Bool} :
    Lock W (On Expr.strip) (arrowFunction r ctx spanStart asynchronous) (arrowFunction r' ctx spanStart' asynchronous) :=
  (arrowFunction_lock' hr).weaken fun _ _ h => h.1

/-- There is no arrow function where the lexer fails. -/
theorem arrowFunction_err {s : PState} {e : LexErr} (hc : s.cur = .error e) {x : Except LexErr Token} {lx : LexerS}
    (hl : LexerS.pull s.lx = .ok x lx) (r : Rec) (ctx : Ctx) (p : Nat) (b : Bool) :
    ∃ s1, arrowFunction r ctx p b s = .err (PErr.lexer e) s1 := by
  have h1 := consume_eq hl
  rw [hc] at h1
  dsimp only at h1
  refine ⟨{ s with lx := lx, cur := s.nxt, nxt := x }, M.seq_err ?_⟩
  unfold arrowFunctionParameters
  have h2 : isIdent ctx s = .ok false s := by unfold isIdent M.gets; simp only [hc]; rfl
  rw [M.seq_ok h2]
  show (formalParameters r ctx >>= _) s = _
  refine M.seq_err ?_
  unfold formalParameters
  rw [M.seq_ok (m := position) (s' := s) rfl]
  exact M.seq_err (M.seq_err h1)

theorem arrowFunctionExpr_lock' (hr : Locks W r r') {ctx : Ctx} :
    Lock W (fun e e' => e.strip = e'.strip ∧ SamePos W e.span.start e'.span.start) (arrowFunctionExpr r ctx)
      (arrowFunctionExpr r' ctx) := by
  intro s s' hs
  unfold arrowFunctionExpr
  rw [M.seq_ok (m := position) (s' := s) rfl, M.seq_ok (m := position) (s' := s') rfl]
  dsimp only
  rcases hs.cur with ⟨e, e', h1, h2, h3⟩ | ⟨t, t', h1, h2, h3⟩
  · obtain ⟨st, c, c', hm, hc, l1, l2⟩ := hs.lx
    obtain ⟨x, x', d, d', e1, e2, -, -⟩ := pull_both hm hc
    rw [← l1] at e1
    rw [← l2] at e2
    have key : ∀ p p' : Nat, SameRes W (fun e e' => e.strip = e'.strip ∧ SamePos W e.span.start e'.span.start)
        (arrowFunction r ctx p false s) (arrowFunction r' ctx p' false s') := by
      intro p p'
      have k := arrowFunction_lock' hr (ctx := ctx) (asynchronous := false) (spanStart := p) (spanStart' := p') s s' hs
      obtain ⟨s1, k1⟩ := arrowFunction_err h1 e1 r ctx p false
      obtain ⟨s2, k2⟩ := arrowFunction_err h2 e2 r' ctx p' false
      rw [k1, k2] at k ⊢
      exact k
    exact key _ _
  · refine ((arrowFunction_lock' hr).weaken fun e e' h => ⟨h.1, ?_⟩) s s' hs
    rw [h.2.1, h.2.2]
    exact position_same hs ⟨t, h1⟩

theorem arrowFunctionExpr_lock (hr : Locks W r r') {ctx : Ctx} :
    Lock W (On Expr.strip) (arrowFunctionExpr r ctx) (arrowFunctionExpr r' ctx) :=
  (arrowFunctionExpr_lock' hr).weaken fun _ _ h => h.1

theorem asyncArrowFunctionExpr_lock (hr : Locks W r r') {ctx : Ctx} : Lock W (On Expr.strip) (asyncArrowFunctionExpr r ctx) (asyncArrowFunctionExpr r' ctx) := by
  unfold asyncArrowFunctionExpr; lk

theorem functionExprContent_lock (hr : Locks W r r') {ctx : Ctx} {spanStart spanStart' : Nat} : Lock W (On Expr.strip) (functionExprContent r ctx spanStart) (functionExprContent r' ctx spanStart') := by
  unfold functionExprContent; lk

theorem functionExpr_lock (hr : Locks W r r') {ctx : Ctx} : Lock W (On Expr.strip) (functionExpr r ctx) (functionExpr r' ctx) := by
  unfold functionExpr; lk

theorem asyncFunctionExpr_lock (hr : Locks W r r') {ctx : Ctx} : Lock W (On Expr.strip) (asyncFunctionExpr r ctx) (asyncFunctionExpr r' ctx) := by
  unfold asyncFunctionExpr; lk

theorem functionDeclContent_lock (hr : Locks W r r') {ctx : Ctx} {spanStart spanStart' : Nat} {id id' : Ident} (hid : Ident.strip id = Ident.strip id') : Lock W (On Stmt.strip) (functionDeclContent r ctx spanStart id) (functionDeclContent r' ctx spanStart' id') := by
  unfold functionDeclContent; lk

theorem functionIdentifier_lock {ctx : Ctx} : Lock W (On Ident.strip) (functionIdentifier ctx) (functionIdentifier ctx) := by
  unfold functionIdentifier; lk

theorem functionDeclaration_lock (hr : Locks W r r') {ctx : Ctx} : Lock W (On Stmt.strip) (functionDeclaration r ctx) (functionDeclaration r' ctx) := by
  unfold functionDeclaration; lk

theorem asyncFunctionDeclaration_lock (hr : Locks W r r') {ctx : Ctx} : Lock W (On Stmt.strip) (asyncFunctionDeclaration r ctx) (asyncFunctionDeclaration r' ctx) := by
  unfold asyncFunctionDeclaration; lk

theorem method_lock (hr : Locks W r r') {ctx : Ctx} {spanStart spanStart' : Nat} {isStatic : Bool} {name name' : PropName} {kind : MethodKind} (hname : PropName.strip name = PropName.strip name') : Lock W (On MethodDef.strip) (method r ctx spanStart isStatic name kind) (method r' ctx spanStart' isStatic name' kind) := by
  unfold method; lk

theorem generatorMethod_lock (hr : Locks W r r') {ctx : Ctx} {isStatic : Bool} : Lock W (On MethodDef.strip) (generatorMethod r ctx isStatic) (generatorMethod r' ctx isStatic) := by
  unfold generatorMethod; lk

theorem getterOrSetter_lock (hr : Locks W r r') {ctx : Ctx} {isStatic : Bool} {kind : MethodKind} : Lock W (On MethodDef.strip) (getterOrSetter r ctx isStatic kind) (getterOrSetter r' ctx isStatic kind) := by
  unfold getterOrSetter; lk

theorem asyncMethod_lock (hr : Locks W r r') {ctx : Ctx} {isStatic : Bool} : Lock W (On MethodDef.strip) (asyncMethod r ctx isStatic) (asyncMethod r' ctx isStatic) := by
  unfold asyncMethod; lk

theorem methodDefinitionRest_lock (hr : Locks W r r') {ctx : Ctx} {isStatic : Bool} : Lock W (On MethodDef.strip) (methodDefinitionRest r ctx isStatic) (methodDefinitionRest r' ctx isStatic) := by
  unfold methodDefinitionRest; lk

theorem methodDefinition_lock (hr : Locks W r r') {ctx : Ctx} : Lock W (On MethodDef.strip) (methodDefinition r ctx) (methodDefinition r' ctx) := by
  unfold methodDefinition; lk

end
end Layout
end Fajt
