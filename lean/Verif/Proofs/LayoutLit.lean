import Verif.Proofs.LayoutFunc
/-!
# Layout: literals and members

For every function of the parser: two runs over the same tokens are in step.
-/
namespace Fajt
open Spec Complete
set_option linter.unusedSectionVars false
set_option linter.unusedVariables false
variable [UnicodeID]

namespace Layout
open Fajt.Parser

section
variable {W : World} {r r' : Rec}

theorem consumeLiteral_lock {l l' : Literal} (hl : Literal.strip l = Literal.strip l') : Lock W (On Expr.strip) (consumeLiteral l) (consumeLiteral l') := by
  unfold consumeLiteral; lk

theorem literalTok_lock  : Lock W (Both (fun _ _ => True) Eq) (literalTok ) (literalTok ) := by
  unfold literalTok; lk

theorem literal_lock  : Lock W (On Expr.strip) (literal ) (literal ) := by
  unfold literal; lk

theorem nonSubstitutionTemplate_lock  : Lock W (On (List.map TemplatePart.strip)) (nonSubstitutionTemplate ) (nonSubstitutionTemplate ) := by
  unfold nonSubstitutionTemplate; lk

/-- A head. -/
theorem templateHeadString_lock : Lock W (fun s s' => s = s' ∧ ∃ t t' s, W.T t t' ∧ t.value = .templateHead s) templateHeadString
    templateHeadString := by
  unfold templateHeadString
  refine Lock.bind consume_lock fun t t' h => ?_
  have hv := h.value
  rw [hv]
  split
  · rename_i s hs
    rw [hs] at hv
    exact Lock.pure ⟨rfl, t, t', s, h, hv⟩
  · exact Lock.throw (SameErr.unexpectedToken h)

theorem consumeTemplateContinuation_lock (h : ∃ t t' s, W.T t t' ∧ t.value = .templateHead s) :
    Lock W (SameTok W) consumeTemplateContinuation consumeTemplateContinuation := continuation_lock h

theorem pushString_strip {ps ps' : List TemplatePart} (h : ps.map TemplatePart.strip = ps'.map TemplatePart.strip) (s : Str) :
    (pushString ps s).map TemplatePart.strip = (pushString ps' s).map TemplatePart.strip := by
  unfold pushString
  split <;> simp [h]

theorem templateLiteralParts_lock (hr : Locks W r r') (h : ∃ t t' s, W.T t t' ∧ t.value = .templateHead s) {ctx : Ctx} {ps ps' : List TemplatePart}
    (hp : ps.map TemplatePart.strip = ps'.map TemplatePart.strip) :
    Lock W (On (List.map TemplatePart.strip)) (templateLiteralParts r ctx ps) (templateLiteralParts r' ctx ps') := by
  unfold templateLiteralParts
  refine Lock.loop (V := On (List.map TemplatePart.strip)) ?_ hp
  intro ps ps' hp
  refine Lock.bind (expr_lock hr) fun e e' he => ?_
  refine Lock.bind (consumeTemplateContinuation_lock h) fun t t' ht => ?_
  rw [ht.value]
  have hq : (ps ++ [TemplatePart.expr e]).map TemplatePart.strip = (ps' ++ [TemplatePart.expr e']).map TemplatePart.strip := by
    simp only [List.map_append, List.map_cons, List.map_nil, TemplatePart.strip]
    rw [show ps.map TemplatePart.strip = ps'.map TemplatePart.strip from hp, show e.strip = e'.strip from he]
  split
  · exact Lock.pure (pushString_strip hq _)
  · exact Lock.pure (pushString_strip hq _)
  · exact Lock.throw (SameErr.unexpectedToken ht)

theorem templateLiteral_lock (hr : Locks W r r') {ctx : Ctx} : Lock W (On (List.map TemplatePart.strip)) (templateLiteral r ctx) (templateLiteral r' ctx) := by
  unfold templateLiteral
  refine Lock.bind current_lock ?_
  lk_intro
  refine Lock.ite Iff.rfl (fun _ => ?_) fun _ => ?_
  · lk
  · refine Lock.bind templateHeadString_lock ?_
    rintro s s' ⟨rfl, ht⟩
    exact templateLiteralParts_lock hr ht rfl

theorem templateLiteralExpr_lock (hr : Locks W r r') {ctx : Ctx} : Lock W (On Expr.strip) (templateLiteralExpr r ctx) (templateLiteralExpr r' ctx) := by
  unfold templateLiteralExpr; lk

theorem arrayElement_lock (hr : Locks W r r') {ctx : Ctx} : Lock W (On ArrayElement.strip) (arrayElement r ctx) (arrayElement r' ctx) := by
  unfold arrayElement; lk

theorem arrayLiteral_lock (hr : Locks W r r') {ctx : Ctx} : Lock W (On Expr.strip) (arrayLiteral r ctx) (arrayLiteral r' ctx) := by
  unfold arrayLiteral; lk

theorem namedPropertyDefinition_lock (hr : Locks W r r') {ctx : Ctx} {spanStart spanStart' : Nat} {name name' : PropName} (hname : PropName.strip name = PropName.strip name') : Lock W (On PropDef.strip) (namedPropertyDefinition r ctx spanStart name) (namedPropertyDefinition r' ctx spanStart' name') := by
  unfold namedPropertyDefinition; lk

theorem propertyDefinitionWithComputedName_lock (hr : Locks W r r') {ctx : Ctx} : Lock W (On PropDef.strip) (propertyDefinitionWithComputedName r ctx) (propertyDefinitionWithComputedName r' ctx) := by
  unfold propertyDefinitionWithComputedName; lk

theorem isObjectMethodDefinition_lock  : Lock W Eq (isObjectMethodDefinition ) (isObjectMethodDefinition ) := by
  unfold isObjectMethodDefinition; lk

theorem propertyDefinition_lock (hr : Locks W r r') {ctx : Ctx} : Lock W (On PropDef.strip) (propertyDefinition r ctx) (propertyDefinition r' ctx) := by
  unfold propertyDefinition; lk

theorem objectLiteral_lock (hr : Locks W r r') {ctx : Ctx} : Lock W (On Expr.strip) (objectLiteral r ctx) (objectLiteral r' ctx) := by
  unfold objectLiteral; lk

theorem computedProperty_lock (hr : Locks W r r') {ctx : Ctx} : Lock W (On Expr.strip) (computedProperty r ctx) (computedProperty r' ctx) := by
  unfold computedProperty; lk

theorem memberProperty_lock (hr : Locks W r r') {ctx : Ctx} : Lock W (On MemberProp.strip) (memberProperty r ctx) (memberProperty r' ctx) := by
  unfold memberProperty; lk

theorem memberExprRightSide_lock (hr : Locks W r r') {ctx : Ctx} {spanStart spanStart' : Nat} {left left' : MemberObject} (hleft : MemberObject.strip left = MemberObject.strip left') : Lock W (On Expr.strip) (memberExprRightSide r ctx spanStart left) (memberExprRightSide r' ctx spanStart' left') := by
  unfold memberExprRightSide; lk

theorem validateNoTemplate_lock {t t' : Token} (ht : SameTok W t t') : Lock W Eq (validateNoTemplate t) (validateNoTemplate t') := by
  unfold validateNoTemplate
  rw [ht.value]
  lk

theorem optionalCallExpr_lock (hr : Locks W r r') {ctx : Ctx} {spanStart spanStart' : Nat} {callee callee' : Expr} (hcallee : Expr.strip callee = Expr.strip callee') : Lock W (On Expr.strip) (optionalCallExpr r ctx spanStart callee) (optionalCallExpr r' ctx spanStart' callee') := by
  unfold optionalCallExpr; lk

theorem optionalMemberProperty_lock (hr : Locks W r r') {ctx : Ctx} : Lock W (On MemberProp.strip) (optionalMemberProperty r ctx) (optionalMemberProperty r' ctx) := by
  unfold optionalMemberProperty; lk

theorem optionalMemberExpr_lock (hr : Locks W r r') {ctx : Ctx} {spanStart spanStart' : Nat} {object object' : Expr} (hobject : Expr.strip object = Expr.strip object') : Lock W (On Expr.strip) (optionalMemberExpr r ctx spanStart object) (optionalMemberExpr r' ctx spanStart' object') := by
  unfold optionalMemberExpr; lk

theorem optionalExpr_lock (hr : Locks W r r') {ctx : Ctx} {spanStart spanStart' : Nat} {left left' : Expr} (hleft : Expr.strip left = Expr.strip left') : Lock W (On Expr.strip) (optionalExpr r ctx spanStart left) (optionalExpr r' ctx spanStart' left') := by
  unfold optionalExpr; lk

theorem thisExpr_lock  : Lock W (On Expr.strip) (thisExpr ) (thisExpr ) := by
  unfold thisExpr; lk

theorem parenthesizedExpr_lock (hr : Locks W r r') {ctx : Ctx} : Lock W (On Expr.strip) (parenthesizedExpr r ctx) (parenthesizedExpr r' ctx) := by
  unfold parenthesizedExpr; lk

theorem throwArrow_lock (hr : Locks W r r') {ctx : Ctx} : Lock W (On Expr.strip) (throwArrow r ctx) (throwArrow r' ctx) := by
  unfold throwArrow
  exact Lock.bind (arrowFunctionExpr_lock' hr) fun e e' h => Lock.throw (SameErr.arrowNotAllowed h.1 h.2)

theorem coverParenthesizedAndArrowParameters_lock (hr : Locks W r r') {ctx : Ctx} : Lock W (On Expr.strip) (coverParenthesizedAndArrowParameters r ctx) (coverParenthesizedAndArrowParameters r' ctx) := by
  unfold coverParenthesizedAndArrowParameters
  refine Lock.bind current_lock fun t t' ht => ?_
  refine Lock.bind peekMatches_lock ?_
  lk_intro
  refine Lock.ite Iff.rfl (fun _ => by lk) fun _ => ?_
  refine Lock.attemptS (parenthesizedExpr_lock hr) ?_ ?_ ?_
  · lk
  · lk
  · intro e e' h hf s s'
    rw [← isCoverRetry_eq h, hf.kind.1]
    exact ⟨h, .inr hf⟩

theorem coveredCallExpression_lock (hr : Locks W r r') {ctx : Ctx} : Lock W (On Expr.strip) (coveredCallExpression r ctx) (coveredCallExpression r' ctx) := by
  unfold coveredCallExpression; lk

theorem coverCallOrAsyncArrowHead_lock (hr : Locks W r r') {ctx : Ctx} : Lock W (On Expr.strip) (coverCallOrAsyncArrowHead r ctx) (coverCallOrAsyncArrowHead r' ctx) := by
  unfold coverCallOrAsyncArrowHead; lk

theorem classElement_lock (hr : Locks W r r') {ctx : Ctx} {hasSuper : Bool} : Lock W (On MethodDef.strip) (classElement r ctx hasSuper) (classElement r' ctx hasSuper) := by
  unfold classElement; lk

theorem classBody_lock (hr : Locks W r r') {ctx : Ctx} {hasSuper : Bool} : Lock W (On (List.map MethodDef.strip)) (classBody r ctx hasSuper) (classBody r' ctx hasSuper) := by
  unfold classBody; lk

theorem taggedTemplate_lock (hr : Locks W r r') {ctx : Ctx} {spanStart spanStart' : Nat} {callee callee' : Expr} (hcallee : Expr.strip callee = Expr.strip callee') : Lock W (On Expr.strip) (taggedTemplate r ctx spanStart callee) (taggedTemplate r' ctx spanStart' callee') := by
  unfold taggedTemplate; lk

theorem recursiveCallExpression_lock (hr : Locks W r r') {ctx : Ctx} {spanStart spanStart' : Nat} {previous previous' : Expr} (hprevious : Expr.strip previous = Expr.strip previous') : Lock W (On Expr.strip) (recursiveCallExpression r ctx spanStart previous) (recursiveCallExpression r' ctx spanStart' previous') := by
  unfold recursiveCallExpression; lk

theorem superCallExpr_lock (hr : Locks W r r') {ctx : Ctx} : Lock W (On Expr.strip) (superCallExpr r ctx) (superCallExpr r' ctx) := by
  unfold superCallExpr; lk

theorem importArgument_lock (hr : Locks W r r') {ctx : Ctx} : Lock W (Both (fun _ _ => True) (On (List.map Argument.strip))) (importArgument r ctx) (importArgument r' ctx) := by
  unfold importArgument; lk

theorem importCallExpr_lock (hr : Locks W r r') {ctx : Ctx} : Lock W (On Expr.strip) (importCallExpr r ctx) (importCallExpr r' ctx) := by
  unfold importCallExpr; lk

theorem callOrMemberExpr_lock (hr : Locks W r r') {ctx : Ctx} : Lock W (On Expr.strip) (callOrMemberExpr r ctx) (callOrMemberExpr r' ctx) := by
  unfold callOrMemberExpr; lk

theorem leftHandSideExpr_lock (hr : Locks W r r') {ctx : Ctx} : Lock W (On Expr.strip) (leftHandSideExpr r ctx) (leftHandSideExpr r' ctx) := by
  unfold leftHandSideExpr; lk

theorem classTail_lock (hr : Locks W r r') {ctx : Ctx} : Lock W (Both (On (Option.map Expr.strip)) (On (List.map MethodDef.strip))) (classTail r ctx) (classTail r' ctx) := by
  unfold classTail; lk

theorem optionalIdentUnwrap_lock {ctx : Ctx} : Lock W (On (Option.map Ident.strip)) (optionalIdentUnwrap ctx) (optionalIdentUnwrap ctx) := by
  unfold optionalIdentUnwrap
  refine Lock.bind isIdent_lock ?_
  lk_intro
  refine Lock.ite Iff.rfl (fun _ => ?_) fun _ => ?_
  · exact Lock.attempt parseIdent_lock (fun _ _ h => Lock.pure (congrArg some h)) (fun _ _ _ => Lock.panic) fun _ _ _ _ _ _ => rfl
  · lk

theorem classExpr_lock (hr : Locks W r r') {ctx : Ctx} : Lock W (On Expr.strip) (classExpr r ctx) (classExpr r' ctx) := by
  unfold classExpr; lk

theorem optionalClassIdentifier_lock {ctx : Ctx} : Lock W (On Ident.strip) (optionalClassIdentifier ctx) (optionalClassIdentifier ctx) := by
  unfold optionalClassIdentifier; lk

theorem classDecl_lock (hr : Locks W r r') {ctx : Ctx} : Lock W (On Stmt.strip) (classDecl r ctx) (classDecl r' ctx) := by
  unfold classDecl; lk

theorem rereadRegexp_lock : Lock W (On Expr.strip) rereadRegexp rereadRegexp := by
  unfold rereadRegexp; lk

theorem primaryExpr_lock (hr : Locks W r r') {ctx : Ctx} : Lock W (On Expr.strip) (primaryExpr r ctx) (primaryExpr r' ctx) := by
  unfold primaryExpr; lk

theorem superProperty_lock (hr : Locks W r r') {ctx : Ctx} : Lock W (On Expr.strip) (superProperty r ctx) (superProperty r' ctx) := by
  unfold superProperty; lk

theorem metaProperty_lock {ctx : Ctx} {object : Str} {property : Str} : Lock W (On Expr.strip) (metaProperty ctx object property) (metaProperty ctx object property) := by
  unfold metaProperty; lk

theorem newExpr_lock (hr : Locks W r r') {ctx : Ctx} : Lock W (On Expr.strip) (newExpr r ctx) (newExpr r' ctx) := by
  unfold newExpr; lk

theorem memberExprFromTerminal_lock (hr : Locks W r r') {ctx : Ctx} : Lock W (On Expr.strip) (memberExprFromTerminal r ctx) (memberExprFromTerminal r' ctx) := by
  unfold memberExprFromTerminal; lk

theorem newOrMember_lock (hr : Locks W r r') {ctx : Ctx} : Lock W (On Expr.strip) (newOrMember r ctx) (newOrMember r' ctx) := by
  unfold newOrMember; lk

end
end Layout
end Fajt
