import Verif.Proofs.LayoutLit
/-!
# Layout: expressions

For every function of the parser: two runs over the same tokens are in step.
-/
namespace Fajt
open Spec Complete
set_option linter.unusedSectionVars false
set_option linter.unusedVariables false
variable [UnicodeID]

namespace Layout
open Fajt.Parser

section
variable {W : World} {r r' : Rec}

theorem consumeUnwrap_lock  : Lock W Eq (consumeUnwrap ) (consumeUnwrap ) := by
  unfold consumeUnwrap
  exact Lock.attempt consume_lock (fun _ _ _ => Lock.pure rfl) (fun _ _ _ => Lock.panic) fun _ _ _ _ _ _ => rfl

theorem optionalOperator_lock {α : Type} {f : TokVal → Option α} : Lock W Eq (optionalOperator f) (optionalOperator f) := by
  unfold optionalOperator
  refine Lock.bind curVal?_lock ?_
  lk_intro
  split <;> lk

theorem prefixUpdateExpr_lock (hr : Locks W r r') {ctx : Ctx} {spanStart spanStart' : Nat} {op : UpdateOp} : Lock W (On Expr.strip) (prefixUpdateExpr r ctx spanStart op) (prefixUpdateExpr r' ctx spanStart' op) := by
  unfold prefixUpdateExpr; lk

theorem postfixUpdateExpr_lock {ctx : Ctx} {argument argument' : Expr} {op : UpdateOp} (hargument : Expr.strip argument = Expr.strip argument') : Lock W (On Expr.strip) (postfixUpdateExpr ctx argument op) (postfixUpdateExpr ctx argument' op) := by
  unfold postfixUpdateExpr; lk

theorem updateExpr_lock (hr : Locks W r r') {ctx : Ctx} : Lock W (On Expr.strip) (updateExpr r ctx) (updateExpr r' ctx) := by
  unfold updateExpr; lk

theorem unaryExprWithOperator_lock (hr : Locks W r r') {ctx : Ctx} {spanStart spanStart' : Nat} {op : UnaryOp} : Lock W (On Expr.strip) (unaryExprWithOperator r ctx spanStart op) (unaryExprWithOperator r' ctx spanStart' op) := by
  unfold unaryExprWithOperator; lk

theorem awaitExpr_lock (hr : Locks W r r') {ctx : Ctx} : Lock W (On Expr.strip) (awaitExpr r ctx) (awaitExpr r' ctx) := by
  unfold awaitExpr; lk

theorem awaitOrUpdateExpr_lock (hr : Locks W r r') {ctx : Ctx} : Lock W (On Expr.strip) (awaitOrUpdateExpr r ctx) (awaitOrUpdateExpr r' ctx) := by
  unfold awaitOrUpdateExpr; lk

theorem unary_lock (hr : Locks W r r') {ctx : Ctx} : Lock W (On Expr.strip) (unary r ctx) (unary r' ctx) := by
  unfold unary; lk

theorem recursiveBinaryExpr_lock {α : Type} {next next' : P Expr} {mapOp : TokVal → Option α}
    {create : Span → Expr → Expr → α → Expr} (hn : Lock W (On Expr.strip) next next')
    (hc : ∀ sp sp' x x' y y' op, x.strip = x'.strip → y.strip = y'.strip → (create sp x y op).strip = (create sp' x' y' op).strip) :
    Lock W (On Expr.strip) (recursiveBinaryExpr r next mapOp create) (recursiveBinaryExpr r' next' mapOp create) := by
  unfold recursiveBinaryExpr
  refine Lock.bind position_lock ?_
  lk_intro
  refine Lock.bind hn ?_
  intro e e' he
  refine Lock.loop (V := On Expr.strip) ?_ he
  intro e e' he
  refine Lock.bind curVal?_lock ?_
  lk_intro
  split
  · refine Lock.bind consume_lock ?_
    lk_intro
    refine Lock.bind hn ?_
    intro y y' hy
    refine Lock.bind spanFrom_lock ?_
    intro sp sp' _
    exact Lock.pure (hc _ _ _ _ _ _ _ he hy)
  · exact Lock.pure he

theorem binaryExpr_lock {next next' : P Expr} {mapOp : TokVal → Option BinaryOp} (hn : Lock W (On Expr.strip) next next') :
    Lock W (On Expr.strip) (binaryExpr r next mapOp) (binaryExpr r' next' mapOp) := by
  unfold binaryExpr
  exact recursiveBinaryExpr_lock hn fun sp sp' x x' y y' op hx hy => by simp only [Expr.strip, hx, hy]

theorem logicalExpr_lock {next next' : P Expr} {mapOp : TokVal → Option LogicalOp} (hn : Lock W (On Expr.strip) next next') :
    Lock W (On Expr.strip) (logicalExpr r next mapOp) (logicalExpr r' next' mapOp) := by
  unfold logicalExpr
  exact recursiveBinaryExpr_lock hn fun sp sp' x x' y y' op hx hy => by simp only [Expr.strip, hx, hy]

theorem exponentiationExpr_lock (hr : Locks W r r') {ctx : Ctx} : Lock W (On Expr.strip) (exponentiationExpr r ctx) (exponentiationExpr r' ctx) := by
  unfold exponentiationExpr
  exact binaryExpr_lock (hr.unary ctx)

theorem multiplicativeExpr_lock (hr : Locks W r r') {ctx : Ctx} : Lock W (On Expr.strip) (multiplicativeExpr r ctx) (multiplicativeExpr r' ctx) := by
  unfold multiplicativeExpr
  exact binaryExpr_lock (exponentiationExpr_lock hr)

theorem additiveExpr_lock (hr : Locks W r r') {ctx : Ctx} : Lock W (On Expr.strip) (additiveExpr r ctx) (additiveExpr r' ctx) := by
  unfold additiveExpr
  exact binaryExpr_lock (multiplicativeExpr_lock hr)

theorem shiftExpr_lock (hr : Locks W r r') {ctx : Ctx} : Lock W (On Expr.strip) (shiftExpr r ctx) (shiftExpr r' ctx) := by
  unfold shiftExpr
  exact binaryExpr_lock (additiveExpr_lock hr)

theorem relationalExpr_lock (hr : Locks W r r') {ctx : Ctx} : Lock W (On Expr.strip) (relationalExpr r ctx) (relationalExpr r' ctx) := by
  unfold relationalExpr
  exact binaryExpr_lock (shiftExpr_lock hr)

theorem equalityExpr_lock (hr : Locks W r r') {ctx : Ctx} : Lock W (On Expr.strip) (equalityExpr r ctx) (equalityExpr r' ctx) := by
  unfold equalityExpr
  exact binaryExpr_lock (relationalExpr_lock hr)

theorem bitwiseAndExpr_lock (hr : Locks W r r') {ctx : Ctx} : Lock W (On Expr.strip) (bitwiseAndExpr r ctx) (bitwiseAndExpr r' ctx) := by
  unfold bitwiseAndExpr
  exact binaryExpr_lock (equalityExpr_lock hr)

theorem bitwiseXorExpr_lock (hr : Locks W r r') {ctx : Ctx} : Lock W (On Expr.strip) (bitwiseXorExpr r ctx) (bitwiseXorExpr r' ctx) := by
  unfold bitwiseXorExpr
  exact binaryExpr_lock (bitwiseAndExpr_lock hr)

theorem bitwiseOrExpr_lock (hr : Locks W r r') {ctx : Ctx} : Lock W (On Expr.strip) (bitwiseOrExpr r ctx) (bitwiseOrExpr r' ctx) := by
  unfold bitwiseOrExpr
  exact binaryExpr_lock (bitwiseXorExpr_lock hr)

theorem logicalAndExpr_lock (hr : Locks W r r') {ctx : Ctx} : Lock W (On Expr.strip) (logicalAndExpr r ctx) (logicalAndExpr r' ctx) := by
  unfold logicalAndExpr
  exact logicalExpr_lock (bitwiseOrExpr_lock hr)

theorem logicalOrExpr_lock (hr : Locks W r r') {ctx : Ctx} : Lock W (On Expr.strip) (logicalOrExpr r ctx) (logicalOrExpr r' ctx) := by
  unfold logicalOrExpr
  exact logicalExpr_lock (logicalAndExpr_lock hr)

theorem shortCircuitExpr_lock (hr : Locks W r r') {ctx : Ctx} : Lock W (On Expr.strip) (shortCircuitExpr r ctx) (shortCircuitExpr r' ctx) := by
  unfold shortCircuitExpr
  exact logicalExpr_lock (logicalOrExpr_lock hr)

theorem conditionalExpr_lock (hr : Locks W r r') {ctx : Ctx} : Lock W (On Expr.strip) (conditionalExpr r ctx) (conditionalExpr r' ctx) := by
  unfold conditionalExpr; lk

theorem conditionalExprOrArrowFunction_lock (hr : Locks W r r') {ctx : Ctx} :
    LockT W (On Expr.strip) (conditionalExprOrArrowFunction r ctx) (conditionalExprOrArrowFunction r' ctx) := by
  unfold conditionalExprOrArrowFunction
  refine gets_lockT (fun s s' => position_same) fun p p' hp => Lock.lockT ?_
  refine Lock.attempt (conditionalExpr_lock hr) (fun x x' h => Lock.pure h) (fun e e' h => ?_) fun e e' h hf s s' => ?_
  case refine_2 =>
    obtain ⟨k, sp⟩ := e
    obtain ⟨k', sp'⟩ := e'
    have hk := h.1
    cases k <;> cases k' <;> simp only [PErrKind.strip, reduceCtorEq] at hk
    case arrowNotAllowed.arrowNotAllowed x x' => exact absurd rfl (hf.kind.2.2 x)
    all_goals
      dsimp only
      rw [ite_self, ite_self]
      exact ⟨h, .inr hf⟩
  obtain ⟨k, sp⟩ := e
  obtain ⟨k', sp'⟩ := e'
  have hk := h.1
  cases k <;> cases k' <;> simp only [PErrKind.strip, reduceCtorEq] at hk
  case arrowNotAllowed.arrowNotAllowed x x' =>
    refine Lock.ite (SamePos.iff (h.2 x rfl) hp) (fun _ => ?_) fun _ => Lock.throw h
    simp only [PErrKind.arrowNotAllowed.injEq] at hk
    exact Lock.pure hk
  all_goals simp only [ite_self]; exact Lock.throw h

theorem exprEnded_lock  : Lock W Eq (exprEnded ) (exprEnded ) := by
  unfold exprEnded; lk

theorem yieldExpr_lock (hr : Locks W r r') {ctx : Ctx} : Lock W (On Expr.strip) (yieldExpr r ctx) (yieldExpr r' ctx) := by
  unfold yieldExpr; lk

theorem assignmentExprAsync_lock (hr : Locks W r r') {ctx : Ctx} : Lock W (On Expr.strip) (assignmentExprAsync r ctx) (assignmentExprAsync r' ctx) := by
  unfold assignmentExprAsync; lk

theorem assignment_lock (hr : Locks W r r') {ctx : Ctx} {spanStart spanStart' : Nat} {left left' : PatternOrExpr} {op : AssignOp} (hleft : PatternOrExpr.strip left = PatternOrExpr.strip left') : Lock W (On Expr.strip) (assignment r ctx spanStart left op) (assignment r' ctx spanStart' left' op) := by
  unfold assignment; lk

theorem normalizeLeftSideAssignment_lock (hr : Locks W r r') {ctx : Ctx} {startToken startToken' : Token} {e e' : Expr} (hstartToken : SameTok W startToken startToken') (he : Expr.strip e = Expr.strip e') : Lock W (On PatternOrExpr.strip) (normalizeLeftSideAssignment r ctx startToken e) (normalizeLeftSideAssignment r' ctx startToken' e') := by
  have lit : ∀ sp l, e = .literal sp l → ∃ sp' l', e' = .literal sp' l' ∧ l.strip = l'.strip := by
    rintro sp l rfl
    cases e' <;> simp only [Expr.strip, Expr.literal.injEq, reduceCtorEq] at he
    exact ⟨_, _, rfl, he.2⟩
  have lit' : ∀ sp l, e' = .literal sp l → ∃ sp' l', e = .literal sp' l' ∧ l.strip = l'.strip := by
    rintro sp l rfl
    cases e <;> simp only [Expr.strip, Expr.literal.injEq, reduceCtorEq] at he
    exact ⟨_, _, rfl, he.2.symm⟩
  by_cases ho : ∃ sp l, e = .literal sp l
  · obtain ⟨sp, l, rfl⟩ := ho
    obtain ⟨sp', l', rfl, hl⟩ := lit sp l rfl
    cases l <;> cases l' <;> simp only [Literal.strip, reduceCtorEq] at hl
    all_goals unfold normalizeLeftSideAssignment; lk
  · have ho' : ¬ ∃ sp l, e' = .literal sp l := by
      rintro ⟨sp, l, h⟩
      obtain ⟨sp', l', h', -⟩ := lit' sp l h
      exact ho ⟨_, _, h'⟩
    have k : ∀ (e : Expr) (r : Rec) t, (¬ ∃ sp l, e = .literal sp l) →
        normalizeLeftSideAssignment r ctx t e = (do M.ofExcept (e.earlyErrorsLhs ctx); pure (.expr e)) := by
      intro e r t h
      cases e <;> first | rfl | exact absurd ⟨_, _, rfl⟩ h
    rw [k e r startToken ho, k e' r' startToken' ho']
    lk

theorem assignmentAfterExpr_lock (hr : Locks W r r') {ctx : Ctx} {spanStart spanStart' : Nat} {startToken startToken' : Token} {e e' : Expr} (hstartToken : SameTok W startToken startToken') (he : Expr.strip e = Expr.strip e') : Lock W (On Expr.strip) (assignmentAfterExpr r ctx spanStart startToken e) (assignmentAfterExpr r' ctx spanStart' startToken' e') := by
  unfold assignmentAfterExpr; lk

theorem assignmentAfterPattern_lock (hr : Locks W r r') {ctx : Ctx} {spanStart spanStart' : Nat} {p p' : AssignPattern} {err err' : PErr}
    (hp : p.strip = p'.strip) (he : SameErr W err err') :
    Lock W (On Expr.strip) (assignmentAfterPattern r ctx spanStart p err) (assignmentAfterPattern r' ctx spanStart' p' err') := by
  unfold assignmentAfterPattern
  lk

theorem assignmentExprGeneral_lock (hr : Locks W r r') {ctx : Ctx} : Lock W (On Expr.strip) (assignmentExprGeneral r ctx) (assignmentExprGeneral r' ctx) := by
  unfold assignmentExprGeneral
  refine Lock.bind position_lock fun p p' _ => current_lockT fun t t' ht => ?_
  refine LockT.attempt (conditionalExprOrArrowFunction_lock hr) (fun e e' h => assignmentAfterExpr_lock hr ht h) (fun e e' h => ?_)
    (by lk_fatal)
  have hi : e.kind.isInitializedName = e'.kind.isInitializedName := isInitializedName_eq h
  rw [hi]
  lk

theorem assignExpr_lock (hr : Locks W r r') {ctx : Ctx} : Lock W (On Expr.strip) (assignExpr r ctx) (assignExpr r' ctx) := by
  unfold assignExpr; lk

theorem destructuringAssignmentTarget_lock (hr : Locks W r r') {ctx : Ctx} : Lock W (On PatternOrExpr.strip) (destructuringAssignmentTarget r ctx) (destructuringAssignmentTarget r' ctx) := by
  unfold destructuringAssignmentTarget; lk

theorem assignmentElement_lock (hr : Locks W r r') {ctx : Ctx} : Lock W (On AssignElement.strip) (assignmentElement r ctx) (assignmentElement r' ctx) := by
  unfold assignmentElement; lk

theorem assignmentRest_lock (hr : Locks W r r') {ctx : Ctx} {close : Punct} : Lock W (On PatternOrExpr.strip) (assignmentRest r ctx close) (assignmentRest r' ctx close) := by
  unfold assignmentRest; lk

theorem arrayAssignmentPattern_lock (hr : Locks W r r') {ctx : Ctx} : Lock W (On AssignPattern.strip) (arrayAssignmentPattern r ctx) (arrayAssignmentPattern r' ctx) := by
  unfold arrayAssignmentPattern; lk

theorem namedAssignmentProp_lock (hr : Locks W r r') {ctx : Ctx} : Lock W (On AssignProp.strip) (namedAssignmentProp r ctx) (namedAssignmentProp r' ctx) := by
  unfold namedAssignmentProp
  refine Lock.bind position_lock ?_
  lk_intro
  refine Lock.bind (propertyName_lock hr) ?_
  lk_intro
  refine Lock.bind consumeAssert_lock ?_
  lk_intro
  refine Lock.bind (assignmentElement_lock hr) ?_
  rintro ⟨_, _, _⟩ ⟨_, _, _⟩ h
  simp only [On, AssignElement.strip, AssignElement.mk.injEq, stripOptExpr_eq] at h
  obtain ⟨-, h1, h2⟩ := h
  dsimp only
  lk

theorem singleNameAssignmentProp_lock (hr : Locks W r r') {ctx : Ctx} : Lock W (On AssignProp.strip) (singleNameAssignmentProp r ctx) (singleNameAssignmentProp r' ctx) := by
  unfold singleNameAssignmentProp; lk

theorem objectAssignmentPattern_lock (hr : Locks W r r') {ctx : Ctx} : Lock W (On AssignPattern.strip) (objectAssignmentPattern r ctx) (objectAssignmentPattern r' ctx) := by
  unfold objectAssignmentPattern; lk

theorem assignPattern_lock (hr : Locks W r r') {ctx : Ctx} : Lock W (On AssignPattern.strip) (assignPattern r ctx) (assignPattern r' ctx) := by
  unfold assignPattern; lk

end
end Layout
end Fajt
