import Verif.Proofs.LayoutExpr
/-!
# Layout: statements

For every function of the parser: two runs over the same tokens are in step.
-/
namespace Fajt
open Spec Complete
set_option linter.unusedSectionVars false
set_option linter.unusedVariables false
variable [UnicodeID]

namespace Layout
open Fajt.Parser

section
variable {W : World} {r r' : Rec}

theorem peekMatchesLexicalBinding_lock {ctx : Ctx} : Lock W Eq (peekMatchesLexicalBinding ctx) (peekMatchesLexicalBinding ctx) := by
  unfold peekMatchesLexicalBinding; lk

theorem variableDeclaration_lock (hr : Locks W r r') {ctx : Ctx} : Lock W (On VarDecl.strip) (variableDeclaration r ctx) (variableDeclaration r' ctx) := by
  unfold variableDeclaration; lk

theorem variableDeclarations_lock (hr : Locks W r r') {ctx : Ctx} : Lock W (On (List.map VarDecl.strip)) (variableDeclarations r ctx) (variableDeclarations r' ctx) := by
  unfold variableDeclarations; lk

theorem variableStmt_lock (hr : Locks W r r') {ctx : Ctx} {kind : VarKind} : Lock W (On Stmt.strip) (variableStmt r ctx kind) (variableStmt r' ctx kind) := by
  unfold variableStmt; lk

theorem block_lock (hr : Locks W r r') {ctx : Ctx} : Lock W (On Block.strip) (block r ctx) (block r' ctx) := by
  unfold block; lk

theorem isExprStmt_lock  : Lock W Eq (isExprStmt ) (isExprStmt ) := by
  unfold isExprStmt; lk

theorem exprStmt_lock (hr : Locks W r r') {ctx : Ctx} : Lock W (On Stmt.strip) (exprStmt r ctx) (exprStmt r' ctx) := by
  unfold exprStmt; lk

theorem labeledStmt_lock (hr : Locks W r r') {ctx : Ctx} : Lock W (On Stmt.strip) (labeledStmt r ctx) (labeledStmt r' ctx) := by
  unfold labeledStmt; lk

theorem emptyStmt_lock  : Lock W (On Stmt.strip) (emptyStmt ) (emptyStmt ) := by
  unfold emptyStmt; lk

theorem breakStmt_lock {ctx : Ctx} : Lock W (On Stmt.strip) (breakStmt ctx) (breakStmt ctx) := by
  unfold breakStmt; lk

theorem continueStmt_lock {ctx : Ctx} : Lock W (On Stmt.strip) (continueStmt ctx) (continueStmt ctx) := by
  unfold continueStmt; lk

theorem returnStmt_lock (hr : Locks W r r') {ctx : Ctx} : Lock W (On Stmt.strip) (returnStmt r ctx) (returnStmt r' ctx) := by
  unfold returnStmt; lk

theorem throwCheck_lock {throwSpan throwSpan' : Span} : Lock W Eq (throwCheck throwSpan) (throwCheck throwSpan') := by
  unfold throwCheck; lk

theorem throwStmt_lock (hr : Locks W r r') {ctx : Ctx} : Lock W (On Stmt.strip) (throwStmt r ctx) (throwStmt r' ctx) := by
  unfold throwStmt; lk

theorem debuggerStmt_lock  : Lock W (On Stmt.strip) (debuggerStmt ) (debuggerStmt ) := by
  unfold debuggerStmt; lk

theorem ifStmt_lock (hr : Locks W r r') {ctx : Ctx} : Lock W (On Stmt.strip) (ifStmt r ctx) (ifStmt r' ctx) := by
  unfold ifStmt; lk

theorem withStmt_lock (hr : Locks W r r') {ctx : Ctx} : Lock W (On Stmt.strip) (withStmt r ctx) (withStmt r' ctx) := by
  unfold withStmt; lk

theorem catchParameter_lock (hr : Locks W r r') {ctx : Ctx} : Lock W (On (Option.map BindingPattern.strip)) (catchParameter r ctx) (catchParameter r' ctx) := by
  unfold catchParameter; lk

theorem catchClause_lock (hr : Locks W r r') {ctx : Ctx} : Lock W (On CatchClause.strip) (catchClause r ctx) (catchClause r' ctx) := by
  unfold catchClause; lk

theorem tryStmt_lock (hr : Locks W r r') {ctx : Ctx} : Lock W (On Stmt.strip) (tryStmt r ctx) (tryStmt r' ctx) := by
  unfold tryStmt; lk

theorem switchCaseStmtList_lock (hr : Locks W r r') {ctx : Ctx} : Lock W (On (List.map Stmt.strip)) (switchCaseStmtList r ctx) (switchCaseStmtList r' ctx) := by
  unfold switchCaseStmtList; lk

theorem caseHead_lock (hr : Locks W r r') {ctx : Ctx} : Lock W (On (Option.map Expr.strip)) (caseHead r ctx) (caseHead r' ctx) := by
  unfold caseHead; lk

theorem caseClause_lock (hr : Locks W r r') {ctx : Ctx} : Lock W (On SwitchCase.strip) (caseClause r ctx) (caseClause r' ctx) := by
  unfold caseClause; lk

theorem caseBlock_lock (hr : Locks W r r') {ctx : Ctx} : Lock W (On (List.map SwitchCase.strip)) (caseBlock r ctx) (caseBlock r' ctx) := by
  unfold caseBlock; lk

theorem switchStmt_lock (hr : Locks W r r') {ctx : Ctx} : Lock W (On Stmt.strip) (switchStmt r ctx) (switchStmt r' ctx) := by
  unfold switchStmt; lk

theorem doWhileStmt_lock (hr : Locks W r r') {ctx : Ctx} : Lock W (On Stmt.strip) (doWhileStmt r ctx) (doWhileStmt r' ctx) := by
  unfold doWhileStmt; lk

theorem whileStmt_lock (hr : Locks W r r') {ctx : Ctx} : Lock W (On Stmt.strip) (whileStmt r ctx) (whileStmt r' ctx) := by
  unfold whileStmt; lk

theorem optionalVariableKind_lock {ctx : Ctx} : Lock W Eq (optionalVariableKind ctx) (optionalVariableKind ctx) := by
  unfold optionalVariableKind; lk

theorem forInitVariableDeclaration_lock (hr : Locks W r r') {ctx : Ctx} {spanStart spanStart' : Nat} {kind : VarKind} : Lock W (On ForInit.strip) (forInitVariableDeclaration r ctx spanStart kind) (forInitVariableDeclaration r' ctx spanStart' kind) := by
  unfold forInitVariableDeclaration; lk

theorem forInit_lock (hr : Locks W r r') {ctx : Ctx} : Lock W (On ForInit.strip) (forInit r ctx) (forInit r' ctx) := by
  unfold forInit; lk

theorem optionalForInit_lock (hr : Locks W r r') {ctx : Ctx} : Lock W (On (Option.map ForInit.strip)) (optionalForInit r ctx) (optionalForInit r' ctx) := by
  unfold optionalForInit; lk

theorem forRest_lock (hr : Locks W r r') {ctx : Ctx} {spanStart spanStart' : Nat} {init init' : Option ForInit} (hinit : (Option.map ForInit.strip) init = (Option.map ForInit.strip) init') : Lock W (On Stmt.strip) (forRest r ctx spanStart init) (forRest r' ctx spanStart' init') := by
  unfold forRest; lk

theorem tryFor_lock (hr : Locks W r r') (hh : ∃ t t', W.T t t' ∧ t.value = .keyword k!"for") {ctx : Ctx} {spanStart spanStart' : Nat} {asynchronous : Bool} : Lock W (On (Option.map Stmt.strip)) (tryFor r ctx spanStart asynchronous) (tryFor r' ctx spanStart' asynchronous) := by
  unfold tryFor
  refine Lock.attemptS (optionalForInit_lock hr) ?_ ?_ fun e e' h hf => hh.elim fun t ht => ht.elim fun t' ht => absurd ht.2 (hf.1 ht.1)
  · lk
  · lk

theorem forDeclaration_lock (hr : Locks W r r') {ctx : Ctx} : Lock W (On ForDecl.strip) (forDeclaration r ctx) (forDeclaration r' ctx) := by
  unfold forDeclaration; lk

theorem forIn_lock (hr : Locks W r r') {ctx : Ctx} {spanStart spanStart' : Nat} {left left' : ForDecl} (hleft : ForDecl.strip left = ForDecl.strip left') : Lock W (On Stmt.strip) (forIn r ctx spanStart left) (forIn r' ctx spanStart' left') := by
  unfold Fajt.Parser.forIn; lk

theorem forOf_lock (hr : Locks W r r') {ctx : Ctx} {spanStart spanStart' : Nat} {left left' : ForDecl} {asynchronous : Bool} (hleft : ForDecl.strip left = ForDecl.strip left') : Lock W (On Stmt.strip) (forOf r ctx spanStart left asynchronous) (forOf r' ctx spanStart' left' asynchronous) := by
  unfold forOf; lk

theorem forInOf_lock (hr : Locks W r r') {ctx : Ctx} {spanStart spanStart' : Nat} {asynchronous : Bool} : Lock W (On Stmt.strip) (forInOf r ctx spanStart asynchronous) (forInOf r' ctx spanStart' asynchronous) := by
  unfold forInOf; lk

theorem forAfterParen_lock (hr : Locks W r r') (hh : ∃ t t', W.T t t' ∧ t.value = .keyword k!"for") {ctx : Ctx} {spanStart spanStart' : Nat} {asynchronous : Bool} : Lock W (On Stmt.strip) (forAfterParen r ctx spanStart asynchronous) (forAfterParen r' ctx spanStart' asynchronous) := by
  unfold forAfterParen
  refine Lock.bind current_lock ?_
  intro t t' ht
  refine Lock.bind (tryFor_lock hr hh) ?_
  rintro (_ | x) (_ | x') h
  · dsimp only; lk
  · cases h
  · cases h
  · simp only [On, Option.map_some, Option.some.injEq] at h
    exact Lock.pure h

/-- The keyword `for`. -/
theorem consumeFor_lock : Lock W (fun t t' => W.T t t' ∧ t.value = .keyword k!"for") (consumeAssert (.keyword k!"for"))
    (consumeAssert (.keyword k!"for")) := by
  unfold consumeAssert
  refine Lock.bind consume_lock fun t t' h => ?_
  rw [← h.value]
  refine Lock.ite Iff.rfl (fun _ => ?_) fun hv => ?_
  · exact Lock.throw (SameErr.expectedOther h)
  · exact Lock.pure ⟨h, by simpa using hv⟩

theorem forStmt_lock (hr : Locks W r r') {ctx : Ctx} : Lock W (On Stmt.strip) (forStmt r ctx) (forStmt r' ctx) := by
  unfold forStmt
  refine Lock.bind position_lock fun _ _ _ => ?_
  refine Lock.bind consumeFor_lock ?_
  rintro t t' ⟨ht, hv⟩
  have hh : ∃ t t', W.T t t' ∧ t.value = .keyword k!"for" := ⟨t, t', ht, hv⟩
  lk

theorem stmt_lock (hr : Locks W r r') {ctx : Ctx} : Lock W (On Stmt.strip) (stmt r ctx) (stmt r' ctx) := by
  unfold stmt; lk

end
end Layout
end Fajt
