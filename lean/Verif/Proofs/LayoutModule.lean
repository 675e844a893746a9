import Verif.Proofs.LayoutStmt
/-!
# Layout: modules

For every function of the parser: two runs over the same tokens are in step.
-/
namespace Fajt
open Spec Complete
set_option linter.unusedSectionVars false
set_option linter.unusedVariables false
variable [UnicodeID]

namespace Layout
open Fajt.Parser

section
variable {W : World} {r r' : Rec}

theorem moduleSpecifier_lock  : Lock W Eq (moduleSpecifier ) (moduleSpecifier ) := by
  unfold moduleSpecifier; lk

theorem namespaceImport_lock {ctx : Ctx} : Lock W (On Ident.strip) (namespaceImport ctx) (namespaceImport ctx) := by
  unfold namespaceImport; lk

theorem importSpecifier_lock {ctx : Ctx} : Lock W (On NamedImport.strip) (importSpecifier ctx) (importSpecifier ctx) := by
  unfold importSpecifier; lk

theorem namedImports_lock (hr : Locks W r r') {ctx : Ctx} : Lock W (On (List.map NamedImport.strip)) (namedImports r ctx) (namedImports r' ctx) := by
  unfold namedImports; lk

theorem exportSpecifier_lock  : Lock W (On NamedExport.strip) (exportSpecifier ) (exportSpecifier ) := by
  unfold exportSpecifier
  refine Lock.bind position_lock ?_
  lk_intro
  refine Lock.bind parseIdentName_lock ?_
  intro n n' hn
  refine Lock.bind maybeConsume_lock ?_
  lk_intro
  refine Lock.bind (Lock.thenTryOn parseIdentName_lock) ?_
  intro a a' ha
  refine Lock.bind spanFrom_lock ?_
  intro sp sp' _
  cases a <;> cases a' <;> simp only [On, Option.map_some, Option.map_none, Option.some.injEq, reduceCtorEq] at ha hn
  · exact Lock.pure (by simp only [On, NamedExport.strip, hn, Option.map_none])
  · exact Lock.pure (by simp only [On, NamedExport.strip, hn, ha, Option.map_some])

theorem namedExports_lock (hr : Locks W r r')  : Lock W (On (List.map NamedExport.strip)) (namedExports r) (namedExports r') := by
  unfold namedExports; lk

theorem importClauseRest_lock (hr : Locks W r r') {ctx : Ctx} : Lock W (Both (On (Option.map Ident.strip)) (On (Option.map (List.map NamedImport.strip)))) (importClauseRest r ctx) (importClauseRest r' ctx) := by
  unfold importClauseRest; lk

theorem importClause_lock (hr : Locks W r r') {ctx : Ctx} : Lock W (Both (On (Option.map Ident.strip)) (Both (On (Option.map Ident.strip)) (On (Option.map (List.map NamedImport.strip))))) (importClause r ctx) (importClause r' ctx) := by
  unfold importClause; lk

theorem moduleImport_lock {spanStart spanStart' : Nat} : Lock W (On Stmt.strip) (moduleImport spanStart) (moduleImport spanStart') := by
  unfold moduleImport; lk

theorem importDeclaration_lock (hr : Locks W r r') {ctx : Ctx} : Lock W (On Stmt.strip) (importDeclaration r ctx) (importDeclaration r' ctx) := by
  unfold importDeclaration; lk

theorem namedExport_lock (hr : Locks W r r') {spanStart spanStart' : Nat} : Lock W (On Stmt.strip) (namedExport r spanStart) (namedExport r' spanStart') := by
  unfold namedExport
  refine Lock.bind (namedExports_lock hr) ?_
  lk_intro
  refine Lock.bind maybeConsume_lock ?_
  lk_intro
  refine Lock.bind (Lock.weaken (Lock.thenTry moduleSpecifier_lock) (V' := Eq) ?_) ?_
  · intro x x' h
    cases x <;> cases x' <;> simp only [Opt] at h
    · rfl
    · rw [h]
  lk

theorem namespaceExport_lock {spanStart spanStart' : Nat} : Lock W (On Stmt.strip) (namespaceExport spanStart) (namespaceExport spanStart') := by
  unfold namespaceExport; lk

theorem requiredDeclaration_lock (hr : Locks W r r') {ctx : Ctx} : Lock W (On Stmt.strip) (requiredDeclaration r ctx) (requiredDeclaration r' ctx) := by
  unfold requiredDeclaration
  refine Lock.bind (hr.declaration _) ?_
  rintro (_ | x) (_ | x') h
  · dsimp only; lk
  · cases h
  · cases h
  · simp only [On, Option.map_some, Option.some.injEq] at h
    exact Lock.pure h

theorem declarationExport_lock (hr : Locks W r r') {ctx : Ctx} {spanStart spanStart' : Nat} : Lock W (On Stmt.strip) (declarationExport r ctx spanStart) (declarationExport r' ctx spanStart') := by
  unfold declarationExport; lk

theorem declarationDefaultExport_lock (hr : Locks W r r') {ctx : Ctx} {spanStart spanStart' : Nat} : Lock W (On Stmt.strip) (declarationDefaultExport r ctx spanStart) (declarationDefaultExport r' ctx spanStart') := by
  unfold declarationDefaultExport; lk

theorem variableStatementExport_lock (hr : Locks W r r') {ctx : Ctx} {spanStart spanStart' : Nat} : Lock W (On Stmt.strip) (variableStatementExport r ctx spanStart) (variableStatementExport r' ctx spanStart') := by
  unfold variableStatementExport; lk

theorem defaultExport_lock (hr : Locks W r r') {ctx : Ctx} {spanStart spanStart' : Nat} : Lock W (On Stmt.strip) (defaultExport r ctx spanStart) (defaultExport r' ctx spanStart') := by
  unfold defaultExport; lk

theorem exportDeclaration_lock (hr : Locks W r r') {ctx : Ctx} : Lock W (On Stmt.strip) (exportDeclaration r ctx) (exportDeclaration r' ctx) := by
  unfold exportDeclaration; lk

theorem declaration_lock (hr : Locks W r r') {ctx : Ctx} : Lock W (On (Option.map Stmt.strip)) (declaration r ctx) (declaration r' ctx) := by
  unfold declaration; lk

theorem declOrStmt_lock (hr : Locks W r r') {ctx : Ctx} : Lock W (On Stmt.strip) (declOrStmt r ctx) (declOrStmt r' ctx) := by
  unfold declOrStmt
  refine Lock.bind (hr.declaration _) ?_
  rintro (_ | x) (_ | x') h
  · exact hr.stmt _
  · cases h
  · cases h
  · simp only [On, Option.map_some, Option.some.injEq] at h
    exact Lock.pure h

theorem allStmts_lock (hr : Locks W r r') {ctx : Ctx} : Lock W (On (List.map Stmt.strip)) (allStmts r ctx) (allStmts r' ctx) := by
  unfold allStmts; lk

theorem program_lock (hr : Locks W r r')  : Lock W (On Program.strip) (program r) (program r') := by
  unfold program
  refine Lock.bind position_lock ?_
  lk_intro
  refine Lock.bind (directivePrologue_lock hr) ?_
  lk_intro
  refine Lock.bind (allStmts_lock hr) ?_
  lk_intro
  refine Lock.bind spanFrom_lock ?_
  intro sp sp' _
  refine Lock.bind sourceType_lock ?_
  lk_intro
  lk

end
end Layout
end Fajt
