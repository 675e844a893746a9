import Lean.Elab.Tactic.ElabTerm
import Verif.Proofs.LayoutAttr
import Verif.Proofs.LayoutValue
/-!
# Layout: a tactic

`lk` proves that two runs of the same parser function are in step, from the lemmas for the functions it calls.
-/
namespace Fajt
open Spec Complete
set_option linter.unusedSectionVars false
variable [UnicodeID]

namespace Layout

open Lean Elab Tactic Meta in
/-- Apply the lemma for the function at the head. -/
elab "lk_apply" : tactic => withMainContext do
  let g ← getMainGoal
  let t ← whnfR (← instantiateMVars (← g.getType))
  unless t.isAppOf ``Lock do throwError "not a Lock"
  let args := t.getAppArgs
  let m := args[args.size - 2]!.headBeta
  let .const n _ := m.getAppFn | throwError "no head"
  let .str p b := n | throwError "no name"
  let lem := if p == `Fajt.Rec then `Fajt.Layout.Locks ++ Name.mkSimple b
    else if p == `Fajt.M then `Fajt.Layout ++ Name.mkSimple (b ++ "_lock")
    else `Fajt.Layout ++ Name.mkSimple (b ++ "_lock")
  let c ← mkConstWithFreshMVarLevels lem
  let gs ← withReducible (g.apply c)
  replaceMainGoal gs

attribute [lk_simp] On Both Opt Step List.map_append List.map_cons List.map_nil Option.map_some Option.map_none Ident.strip NamedImport.strip NamedExport.strip Expr.strip Literal.strip TemplatePart.strip ArrayElement.strip PropDef.strip PropName.strip MethodDef.strip FormalParams.strip Body.strip ArrowBody.strip MemberObject.strip MemberProp.strip Argument.strip Callee.strip BindingPattern.strip BindingProp.strip BindingElement.strip PatternOrExpr.strip AssignPattern.strip AssignElement.strip AssignProp.strip Stmt.strip Block.strip VarStmt.strip VarDecl.strip CatchClause.strip SwitchCase.strip ForInit.strip ForDecl.strip ExportDecl.strip Program.strip stripArguments_eq stripArrayElements_eq stripAssignProps_eq stripBindingElements_eq stripBindingProps_eq stripExprs_eq stripMethodDefs_eq stripPropDefs_eq stripStmts_eq stripSwitchCases_eq stripTemplateParts_eq stripVarDecls_eq stripOptAssignElements_eq stripOptBindingElements_eq stripOptAssignElement_eq stripOptBindingElement_eq stripOptBindingPattern_eq stripOptBlock_eq stripOptCatchClause_eq stripOptExpr_eq stripOptForInit_eq stripOptPatternOrExpr_eq stripOptStmt_eq

/-- How results of a type are compared. -/
class Same (α : Type) where
  rel : World → α → α → Prop

@[reducible] instance : Same Ident := ⟨fun _ => On Ident.strip⟩
@[reducible] instance : Same (List Ident) := ⟨fun _ => On (List.map Ident.strip)⟩
@[reducible] instance : Same (Option Ident) := ⟨fun _ => On (Option.map Ident.strip)⟩
@[reducible] instance : Same NamedImport := ⟨fun _ => On NamedImport.strip⟩
@[reducible] instance : Same (List NamedImport) := ⟨fun _ => On (List.map NamedImport.strip)⟩
@[reducible] instance : Same (Option NamedImport) := ⟨fun _ => On (Option.map NamedImport.strip)⟩
@[reducible] instance : Same NamedExport := ⟨fun _ => On NamedExport.strip⟩
@[reducible] instance : Same (List NamedExport) := ⟨fun _ => On (List.map NamedExport.strip)⟩
@[reducible] instance : Same (Option NamedExport) := ⟨fun _ => On (Option.map NamedExport.strip)⟩
@[reducible] instance : Same Expr := ⟨fun _ => On Expr.strip⟩
@[reducible] instance : Same (List Expr) := ⟨fun _ => On (List.map Expr.strip)⟩
@[reducible] instance : Same (Option Expr) := ⟨fun _ => On (Option.map Expr.strip)⟩
@[reducible] instance : Same Literal := ⟨fun _ => On Literal.strip⟩
@[reducible] instance : Same (List Literal) := ⟨fun _ => On (List.map Literal.strip)⟩
@[reducible] instance : Same (Option Literal) := ⟨fun _ => On (Option.map Literal.strip)⟩
@[reducible] instance : Same TemplatePart := ⟨fun _ => On TemplatePart.strip⟩
@[reducible] instance : Same (List TemplatePart) := ⟨fun _ => On (List.map TemplatePart.strip)⟩
@[reducible] instance : Same (Option TemplatePart) := ⟨fun _ => On (Option.map TemplatePart.strip)⟩
@[reducible] instance : Same ArrayElement := ⟨fun _ => On ArrayElement.strip⟩
@[reducible] instance : Same (List ArrayElement) := ⟨fun _ => On (List.map ArrayElement.strip)⟩
@[reducible] instance : Same (Option ArrayElement) := ⟨fun _ => On (Option.map ArrayElement.strip)⟩
@[reducible] instance : Same PropDef := ⟨fun _ => On PropDef.strip⟩
@[reducible] instance : Same (List PropDef) := ⟨fun _ => On (List.map PropDef.strip)⟩
@[reducible] instance : Same (Option PropDef) := ⟨fun _ => On (Option.map PropDef.strip)⟩
@[reducible] instance : Same PropName := ⟨fun _ => On PropName.strip⟩
@[reducible] instance : Same (List PropName) := ⟨fun _ => On (List.map PropName.strip)⟩
@[reducible] instance : Same (Option PropName) := ⟨fun _ => On (Option.map PropName.strip)⟩
@[reducible] instance : Same MethodDef := ⟨fun _ => On MethodDef.strip⟩
@[reducible] instance : Same (List MethodDef) := ⟨fun _ => On (List.map MethodDef.strip)⟩
@[reducible] instance : Same (Option MethodDef) := ⟨fun _ => On (Option.map MethodDef.strip)⟩
@[reducible] instance : Same FormalParams := ⟨fun _ => On FormalParams.strip⟩
@[reducible] instance : Same (List FormalParams) := ⟨fun _ => On (List.map FormalParams.strip)⟩
@[reducible] instance : Same (Option FormalParams) := ⟨fun _ => On (Option.map FormalParams.strip)⟩
@[reducible] instance : Same Body := ⟨fun _ => On Body.strip⟩
@[reducible] instance : Same (List Body) := ⟨fun _ => On (List.map Body.strip)⟩
@[reducible] instance : Same (Option Body) := ⟨fun _ => On (Option.map Body.strip)⟩
@[reducible] instance : Same ArrowBody := ⟨fun _ => On ArrowBody.strip⟩
@[reducible] instance : Same (List ArrowBody) := ⟨fun _ => On (List.map ArrowBody.strip)⟩
@[reducible] instance : Same (Option ArrowBody) := ⟨fun _ => On (Option.map ArrowBody.strip)⟩
@[reducible] instance : Same MemberObject := ⟨fun _ => On MemberObject.strip⟩
@[reducible] instance : Same (List MemberObject) := ⟨fun _ => On (List.map MemberObject.strip)⟩
@[reducible] instance : Same (Option MemberObject) := ⟨fun _ => On (Option.map MemberObject.strip)⟩
@[reducible] instance : Same MemberProp := ⟨fun _ => On MemberProp.strip⟩
@[reducible] instance : Same (List MemberProp) := ⟨fun _ => On (List.map MemberProp.strip)⟩
@[reducible] instance : Same (Option MemberProp) := ⟨fun _ => On (Option.map MemberProp.strip)⟩
@[reducible] instance : Same Argument := ⟨fun _ => On Argument.strip⟩
@[reducible] instance : Same (List Argument) := ⟨fun _ => On (List.map Argument.strip)⟩
@[reducible] instance : Same (Option Argument) := ⟨fun _ => On (Option.map Argument.strip)⟩
@[reducible] instance : Same Callee := ⟨fun _ => On Callee.strip⟩
@[reducible] instance : Same (List Callee) := ⟨fun _ => On (List.map Callee.strip)⟩
@[reducible] instance : Same (Option Callee) := ⟨fun _ => On (Option.map Callee.strip)⟩
@[reducible] instance : Same BindingPattern := ⟨fun _ => On BindingPattern.strip⟩
@[reducible] instance : Same (List BindingPattern) := ⟨fun _ => On (List.map BindingPattern.strip)⟩
@[reducible] instance : Same (Option BindingPattern) := ⟨fun _ => On (Option.map BindingPattern.strip)⟩
@[reducible] instance : Same BindingProp := ⟨fun _ => On BindingProp.strip⟩
@[reducible] instance : Same (List BindingProp) := ⟨fun _ => On (List.map BindingProp.strip)⟩
@[reducible] instance : Same (Option BindingProp) := ⟨fun _ => On (Option.map BindingProp.strip)⟩
@[reducible] instance : Same BindingElement := ⟨fun _ => On BindingElement.strip⟩
@[reducible] instance : Same (List BindingElement) := ⟨fun _ => On (List.map BindingElement.strip)⟩
@[reducible] instance : Same (Option BindingElement) := ⟨fun _ => On (Option.map BindingElement.strip)⟩
@[reducible] instance : Same PatternOrExpr := ⟨fun _ => On PatternOrExpr.strip⟩
@[reducible] instance : Same (List PatternOrExpr) := ⟨fun _ => On (List.map PatternOrExpr.strip)⟩
@[reducible] instance : Same (Option PatternOrExpr) := ⟨fun _ => On (Option.map PatternOrExpr.strip)⟩
@[reducible] instance : Same AssignPattern := ⟨fun _ => On AssignPattern.strip⟩
@[reducible] instance : Same (List AssignPattern) := ⟨fun _ => On (List.map AssignPattern.strip)⟩
@[reducible] instance : Same (Option AssignPattern) := ⟨fun _ => On (Option.map AssignPattern.strip)⟩
@[reducible] instance : Same AssignElement := ⟨fun _ => On AssignElement.strip⟩
@[reducible] instance : Same (List AssignElement) := ⟨fun _ => On (List.map AssignElement.strip)⟩
@[reducible] instance : Same (Option AssignElement) := ⟨fun _ => On (Option.map AssignElement.strip)⟩
@[reducible] instance : Same AssignProp := ⟨fun _ => On AssignProp.strip⟩
@[reducible] instance : Same (List AssignProp) := ⟨fun _ => On (List.map AssignProp.strip)⟩
@[reducible] instance : Same (Option AssignProp) := ⟨fun _ => On (Option.map AssignProp.strip)⟩
@[reducible] instance : Same Stmt := ⟨fun _ => On Stmt.strip⟩
@[reducible] instance : Same (List Stmt) := ⟨fun _ => On (List.map Stmt.strip)⟩
@[reducible] instance : Same (Option Stmt) := ⟨fun _ => On (Option.map Stmt.strip)⟩
@[reducible] instance : Same Block := ⟨fun _ => On Block.strip⟩
@[reducible] instance : Same (List Block) := ⟨fun _ => On (List.map Block.strip)⟩
@[reducible] instance : Same (Option Block) := ⟨fun _ => On (Option.map Block.strip)⟩
@[reducible] instance : Same VarStmt := ⟨fun _ => On VarStmt.strip⟩
@[reducible] instance : Same (List VarStmt) := ⟨fun _ => On (List.map VarStmt.strip)⟩
@[reducible] instance : Same (Option VarStmt) := ⟨fun _ => On (Option.map VarStmt.strip)⟩
@[reducible] instance : Same VarDecl := ⟨fun _ => On VarDecl.strip⟩
@[reducible] instance : Same (List VarDecl) := ⟨fun _ => On (List.map VarDecl.strip)⟩
@[reducible] instance : Same (Option VarDecl) := ⟨fun _ => On (Option.map VarDecl.strip)⟩
@[reducible] instance : Same CatchClause := ⟨fun _ => On CatchClause.strip⟩
@[reducible] instance : Same (List CatchClause) := ⟨fun _ => On (List.map CatchClause.strip)⟩
@[reducible] instance : Same (Option CatchClause) := ⟨fun _ => On (Option.map CatchClause.strip)⟩
@[reducible] instance : Same SwitchCase := ⟨fun _ => On SwitchCase.strip⟩
@[reducible] instance : Same (List SwitchCase) := ⟨fun _ => On (List.map SwitchCase.strip)⟩
@[reducible] instance : Same (Option SwitchCase) := ⟨fun _ => On (Option.map SwitchCase.strip)⟩
@[reducible] instance : Same ForInit := ⟨fun _ => On ForInit.strip⟩
@[reducible] instance : Same (List ForInit) := ⟨fun _ => On (List.map ForInit.strip)⟩
@[reducible] instance : Same (Option ForInit) := ⟨fun _ => On (Option.map ForInit.strip)⟩
@[reducible] instance : Same ForDecl := ⟨fun _ => On ForDecl.strip⟩
@[reducible] instance : Same (List ForDecl) := ⟨fun _ => On (List.map ForDecl.strip)⟩
@[reducible] instance : Same (Option ForDecl) := ⟨fun _ => On (Option.map ForDecl.strip)⟩
@[reducible] instance : Same ExportDecl := ⟨fun _ => On ExportDecl.strip⟩
@[reducible] instance : Same (List ExportDecl) := ⟨fun _ => On (List.map ExportDecl.strip)⟩
@[reducible] instance : Same (Option ExportDecl) := ⟨fun _ => On (Option.map ExportDecl.strip)⟩
@[reducible] instance : Same Program := ⟨fun _ => On Program.strip⟩
@[reducible] instance : Same (List Program) := ⟨fun _ => On (List.map Program.strip)⟩
@[reducible] instance : Same (Option Program) := ⟨fun _ => On (Option.map Program.strip)⟩
@[reducible] instance : Same (List (Option BindingElement)) := ⟨fun _ => On (List.map (Option.map BindingElement.strip))⟩
@[reducible] instance : Same (List (Option AssignElement)) := ⟨fun _ => On (List.map (Option.map AssignElement.strip))⟩
@[reducible] instance : Same (Option (List NamedImport)) := ⟨fun _ => On (Option.map (List.map NamedImport.strip))⟩
@[reducible] instance : Same Bool := ⟨fun _ => Eq⟩
@[reducible] instance : Same Unit := ⟨fun _ => Eq⟩
@[reducible] instance : Same Str := ⟨fun _ => Eq⟩
@[reducible] instance : Same (List LitString) := ⟨fun _ => Eq⟩
@[reducible] instance : Same LitString := ⟨fun _ => Eq⟩
@[reducible] instance : Same TLit := ⟨fun _ => Eq⟩
@[reducible] instance : Same (Option UnaryOp) := ⟨fun _ => Eq⟩
@[reducible] instance : Same (Option UpdateOp) := ⟨fun _ => Eq⟩
@[reducible] instance : Same (Option AssignOp) := ⟨fun _ => Eq⟩
@[reducible] instance : Same (Option VarKind) := ⟨fun _ => Eq⟩
@[reducible] instance : Same (Option TokVal) := ⟨fun _ => Eq⟩
@[reducible] instance : Same (Option Span) := ⟨fun _ => On (Option.map fun _ => nowhere)⟩
@[reducible] instance : Same Span := ⟨fun _ _ _ => True⟩
@[reducible] instance : Same Token := ⟨SameTok⟩

@[reducible] instance {α β : Type} [Same α] [Same β] : Same (α × β) := ⟨fun W => Both (Same.rel W) (Same.rel W)⟩

theorem Lock.bindS {W : World} {α β : Type} [Same α] {U : β → β → Prop} {m m' : P α} {f f' : α → P β}
    (h1 : Lock W (Same.rel W) m m') (h2 : ∀ x x', Same.rel W x x' → Lock W U (f x) (f' x')) : Lock W U (m >>= f) (m' >>= f') :=
  Lock.bind h1 h2

theorem Lock.loopS {W : World} {α β : Type} [Same β] {U : α → α → Prop} {body body' : β → P (β ⊕ α)} {n n' : Nat} {x x' : β}
    (hx : Same.rel W x x') (h : ∀ x x', Same.rel W x x' → Lock W (Step (Same.rel W) U) (body x) (body' x')) :
    Lock W U (Fajt.loop body n x) (Fajt.loop body' n' x') := Lock.loop h hx

theorem Lock.attemptS {W : World} {α β : Type} [Same α] {U : β → β → Prop} {m m' : P α} {f f' : α → P β} {g g' : PErr → P β}
    (h1 : Lock W (Same.rel W) m m') (h2 : ∀ x x', Same.rel W x x' → Lock W U (f x) (f' x'))
    (h3 : ∀ e e', SameErr W e e' → Lock W U (g e) (g' e'))
    (h4 : ∀ e e', SameErr W e e' → Fatal W e → ∀ s s', SameRes W U (g e s) (g' e' s')) :
    Lock W U (M.attempt m f g) (M.attempt m' f' g') :=
  Lock.attempt h1 h2 h3 h4

open Lean Elab Tactic Meta in
/-- The goal starts with a quantifier. -/
elab "lk_forall" : tactic => withMainContext do
  let t ← whnfR (← instantiateMVars (← (← getMainGoal).getType))
  unless t.isForall do throwError "no quantifier"

/-- Close a goal about values: trees that differ in positions only. -/
macro "lk_val" : tactic => `(tactic| first
  | assumption
  | rfl
  | exact True.intro
  | (apply methodEarlyErrors_same <;> assumption)
  | (apply earlyErrorsLhs_same; assumption)
  | (apply earlyErrorsUpdate_same; assumption)
  | (apply earlyErrorsTarget_same; assumption)
  | (apply earlyErrorsDelete_same; assumption)
  | (simp only [lk_simp, *]; done)
  | (simp only [lk_simp, and_true, true_and, *]; done)
  | (simp only [lk_simp] at *; simp [*]; done)
  | (simp [lk_simp, *] at *; done))

/-- Close a goal about errors. -/
macro "lk_err" : tactic => `(tactic| first
  | assumption
  | exact SameErr.syn
  | (apply SameErr.unexpectedToken; assumption)
  | (apply SameErr.expectedOther; assumption)
  | (apply SameErr.expectedIdent; assumption)
  | exact SameErr.forbiddenIdent
  | exact SameErr.initializedName
  | (apply SameErr.unexpectedIdent; lk_val))

/-- Use the lemma for a function and close what is needed for it. -/
macro "lk_known" : tactic => `(tactic| (lk_apply <;> lk_val))

/-- Use that questions about the trees have the same answers. -/
macro "lk_rw" h:term : tactic => `(tactic| first
  | rw [directiveOf_eq $h] | rw [isNestedNew_eq $h] | rw [isElision_eq $h] | rw [isIdentRef_eq $h] | rw [patIsIdent_eq $h]
  | rw [identName_eq $h] | rw [isSome_eq $h] | rw [isNone_eq $h] | skip)

/-- Name the results of the first of two functions. -/
macro "lk_intro" : tactic => `(tactic| (intro x x' h; first
  | subst h
  | (have _ := SamePos.iff h h)
  | (have hv := SameTok.value h; have hf := SameTok.fol h; try simp only [hv, hf])
  | (have ho : Opt _ _ _ := h; clear ho; cases x <;> cases x' <;> first
      | exact h.elim
      | (simp only [Opt] at h; have hv := SameTok.value h; have hf := SameTok.fol h; try simp only [hv, hf])
      | skip)
  | (have he : SameErr _ _ _ := h; clear he; first | rw [isCoverRetry_eq h] | rw [isInitializedName_eq h] | skip)
  | (have ho : On _ _ _ := h; clear ho; simp only [On] at h; lk_rw h)
  | (obtain ⟨x1, x2⟩ := x; obtain ⟨y1, y2⟩ := x'; obtain ⟨h1, h2⟩ := h; dsimp only at h1 h2 ⊢; (try subst h1); (try subst h2);
     (try simp only [On] at h1); (try simp only [On] at h2))
  | skip))

/-- After an error of the lexer nothing goes on. -/
macro "lk_fatal" : tactic => `(tactic| (intro e e' h hf s s'; first
  | exact rfl
  | exact ⟨h, .inr hf⟩
  | (rw [← isInitializedName_eq h, hf.kind.2.1]
     exact ⟨h, .inr hf⟩)))

/-- One step. -/
macro "lk_step" : tactic => `(tactic| first
  | lk_known
  | (refine Lock.pure ?_; lk_val)
  | (refine Lock.throw ?_; lk_err)
  | exact Lock.panic
  | (apply Lock.bind; (focus (first | (lk_known; done) | (refine Lock.thenTryOn ?_; lk_known; done))); lk_intro)
  | (refine Lock.bindS ?_ ?_ <;> try dsimp only [Same.rel])
  | (refine Lock.loopS ?_ ?_ <;> try dsimp only [Same.rel])
  | (refine Lock.attemptS ?_ ?_ ?_ ?_; rotate_left 3; focus (lk_fatal; done); all_goals try dsimp only [Same.rel])
  | (refine Lock.ite Iff.rfl (fun _ => ?_) (fun _ => ?_))
  | (lk_forall; lk_intro)
  | split
  | lk_val)

/-- Prove that two runs are in step. -/
macro "lk" : tactic => `(tactic| (repeat' lk_step))

/-! ## Token level helpers -/

open Fajt.Parser

section
variable {W : World} {ctx : Ctx}

theorem consumeAssert_lock {v : TokVal} : Lock W (SameTok W) (consumeAssert v) (consumeAssert v) := by
  unfold consumeAssert; lk

theorem maybeConsume_lock {v : TokVal} : Lock W Eq (maybeConsume v) (maybeConsume v) := by
  unfold maybeConsume; lk

theorem parseIdent_lock : Lock W (On Ident.strip) (parseIdent ctx) (parseIdent ctx) := by
  unfold parseIdent; lk

theorem parseIdentName_lock : Lock W (On Ident.strip) parseIdentName parseIdentName := by
  unfold parseIdentName; lk

theorem consumeListDelimiter_lock {v : TokVal} : Lock W Eq (consumeListDelimiter v) (consumeListDelimiter v) := by
  unfold consumeListDelimiter; lk

theorem canInsertSemicolon_lock : Lock W Eq canInsertSemicolon canInsertSemicolon := by
  unfold canInsertSemicolon; lk

theorem stmtEnded_lock : Lock W Eq stmtEnded stmtEnded := by
  unfold stmtEnded; lk

theorem consumeOptionalSemicolon_lock : Lock W Eq consumeOptionalSemicolon consumeOptionalSemicolon := by
  unfold consumeOptionalSemicolon; lk

end
end Layout
end Fajt
