import Verif.Proofs.LayoutBase
/-!
# Layout: trees without positions
-/
namespace Fajt
open Spec Complete
set_option linter.unusedSectionVars false
variable [UnicodeID]

namespace Layout

theorem stripArguments_eq (l : List Argument) : stripArguments l = l.map Argument.strip := by
  induction l with
  | nil => rfl
  | cons a l ih => simp only [stripArguments, List.map_cons, ih]

theorem stripArrayElements_eq (l : List ArrayElement) : stripArrayElements l = l.map ArrayElement.strip := by
  induction l with
  | nil => rfl
  | cons a l ih => simp only [stripArrayElements, List.map_cons, ih]

theorem stripAssignProps_eq (l : List AssignProp) : stripAssignProps l = l.map AssignProp.strip := by
  induction l with
  | nil => rfl
  | cons a l ih => simp only [stripAssignProps, List.map_cons, ih]

theorem stripBindingElements_eq (l : List BindingElement) : stripBindingElements l = l.map BindingElement.strip := by
  induction l with
  | nil => rfl
  | cons a l ih => simp only [stripBindingElements, List.map_cons, ih]

theorem stripBindingProps_eq (l : List BindingProp) : stripBindingProps l = l.map BindingProp.strip := by
  induction l with
  | nil => rfl
  | cons a l ih => simp only [stripBindingProps, List.map_cons, ih]

theorem stripExprs_eq (l : List Expr) : stripExprs l = l.map Expr.strip := by
  induction l with
  | nil => rfl
  | cons a l ih => simp only [stripExprs, List.map_cons, ih]

theorem stripMethodDefs_eq (l : List MethodDef) : stripMethodDefs l = l.map MethodDef.strip := by
  induction l with
  | nil => rfl
  | cons a l ih => simp only [stripMethodDefs, List.map_cons, ih]

theorem stripPropDefs_eq (l : List PropDef) : stripPropDefs l = l.map PropDef.strip := by
  induction l with
  | nil => rfl
  | cons a l ih => simp only [stripPropDefs, List.map_cons, ih]

theorem stripStmts_eq (l : List Stmt) : stripStmts l = l.map Stmt.strip := by
  induction l with
  | nil => rfl
  | cons a l ih => simp only [stripStmts, List.map_cons, ih]

theorem stripSwitchCases_eq (l : List SwitchCase) : stripSwitchCases l = l.map SwitchCase.strip := by
  induction l with
  | nil => rfl
  | cons a l ih => simp only [stripSwitchCases, List.map_cons, ih]

theorem stripTemplateParts_eq (l : List TemplatePart) : stripTemplateParts l = l.map TemplatePart.strip := by
  induction l with
  | nil => rfl
  | cons a l ih => simp only [stripTemplateParts, List.map_cons, ih]

theorem stripVarDecls_eq (l : List VarDecl) : stripVarDecls l = l.map VarDecl.strip := by
  induction l with
  | nil => rfl
  | cons a l ih => simp only [stripVarDecls, List.map_cons, ih]

theorem stripOptAssignElements_eq (l : List (Option AssignElement)) : stripOptAssignElements l = l.map (Option.map AssignElement.strip) := by
  induction l with
  | nil => rfl
  | cons a l ih => cases a <;> (simp only [stripOptAssignElements, List.map_cons, ih]; rfl)

theorem stripOptBindingElements_eq (l : List (Option BindingElement)) : stripOptBindingElements l = l.map (Option.map BindingElement.strip) := by
  induction l with
  | nil => rfl
  | cons a l ih => cases a <;> (simp only [stripOptBindingElements, List.map_cons, ih]; rfl)

theorem stripOptAssignElement_eq (l : Option AssignElement) : stripOptAssignElement l = l.map AssignElement.strip := by cases l <;> rfl

theorem stripOptBindingElement_eq (l : Option BindingElement) : stripOptBindingElement l = l.map BindingElement.strip := by cases l <;> rfl

theorem stripOptBindingPattern_eq (l : Option BindingPattern) : stripOptBindingPattern l = l.map BindingPattern.strip := by cases l <;> rfl

theorem stripOptBlock_eq (l : Option Block) : stripOptBlock l = l.map Block.strip := by cases l <;> rfl

theorem stripOptCatchClause_eq (l : Option CatchClause) : stripOptCatchClause l = l.map CatchClause.strip := by cases l <;> rfl

theorem stripOptExpr_eq (l : Option Expr) : stripOptExpr l = l.map Expr.strip := by cases l <;> rfl

theorem stripOptForInit_eq (l : Option ForInit) : stripOptForInit l = l.map ForInit.strip := by cases l <;> rfl

theorem stripOptPatternOrExpr_eq (l : Option PatternOrExpr) : stripOptPatternOrExpr l = l.map PatternOrExpr.strip := by cases l <;> rfl

theorem stripOptStmt_eq (l : Option Stmt) : stripOptStmt l = l.map Stmt.strip := by cases l <;> rfl

/-! ## Errors -/

section
variable {W : World} {t t' : Token}

theorem SameErr.syn {m : Str} {sp sp' : Span} : SameErr W (PErr.syn m sp) (PErr.syn m sp') := ⟨rfl, nofun⟩
theorem SameErr.unexpectedToken (h : SameTok W t t') : SameErr W (PErr.unexpectedToken t) (PErr.unexpectedToken t') :=
  ⟨by simp only [PErr.unexpectedToken, PErrKind.strip, h.value], nofun⟩
theorem SameErr.expectedOther {v : TokVal} (h : SameTok W t t') : SameErr W (PErr.expectedOther t v) (PErr.expectedOther t' v) :=
  ⟨by simp only [PErr.expectedOther, PErrKind.strip, h.value], nofun⟩
theorem SameErr.expectedIdent (h : SameTok W t t') : SameErr W (PErr.expectedIdent t) (PErr.expectedIdent t') :=
  ⟨by simp only [PErr.expectedIdent, PErrKind.strip, h.value], nofun⟩
theorem SameErr.forbiddenIdent {n : Str} {sp sp' : Span} : SameErr W (PErr.forbiddenIdent n sp) (PErr.forbiddenIdent n sp') :=
  ⟨rfl, nofun⟩
theorem SameErr.unexpectedIdent {i i' : Ident} (h : i.strip = i'.strip) : SameErr W (PErr.unexpectedIdent i) (PErr.unexpectedIdent i') :=
  ⟨by simp only [PErr.unexpectedIdent, PErrKind.strip, h], nofun⟩
theorem SameErr.initializedName {sp sp' : Span} : SameErr W (PErr.initializedName sp) (PErr.initializedName sp') := ⟨rfl, nofun⟩
theorem SameErr.arrowNotAllowed {e e' : Expr} (h : e.strip = e'.strip) (hp : SamePos W e.span.start e'.span.start) :
    SameErr W (PErr.arrowNotAllowed e) (PErr.arrowNotAllowed e') :=
  ⟨by simp only [PErr.arrowNotAllowed, PErrKind.strip, h], fun _ _ => hp⟩

/-- Checks with the same outcome. -/
def SameEx (W : World) {α : Type} (V : α → α → Prop) : Except PErr α → Except PErr α → Prop
  | .ok x, .ok y => V x y
  | .error e, .error e' => SameErr W e e'
  | _, _ => False

theorem ofExcept_lock {α : Type} {V : α → α → Prop} {x x' : Except PErr α} (h : SameEx W V x x') :
    Lock W V (M.ofExcept x) (M.ofExcept x') := by
  cases x <;> cases x' <;> simp only [SameEx] at h
  · exact Lock.throw h
  · exact Lock.pure h

theorem Lock.thenTryOn {α β : Type} {f : α → β} {b : Bool} {m m' : P α} (h : Lock W (On f) m m') :
    Lock W (On (Option.map f)) (Parser.thenTry b m) (Parser.thenTry b m') := by
  unfold Parser.thenTry
  refine Lock.ite Iff.rfl (fun _ => ?_) fun _ => ?_
  · exact Lock.bind h fun x x' (hx : f x = f x') => Lock.pure (by show some (f x) = some (f x'); rw [hx])
  · exact Lock.pure rfl

/-- The mutually recursive functions of both parsers are in step. -/
structure Locks (W : World) (r r' : Rec) : Prop where
  assignExpr : ∀ ctx, Lock W (On Expr.strip) (r.assignExpr ctx) (r'.assignExpr ctx)
  unary : ∀ ctx, Lock W (On Expr.strip) (r.unary ctx) (r'.unary ctx)
  newOrMember : ∀ ctx, Lock W (On Expr.strip) (r.newOrMember ctx) (r'.newOrMember ctx)
  bindingPattern : ∀ ctx, Lock W (On BindingPattern.strip) (r.bindingPattern ctx) (r'.bindingPattern ctx)
  assignPattern : ∀ ctx, Lock W (On AssignPattern.strip) (r.assignPattern ctx) (r'.assignPattern ctx)
  stmt : ∀ ctx, Lock W (On Stmt.strip) (r.stmt ctx) (r'.stmt ctx)
  declOrStmt : ∀ ctx, Lock W (On Stmt.strip) (r.declOrStmt ctx) (r'.declOrStmt ctx)
  declaration : ∀ ctx, Lock W (On (Option.map Stmt.strip)) (r.declaration ctx) (r'.declaration ctx)
end

end Layout
end Fajt
