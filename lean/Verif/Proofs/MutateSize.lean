import Verif.Spec.TreeMaps
import Verif.Proofs.MutateBase
/-!
# The sizes of the visited nodes
-/
namespace Fajt

/-- The size of a class element. -/
def elementSize (x : MethodDef) : Nat := 1 + x.size

theorem listSum_mem {α : Type} {f : α → Nat} {l : List α} {a : α} (h : a ∈ l) : f a ≤ listSum f l := by
  induction l with
  | nil => cases h
  | cons b l ih =>
    rcases List.mem_cons.mp h with h | h
    · subst h; exact Nat.le_add_right _ _
    · exact Nat.le_trans (ih h) (Nat.le_add_left _ _)

theorem optSum_mem {α : Type} {f : α → Nat} {o : Option α} {a : α} (h : a ∈ o) : f a ≤ optSum f o := by
  cases h; exact Nat.le_refl _

theorem listSum_le {α : Type} {f : α → Nat} {l l' : List α} (h : Plan.ListRel (fun x y => f y ≤ f x) l l') :
    listSum f l' ≤ listSum f l := by
  induction h with
  | nil => exact Nat.le_refl _
  | cons h _ ih => exact Nat.add_le_add h ih

theorem optSum_le {α : Type} {f : α → Nat} {l l' : Option α} (h : Plan.OptRel (fun x y => f y ≤ f x) l l') :
    optSum f l' ≤ optSum f l := by
  cases h with
  | none => exact Nat.le_refl _
  | some h => exact h

theorem optListSum_le {α : Type} {f : α → Nat} {l l' : Option (List α)}
    (h : Plan.OptRel (Plan.ListRel (fun x y => f y ≤ f x)) l l') : optSum (listSum f) l' ≤ optSum (listSum f) l := by
  cases h with
  | none => exact Nat.le_refl _
  | some h => exact listSum_le h

theorem listOptSum_le {α : Type} {f : α → Nat} {l l' : List (Option α)}
    (h : Plan.ListRel (Plan.OptRel (fun x y => f y ≤ f x)) l l') : listSum (optSum f) l' ≤ listSum (optSum f) l := by
  induction h with
  | nil => exact Nat.le_refl _
  | cons h _ ih => exact Nat.add_le_add (optSum_le h) ih

theorem ksize_stmt : Kind.size .stmt = Stmt.size := rfl
theorem ksize_expr : Kind.size .expr = Expr.size := rfl
theorem ksize_argument : Kind.size .argument = Argument.size := rfl
theorem ksize_namedImport : Kind.size .namedImport = NamedImport.size := rfl
theorem ksize_namedExport : Kind.size .namedExport = NamedExport.size := rfl
theorem ksize_bindingElement : Kind.size .bindingElement = BindingElement.size := rfl
theorem ksize_bindingPattern : Kind.size .bindingPattern = BindingPattern.size := rfl
theorem ksize_templatePart : Kind.size .templatePart = TemplatePart.size := rfl
theorem ksize_arrayElement : Kind.size .arrayElement = ArrayElement.size := rfl
theorem ksize_propertyDefinition : Kind.size .propertyDefinition = PropDef.size := rfl
theorem ksize_variableDeclaration : Kind.size .variableDeclaration = VarDecl.size := rfl
theorem ksize_switchCase : Kind.size .switchCase = SwitchCase.size := rfl
theorem ksize_objectBindingProp : Kind.size .objectBindingProp = BindingProp.size := rfl
theorem ksize_catchClause : Kind.size .catchClause = CatchClause.size := rfl
theorem ksize_stmtBlock : Kind.size .stmtBlock = Block.size := rfl
theorem ksize_forInit : Kind.size .forInit = ForInit.size := rfl
theorem ksize_ident : Kind.size .ident = Ident.size := rfl
theorem ksize_litString : Kind.size .litString = LitString.size := rfl
theorem ksize_classElement : Kind.size .classElement = elementSize := rfl

theorem elementSize_eq (x : MethodDef) : elementSize x = 1 + x.size := rfl
theorem sizeOptBindingElement_eq (l) : sizeOptBindingElement l = optSum BindingElement.size l := by cases l <;> simp only [sizeOptBindingElement, optSum]
theorem sizeOptBindingPattern_eq (l) : sizeOptBindingPattern l = optSum BindingPattern.size l := by cases l <;> simp only [sizeOptBindingPattern, optSum]
theorem sizeOptBlock_eq (l) : sizeOptBlock l = optSum Block.size l := by cases l <;> simp only [sizeOptBlock, optSum]
theorem sizeOptCatchClause_eq (l) : sizeOptCatchClause l = optSum CatchClause.size l := by cases l <;> simp only [sizeOptCatchClause, optSum]
theorem sizeOptExpr_eq (l) : sizeOptExpr l = optSum Expr.size l := by cases l <;> simp only [sizeOptExpr, optSum]
theorem sizeOptForInit_eq (l) : sizeOptForInit l = optSum ForInit.size l := by cases l <;> simp only [sizeOptForInit, optSum]
theorem sizeOptStmt_eq (l) : sizeOptStmt l = optSum Stmt.size l := by cases l <;> simp only [sizeOptStmt, optSum]
theorem sizeExprs_eq (l) : sizeExprs l = listSum Expr.size l := by
  induction l with
  | nil => simp only [sizeExprs, listSum]
  | cons a l ih => simp only [sizeExprs, listSum, ih]
theorem sizeArguments_eq (l) : sizeArguments l = listSum Argument.size l := by
  induction l with
  | nil => simp only [sizeArguments, listSum]
  | cons a l ih => simp only [sizeArguments, listSum, ih]
theorem sizeArrayElements_eq (l) : sizeArrayElements l = listSum ArrayElement.size l := by
  induction l with
  | nil => simp only [sizeArrayElements, listSum]
  | cons a l ih => simp only [sizeArrayElements, listSum, ih]
theorem sizeBindingElements_eq (l) : sizeBindingElements l = listSum BindingElement.size l := by
  induction l with
  | nil => simp only [sizeBindingElements, listSum]
  | cons a l ih => simp only [sizeBindingElements, listSum, ih]
theorem sizeBindingProps_eq (l) : sizeBindingProps l = listSum BindingProp.size l := by
  induction l with
  | nil => simp only [sizeBindingProps, listSum]
  | cons a l ih => simp only [sizeBindingProps, listSum, ih]
theorem sizeMethodDefs_eq (l) : sizeMethodDefs l = listSum elementSize l := by
  induction l with
  | nil => simp only [sizeMethodDefs, listSum]
  | cons a l ih => simp only [sizeMethodDefs, listSum, ih, elementSize]
theorem sizePropDefs_eq (l) : sizePropDefs l = listSum PropDef.size l := by
  induction l with
  | nil => simp only [sizePropDefs, listSum]
  | cons a l ih => simp only [sizePropDefs, listSum, ih]
theorem sizeStmts_eq (l) : sizeStmts l = listSum Stmt.size l := by
  induction l with
  | nil => simp only [sizeStmts, listSum]
  | cons a l ih => simp only [sizeStmts, listSum, ih]
theorem sizeSwitchCases_eq (l) : sizeSwitchCases l = listSum SwitchCase.size l := by
  induction l with
  | nil => simp only [sizeSwitchCases, listSum]
  | cons a l ih => simp only [sizeSwitchCases, listSum, ih]
theorem sizeTemplateParts_eq (l) : sizeTemplateParts l = listSum TemplatePart.size l := by
  induction l with
  | nil => simp only [sizeTemplateParts, listSum]
  | cons a l ih => simp only [sizeTemplateParts, listSum, ih]
theorem sizeVarDecls_eq (l) : sizeVarDecls l = listSum VarDecl.size l := by
  induction l with
  | nil => simp only [sizeVarDecls, listSum]
  | cons a l ih => simp only [sizeVarDecls, listSum, ih]
theorem sizeOptBindingElements_eq (l) : sizeOptBindingElements l = listSum (optSum BindingElement.size) l := by
  induction l with
  | nil => simp only [sizeOptBindingElements, listSum]
  | cons a l ih => simp only [sizeOptBindingElements, listSum, ih, sizeOptBindingElement_eq]

/-- Sizes by arithmetic. -/
macro "size_tac" : tactic => `(tactic| (
  simp only [Kind.size, elementSize_eq, Expr.size, Literal.size, TemplatePart.size, ArrayElement.size, PropDef.size, PropName.size, MethodDef.size, FormalParams.size, Body.size, ArrowBody.size, MemberObject.size, MemberProp.size, Argument.size, Callee.size, BindingPattern.size, BindingProp.size, BindingElement.size, PatternOrExpr.size, AssignPattern.size, Stmt.size, Block.size, VarStmt.size, VarDecl.size, CatchClause.size, SwitchCase.size, ForInit.size, ForDecl.size, ExportDecl.size,
    ksize_stmt, ksize_expr, ksize_argument, ksize_namedImport, ksize_namedExport, ksize_bindingElement, ksize_bindingPattern, ksize_templatePart, ksize_arrayElement, ksize_propertyDefinition, ksize_variableDeclaration, ksize_switchCase, ksize_objectBindingProp, ksize_catchClause, ksize_stmtBlock, ksize_forInit, ksize_ident, ksize_litString, ksize_classElement, sizeOptBindingElement_eq, sizeOptBindingPattern_eq, sizeOptBlock_eq, sizeOptCatchClause_eq, sizeOptExpr_eq, sizeOptForInit_eq, sizeOptStmt_eq, sizeExprs_eq, sizeArguments_eq, sizeArrayElements_eq, sizeBindingElements_eq, sizeBindingProps_eq, sizeMethodDefs_eq, sizePropDefs_eq, sizeStmts_eq, sizeSwitchCases_eq, sizeTemplateParts_eq, sizeVarDecls_eq, sizeOptBindingElements_eq] at * <;> omega))

/-- The visited nodes are smaller than `a`; if they become no larger, neither does `a`. -/
abbrev Shrinks (k : Kind) (a : k.Val) : Prop :=
  (plan k a).wp (fun j x => j.size x < k.size a) (fun j x y => j.size y ≤ j.size x) (fun b => k.size b ≤ k.size a)

theorem shrinks_program (a : Kind.Val .program) : Shrinks .program a := by
  obtain ⟨st, x1, x2, x3⟩ := a
  refine Plan.wp_visit (by size_tac) ?_
  rintro ⟨y1, y2, y3⟩ h1
  refine Plan.wp_ret ?_
  size_tac
theorem shrinks_expr (a : Kind.Val .expr) : Shrinks .expr a := by
  cases a with
  | «arrow» x1 x2 x3 x4 x5 =>
    refine Plan.wp_visit (by size_tac) ?_
    rintro ⟨y1, y2, y3, y4, y5⟩ h1
    refine Plan.wp_ret ?_
    size_tac
  | «assign» x1 x2 x3 x4 =>
    refine Plan.wp_visit (by size_tac) ?_
    rintro ⟨y1, y2, y3, y4⟩ h1
    refine Plan.wp_ret ?_
    size_tac
  | «await» x1 x2 =>
    refine Plan.wp_visit (by size_tac) ?_
    rintro ⟨y1, y2⟩ h1
    refine Plan.wp_ret ?_
    size_tac
  | «binary» x1 x2 x3 x4 =>
    refine Plan.wp_visit (by size_tac) ?_
    rintro ⟨y1, y2, y3, y4⟩ h1
    refine Plan.wp_ret ?_
    size_tac
  | «call» x1 x2 x3 x4 =>
    refine Plan.wp_visit (by size_tac) ?_
    rintro ⟨y1, y2, y3, y4⟩ h1
    refine Plan.wp_ret ?_
    size_tac
  | «classE» x1 x2 x3 x4 =>
    refine Plan.wp_visit (by size_tac) ?_
    rintro ⟨y1, y2, y3, y4⟩ h1
    refine Plan.wp_ret ?_
    size_tac
  | «conditional» x1 x2 x3 x4 =>
    refine Plan.wp_visit (by size_tac) ?_
    rintro ⟨y1, y2, y3, y4⟩ h1
    refine Plan.wp_ret ?_
    size_tac
  | «function» x1 x2 x3 x4 x5 x6 =>
    refine Plan.wp_visit (by size_tac) ?_
    rintro ⟨y1, y2, y3, y4, y5, y6⟩ h1
    refine Plan.wp_ret ?_
    size_tac
  | «ident» x1 =>
    refine Plan.wp_visit (by size_tac) ?_
    rintro y1 h1
    refine Plan.wp_ret ?_
    size_tac
  | «literal» x1 x2 =>
    refine Plan.wp_visit (by size_tac) ?_
    rintro ⟨y1, y2⟩ h1
    refine Plan.wp_ret ?_
    size_tac
  | «logical» x1 x2 x3 x4 =>
    refine Plan.wp_visit (by size_tac) ?_
    rintro ⟨y1, y2, y3, y4⟩ h1
    refine Plan.wp_ret ?_
    size_tac
  | «member» x1 x2 x3 =>
    refine Plan.wp_visit (by size_tac) ?_
    rintro ⟨y1, y2, y3⟩ h1
    refine Plan.wp_ret ?_
    size_tac
  | «metaProp» x1 x2 x3 =>
    refine Plan.wp_visit (by size_tac) ?_
    rintro ⟨y1, y2, y3⟩ h1
    refine Plan.wp_ret ?_
    size_tac
  | «new» x1 x2 x3 x4 =>
    refine Plan.wp_visit (by size_tac) ?_
    rintro ⟨y1, y2, y3, y4⟩ h1
    refine Plan.wp_ret ?_
    size_tac
  | «optCall» x1 x2 x3 x4 x5 =>
    refine Plan.wp_visit (by size_tac) ?_
    rintro ⟨y1, y2, y3, y4, y5⟩ h1
    refine Plan.wp_ret ?_
    size_tac
  | «optMember» x1 x2 x3 x4 =>
    refine Plan.wp_visit (by size_tac) ?_
    rintro ⟨y1, y2, y3, y4⟩ h1
    refine Plan.wp_ret ?_
    size_tac
  | «paren» x1 x2 =>
    refine Plan.wp_visit (by size_tac) ?_
    rintro ⟨y1, y2⟩ h1
    refine Plan.wp_ret ?_
    size_tac
  | «sequence» x1 x2 =>
    refine Plan.wp_visit (by size_tac) ?_
    rintro ⟨y1, y2⟩ h1
    refine Plan.wp_ret ?_
    size_tac
  | «tagged» x1 x2 x3 =>
    refine Plan.wp_visit (by size_tac) ?_
    rintro ⟨y1, y2, y3⟩ h1
    refine Plan.wp_ret ?_
    size_tac
  | «this» x1 =>
    refine Plan.wp_visit (by size_tac) ?_
    rintro y1 h1
    refine Plan.wp_ret ?_
    size_tac
  | «unary» x1 x2 x3 =>
    refine Plan.wp_visit (by size_tac) ?_
    rintro ⟨y1, y2, y3⟩ h1
    refine Plan.wp_ret ?_
    size_tac
  | «update» x1 x2 x3 x4 =>
    refine Plan.wp_visit (by size_tac) ?_
    rintro ⟨y1, y2, y3, y4⟩ h1
    refine Plan.wp_ret ?_
    size_tac
  | «yield» x1 x2 x3 =>
    refine Plan.wp_visit (by size_tac) ?_
    rintro ⟨y1, y2, y3⟩ h1
    refine Plan.wp_ret ?_
    size_tac
theorem shrinks_stmt (a : Kind.Val .stmt) : Shrinks .stmt a := by
  cases a with
  | «block» x1 =>
    refine Plan.wp_visit (by size_tac) ?_
    rintro y1 h1
    refine Plan.wp_ret ?_
    size_tac
  | «break» x1 x2 =>
    refine Plan.wp_visit (by size_tac) ?_
    rintro ⟨y1, y2⟩ h1
    refine Plan.wp_ret ?_
    size_tac
  | «continue» x1 x2 =>
    refine Plan.wp_visit (by size_tac) ?_
    rintro ⟨y1, y2⟩ h1
    refine Plan.wp_ret ?_
    size_tac
  | «debugger» x1 =>
    refine Plan.wp_visit (by size_tac) ?_
    rintro y1 h1
    refine Plan.wp_ret ?_
    size_tac
  | «doWhile» x1 x2 x3 =>
    refine Plan.wp_visit (by size_tac) ?_
    rintro ⟨y1, y2, y3⟩ h1
    refine Plan.wp_ret ?_
    size_tac
  | «empty» x1 =>
    refine Plan.wp_visit (by size_tac) ?_
    rintro y1 h1
    refine Plan.wp_ret ?_
    size_tac
  | «expr» x1 x2 =>
    refine Plan.wp_visit (by size_tac) ?_
    rintro ⟨y1, y2⟩ h1
    refine Plan.wp_ret ?_
    size_tac
  | «for» x1 x2 x3 x4 x5 =>
    refine Plan.wp_visit (by size_tac) ?_
    rintro ⟨y1, y2, y3, y4, y5⟩ h1
    refine Plan.wp_ret ?_
    size_tac
  | «forIn» x1 x2 x3 x4 =>
    refine Plan.wp_visit (by size_tac) ?_
    rintro ⟨y1, y2, y3, y4⟩ h1
    refine Plan.wp_ret ?_
    size_tac
  | «forOf» x1 x2 x3 x4 x5 =>
    refine Plan.wp_visit (by size_tac) ?_
    rintro ⟨y1, y2, y3, y4, y5⟩ h1
    refine Plan.wp_ret ?_
    size_tac
  | «if» x1 x2 x3 x4 =>
    refine Plan.wp_visit (by size_tac) ?_
    rintro ⟨y1, y2, y3, y4⟩ h1
    refine Plan.wp_ret ?_
    size_tac
  | «labeled» x1 x2 x3 =>
    refine Plan.wp_visit (by size_tac) ?_
    rintro ⟨y1, y2, y3⟩ h1
    refine Plan.wp_ret ?_
    size_tac
  | «return» x1 x2 =>
    refine Plan.wp_visit (by size_tac) ?_
    rintro ⟨y1, y2⟩ h1
    refine Plan.wp_ret ?_
    size_tac
  | «switch» x1 x2 x3 =>
    refine Plan.wp_visit (by size_tac) ?_
    rintro ⟨y1, y2, y3⟩ h1
    refine Plan.wp_ret ?_
    size_tac
  | «throw» x1 x2 =>
    refine Plan.wp_visit (by size_tac) ?_
    rintro ⟨y1, y2⟩ h1
    refine Plan.wp_ret ?_
    size_tac
  | «try» x1 x2 x3 x4 =>
    refine Plan.wp_visit (by size_tac) ?_
    rintro ⟨y1, y2, y3, y4⟩ h1
    refine Plan.wp_ret ?_
    size_tac
  | «variable» x1 =>
    refine Plan.wp_visit (by size_tac) ?_
    rintro y1 h1
    refine Plan.wp_ret ?_
    size_tac
  | «while» x1 x2 x3 =>
    refine Plan.wp_visit (by size_tac) ?_
    rintro ⟨y1, y2, y3⟩ h1
    refine Plan.wp_ret ?_
    size_tac
  | «with» x1 x2 x3 =>
    refine Plan.wp_visit (by size_tac) ?_
    rintro ⟨y1, y2, y3⟩ h1
    refine Plan.wp_ret ?_
    size_tac
  | «classDecl» x1 x2 x3 x4 =>
    refine Plan.wp_visit (by size_tac) ?_
    rintro ⟨y1, y2, y3, y4⟩ h1
    refine Plan.wp_ret ?_
    size_tac
  | «functionDecl» x1 x2 x3 x4 x5 x6 =>
    refine Plan.wp_visit (by size_tac) ?_
    rintro ⟨y1, y2, y3, y4, y5, y6⟩ h1
    refine Plan.wp_ret ?_
    size_tac
  | «importDecl» x1 x2 x3 x4 x5 =>
    refine Plan.wp_visit (by size_tac) ?_
    rintro ⟨y1, y2, y3, y4, y5⟩ h1
    refine Plan.wp_ret ?_
    size_tac
  | «exportDecl» x1 =>
    refine Plan.wp_visit (by size_tac) ?_
    rintro y1 h1
    refine Plan.wp_ret ?_
    size_tac
theorem shrinks_bindingPattern (a : Kind.Val .bindingPattern) : Shrinks .bindingPattern a := by
  cases a with
  | «ident» x1 =>
    refine Plan.wp_visit (by size_tac) ?_
    rintro y1 h1
    refine Plan.wp_ret ?_
    size_tac
  | «array» x1 x2 x3 =>
    refine Plan.wp_visit (by size_tac) ?_
    rintro ⟨y1, y2, y3⟩ h1
    refine Plan.wp_ret ?_
    size_tac
  | «object» x1 x2 x3 =>
    refine Plan.wp_visit (by size_tac) ?_
    rintro ⟨y1, y2, y3⟩ h1
    refine Plan.wp_ret ?_
    size_tac
theorem shrinks_literal (a : Kind.Val .literal) : Shrinks .literal a := by
  cases a with
  | «null» => exact Nat.le_refl _
  | «boolean» => exact Nat.le_refl _
  | «string» x1 =>
    refine Plan.wp_visit (by size_tac) ?_
    rintro y1 h1
    refine Plan.wp_ret ?_
    size_tac
  | «number» x1 =>
    refine Plan.wp_visit (by size_tac) ?_
    rintro y1 h1
    refine Plan.wp_ret ?_
    size_tac
  | «array» x1 =>
    refine Plan.wp_visit (by size_tac) ?_
    rintro y1 h1
    refine Plan.wp_ret ?_
    size_tac
  | «object» x1 =>
    refine Plan.wp_visit (by size_tac) ?_
    rintro y1 h1
    refine Plan.wp_ret ?_
    size_tac
  | «regexp» => exact Nat.le_refl _
  | «template» x1 =>
    refine Plan.wp_visit (by size_tac) ?_
    rintro y1 h1
    refine Plan.wp_ret ?_
    size_tac
theorem shrinks_litNumber (a : Kind.Val .litNumber) : Shrinks .litNumber a := by
  exact Nat.le_refl _
theorem shrinks_templatePart (a : Kind.Val .templatePart) : Shrinks .templatePart a := by
  cases a with
  | «string» => exact Nat.le_refl _
  | «expr» x1 =>
    refine Plan.wp_visit (by size_tac) ?_
    rintro y1 h1
    refine Plan.wp_ret ?_
    size_tac
theorem shrinks_objectBindingProp (a : Kind.Val .objectBindingProp) : Shrinks .objectBindingProp a := by
  cases a with
  | «single» x1 x2 x3 =>
    refine Plan.wp_visit (by size_tac) ?_
    rintro ⟨y1, y2, y3⟩ h1
    refine Plan.wp_ret ?_
    size_tac
  | «named» x1 x2 x3 =>
    refine Plan.wp_visit (by size_tac) ?_
    rintro ⟨y1, y2, y3⟩ h1
    refine Plan.wp_ret ?_
    size_tac
theorem shrinks_propertyName (a : Kind.Val .propertyName) : Shrinks .propertyName a := by
  cases a with
  | «ident» x1 =>
    refine Plan.wp_visit (by size_tac) ?_
    rintro y1 h1
    refine Plan.wp_ret ?_
    size_tac
  | «string» x1 =>
    refine Plan.wp_visit (by size_tac) ?_
    rintro y1 h1
    refine Plan.wp_ret ?_
    size_tac
  | «number» x1 =>
    refine Plan.wp_visit (by size_tac) ?_
    rintro y1 h1
    refine Plan.wp_ret ?_
    size_tac
  | «computed» x1 =>
    refine Plan.wp_visit (by size_tac) ?_
    rintro y1 h1
    refine Plan.wp_ret ?_
    size_tac
theorem shrinks_classElement (a : Kind.Val .classElement) : Shrinks .classElement a := by
  refine Plan.wp_visit (by size_tac) fun y h => ?_
  refine Plan.wp_ret ?_
  size_tac
theorem shrinks_forInit (a : Kind.Val .forInit) : Shrinks .forInit a := by
  cases a with
  | «expr» x1 =>
    refine Plan.wp_visit (by size_tac) ?_
    rintro y1 h1
    refine Plan.wp_ret ?_
    size_tac
  | «declaration» x1 =>
    refine Plan.wp_visit (by size_tac) ?_
    rintro y1 h1
    refine Plan.wp_ret ?_
    size_tac
theorem shrinks_forDeclaration (a : Kind.Val .forDeclaration) : Shrinks .forDeclaration a := by
  cases a with
  | «expr» x1 =>
    refine Plan.wp_visit (by size_tac) ?_
    rintro y1 h1
    refine Plan.wp_ret ?_
    size_tac
  | «pattern» x1 =>
    refine Plan.wp_visit (by size_tac) ?_
    rintro y1 h1
    refine Plan.wp_ret ?_
    size_tac
  | «declaration» x1 x2 x3 =>
    refine Plan.wp_visit (by size_tac) ?_
    rintro ⟨y1, y2, y3⟩ h1
    refine Plan.wp_ret ?_
    size_tac
theorem shrinks_callee (a : Kind.Val .callee) : Shrinks .callee a := by
  cases a with
  | «super» => exact Nat.le_refl _
  | «import» => exact Nat.le_refl _
  | «expr» x1 =>
    refine Plan.wp_visit (by size_tac) ?_
    rintro y1 h1
    refine Plan.wp_ret ?_
    size_tac
theorem shrinks_argument (a : Kind.Val .argument) : Shrinks .argument a := by
  cases a with
  | «expr» x1 =>
    refine Plan.wp_visit (by size_tac) ?_
    rintro y1 h1
    refine Plan.wp_ret ?_
    size_tac
  | «spread» x1 =>
    refine Plan.wp_visit (by size_tac) ?_
    rintro y1 h1
    refine Plan.wp_ret ?_
    size_tac
theorem shrinks_memberObject (a : Kind.Val .memberObject) : Shrinks .memberObject a := by
  cases a with
  | «expr» x1 =>
    refine Plan.wp_visit (by size_tac) ?_
    rintro y1 h1
    refine Plan.wp_ret ?_
    size_tac
  | «super» x1 =>
    refine Plan.wp_visit (by size_tac) ?_
    rintro y1 h1
    refine Plan.wp_ret ?_
    size_tac
theorem shrinks_super (a : Kind.Val .super) : Shrinks .super a := by
  exact Nat.le_refl _
theorem shrinks_memberProperty (a : Kind.Val .memberProperty) : Shrinks .memberProperty a := by
  cases a with
  | «ident» x1 =>
    refine Plan.wp_visit (by size_tac) ?_
    rintro y1 h1
    refine Plan.wp_ret ?_
    size_tac
  | «expr» x1 =>
    refine Plan.wp_visit (by size_tac) ?_
    rintro y1 h1
    refine Plan.wp_ret ?_
    size_tac
theorem shrinks_arrayElement (a : Kind.Val .arrayElement) : Shrinks .arrayElement a := by
  cases a with
  | «elision» => exact Nat.le_refl _
  | «expr» x1 =>
    refine Plan.wp_visit (by size_tac) ?_
    rintro y1 h1
    refine Plan.wp_ret ?_
    size_tac
  | «spread» x1 =>
    refine Plan.wp_visit (by size_tac) ?_
    rintro y1 h1
    refine Plan.wp_ret ?_
    size_tac
theorem shrinks_arrowFunctionBody (a : Kind.Val .arrowFunctionBody) : Shrinks .arrowFunctionBody a := by
  cases a with
  | «expr» x1 =>
    refine Plan.wp_visit (by size_tac) ?_
    rintro y1 h1
    refine Plan.wp_ret ?_
    size_tac
  | «body» x1 =>
    refine Plan.wp_visit (by size_tac) ?_
    rintro y1 h1
    refine Plan.wp_ret ?_
    size_tac
theorem shrinks_propertyDefinition (a : Kind.Val .propertyDefinition) : Shrinks .propertyDefinition a := by
  cases a with
  | «identRef» x1 =>
    refine Plan.wp_visit (by size_tac) ?_
    rintro y1 h1
    refine Plan.wp_ret ?_
    size_tac
  | «spread» x1 =>
    refine Plan.wp_visit (by size_tac) ?_
    rintro y1 h1
    refine Plan.wp_ret ?_
    size_tac
  | «named» x1 x2 x3 =>
    refine Plan.wp_visit (by size_tac) ?_
    rintro ⟨y1, y2, y3⟩ h1
    refine Plan.wp_ret ?_
    size_tac
  | «method» x1 =>
    refine Plan.wp_visit (by size_tac) ?_
    rintro y1 h1
    refine Plan.wp_ret ?_
    size_tac
theorem shrinks_binaryOperator (a : Kind.Val .binaryOperator) : Shrinks .binaryOperator a := by
  exact Nat.le_refl _
theorem shrinks_logicalOperator (a : Kind.Val .logicalOperator) : Shrinks .logicalOperator a := by
  exact Nat.le_refl _
theorem shrinks_assignmentOperator (a : Kind.Val .assignmentOperator) : Shrinks .assignmentOperator a := by
  exact Nat.le_refl _
theorem shrinks_unaryOperator (a : Kind.Val .unaryOperator) : Shrinks .unaryOperator a := by
  exact Nat.le_refl _
theorem shrinks_updateOperator (a : Kind.Val .updateOperator) : Shrinks .updateOperator a := by
  exact Nat.le_refl _
theorem shrinks_declExport (a : Kind.Val .declExport) : Shrinks .declExport a := by
  cases a with
  | «decl» x1 x2 =>
    refine Plan.wp_visit (by size_tac) ?_
    rintro ⟨y1, y2⟩ h1
    refine Plan.wp_ret ?_
    size_tac
  | «defaultExpr» x1 x2 =>
    refine Plan.wp_visit (by size_tac) ?_
    rintro ⟨y1, y2⟩ h1
    refine Plan.wp_ret ?_
    size_tac
  | «defaultDecl» x1 x2 =>
    refine Plan.wp_visit (by size_tac) ?_
    rintro ⟨y1, y2⟩ h1
    refine Plan.wp_ret ?_
    size_tac
  | «named» x1 x2 x3 =>
    refine Plan.wp_visit (by size_tac) ?_
    rintro ⟨y1, y2, y3⟩ h1
    refine Plan.wp_ret ?_
    size_tac
  | «namespace» x1 x2 x3 =>
    refine Plan.wp_visit (by size_tac) ?_
    rintro ⟨y1, y2, y3⟩ h1
    refine Plan.wp_ret ?_
    size_tac
theorem shrinks_patternOrExpr (a : Kind.Val .patternOrExpr) : Shrinks .patternOrExpr a := by
  cases a with
  | «expr» x1 =>
    refine Plan.wp_visit (by size_tac) ?_
    rintro y1 h1
    refine Plan.wp_ret ?_
    size_tac
  | «pattern» x1 =>
    refine Plan.wp_visit (by size_tac) ?_
    rintro y1 h1
    refine Plan.wp_ret ?_
    size_tac
theorem shrinks_assignmentPattern (a : Kind.Val .assignmentPattern) : Shrinks .assignmentPattern a := by
  exact Nat.le_refl _
theorem shrinks_declFunction (a : Kind.Val .declFunction) : Shrinks .declFunction a := by
  obtain ⟨x1, x2, x3, x4, x5, x6⟩ := a
  simp only [Shrinks, plan]
  refine Plan.wp_visit (by size_tac) fun y1 h1 => ?_
  refine Plan.wp_visit (by size_tac) fun y2 h2 => ?_
  refine Plan.wp_visit (by size_tac) fun y3 h3 => ?_
  refine Plan.wp_ret ?_
  size_tac
theorem shrinks_declClass (a : Kind.Val .declClass) : Shrinks .declClass a := by
  obtain ⟨x1, x2, x3, x4⟩ := a
  simp only [Shrinks, plan]
  refine Plan.wp_visit (by size_tac) fun y1 h1 => ?_
  refine Plan.wp_opt (fun y hy => by have := optSum_mem (f := Kind.size .expr) hy; size_tac) fun y2 h => ?_
  have h2 := optSum_le h
  clear h
  refine Plan.wp_list (fun y hy => by have := listSum_mem (f := Kind.size .classElement) hy; size_tac) fun y3 h => ?_
  have h3 := listSum_le h
  clear h
  refine Plan.wp_ret ?_
  size_tac
theorem shrinks_declImport (a : Kind.Val .declImport) : Shrinks .declImport a := by
  obtain ⟨x1, x2, x3, x4, x5⟩ := a
  simp only [Shrinks, plan]
  refine Plan.wp_opt (fun y hy => by have := optSum_mem (f := Kind.size .ident) hy; size_tac) fun y1 h => ?_
  have h1 := optSum_le h
  clear h
  refine Plan.wp_optList (fun z hz y hy => by have := optSum_mem (f := listSum (Kind.size .namedImport)) hz; have := listSum_mem (f := Kind.size .namedImport) hy; size_tac) fun y2 h => ?_
  have h2 := optListSum_le h
  clear h
  refine Plan.wp_optList (fun z hz y hy => by have := optSum_mem (f := listSum (Kind.size .namedImport)) hz; have := listSum_mem (f := Kind.size .namedImport) hy; size_tac) fun y3 h => ?_
  have h3 := optListSum_le h
  clear h
  refine Plan.wp_visit (by size_tac) fun y4 h4 => ?_
  refine Plan.wp_ret ?_
  size_tac
theorem shrinks_stmtExpr (a : Kind.Val .stmtExpr) : Shrinks .stmtExpr a := by
  obtain ⟨x1, x2⟩ := a
  simp only [Shrinks, plan]
  refine Plan.wp_visit (by size_tac) fun y1 h1 => ?_
  refine Plan.wp_ret ?_
  size_tac
theorem shrinks_stmtBlock (a : Kind.Val .stmtBlock) : Shrinks .stmtBlock a := by
  obtain ⟨x1, x2⟩ := a
  simp only [Shrinks, plan]
  refine Plan.wp_list (fun y hy => by have := listSum_mem (f := Kind.size .stmt) hy; size_tac) fun y1 h => ?_
  have h1 := listSum_le h
  clear h
  refine Plan.wp_ret ?_
  size_tac
theorem shrinks_exprBinary (a : Kind.Val .exprBinary) : Shrinks .exprBinary a := by
  obtain ⟨x1, x2, x3, x4⟩ := a
  simp only [Shrinks, plan]
  refine Plan.wp_visit (by size_tac) fun y1 h1 => ?_
  refine Plan.wp_visit (by size_tac) fun y2 h2 => ?_
  refine Plan.wp_visit (by size_tac) fun y3 h3 => ?_
  refine Plan.wp_ret ?_
  size_tac
theorem shrinks_exprLogical (a : Kind.Val .exprLogical) : Shrinks .exprLogical a := by
  obtain ⟨x1, x2, x3, x4⟩ := a
  simp only [Shrinks, plan]
  refine Plan.wp_visit (by size_tac) fun y1 h1 => ?_
  refine Plan.wp_visit (by size_tac) fun y2 h2 => ?_
  refine Plan.wp_visit (by size_tac) fun y3 h3 => ?_
  refine Plan.wp_ret ?_
  size_tac
theorem shrinks_exprUnary (a : Kind.Val .exprUnary) : Shrinks .exprUnary a := by
  obtain ⟨x1, x2, x3⟩ := a
  simp only [Shrinks, plan]
  refine Plan.wp_visit (by size_tac) fun y1 h1 => ?_
  refine Plan.wp_visit (by size_tac) fun y2 h2 => ?_
  refine Plan.wp_ret ?_
  size_tac
theorem shrinks_exprCall (a : Kind.Val .exprCall) : Shrinks .exprCall a := by
  obtain ⟨x1, x2, x3, x4⟩ := a
  simp only [Shrinks, plan]
  refine Plan.wp_visit (by size_tac) fun y1 h1 => ?_
  refine Plan.wp_list (fun y hy => by have := listSum_mem (f := Kind.size .argument) hy; size_tac) fun y2 h => ?_
  have h2 := listSum_le h
  clear h
  refine Plan.wp_ret ?_
  size_tac
theorem shrinks_exprMember (a : Kind.Val .exprMember) : Shrinks .exprMember a := by
  obtain ⟨x1, x2, x3⟩ := a
  simp only [Shrinks, plan]
  refine Plan.wp_visit (by size_tac) fun y1 h1 => ?_
  refine Plan.wp_visit (by size_tac) fun y2 h2 => ?_
  refine Plan.wp_ret ?_
  size_tac
theorem shrinks_exprOptionalMember (a : Kind.Val .exprOptionalMember) : Shrinks .exprOptionalMember a := by
  obtain ⟨x1, x2, x3, x4⟩ := a
  simp only [Shrinks, plan]
  refine Plan.wp_visit (by size_tac) fun y1 h1 => ?_
  refine Plan.wp_visit (by size_tac) fun y2 h2 => ?_
  refine Plan.wp_ret ?_
  size_tac
theorem shrinks_exprOptionalCall (a : Kind.Val .exprOptionalCall) : Shrinks .exprOptionalCall a := by
  obtain ⟨x1, x2, x3, x4, x5⟩ := a
  simp only [Shrinks, plan]
  refine Plan.wp_visit (by size_tac) fun y1 h1 => ?_
  refine Plan.wp_list (fun y hy => by have := listSum_mem (f := Kind.size .argument) hy; size_tac) fun y2 h => ?_
  have h2 := listSum_le h
  clear h
  refine Plan.wp_ret ?_
  size_tac
theorem shrinks_exprParenthesized (a : Kind.Val .exprParenthesized) : Shrinks .exprParenthesized a := by
  obtain ⟨x1, x2⟩ := a
  simp only [Shrinks, plan]
  refine Plan.wp_visit (by size_tac) fun y1 h1 => ?_
  refine Plan.wp_ret ?_
  size_tac
theorem shrinks_exprLiteral (a : Kind.Val .exprLiteral) : Shrinks .exprLiteral a := by
  obtain ⟨x1, x2⟩ := a
  simp only [Shrinks, plan]
  refine Plan.wp_visit (by size_tac) fun y1 h1 => ?_
  refine Plan.wp_ret ?_
  size_tac
theorem shrinks_exprAssignment (a : Kind.Val .exprAssignment) : Shrinks .exprAssignment a := by
  obtain ⟨x1, x2, x3, x4⟩ := a
  simp only [Shrinks, plan]
  refine Plan.wp_visit (by size_tac) fun y1 h1 => ?_
  refine Plan.wp_visit (by size_tac) fun y2 h2 => ?_
  refine Plan.wp_visit (by size_tac) fun y3 h3 => ?_
  refine Plan.wp_ret ?_
  size_tac
theorem shrinks_exprYield (a : Kind.Val .exprYield) : Shrinks .exprYield a := by
  obtain ⟨x1, x2, x3⟩ := a
  simp only [Shrinks, plan]
  refine Plan.wp_opt (fun y hy => by have := optSum_mem (f := Kind.size .expr) hy; size_tac) fun y1 h => ?_
  have h1 := optSum_le h
  clear h
  refine Plan.wp_ret ?_
  size_tac
theorem shrinks_exprConditional (a : Kind.Val .exprConditional) : Shrinks .exprConditional a := by
  obtain ⟨x1, x2, x3, x4⟩ := a
  simp only [Shrinks, plan]
  refine Plan.wp_visit (by size_tac) fun y1 h1 => ?_
  refine Plan.wp_visit (by size_tac) fun y2 h2 => ?_
  refine Plan.wp_visit (by size_tac) fun y3 h3 => ?_
  refine Plan.wp_ret ?_
  size_tac
theorem shrinks_exprUpdate (a : Kind.Val .exprUpdate) : Shrinks .exprUpdate a := by
  obtain ⟨x1, x2, x3, x4⟩ := a
  simp only [Shrinks, plan]
  refine Plan.wp_visit (by size_tac) fun y1 h1 => ?_
  refine Plan.wp_visit (by size_tac) fun y2 h2 => ?_
  refine Plan.wp_ret ?_
  size_tac
theorem shrinks_exprSequence (a : Kind.Val .exprSequence) : Shrinks .exprSequence a := by
  obtain ⟨x1, x2⟩ := a
  simp only [Shrinks, plan]
  refine Plan.wp_list (fun y hy => by have := listSum_mem (f := Kind.size .expr) hy; size_tac) fun y1 h => ?_
  have h1 := listSum_le h
  clear h
  refine Plan.wp_ret ?_
  size_tac
theorem shrinks_exprThis (a : Kind.Val .exprThis) : Shrinks .exprThis a := by
  exact Nat.le_refl _
theorem shrinks_exprFunction (a : Kind.Val .exprFunction) : Shrinks .exprFunction a := by
  obtain ⟨x1, x2, x3, x4, x5, x6⟩ := a
  simp only [Shrinks, plan]
  refine Plan.wp_opt (fun y hy => by have := optSum_mem (f := Kind.size .ident) hy; size_tac) fun y1 h => ?_
  have h1 := optSum_le h
  clear h
  refine Plan.wp_visit (by size_tac) fun y2 h2 => ?_
  refine Plan.wp_visit (by size_tac) fun y3 h3 => ?_
  refine Plan.wp_ret ?_
  size_tac
theorem shrinks_exprNew (a : Kind.Val .exprNew) : Shrinks .exprNew a := by
  obtain ⟨x1, x2, x3, x4⟩ := a
  simp only [Shrinks, plan]
  refine Plan.wp_visit (by size_tac) fun y1 h1 => ?_
  refine Plan.wp_list (fun y hy => by have := listSum_mem (f := Kind.size .argument) hy; size_tac) fun y2 h => ?_
  have h2 := listSum_le h
  clear h
  refine Plan.wp_ret ?_
  size_tac
theorem shrinks_exprArrowFunction (a : Kind.Val .exprArrowFunction) : Shrinks .exprArrowFunction a := by
  obtain ⟨x1, x2, x3, x4, x5⟩ := a
  simp only [Shrinks, plan]
  refine Plan.wp_visit (by size_tac) fun y1 h1 => ?_
  refine Plan.wp_visit (by size_tac) fun y2 h2 => ?_
  refine Plan.wp_ret ?_
  size_tac
theorem shrinks_exprAwait (a : Kind.Val .exprAwait) : Shrinks .exprAwait a := by
  obtain ⟨x1, x2⟩ := a
  simp only [Shrinks, plan]
  refine Plan.wp_visit (by size_tac) fun y1 h1 => ?_
  refine Plan.wp_ret ?_
  size_tac
theorem shrinks_exprMetaProperty (a : Kind.Val .exprMetaProperty) : Shrinks .exprMetaProperty a := by
  obtain ⟨x1, x2, x3⟩ := a
  simp only [Shrinks, plan]
  refine Plan.wp_visit (by size_tac) fun y1 h1 => ?_
  refine Plan.wp_visit (by size_tac) fun y2 h2 => ?_
  refine Plan.wp_ret ?_
  size_tac
theorem shrinks_exprClass (a : Kind.Val .exprClass) : Shrinks .exprClass a := by
  obtain ⟨x1, x2, x3, x4⟩ := a
  simp only [Shrinks, plan]
  refine Plan.wp_opt (fun y hy => by have := optSum_mem (f := Kind.size .ident) hy; size_tac) fun y1 h => ?_
  have h1 := optSum_le h
  clear h
  refine Plan.wp_opt (fun y hy => by have := optSum_mem (f := Kind.size .expr) hy; size_tac) fun y2 h => ?_
  have h2 := optSum_le h
  clear h
  refine Plan.wp_list (fun y hy => by have := listSum_mem (f := Kind.size .classElement) hy; size_tac) fun y3 h => ?_
  have h3 := listSum_le h
  clear h
  refine Plan.wp_ret ?_
  size_tac
theorem shrinks_stmtReturn (a : Kind.Val .stmtReturn) : Shrinks .stmtReturn a := by
  obtain ⟨x1, x2⟩ := a
  simp only [Shrinks, plan]
  refine Plan.wp_opt (fun y hy => by have := optSum_mem (f := Kind.size .expr) hy; size_tac) fun y1 h => ?_
  have h1 := optSum_le h
  clear h
  refine Plan.wp_ret ?_
  size_tac
theorem shrinks_stmtVariable (a : Kind.Val .stmtVariable) : Shrinks .stmtVariable a := by
  obtain ⟨x1, x2, x3⟩ := a
  simp only [Shrinks, plan]
  refine Plan.wp_list (fun y hy => by have := listSum_mem (f := Kind.size .variableDeclaration) hy; size_tac) fun y1 h => ?_
  have h1 := listSum_le h
  clear h
  refine Plan.wp_ret ?_
  size_tac
theorem shrinks_stmtEmpty (a : Kind.Val .stmtEmpty) : Shrinks .stmtEmpty a := by
  exact Nat.le_refl _
theorem shrinks_stmtTry (a : Kind.Val .stmtTry) : Shrinks .stmtTry a := by
  obtain ⟨x1, x2, x3, x4⟩ := a
  simp only [Shrinks, plan]
  refine Plan.wp_visit (by size_tac) fun y1 h1 => ?_
  refine Plan.wp_opt (fun y hy => by have := optSum_mem (f := Kind.size .catchClause) hy; size_tac) fun y2 h => ?_
  have h2 := optSum_le h
  clear h
  refine Plan.wp_opt (fun y hy => by have := optSum_mem (f := Kind.size .stmtBlock) hy; size_tac) fun y3 h => ?_
  have h3 := optSum_le h
  clear h
  refine Plan.wp_ret ?_
  size_tac
theorem shrinks_stmtDebugger (a : Kind.Val .stmtDebugger) : Shrinks .stmtDebugger a := by
  exact Nat.le_refl _
theorem shrinks_stmtThrow (a : Kind.Val .stmtThrow) : Shrinks .stmtThrow a := by
  obtain ⟨x1, x2⟩ := a
  simp only [Shrinks, plan]
  refine Plan.wp_visit (by size_tac) fun y1 h1 => ?_
  refine Plan.wp_ret ?_
  size_tac
theorem shrinks_stmtLabeled (a : Kind.Val .stmtLabeled) : Shrinks .stmtLabeled a := by
  obtain ⟨x1, x2, x3⟩ := a
  simp only [Shrinks, plan]
  refine Plan.wp_visit (by size_tac) fun y1 h1 => ?_
  refine Plan.wp_visit (by size_tac) fun y2 h2 => ?_
  refine Plan.wp_ret ?_
  size_tac
theorem shrinks_stmtWith (a : Kind.Val .stmtWith) : Shrinks .stmtWith a := by
  obtain ⟨x1, x2, x3⟩ := a
  simp only [Shrinks, plan]
  refine Plan.wp_visit (by size_tac) fun y1 h1 => ?_
  refine Plan.wp_visit (by size_tac) fun y2 h2 => ?_
  refine Plan.wp_ret ?_
  size_tac
theorem shrinks_stmtContinue (a : Kind.Val .stmtContinue) : Shrinks .stmtContinue a := by
  obtain ⟨x1, x2⟩ := a
  simp only [Shrinks, plan]
  refine Plan.wp_opt (fun y hy => by have := optSum_mem (f := Kind.size .ident) hy; size_tac) fun y1 h => ?_
  have h1 := optSum_le h
  clear h
  refine Plan.wp_ret ?_
  size_tac
theorem shrinks_stmtBreak (a : Kind.Val .stmtBreak) : Shrinks .stmtBreak a := by
  obtain ⟨x1, x2⟩ := a
  simp only [Shrinks, plan]
  refine Plan.wp_opt (fun y hy => by have := optSum_mem (f := Kind.size .ident) hy; size_tac) fun y1 h => ?_
  have h1 := optSum_le h
  clear h
  refine Plan.wp_ret ?_
  size_tac
theorem shrinks_stmtSwitch (a : Kind.Val .stmtSwitch) : Shrinks .stmtSwitch a := by
  obtain ⟨x1, x2, x3⟩ := a
  simp only [Shrinks, plan]
  refine Plan.wp_visit (by size_tac) fun y1 h1 => ?_
  refine Plan.wp_list (fun y hy => by have := listSum_mem (f := Kind.size .switchCase) hy; size_tac) fun y2 h => ?_
  have h2 := listSum_le h
  clear h
  refine Plan.wp_ret ?_
  size_tac
theorem shrinks_stmtIf (a : Kind.Val .stmtIf) : Shrinks .stmtIf a := by
  obtain ⟨x1, x2, x3, x4⟩ := a
  simp only [Shrinks, plan]
  refine Plan.wp_visit (by size_tac) fun y1 h1 => ?_
  refine Plan.wp_visit (by size_tac) fun y2 h2 => ?_
  refine Plan.wp_opt (fun y hy => by have := optSum_mem (f := Kind.size .stmt) hy; size_tac) fun y3 h => ?_
  have h3 := optSum_le h
  clear h
  refine Plan.wp_ret ?_
  size_tac
theorem shrinks_stmtFor (a : Kind.Val .stmtFor) : Shrinks .stmtFor a := by
  obtain ⟨x1, x2, x3, x4, x5⟩ := a
  simp only [Shrinks, plan]
  refine Plan.wp_opt (fun y hy => by have := optSum_mem (f := Kind.size .forInit) hy; size_tac) fun y1 h => ?_
  have h1 := optSum_le h
  clear h
  refine Plan.wp_opt (fun y hy => by have := optSum_mem (f := Kind.size .expr) hy; size_tac) fun y2 h => ?_
  have h2 := optSum_le h
  clear h
  refine Plan.wp_opt (fun y hy => by have := optSum_mem (f := Kind.size .expr) hy; size_tac) fun y3 h => ?_
  have h3 := optSum_le h
  clear h
  refine Plan.wp_visit (by size_tac) fun y4 h4 => ?_
  refine Plan.wp_ret ?_
  size_tac
theorem shrinks_stmtForOf (a : Kind.Val .stmtForOf) : Shrinks .stmtForOf a := by
  obtain ⟨x1, x2, x3, x4, x5⟩ := a
  simp only [Shrinks, plan]
  refine Plan.wp_visit (by size_tac) fun y1 h1 => ?_
  refine Plan.wp_visit (by size_tac) fun y2 h2 => ?_
  refine Plan.wp_visit (by size_tac) fun y3 h3 => ?_
  refine Plan.wp_ret ?_
  size_tac
theorem shrinks_stmtForIn (a : Kind.Val .stmtForIn) : Shrinks .stmtForIn a := by
  obtain ⟨x1, x2, x3, x4⟩ := a
  simp only [Shrinks, plan]
  refine Plan.wp_visit (by size_tac) fun y1 h1 => ?_
  refine Plan.wp_visit (by size_tac) fun y2 h2 => ?_
  refine Plan.wp_visit (by size_tac) fun y3 h3 => ?_
  refine Plan.wp_ret ?_
  size_tac
theorem shrinks_stmtWhile (a : Kind.Val .stmtWhile) : Shrinks .stmtWhile a := by
  obtain ⟨x1, x2, x3⟩ := a
  simp only [Shrinks, plan]
  refine Plan.wp_visit (by size_tac) fun y1 h1 => ?_
  refine Plan.wp_visit (by size_tac) fun y2 h2 => ?_
  refine Plan.wp_ret ?_
  size_tac
theorem shrinks_stmtDoWhile (a : Kind.Val .stmtDoWhile) : Shrinks .stmtDoWhile a := by
  obtain ⟨x1, x2, x3⟩ := a
  simp only [Shrinks, plan]
  refine Plan.wp_visit (by size_tac) fun y1 h1 => ?_
  refine Plan.wp_visit (by size_tac) fun y2 h2 => ?_
  refine Plan.wp_ret ?_
  size_tac
theorem shrinks_stmtList (a : Kind.Val .stmtList) : Shrinks .stmtList a := by
  obtain ⟨x1, x2, x3⟩ := a
  simp only [Shrinks, plan]
  refine Plan.wp_list (fun y hy => by have := listSum_mem (f := Kind.size .litString) hy; size_tac) fun y1 h => ?_
  have h1 := listSum_le h
  clear h
  refine Plan.wp_list (fun y hy => by have := listSum_mem (f := Kind.size .stmt) hy; size_tac) fun y2 h => ?_
  have h2 := listSum_le h
  clear h
  refine Plan.wp_ret ?_
  size_tac
theorem shrinks_bindingElement (a : Kind.Val .bindingElement) : Shrinks .bindingElement a := by
  obtain ⟨x1, x2, x3⟩ := a
  simp only [Shrinks, plan]
  refine Plan.wp_visit (by size_tac) fun y1 h1 => ?_
  refine Plan.wp_opt (fun y hy => by have := optSum_mem (f := Kind.size .expr) hy; size_tac) fun y2 h => ?_
  have h2 := optSum_le h
  clear h
  refine Plan.wp_ret ?_
  size_tac
theorem shrinks_formalParameters (a : Kind.Val .formalParameters) : Shrinks .formalParameters a := by
  obtain ⟨x1, x2, x3⟩ := a
  simp only [Shrinks, plan]
  refine Plan.wp_list (fun y hy => by have := listSum_mem (f := Kind.size .bindingElement) hy; size_tac) fun y1 h => ?_
  have h1 := listSum_le h
  clear h
  refine Plan.wp_opt (fun y hy => by have := optSum_mem (f := Kind.size .bindingPattern) hy; size_tac) fun y2 h => ?_
  have h2 := optSum_le h
  clear h
  refine Plan.wp_ret ?_
  size_tac
theorem shrinks_variableDeclaration (a : Kind.Val .variableDeclaration) : Shrinks .variableDeclaration a := by
  obtain ⟨x1, x2, x3⟩ := a
  simp only [Shrinks, plan]
  refine Plan.wp_visit (by size_tac) fun y1 h1 => ?_
  refine Plan.wp_opt (fun y hy => by have := optSum_mem (f := Kind.size .expr) hy; size_tac) fun y2 h => ?_
  have h2 := optSum_le h
  clear h
  refine Plan.wp_ret ?_
  size_tac
theorem shrinks_litString (a : Kind.Val .litString) : Shrinks .litString a := by
  exact Nat.le_refl _
theorem shrinks_litTemplate (a : Kind.Val .litTemplate) : Shrinks .litTemplate a := by
  simp only [Shrinks, plan]
  refine Plan.wp_list (fun y hy => by have := listSum_mem (f := Kind.size .templatePart) hy; size_tac) fun y1 h => ?_
  have h1 := listSum_le h
  clear h
  refine Plan.wp_ret ?_
  size_tac
theorem shrinks_litArray (a : Kind.Val .litArray) : Shrinks .litArray a := by
  simp only [Shrinks, plan]
  refine Plan.wp_list (fun y hy => by have := listSum_mem (f := Kind.size .arrayElement) hy; size_tac) fun y1 h => ?_
  have h1 := listSum_le h
  clear h
  refine Plan.wp_ret ?_
  size_tac
theorem shrinks_litObject (a : Kind.Val .litObject) : Shrinks .litObject a := by
  simp only [Shrinks, plan]
  refine Plan.wp_list (fun y hy => by have := listSum_mem (f := Kind.size .propertyDefinition) hy; size_tac) fun y1 h => ?_
  have h1 := listSum_le h
  clear h
  refine Plan.wp_ret ?_
  size_tac
theorem shrinks_arrayBinding (a : Kind.Val .arrayBinding) : Shrinks .arrayBinding a := by
  obtain ⟨x1, x2, x3⟩ := a
  simp only [Shrinks, plan]
  refine Plan.wp_listOpt (fun y hy => by have := listSum_mem (f := optSum (Kind.size .bindingElement)) hy; simp only [optSum] at this; size_tac) fun y1 h => ?_
  have h1 := listOptSum_le h
  clear h
  refine Plan.wp_opt (fun y hy => by have := optSum_mem (f := Kind.size .bindingPattern) hy; size_tac) fun y2 h => ?_
  have h2 := optSum_le h
  clear h
  refine Plan.wp_ret ?_
  size_tac
theorem shrinks_objectBinding (a : Kind.Val .objectBinding) : Shrinks .objectBinding a := by
  obtain ⟨x1, x2, x3⟩ := a
  simp only [Shrinks, plan]
  refine Plan.wp_list (fun y hy => by have := listSum_mem (f := Kind.size .objectBindingProp) hy; size_tac) fun y1 h => ?_
  have h1 := listSum_le h
  clear h
  refine Plan.wp_opt (fun y hy => by have := optSum_mem (f := Kind.size .bindingPattern) hy; size_tac) fun y2 h => ?_
  have h2 := optSum_le h
  clear h
  refine Plan.wp_ret ?_
  size_tac
theorem shrinks_singleNameBinding (a : Kind.Val .singleNameBinding) : Shrinks .singleNameBinding a := by
  obtain ⟨x1, x2, x3⟩ := a
  simp only [Shrinks, plan]
  refine Plan.wp_visit (by size_tac) fun y1 h1 => ?_
  refine Plan.wp_opt (fun y hy => by have := optSum_mem (f := Kind.size .expr) hy; size_tac) fun y2 h => ?_
  have h2 := optSum_le h
  clear h
  refine Plan.wp_ret ?_
  size_tac
theorem shrinks_namedBinding (a : Kind.Val .namedBinding) : Shrinks .namedBinding a := by
  obtain ⟨x1, x2, x3⟩ := a
  simp only [Shrinks, plan]
  refine Plan.wp_visit (by size_tac) fun y1 h1 => ?_
  refine Plan.wp_visit (by size_tac) fun y2 h2 => ?_
  refine Plan.wp_ret ?_
  size_tac
theorem shrinks_namedProperty (a : Kind.Val .namedProperty) : Shrinks .namedProperty a := by
  obtain ⟨x1, x2, x3⟩ := a
  simp only [Shrinks, plan]
  refine Plan.wp_visit (by size_tac) fun y1 h1 => ?_
  refine Plan.wp_visit (by size_tac) fun y2 h2 => ?_
  refine Plan.wp_ret ?_
  size_tac
theorem shrinks_methodDefinition (a : Kind.Val .methodDefinition) : Shrinks .methodDefinition a := by
  obtain ⟨x1, x2, x3, x4, x5, x6, x7, x8⟩ := a
  simp only [Shrinks, plan]
  refine Plan.wp_visit (by size_tac) fun y1 h1 => ?_
  refine Plan.wp_visit (by size_tac) fun y2 h2 => ?_
  refine Plan.wp_visit (by size_tac) fun y3 h3 => ?_
  refine Plan.wp_ret ?_
  size_tac
theorem shrinks_catchClause (a : Kind.Val .catchClause) : Shrinks .catchClause a := by
  obtain ⟨x1, x2, x3⟩ := a
  simp only [Shrinks, plan]
  refine Plan.wp_opt (fun y hy => by have := optSum_mem (f := Kind.size .bindingPattern) hy; size_tac) fun y1 h => ?_
  have h1 := optSum_le h
  clear h
  refine Plan.wp_visit (by size_tac) fun y2 h2 => ?_
  refine Plan.wp_ret ?_
  size_tac
theorem shrinks_switchCase (a : Kind.Val .switchCase) : Shrinks .switchCase a := by
  obtain ⟨x1, x2, x3⟩ := a
  simp only [Shrinks, plan]
  refine Plan.wp_opt (fun y hy => by have := optSum_mem (f := Kind.size .expr) hy; size_tac) fun y1 h => ?_
  have h1 := optSum_le h
  clear h
  refine Plan.wp_list (fun y hy => by have := listSum_mem (f := Kind.size .stmt) hy; size_tac) fun y2 h => ?_
  have h2 := listSum_le h
  clear h
  refine Plan.wp_ret ?_
  size_tac
theorem shrinks_exportDecl (a : Kind.Val .exportDecl) : Shrinks .exportDecl a := by
  obtain ⟨x1, x2⟩ := a
  simp only [Shrinks, plan]
  refine Plan.wp_visit (by size_tac) fun y1 h1 => ?_
  refine Plan.wp_ret ?_
  size_tac
theorem shrinks_exportDefaultDecl (a : Kind.Val .exportDefaultDecl) : Shrinks .exportDefaultDecl a := by
  obtain ⟨x1, x2⟩ := a
  simp only [Shrinks, plan]
  refine Plan.wp_visit (by size_tac) fun y1 h1 => ?_
  refine Plan.wp_ret ?_
  size_tac
theorem shrinks_exportDefaultExpr (a : Kind.Val .exportDefaultExpr) : Shrinks .exportDefaultExpr a := by
  obtain ⟨x1, x2⟩ := a
  simp only [Shrinks, plan]
  refine Plan.wp_visit (by size_tac) fun y1 h1 => ?_
  refine Plan.wp_ret ?_
  size_tac
theorem shrinks_exprTaggedTemplate (a : Kind.Val .exprTaggedTemplate) : Shrinks .exprTaggedTemplate a := by
  obtain ⟨x1, x2, x3⟩ := a
  simp only [Shrinks, plan]
  refine Plan.wp_visit (by size_tac) fun y1 h1 => ?_
  refine Plan.wp_visit (by size_tac) fun y2 h2 => ?_
  refine Plan.wp_ret ?_
  size_tac
theorem shrinks_exportNamed (a : Kind.Val .exportNamed) : Shrinks .exportNamed a := by
  obtain ⟨x1, x2, x3⟩ := a
  simp only [Shrinks, plan]
  refine Plan.wp_list (fun y hy => by have := listSum_mem (f := Kind.size .namedExport) hy; size_tac) fun y1 h => ?_
  have h1 := listSum_le h
  clear h
  refine Plan.wp_opt (fun y hy => by have := optSum_mem (f := Kind.size .litString) hy; size_tac) fun y2 h => ?_
  have h2 := optSum_le h
  clear h
  refine Plan.wp_ret ?_
  size_tac
theorem shrinks_exportNamespace (a : Kind.Val .exportNamespace) : Shrinks .exportNamespace a := by
  obtain ⟨x1, x2, x3⟩ := a
  simp only [Shrinks, plan]
  refine Plan.wp_opt (fun y hy => by have := optSum_mem (f := Kind.size .ident) hy; size_tac) fun y1 h => ?_
  have h1 := optSum_le h
  clear h
  refine Plan.wp_visit (by size_tac) fun y2 h2 => ?_
  refine Plan.wp_ret ?_
  size_tac
theorem shrinks_namedExport (a : Kind.Val .namedExport) : Shrinks .namedExport a := by
  obtain ⟨x1, x2, x3⟩ := a
  simp only [Shrinks, plan]
  refine Plan.wp_visit (by (simp only [Kind.size, NamedExport.size] at *; first | omega | size_tac)) fun y1 h1 => ?_
  refine Plan.wp_opt (fun y hy => by have := optSum_mem (f := Kind.size .ident) hy; (simp only [Kind.size, NamedExport.size] at *; first | omega | size_tac)) fun y2 h => ?_
  have h2 := optSum_le h
  clear h
  refine Plan.wp_ret ?_
  (simp only [Kind.size, NamedExport.size] at *; first | omega | size_tac)
theorem shrinks_namedImport (a : Kind.Val .namedImport) : Shrinks .namedImport a := by
  obtain ⟨x1, x2, x3⟩ := a
  simp only [Shrinks, plan]
  refine Plan.wp_visit (by (simp only [Kind.size, NamedImport.size] at *; first | omega | size_tac)) fun y1 h1 => ?_
  refine Plan.wp_opt (fun y hy => by have := optSum_mem (f := Kind.size .ident) hy; (simp only [Kind.size, NamedImport.size] at *; first | omega | size_tac)) fun y2 h => ?_
  have h2 := optSum_le h
  clear h
  refine Plan.wp_ret ?_
  (simp only [Kind.size, NamedImport.size] at *; first | omega | size_tac)
theorem shrinks_ident (a : Kind.Val .ident) : Shrinks .ident a := by
  exact Nat.le_refl _
theorem shrinks_body (a : Kind.Val .body) : Shrinks .body a := by
  obtain ⟨x1, x2, x3⟩ := a
  simp only [Shrinks, plan]
  refine Plan.wp_list (fun y hy => by have := listSum_mem (f := Kind.size .litString) hy; size_tac) fun y1 h => ?_
  have h1 := listSum_le h
  clear h
  refine Plan.wp_list (fun y hy => by have := listSum_mem (f := Kind.size .stmt) hy; size_tac) fun y2 h => ?_
  have h2 := listSum_le h
  clear h
  refine Plan.wp_ret ?_
  size_tac
theorem shrinks_forBinding (a : Kind.Val .forBinding) : Shrinks .forBinding a := by
  exact Nat.le_refl _

theorem plan_shrinks : ∀ (k : Kind) (a : k.Val), Shrinks k a
  | .program, a => shrinks_program a
  | .expr, a => shrinks_expr a
  | .stmt, a => shrinks_stmt a
  | .bindingPattern, a => shrinks_bindingPattern a
  | .literal, a => shrinks_literal a
  | .litNumber, a => shrinks_litNumber a
  | .templatePart, a => shrinks_templatePart a
  | .objectBindingProp, a => shrinks_objectBindingProp a
  | .propertyName, a => shrinks_propertyName a
  | .classElement, a => shrinks_classElement a
  | .forInit, a => shrinks_forInit a
  | .forDeclaration, a => shrinks_forDeclaration a
  | .callee, a => shrinks_callee a
  | .argument, a => shrinks_argument a
  | .memberObject, a => shrinks_memberObject a
  | .super, a => shrinks_super a
  | .memberProperty, a => shrinks_memberProperty a
  | .arrayElement, a => shrinks_arrayElement a
  | .arrowFunctionBody, a => shrinks_arrowFunctionBody a
  | .propertyDefinition, a => shrinks_propertyDefinition a
  | .binaryOperator, a => shrinks_binaryOperator a
  | .logicalOperator, a => shrinks_logicalOperator a
  | .assignmentOperator, a => shrinks_assignmentOperator a
  | .unaryOperator, a => shrinks_unaryOperator a
  | .updateOperator, a => shrinks_updateOperator a
  | .declExport, a => shrinks_declExport a
  | .patternOrExpr, a => shrinks_patternOrExpr a
  | .assignmentPattern, a => shrinks_assignmentPattern a
  | .declFunction, a => shrinks_declFunction a
  | .declClass, a => shrinks_declClass a
  | .declImport, a => shrinks_declImport a
  | .stmtExpr, a => shrinks_stmtExpr a
  | .stmtBlock, a => shrinks_stmtBlock a
  | .exprBinary, a => shrinks_exprBinary a
  | .exprLogical, a => shrinks_exprLogical a
  | .exprUnary, a => shrinks_exprUnary a
  | .exprCall, a => shrinks_exprCall a
  | .exprMember, a => shrinks_exprMember a
  | .exprOptionalMember, a => shrinks_exprOptionalMember a
  | .exprOptionalCall, a => shrinks_exprOptionalCall a
  | .exprParenthesized, a => shrinks_exprParenthesized a
  | .exprLiteral, a => shrinks_exprLiteral a
  | .exprAssignment, a => shrinks_exprAssignment a
  | .exprYield, a => shrinks_exprYield a
  | .exprConditional, a => shrinks_exprConditional a
  | .exprUpdate, a => shrinks_exprUpdate a
  | .exprSequence, a => shrinks_exprSequence a
  | .exprThis, a => shrinks_exprThis a
  | .exprFunction, a => shrinks_exprFunction a
  | .exprNew, a => shrinks_exprNew a
  | .exprArrowFunction, a => shrinks_exprArrowFunction a
  | .exprAwait, a => shrinks_exprAwait a
  | .exprMetaProperty, a => shrinks_exprMetaProperty a
  | .exprClass, a => shrinks_exprClass a
  | .stmtReturn, a => shrinks_stmtReturn a
  | .stmtVariable, a => shrinks_stmtVariable a
  | .stmtEmpty, a => shrinks_stmtEmpty a
  | .stmtTry, a => shrinks_stmtTry a
  | .stmtDebugger, a => shrinks_stmtDebugger a
  | .stmtThrow, a => shrinks_stmtThrow a
  | .stmtLabeled, a => shrinks_stmtLabeled a
  | .stmtWith, a => shrinks_stmtWith a
  | .stmtContinue, a => shrinks_stmtContinue a
  | .stmtBreak, a => shrinks_stmtBreak a
  | .stmtSwitch, a => shrinks_stmtSwitch a
  | .stmtIf, a => shrinks_stmtIf a
  | .stmtFor, a => shrinks_stmtFor a
  | .stmtForOf, a => shrinks_stmtForOf a
  | .stmtForIn, a => shrinks_stmtForIn a
  | .stmtWhile, a => shrinks_stmtWhile a
  | .stmtDoWhile, a => shrinks_stmtDoWhile a
  | .stmtList, a => shrinks_stmtList a
  | .bindingElement, a => shrinks_bindingElement a
  | .formalParameters, a => shrinks_formalParameters a
  | .variableDeclaration, a => shrinks_variableDeclaration a
  | .litString, a => shrinks_litString a
  | .litTemplate, a => shrinks_litTemplate a
  | .litArray, a => shrinks_litArray a
  | .litObject, a => shrinks_litObject a
  | .arrayBinding, a => shrinks_arrayBinding a
  | .objectBinding, a => shrinks_objectBinding a
  | .singleNameBinding, a => shrinks_singleNameBinding a
  | .namedBinding, a => shrinks_namedBinding a
  | .namedProperty, a => shrinks_namedProperty a
  | .methodDefinition, a => shrinks_methodDefinition a
  | .catchClause, a => shrinks_catchClause a
  | .switchCase, a => shrinks_switchCase a
  | .exportDecl, a => shrinks_exportDecl a
  | .exportDefaultDecl, a => shrinks_exportDefaultDecl a
  | .exportDefaultExpr, a => shrinks_exportDefaultExpr a
  | .exprTaggedTemplate, a => shrinks_exprTaggedTemplate a
  | .exportNamed, a => shrinks_exportNamed a
  | .exportNamespace, a => shrinks_exportNamespace a
  | .namedExport, a => shrinks_namedExport a
  | .namedImport, a => shrinks_namedImport a
  | .ident, a => shrinks_ident a
  | .body, a => shrinks_body a
  | .forBinding, a => shrinks_forBinding a

end Fajt
