import Verif.Spec.Rewrites
import Verif.Proofs.MutateSize
import Verif.Proofs.MutateMap
/-!
# What traversals do to leaves, and which constructs they reach
-/
namespace Fajt

set_option linter.unusedSimpArgs false
set_option linter.unusedVariables false

theorem listRel_eq {α : Type} {f : α → α} {l l' : List α} (h : Plan.ListRel (fun x y => y = f x) l l') : l' = l.map f := by
  induction h with
  | nil => rfl
  | cons h _ ih => rw [h, ih]; rfl

theorem optRel_eq {α : Type} {f : α → α} {l l' : Option α} (h : Plan.OptRel (fun x y => y = f x) l l') : l' = l.map f := by
  cases h with
  | none => rfl
  | some h => rw [h]; rfl

theorem optListRel_eq {α : Type} {f : α → α} {l l' : Option (List α)}
    (h : Plan.OptRel (Plan.ListRel (fun x y => y = f x)) l l') : l' = l.map (fun l => l.map f) := by
  cases h with
  | none => rfl
  | some h => rw [listRel_eq h]; rfl

theorem listOptRel_eq {α : Type} {f : α → α} {l l' : List (Option α)}
    (h : Plan.ListRel (Plan.OptRel (fun x y => y = f x)) l l') : l' = l.map (fun o => o.map f) := by
  induction h with
  | nil => rfl
  | cons h _ ih => rw [optRel_eq h, ih]; rfl

theorem kreach_stmt (m : LeafMap) : Kind.mapReached m .stmt = Stmt.mapReached m := rfl
theorem kreach_expr (m : LeafMap) : Kind.mapReached m .expr = Expr.mapReached m := rfl
theorem kreach_argument (m : LeafMap) : Kind.mapReached m .argument = Argument.mapReached m := rfl
theorem kreach_namedImport (m : LeafMap) : Kind.mapReached m .namedImport = NamedImport.mapReached m := rfl
theorem kreach_namedExport (m : LeafMap) : Kind.mapReached m .namedExport = NamedExport.mapReached m := rfl
theorem kreach_bindingElement (m : LeafMap) : Kind.mapReached m .bindingElement = BindingElement.mapReached m := rfl
theorem kreach_bindingPattern (m : LeafMap) : Kind.mapReached m .bindingPattern = BindingPattern.mapReached m := rfl
theorem kreach_templatePart (m : LeafMap) : Kind.mapReached m .templatePart = TemplatePart.mapReached m := rfl
theorem kreach_arrayElement (m : LeafMap) : Kind.mapReached m .arrayElement = ArrayElement.mapReached m := rfl
theorem kreach_propertyDefinition (m : LeafMap) : Kind.mapReached m .propertyDefinition = PropDef.mapReached m := rfl
theorem kreach_variableDeclaration (m : LeafMap) : Kind.mapReached m .variableDeclaration = VarDecl.mapReached m := rfl
theorem kreach_switchCase (m : LeafMap) : Kind.mapReached m .switchCase = SwitchCase.mapReached m := rfl
theorem kreach_objectBindingProp (m : LeafMap) : Kind.mapReached m .objectBindingProp = BindingProp.mapReached m := rfl
theorem kreach_catchClause (m : LeafMap) : Kind.mapReached m .catchClause = CatchClause.mapReached m := rfl
theorem kreach_stmtBlock (m : LeafMap) : Kind.mapReached m .stmtBlock = Block.mapReached m := rfl
theorem kreach_forInit (m : LeafMap) : Kind.mapReached m .forInit = ForInit.mapReached m := rfl
theorem kreach_ident (m : LeafMap) : Kind.mapReached m .ident = m.ident := rfl
theorem kreach_litString (m : LeafMap) : Kind.mapReached m .litString = m.string := rfl
theorem kreach_classElement (m : LeafMap) : Kind.mapReached m .classElement = MethodDef.mapReached m := rfl
theorem reachOptBindingElement_eq (m : LeafMap) (l) : reachOptBindingElement m l = l.map (BindingElement.mapReached m) := by cases l <;> simp only [reachOptBindingElement, Option.map]
theorem reachOptBindingPattern_eq (m : LeafMap) (l) : reachOptBindingPattern m l = l.map (BindingPattern.mapReached m) := by cases l <;> simp only [reachOptBindingPattern, Option.map]
theorem reachOptBlock_eq (m : LeafMap) (l) : reachOptBlock m l = l.map (Block.mapReached m) := by cases l <;> simp only [reachOptBlock, Option.map]
theorem reachOptCatchClause_eq (m : LeafMap) (l) : reachOptCatchClause m l = l.map (CatchClause.mapReached m) := by cases l <;> simp only [reachOptCatchClause, Option.map]
theorem reachOptExpr_eq (m : LeafMap) (l) : reachOptExpr m l = l.map (Expr.mapReached m) := by cases l <;> simp only [reachOptExpr, Option.map]
theorem reachOptForInit_eq (m : LeafMap) (l) : reachOptForInit m l = l.map (ForInit.mapReached m) := by cases l <;> simp only [reachOptForInit, Option.map]
theorem reachOptStmt_eq (m : LeafMap) (l) : reachOptStmt m l = l.map (Stmt.mapReached m) := by cases l <;> simp only [reachOptStmt, Option.map]
theorem reachExprs_eq (m : LeafMap) (l) : reachExprs m l = l.map (Expr.mapReached m) := by
  induction l with
  | nil => simp only [reachExprs, List.map]
  | cons a l ih => simp only [reachExprs, List.map, ih]
theorem reachArguments_eq (m : LeafMap) (l) : reachArguments m l = l.map (Argument.mapReached m) := by
  induction l with
  | nil => simp only [reachArguments, List.map]
  | cons a l ih => simp only [reachArguments, List.map, ih]
theorem reachArrayElements_eq (m : LeafMap) (l) : reachArrayElements m l = l.map (ArrayElement.mapReached m) := by
  induction l with
  | nil => simp only [reachArrayElements, List.map]
  | cons a l ih => simp only [reachArrayElements, List.map, ih]
theorem reachBindingElements_eq (m : LeafMap) (l) : reachBindingElements m l = l.map (BindingElement.mapReached m) := by
  induction l with
  | nil => simp only [reachBindingElements, List.map]
  | cons a l ih => simp only [reachBindingElements, List.map, ih]
theorem reachBindingProps_eq (m : LeafMap) (l) : reachBindingProps m l = l.map (BindingProp.mapReached m) := by
  induction l with
  | nil => simp only [reachBindingProps, List.map]
  | cons a l ih => simp only [reachBindingProps, List.map, ih]
theorem reachMethodDefs_eq (m : LeafMap) (l) : reachMethodDefs m l = l.map (MethodDef.mapReached m) := by
  induction l with
  | nil => simp only [reachMethodDefs, List.map]
  | cons a l ih => simp only [reachMethodDefs, List.map, ih]
theorem reachPropDefs_eq (m : LeafMap) (l) : reachPropDefs m l = l.map (PropDef.mapReached m) := by
  induction l with
  | nil => simp only [reachPropDefs, List.map]
  | cons a l ih => simp only [reachPropDefs, List.map, ih]
theorem reachStmts_eq (m : LeafMap) (l) : reachStmts m l = l.map (Stmt.mapReached m) := by
  induction l with
  | nil => simp only [reachStmts, List.map]
  | cons a l ih => simp only [reachStmts, List.map, ih]
theorem reachSwitchCases_eq (m : LeafMap) (l) : reachSwitchCases m l = l.map (SwitchCase.mapReached m) := by
  induction l with
  | nil => simp only [reachSwitchCases, List.map]
  | cons a l ih => simp only [reachSwitchCases, List.map, ih]
theorem reachTemplateParts_eq (m : LeafMap) (l) : reachTemplateParts m l = l.map (TemplatePart.mapReached m) := by
  induction l with
  | nil => simp only [reachTemplateParts, List.map]
  | cons a l ih => simp only [reachTemplateParts, List.map, ih]
theorem reachVarDecls_eq (m : LeafMap) (l) : reachVarDecls m l = l.map (VarDecl.mapReached m) := by
  induction l with
  | nil => simp only [reachVarDecls, List.map]
  | cons a l ih => simp only [reachVarDecls, List.map, ih]
theorem reachOptBindingElements_eq (m : LeafMap) (l) : reachOptBindingElements m l = l.map (fun o => o.map (BindingElement.mapReached m)) := by
  induction l with
  | nil => simp only [reachOptBindingElements, List.map]
  | cons a l ih => simp only [reachOptBindingElements, List.map, ih, reachOptBindingElement_eq]
theorem plainOptBindingElement_iff (l) : plainOptBindingElement l ↔ ∀ x ∈ l, BindingElement.Plain x := by cases l <;> simp [plainOptBindingElement]
theorem plainOptBindingPattern_iff (l) : plainOptBindingPattern l ↔ ∀ x ∈ l, BindingPattern.Plain x := by cases l <;> simp [plainOptBindingPattern]
theorem plainOptBlock_iff (l) : plainOptBlock l ↔ ∀ x ∈ l, Block.Plain x := by cases l <;> simp [plainOptBlock]
theorem plainOptCatchClause_iff (l) : plainOptCatchClause l ↔ ∀ x ∈ l, CatchClause.Plain x := by cases l <;> simp [plainOptCatchClause]
theorem plainOptExpr_iff (l) : plainOptExpr l ↔ ∀ x ∈ l, Expr.Plain x := by cases l <;> simp [plainOptExpr]
theorem plainOptForInit_iff (l) : plainOptForInit l ↔ ∀ x ∈ l, ForInit.Plain x := by cases l <;> simp [plainOptForInit]
theorem plainOptStmt_iff (l) : plainOptStmt l ↔ ∀ x ∈ l, Stmt.Plain x := by cases l <;> simp [plainOptStmt]
theorem plainExprs_iff (l) : plainExprs l ↔ ∀ x ∈ l, Expr.Plain x := by
  induction l with
  | nil => simp [plainExprs]
  | cons a l ih => simp [plainExprs, ih]
theorem plainArguments_iff (l) : plainArguments l ↔ ∀ x ∈ l, Argument.Plain x := by
  induction l with
  | nil => simp [plainArguments]
  | cons a l ih => simp [plainArguments, ih]
theorem plainArrayElements_iff (l) : plainArrayElements l ↔ ∀ x ∈ l, ArrayElement.Plain x := by
  induction l with
  | nil => simp [plainArrayElements]
  | cons a l ih => simp [plainArrayElements, ih]
theorem plainBindingElements_iff (l) : plainBindingElements l ↔ ∀ x ∈ l, BindingElement.Plain x := by
  induction l with
  | nil => simp [plainBindingElements]
  | cons a l ih => simp [plainBindingElements, ih]
theorem plainBindingProps_iff (l) : plainBindingProps l ↔ ∀ x ∈ l, BindingProp.Plain x := by
  induction l with
  | nil => simp [plainBindingProps]
  | cons a l ih => simp [plainBindingProps, ih]
theorem plainMethodDefs_iff (l) : plainMethodDefs l ↔ ∀ x ∈ l, MethodDef.Plain x := by
  induction l with
  | nil => simp [plainMethodDefs]
  | cons a l ih => simp [plainMethodDefs, ih]
theorem plainPropDefs_iff (l) : plainPropDefs l ↔ ∀ x ∈ l, PropDef.Plain x := by
  induction l with
  | nil => simp [plainPropDefs]
  | cons a l ih => simp [plainPropDefs, ih]
theorem plainStmts_iff (l) : plainStmts l ↔ ∀ x ∈ l, Stmt.Plain x := by
  induction l with
  | nil => simp [plainStmts]
  | cons a l ih => simp [plainStmts, ih]
theorem plainSwitchCases_iff (l) : plainSwitchCases l ↔ ∀ x ∈ l, SwitchCase.Plain x := by
  induction l with
  | nil => simp [plainSwitchCases]
  | cons a l ih => simp [plainSwitchCases, ih]
theorem plainTemplateParts_iff (l) : plainTemplateParts l ↔ ∀ x ∈ l, TemplatePart.Plain x := by
  induction l with
  | nil => simp [plainTemplateParts]
  | cons a l ih => simp [plainTemplateParts, ih]
theorem plainVarDecls_iff (l) : plainVarDecls l ↔ ∀ x ∈ l, VarDecl.Plain x := by
  induction l with
  | nil => simp [plainVarDecls]
  | cons a l ih => simp [plainVarDecls, ih]
theorem plainOptBindingElements_iff (l) : plainOptBindingElements l ↔ ∀ x, some x ∈ l → BindingElement.Plain x := by
  induction l with
  | nil => simp [plainOptBindingElements]
  | cons a l ih => cases a <;> simp [plainOptBindingElements, plainOptBindingElement, ih]

macro "reach_tac" : tactic => `(tactic| simp only [Kind.mapReached, Expr.mapReached, Literal.mapReached, TemplatePart.mapReached, ArrayElement.mapReached, PropDef.mapReached, PropName.mapReached, MethodDef.mapReached, FormalParams.mapReached, Body.mapReached, ArrowBody.mapReached, MemberObject.mapReached, MemberProp.mapReached, Argument.mapReached, Callee.mapReached, BindingPattern.mapReached, BindingProp.mapReached, BindingElement.mapReached, PatternOrExpr.mapReached, Stmt.mapReached, Block.mapReached, VarStmt.mapReached, VarDecl.mapReached, CatchClause.mapReached, SwitchCase.mapReached, ForInit.mapReached, ForDecl.mapReached, ExportDecl.mapReached,
    NamedImport.mapReached, NamedExport.mapReached, NamedImport.mapLeaves, NamedExport.mapLeaves,
    kreach_stmt, kreach_expr, kreach_argument, kreach_namedImport, kreach_namedExport, kreach_bindingElement, kreach_bindingPattern, kreach_templatePart, kreach_arrayElement, kreach_propertyDefinition, kreach_variableDeclaration, kreach_switchCase, kreach_objectBindingProp, kreach_catchClause, kreach_stmtBlock, kreach_forInit, kreach_ident, kreach_litString, kreach_classElement,
    reachOptBindingElement_eq, reachOptBindingPattern_eq, reachOptBlock_eq, reachOptCatchClause_eq, reachOptExpr_eq, reachOptForInit_eq, reachOptStmt_eq, reachExprs_eq, reachArguments_eq, reachArrayElements_eq, reachBindingElements_eq, reachBindingProps_eq, reachMethodDefs_eq, reachPropDefs_eq, reachStmts_eq, reachSwitchCases_eq, reachTemplateParts_eq, reachVarDecls_eq, reachOptBindingElements_eq])

/-- What a traversal does to a node that is not a leaf, if it does that to the nodes below. -/
abbrev Reaches (m : LeafMap) (k : Kind) (a : k.Val) : Prop :=
  (plan k a).wp (fun _ _ => True) (fun j x y => y = j.mapReached m x) (fun b => b = k.mapReached m a)

theorem NamedImport.reach_twice (m : LeafMap) (x : NamedImport) : (x.mapReached m).mapReached m = x.mapReached m.twice :=
  NamedImport.reach_reach m 1 1 x

theorem reaches_program (m : LeafMap) (a : Kind.Val .program) : Reaches m .program a := by
  obtain ⟨st, x1, x2, x3⟩ := a
  refine Plan.wp_visit trivial ?_
  rintro _ rfl
  refine Plan.wp_ret ?_
  reach_tac
theorem reaches_expr (m : LeafMap) (a : Kind.Val .expr) : Reaches m .expr a := by
  cases a with
  | «arrow» x1 x2 x3 x4 x5 =>
    refine Plan.wp_visit trivial ?_
    rintro _ rfl
    refine Plan.wp_ret ?_
    reach_tac
  | «assign» x1 x2 x3 x4 =>
    refine Plan.wp_visit trivial ?_
    rintro _ rfl
    refine Plan.wp_ret ?_
    reach_tac
  | «await» x1 x2 =>
    refine Plan.wp_visit trivial ?_
    rintro _ rfl
    refine Plan.wp_ret ?_
    reach_tac
  | «binary» x1 x2 x3 x4 =>
    refine Plan.wp_visit trivial ?_
    rintro _ rfl
    refine Plan.wp_ret ?_
    reach_tac
  | «call» x1 x2 x3 x4 =>
    refine Plan.wp_visit trivial ?_
    rintro _ rfl
    refine Plan.wp_ret ?_
    reach_tac
  | «classE» x1 x2 x3 x4 =>
    refine Plan.wp_visit trivial ?_
    rintro _ rfl
    refine Plan.wp_ret ?_
    reach_tac
  | «conditional» x1 x2 x3 x4 =>
    refine Plan.wp_visit trivial ?_
    rintro _ rfl
    refine Plan.wp_ret ?_
    reach_tac
  | «function» x1 x2 x3 x4 x5 x6 =>
    refine Plan.wp_visit trivial ?_
    rintro _ rfl
    refine Plan.wp_ret ?_
    reach_tac
  | «ident» x1 =>
    refine Plan.wp_visit trivial ?_
    rintro _ rfl
    refine Plan.wp_ret ?_
    reach_tac
  | «literal» x1 x2 =>
    refine Plan.wp_visit trivial ?_
    rintro _ rfl
    refine Plan.wp_ret ?_
    reach_tac
  | «logical» x1 x2 x3 x4 =>
    refine Plan.wp_visit trivial ?_
    rintro _ rfl
    refine Plan.wp_ret ?_
    reach_tac
  | «member» x1 x2 x3 =>
    refine Plan.wp_visit trivial ?_
    rintro _ rfl
    refine Plan.wp_ret ?_
    reach_tac
  | «metaProp» x1 x2 x3 =>
    refine Plan.wp_visit trivial ?_
    rintro _ rfl
    refine Plan.wp_ret ?_
    reach_tac
  | «new» x1 x2 x3 x4 =>
    refine Plan.wp_visit trivial ?_
    rintro _ rfl
    refine Plan.wp_ret ?_
    reach_tac
  | «optCall» x1 x2 x3 x4 x5 =>
    refine Plan.wp_visit trivial ?_
    rintro _ rfl
    refine Plan.wp_ret ?_
    reach_tac
  | «optMember» x1 x2 x3 x4 =>
    refine Plan.wp_visit trivial ?_
    rintro _ rfl
    refine Plan.wp_ret ?_
    reach_tac
  | «paren» x1 x2 =>
    refine Plan.wp_visit trivial ?_
    rintro _ rfl
    refine Plan.wp_ret ?_
    reach_tac
  | «sequence» x1 x2 =>
    refine Plan.wp_visit trivial ?_
    rintro _ rfl
    refine Plan.wp_ret ?_
    reach_tac
  | «tagged» x1 x2 x3 =>
    refine Plan.wp_visit trivial ?_
    rintro _ rfl
    refine Plan.wp_ret ?_
    reach_tac
  | «this» x1 =>
    refine Plan.wp_visit trivial ?_
    rintro _ rfl
    refine Plan.wp_ret ?_
    reach_tac
  | «unary» x1 x2 x3 =>
    refine Plan.wp_visit trivial ?_
    rintro _ rfl
    refine Plan.wp_ret ?_
    reach_tac
  | «update» x1 x2 x3 x4 =>
    refine Plan.wp_visit trivial ?_
    rintro _ rfl
    refine Plan.wp_ret ?_
    reach_tac
  | «yield» x1 x2 x3 =>
    refine Plan.wp_visit trivial ?_
    rintro _ rfl
    refine Plan.wp_ret ?_
    reach_tac
theorem reaches_stmt (m : LeafMap) (a : Kind.Val .stmt) : Reaches m .stmt a := by
  cases a with
  | «block» x1 =>
    refine Plan.wp_visit trivial ?_
    rintro _ rfl
    refine Plan.wp_ret ?_
    reach_tac
  | «break» x1 x2 =>
    refine Plan.wp_visit trivial ?_
    rintro _ rfl
    refine Plan.wp_ret ?_
    reach_tac
  | «continue» x1 x2 =>
    refine Plan.wp_visit trivial ?_
    rintro _ rfl
    refine Plan.wp_ret ?_
    reach_tac
  | «debugger» x1 =>
    refine Plan.wp_visit trivial ?_
    rintro _ rfl
    refine Plan.wp_ret ?_
    reach_tac
  | «doWhile» x1 x2 x3 =>
    refine Plan.wp_visit trivial ?_
    rintro _ rfl
    refine Plan.wp_ret ?_
    reach_tac
  | «empty» x1 =>
    refine Plan.wp_visit trivial ?_
    rintro _ rfl
    refine Plan.wp_ret ?_
    reach_tac
  | «expr» x1 x2 =>
    refine Plan.wp_visit trivial ?_
    rintro _ rfl
    refine Plan.wp_ret ?_
    reach_tac
  | «for» x1 x2 x3 x4 x5 =>
    refine Plan.wp_visit trivial ?_
    rintro _ rfl
    refine Plan.wp_ret ?_
    reach_tac
  | «forIn» x1 x2 x3 x4 =>
    refine Plan.wp_visit trivial ?_
    rintro _ rfl
    refine Plan.wp_ret ?_
    reach_tac
  | «forOf» x1 x2 x3 x4 x5 =>
    refine Plan.wp_visit trivial ?_
    rintro _ rfl
    refine Plan.wp_ret ?_
    reach_tac
  | «if» x1 x2 x3 x4 =>
    refine Plan.wp_visit trivial ?_
    rintro _ rfl
    refine Plan.wp_ret ?_
    reach_tac
  | «labeled» x1 x2 x3 =>
    refine Plan.wp_visit trivial ?_
    rintro _ rfl
    refine Plan.wp_ret ?_
    reach_tac
  | «return» x1 x2 =>
    refine Plan.wp_visit trivial ?_
    rintro _ rfl
    refine Plan.wp_ret ?_
    reach_tac
  | «switch» x1 x2 x3 =>
    refine Plan.wp_visit trivial ?_
    rintro _ rfl
    refine Plan.wp_ret ?_
    reach_tac
  | «throw» x1 x2 =>
    refine Plan.wp_visit trivial ?_
    rintro _ rfl
    refine Plan.wp_ret ?_
    reach_tac
  | «try» x1 x2 x3 x4 =>
    refine Plan.wp_visit trivial ?_
    rintro _ rfl
    refine Plan.wp_ret ?_
    reach_tac
  | «variable» x1 =>
    refine Plan.wp_visit trivial ?_
    rintro _ rfl
    refine Plan.wp_ret ?_
    reach_tac
  | «while» x1 x2 x3 =>
    refine Plan.wp_visit trivial ?_
    rintro _ rfl
    refine Plan.wp_ret ?_
    reach_tac
  | «with» x1 x2 x3 =>
    refine Plan.wp_visit trivial ?_
    rintro _ rfl
    refine Plan.wp_ret ?_
    reach_tac
  | «classDecl» x1 x2 x3 x4 =>
    refine Plan.wp_visit trivial ?_
    rintro _ rfl
    refine Plan.wp_ret ?_
    reach_tac
  | «functionDecl» x1 x2 x3 x4 x5 x6 =>
    refine Plan.wp_visit trivial ?_
    rintro _ rfl
    refine Plan.wp_ret ?_
    reach_tac
  | «importDecl» x1 x2 x3 x4 x5 =>
    refine Plan.wp_visit trivial ?_
    rintro _ rfl
    refine Plan.wp_ret ?_
    reach_tac
  | «exportDecl» x1 =>
    refine Plan.wp_visit trivial ?_
    rintro _ rfl
    refine Plan.wp_ret ?_
    reach_tac
theorem reaches_bindingPattern (m : LeafMap) (a : Kind.Val .bindingPattern) : Reaches m .bindingPattern a := by
  cases a with
  | «ident» x1 =>
    refine Plan.wp_visit trivial ?_
    rintro _ rfl
    refine Plan.wp_ret ?_
    reach_tac
  | «array» x1 x2 x3 =>
    refine Plan.wp_visit trivial ?_
    rintro _ rfl
    refine Plan.wp_ret ?_
    reach_tac
  | «object» x1 x2 x3 =>
    refine Plan.wp_visit trivial ?_
    rintro _ rfl
    refine Plan.wp_ret ?_
    reach_tac
theorem reaches_literal (m : LeafMap) (a : Kind.Val .literal) : Reaches m .literal a := by
  cases a with
  | «null» => first | exact rfl | (refine Plan.wp_ret ?_; reach_tac)
  | «boolean» => first | exact rfl | (refine Plan.wp_ret ?_; reach_tac)
  | «string» x1 =>
    refine Plan.wp_visit trivial ?_
    rintro _ rfl
    refine Plan.wp_ret ?_
    reach_tac
  | «number» x1 =>
    refine Plan.wp_visit trivial ?_
    rintro _ rfl
    refine Plan.wp_ret ?_
    reach_tac
  | «array» x1 =>
    refine Plan.wp_visit trivial ?_
    rintro _ rfl
    refine Plan.wp_ret ?_
    reach_tac
  | «object» x1 =>
    refine Plan.wp_visit trivial ?_
    rintro _ rfl
    refine Plan.wp_ret ?_
    reach_tac
  | «regexp» => first | exact rfl | (refine Plan.wp_ret ?_; reach_tac)
  | «template» x1 =>
    refine Plan.wp_visit trivial ?_
    rintro _ rfl
    refine Plan.wp_ret ?_
    reach_tac
theorem reaches_templatePart (m : LeafMap) (a : Kind.Val .templatePart) : Reaches m .templatePart a := by
  cases a with
  | «string» => first | exact rfl | (refine Plan.wp_ret ?_; reach_tac)
  | «expr» x1 =>
    refine Plan.wp_visit trivial ?_
    rintro _ rfl
    refine Plan.wp_ret ?_
    reach_tac
theorem reaches_objectBindingProp (m : LeafMap) (a : Kind.Val .objectBindingProp) : Reaches m .objectBindingProp a := by
  cases a with
  | «single» x1 x2 x3 =>
    refine Plan.wp_visit trivial ?_
    rintro _ rfl
    refine Plan.wp_ret ?_
    reach_tac
  | «named» x1 x2 x3 =>
    refine Plan.wp_visit trivial ?_
    rintro _ rfl
    refine Plan.wp_ret ?_
    reach_tac
theorem reaches_propertyName (m : LeafMap) (a : Kind.Val .propertyName) : Reaches m .propertyName a := by
  cases a with
  | «ident» x1 =>
    refine Plan.wp_visit trivial ?_
    rintro _ rfl
    refine Plan.wp_ret ?_
    reach_tac
  | «string» x1 =>
    refine Plan.wp_visit trivial ?_
    rintro _ rfl
    refine Plan.wp_ret ?_
    reach_tac
  | «number» x1 =>
    refine Plan.wp_visit trivial ?_
    rintro _ rfl
    refine Plan.wp_ret ?_
    reach_tac
  | «computed» x1 =>
    refine Plan.wp_visit trivial ?_
    rintro _ rfl
    refine Plan.wp_ret ?_
    reach_tac
theorem reaches_classElement (m : LeafMap) (a : Kind.Val .classElement) : Reaches m .classElement a := by
  refine Plan.wp_visit trivial ?_
  rintro _ rfl
  refine Plan.wp_ret ?_
  reach_tac
theorem reaches_forInit (m : LeafMap) (a : Kind.Val .forInit) : Reaches m .forInit a := by
  cases a with
  | «expr» x1 =>
    refine Plan.wp_visit trivial ?_
    rintro _ rfl
    refine Plan.wp_ret ?_
    reach_tac
  | «declaration» x1 =>
    refine Plan.wp_visit trivial ?_
    rintro _ rfl
    refine Plan.wp_ret ?_
    reach_tac
theorem reaches_forDeclaration (m : LeafMap) (a : Kind.Val .forDeclaration) : Reaches m .forDeclaration a := by
  cases a with
  | «expr» x1 =>
    refine Plan.wp_visit trivial ?_
    rintro _ rfl
    refine Plan.wp_ret ?_
    reach_tac
  | «pattern» x1 =>
    refine Plan.wp_visit trivial ?_
    rintro _ rfl
    refine Plan.wp_ret ?_
    reach_tac
  | «declaration» x1 x2 x3 =>
    refine Plan.wp_visit trivial ?_
    rintro _ rfl
    refine Plan.wp_ret ?_
    reach_tac
theorem reaches_callee (m : LeafMap) (a : Kind.Val .callee) : Reaches m .callee a := by
  cases a with
  | «super» => first | exact rfl | (refine Plan.wp_ret ?_; reach_tac)
  | «import» => first | exact rfl | (refine Plan.wp_ret ?_; reach_tac)
  | «expr» x1 =>
    refine Plan.wp_visit trivial ?_
    rintro _ rfl
    refine Plan.wp_ret ?_
    reach_tac
theorem reaches_argument (m : LeafMap) (a : Kind.Val .argument) : Reaches m .argument a := by
  cases a with
  | «expr» x1 =>
    refine Plan.wp_visit trivial ?_
    rintro _ rfl
    refine Plan.wp_ret ?_
    reach_tac
  | «spread» x1 =>
    refine Plan.wp_visit trivial ?_
    rintro _ rfl
    refine Plan.wp_ret ?_
    reach_tac
theorem reaches_memberObject (m : LeafMap) (a : Kind.Val .memberObject) : Reaches m .memberObject a := by
  cases a with
  | «expr» x1 =>
    refine Plan.wp_visit trivial ?_
    rintro _ rfl
    refine Plan.wp_ret ?_
    reach_tac
  | «super» x1 =>
    refine Plan.wp_visit trivial ?_
    rintro _ rfl
    refine Plan.wp_ret ?_
    reach_tac
theorem reaches_super (m : LeafMap) (a : Kind.Val .super) : Reaches m .super a := by
  exact rfl
theorem reaches_memberProperty (m : LeafMap) (a : Kind.Val .memberProperty) : Reaches m .memberProperty a := by
  cases a with
  | «ident» x1 =>
    refine Plan.wp_visit trivial ?_
    rintro _ rfl
    refine Plan.wp_ret ?_
    reach_tac
  | «expr» x1 =>
    refine Plan.wp_visit trivial ?_
    rintro _ rfl
    refine Plan.wp_ret ?_
    reach_tac
theorem reaches_arrayElement (m : LeafMap) (a : Kind.Val .arrayElement) : Reaches m .arrayElement a := by
  cases a with
  | «elision» => first | exact rfl | (refine Plan.wp_ret ?_; reach_tac)
  | «expr» x1 =>
    refine Plan.wp_visit trivial ?_
    rintro _ rfl
    refine Plan.wp_ret ?_
    reach_tac
  | «spread» x1 =>
    refine Plan.wp_visit trivial ?_
    rintro _ rfl
    refine Plan.wp_ret ?_
    reach_tac
theorem reaches_arrowFunctionBody (m : LeafMap) (a : Kind.Val .arrowFunctionBody) : Reaches m .arrowFunctionBody a := by
  cases a with
  | «expr» x1 =>
    refine Plan.wp_visit trivial ?_
    rintro _ rfl
    refine Plan.wp_ret ?_
    reach_tac
  | «body» x1 =>
    refine Plan.wp_visit trivial ?_
    rintro _ rfl
    refine Plan.wp_ret ?_
    reach_tac
theorem reaches_propertyDefinition (m : LeafMap) (a : Kind.Val .propertyDefinition) : Reaches m .propertyDefinition a := by
  cases a with
  | «identRef» x1 =>
    refine Plan.wp_visit trivial ?_
    rintro _ rfl
    refine Plan.wp_ret ?_
    reach_tac
  | «spread» x1 =>
    refine Plan.wp_visit trivial ?_
    rintro _ rfl
    refine Plan.wp_ret ?_
    reach_tac
  | «named» x1 x2 x3 =>
    refine Plan.wp_visit trivial ?_
    rintro _ rfl
    refine Plan.wp_ret ?_
    reach_tac
  | «method» x1 =>
    refine Plan.wp_visit trivial ?_
    rintro _ rfl
    refine Plan.wp_ret ?_
    reach_tac
theorem reaches_declExport (m : LeafMap) (a : Kind.Val .declExport) : Reaches m .declExport a := by
  cases a with
  | «decl» x1 x2 =>
    refine Plan.wp_visit trivial ?_
    rintro _ rfl
    refine Plan.wp_ret ?_
    reach_tac
  | «defaultExpr» x1 x2 =>
    refine Plan.wp_visit trivial ?_
    rintro _ rfl
    refine Plan.wp_ret ?_
    reach_tac
  | «defaultDecl» x1 x2 =>
    refine Plan.wp_visit trivial ?_
    rintro _ rfl
    refine Plan.wp_ret ?_
    reach_tac
  | «named» x1 x2 x3 =>
    refine Plan.wp_visit trivial ?_
    rintro _ rfl
    refine Plan.wp_ret ?_
    reach_tac
  | «namespace» x1 x2 x3 =>
    refine Plan.wp_visit trivial ?_
    rintro _ rfl
    refine Plan.wp_ret ?_
    reach_tac
theorem reaches_patternOrExpr (m : LeafMap) (a : Kind.Val .patternOrExpr) : Reaches m .patternOrExpr a := by
  cases a with
  | «expr» x1 =>
    refine Plan.wp_visit trivial ?_
    rintro _ rfl
    refine Plan.wp_ret ?_
    reach_tac
  | «pattern» x1 =>
    refine Plan.wp_visit trivial ?_
    rintro _ rfl
    refine Plan.wp_ret ?_
    reach_tac
theorem reaches_assignmentPattern (m : LeafMap) (a : Kind.Val .assignmentPattern) : Reaches m .assignmentPattern a := by
  exact rfl
theorem reaches_declFunction (m : LeafMap) (a : Kind.Val .declFunction) : Reaches m .declFunction a := by
  obtain ⟨x1, x2, x3, x4, x5, x6⟩ := a
  simp only [Reaches, plan]
  refine Plan.wp_visit trivial fun y1 h1 => ?_
  subst h1
  refine Plan.wp_visit trivial fun y2 h2 => ?_
  subst h2
  refine Plan.wp_visit trivial fun y3 h3 => ?_
  subst h3
  refine Plan.wp_ret ?_
  reach_tac
theorem reaches_declClass (m : LeafMap) (a : Kind.Val .declClass) : Reaches m .declClass a := by
  obtain ⟨x1, x2, x3, x4⟩ := a
  simp only [Reaches, plan]
  refine Plan.wp_visit trivial fun y1 h1 => ?_
  subst h1
  refine Plan.wp_opt (fun _ _ => trivial) fun y2 h2 => ?_
  replace h2 := optRel_eq h2
  subst h2
  refine Plan.wp_list (fun _ _ => trivial) fun y3 h3 => ?_
  replace h3 := listRel_eq h3
  subst h3
  refine Plan.wp_ret ?_
  reach_tac
theorem reaches_declImport (m : LeafMap) (a : Kind.Val .declImport) : Reaches m .declImport a := by
  obtain ⟨x1, x2, x3, x4, x5⟩ := a
  simp only [Reaches, plan]
  refine Plan.wp_opt (fun _ _ => trivial) fun y1 h1 => ?_
  replace h1 := optRel_eq h1
  subst h1
  refine Plan.wp_optList (fun _ _ _ _ => trivial) fun y2 h2 => ?_
  replace h2 := optListRel_eq h2
  subst h2
  refine Plan.wp_optList (fun _ _ _ _ => trivial) fun y3 h3 => ?_
  replace h3 := optListRel_eq h3
  subst h3
  refine Plan.wp_visit trivial fun y4 h4 => ?_
  subst h4
  refine Plan.wp_ret ?_
  simp only [Kind.mapReached, kreach_namedImport, kreach_ident, Option.map_map, Function.comp_def, List.map_map, NamedImport.reach_twice]
theorem reaches_stmtExpr (m : LeafMap) (a : Kind.Val .stmtExpr) : Reaches m .stmtExpr a := by
  obtain ⟨x1, x2⟩ := a
  simp only [Reaches, plan]
  refine Plan.wp_visit trivial fun y1 h1 => ?_
  subst h1
  refine Plan.wp_ret ?_
  reach_tac
theorem reaches_stmtBlock (m : LeafMap) (a : Kind.Val .stmtBlock) : Reaches m .stmtBlock a := by
  obtain ⟨x1, x2⟩ := a
  simp only [Reaches, plan]
  refine Plan.wp_list (fun _ _ => trivial) fun y1 h1 => ?_
  replace h1 := listRel_eq h1
  subst h1
  refine Plan.wp_ret ?_
  reach_tac
theorem reaches_exprBinary (m : LeafMap) (a : Kind.Val .exprBinary) : Reaches m .exprBinary a := by
  obtain ⟨x1, x2, x3, x4⟩ := a
  simp only [Reaches, plan]
  refine Plan.wp_visit trivial fun y1 h1 => ?_
  subst h1
  refine Plan.wp_visit trivial fun y2 h2 => ?_
  subst h2
  refine Plan.wp_visit trivial fun y3 h3 => ?_
  subst h3
  refine Plan.wp_ret ?_
  reach_tac
theorem reaches_exprLogical (m : LeafMap) (a : Kind.Val .exprLogical) : Reaches m .exprLogical a := by
  obtain ⟨x1, x2, x3, x4⟩ := a
  simp only [Reaches, plan]
  refine Plan.wp_visit trivial fun y1 h1 => ?_
  subst h1
  refine Plan.wp_visit trivial fun y2 h2 => ?_
  subst h2
  refine Plan.wp_visit trivial fun y3 h3 => ?_
  subst h3
  refine Plan.wp_ret ?_
  reach_tac
theorem reaches_exprUnary (m : LeafMap) (a : Kind.Val .exprUnary) : Reaches m .exprUnary a := by
  obtain ⟨x1, x2, x3⟩ := a
  simp only [Reaches, plan]
  refine Plan.wp_visit trivial fun y1 h1 => ?_
  subst h1
  refine Plan.wp_visit trivial fun y2 h2 => ?_
  subst h2
  refine Plan.wp_ret ?_
  reach_tac
theorem reaches_exprCall (m : LeafMap) (a : Kind.Val .exprCall) : Reaches m .exprCall a := by
  obtain ⟨x1, x2, x3, x4⟩ := a
  simp only [Reaches, plan]
  refine Plan.wp_visit trivial fun y1 h1 => ?_
  subst h1
  refine Plan.wp_list (fun _ _ => trivial) fun y2 h2 => ?_
  replace h2 := listRel_eq h2
  subst h2
  refine Plan.wp_ret ?_
  reach_tac
theorem reaches_exprMember (m : LeafMap) (a : Kind.Val .exprMember) : Reaches m .exprMember a := by
  obtain ⟨x1, x2, x3⟩ := a
  simp only [Reaches, plan]
  refine Plan.wp_visit trivial fun y1 h1 => ?_
  subst h1
  refine Plan.wp_visit trivial fun y2 h2 => ?_
  subst h2
  refine Plan.wp_ret ?_
  reach_tac
theorem reaches_exprOptionalMember (m : LeafMap) (a : Kind.Val .exprOptionalMember) : Reaches m .exprOptionalMember a := by
  obtain ⟨x1, x2, x3, x4⟩ := a
  simp only [Reaches, plan]
  refine Plan.wp_visit trivial fun y1 h1 => ?_
  subst h1
  refine Plan.wp_visit trivial fun y2 h2 => ?_
  subst h2
  refine Plan.wp_ret ?_
  reach_tac
theorem reaches_exprOptionalCall (m : LeafMap) (a : Kind.Val .exprOptionalCall) : Reaches m .exprOptionalCall a := by
  obtain ⟨x1, x2, x3, x4, x5⟩ := a
  simp only [Reaches, plan]
  refine Plan.wp_visit trivial fun y1 h1 => ?_
  subst h1
  refine Plan.wp_list (fun _ _ => trivial) fun y2 h2 => ?_
  replace h2 := listRel_eq h2
  subst h2
  refine Plan.wp_ret ?_
  reach_tac
theorem reaches_exprParenthesized (m : LeafMap) (a : Kind.Val .exprParenthesized) : Reaches m .exprParenthesized a := by
  obtain ⟨x1, x2⟩ := a
  simp only [Reaches, plan]
  refine Plan.wp_visit trivial fun y1 h1 => ?_
  subst h1
  refine Plan.wp_ret ?_
  reach_tac
theorem reaches_exprLiteral (m : LeafMap) (a : Kind.Val .exprLiteral) : Reaches m .exprLiteral a := by
  obtain ⟨x1, x2⟩ := a
  simp only [Reaches, plan]
  refine Plan.wp_visit trivial fun y1 h1 => ?_
  subst h1
  refine Plan.wp_ret ?_
  reach_tac
theorem reaches_exprAssignment (m : LeafMap) (a : Kind.Val .exprAssignment) : Reaches m .exprAssignment a := by
  obtain ⟨x1, x2, x3, x4⟩ := a
  simp only [Reaches, plan]
  refine Plan.wp_visit trivial fun y1 h1 => ?_
  subst h1
  refine Plan.wp_visit trivial fun y2 h2 => ?_
  subst h2
  refine Plan.wp_visit trivial fun y3 h3 => ?_
  subst h3
  refine Plan.wp_ret ?_
  reach_tac
theorem reaches_exprYield (m : LeafMap) (a : Kind.Val .exprYield) : Reaches m .exprYield a := by
  obtain ⟨x1, x2, x3⟩ := a
  simp only [Reaches, plan]
  refine Plan.wp_opt (fun _ _ => trivial) fun y1 h1 => ?_
  replace h1 := optRel_eq h1
  subst h1
  refine Plan.wp_ret ?_
  reach_tac
theorem reaches_exprConditional (m : LeafMap) (a : Kind.Val .exprConditional) : Reaches m .exprConditional a := by
  obtain ⟨x1, x2, x3, x4⟩ := a
  simp only [Reaches, plan]
  refine Plan.wp_visit trivial fun y1 h1 => ?_
  subst h1
  refine Plan.wp_visit trivial fun y2 h2 => ?_
  subst h2
  refine Plan.wp_visit trivial fun y3 h3 => ?_
  subst h3
  refine Plan.wp_ret ?_
  simp only [Kind.mapReached, Expr.reach_twice]
theorem reaches_exprUpdate (m : LeafMap) (a : Kind.Val .exprUpdate) : Reaches m .exprUpdate a := by
  obtain ⟨x1, x2, x3, x4⟩ := a
  simp only [Reaches, plan]
  refine Plan.wp_visit trivial fun y1 h1 => ?_
  subst h1
  refine Plan.wp_visit trivial fun y2 h2 => ?_
  subst h2
  refine Plan.wp_ret ?_
  reach_tac
theorem reaches_exprSequence (m : LeafMap) (a : Kind.Val .exprSequence) : Reaches m .exprSequence a := by
  obtain ⟨x1, x2⟩ := a
  simp only [Reaches, plan]
  refine Plan.wp_list (fun _ _ => trivial) fun y1 h1 => ?_
  replace h1 := listRel_eq h1
  subst h1
  refine Plan.wp_ret ?_
  reach_tac
theorem reaches_exprThis (m : LeafMap) (a : Kind.Val .exprThis) : Reaches m .exprThis a := by
  exact rfl
theorem reaches_exprFunction (m : LeafMap) (a : Kind.Val .exprFunction) : Reaches m .exprFunction a := by
  obtain ⟨x1, x2, x3, x4, x5, x6⟩ := a
  simp only [Reaches, plan]
  refine Plan.wp_opt (fun _ _ => trivial) fun y1 h1 => ?_
  replace h1 := optRel_eq h1
  subst h1
  refine Plan.wp_visit trivial fun y2 h2 => ?_
  subst h2
  refine Plan.wp_visit trivial fun y3 h3 => ?_
  subst h3
  refine Plan.wp_ret ?_
  reach_tac
theorem reaches_exprNew (m : LeafMap) (a : Kind.Val .exprNew) : Reaches m .exprNew a := by
  obtain ⟨x1, x2, x3, x4⟩ := a
  simp only [Reaches, plan]
  refine Plan.wp_visit trivial fun y1 h1 => ?_
  subst h1
  refine Plan.wp_list (fun _ _ => trivial) fun y2 h2 => ?_
  replace h2 := listRel_eq h2
  subst h2
  refine Plan.wp_ret ?_
  reach_tac
theorem reaches_exprArrowFunction (m : LeafMap) (a : Kind.Val .exprArrowFunction) : Reaches m .exprArrowFunction a := by
  obtain ⟨x1, x2, x3, x4, x5⟩ := a
  simp only [Reaches, plan]
  refine Plan.wp_visit trivial fun y1 h1 => ?_
  subst h1
  refine Plan.wp_visit trivial fun y2 h2 => ?_
  subst h2
  refine Plan.wp_ret ?_
  reach_tac
theorem reaches_exprAwait (m : LeafMap) (a : Kind.Val .exprAwait) : Reaches m .exprAwait a := by
  obtain ⟨x1, x2⟩ := a
  simp only [Reaches, plan]
  refine Plan.wp_visit trivial fun y1 h1 => ?_
  subst h1
  refine Plan.wp_ret ?_
  reach_tac
theorem reaches_exprMetaProperty (m : LeafMap) (a : Kind.Val .exprMetaProperty) : Reaches m .exprMetaProperty a := by
  obtain ⟨x1, x2, x3⟩ := a
  simp only [Reaches, plan]
  refine Plan.wp_visit trivial fun y1 h1 => ?_
  subst h1
  refine Plan.wp_visit trivial fun y2 h2 => ?_
  subst h2
  refine Plan.wp_ret ?_
  reach_tac
theorem reaches_exprClass (m : LeafMap) (a : Kind.Val .exprClass) : Reaches m .exprClass a := by
  obtain ⟨x1, x2, x3, x4⟩ := a
  simp only [Reaches, plan]
  refine Plan.wp_opt (fun _ _ => trivial) fun y1 h1 => ?_
  replace h1 := optRel_eq h1
  subst h1
  refine Plan.wp_opt (fun _ _ => trivial) fun y2 h2 => ?_
  replace h2 := optRel_eq h2
  subst h2
  refine Plan.wp_list (fun _ _ => trivial) fun y3 h3 => ?_
  replace h3 := listRel_eq h3
  subst h3
  refine Plan.wp_ret ?_
  reach_tac
theorem reaches_stmtReturn (m : LeafMap) (a : Kind.Val .stmtReturn) : Reaches m .stmtReturn a := by
  obtain ⟨x1, x2⟩ := a
  simp only [Reaches, plan]
  refine Plan.wp_opt (fun _ _ => trivial) fun y1 h1 => ?_
  replace h1 := optRel_eq h1
  subst h1
  refine Plan.wp_ret ?_
  reach_tac
theorem reaches_stmtVariable (m : LeafMap) (a : Kind.Val .stmtVariable) : Reaches m .stmtVariable a := by
  obtain ⟨x1, x2, x3⟩ := a
  simp only [Reaches, plan]
  refine Plan.wp_list (fun _ _ => trivial) fun y1 h1 => ?_
  replace h1 := listRel_eq h1
  subst h1
  refine Plan.wp_ret ?_
  reach_tac
theorem reaches_stmtEmpty (m : LeafMap) (a : Kind.Val .stmtEmpty) : Reaches m .stmtEmpty a := by
  exact rfl
theorem reaches_stmtTry (m : LeafMap) (a : Kind.Val .stmtTry) : Reaches m .stmtTry a := by
  obtain ⟨x1, x2, x3, x4⟩ := a
  simp only [Reaches, plan]
  refine Plan.wp_visit trivial fun y1 h1 => ?_
  subst h1
  refine Plan.wp_opt (fun _ _ => trivial) fun y2 h2 => ?_
  replace h2 := optRel_eq h2
  subst h2
  refine Plan.wp_opt (fun _ _ => trivial) fun y3 h3 => ?_
  replace h3 := optRel_eq h3
  subst h3
  refine Plan.wp_ret ?_
  reach_tac
theorem reaches_stmtDebugger (m : LeafMap) (a : Kind.Val .stmtDebugger) : Reaches m .stmtDebugger a := by
  exact rfl
theorem reaches_stmtThrow (m : LeafMap) (a : Kind.Val .stmtThrow) : Reaches m .stmtThrow a := by
  obtain ⟨x1, x2⟩ := a
  simp only [Reaches, plan]
  refine Plan.wp_visit trivial fun y1 h1 => ?_
  subst h1
  refine Plan.wp_ret ?_
  reach_tac
theorem reaches_stmtLabeled (m : LeafMap) (a : Kind.Val .stmtLabeled) : Reaches m .stmtLabeled a := by
  obtain ⟨x1, x2, x3⟩ := a
  simp only [Reaches, plan]
  refine Plan.wp_visit trivial fun y1 h1 => ?_
  subst h1
  refine Plan.wp_visit trivial fun y2 h2 => ?_
  subst h2
  refine Plan.wp_ret ?_
  reach_tac
theorem reaches_stmtWith (m : LeafMap) (a : Kind.Val .stmtWith) : Reaches m .stmtWith a := by
  obtain ⟨x1, x2, x3⟩ := a
  simp only [Reaches, plan]
  refine Plan.wp_visit trivial fun y1 h1 => ?_
  subst h1
  refine Plan.wp_visit trivial fun y2 h2 => ?_
  subst h2
  refine Plan.wp_ret ?_
  reach_tac
theorem reaches_stmtContinue (m : LeafMap) (a : Kind.Val .stmtContinue) : Reaches m .stmtContinue a := by
  obtain ⟨x1, x2⟩ := a
  simp only [Reaches, plan]
  refine Plan.wp_opt (fun _ _ => trivial) fun y1 h1 => ?_
  replace h1 := optRel_eq h1
  subst h1
  refine Plan.wp_ret ?_
  reach_tac
theorem reaches_stmtBreak (m : LeafMap) (a : Kind.Val .stmtBreak) : Reaches m .stmtBreak a := by
  obtain ⟨x1, x2⟩ := a
  simp only [Reaches, plan]
  refine Plan.wp_opt (fun _ _ => trivial) fun y1 h1 => ?_
  replace h1 := optRel_eq h1
  subst h1
  refine Plan.wp_ret ?_
  reach_tac
theorem reaches_stmtSwitch (m : LeafMap) (a : Kind.Val .stmtSwitch) : Reaches m .stmtSwitch a := by
  obtain ⟨x1, x2, x3⟩ := a
  simp only [Reaches, plan]
  refine Plan.wp_visit trivial fun y1 h1 => ?_
  subst h1
  refine Plan.wp_list (fun _ _ => trivial) fun y2 h2 => ?_
  replace h2 := listRel_eq h2
  subst h2
  refine Plan.wp_ret ?_
  reach_tac
theorem reaches_stmtIf (m : LeafMap) (a : Kind.Val .stmtIf) : Reaches m .stmtIf a := by
  obtain ⟨x1, x2, x3, x4⟩ := a
  simp only [Reaches, plan]
  refine Plan.wp_visit trivial fun y1 h1 => ?_
  subst h1
  refine Plan.wp_visit trivial fun y2 h2 => ?_
  subst h2
  refine Plan.wp_opt (fun _ _ => trivial) fun y3 h3 => ?_
  replace h3 := optRel_eq h3
  subst h3
  refine Plan.wp_ret ?_
  reach_tac
theorem reaches_stmtFor (m : LeafMap) (a : Kind.Val .stmtFor) : Reaches m .stmtFor a := by
  obtain ⟨x1, x2, x3, x4, x5⟩ := a
  simp only [Reaches, plan]
  refine Plan.wp_opt (fun _ _ => trivial) fun y1 h1 => ?_
  replace h1 := optRel_eq h1
  subst h1
  refine Plan.wp_opt (fun _ _ => trivial) fun y2 h2 => ?_
  replace h2 := optRel_eq h2
  subst h2
  refine Plan.wp_opt (fun _ _ => trivial) fun y3 h3 => ?_
  replace h3 := optRel_eq h3
  subst h3
  refine Plan.wp_visit trivial fun y4 h4 => ?_
  subst h4
  refine Plan.wp_ret ?_
  reach_tac
theorem reaches_stmtForOf (m : LeafMap) (a : Kind.Val .stmtForOf) : Reaches m .stmtForOf a := by
  obtain ⟨x1, x2, x3, x4, x5⟩ := a
  simp only [Reaches, plan]
  refine Plan.wp_visit trivial fun y1 h1 => ?_
  subst h1
  refine Plan.wp_visit trivial fun y2 h2 => ?_
  subst h2
  refine Plan.wp_visit trivial fun y3 h3 => ?_
  subst h3
  refine Plan.wp_ret ?_
  reach_tac
theorem reaches_stmtForIn (m : LeafMap) (a : Kind.Val .stmtForIn) : Reaches m .stmtForIn a := by
  obtain ⟨x1, x2, x3, x4⟩ := a
  simp only [Reaches, plan]
  refine Plan.wp_visit trivial fun y1 h1 => ?_
  subst h1
  refine Plan.wp_visit trivial fun y2 h2 => ?_
  subst h2
  refine Plan.wp_visit trivial fun y3 h3 => ?_
  subst h3
  refine Plan.wp_ret ?_
  reach_tac
theorem reaches_stmtWhile (m : LeafMap) (a : Kind.Val .stmtWhile) : Reaches m .stmtWhile a := by
  obtain ⟨x1, x2, x3⟩ := a
  simp only [Reaches, plan]
  refine Plan.wp_visit trivial fun y1 h1 => ?_
  subst h1
  refine Plan.wp_visit trivial fun y2 h2 => ?_
  subst h2
  refine Plan.wp_ret ?_
  reach_tac
theorem reaches_stmtDoWhile (m : LeafMap) (a : Kind.Val .stmtDoWhile) : Reaches m .stmtDoWhile a := by
  obtain ⟨x1, x2, x3⟩ := a
  simp only [Reaches, plan]
  refine Plan.wp_visit trivial fun y1 h1 => ?_
  subst h1
  refine Plan.wp_visit trivial fun y2 h2 => ?_
  subst h2
  refine Plan.wp_ret ?_
  reach_tac
theorem reaches_stmtList (m : LeafMap) (a : Kind.Val .stmtList) : Reaches m .stmtList a := by
  obtain ⟨x1, x2, x3⟩ := a
  simp only [Reaches, plan]
  refine Plan.wp_list (fun _ _ => trivial) fun y1 h1 => ?_
  replace h1 := listRel_eq h1
  subst h1
  refine Plan.wp_list (fun _ _ => trivial) fun y2 h2 => ?_
  replace h2 := listRel_eq h2
  subst h2
  refine Plan.wp_ret ?_
  reach_tac
theorem reaches_bindingElement (m : LeafMap) (a : Kind.Val .bindingElement) : Reaches m .bindingElement a := by
  obtain ⟨x1, x2, x3⟩ := a
  simp only [Reaches, plan]
  refine Plan.wp_visit trivial fun y1 h1 => ?_
  subst h1
  refine Plan.wp_opt (fun _ _ => trivial) fun y2 h2 => ?_
  replace h2 := optRel_eq h2
  subst h2
  refine Plan.wp_ret ?_
  reach_tac
theorem reaches_formalParameters (m : LeafMap) (a : Kind.Val .formalParameters) : Reaches m .formalParameters a := by
  obtain ⟨x1, x2, x3⟩ := a
  simp only [Reaches, plan]
  refine Plan.wp_list (fun _ _ => trivial) fun y1 h1 => ?_
  replace h1 := listRel_eq h1
  subst h1
  refine Plan.wp_opt (fun _ _ => trivial) fun y2 h2 => ?_
  replace h2 := optRel_eq h2
  subst h2
  refine Plan.wp_ret ?_
  reach_tac
theorem reaches_variableDeclaration (m : LeafMap) (a : Kind.Val .variableDeclaration) : Reaches m .variableDeclaration a := by
  obtain ⟨x1, x2, x3⟩ := a
  simp only [Reaches, plan]
  refine Plan.wp_visit trivial fun y1 h1 => ?_
  subst h1
  refine Plan.wp_opt (fun _ _ => trivial) fun y2 h2 => ?_
  replace h2 := optRel_eq h2
  subst h2
  refine Plan.wp_ret ?_
  reach_tac
theorem reaches_litTemplate (m : LeafMap) (a : Kind.Val .litTemplate) : Reaches m .litTemplate a := by
  simp only [Reaches, plan]
  refine Plan.wp_list (fun _ _ => trivial) fun y1 h1 => ?_
  replace h1 := listRel_eq h1
  subst h1
  refine Plan.wp_ret ?_
  reach_tac
theorem reaches_litArray (m : LeafMap) (a : Kind.Val .litArray) : Reaches m .litArray a := by
  simp only [Reaches, plan]
  refine Plan.wp_list (fun _ _ => trivial) fun y1 h1 => ?_
  replace h1 := listRel_eq h1
  subst h1
  refine Plan.wp_ret ?_
  reach_tac
theorem reaches_litObject (m : LeafMap) (a : Kind.Val .litObject) : Reaches m .litObject a := by
  simp only [Reaches, plan]
  refine Plan.wp_list (fun _ _ => trivial) fun y1 h1 => ?_
  replace h1 := listRel_eq h1
  subst h1
  refine Plan.wp_ret ?_
  reach_tac
theorem reaches_arrayBinding (m : LeafMap) (a : Kind.Val .arrayBinding) : Reaches m .arrayBinding a := by
  obtain ⟨x1, x2, x3⟩ := a
  simp only [Reaches, plan]
  refine Plan.wp_listOpt (fun _ _ => trivial) fun y1 h1 => ?_
  replace h1 := listOptRel_eq h1
  subst h1
  refine Plan.wp_opt (fun _ _ => trivial) fun y2 h2 => ?_
  replace h2 := optRel_eq h2
  subst h2
  refine Plan.wp_ret ?_
  reach_tac
theorem reaches_objectBinding (m : LeafMap) (a : Kind.Val .objectBinding) : Reaches m .objectBinding a := by
  obtain ⟨x1, x2, x3⟩ := a
  simp only [Reaches, plan]
  refine Plan.wp_list (fun _ _ => trivial) fun y1 h1 => ?_
  replace h1 := listRel_eq h1
  subst h1
  refine Plan.wp_opt (fun _ _ => trivial) fun y2 h2 => ?_
  replace h2 := optRel_eq h2
  subst h2
  refine Plan.wp_ret ?_
  reach_tac
theorem reaches_singleNameBinding (m : LeafMap) (a : Kind.Val .singleNameBinding) : Reaches m .singleNameBinding a := by
  obtain ⟨x1, x2, x3⟩ := a
  simp only [Reaches, plan]
  refine Plan.wp_visit trivial fun y1 h1 => ?_
  subst h1
  refine Plan.wp_opt (fun _ _ => trivial) fun y2 h2 => ?_
  replace h2 := optRel_eq h2
  subst h2
  refine Plan.wp_ret ?_
  reach_tac
theorem reaches_namedBinding (m : LeafMap) (a : Kind.Val .namedBinding) : Reaches m .namedBinding a := by
  obtain ⟨x1, x2, x3⟩ := a
  simp only [Reaches, plan]
  refine Plan.wp_visit trivial fun y1 h1 => ?_
  subst h1
  refine Plan.wp_visit trivial fun y2 h2 => ?_
  subst h2
  refine Plan.wp_ret ?_
  reach_tac
theorem reaches_namedProperty (m : LeafMap) (a : Kind.Val .namedProperty) : Reaches m .namedProperty a := by
  obtain ⟨x1, x2, x3⟩ := a
  simp only [Reaches, plan]
  refine Plan.wp_visit trivial fun y1 h1 => ?_
  subst h1
  refine Plan.wp_visit trivial fun y2 h2 => ?_
  subst h2
  refine Plan.wp_ret ?_
  reach_tac
theorem reaches_methodDefinition (m : LeafMap) (a : Kind.Val .methodDefinition) : Reaches m .methodDefinition a := by
  obtain ⟨x1, x2, x3, x4, x5, x6, x7, x8⟩ := a
  simp only [Reaches, plan]
  refine Plan.wp_visit trivial fun y1 h1 => ?_
  subst h1
  refine Plan.wp_visit trivial fun y2 h2 => ?_
  subst h2
  refine Plan.wp_visit trivial fun y3 h3 => ?_
  subst h3
  refine Plan.wp_ret ?_
  reach_tac
theorem reaches_catchClause (m : LeafMap) (a : Kind.Val .catchClause) : Reaches m .catchClause a := by
  obtain ⟨x1, x2, x3⟩ := a
  simp only [Reaches, plan]
  refine Plan.wp_opt (fun _ _ => trivial) fun y1 h1 => ?_
  replace h1 := optRel_eq h1
  subst h1
  refine Plan.wp_visit trivial fun y2 h2 => ?_
  subst h2
  refine Plan.wp_ret ?_
  reach_tac
theorem reaches_switchCase (m : LeafMap) (a : Kind.Val .switchCase) : Reaches m .switchCase a := by
  obtain ⟨x1, x2, x3⟩ := a
  simp only [Reaches, plan]
  refine Plan.wp_opt (fun _ _ => trivial) fun y1 h1 => ?_
  replace h1 := optRel_eq h1
  subst h1
  refine Plan.wp_list (fun _ _ => trivial) fun y2 h2 => ?_
  replace h2 := listRel_eq h2
  subst h2
  refine Plan.wp_ret ?_
  reach_tac
theorem reaches_exportDecl (m : LeafMap) (a : Kind.Val .exportDecl) : Reaches m .exportDecl a := by
  obtain ⟨x1, x2⟩ := a
  simp only [Reaches, plan]
  refine Plan.wp_visit trivial fun y1 h1 => ?_
  subst h1
  refine Plan.wp_ret ?_
  reach_tac
theorem reaches_exportDefaultDecl (m : LeafMap) (a : Kind.Val .exportDefaultDecl) : Reaches m .exportDefaultDecl a := by
  obtain ⟨x1, x2⟩ := a
  simp only [Reaches, plan]
  refine Plan.wp_visit trivial fun y1 h1 => ?_
  subst h1
  refine Plan.wp_ret ?_
  reach_tac
theorem reaches_exportDefaultExpr (m : LeafMap) (a : Kind.Val .exportDefaultExpr) : Reaches m .exportDefaultExpr a := by
  obtain ⟨x1, x2⟩ := a
  simp only [Reaches, plan]
  refine Plan.wp_visit trivial fun y1 h1 => ?_
  subst h1
  refine Plan.wp_ret ?_
  reach_tac
theorem reaches_exprTaggedTemplate (m : LeafMap) (a : Kind.Val .exprTaggedTemplate) : Reaches m .exprTaggedTemplate a := by
  obtain ⟨x1, x2, x3⟩ := a
  simp only [Reaches, plan]
  refine Plan.wp_visit trivial fun y1 h1 => ?_
  subst h1
  refine Plan.wp_visit trivial fun y2 h2 => ?_
  subst h2
  refine Plan.wp_ret ?_
  reach_tac
theorem reaches_exportNamed (m : LeafMap) (a : Kind.Val .exportNamed) : Reaches m .exportNamed a := by
  obtain ⟨x1, x2, x3⟩ := a
  simp only [Reaches, plan]
  refine Plan.wp_list (fun _ _ => trivial) fun y1 h1 => ?_
  replace h1 := listRel_eq h1
  subst h1
  refine Plan.wp_opt (fun _ _ => trivial) fun y2 h2 => ?_
  replace h2 := optRel_eq h2
  subst h2
  exact rfl
theorem reaches_exportNamespace (m : LeafMap) (a : Kind.Val .exportNamespace) : Reaches m .exportNamespace a := by
  obtain ⟨x1, x2, x3⟩ := a
  simp only [Reaches, plan]
  refine Plan.wp_opt (fun _ _ => trivial) fun y1 h1 => ?_
  replace h1 := optRel_eq h1
  subst h1
  refine Plan.wp_visit trivial fun y2 h2 => ?_
  subst h2
  refine Plan.wp_ret ?_
  reach_tac
theorem reaches_namedExport (m : LeafMap) (a : Kind.Val .namedExport) : Reaches m .namedExport a := by
  obtain ⟨x1, x2, x3⟩ := a
  simp only [Reaches, plan]
  refine Plan.wp_visit trivial fun y1 h1 => ?_
  subst h1
  refine Plan.wp_opt (fun _ _ => trivial) fun y2 h2 => ?_
  replace h2 := optRel_eq h2
  subst h2
  refine Plan.wp_ret ?_
  reach_tac
theorem reaches_namedImport (m : LeafMap) (a : Kind.Val .namedImport) : Reaches m .namedImport a := by
  obtain ⟨x1, x2, x3⟩ := a
  simp only [Reaches, plan]
  refine Plan.wp_visit trivial fun y1 h1 => ?_
  subst h1
  refine Plan.wp_opt (fun _ _ => trivial) fun y2 h2 => ?_
  replace h2 := optRel_eq h2
  subst h2
  refine Plan.wp_ret ?_
  reach_tac
theorem reaches_body (m : LeafMap) (a : Kind.Val .body) : Reaches m .body a := by
  obtain ⟨x1, x2, x3⟩ := a
  simp only [Reaches, plan]
  refine Plan.wp_list (fun _ _ => trivial) fun y1 h1 => ?_
  replace h1 := listRel_eq h1
  subst h1
  refine Plan.wp_list (fun _ _ => trivial) fun y2 h2 => ?_
  replace h2 := listRel_eq h2
  subst h2
  refine Plan.wp_ret ?_
  reach_tac
theorem reaches_forBinding (m : LeafMap) (a : Kind.Val .forBinding) : Reaches m .forBinding a := by
  exact rfl

theorem plan_reaches (m : LeafMap) : ∀ (k : Kind) (a : k.Val), k.isLeaf = false → Reaches m k a
  | .program, a, h => reaches_program m a
  | .expr, a, h => reaches_expr m a
  | .stmt, a, h => reaches_stmt m a
  | .bindingPattern, a, h => reaches_bindingPattern m a
  | .literal, a, h => reaches_literal m a
  | .litNumber, a, h => Bool.noConfusion h
  | .templatePart, a, h => reaches_templatePart m a
  | .objectBindingProp, a, h => reaches_objectBindingProp m a
  | .propertyName, a, h => reaches_propertyName m a
  | .classElement, a, h => reaches_classElement m a
  | .forInit, a, h => reaches_forInit m a
  | .forDeclaration, a, h => reaches_forDeclaration m a
  | .callee, a, h => reaches_callee m a
  | .argument, a, h => reaches_argument m a
  | .memberObject, a, h => reaches_memberObject m a
  | .super, a, h => reaches_super m a
  | .memberProperty, a, h => reaches_memberProperty m a
  | .arrayElement, a, h => reaches_arrayElement m a
  | .arrowFunctionBody, a, h => reaches_arrowFunctionBody m a
  | .propertyDefinition, a, h => reaches_propertyDefinition m a
  | .binaryOperator, a, h => Bool.noConfusion h
  | .logicalOperator, a, h => Bool.noConfusion h
  | .assignmentOperator, a, h => Bool.noConfusion h
  | .unaryOperator, a, h => Bool.noConfusion h
  | .updateOperator, a, h => Bool.noConfusion h
  | .declExport, a, h => reaches_declExport m a
  | .patternOrExpr, a, h => reaches_patternOrExpr m a
  | .assignmentPattern, a, h => reaches_assignmentPattern m a
  | .declFunction, a, h => reaches_declFunction m a
  | .declClass, a, h => reaches_declClass m a
  | .declImport, a, h => reaches_declImport m a
  | .stmtExpr, a, h => reaches_stmtExpr m a
  | .stmtBlock, a, h => reaches_stmtBlock m a
  | .exprBinary, a, h => reaches_exprBinary m a
  | .exprLogical, a, h => reaches_exprLogical m a
  | .exprUnary, a, h => reaches_exprUnary m a
  | .exprCall, a, h => reaches_exprCall m a
  | .exprMember, a, h => reaches_exprMember m a
  | .exprOptionalMember, a, h => reaches_exprOptionalMember m a
  | .exprOptionalCall, a, h => reaches_exprOptionalCall m a
  | .exprParenthesized, a, h => reaches_exprParenthesized m a
  | .exprLiteral, a, h => reaches_exprLiteral m a
  | .exprAssignment, a, h => reaches_exprAssignment m a
  | .exprYield, a, h => reaches_exprYield m a
  | .exprConditional, a, h => reaches_exprConditional m a
  | .exprUpdate, a, h => reaches_exprUpdate m a
  | .exprSequence, a, h => reaches_exprSequence m a
  | .exprThis, a, h => reaches_exprThis m a
  | .exprFunction, a, h => reaches_exprFunction m a
  | .exprNew, a, h => reaches_exprNew m a
  | .exprArrowFunction, a, h => reaches_exprArrowFunction m a
  | .exprAwait, a, h => reaches_exprAwait m a
  | .exprMetaProperty, a, h => reaches_exprMetaProperty m a
  | .exprClass, a, h => reaches_exprClass m a
  | .stmtReturn, a, h => reaches_stmtReturn m a
  | .stmtVariable, a, h => reaches_stmtVariable m a
  | .stmtEmpty, a, h => reaches_stmtEmpty m a
  | .stmtTry, a, h => reaches_stmtTry m a
  | .stmtDebugger, a, h => reaches_stmtDebugger m a
  | .stmtThrow, a, h => reaches_stmtThrow m a
  | .stmtLabeled, a, h => reaches_stmtLabeled m a
  | .stmtWith, a, h => reaches_stmtWith m a
  | .stmtContinue, a, h => reaches_stmtContinue m a
  | .stmtBreak, a, h => reaches_stmtBreak m a
  | .stmtSwitch, a, h => reaches_stmtSwitch m a
  | .stmtIf, a, h => reaches_stmtIf m a
  | .stmtFor, a, h => reaches_stmtFor m a
  | .stmtForOf, a, h => reaches_stmtForOf m a
  | .stmtForIn, a, h => reaches_stmtForIn m a
  | .stmtWhile, a, h => reaches_stmtWhile m a
  | .stmtDoWhile, a, h => reaches_stmtDoWhile m a
  | .stmtList, a, h => reaches_stmtList m a
  | .bindingElement, a, h => reaches_bindingElement m a
  | .formalParameters, a, h => reaches_formalParameters m a
  | .variableDeclaration, a, h => reaches_variableDeclaration m a
  | .litString, a, h => Bool.noConfusion h
  | .litTemplate, a, h => reaches_litTemplate m a
  | .litArray, a, h => reaches_litArray m a
  | .litObject, a, h => reaches_litObject m a
  | .arrayBinding, a, h => reaches_arrayBinding m a
  | .objectBinding, a, h => reaches_objectBinding m a
  | .singleNameBinding, a, h => reaches_singleNameBinding m a
  | .namedBinding, a, h => reaches_namedBinding m a
  | .namedProperty, a, h => reaches_namedProperty m a
  | .methodDefinition, a, h => reaches_methodDefinition m a
  | .catchClause, a, h => reaches_catchClause m a
  | .switchCase, a, h => reaches_switchCase m a
  | .exportDecl, a, h => reaches_exportDecl m a
  | .exportDefaultDecl, a, h => reaches_exportDefaultDecl m a
  | .exportDefaultExpr, a, h => reaches_exportDefaultExpr m a
  | .exprTaggedTemplate, a, h => reaches_exprTaggedTemplate m a
  | .exportNamed, a, h => reaches_exportNamed m a
  | .exportNamespace, a, h => reaches_exportNamespace m a
  | .namedExport, a, h => reaches_namedExport m a
  | .namedImport, a, h => reaches_namedImport m a
  | .ident, a, h => Bool.noConfusion h
  | .body, a, h => reaches_body m a
  | .forBinding, a, h => reaches_forBinding m a

macro "plain_tac" : tactic => `(tactic| simp only [Kind.Plain, Expr.Plain, Literal.Plain, TemplatePart.Plain, ArrayElement.Plain, PropDef.Plain, PropName.Plain, MethodDef.Plain, FormalParams.Plain, Body.Plain, ArrowBody.Plain, MemberObject.Plain, MemberProp.Plain, Argument.Plain, Callee.Plain, BindingPattern.Plain, BindingProp.Plain, BindingElement.Plain, PatternOrExpr.Plain, Stmt.Plain, Block.Plain, VarStmt.Plain, VarDecl.Plain, CatchClause.Plain, SwitchCase.Plain, ForInit.Plain, ForDecl.Plain, ExportDecl.Plain,
    plainOptBindingElement_iff, plainOptBindingPattern_iff, plainOptBlock_iff, plainOptCatchClause_iff, plainOptExpr_iff, plainOptForInit_iff, plainOptStmt_iff, plainExprs_iff, plainArguments_iff, plainArrayElements_iff, plainBindingElements_iff, plainBindingProps_iff, plainMethodDefs_iff, plainPropDefs_iff, plainStmts_iff, plainSwitchCases_iff, plainTemplateParts_iff, plainVarDecls_iff, plainOptBindingElements_iff] at *)

/-- The visited nodes of a plain node are plain, and smaller, whatever becomes of those before them. -/
abbrev StaysPlain (k : Kind) (a : k.Val) : Prop :=
  k.Plain a → (plan k a).wp (fun j x => j.Plain x ∧ j.size x < k.size a) (fun _ _ _ => True) (fun _ => True)

theorem plain_program (a : Kind.Val .program) : StaysPlain .program a := by
  obtain ⟨st, x1, x2, x3⟩ := a
  intro h
  refine Plan.wp_visit ⟨h, by size_tac⟩ ?_
  rintro ⟨y1, y2, y3⟩ _
  exact Plan.wp_ret trivial
theorem plain_expr (a : Kind.Val .expr) : StaysPlain .expr a := by
  intro h
  cases a with
  | «arrow» x1 x2 x3 x4 x5 =>
    refine Plan.wp_visit ⟨by plain_tac; try exact h, by size_tac⟩ ?_
    rintro ⟨y1, y2, y3, y4, y5⟩ _
    exact Plan.wp_ret trivial
  | «assign» x1 x2 x3 x4 =>
    refine Plan.wp_visit ⟨by plain_tac; try exact h, by size_tac⟩ ?_
    rintro ⟨y1, y2, y3, y4⟩ _
    exact Plan.wp_ret trivial
  | «await» x1 x2 =>
    refine Plan.wp_visit ⟨by plain_tac; try exact h, by size_tac⟩ ?_
    rintro ⟨y1, y2⟩ _
    exact Plan.wp_ret trivial
  | «binary» x1 x2 x3 x4 =>
    refine Plan.wp_visit ⟨by plain_tac; try exact h, by size_tac⟩ ?_
    rintro ⟨y1, y2, y3, y4⟩ _
    exact Plan.wp_ret trivial
  | «call» x1 x2 x3 x4 =>
    refine Plan.wp_visit ⟨by plain_tac; try exact h, by size_tac⟩ ?_
    rintro ⟨y1, y2, y3, y4⟩ _
    exact Plan.wp_ret trivial
  | «classE» x1 x2 x3 x4 =>
    refine Plan.wp_visit ⟨by plain_tac; try exact h, by size_tac⟩ ?_
    rintro ⟨y1, y2, y3, y4⟩ _
    exact Plan.wp_ret trivial
  | «conditional» x1 x2 x3 x4 =>
    refine Plan.wp_visit ⟨by plain_tac; try exact h, by size_tac⟩ ?_
    rintro ⟨y1, y2, y3, y4⟩ _
    exact Plan.wp_ret trivial
  | «function» x1 x2 x3 x4 x5 x6 =>
    refine Plan.wp_visit ⟨by plain_tac; try exact h, by size_tac⟩ ?_
    rintro ⟨y1, y2, y3, y4, y5, y6⟩ _
    exact Plan.wp_ret trivial
  | «ident» x1 =>
    refine Plan.wp_visit ⟨by plain_tac; try exact h, by size_tac⟩ ?_
    rintro y1 _
    exact Plan.wp_ret trivial
  | «literal» x1 x2 =>
    refine Plan.wp_visit ⟨by plain_tac; try exact h, by size_tac⟩ ?_
    rintro ⟨y1, y2⟩ _
    exact Plan.wp_ret trivial
  | «logical» x1 x2 x3 x4 =>
    refine Plan.wp_visit ⟨by plain_tac; try exact h, by size_tac⟩ ?_
    rintro ⟨y1, y2, y3, y4⟩ _
    exact Plan.wp_ret trivial
  | «member» x1 x2 x3 =>
    refine Plan.wp_visit ⟨by plain_tac; try exact h, by size_tac⟩ ?_
    rintro ⟨y1, y2, y3⟩ _
    exact Plan.wp_ret trivial
  | «metaProp» x1 x2 x3 =>
    refine Plan.wp_visit ⟨by plain_tac; try exact h, by size_tac⟩ ?_
    rintro ⟨y1, y2, y3⟩ _
    exact Plan.wp_ret trivial
  | «new» x1 x2 x3 x4 =>
    refine Plan.wp_visit ⟨by plain_tac; try exact h, by size_tac⟩ ?_
    rintro ⟨y1, y2, y3, y4⟩ _
    exact Plan.wp_ret trivial
  | «optCall» x1 x2 x3 x4 x5 =>
    refine Plan.wp_visit ⟨by plain_tac; try exact h, by size_tac⟩ ?_
    rintro ⟨y1, y2, y3, y4, y5⟩ _
    exact Plan.wp_ret trivial
  | «optMember» x1 x2 x3 x4 =>
    refine Plan.wp_visit ⟨by plain_tac; try exact h, by size_tac⟩ ?_
    rintro ⟨y1, y2, y3, y4⟩ _
    exact Plan.wp_ret trivial
  | «paren» x1 x2 =>
    refine Plan.wp_visit ⟨by plain_tac; try exact h, by size_tac⟩ ?_
    rintro ⟨y1, y2⟩ _
    exact Plan.wp_ret trivial
  | «sequence» x1 x2 =>
    refine Plan.wp_visit ⟨by plain_tac; try exact h, by size_tac⟩ ?_
    rintro ⟨y1, y2⟩ _
    exact Plan.wp_ret trivial
  | «tagged» x1 x2 x3 =>
    refine Plan.wp_visit ⟨by plain_tac; try exact h, by size_tac⟩ ?_
    rintro ⟨y1, y2, y3⟩ _
    exact Plan.wp_ret trivial
  | «this» x1 =>
    refine Plan.wp_visit ⟨by plain_tac; try exact h, by size_tac⟩ ?_
    rintro y1 _
    exact Plan.wp_ret trivial
  | «unary» x1 x2 x3 =>
    refine Plan.wp_visit ⟨by plain_tac; try exact h, by size_tac⟩ ?_
    rintro ⟨y1, y2, y3⟩ _
    exact Plan.wp_ret trivial
  | «update» x1 x2 x3 x4 =>
    refine Plan.wp_visit ⟨by plain_tac; try exact h, by size_tac⟩ ?_
    rintro ⟨y1, y2, y3, y4⟩ _
    exact Plan.wp_ret trivial
  | «yield» x1 x2 x3 =>
    refine Plan.wp_visit ⟨by plain_tac; try exact h, by size_tac⟩ ?_
    rintro ⟨y1, y2, y3⟩ _
    exact Plan.wp_ret trivial
theorem plain_stmt (a : Kind.Val .stmt) : StaysPlain .stmt a := by
  intro h
  cases a with
  | «block» x1 =>
    refine Plan.wp_visit ⟨by plain_tac; try exact h, by size_tac⟩ ?_
    rintro y1 _
    exact Plan.wp_ret trivial
  | «break» x1 x2 =>
    refine Plan.wp_visit ⟨by plain_tac; try exact h, by size_tac⟩ ?_
    rintro ⟨y1, y2⟩ _
    exact Plan.wp_ret trivial
  | «continue» x1 x2 =>
    refine Plan.wp_visit ⟨by plain_tac; try exact h, by size_tac⟩ ?_
    rintro ⟨y1, y2⟩ _
    exact Plan.wp_ret trivial
  | «debugger» x1 =>
    refine Plan.wp_visit ⟨by plain_tac; try exact h, by size_tac⟩ ?_
    rintro y1 _
    exact Plan.wp_ret trivial
  | «doWhile» x1 x2 x3 =>
    refine Plan.wp_visit ⟨by plain_tac; try exact h, by size_tac⟩ ?_
    rintro ⟨y1, y2, y3⟩ _
    exact Plan.wp_ret trivial
  | «empty» x1 =>
    refine Plan.wp_visit ⟨by plain_tac; try exact h, by size_tac⟩ ?_
    rintro y1 _
    exact Plan.wp_ret trivial
  | «expr» x1 x2 =>
    refine Plan.wp_visit ⟨by plain_tac; try exact h, by size_tac⟩ ?_
    rintro ⟨y1, y2⟩ _
    exact Plan.wp_ret trivial
  | «for» x1 x2 x3 x4 x5 =>
    refine Plan.wp_visit ⟨by plain_tac; try exact h, by size_tac⟩ ?_
    rintro ⟨y1, y2, y3, y4, y5⟩ _
    exact Plan.wp_ret trivial
  | «forIn» x1 x2 x3 x4 =>
    refine Plan.wp_visit ⟨by plain_tac; try exact h, by size_tac⟩ ?_
    rintro ⟨y1, y2, y3, y4⟩ _
    exact Plan.wp_ret trivial
  | «forOf» x1 x2 x3 x4 x5 =>
    refine Plan.wp_visit ⟨by plain_tac; try exact h, by size_tac⟩ ?_
    rintro ⟨y1, y2, y3, y4, y5⟩ _
    exact Plan.wp_ret trivial
  | «if» x1 x2 x3 x4 =>
    refine Plan.wp_visit ⟨by plain_tac; try exact h, by size_tac⟩ ?_
    rintro ⟨y1, y2, y3, y4⟩ _
    exact Plan.wp_ret trivial
  | «labeled» x1 x2 x3 =>
    refine Plan.wp_visit ⟨by plain_tac; try exact h, by size_tac⟩ ?_
    rintro ⟨y1, y2, y3⟩ _
    exact Plan.wp_ret trivial
  | «return» x1 x2 =>
    refine Plan.wp_visit ⟨by plain_tac; try exact h, by size_tac⟩ ?_
    rintro ⟨y1, y2⟩ _
    exact Plan.wp_ret trivial
  | «switch» x1 x2 x3 =>
    refine Plan.wp_visit ⟨by plain_tac; try exact h, by size_tac⟩ ?_
    rintro ⟨y1, y2, y3⟩ _
    exact Plan.wp_ret trivial
  | «throw» x1 x2 =>
    refine Plan.wp_visit ⟨by plain_tac; try exact h, by size_tac⟩ ?_
    rintro ⟨y1, y2⟩ _
    exact Plan.wp_ret trivial
  | «try» x1 x2 x3 x4 =>
    refine Plan.wp_visit ⟨by plain_tac; try exact h, by size_tac⟩ ?_
    rintro ⟨y1, y2, y3, y4⟩ _
    exact Plan.wp_ret trivial
  | «variable» x1 =>
    refine Plan.wp_visit ⟨by plain_tac; try exact h, by size_tac⟩ ?_
    rintro y1 _
    exact Plan.wp_ret trivial
  | «while» x1 x2 x3 =>
    refine Plan.wp_visit ⟨by plain_tac; try exact h, by size_tac⟩ ?_
    rintro ⟨y1, y2, y3⟩ _
    exact Plan.wp_ret trivial
  | «with» x1 x2 x3 =>
    refine Plan.wp_visit ⟨by plain_tac; try exact h, by size_tac⟩ ?_
    rintro ⟨y1, y2, y3⟩ _
    exact Plan.wp_ret trivial
  | «classDecl» x1 x2 x3 x4 =>
    refine Plan.wp_visit ⟨by plain_tac; try exact h, by size_tac⟩ ?_
    rintro ⟨y1, y2, y3, y4⟩ _
    exact Plan.wp_ret trivial
  | «functionDecl» x1 x2 x3 x4 x5 x6 =>
    refine Plan.wp_visit ⟨by plain_tac; try exact h, by size_tac⟩ ?_
    rintro ⟨y1, y2, y3, y4, y5, y6⟩ _
    exact Plan.wp_ret trivial
  | «importDecl» x1 x2 x3 x4 x5 =>
    refine Plan.wp_visit ⟨by plain_tac; try exact h, by size_tac⟩ ?_
    rintro ⟨y1, y2, y3, y4, y5⟩ _
    exact Plan.wp_ret trivial
  | «exportDecl» x1 =>
    refine Plan.wp_visit ⟨by plain_tac; try exact h, by size_tac⟩ ?_
    rintro y1 _
    exact Plan.wp_ret trivial
theorem plain_bindingPattern (a : Kind.Val .bindingPattern) : StaysPlain .bindingPattern a := by
  intro h
  cases a with
  | «ident» x1 =>
    refine Plan.wp_visit ⟨by plain_tac; try exact h, by size_tac⟩ ?_
    rintro y1 _
    exact Plan.wp_ret trivial
  | «array» x1 x2 x3 =>
    refine Plan.wp_visit ⟨by plain_tac; try exact h, by size_tac⟩ ?_
    rintro ⟨y1, y2, y3⟩ _
    exact Plan.wp_ret trivial
  | «object» x1 x2 x3 =>
    refine Plan.wp_visit ⟨by plain_tac; try exact h, by size_tac⟩ ?_
    rintro ⟨y1, y2, y3⟩ _
    exact Plan.wp_ret trivial
theorem plain_literal (a : Kind.Val .literal) : StaysPlain .literal a := by
  intro h
  cases a with
  | «null» => exact Plan.wp_ret trivial
  | «boolean» => exact Plan.wp_ret trivial
  | «string» x1 =>
    refine Plan.wp_visit ⟨by plain_tac; try exact h, by size_tac⟩ ?_
    rintro y1 _
    exact Plan.wp_ret trivial
  | «number» x1 =>
    refine Plan.wp_visit ⟨by plain_tac; try exact h, by size_tac⟩ ?_
    rintro y1 _
    exact Plan.wp_ret trivial
  | «array» x1 =>
    refine Plan.wp_visit ⟨by plain_tac; try exact h, by size_tac⟩ ?_
    rintro y1 _
    exact Plan.wp_ret trivial
  | «object» x1 =>
    refine Plan.wp_visit ⟨by plain_tac; try exact h, by size_tac⟩ ?_
    rintro y1 _
    exact Plan.wp_ret trivial
  | «regexp» => exact Plan.wp_ret trivial
  | «template» x1 =>
    refine Plan.wp_visit ⟨by plain_tac; try exact h, by size_tac⟩ ?_
    rintro y1 _
    exact Plan.wp_ret trivial
theorem plain_litNumber (a : Kind.Val .litNumber) : StaysPlain .litNumber a := by
  exact fun _ => Plan.wp_ret trivial
theorem plain_templatePart (a : Kind.Val .templatePart) : StaysPlain .templatePart a := by
  intro h
  cases a with
  | «string» => exact Plan.wp_ret trivial
  | «expr» x1 =>
    refine Plan.wp_visit ⟨by plain_tac; try exact h, by size_tac⟩ ?_
    rintro y1 _
    exact Plan.wp_ret trivial
theorem plain_objectBindingProp (a : Kind.Val .objectBindingProp) : StaysPlain .objectBindingProp a := by
  intro h
  cases a with
  | «single» x1 x2 x3 =>
    refine Plan.wp_visit ⟨by plain_tac; try exact h, by size_tac⟩ ?_
    rintro ⟨y1, y2, y3⟩ _
    exact Plan.wp_ret trivial
  | «named» x1 x2 x3 =>
    refine Plan.wp_visit ⟨by plain_tac; try exact h, by size_tac⟩ ?_
    rintro ⟨y1, y2, y3⟩ _
    exact Plan.wp_ret trivial
theorem plain_propertyName (a : Kind.Val .propertyName) : StaysPlain .propertyName a := by
  intro h
  cases a with
  | «ident» x1 =>
    refine Plan.wp_visit ⟨by plain_tac; try exact h, by size_tac⟩ ?_
    rintro y1 _
    exact Plan.wp_ret trivial
  | «string» x1 =>
    refine Plan.wp_visit ⟨by plain_tac; try exact h, by size_tac⟩ ?_
    rintro y1 _
    exact Plan.wp_ret trivial
  | «number» x1 =>
    refine Plan.wp_visit ⟨by plain_tac; try exact h, by size_tac⟩ ?_
    rintro y1 _
    exact Plan.wp_ret trivial
  | «computed» x1 =>
    refine Plan.wp_visit ⟨by plain_tac; try exact h, by size_tac⟩ ?_
    rintro y1 _
    exact Plan.wp_ret trivial
theorem plain_classElement (a : Kind.Val .classElement) : StaysPlain .classElement a := by
  intro h
  exact Plan.wp_visit ⟨h, by size_tac⟩ fun _ _ => Plan.wp_ret trivial
theorem plain_forInit (a : Kind.Val .forInit) : StaysPlain .forInit a := by
  intro h
  cases a with
  | «expr» x1 =>
    refine Plan.wp_visit ⟨by plain_tac; try exact h, by size_tac⟩ ?_
    rintro y1 _
    exact Plan.wp_ret trivial
  | «declaration» x1 =>
    refine Plan.wp_visit ⟨by plain_tac; try exact h, by size_tac⟩ ?_
    rintro y1 _
    exact Plan.wp_ret trivial
theorem plain_forDeclaration (a : Kind.Val .forDeclaration) : StaysPlain .forDeclaration a := by
  intro h
  cases a with
  | «expr» x1 =>
    refine Plan.wp_visit ⟨by plain_tac; try exact h, by size_tac⟩ ?_
    rintro y1 _
    exact Plan.wp_ret trivial
  | «pattern» x1 =>
    refine Plan.wp_visit ⟨by plain_tac; try exact h, by size_tac⟩ ?_
    rintro y1 _
    exact Plan.wp_ret trivial
  | «declaration» x1 x2 x3 =>
    refine Plan.wp_visit ⟨by plain_tac; try exact h, by size_tac⟩ ?_
    rintro ⟨y1, y2, y3⟩ _
    exact Plan.wp_ret trivial
theorem plain_callee (a : Kind.Val .callee) : StaysPlain .callee a := by
  intro h
  cases a with
  | «super» => exact Plan.wp_ret trivial
  | «import» => exact Plan.wp_ret trivial
  | «expr» x1 =>
    refine Plan.wp_visit ⟨by plain_tac; try exact h, by size_tac⟩ ?_
    rintro y1 _
    exact Plan.wp_ret trivial
theorem plain_argument (a : Kind.Val .argument) : StaysPlain .argument a := by
  intro h
  cases a with
  | «expr» x1 =>
    refine Plan.wp_visit ⟨by plain_tac; try exact h, by size_tac⟩ ?_
    rintro y1 _
    exact Plan.wp_ret trivial
  | «spread» x1 =>
    refine Plan.wp_visit ⟨by plain_tac; try exact h, by size_tac⟩ ?_
    rintro y1 _
    exact Plan.wp_ret trivial
theorem plain_memberObject (a : Kind.Val .memberObject) : StaysPlain .memberObject a := by
  intro h
  cases a with
  | «expr» x1 =>
    refine Plan.wp_visit ⟨by plain_tac; try exact h, by size_tac⟩ ?_
    rintro y1 _
    exact Plan.wp_ret trivial
  | «super» x1 =>
    refine Plan.wp_visit ⟨by plain_tac; try exact h, by size_tac⟩ ?_
    rintro y1 _
    exact Plan.wp_ret trivial
theorem plain_super (a : Kind.Val .super) : StaysPlain .super a := by
  exact fun _ => Plan.wp_ret trivial
theorem plain_memberProperty (a : Kind.Val .memberProperty) : StaysPlain .memberProperty a := by
  intro h
  cases a with
  | «ident» x1 =>
    refine Plan.wp_visit ⟨by plain_tac; try exact h, by size_tac⟩ ?_
    rintro y1 _
    exact Plan.wp_ret trivial
  | «expr» x1 =>
    refine Plan.wp_visit ⟨by plain_tac; try exact h, by size_tac⟩ ?_
    rintro y1 _
    exact Plan.wp_ret trivial
theorem plain_arrayElement (a : Kind.Val .arrayElement) : StaysPlain .arrayElement a := by
  intro h
  cases a with
  | «elision» => exact Plan.wp_ret trivial
  | «expr» x1 =>
    refine Plan.wp_visit ⟨by plain_tac; try exact h, by size_tac⟩ ?_
    rintro y1 _
    exact Plan.wp_ret trivial
  | «spread» x1 =>
    refine Plan.wp_visit ⟨by plain_tac; try exact h, by size_tac⟩ ?_
    rintro y1 _
    exact Plan.wp_ret trivial
theorem plain_arrowFunctionBody (a : Kind.Val .arrowFunctionBody) : StaysPlain .arrowFunctionBody a := by
  intro h
  cases a with
  | «expr» x1 =>
    refine Plan.wp_visit ⟨by plain_tac; try exact h, by size_tac⟩ ?_
    rintro y1 _
    exact Plan.wp_ret trivial
  | «body» x1 =>
    refine Plan.wp_visit ⟨by plain_tac; try exact h, by size_tac⟩ ?_
    rintro y1 _
    exact Plan.wp_ret trivial
theorem plain_propertyDefinition (a : Kind.Val .propertyDefinition) : StaysPlain .propertyDefinition a := by
  intro h
  cases a with
  | «identRef» x1 =>
    refine Plan.wp_visit ⟨by plain_tac; try exact h, by size_tac⟩ ?_
    rintro y1 _
    exact Plan.wp_ret trivial
  | «spread» x1 =>
    refine Plan.wp_visit ⟨by plain_tac; try exact h, by size_tac⟩ ?_
    rintro y1 _
    exact Plan.wp_ret trivial
  | «named» x1 x2 x3 =>
    refine Plan.wp_visit ⟨by plain_tac; try exact h, by size_tac⟩ ?_
    rintro ⟨y1, y2, y3⟩ _
    exact Plan.wp_ret trivial
  | «method» x1 =>
    refine Plan.wp_visit ⟨by plain_tac; try exact h, by size_tac⟩ ?_
    rintro y1 _
    exact Plan.wp_ret trivial
theorem plain_binaryOperator (a : Kind.Val .binaryOperator) : StaysPlain .binaryOperator a := by
  exact fun _ => Plan.wp_ret trivial
theorem plain_logicalOperator (a : Kind.Val .logicalOperator) : StaysPlain .logicalOperator a := by
  exact fun _ => Plan.wp_ret trivial
theorem plain_assignmentOperator (a : Kind.Val .assignmentOperator) : StaysPlain .assignmentOperator a := by
  exact fun _ => Plan.wp_ret trivial
theorem plain_unaryOperator (a : Kind.Val .unaryOperator) : StaysPlain .unaryOperator a := by
  exact fun _ => Plan.wp_ret trivial
theorem plain_updateOperator (a : Kind.Val .updateOperator) : StaysPlain .updateOperator a := by
  exact fun _ => Plan.wp_ret trivial
theorem plain_declExport (a : Kind.Val .declExport) : StaysPlain .declExport a := by
  intro h
  cases a with
  | «decl» x1 x2 =>
    refine Plan.wp_visit ⟨by plain_tac; try exact h, by size_tac⟩ ?_
    rintro ⟨y1, y2⟩ _
    exact Plan.wp_ret trivial
  | «defaultExpr» x1 x2 =>
    refine Plan.wp_visit ⟨by plain_tac; try exact h, by size_tac⟩ ?_
    rintro ⟨y1, y2⟩ _
    exact Plan.wp_ret trivial
  | «defaultDecl» x1 x2 =>
    refine Plan.wp_visit ⟨by plain_tac; try exact h, by size_tac⟩ ?_
    rintro ⟨y1, y2⟩ _
    exact Plan.wp_ret trivial
  | «named» x1 x2 x3 =>
    refine Plan.wp_visit ⟨by plain_tac; try exact h, by size_tac⟩ ?_
    rintro ⟨y1, y2, y3⟩ _
    exact Plan.wp_ret trivial
  | «namespace» x1 x2 x3 =>
    refine Plan.wp_visit ⟨by plain_tac; try exact h, by size_tac⟩ ?_
    rintro ⟨y1, y2, y3⟩ _
    exact Plan.wp_ret trivial
theorem plain_patternOrExpr (a : Kind.Val .patternOrExpr) : StaysPlain .patternOrExpr a := by
  intro h
  cases a with
  | «expr» x1 =>
    refine Plan.wp_visit ⟨by plain_tac; try exact h, by size_tac⟩ ?_
    rintro y1 _
    exact Plan.wp_ret trivial
  | «pattern» x1 =>
    refine Plan.wp_visit ⟨by plain_tac; try exact h, by size_tac⟩ ?_
    rintro y1 _
    exact Plan.wp_ret trivial
theorem plain_assignmentPattern (a : Kind.Val .assignmentPattern) : StaysPlain .assignmentPattern a := by
  exact fun _ => Plan.wp_ret trivial
theorem plain_declFunction (a : Kind.Val .declFunction) : StaysPlain .declFunction a := by
  obtain ⟨x1, x2, x3, x4, x5, x6⟩ := a
  intro h
  simp only [plan]
  refine Plan.wp_visit (⟨by plain_tac <;> simp_all, by size_tac⟩) fun y1 h1 => ?_
  clear h1
  refine Plan.wp_visit (⟨by plain_tac <;> simp_all, by size_tac⟩) fun y2 h2 => ?_
  clear h2
  refine Plan.wp_visit (⟨by plain_tac <;> simp_all, by size_tac⟩) fun y3 h3 => ?_
  clear h3
  exact Plan.wp_ret trivial
theorem plain_declClass (a : Kind.Val .declClass) : StaysPlain .declClass a := by
  obtain ⟨x1, x2, x3, x4⟩ := a
  intro h
  simp only [plan]
  refine Plan.wp_visit (⟨by plain_tac <;> simp_all, by size_tac⟩) fun y1 h1 => ?_
  clear h1
  refine Plan.wp_opt (fun y hy => ⟨by plain_tac <;> simp_all, by have := optSum_mem (f := Kind.size .expr) hy; size_tac⟩) fun y2 h2 => ?_
  clear h2
  refine Plan.wp_list (fun y hy => ⟨by plain_tac <;> simp_all, by have := listSum_mem (f := Kind.size .classElement) hy; size_tac⟩) fun y3 h3 => ?_
  clear h3
  exact Plan.wp_ret trivial
theorem plain_declImport (a : Kind.Val .declImport) : StaysPlain .declImport a := by
  obtain ⟨x1, x2, x3, x4, x5⟩ := a
  rintro ⟨rfl, rfl⟩
  simp only [plan]
  refine Plan.wp_opt (fun y hy => ⟨trivial, by have := optSum_mem (f := Kind.size .ident) hy; size_tac⟩) fun y1 h1 => ?_
  refine Plan.wp_optList (fun _ h => by cases h) fun y2 h2 => ?_
  cases h2
  refine Plan.wp_optList (fun _ h => by cases h) fun y3 h3 => ?_
  refine Plan.wp_visit ⟨trivial, by size_tac⟩ fun y4 h4 => ?_
  exact Plan.wp_ret trivial
theorem plain_stmtExpr (a : Kind.Val .stmtExpr) : StaysPlain .stmtExpr a := by
  obtain ⟨x1, x2⟩ := a
  intro h
  simp only [plan]
  refine Plan.wp_visit (⟨by plain_tac <;> simp_all, by size_tac⟩) fun y1 h1 => ?_
  clear h1
  exact Plan.wp_ret trivial
theorem plain_stmtBlock (a : Kind.Val .stmtBlock) : StaysPlain .stmtBlock a := by
  obtain ⟨x1, x2⟩ := a
  intro h
  simp only [plan]
  refine Plan.wp_list (fun y hy => ⟨by plain_tac <;> simp_all, by have := listSum_mem (f := Kind.size .stmt) hy; size_tac⟩) fun y1 h1 => ?_
  clear h1
  exact Plan.wp_ret trivial
theorem plain_exprBinary (a : Kind.Val .exprBinary) : StaysPlain .exprBinary a := by
  obtain ⟨x1, x2, x3, x4⟩ := a
  intro h
  simp only [plan]
  refine Plan.wp_visit (⟨by plain_tac <;> simp_all, by size_tac⟩) fun y1 h1 => ?_
  clear h1
  refine Plan.wp_visit (⟨by plain_tac <;> simp_all, by size_tac⟩) fun y2 h2 => ?_
  clear h2
  refine Plan.wp_visit (⟨by plain_tac <;> simp_all, by size_tac⟩) fun y3 h3 => ?_
  clear h3
  exact Plan.wp_ret trivial
theorem plain_exprLogical (a : Kind.Val .exprLogical) : StaysPlain .exprLogical a := by
  obtain ⟨x1, x2, x3, x4⟩ := a
  intro h
  simp only [plan]
  refine Plan.wp_visit (⟨by plain_tac <;> simp_all, by size_tac⟩) fun y1 h1 => ?_
  clear h1
  refine Plan.wp_visit (⟨by plain_tac <;> simp_all, by size_tac⟩) fun y2 h2 => ?_
  clear h2
  refine Plan.wp_visit (⟨by plain_tac <;> simp_all, by size_tac⟩) fun y3 h3 => ?_
  clear h3
  exact Plan.wp_ret trivial
theorem plain_exprUnary (a : Kind.Val .exprUnary) : StaysPlain .exprUnary a := by
  obtain ⟨x1, x2, x3⟩ := a
  intro h
  simp only [plan]
  refine Plan.wp_visit (⟨by plain_tac <;> simp_all, by size_tac⟩) fun y1 h1 => ?_
  clear h1
  refine Plan.wp_visit (⟨by plain_tac <;> simp_all, by size_tac⟩) fun y2 h2 => ?_
  clear h2
  exact Plan.wp_ret trivial
theorem plain_exprCall (a : Kind.Val .exprCall) : StaysPlain .exprCall a := by
  obtain ⟨x1, x2, x3, x4⟩ := a
  intro h
  simp only [plan]
  refine Plan.wp_visit (⟨by plain_tac <;> simp_all, by size_tac⟩) fun y1 h1 => ?_
  clear h1
  refine Plan.wp_list (fun y hy => ⟨by plain_tac <;> simp_all, by have := listSum_mem (f := Kind.size .argument) hy; size_tac⟩) fun y2 h2 => ?_
  clear h2
  exact Plan.wp_ret trivial
theorem plain_exprMember (a : Kind.Val .exprMember) : StaysPlain .exprMember a := by
  obtain ⟨x1, x2, x3⟩ := a
  intro h
  simp only [plan]
  refine Plan.wp_visit (⟨by plain_tac <;> simp_all, by size_tac⟩) fun y1 h1 => ?_
  clear h1
  refine Plan.wp_visit (⟨by plain_tac <;> simp_all, by size_tac⟩) fun y2 h2 => ?_
  clear h2
  exact Plan.wp_ret trivial
theorem plain_exprOptionalMember (a : Kind.Val .exprOptionalMember) : StaysPlain .exprOptionalMember a := by
  obtain ⟨x1, x2, x3, x4⟩ := a
  intro h
  simp only [plan]
  refine Plan.wp_visit (⟨by plain_tac <;> simp_all, by size_tac⟩) fun y1 h1 => ?_
  clear h1
  refine Plan.wp_visit (⟨by plain_tac <;> simp_all, by size_tac⟩) fun y2 h2 => ?_
  clear h2
  exact Plan.wp_ret trivial
theorem plain_exprOptionalCall (a : Kind.Val .exprOptionalCall) : StaysPlain .exprOptionalCall a := by
  obtain ⟨x1, x2, x3, x4, x5⟩ := a
  intro h
  simp only [plan]
  refine Plan.wp_visit (⟨by plain_tac <;> simp_all, by size_tac⟩) fun y1 h1 => ?_
  clear h1
  refine Plan.wp_list (fun y hy => ⟨by plain_tac <;> simp_all, by have := listSum_mem (f := Kind.size .argument) hy; size_tac⟩) fun y2 h2 => ?_
  clear h2
  exact Plan.wp_ret trivial
theorem plain_exprParenthesized (a : Kind.Val .exprParenthesized) : StaysPlain .exprParenthesized a := by
  obtain ⟨x1, x2⟩ := a
  intro h
  simp only [plan]
  refine Plan.wp_visit (⟨by plain_tac <;> simp_all, by size_tac⟩) fun y1 h1 => ?_
  clear h1
  exact Plan.wp_ret trivial
theorem plain_exprLiteral (a : Kind.Val .exprLiteral) : StaysPlain .exprLiteral a := by
  obtain ⟨x1, x2⟩ := a
  intro h
  simp only [plan]
  refine Plan.wp_visit (⟨by plain_tac <;> simp_all, by size_tac⟩) fun y1 h1 => ?_
  clear h1
  exact Plan.wp_ret trivial
theorem plain_exprAssignment (a : Kind.Val .exprAssignment) : StaysPlain .exprAssignment a := by
  obtain ⟨x1, x2, x3, x4⟩ := a
  intro h
  simp only [plan]
  refine Plan.wp_visit (⟨by plain_tac <;> simp_all, by size_tac⟩) fun y1 h1 => ?_
  clear h1
  refine Plan.wp_visit (⟨by plain_tac <;> simp_all, by size_tac⟩) fun y2 h2 => ?_
  clear h2
  refine Plan.wp_visit (⟨by plain_tac <;> simp_all, by size_tac⟩) fun y3 h3 => ?_
  clear h3
  exact Plan.wp_ret trivial
theorem plain_exprYield (a : Kind.Val .exprYield) : StaysPlain .exprYield a := by
  obtain ⟨x1, x2, x3⟩ := a
  intro h
  simp only [plan]
  refine Plan.wp_opt (fun y hy => ⟨by plain_tac <;> simp_all, by have := optSum_mem (f := Kind.size .expr) hy; size_tac⟩) fun y1 h1 => ?_
  clear h1
  exact Plan.wp_ret trivial
theorem plain_exprConditional (a : Kind.Val .exprConditional) : StaysPlain .exprConditional a := by
  obtain ⟨x1, x2, x3, x4⟩ := a
  intro h
  exact h.elim
theorem plain_exprUpdate (a : Kind.Val .exprUpdate) : StaysPlain .exprUpdate a := by
  obtain ⟨x1, x2, x3, x4⟩ := a
  intro h
  simp only [plan]
  refine Plan.wp_visit (⟨by plain_tac <;> simp_all, by size_tac⟩) fun y1 h1 => ?_
  clear h1
  refine Plan.wp_visit (⟨by plain_tac <;> simp_all, by size_tac⟩) fun y2 h2 => ?_
  clear h2
  exact Plan.wp_ret trivial
theorem plain_exprSequence (a : Kind.Val .exprSequence) : StaysPlain .exprSequence a := by
  obtain ⟨x1, x2⟩ := a
  intro h
  simp only [plan]
  refine Plan.wp_list (fun y hy => ⟨by plain_tac <;> simp_all, by have := listSum_mem (f := Kind.size .expr) hy; size_tac⟩) fun y1 h1 => ?_
  clear h1
  exact Plan.wp_ret trivial
theorem plain_exprThis (a : Kind.Val .exprThis) : StaysPlain .exprThis a := by
  exact fun _ => Plan.wp_ret trivial
theorem plain_exprFunction (a : Kind.Val .exprFunction) : StaysPlain .exprFunction a := by
  obtain ⟨x1, x2, x3, x4, x5, x6⟩ := a
  intro h
  simp only [plan]
  refine Plan.wp_opt (fun y hy => ⟨by plain_tac <;> simp_all, by have := optSum_mem (f := Kind.size .ident) hy; size_tac⟩) fun y1 h1 => ?_
  clear h1
  refine Plan.wp_visit (⟨by plain_tac <;> simp_all, by size_tac⟩) fun y2 h2 => ?_
  clear h2
  refine Plan.wp_visit (⟨by plain_tac <;> simp_all, by size_tac⟩) fun y3 h3 => ?_
  clear h3
  exact Plan.wp_ret trivial
theorem plain_exprNew (a : Kind.Val .exprNew) : StaysPlain .exprNew a := by
  obtain ⟨x1, x2, x3, x4⟩ := a
  intro h
  simp only [plan]
  refine Plan.wp_visit (⟨by plain_tac <;> simp_all, by size_tac⟩) fun y1 h1 => ?_
  clear h1
  refine Plan.wp_list (fun y hy => ⟨by plain_tac <;> simp_all, by have := listSum_mem (f := Kind.size .argument) hy; size_tac⟩) fun y2 h2 => ?_
  clear h2
  exact Plan.wp_ret trivial
theorem plain_exprArrowFunction (a : Kind.Val .exprArrowFunction) : StaysPlain .exprArrowFunction a := by
  obtain ⟨x1, x2, x3, x4, x5⟩ := a
  intro h
  simp only [plan]
  refine Plan.wp_visit (⟨by plain_tac <;> simp_all, by size_tac⟩) fun y1 h1 => ?_
  clear h1
  refine Plan.wp_visit (⟨by plain_tac <;> simp_all, by size_tac⟩) fun y2 h2 => ?_
  clear h2
  exact Plan.wp_ret trivial
theorem plain_exprAwait (a : Kind.Val .exprAwait) : StaysPlain .exprAwait a := by
  obtain ⟨x1, x2⟩ := a
  intro h
  simp only [plan]
  refine Plan.wp_visit (⟨by plain_tac <;> simp_all, by size_tac⟩) fun y1 h1 => ?_
  clear h1
  exact Plan.wp_ret trivial
theorem plain_exprMetaProperty (a : Kind.Val .exprMetaProperty) : StaysPlain .exprMetaProperty a := by
  obtain ⟨x1, x2, x3⟩ := a
  intro h
  simp only [plan]
  refine Plan.wp_visit (⟨by plain_tac <;> simp_all, by size_tac⟩) fun y1 h1 => ?_
  clear h1
  refine Plan.wp_visit (⟨by plain_tac <;> simp_all, by size_tac⟩) fun y2 h2 => ?_
  clear h2
  exact Plan.wp_ret trivial
theorem plain_exprClass (a : Kind.Val .exprClass) : StaysPlain .exprClass a := by
  obtain ⟨x1, x2, x3, x4⟩ := a
  intro h
  simp only [plan]
  refine Plan.wp_opt (fun y hy => ⟨by plain_tac <;> simp_all, by have := optSum_mem (f := Kind.size .ident) hy; size_tac⟩) fun y1 h1 => ?_
  clear h1
  refine Plan.wp_opt (fun y hy => ⟨by plain_tac <;> simp_all, by have := optSum_mem (f := Kind.size .expr) hy; size_tac⟩) fun y2 h2 => ?_
  clear h2
  refine Plan.wp_list (fun y hy => ⟨by plain_tac <;> simp_all, by have := listSum_mem (f := Kind.size .classElement) hy; size_tac⟩) fun y3 h3 => ?_
  clear h3
  exact Plan.wp_ret trivial
theorem plain_stmtReturn (a : Kind.Val .stmtReturn) : StaysPlain .stmtReturn a := by
  obtain ⟨x1, x2⟩ := a
  intro h
  simp only [plan]
  refine Plan.wp_opt (fun y hy => ⟨by plain_tac <;> simp_all, by have := optSum_mem (f := Kind.size .expr) hy; size_tac⟩) fun y1 h1 => ?_
  clear h1
  exact Plan.wp_ret trivial
theorem plain_stmtVariable (a : Kind.Val .stmtVariable) : StaysPlain .stmtVariable a := by
  obtain ⟨x1, x2, x3⟩ := a
  intro h
  simp only [plan]
  refine Plan.wp_list (fun y hy => ⟨by plain_tac <;> simp_all, by have := listSum_mem (f := Kind.size .variableDeclaration) hy; size_tac⟩) fun y1 h1 => ?_
  clear h1
  exact Plan.wp_ret trivial
theorem plain_stmtEmpty (a : Kind.Val .stmtEmpty) : StaysPlain .stmtEmpty a := by
  exact fun _ => Plan.wp_ret trivial
theorem plain_stmtTry (a : Kind.Val .stmtTry) : StaysPlain .stmtTry a := by
  obtain ⟨x1, x2, x3, x4⟩ := a
  intro h
  simp only [plan]
  refine Plan.wp_visit (⟨by plain_tac <;> simp_all, by size_tac⟩) fun y1 h1 => ?_
  clear h1
  refine Plan.wp_opt (fun y hy => ⟨by plain_tac <;> simp_all, by have := optSum_mem (f := Kind.size .catchClause) hy; size_tac⟩) fun y2 h2 => ?_
  clear h2
  refine Plan.wp_opt (fun y hy => ⟨by plain_tac <;> simp_all, by have := optSum_mem (f := Kind.size .stmtBlock) hy; size_tac⟩) fun y3 h3 => ?_
  clear h3
  exact Plan.wp_ret trivial
theorem plain_stmtDebugger (a : Kind.Val .stmtDebugger) : StaysPlain .stmtDebugger a := by
  exact fun _ => Plan.wp_ret trivial
theorem plain_stmtThrow (a : Kind.Val .stmtThrow) : StaysPlain .stmtThrow a := by
  obtain ⟨x1, x2⟩ := a
  intro h
  simp only [plan]
  refine Plan.wp_visit (⟨by plain_tac <;> simp_all, by size_tac⟩) fun y1 h1 => ?_
  clear h1
  exact Plan.wp_ret trivial
theorem plain_stmtLabeled (a : Kind.Val .stmtLabeled) : StaysPlain .stmtLabeled a := by
  obtain ⟨x1, x2, x3⟩ := a
  intro h
  simp only [plan]
  refine Plan.wp_visit (⟨by plain_tac <;> simp_all, by size_tac⟩) fun y1 h1 => ?_
  clear h1
  refine Plan.wp_visit (⟨by plain_tac <;> simp_all, by size_tac⟩) fun y2 h2 => ?_
  clear h2
  exact Plan.wp_ret trivial
theorem plain_stmtWith (a : Kind.Val .stmtWith) : StaysPlain .stmtWith a := by
  obtain ⟨x1, x2, x3⟩ := a
  intro h
  simp only [plan]
  refine Plan.wp_visit (⟨by plain_tac <;> simp_all, by size_tac⟩) fun y1 h1 => ?_
  clear h1
  refine Plan.wp_visit (⟨by plain_tac <;> simp_all, by size_tac⟩) fun y2 h2 => ?_
  clear h2
  exact Plan.wp_ret trivial
theorem plain_stmtContinue (a : Kind.Val .stmtContinue) : StaysPlain .stmtContinue a := by
  obtain ⟨x1, x2⟩ := a
  intro h
  simp only [plan]
  refine Plan.wp_opt (fun y hy => ⟨by plain_tac <;> simp_all, by have := optSum_mem (f := Kind.size .ident) hy; size_tac⟩) fun y1 h1 => ?_
  clear h1
  exact Plan.wp_ret trivial
theorem plain_stmtBreak (a : Kind.Val .stmtBreak) : StaysPlain .stmtBreak a := by
  obtain ⟨x1, x2⟩ := a
  intro h
  simp only [plan]
  refine Plan.wp_opt (fun y hy => ⟨by plain_tac <;> simp_all, by have := optSum_mem (f := Kind.size .ident) hy; size_tac⟩) fun y1 h1 => ?_
  clear h1
  exact Plan.wp_ret trivial
theorem plain_stmtSwitch (a : Kind.Val .stmtSwitch) : StaysPlain .stmtSwitch a := by
  obtain ⟨x1, x2, x3⟩ := a
  intro h
  simp only [plan]
  refine Plan.wp_visit (⟨by plain_tac <;> simp_all, by size_tac⟩) fun y1 h1 => ?_
  clear h1
  refine Plan.wp_list (fun y hy => ⟨by plain_tac <;> simp_all, by have := listSum_mem (f := Kind.size .switchCase) hy; size_tac⟩) fun y2 h2 => ?_
  clear h2
  exact Plan.wp_ret trivial
theorem plain_stmtIf (a : Kind.Val .stmtIf) : StaysPlain .stmtIf a := by
  obtain ⟨x1, x2, x3, x4⟩ := a
  intro h
  simp only [plan]
  refine Plan.wp_visit (⟨by plain_tac <;> simp_all, by size_tac⟩) fun y1 h1 => ?_
  clear h1
  refine Plan.wp_visit (⟨by plain_tac <;> simp_all, by size_tac⟩) fun y2 h2 => ?_
  clear h2
  refine Plan.wp_opt (fun y hy => ⟨by plain_tac <;> simp_all, by have := optSum_mem (f := Kind.size .stmt) hy; size_tac⟩) fun y3 h3 => ?_
  clear h3
  exact Plan.wp_ret trivial
theorem plain_stmtFor (a : Kind.Val .stmtFor) : StaysPlain .stmtFor a := by
  obtain ⟨x1, x2, x3, x4, x5⟩ := a
  intro h
  simp only [plan]
  refine Plan.wp_opt (fun y hy => ⟨by plain_tac <;> simp_all, by have := optSum_mem (f := Kind.size .forInit) hy; size_tac⟩) fun y1 h1 => ?_
  clear h1
  refine Plan.wp_opt (fun y hy => ⟨by plain_tac <;> simp_all, by have := optSum_mem (f := Kind.size .expr) hy; size_tac⟩) fun y2 h2 => ?_
  clear h2
  refine Plan.wp_opt (fun y hy => ⟨by plain_tac <;> simp_all, by have := optSum_mem (f := Kind.size .expr) hy; size_tac⟩) fun y3 h3 => ?_
  clear h3
  refine Plan.wp_visit (⟨by plain_tac <;> simp_all, by size_tac⟩) fun y4 h4 => ?_
  clear h4
  exact Plan.wp_ret trivial
theorem plain_stmtForOf (a : Kind.Val .stmtForOf) : StaysPlain .stmtForOf a := by
  obtain ⟨x1, x2, x3, x4, x5⟩ := a
  intro h
  simp only [plan]
  refine Plan.wp_visit (⟨by plain_tac <;> simp_all, by size_tac⟩) fun y1 h1 => ?_
  clear h1
  refine Plan.wp_visit (⟨by plain_tac <;> simp_all, by size_tac⟩) fun y2 h2 => ?_
  clear h2
  refine Plan.wp_visit (⟨by plain_tac <;> simp_all, by size_tac⟩) fun y3 h3 => ?_
  clear h3
  exact Plan.wp_ret trivial
theorem plain_stmtForIn (a : Kind.Val .stmtForIn) : StaysPlain .stmtForIn a := by
  obtain ⟨x1, x2, x3, x4⟩ := a
  intro h
  simp only [plan]
  refine Plan.wp_visit (⟨by plain_tac <;> simp_all, by size_tac⟩) fun y1 h1 => ?_
  clear h1
  refine Plan.wp_visit (⟨by plain_tac <;> simp_all, by size_tac⟩) fun y2 h2 => ?_
  clear h2
  refine Plan.wp_visit (⟨by plain_tac <;> simp_all, by size_tac⟩) fun y3 h3 => ?_
  clear h3
  exact Plan.wp_ret trivial
theorem plain_stmtWhile (a : Kind.Val .stmtWhile) : StaysPlain .stmtWhile a := by
  obtain ⟨x1, x2, x3⟩ := a
  intro h
  simp only [plan]
  refine Plan.wp_visit (⟨by plain_tac <;> simp_all, by size_tac⟩) fun y1 h1 => ?_
  clear h1
  refine Plan.wp_visit (⟨by plain_tac <;> simp_all, by size_tac⟩) fun y2 h2 => ?_
  clear h2
  exact Plan.wp_ret trivial
theorem plain_stmtDoWhile (a : Kind.Val .stmtDoWhile) : StaysPlain .stmtDoWhile a := by
  obtain ⟨x1, x2, x3⟩ := a
  intro h
  simp only [plan]
  refine Plan.wp_visit (⟨by plain_tac <;> simp_all, by size_tac⟩) fun y1 h1 => ?_
  clear h1
  refine Plan.wp_visit (⟨by plain_tac <;> simp_all, by size_tac⟩) fun y2 h2 => ?_
  clear h2
  exact Plan.wp_ret trivial
theorem plain_stmtList (a : Kind.Val .stmtList) : StaysPlain .stmtList a := by
  obtain ⟨x1, x2, x3⟩ := a
  intro h
  simp only [plan]
  refine Plan.wp_list (fun y hy => ⟨by plain_tac <;> simp_all, by have := listSum_mem (f := Kind.size .litString) hy; size_tac⟩) fun y1 h1 => ?_
  clear h1
  refine Plan.wp_list (fun y hy => ⟨by plain_tac <;> simp_all, by have := listSum_mem (f := Kind.size .stmt) hy; size_tac⟩) fun y2 h2 => ?_
  clear h2
  exact Plan.wp_ret trivial
theorem plain_bindingElement (a : Kind.Val .bindingElement) : StaysPlain .bindingElement a := by
  obtain ⟨x1, x2, x3⟩ := a
  intro h
  simp only [plan]
  refine Plan.wp_visit (⟨by plain_tac <;> simp_all, by size_tac⟩) fun y1 h1 => ?_
  clear h1
  refine Plan.wp_opt (fun y hy => ⟨by plain_tac <;> simp_all, by have := optSum_mem (f := Kind.size .expr) hy; size_tac⟩) fun y2 h2 => ?_
  clear h2
  exact Plan.wp_ret trivial
theorem plain_formalParameters (a : Kind.Val .formalParameters) : StaysPlain .formalParameters a := by
  obtain ⟨x1, x2, x3⟩ := a
  intro h
  simp only [plan]
  refine Plan.wp_list (fun y hy => ⟨by plain_tac <;> simp_all, by have := listSum_mem (f := Kind.size .bindingElement) hy; size_tac⟩) fun y1 h1 => ?_
  clear h1
  refine Plan.wp_opt (fun y hy => ⟨by plain_tac <;> simp_all, by have := optSum_mem (f := Kind.size .bindingPattern) hy; size_tac⟩) fun y2 h2 => ?_
  clear h2
  exact Plan.wp_ret trivial
theorem plain_variableDeclaration (a : Kind.Val .variableDeclaration) : StaysPlain .variableDeclaration a := by
  obtain ⟨x1, x2, x3⟩ := a
  intro h
  simp only [plan]
  refine Plan.wp_visit (⟨by plain_tac <;> simp_all, by size_tac⟩) fun y1 h1 => ?_
  clear h1
  refine Plan.wp_opt (fun y hy => ⟨by plain_tac <;> simp_all, by have := optSum_mem (f := Kind.size .expr) hy; size_tac⟩) fun y2 h2 => ?_
  clear h2
  exact Plan.wp_ret trivial
theorem plain_litString (a : Kind.Val .litString) : StaysPlain .litString a := by
  exact fun _ => Plan.wp_ret trivial
theorem plain_litTemplate (a : Kind.Val .litTemplate) : StaysPlain .litTemplate a := by
  intro h
  simp only [plan]
  refine Plan.wp_list (fun y hy => ⟨by plain_tac <;> simp_all, by have := listSum_mem (f := Kind.size .templatePart) hy; size_tac⟩) fun y1 h1 => ?_
  clear h1
  exact Plan.wp_ret trivial
theorem plain_litArray (a : Kind.Val .litArray) : StaysPlain .litArray a := by
  intro h
  simp only [plan]
  refine Plan.wp_list (fun y hy => ⟨by plain_tac <;> simp_all, by have := listSum_mem (f := Kind.size .arrayElement) hy; size_tac⟩) fun y1 h1 => ?_
  clear h1
  exact Plan.wp_ret trivial
theorem plain_litObject (a : Kind.Val .litObject) : StaysPlain .litObject a := by
  intro h
  simp only [plan]
  refine Plan.wp_list (fun y hy => ⟨by plain_tac <;> simp_all, by have := listSum_mem (f := Kind.size .propertyDefinition) hy; size_tac⟩) fun y1 h1 => ?_
  clear h1
  exact Plan.wp_ret trivial
theorem plain_arrayBinding (a : Kind.Val .arrayBinding) : StaysPlain .arrayBinding a := by
  obtain ⟨x1, x2, x3⟩ := a
  intro h
  simp only [plan]
  refine Plan.wp_listOpt (fun y hy => ⟨by plain_tac <;> simp_all, by have := listSum_mem (f := optSum (Kind.size .bindingElement)) hy; simp only [optSum] at this; size_tac⟩) fun y1 h1 => ?_
  clear h1
  refine Plan.wp_opt (fun y hy => ⟨by plain_tac <;> simp_all, by have := optSum_mem (f := Kind.size .bindingPattern) hy; size_tac⟩) fun y2 h2 => ?_
  clear h2
  exact Plan.wp_ret trivial
theorem plain_objectBinding (a : Kind.Val .objectBinding) : StaysPlain .objectBinding a := by
  obtain ⟨x1, x2, x3⟩ := a
  intro h
  simp only [plan]
  refine Plan.wp_list (fun y hy => ⟨by plain_tac <;> simp_all, by have := listSum_mem (f := Kind.size .objectBindingProp) hy; size_tac⟩) fun y1 h1 => ?_
  clear h1
  refine Plan.wp_opt (fun y hy => ⟨by plain_tac <;> simp_all, by have := optSum_mem (f := Kind.size .bindingPattern) hy; size_tac⟩) fun y2 h2 => ?_
  clear h2
  exact Plan.wp_ret trivial
theorem plain_singleNameBinding (a : Kind.Val .singleNameBinding) : StaysPlain .singleNameBinding a := by
  obtain ⟨x1, x2, x3⟩ := a
  intro h
  simp only [plan]
  refine Plan.wp_visit (⟨by plain_tac <;> simp_all, by size_tac⟩) fun y1 h1 => ?_
  clear h1
  refine Plan.wp_opt (fun y hy => ⟨by plain_tac <;> simp_all, by have := optSum_mem (f := Kind.size .expr) hy; size_tac⟩) fun y2 h2 => ?_
  clear h2
  exact Plan.wp_ret trivial
theorem plain_namedBinding (a : Kind.Val .namedBinding) : StaysPlain .namedBinding a := by
  obtain ⟨x1, x2, x3⟩ := a
  intro h
  simp only [plan]
  refine Plan.wp_visit (⟨by plain_tac <;> simp_all, by size_tac⟩) fun y1 h1 => ?_
  clear h1
  refine Plan.wp_visit (⟨by plain_tac <;> simp_all, by size_tac⟩) fun y2 h2 => ?_
  clear h2
  exact Plan.wp_ret trivial
theorem plain_namedProperty (a : Kind.Val .namedProperty) : StaysPlain .namedProperty a := by
  obtain ⟨x1, x2, x3⟩ := a
  intro h
  simp only [plan]
  refine Plan.wp_visit (⟨by plain_tac <;> simp_all, by size_tac⟩) fun y1 h1 => ?_
  clear h1
  refine Plan.wp_visit (⟨by plain_tac <;> simp_all, by size_tac⟩) fun y2 h2 => ?_
  clear h2
  exact Plan.wp_ret trivial
theorem plain_methodDefinition (a : Kind.Val .methodDefinition) : StaysPlain .methodDefinition a := by
  obtain ⟨x1, x2, x3, x4, x5, x6, x7, x8⟩ := a
  intro h
  simp only [plan]
  refine Plan.wp_visit (⟨by plain_tac <;> simp_all, by size_tac⟩) fun y1 h1 => ?_
  clear h1
  refine Plan.wp_visit (⟨by plain_tac <;> simp_all, by size_tac⟩) fun y2 h2 => ?_
  clear h2
  refine Plan.wp_visit (⟨by plain_tac <;> simp_all, by size_tac⟩) fun y3 h3 => ?_
  clear h3
  exact Plan.wp_ret trivial
theorem plain_catchClause (a : Kind.Val .catchClause) : StaysPlain .catchClause a := by
  obtain ⟨x1, x2, x3⟩ := a
  intro h
  simp only [plan]
  refine Plan.wp_opt (fun y hy => ⟨by plain_tac <;> simp_all, by have := optSum_mem (f := Kind.size .bindingPattern) hy; size_tac⟩) fun y1 h1 => ?_
  clear h1
  refine Plan.wp_visit (⟨by plain_tac <;> simp_all, by size_tac⟩) fun y2 h2 => ?_
  clear h2
  exact Plan.wp_ret trivial
theorem plain_switchCase (a : Kind.Val .switchCase) : StaysPlain .switchCase a := by
  obtain ⟨x1, x2, x3⟩ := a
  intro h
  simp only [plan]
  refine Plan.wp_opt (fun y hy => ⟨by plain_tac <;> simp_all, by have := optSum_mem (f := Kind.size .expr) hy; size_tac⟩) fun y1 h1 => ?_
  clear h1
  refine Plan.wp_list (fun y hy => ⟨by plain_tac <;> simp_all, by have := listSum_mem (f := Kind.size .stmt) hy; size_tac⟩) fun y2 h2 => ?_
  clear h2
  exact Plan.wp_ret trivial
theorem plain_exportDecl (a : Kind.Val .exportDecl) : StaysPlain .exportDecl a := by
  obtain ⟨x1, x2⟩ := a
  intro h
  simp only [plan]
  refine Plan.wp_visit (⟨by plain_tac <;> simp_all, by size_tac⟩) fun y1 h1 => ?_
  clear h1
  exact Plan.wp_ret trivial
theorem plain_exportDefaultDecl (a : Kind.Val .exportDefaultDecl) : StaysPlain .exportDefaultDecl a := by
  obtain ⟨x1, x2⟩ := a
  intro h
  simp only [plan]
  refine Plan.wp_visit (⟨by plain_tac <;> simp_all, by size_tac⟩) fun y1 h1 => ?_
  clear h1
  exact Plan.wp_ret trivial
theorem plain_exportDefaultExpr (a : Kind.Val .exportDefaultExpr) : StaysPlain .exportDefaultExpr a := by
  obtain ⟨x1, x2⟩ := a
  intro h
  simp only [plan]
  refine Plan.wp_visit (⟨by plain_tac <;> simp_all, by size_tac⟩) fun y1 h1 => ?_
  clear h1
  exact Plan.wp_ret trivial
theorem plain_exprTaggedTemplate (a : Kind.Val .exprTaggedTemplate) : StaysPlain .exprTaggedTemplate a := by
  obtain ⟨x1, x2, x3⟩ := a
  intro h
  simp only [plan]
  refine Plan.wp_visit (⟨by plain_tac <;> simp_all, by size_tac⟩) fun y1 h1 => ?_
  clear h1
  refine Plan.wp_visit (⟨by plain_tac <;> simp_all, by size_tac⟩) fun y2 h2 => ?_
  clear h2
  exact Plan.wp_ret trivial
theorem plain_exportNamed (a : Kind.Val .exportNamed) : StaysPlain .exportNamed a := by
  obtain ⟨x1, x2, x3⟩ := a
  intro h
  simp only [plan]
  refine Plan.wp_list (fun y hy => ⟨by plain_tac <;> simp_all, by have := listSum_mem (f := Kind.size .namedExport) hy; size_tac⟩) fun y1 h1 => ?_
  clear h1
  refine Plan.wp_opt (fun y hy => ⟨by plain_tac <;> simp_all, by have := optSum_mem (f := Kind.size .litString) hy; size_tac⟩) fun y2 h2 => ?_
  clear h2
  exact Plan.wp_ret trivial
theorem plain_exportNamespace (a : Kind.Val .exportNamespace) : StaysPlain .exportNamespace a := by
  obtain ⟨x1, x2, x3⟩ := a
  intro h
  simp only [plan]
  refine Plan.wp_opt (fun y hy => ⟨by plain_tac <;> simp_all, by have := optSum_mem (f := Kind.size .ident) hy; size_tac⟩) fun y1 h1 => ?_
  clear h1
  refine Plan.wp_visit (⟨by plain_tac <;> simp_all, by size_tac⟩) fun y2 h2 => ?_
  clear h2
  exact Plan.wp_ret trivial
theorem plain_namedExport (a : Kind.Val .namedExport) : StaysPlain .namedExport a := by
  obtain ⟨x1, x2, x3⟩ := a
  intro h
  simp only [plan]
  refine Plan.wp_visit (⟨by plain_tac <;> simp_all, by (simp only [Kind.size, NamedExport.size] at *; first | omega | size_tac)⟩) fun y1 h1 => ?_
  clear h1
  refine Plan.wp_opt (fun y hy => ⟨by plain_tac <;> simp_all, by have := optSum_mem (f := Kind.size .ident) hy; (simp only [Kind.size, NamedExport.size] at *; first | omega | size_tac)⟩) fun y2 h2 => ?_
  clear h2
  exact Plan.wp_ret trivial
theorem plain_namedImport (a : Kind.Val .namedImport) : StaysPlain .namedImport a := by
  obtain ⟨x1, x2, x3⟩ := a
  intro h
  simp only [plan]
  refine Plan.wp_visit (⟨by plain_tac <;> simp_all, by (simp only [Kind.size, NamedImport.size] at *; first | omega | size_tac)⟩) fun y1 h1 => ?_
  clear h1
  refine Plan.wp_opt (fun y hy => ⟨by plain_tac <;> simp_all, by have := optSum_mem (f := Kind.size .ident) hy; (simp only [Kind.size, NamedImport.size] at *; first | omega | size_tac)⟩) fun y2 h2 => ?_
  clear h2
  exact Plan.wp_ret trivial
theorem plain_ident (a : Kind.Val .ident) : StaysPlain .ident a := by
  exact fun _ => Plan.wp_ret trivial
theorem plain_body (a : Kind.Val .body) : StaysPlain .body a := by
  obtain ⟨x1, x2, x3⟩ := a
  intro h
  simp only [plan]
  refine Plan.wp_list (fun y hy => ⟨by plain_tac <;> simp_all, by have := listSum_mem (f := Kind.size .litString) hy; size_tac⟩) fun y1 h1 => ?_
  clear h1
  refine Plan.wp_list (fun y hy => ⟨by plain_tac <;> simp_all, by have := listSum_mem (f := Kind.size .stmt) hy; size_tac⟩) fun y2 h2 => ?_
  clear h2
  exact Plan.wp_ret trivial
theorem plain_forBinding (a : Kind.Val .forBinding) : StaysPlain .forBinding a := by
  exact fun _ => Plan.wp_ret trivial

theorem plan_plain : ∀ (k : Kind) (a : k.Val), StaysPlain k a
  | .program, a => plain_program a
  | .expr, a => plain_expr a
  | .stmt, a => plain_stmt a
  | .bindingPattern, a => plain_bindingPattern a
  | .literal, a => plain_literal a
  | .litNumber, a => plain_litNumber a
  | .templatePart, a => plain_templatePart a
  | .objectBindingProp, a => plain_objectBindingProp a
  | .propertyName, a => plain_propertyName a
  | .classElement, a => plain_classElement a
  | .forInit, a => plain_forInit a
  | .forDeclaration, a => plain_forDeclaration a
  | .callee, a => plain_callee a
  | .argument, a => plain_argument a
  | .memberObject, a => plain_memberObject a
  | .super, a => plain_super a
  | .memberProperty, a => plain_memberProperty a
  | .arrayElement, a => plain_arrayElement a
  | .arrowFunctionBody, a => plain_arrowFunctionBody a
  | .propertyDefinition, a => plain_propertyDefinition a
  | .binaryOperator, a => plain_binaryOperator a
  | .logicalOperator, a => plain_logicalOperator a
  | .assignmentOperator, a => plain_assignmentOperator a
  | .unaryOperator, a => plain_unaryOperator a
  | .updateOperator, a => plain_updateOperator a
  | .declExport, a => plain_declExport a
  | .patternOrExpr, a => plain_patternOrExpr a
  | .assignmentPattern, a => plain_assignmentPattern a
  | .declFunction, a => plain_declFunction a
  | .declClass, a => plain_declClass a
  | .declImport, a => plain_declImport a
  | .stmtExpr, a => plain_stmtExpr a
  | .stmtBlock, a => plain_stmtBlock a
  | .exprBinary, a => plain_exprBinary a
  | .exprLogical, a => plain_exprLogical a
  | .exprUnary, a => plain_exprUnary a
  | .exprCall, a => plain_exprCall a
  | .exprMember, a => plain_exprMember a
  | .exprOptionalMember, a => plain_exprOptionalMember a
  | .exprOptionalCall, a => plain_exprOptionalCall a
  | .exprParenthesized, a => plain_exprParenthesized a
  | .exprLiteral, a => plain_exprLiteral a
  | .exprAssignment, a => plain_exprAssignment a
  | .exprYield, a => plain_exprYield a
  | .exprConditional, a => plain_exprConditional a
  | .exprUpdate, a => plain_exprUpdate a
  | .exprSequence, a => plain_exprSequence a
  | .exprThis, a => plain_exprThis a
  | .exprFunction, a => plain_exprFunction a
  | .exprNew, a => plain_exprNew a
  | .exprArrowFunction, a => plain_exprArrowFunction a
  | .exprAwait, a => plain_exprAwait a
  | .exprMetaProperty, a => plain_exprMetaProperty a
  | .exprClass, a => plain_exprClass a
  | .stmtReturn, a => plain_stmtReturn a
  | .stmtVariable, a => plain_stmtVariable a
  | .stmtEmpty, a => plain_stmtEmpty a
  | .stmtTry, a => plain_stmtTry a
  | .stmtDebugger, a => plain_stmtDebugger a
  | .stmtThrow, a => plain_stmtThrow a
  | .stmtLabeled, a => plain_stmtLabeled a
  | .stmtWith, a => plain_stmtWith a
  | .stmtContinue, a => plain_stmtContinue a
  | .stmtBreak, a => plain_stmtBreak a
  | .stmtSwitch, a => plain_stmtSwitch a
  | .stmtIf, a => plain_stmtIf a
  | .stmtFor, a => plain_stmtFor a
  | .stmtForOf, a => plain_stmtForOf a
  | .stmtForIn, a => plain_stmtForIn a
  | .stmtWhile, a => plain_stmtWhile a
  | .stmtDoWhile, a => plain_stmtDoWhile a
  | .stmtList, a => plain_stmtList a
  | .bindingElement, a => plain_bindingElement a
  | .formalParameters, a => plain_formalParameters a
  | .variableDeclaration, a => plain_variableDeclaration a
  | .litString, a => plain_litString a
  | .litTemplate, a => plain_litTemplate a
  | .litArray, a => plain_litArray a
  | .litObject, a => plain_litObject a
  | .arrayBinding, a => plain_arrayBinding a
  | .objectBinding, a => plain_objectBinding a
  | .singleNameBinding, a => plain_singleNameBinding a
  | .namedBinding, a => plain_namedBinding a
  | .namedProperty, a => plain_namedProperty a
  | .methodDefinition, a => plain_methodDefinition a
  | .catchClause, a => plain_catchClause a
  | .switchCase, a => plain_switchCase a
  | .exportDecl, a => plain_exportDecl a
  | .exportDefaultDecl, a => plain_exportDefaultDecl a
  | .exportDefaultExpr, a => plain_exportDefaultExpr a
  | .exprTaggedTemplate, a => plain_exprTaggedTemplate a
  | .exportNamed, a => plain_exportNamed a
  | .exportNamespace, a => plain_exportNamespace a
  | .namedExport, a => plain_namedExport a
  | .namedImport, a => plain_namedImport a
  | .ident, a => plain_ident a
  | .body, a => plain_body a
  | .forBinding, a => plain_forBinding a

end Fajt
