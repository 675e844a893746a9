import Verif.Model.Codegen
import Verif.Spec.Strip
/-!
# The generated code does not depend on spans
-/
namespace Fajt
open Gen
set_option maxHeartbeats 2000000
set_option linter.unusedSectionVars false
set_option linter.unusedSimpArgs false
variable [UnicodeID]

theorem ident_strip (c : GCtx) (i : Ident) : Gen.ident c i.strip = Gen.ident c i := rfl

theorem optIdent_strip (c : GCtx) (i : Option Ident) : Gen.optIdent c (i.map Ident.strip) = Gen.optIdent c i := by cases i <;> rfl

theorem asAlias_strip (c : GCtx) (i : Option Ident) : Gen.asAlias c (i.map Ident.strip) = Gen.asAlias c i := by cases i <;> rfl

theorem isFunctionDecl_strip (s : Stmt) : s.strip.isFunctionDecl = s.isFunctionDecl := by cases s <;> rfl

theorem hasInit_strip (d : VarDecl) : d.strip.hasInit = d.hasInit := by obtain ⟨_, _, _ | _⟩ := d <;> rfl

theorem imports_strip (c : GCtx) (l : List NamedImport) : (l.map NamedImport.strip).map (namedImport c) = l.map (namedImport c) := by
  rw [List.map_map]
  refine List.map_congr_left fun n _ => ?_
  obtain ⟨_, _, _ | _⟩ := n <;> rfl

theorem exports_strip (c : GCtx) (l : List NamedExport) : (l.map NamedExport.strip).map (namedExport c) = l.map (namedExport c) := by
  rw [List.map_map]
  refine List.map_congr_left fun n _ => ?_
  obtain ⟨_, _, _ | _⟩ := n <;> rfl

theorem isEmpty_map {α β : Type} (f : α → β) (l : List α) : (l.map f).isEmpty = l.isEmpty := by cases l <;> rfl

theorem importDecl_strip (c : GCtx) (d ns : Option Ident) (l : Option (List NamedImport)) (s : LitString) :
    Gen.importDecl c (d.map Ident.strip) (ns.map Ident.strip) (l.map fun l => l.map NamedImport.strip) s = Gen.importDecl c d ns l s := by
  funext g
  cases d <;> cases ns <;> cases l <;> simp only [Gen.importDecl, Option.map_some, Option.map_none, imports_strip, isEmpty_map, ident_strip,
    Option.isSome_some, Option.isSome_none]

/-- Unfolds the generator one step. -/
local macro "unfold_gen" : tactic => `(tactic| simp only [Expr.gen, genExtends, genSpaced, genOpt, genInit, exprActs, Literal.gen, partsGen, TemplatePart.gen, ArrayElement.gen,
      arrayActs, PropDef.gen, propActs, PropName.gen, MethodDef.gen, elementsGen, FormalParams.gen, FormalParams.genBindings,
      genRest, bindingElementsGen, bindingElementActs, Body.gen, ArrowBody.gen, MemberObject.gen, MemberProp.gen,
      Argument.gen, argActs, Callee.gen, BindingPattern.gen, optElementsGen, optElementGen, BindingProp.gen, bindingPropActs,
      BindingElement.gen, PatternOrExpr.gen, Stmt.gen, stmtsGen, genElse, Block.gen, genFinally, genCatch, CatchClause.gen,
      genCatchParam, VarStmt.gen, varDeclsGen, VarDecl.gen, SwitchCase.gen, genCaseTest, casesGen, genForInit, ForInit.gen,
      ForDecl.gen, ExportDecl.gen, Expr.strip, Literal.strip, TemplatePart.strip, ArrayElement.strip, PropDef.strip,
      PropName.strip, MethodDef.strip, FormalParams.strip, Body.strip, ArrowBody.strip, MemberObject.strip, MemberProp.strip,
      Argument.strip, Callee.strip, BindingPattern.strip, BindingProp.strip, BindingElement.strip, PatternOrExpr.strip,
      Stmt.strip, Block.strip, VarStmt.strip, VarDecl.strip, CatchClause.strip, SwitchCase.strip, ForInit.strip,
      ForDecl.strip, ExportDecl.strip, stripArguments, stripArrayElements, stripAssignProps, stripBindingElements,
      stripBindingProps, stripExprs, stripMethodDefs, stripPropDefs, stripStmts, stripSwitchCases, stripTemplateParts,
      stripVarDecls, stripOptAssignElements, stripOptBindingElements, stripOptAssignElement, stripOptBindingElement,
      stripOptBindingPattern, stripOptBlock, stripOptCatchClause, stripOptExpr, stripOptForInit, stripOptPatternOrExpr,
      stripOptStmt, hasInit_strip, isFunctionDecl_strip, ident_strip, optIdent_strip, asAlias_strip, and_self, implies_true,
      List.isEmpty_nil, List.isEmpty_cons, Option.isSome_some, Option.isSome_none, Option.isNone_some, Option.isNone_none,
      Option.isSome_map, importDecl_strip, exports_strip, isEmpty_map, *])

theorem stmt_gen_strip (x : Stmt) : ∀ c, x.strip.gen c = x.gen c := by
  revert x
  apply @Stmt.rec
    (fun x => ∀ c, x.strip.gen c = x.gen c)
    (fun x => ∀ c, x.strip.gen c = x.gen c)
    (fun x => ∀ c, x.strip.gen c = x.gen c)
    (fun x => ∀ c, x.strip.gen c = x.gen c)
    (fun x => ∀ c, x.strip.gen c = x.gen c)
    (fun x => ∀ c, x.strip.gen c = x.gen c)
    (fun x => ∀ c, x.strip.gen c = x.gen c)
    (fun x => (∀ c, x.strip.gen c = x.gen c) ∧ ∀ c, x.strip.genBindings c = x.genBindings c)
    (fun x => ∀ c, x.strip.gen c = x.gen c)
    (fun x => ∀ c, x.strip.gen c = x.gen c)
    (fun x => ∀ c, x.strip.gen c = x.gen c)
    (fun x => ∀ c, x.strip.gen c = x.gen c)
    (fun x => ∀ c, x.strip.gen c = x.gen c)
    (fun x => ∀ c, x.strip.gen c = x.gen c)
    (fun x => ∀ c, x.strip.gen c = x.gen c)
    (fun x => ∀ c, x.strip.gen c = x.gen c)
    (fun x => ∀ c, x.strip.gen c = x.gen c)
    (fun x => ∀ c, x.strip.gen c = x.gen c)
    (fun _ => True)
    (fun _ => True)
    (fun _ => True)
    (fun x => (∀ c, x.strip.gen c = x.gen c))
    (fun x => ∀ c, x.strip.gen c = x.gen c)
    (fun x => ∀ c, x.strip.gen c = x.gen c)
    (fun x => (∀ c, x.strip.gen c = x.gen c))
    (fun x => ∀ c, x.strip.gen c = x.gen c)
    (fun x => ∀ c, x.strip.gen c = x.gen c)
    (fun x => ∀ c, x.strip.gen c = x.gen c)
    (fun x => ∀ c, x.strip.gen c = x.gen c)
    (fun x => ∀ c, x.strip.gen c = x.gen c)
    (fun x => (∀ c, argActs c (stripArguments x) = argActs c x) ∧ ((stripArguments x).isEmpty = x.isEmpty))
    (fun x => (∀ c, genExtends c (stripOptExpr x) = genExtends c x) ∧ (∀ c, genSpaced c (stripOptExpr x) = genSpaced c x) ∧ (∀ c, genOpt c (stripOptExpr x) = genOpt c x) ∧ (∀ c, genInit c (stripOptExpr x) = genInit c x) ∧ (∀ c, genCaseTest c (stripOptExpr x) = genCaseTest c x) ∧ ((stripOptExpr x).isSome = x.isSome))
    (fun x => (∀ c, elementsGen c (stripMethodDefs x) = elementsGen c x) ∧ ((stripMethodDefs x).isEmpty = x.isEmpty))
    (fun x => (∀ c, exprActs c (stripExprs x) = exprActs c x) ∧ ((stripExprs x).isEmpty = x.isEmpty))
    (fun x => (∀ c, partsGen c (stripTemplateParts x) = partsGen c x))
    (fun x => (∀ c, arrayActs c (stripArrayElements x) = arrayActs c x) ∧ ((stripArrayElements x).isEmpty = x.isEmpty))
    (fun x => (∀ c, propActs c (stripPropDefs x) = propActs c x) ∧ ((stripPropDefs x).isEmpty = x.isEmpty))
    (fun x => (∀ c, bindingElementsGen c (stripBindingElements x) = bindingElementsGen c x) ∧ (∀ c, bindingElementActs c (stripBindingElements x) = bindingElementActs c x) ∧ ((stripBindingElements x).isEmpty = x.isEmpty))
    (fun x => (∀ c b, genRest c b (stripOptBindingPattern x) = genRest c b x) ∧ (∀ c, genCatchParam c (stripOptBindingPattern x) = genCatchParam c x) ∧ (stripOptBindingPattern x).isSome = x.isSome)
    (fun x => (∀ c, stmtsGen c (stripStmts x) = stmtsGen c x) ∧ ((stripStmts x).isEmpty = x.isEmpty))
    (fun x => (∀ c, optElementsGen c (stripOptBindingElements x) = optElementsGen c x) ∧ ((stripOptBindingElements x).isEmpty = x.isEmpty))
    (fun x => (∀ c, bindingPropActs c (stripBindingProps x) = bindingPropActs c x) ∧ ((stripBindingProps x).isEmpty = x.isEmpty))
    (fun _ => True)
    (fun _ => True)
    (fun _ => True)
    (fun x => (∀ c, genForInit c (stripOptForInit x) = genForInit c x))
    (fun x => (∀ c, genElse c (stripOptStmt x) = genElse c x))
    (fun x => (∀ c, casesGen c (stripSwitchCases x) = casesGen c x) ∧ ((stripSwitchCases x).isEmpty = x.isEmpty))
    (fun x => (∀ c, genCatch c (stripOptCatchClause x) = genCatch c x))
    (fun x => (∀ c, genFinally c (stripOptBlock x) = genFinally c x))
    (fun x => (∀ c, varDeclsGen c (stripVarDecls x) = varDeclsGen c x) ∧ ((stripVarDecls x).isEmpty = x.isEmpty))
    (fun x => (∀ c, optElementGen c (stripOptBindingElement x) = optElementGen c x) ∧ (stripOptBindingElement x).isNone = x.isNone)
    (fun _ => True)
  all_goals intros
  case optMember p _ _ ih _ =>
    cases p <;> simp only [MemberProp.strip] at ih <;> funext g <;> simp only [Expr.strip, MemberProp.strip, Expr.gen, *]
  case «break» l _ => cases l <;> unfold_gen <;> rfl
  case «continue» l _ => cases l <;> unfold_gen <;> rfl
  all_goals first
    | trivial
    | (unfold_gen; done)
    | skip
  rename_i p i ih1 ih2 c
  obtain ⟨-, -, -, ih2, -⟩ := ih2
  funext g
  simp only [VarDecl.strip, VarDecl.gen, ih1, ih2]
  cases i with
  | none => rfl
  | some e => cases e <;> rfl

/-- The spans of a program can be erased before code is generated. -/
theorem generateCode_erased {minified : Bool} (p : Program) : generateCode minified p.strip = generateCode minified p := by
  have h : ∀ (l : List Stmt) (c : GCtx), stmtsGen c (stripStmts l) = stmtsGen c l := by
    intro l c
    induction l with
    | nil => rfl
    | cons s l ih => simp only [stripStmts, stmtsGen, stmt_gen_strip, ih]
  simp only [generateCode, Program.gen, Program.strip, h]

/-- The code that is generated depends only on the tree without its spans. -/
theorem generateCode_strip {minified : Bool} {p q : Program} (h : p.strip = q.strip) : generateCode minified p = generateCode minified q := by
  rw [← generateCode_erased p, ← generateCode_erased q, h]

end Fajt
