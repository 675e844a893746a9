import Verif.Model.Ast
/-!
# The spans of a tree

`AllSpans P` says that every span of a tree has the property `P`.  Written by `tools/gen_serde.py`.
-/
namespace Fajt

/-- The span of an identifier. -/
def Ident.AllSpans (P : Span → Prop) (x : Ident) : Prop := P x.span

/-- The spans of a named import. -/
def NamedImport.AllSpans (P : Span → Prop) (x : NamedImport) : Prop := P x.span ∧ x.name.AllSpans P ∧ ∀ y ∈ x.alias, y.AllSpans P

/-- The spans of a named export. -/
def NamedExport.AllSpans (P : Span → Prop) (x : NamedExport) : Prop := P x.span ∧ x.name.AllSpans P ∧ ∀ y ∈ x.aliasOf, y.AllSpans P

mutual

/-- Every span of such a node has the property. -/
def Expr.AllSpans (P : Span → Prop) : Expr → Prop
  | .arrow x1 _ _ x4 x5 => P x1 ∧ x4.AllSpans P ∧ x5.AllSpans P
  | .assign x1 _ x3 x4 => P x1 ∧ x3.AllSpans P ∧ x4.AllSpans P
  | .await x1 x2 => P x1 ∧ x2.AllSpans P
  | .binary x1 _ x3 x4 => P x1 ∧ x3.AllSpans P ∧ x4.AllSpans P
  | .call x1 x2 x3 x4 => P x1 ∧ x2.AllSpans P ∧ P x3 ∧ allArguments P x4
  | .classE x1 x2 x3 x4 => P x1 ∧ (∀ y ∈ x2, y.AllSpans P) ∧ allOptExpr P x3 ∧ allMethodDefs P x4
  | .conditional x1 x2 x3 x4 => P x1 ∧ x2.AllSpans P ∧ x3.AllSpans P ∧ x4.AllSpans P
  | .function x1 _ _ x4 x5 x6 => P x1 ∧ (∀ y ∈ x4, y.AllSpans P) ∧ x5.AllSpans P ∧ x6.AllSpans P
  | .ident x1 => x1.AllSpans P
  | .literal x1 x2 => P x1 ∧ x2.AllSpans P
  | .logical x1 _ x3 x4 => P x1 ∧ x3.AllSpans P ∧ x4.AllSpans P
  | .member x1 x2 x3 => P x1 ∧ x2.AllSpans P ∧ x3.AllSpans P
  | .metaProp x1 x2 x3 => P x1 ∧ x2.AllSpans P ∧ x3.AllSpans P
  | .new x1 x2 x3 x4 => P x1 ∧ x2.AllSpans P ∧ (∀ y ∈ x3, P y) ∧ allArguments P x4
  | .optCall x1 x2 x3 x4 _ => P x1 ∧ x2.AllSpans P ∧ P x3 ∧ allArguments P x4
  | .optMember x1 x2 x3 _ => P x1 ∧ x2.AllSpans P ∧ x3.AllSpans P
  | .paren x1 x2 => P x1 ∧ x2.AllSpans P
  | .sequence x1 x2 => P x1 ∧ allExprs P x2
  | .tagged x1 x2 x3 => P x1 ∧ x2.AllSpans P ∧ allTemplateParts P x3
  | .this x1 => P x1
  | .unary x1 _ x3 => P x1 ∧ x3.AllSpans P
  | .update x1 _ _ x4 => P x1 ∧ x4.AllSpans P
  | .yield x1 x2 _ => P x1 ∧ allOptExpr P x2
termination_by structural x => x

/-- Every span of such a node has the property. -/
def Literal.AllSpans (P : Span → Prop) : Literal → Prop
  | .null => True
  | .boolean _ => True
  | .string _ => True
  | .number _ => True
  | .array x1 => allArrayElements P x1
  | .object x1 => allPropDefs P x1
  | .regexp _ => True
  | .template x1 => allTemplateParts P x1
termination_by structural x => x

/-- Every span of such a node has the property. -/
def TemplatePart.AllSpans (P : Span → Prop) : TemplatePart → Prop
  | .string _ => True
  | .expr x1 => x1.AllSpans P
termination_by structural x => x

/-- Every span of such a node has the property. -/
def ArrayElement.AllSpans (P : Span → Prop) : ArrayElement → Prop
  | .elision => True
  | .expr x1 => x1.AllSpans P
  | .spread x1 => x1.AllSpans P
termination_by structural x => x

/-- Every span of such a node has the property. -/
def PropDef.AllSpans (P : Span → Prop) : PropDef → Prop
  | .identRef x1 => x1.AllSpans P
  | .spread x1 => x1.AllSpans P
  | .named x1 x2 x3 => P x1 ∧ x2.AllSpans P ∧ x3.AllSpans P
  | .method x1 => x1.AllSpans P
termination_by structural x => x

/-- Every span of such a node has the property. -/
def PropName.AllSpans (P : Span → Prop) : PropName → Prop
  | .ident x1 => x1.AllSpans P
  | .string _ => True
  | .number _ => True
  | .computed x1 => x1.AllSpans P
termination_by structural x => x

/-- Every span of such a node has the property. -/
def MethodDef.AllSpans (P : Span → Prop) : MethodDef → Prop
  | .mk x1 x2 _ x4 x5 _ _ _ => P x1 ∧ x2.AllSpans P ∧ x4.AllSpans P ∧ x5.AllSpans P
termination_by structural x => x

/-- Every span of such a node has the property. -/
def FormalParams.AllSpans (P : Span → Prop) : FormalParams → Prop
  | .mk x1 x2 x3 => P x1 ∧ allBindingElements P x2 ∧ allOptBindingPattern P x3
termination_by structural x => x

/-- Every span of such a node has the property. -/
def Body.AllSpans (P : Span → Prop) : Body → Prop
  | .mk x1 _ x3 => P x1 ∧ allStmts P x3
termination_by structural x => x

/-- Every span of such a node has the property. -/
def ArrowBody.AllSpans (P : Span → Prop) : ArrowBody → Prop
  | .expr x1 => x1.AllSpans P
  | .body x1 => x1.AllSpans P
termination_by structural x => x

/-- Every span of such a node has the property. -/
def MemberObject.AllSpans (P : Span → Prop) : MemberObject → Prop
  | .expr x1 => x1.AllSpans P
  | .super x1 => P x1
termination_by structural x => x

/-- Every span of such a node has the property. -/
def MemberProp.AllSpans (P : Span → Prop) : MemberProp → Prop
  | .ident x1 => x1.AllSpans P
  | .expr x1 => x1.AllSpans P
termination_by structural x => x

/-- Every span of such a node has the property. -/
def Argument.AllSpans (P : Span → Prop) : Argument → Prop
  | .expr x1 => x1.AllSpans P
  | .spread x1 => x1.AllSpans P
termination_by structural x => x

/-- Every span of such a node has the property. -/
def Callee.AllSpans (P : Span → Prop) : Callee → Prop
  | .super => True
  | .import => True
  | .expr x1 => x1.AllSpans P
termination_by structural x => x

/-- Every span of such a node has the property. -/
def BindingPattern.AllSpans (P : Span → Prop) : BindingPattern → Prop
  | .ident x1 => x1.AllSpans P
  | .array x1 x2 x3 => P x1 ∧ allOptBindingElements P x2 ∧ allOptBindingPattern P x3
  | .object x1 x2 x3 => P x1 ∧ allBindingProps P x2 ∧ allOptBindingPattern P x3
termination_by structural x => x

/-- Every span of such a node has the property. -/
def BindingProp.AllSpans (P : Span → Prop) : BindingProp → Prop
  | .single x1 x2 x3 => P x1 ∧ x2.AllSpans P ∧ allOptExpr P x3
  | .named x1 x2 x3 => P x1 ∧ x2.AllSpans P ∧ x3.AllSpans P
termination_by structural x => x

/-- Every span of such a node has the property. -/
def BindingElement.AllSpans (P : Span → Prop) : BindingElement → Prop
  | .mk x1 x2 x3 => P x1 ∧ x2.AllSpans P ∧ allOptExpr P x3
termination_by structural x => x

/-- Every span of such a node has the property. -/
def PatternOrExpr.AllSpans (P : Span → Prop) : PatternOrExpr → Prop
  | .expr x1 => x1.AllSpans P
  | .pattern x1 => x1.AllSpans P
termination_by structural x => x

/-- Every span of such a node has the property. -/
def AssignPattern.AllSpans (P : Span → Prop) : AssignPattern → Prop
  | .array x1 x2 x3 => P x1 ∧ allOptAssignElements P x2 ∧ allOptPatternOrExpr P x3
  | .object x1 x2 x3 => P x1 ∧ allAssignProps P x2 ∧ allOptPatternOrExpr P x3
termination_by structural x => x

/-- Every span of such a node has the property. -/
def AssignElement.AllSpans (P : Span → Prop) : AssignElement → Prop
  | .mk x1 x2 x3 => P x1 ∧ x2.AllSpans P ∧ allOptExpr P x3
termination_by structural x => x

/-- Every span of such a node has the property. -/
def AssignProp.AllSpans (P : Span → Prop) : AssignProp → Prop
  | .single x1 x2 x3 => P x1 ∧ x2.AllSpans P ∧ allOptExpr P x3
  | .named x1 x2 x3 x4 => P x1 ∧ x2.AllSpans P ∧ x3.AllSpans P ∧ allOptExpr P x4
termination_by structural x => x

/-- Every span of such a node has the property. -/
def Stmt.AllSpans (P : Span → Prop) : Stmt → Prop
  | .block x1 => x1.AllSpans P
  | .break x1 x2 => P x1 ∧ (∀ y ∈ x2, y.AllSpans P)
  | .continue x1 x2 => P x1 ∧ (∀ y ∈ x2, y.AllSpans P)
  | .debugger x1 => P x1
  | .doWhile x1 x2 x3 => P x1 ∧ x2.AllSpans P ∧ x3.AllSpans P
  | .empty x1 => P x1
  | .expr x1 x2 => P x1 ∧ x2.AllSpans P
  | .for x1 x2 x3 x4 x5 => P x1 ∧ allOptForInit P x2 ∧ allOptExpr P x3 ∧ allOptExpr P x4 ∧ x5.AllSpans P
  | .forIn x1 x2 x3 x4 => P x1 ∧ x2.AllSpans P ∧ x3.AllSpans P ∧ x4.AllSpans P
  | .forOf x1 x2 x3 x4 _ => P x1 ∧ x2.AllSpans P ∧ x3.AllSpans P ∧ x4.AllSpans P
  | .if x1 x2 x3 x4 => P x1 ∧ x2.AllSpans P ∧ x3.AllSpans P ∧ allOptStmt P x4
  | .labeled x1 x2 x3 => P x1 ∧ x2.AllSpans P ∧ x3.AllSpans P
  | .return x1 x2 => P x1 ∧ allOptExpr P x2
  | .switch x1 x2 x3 => P x1 ∧ x2.AllSpans P ∧ allSwitchCases P x3
  | .throw x1 x2 => P x1 ∧ x2.AllSpans P
  | .try x1 x2 x3 x4 => P x1 ∧ x2.AllSpans P ∧ allOptCatchClause P x3 ∧ allOptBlock P x4
  | .variable x1 => x1.AllSpans P
  | .while x1 x2 x3 => P x1 ∧ x2.AllSpans P ∧ x3.AllSpans P
  | .with x1 x2 x3 => P x1 ∧ x2.AllSpans P ∧ x3.AllSpans P
  | .classDecl x1 x2 x3 x4 => P x1 ∧ x2.AllSpans P ∧ allOptExpr P x3 ∧ allMethodDefs P x4
  | .functionDecl x1 _ _ x4 x5 x6 => P x1 ∧ x4.AllSpans P ∧ x5.AllSpans P ∧ x6.AllSpans P
  | .importDecl x1 x2 x3 x4 _ => P x1 ∧ (∀ y ∈ x2, y.AllSpans P) ∧ (∀ y ∈ x3, y.AllSpans P) ∧ (∀ y ∈ x4, (∀ z ∈ y, z.AllSpans P))
  | .exportDecl x1 => x1.AllSpans P
termination_by structural x => x

/-- Every span of such a node has the property. -/
def Block.AllSpans (P : Span → Prop) : Block → Prop
  | .mk x1 x2 => P x1 ∧ allStmts P x2
termination_by structural x => x

/-- Every span of such a node has the property. -/
def VarStmt.AllSpans (P : Span → Prop) : VarStmt → Prop
  | .mk x1 _ x3 => P x1 ∧ allVarDecls P x3
termination_by structural x => x

/-- Every span of such a node has the property. -/
def VarDecl.AllSpans (P : Span → Prop) : VarDecl → Prop
  | .mk x1 x2 x3 => P x1 ∧ x2.AllSpans P ∧ allOptExpr P x3
termination_by structural x => x

/-- Every span of such a node has the property. -/
def CatchClause.AllSpans (P : Span → Prop) : CatchClause → Prop
  | .mk x1 x2 x3 => P x1 ∧ allOptBindingPattern P x2 ∧ x3.AllSpans P
termination_by structural x => x

/-- Every span of such a node has the property. -/
def SwitchCase.AllSpans (P : Span → Prop) : SwitchCase → Prop
  | .mk x1 x2 x3 => P x1 ∧ allOptExpr P x2 ∧ allStmts P x3
termination_by structural x => x

/-- Every span of such a node has the property. -/
def ForInit.AllSpans (P : Span → Prop) : ForInit → Prop
  | .expr x1 => x1.AllSpans P
  | .declaration x1 => x1.AllSpans P
termination_by structural x => x

/-- Every span of such a node has the property. -/
def ForDecl.AllSpans (P : Span → Prop) : ForDecl → Prop
  | .expr x1 => x1.AllSpans P
  | .pattern x1 => x1.AllSpans P
  | .declaration x1 _ x3 => P x1 ∧ x3.AllSpans P
termination_by structural x => x

/-- Every span of such a node has the property. -/
def ExportDecl.AllSpans (P : Span → Prop) : ExportDecl → Prop
  | .decl x1 x2 => P x1 ∧ x2.AllSpans P
  | .defaultExpr x1 x2 => P x1 ∧ x2.AllSpans P
  | .defaultDecl x1 x2 => P x1 ∧ x2.AllSpans P
  | .named x1 x2 _ => P x1 ∧ (∀ y ∈ x2, y.AllSpans P)
  | .namespace x1 x2 _ => P x1 ∧ (∀ y ∈ x2, y.AllSpans P)
termination_by structural x => x

/-- Every span of a list of nodes has the property. -/
def allArguments (P : Span → Prop) : List (Argument) → Prop
  | [] => True
  | x :: l => x.AllSpans P ∧ allArguments P l
termination_by structural x => x

/-- Every span of a list of nodes has the property. -/
def allArrayElements (P : Span → Prop) : List (ArrayElement) → Prop
  | [] => True
  | x :: l => x.AllSpans P ∧ allArrayElements P l
termination_by structural x => x

/-- Every span of a list of nodes has the property. -/
def allAssignProps (P : Span → Prop) : List (AssignProp) → Prop
  | [] => True
  | x :: l => x.AllSpans P ∧ allAssignProps P l
termination_by structural x => x

/-- Every span of a list of nodes has the property. -/
def allBindingElements (P : Span → Prop) : List (BindingElement) → Prop
  | [] => True
  | x :: l => x.AllSpans P ∧ allBindingElements P l
termination_by structural x => x

/-- Every span of a list of nodes has the property. -/
def allBindingProps (P : Span → Prop) : List (BindingProp) → Prop
  | [] => True
  | x :: l => x.AllSpans P ∧ allBindingProps P l
termination_by structural x => x

/-- Every span of a list of nodes has the property. -/
def allExprs (P : Span → Prop) : List (Expr) → Prop
  | [] => True
  | x :: l => x.AllSpans P ∧ allExprs P l
termination_by structural x => x

/-- Every span of a list of nodes has the property. -/
def allMethodDefs (P : Span → Prop) : List (MethodDef) → Prop
  | [] => True
  | x :: l => x.AllSpans P ∧ allMethodDefs P l
termination_by structural x => x

/-- Every span of an optional node has the property. -/
def allOptAssignElement (P : Span → Prop) : Option AssignElement → Prop
  | none => True
  | some x => x.AllSpans P
termination_by structural x => x

/-- Every span of a list of nodes has the property. -/
def allOptAssignElements (P : Span → Prop) : List (Option (AssignElement)) → Prop
  | [] => True
  | x :: l => allOptAssignElement P x ∧ allOptAssignElements P l
termination_by structural x => x

/-- Every span of an optional node has the property. -/
def allOptBindingElement (P : Span → Prop) : Option BindingElement → Prop
  | none => True
  | some x => x.AllSpans P
termination_by structural x => x

/-- Every span of a list of nodes has the property. -/
def allOptBindingElements (P : Span → Prop) : List (Option (BindingElement)) → Prop
  | [] => True
  | x :: l => allOptBindingElement P x ∧ allOptBindingElements P l
termination_by structural x => x

/-- Every span of an optional node has the property. -/
def allOptBindingPattern (P : Span → Prop) : Option BindingPattern → Prop
  | none => True
  | some x => x.AllSpans P
termination_by structural x => x

/-- Every span of an optional node has the property. -/
def allOptBlock (P : Span → Prop) : Option Block → Prop
  | none => True
  | some x => x.AllSpans P
termination_by structural x => x

/-- Every span of an optional node has the property. -/
def allOptCatchClause (P : Span → Prop) : Option CatchClause → Prop
  | none => True
  | some x => x.AllSpans P
termination_by structural x => x

/-- Every span of an optional node has the property. -/
def allOptExpr (P : Span → Prop) : Option Expr → Prop
  | none => True
  | some x => x.AllSpans P
termination_by structural x => x

/-- Every span of an optional node has the property. -/
def allOptForInit (P : Span → Prop) : Option ForInit → Prop
  | none => True
  | some x => x.AllSpans P
termination_by structural x => x

/-- Every span of an optional node has the property. -/
def allOptPatternOrExpr (P : Span → Prop) : Option PatternOrExpr → Prop
  | none => True
  | some x => x.AllSpans P
termination_by structural x => x

/-- Every span of an optional node has the property. -/
def allOptStmt (P : Span → Prop) : Option Stmt → Prop
  | none => True
  | some x => x.AllSpans P
termination_by structural x => x

/-- Every span of a list of nodes has the property. -/
def allPropDefs (P : Span → Prop) : List (PropDef) → Prop
  | [] => True
  | x :: l => x.AllSpans P ∧ allPropDefs P l
termination_by structural x => x

/-- Every span of a list of nodes has the property. -/
def allStmts (P : Span → Prop) : List (Stmt) → Prop
  | [] => True
  | x :: l => x.AllSpans P ∧ allStmts P l
termination_by structural x => x

/-- Every span of a list of nodes has the property. -/
def allSwitchCases (P : Span → Prop) : List (SwitchCase) → Prop
  | [] => True
  | x :: l => x.AllSpans P ∧ allSwitchCases P l
termination_by structural x => x

/-- Every span of a list of nodes has the property. -/
def allTemplateParts (P : Span → Prop) : List (TemplatePart) → Prop
  | [] => True
  | x :: l => x.AllSpans P ∧ allTemplateParts P l
termination_by structural x => x

/-- Every span of a list of nodes has the property. -/
def allVarDecls (P : Span → Prop) : List (VarDecl) → Prop
  | [] => True
  | x :: l => x.AllSpans P ∧ allVarDecls P l
termination_by structural x => x

end

/-- Every span of a program has the property. -/
def Program.AllSpans (P : Span → Prop) (p : Program) : Prop := P p.span ∧ allStmts P p.body

end Fajt
