import Verif.Model.Ast
/-!
# Trees without positions

`strip` replaces every span of a tree by the same one.  Two trees are equal up to spans if `strip` gives the same result.
-/
namespace Fajt

/-- The span that replaces all others. -/
def nowhere : Span := ⟨0, 0⟩

/-- An identifier without its span. -/
def Ident.strip (i : Ident) : Ident := ⟨nowhere, i.name⟩

/-- A named import without spans. -/
def NamedImport.strip (i : NamedImport) : NamedImport := ⟨nowhere, i.name.strip, i.alias.map Ident.strip⟩

/-- A named export without spans. -/
def NamedExport.strip (i : NamedExport) : NamedExport := ⟨nowhere, i.name.strip, i.aliasOf.map Ident.strip⟩

mutual

/-- Without the spans: an expression. -/
def Expr.strip : Expr → Expr
  | .arrow _ x2 x3 x4 x5 => .arrow nowhere x2 x3 x4.strip x5.strip
  | .assign _ x2 x3 x4 => .assign nowhere x2 x3.strip x4.strip
  | .await _ x2 => .await nowhere x2.strip
  | .binary _ x2 x3 x4 => .binary nowhere x2 x3.strip x4.strip
  | .call _ x2 _ x4 => .call nowhere x2.strip nowhere (stripArguments x4)
  | .classE _ x2 x3 x4 => .classE nowhere (x2.map Ident.strip) (stripOptExpr x3) (stripMethodDefs x4)
  | .conditional _ x2 x3 x4 => .conditional nowhere x2.strip x3.strip x4.strip
  | .function _ x2 x3 x4 x5 x6 => .function nowhere x2 x3 (x4.map Ident.strip) x5.strip x6.strip
  | .ident x1 => .ident x1.strip
  | .literal _ x2 => .literal nowhere x2.strip
  | .logical _ x2 x3 x4 => .logical nowhere x2 x3.strip x4.strip
  | .member _ x2 x3 => .member nowhere x2.strip x3.strip
  | .metaProp _ x2 x3 => .metaProp nowhere x2.strip x3.strip
  | .new _ x2 x3 x4 => .new nowhere x2.strip (x3.map fun _ => nowhere) (stripArguments x4)
  | .optCall _ x2 _ x4 x5 => .optCall nowhere x2.strip nowhere (stripArguments x4) x5
  | .optMember _ x2 x3 x4 => .optMember nowhere x2.strip x3.strip x4
  | .paren _ x2 => .paren nowhere x2.strip
  | .sequence _ x2 => .sequence nowhere (stripExprs x2)
  | .tagged _ x2 x3 => .tagged nowhere x2.strip (stripTemplateParts x3)
  | .this _ => .this nowhere
  | .unary _ x2 x3 => .unary nowhere x2 x3.strip
  | .update _ x2 x3 x4 => .update nowhere x2 x3 x4.strip
  | .yield _ x2 x3 => .yield nowhere (stripOptExpr x2) x3
termination_by structural x => x

/-- Without the spans: a literal. -/
def Literal.strip : Literal → Literal
  | .null => .null
  | .boolean x1 => .boolean x1
  | .string x1 => .string x1
  | .number x1 => .number x1
  | .array x1 => .array (stripArrayElements x1)
  | .object x1 => .object (stripPropDefs x1)
  | .regexp x1 => .regexp x1
  | .template x1 => .template (stripTemplateParts x1)
termination_by structural x => x

/-- Without the spans: a part of a template. -/
def TemplatePart.strip : TemplatePart → TemplatePart
  | .string x1 => .string x1
  | .expr x1 => .expr x1.strip
termination_by structural x => x

/-- Without the spans: an element of an array. -/
def ArrayElement.strip : ArrayElement → ArrayElement
  | .elision => .elision
  | .expr x1 => .expr x1.strip
  | .spread x1 => .spread x1.strip
termination_by structural x => x

/-- Without the spans: a property. -/
def PropDef.strip : PropDef → PropDef
  | .identRef x1 => .identRef x1.strip
  | .spread x1 => .spread x1.strip
  | .named _ x2 x3 => .named nowhere x2.strip x3.strip
  | .method x1 => .method x1.strip
termination_by structural x => x

/-- Without the spans: a property name. -/
def PropName.strip : PropName → PropName
  | .ident x1 => .ident x1.strip
  | .string x1 => .string x1
  | .number x1 => .number x1
  | .computed x1 => .computed x1.strip
termination_by structural x => x

/-- Without the spans: a method. -/
def MethodDef.strip : MethodDef → MethodDef
  | .mk _ x2 x3 x4 x5 x6 x7 x8 => .mk nowhere x2.strip x3 x4.strip x5.strip x6 x7 x8
termination_by structural x => x

/-- Without the spans: formal parameters. -/
def FormalParams.strip : FormalParams → FormalParams
  | .mk _ x2 x3 => .mk nowhere (stripBindingElements x2) (stripOptBindingPattern x3)
termination_by structural x => x

/-- Without the spans: a function body. -/
def Body.strip : Body → Body
  | .mk _ x2 x3 => .mk nowhere x2 (stripStmts x3)
termination_by structural x => x

/-- Without the spans: the body of an arrow function. -/
def ArrowBody.strip : ArrowBody → ArrowBody
  | .expr x1 => .expr x1.strip
  | .body x1 => .body x1.strip
termination_by structural x => x

/-- Without the spans: the object of a member expression. -/
def MemberObject.strip : MemberObject → MemberObject
  | .expr x1 => .expr x1.strip
  | .super _ => .super nowhere
termination_by structural x => x

/-- Without the spans: the property of a member expression. -/
def MemberProp.strip : MemberProp → MemberProp
  | .ident x1 => .ident x1.strip
  | .expr x1 => .expr x1.strip
termination_by structural x => x

/-- Without the spans: an argument. -/
def Argument.strip : Argument → Argument
  | .expr x1 => .expr x1.strip
  | .spread x1 => .spread x1.strip
termination_by structural x => x

/-- Without the spans: a callee. -/
def Callee.strip : Callee → Callee
  | .super => .super
  | .«import» => .«import»
  | .expr x1 => .expr x1.strip
termination_by structural x => x

/-- Without the spans: a binding pattern. -/
def BindingPattern.strip : BindingPattern → BindingPattern
  | .ident x1 => .ident x1.strip
  | .array _ x2 x3 => .array nowhere (stripOptBindingElements x2) (stripOptBindingPattern x3)
  | .object _ x2 x3 => .object nowhere (stripBindingProps x2) (stripOptBindingPattern x3)
termination_by structural x => x

/-- Without the spans: a property of an object binding. -/
def BindingProp.strip : BindingProp → BindingProp
  | .single _ x2 x3 => .single nowhere x2.strip (stripOptExpr x3)
  | .named _ x2 x3 => .named nowhere x2.strip x3.strip
termination_by structural x => x

/-- Without the spans: a binding element. -/
def BindingElement.strip : BindingElement → BindingElement
  | .mk _ x2 x3 => .mk nowhere x2.strip (stripOptExpr x3)
termination_by structural x => x

/-- Without the spans: an assignment target. -/
def PatternOrExpr.strip : PatternOrExpr → PatternOrExpr
  | .expr x1 => .expr x1.strip
  | .pattern x1 => .pattern x1.strip
termination_by structural x => x

/-- Without the spans: an assignment pattern. -/
def AssignPattern.strip : AssignPattern → AssignPattern
  | .array _ x2 x3 => .array nowhere (stripOptAssignElements x2) (stripOptPatternOrExpr x3)
  | .object _ x2 x3 => .object nowhere (stripAssignProps x2) (stripOptPatternOrExpr x3)
termination_by structural x => x

/-- Without the spans: an element of an assignment pattern. -/
def AssignElement.strip : AssignElement → AssignElement
  | .mk _ x2 x3 => .mk nowhere x2.strip (stripOptExpr x3)
termination_by structural x => x

/-- Without the spans: a property of an assignment pattern. -/
def AssignProp.strip : AssignProp → AssignProp
  | .single _ x2 x3 => .single nowhere x2.strip (stripOptExpr x3)
  | .named _ x2 x3 x4 => .named nowhere x2.strip x3.strip (stripOptExpr x4)
termination_by structural x => x

/-- Without the spans: a statement. -/
def Stmt.strip : Stmt → Stmt
  | .block x1 => .block x1.strip
  | .«break» _ x2 => .«break» nowhere (x2.map Ident.strip)
  | .«continue» _ x2 => .«continue» nowhere (x2.map Ident.strip)
  | .debugger _ => .debugger nowhere
  | .doWhile _ x2 x3 => .doWhile nowhere x2.strip x3.strip
  | .empty _ => .empty nowhere
  | .expr _ x2 => .expr nowhere x2.strip
  | .«for» _ x2 x3 x4 x5 => .«for» nowhere (stripOptForInit x2) (stripOptExpr x3) (stripOptExpr x4) x5.strip
  | .forIn _ x2 x3 x4 => .forIn nowhere x2.strip x3.strip x4.strip
  | .forOf _ x2 x3 x4 x5 => .forOf nowhere x2.strip x3.strip x4.strip x5
  | .«if» _ x2 x3 x4 => .«if» nowhere x2.strip x3.strip (stripOptStmt x4)
  | .labeled _ x2 x3 => .labeled nowhere x2.strip x3.strip
  | .«return» _ x2 => .«return» nowhere (stripOptExpr x2)
  | .switch _ x2 x3 => .switch nowhere x2.strip (stripSwitchCases x3)
  | .«throw» _ x2 => .«throw» nowhere x2.strip
  | .«try» _ x2 x3 x4 => .«try» nowhere x2.strip (stripOptCatchClause x3) (stripOptBlock x4)
  | .variable x1 => .variable x1.strip
  | .«while» _ x2 x3 => .«while» nowhere x2.strip x3.strip
  | .with _ x2 x3 => .with nowhere x2.strip x3.strip
  | .classDecl _ x2 x3 x4 => .classDecl nowhere x2.strip (stripOptExpr x3) (stripMethodDefs x4)
  | .functionDecl _ x2 x3 x4 x5 x6 => .functionDecl nowhere x2 x3 x4.strip x5.strip x6.strip
  | .importDecl _ x2 x3 x4 x5 => .importDecl nowhere (x2.map Ident.strip) (x3.map Ident.strip) (x4.map fun l => l.map NamedImport.strip) x5
  | .exportDecl x1 => .exportDecl x1.strip
termination_by structural x => x

/-- Without the spans: a block. -/
def Block.strip : Block → Block
  | .mk _ x2 => .mk nowhere (stripStmts x2)
termination_by structural x => x

/-- Without the spans: a variable statement. -/
def VarStmt.strip : VarStmt → VarStmt
  | .mk _ x2 x3 => .mk nowhere x2 (stripVarDecls x3)
termination_by structural x => x

/-- Without the spans: a variable declaration. -/
def VarDecl.strip : VarDecl → VarDecl
  | .mk _ x2 x3 => .mk nowhere x2.strip (stripOptExpr x3)
termination_by structural x => x

/-- Without the spans: a catch clause. -/
def CatchClause.strip : CatchClause → CatchClause
  | .mk _ x2 x3 => .mk nowhere (stripOptBindingPattern x2) x3.strip
termination_by structural x => x

/-- Without the spans: a switch case. -/
def SwitchCase.strip : SwitchCase → SwitchCase
  | .mk _ x2 x3 => .mk nowhere (stripOptExpr x2) (stripStmts x3)
termination_by structural x => x

/-- Without the spans: the first part of a for loop. -/
def ForInit.strip : ForInit → ForInit
  | .expr x1 => .expr x1.strip
  | .declaration x1 => .declaration x1.strip
termination_by structural x => x

/-- Without the spans: the left side of a for-in or for-of loop. -/
def ForDecl.strip : ForDecl → ForDecl
  | .expr x1 => .expr x1.strip
  | .pattern x1 => .pattern x1.strip
  | .declaration _ x2 x3 => .declaration nowhere x2 x3.strip
termination_by structural x => x

/-- Without the spans: an export. -/
def ExportDecl.strip : ExportDecl → ExportDecl
  | .decl _ x2 => .decl nowhere x2.strip
  | .defaultExpr _ x2 => .defaultExpr nowhere x2.strip
  | .defaultDecl _ x2 => .defaultDecl nowhere x2.strip
  | .named _ x2 x3 => .named nowhere (x2.map NamedExport.strip) x3
  | .«namespace» _ x2 x3 => .«namespace» nowhere (x2.map Ident.strip) x3
termination_by structural x => x

/-- A list of `Argument`. -/
def stripArguments : List Argument → List Argument
  | [] => []
  | x :: xs => x.strip :: stripArguments xs
termination_by structural x => x

/-- A list of `ArrayElement`. -/
def stripArrayElements : List ArrayElement → List ArrayElement
  | [] => []
  | x :: xs => x.strip :: stripArrayElements xs
termination_by structural x => x

/-- A list of `AssignProp`. -/
def stripAssignProps : List AssignProp → List AssignProp
  | [] => []
  | x :: xs => x.strip :: stripAssignProps xs
termination_by structural x => x

/-- A list of `BindingElement`. -/
def stripBindingElements : List BindingElement → List BindingElement
  | [] => []
  | x :: xs => x.strip :: stripBindingElements xs
termination_by structural x => x

/-- A list of `BindingProp`. -/
def stripBindingProps : List BindingProp → List BindingProp
  | [] => []
  | x :: xs => x.strip :: stripBindingProps xs
termination_by structural x => x

/-- A list of `Expr`. -/
def stripExprs : List Expr → List Expr
  | [] => []
  | x :: xs => x.strip :: stripExprs xs
termination_by structural x => x

/-- A list of `MethodDef`. -/
def stripMethodDefs : List MethodDef → List MethodDef
  | [] => []
  | x :: xs => x.strip :: stripMethodDefs xs
termination_by structural x => x

/-- A list of `PropDef`. -/
def stripPropDefs : List PropDef → List PropDef
  | [] => []
  | x :: xs => x.strip :: stripPropDefs xs
termination_by structural x => x

/-- A list of `Stmt`. -/
def stripStmts : List Stmt → List Stmt
  | [] => []
  | x :: xs => x.strip :: stripStmts xs
termination_by structural x => x

/-- A list of `SwitchCase`. -/
def stripSwitchCases : List SwitchCase → List SwitchCase
  | [] => []
  | x :: xs => x.strip :: stripSwitchCases xs
termination_by structural x => x

/-- A list of `TemplatePart`. -/
def stripTemplateParts : List TemplatePart → List TemplatePart
  | [] => []
  | x :: xs => x.strip :: stripTemplateParts xs
termination_by structural x => x

/-- A list of `VarDecl`. -/
def stripVarDecls : List VarDecl → List VarDecl
  | [] => []
  | x :: xs => x.strip :: stripVarDecls xs
termination_by structural x => x

/-- A list of `AssignElement` with holes. -/
def stripOptAssignElements : List (Option AssignElement) → List (Option AssignElement)
  | [] => []
  | x :: xs => stripOptAssignElement x :: stripOptAssignElements xs
termination_by structural x => x

/-- A list of `BindingElement` with holes. -/
def stripOptBindingElements : List (Option BindingElement) → List (Option BindingElement)
  | [] => []
  | x :: xs => stripOptBindingElement x :: stripOptBindingElements xs
termination_by structural x => x

/-- An optional `AssignElement`. -/
def stripOptAssignElement : Option AssignElement → Option AssignElement
  | none => none
  | some x => some x.strip
termination_by structural x => x

/-- An optional `BindingElement`. -/
def stripOptBindingElement : Option BindingElement → Option BindingElement
  | none => none
  | some x => some x.strip
termination_by structural x => x

/-- An optional `BindingPattern`. -/
def stripOptBindingPattern : Option BindingPattern → Option BindingPattern
  | none => none
  | some x => some x.strip
termination_by structural x => x

/-- An optional `Block`. -/
def stripOptBlock : Option Block → Option Block
  | none => none
  | some x => some x.strip
termination_by structural x => x

/-- An optional `CatchClause`. -/
def stripOptCatchClause : Option CatchClause → Option CatchClause
  | none => none
  | some x => some x.strip
termination_by structural x => x

/-- An optional `Expr`. -/
def stripOptExpr : Option Expr → Option Expr
  | none => none
  | some x => some x.strip
termination_by structural x => x

/-- An optional `ForInit`. -/
def stripOptForInit : Option ForInit → Option ForInit
  | none => none
  | some x => some x.strip
termination_by structural x => x

/-- An optional `PatternOrExpr`. -/
def stripOptPatternOrExpr : Option PatternOrExpr → Option PatternOrExpr
  | none => none
  | some x => some x.strip
termination_by structural x => x

/-- An optional `Stmt`. -/
def stripOptStmt : Option Stmt → Option Stmt
  | none => none
  | some x => some x.strip
termination_by structural x => x

end

/-- A program without spans. -/
def Program.strip (p : Program) : Program := ⟨p.sourceType, nowhere, p.directives, stripStmts p.body⟩

end Fajt
