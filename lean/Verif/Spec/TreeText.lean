import Verif.Model.Ast
/-!
# The texts in a tree

`X.text x` is the sequence of all characters of identifiers, literals, template strings and string delimiters of a tree.  It is used to
say what strings a tree contains ("no name or literal of the tree contains a line feed").  This file is part of the
specification; it does not mention the code generator.
-/
namespace Fajt

/-- The characters of a string literal and its delimiter. -/
def LitString.text (s : LitString) : Str := s.delimiter :: s.value

/-- Text of an optional name. -/
def optIdentText : Option Ident → Str
  | none => []
  | some i => i.name

/-- Text of an optional string literal. -/
def optStringText : Option LitString → Str
  | none => []
  | some s => s.text

/-- Text of a named import. -/
def NamedImport.text (n : NamedImport) : Str := n.name.name ++ optIdentText n.alias

/-- Text of a named export. -/
def NamedExport.text (n : NamedExport) : Str := n.name.name ++ optIdentText n.aliasOf

/-- Text of the named imports of an import declaration. -/
def importsText : Option (List NamedImport) → Str
  | none => []
  | some l => l.flatMap NamedImport.text

mutual

/-- The characters of the names, literal texts and delimiters in a `Expr`, in the order of its fields. -/
def Expr.text : Expr → Str
  | .arrow _ _ _ x3 x4 => x3.text ++ x4.text
  | .assign _ _ x2 x3 => x2.text ++ x3.text
  | .await _ x1 => x1.text
  | .binary _ _ x2 x3 => x2.text ++ x3.text
  | .call _ x1 _ x3 => x1.text ++ listArgumentText x3
  | .classE _ x1 x2 x3 => optIdentText x1 ++ optExprText x2 ++ listMethodDefText x3
  | .conditional _ x1 x2 x3 => x1.text ++ x2.text ++ x3.text
  | .function _ _ _ x3 x4 x5 => optIdentText x3 ++ x4.text ++ x5.text
  | .ident x0 => x0.name
  | .literal _ x1 => x1.text
  | .logical _ _ x2 x3 => x2.text ++ x3.text
  | .member _ x1 x2 => x1.text ++ x2.text
  | .metaProp _ x1 x2 => x1.name ++ x2.name
  | .new _ x1 _ x3 => x1.text ++ listArgumentText x3
  | .optCall _ x1 _ x3 _ => x1.text ++ listArgumentText x3
  | .optMember _ x1 x2 _ => x1.text ++ x2.text
  | .paren _ x1 => x1.text
  | .sequence _ x1 => listExprText x1
  | .tagged _ x1 x2 => x1.text ++ listTemplatePartText x2
  | .this _ => []
  | .unary _ _ x2 => x2.text
  | .update _ _ _ x3 => x3.text
  | .yield _ x1 _ => optExprText x1
termination_by structural x => x

/-- The characters of the names, literal texts and delimiters in a `Literal`, in the order of its fields. -/
def Literal.text : Literal → Str
  | .null => []
  | .boolean _ => []
  | .string x0 => x0.text
  | .number x0 => x0
  | .array x0 => listArrayElementText x0
  | .object x0 => listPropDefText x0
  | .regexp x0 => x0
  | .template x0 => listTemplatePartText x0
termination_by structural x => x

/-- The characters of the names, literal texts and delimiters in a `TemplatePart`, in the order of its fields. -/
def TemplatePart.text : TemplatePart → Str
  | .string x0 => x0
  | .expr x0 => x0.text
termination_by structural x => x

/-- The characters of the names, literal texts and delimiters in a `ArrayElement`, in the order of its fields. -/
def ArrayElement.text : ArrayElement → Str
  | .elision => []
  | .expr x0 => x0.text
  | .spread x0 => x0.text
termination_by structural x => x

/-- The characters of the names, literal texts and delimiters in a `PropDef`, in the order of its fields. -/
def PropDef.text : PropDef → Str
  | .identRef x0 => x0.name
  | .spread x0 => x0.text
  | .named _ x1 x2 => x1.text ++ x2.text
  | .method x0 => x0.text
termination_by structural x => x

/-- The characters of the names, literal texts and delimiters in a `PropName`, in the order of its fields. -/
def PropName.text : PropName → Str
  | .ident x0 => x0.name
  | .string x0 => x0.text
  | .number x0 => x0
  | .computed x0 => x0.text
termination_by structural x => x

/-- The characters of the names, literal texts and delimiters in a `MethodDef`, in the order of its fields. -/
def MethodDef.text : MethodDef → Str
  | .mk _ x1 _ x3 x4 _ _ _ => x1.text ++ x3.text ++ x4.text
termination_by structural x => x

/-- The characters of the names, literal texts and delimiters in a `FormalParams`, in the order of its fields. -/
def FormalParams.text : FormalParams → Str
  | .mk _ x1 x2 => listBindingElementText x1 ++ optBindingPatternText x2
termination_by structural x => x

/-- The characters of the names, literal texts and delimiters in a `Body`, in the order of its fields. -/
def Body.text : Body → Str
  | .mk _ x1 x2 => x1.flatMap LitString.text ++ listStmtText x2
termination_by structural x => x

/-- The characters of the names, literal texts and delimiters in a `ArrowBody`, in the order of its fields. -/
def ArrowBody.text : ArrowBody → Str
  | .expr x0 => x0.text
  | .body x0 => x0.text
termination_by structural x => x

/-- The characters of the names, literal texts and delimiters in a `MemberObject`, in the order of its fields. -/
def MemberObject.text : MemberObject → Str
  | .expr x0 => x0.text
  | .super _ => []
termination_by structural x => x

/-- The characters of the names, literal texts and delimiters in a `MemberProp`, in the order of its fields. -/
def MemberProp.text : MemberProp → Str
  | .ident x0 => x0.name
  | .expr x0 => x0.text
termination_by structural x => x

/-- The characters of the names, literal texts and delimiters in a `Argument`, in the order of its fields. -/
def Argument.text : Argument → Str
  | .expr x0 => x0.text
  | .spread x0 => x0.text
termination_by structural x => x

/-- The characters of the names, literal texts and delimiters in a `Callee`, in the order of its fields. -/
def Callee.text : Callee → Str
  | .super => []
  | .import => []
  | .expr x0 => x0.text
termination_by structural x => x

/-- The characters of the names, literal texts and delimiters in a `BindingPattern`, in the order of its fields. -/
def BindingPattern.text : BindingPattern → Str
  | .ident x0 => x0.name
  | .array _ x1 x2 => optListBindingElementText x1 ++ optBindingPatternText x2
  | .object _ x1 x2 => listBindingPropText x1 ++ optBindingPatternText x2
termination_by structural x => x

/-- The characters of the names, literal texts and delimiters in a `BindingProp`, in the order of its fields. -/
def BindingProp.text : BindingProp → Str
  | .single _ x1 x2 => x1.name ++ optExprText x2
  | .named _ x1 x2 => x1.text ++ x2.text
termination_by structural x => x

/-- The characters of the names, literal texts and delimiters in a `BindingElement`, in the order of its fields. -/
def BindingElement.text : BindingElement → Str
  | .mk _ x1 x2 => x1.text ++ optExprText x2
termination_by structural x => x

/-- The characters of the names, literal texts and delimiters in a `PatternOrExpr`, in the order of its fields. -/
def PatternOrExpr.text : PatternOrExpr → Str
  | .expr x0 => x0.text
  | .pattern x0 => x0.text
termination_by structural x => x

/-- The characters of the names, literal texts and delimiters in a `AssignPattern`, in the order of its fields. -/
def AssignPattern.text : AssignPattern → Str
  | .array _ x1 x2 => optListAssignElementText x1 ++ optPatternOrExprText x2
  | .object _ x1 x2 => listAssignPropText x1 ++ optPatternOrExprText x2
termination_by structural x => x

/-- The characters of the names, literal texts and delimiters in a `AssignElement`, in the order of its fields. -/
def AssignElement.text : AssignElement → Str
  | .mk _ x1 x2 => x1.text ++ optExprText x2
termination_by structural x => x

/-- The characters of the names, literal texts and delimiters in a `AssignProp`, in the order of its fields. -/
def AssignProp.text : AssignProp → Str
  | .single _ x1 x2 => x1.name ++ optExprText x2
  | .named _ x1 x2 x3 => x1.text ++ x2.text ++ optExprText x3
termination_by structural x => x

/-- The characters of the names, literal texts and delimiters in a `Stmt`, in the order of its fields. -/
def Stmt.text : Stmt → Str
  | .block x0 => x0.text
  | .break _ x1 => optIdentText x1
  | .continue _ x1 => optIdentText x1
  | .debugger _ => []
  | .doWhile _ x1 x2 => x1.text ++ x2.text
  | .empty _ => []
  | .expr _ x1 => x1.text
  | .for _ x1 x2 x3 x4 => optForInitText x1 ++ optExprText x2 ++ optExprText x3 ++ x4.text
  | .forIn _ x1 x2 x3 => x1.text ++ x2.text ++ x3.text
  | .forOf _ x1 x2 x3 _ => x1.text ++ x2.text ++ x3.text
  | .if _ x1 x2 x3 => x1.text ++ x2.text ++ optStmtText x3
  | .labeled _ x1 x2 => x1.name ++ x2.text
  | .return _ x1 => optExprText x1
  | .switch _ x1 x2 => x1.text ++ listSwitchCaseText x2
  | .throw _ x1 => x1.text
  | .try _ x1 x2 x3 => x1.text ++ optCatchClauseText x2 ++ optBlockText x3
  | .variable x0 => x0.text
  | .while _ x1 x2 => x1.text ++ x2.text
  | .with _ x1 x2 => x1.text ++ x2.text
  | .classDecl _ x1 x2 x3 => x1.name ++ optExprText x2 ++ listMethodDefText x3
  | .functionDecl _ _ _ x3 x4 x5 => x3.name ++ x4.text ++ x5.text
  | .importDecl _ x1 x2 x3 x4 => optIdentText x1 ++ optIdentText x2 ++ importsText x3 ++ x4.text
  | .exportDecl x0 => x0.text
termination_by structural x => x

/-- The characters of the names, literal texts and delimiters in a `Block`, in the order of its fields. -/
def Block.text : Block → Str
  | .mk _ x1 => listStmtText x1
termination_by structural x => x

/-- The characters of the names, literal texts and delimiters in a `VarStmt`, in the order of its fields. -/
def VarStmt.text : VarStmt → Str
  | .mk _ _ x2 => listVarDeclText x2
termination_by structural x => x

/-- The characters of the names, literal texts and delimiters in a `VarDecl`, in the order of its fields. -/
def VarDecl.text : VarDecl → Str
  | .mk _ x1 x2 => x1.text ++ optExprText x2
termination_by structural x => x

/-- The characters of the names, literal texts and delimiters in a `CatchClause`, in the order of its fields. -/
def CatchClause.text : CatchClause → Str
  | .mk _ x1 x2 => optBindingPatternText x1 ++ x2.text
termination_by structural x => x

/-- The characters of the names, literal texts and delimiters in a `SwitchCase`, in the order of its fields. -/
def SwitchCase.text : SwitchCase → Str
  | .mk _ x1 x2 => optExprText x1 ++ listStmtText x2
termination_by structural x => x

/-- The characters of the names, literal texts and delimiters in a `ForInit`, in the order of its fields. -/
def ForInit.text : ForInit → Str
  | .expr x0 => x0.text
  | .declaration x0 => x0.text
termination_by structural x => x

/-- The characters of the names, literal texts and delimiters in a `ForDecl`, in the order of its fields. -/
def ForDecl.text : ForDecl → Str
  | .expr x0 => x0.text
  | .pattern x0 => x0.text
  | .declaration _ _ x2 => x2.text
termination_by structural x => x

/-- The characters of the names, literal texts and delimiters in a `ExportDecl`, in the order of its fields. -/
def ExportDecl.text : ExportDecl → Str
  | .decl _ x1 => x1.text
  | .defaultExpr _ x1 => x1.text
  | .defaultDecl _ x1 => x1.text
  | .named _ x1 x2 => x1.flatMap NamedExport.text ++ optStringText x2
  | .namespace _ x1 x2 => optIdentText x1 ++ x2.text
termination_by structural x => x

/-- Text of a list. -/
def listArgumentText : List Argument → Str
  | [] => []
  | x :: l => x.text ++ listArgumentText l
termination_by structural x => x

/-- Text of a list. -/
def listArrayElementText : List ArrayElement → Str
  | [] => []
  | x :: l => x.text ++ listArrayElementText l
termination_by structural x => x

/-- Text of a list. -/
def listAssignPropText : List AssignProp → Str
  | [] => []
  | x :: l => x.text ++ listAssignPropText l
termination_by structural x => x

/-- Text of a list. -/
def listBindingElementText : List BindingElement → Str
  | [] => []
  | x :: l => x.text ++ listBindingElementText l
termination_by structural x => x

/-- Text of a list. -/
def listBindingPropText : List BindingProp → Str
  | [] => []
  | x :: l => x.text ++ listBindingPropText l
termination_by structural x => x

/-- Text of a list. -/
def listExprText : List Expr → Str
  | [] => []
  | x :: l => x.text ++ listExprText l
termination_by structural x => x

/-- Text of a list. -/
def listMethodDefText : List MethodDef → Str
  | [] => []
  | x :: l => x.text ++ listMethodDefText l
termination_by structural x => x

/-- Text of a list. -/
def optListAssignElementText : List (Option AssignElement) → Str
  | [] => []
  | x :: l => optAssignElementText x ++ optListAssignElementText l
termination_by structural x => x

/-- Text of a list. -/
def optListBindingElementText : List (Option BindingElement) → Str
  | [] => []
  | x :: l => optBindingElementText x ++ optListBindingElementText l
termination_by structural x => x

/-- Text of a list. -/
def listPropDefText : List PropDef → Str
  | [] => []
  | x :: l => x.text ++ listPropDefText l
termination_by structural x => x

/-- Text of a list. -/
def listStmtText : List Stmt → Str
  | [] => []
  | x :: l => x.text ++ listStmtText l
termination_by structural x => x

/-- Text of a list. -/
def listSwitchCaseText : List SwitchCase → Str
  | [] => []
  | x :: l => x.text ++ listSwitchCaseText l
termination_by structural x => x

/-- Text of a list. -/
def listTemplatePartText : List TemplatePart → Str
  | [] => []
  | x :: l => x.text ++ listTemplatePartText l
termination_by structural x => x

/-- Text of a list. -/
def listVarDeclText : List VarDecl → Str
  | [] => []
  | x :: l => x.text ++ listVarDeclText l
termination_by structural x => x

/-- Text of an optional part. -/
def optAssignElementText : Option AssignElement → Str
  | none => []
  | some x => x.text
termination_by structural x => x

/-- Text of an optional part. -/
def optBindingElementText : Option BindingElement → Str
  | none => []
  | some x => x.text
termination_by structural x => x

/-- Text of an optional part. -/
def optBindingPatternText : Option BindingPattern → Str
  | none => []
  | some x => x.text
termination_by structural x => x

/-- Text of an optional part. -/
def optBlockText : Option Block → Str
  | none => []
  | some x => x.text
termination_by structural x => x

/-- Text of an optional part. -/
def optCatchClauseText : Option CatchClause → Str
  | none => []
  | some x => x.text
termination_by structural x => x

/-- Text of an optional part. -/
def optExprText : Option Expr → Str
  | none => []
  | some x => x.text
termination_by structural x => x

/-- Text of an optional part. -/
def optForInitText : Option ForInit → Str
  | none => []
  | some x => x.text
termination_by structural x => x

/-- Text of an optional part. -/
def optPatternOrExprText : Option PatternOrExpr → Str
  | none => []
  | some x => x.text
termination_by structural x => x

/-- Text of an optional part. -/
def optStmtText : Option Stmt → Str
  | none => []
  | some x => x.text
termination_by structural x => x

end

/-- The characters of all names and literals of a program. -/
def Program.text (p : Program) : Str := p.directives.flatMap LitString.text ++ listStmtText p.body

end Fajt
