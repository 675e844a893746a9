import Verif.Model.Mutate
/-!
# Sizes of trees, and changing the leaves of a tree

`size` counts the nodes of a tree; `mapLeaves` changes the identifiers, strings, numbers and operators of a tree, wherever they
are; `mapReached` changes those that are reached by a traversal, as often as they are reached; `Plain` says that there is none
of the constructs whose children are not traversed exactly once (C42).  Written by `tools/gen_mutate.py`.
-/
namespace Fajt

set_option linter.unusedVariables false

/-- Sum over an option. -/
def optSum {α : Type} (f : α → Nat) : Option α → Nat
  | none => 0
  | some a => f a

/-- Sum over a list. -/
def listSum {α : Type} (f : α → Nat) : List α → Nat
  | [] => 0
  | a :: as => f a + listSum f as

/-- An identifier is one node. -/
def Ident.size (_ : Ident) : Nat := 1

/-- A string is one node. -/
def LitString.size (_ : LitString) : Nat := 1

/-- The number of nodes of a named import. -/
def NamedImport.size (x : NamedImport) : Nat := 1 + x.name.size + optSum Ident.size x.alias

/-- The number of nodes of a named export. -/
def NamedExport.size (x : NamedExport) : Nat := 1 + x.name.size + optSum Ident.size x.aliasOf

mutual

/-- The number of nodes. -/
def Expr.size : Expr → Nat
  | .arrow _ _ _ x4 x5 => 1 + 1 + x4.size + x5.size
  | .assign _ _ x3 x4 => 1 + 1 + 1 + x3.size + x4.size
  | .await _ x2 => 1 + 1 + x2.size
  | .binary _ _ x3 x4 => 1 + 1 + 1 + x3.size + x4.size
  | .call _ x2 _ x4 => 1 + 1 + x2.size + sizeArguments x4
  | .classE _ x2 x3 x4 => 1 + 1 + optSum Ident.size x2 + sizeOptExpr x3 + sizeMethodDefs x4
  | .conditional _ x2 x3 x4 => 1 + 1 + x2.size + x3.size + x4.size
  | .function _ _ _ x4 x5 x6 => 1 + 1 + optSum Ident.size x4 + x5.size + x6.size
  | .ident x1 => 1 + x1.size
  | .literal _ x2 => 1 + 1 + x2.size
  | .logical _ _ x3 x4 => 1 + 1 + 1 + x3.size + x4.size
  | .member _ x2 x3 => 1 + 1 + x2.size + x3.size
  | .metaProp _ x2 x3 => 1 + 1 + x2.size + x3.size
  | .new _ x2 _ x4 => 1 + 1 + x2.size + sizeArguments x4
  | .optCall _ x2 _ x4 _ => 1 + 1 + x2.size + sizeArguments x4
  | .optMember _ x2 x3 _ => 1 + 1 + x2.size + x3.size
  | .paren _ x2 => 1 + 1 + x2.size
  | .sequence _ x2 => 1 + 1 + sizeExprs x2
  | .tagged _ x2 x3 => 1 + 1 + x2.size + (1 + sizeTemplateParts x3)
  | .this _ => 1 + 1
  | .unary _ _ x3 => 1 + 1 + 1 + x3.size
  | .update _ _ _ x4 => 1 + 1 + 1 + x4.size
  | .yield _ x2 _ => 1 + 1 + sizeOptExpr x2
termination_by structural x => x

/-- The number of nodes. -/
def Literal.size : Literal → Nat
  | .null => 1
  | .boolean _ => 1
  | .string x1 => 1 + x1.size
  | .number _ => 1 + 1
  | .array x1 => 1 + (1 + sizeArrayElements x1)
  | .object x1 => 1 + (1 + sizePropDefs x1)
  | .regexp _ => 1
  | .template x1 => 1 + (1 + sizeTemplateParts x1)
termination_by structural x => x

/-- The number of nodes. -/
def TemplatePart.size : TemplatePart → Nat
  | .string _ => 1
  | .expr x1 => 1 + x1.size
termination_by structural x => x

/-- The number of nodes. -/
def ArrayElement.size : ArrayElement → Nat
  | .elision => 1
  | .expr x1 => 1 + x1.size
  | .spread x1 => 1 + x1.size
termination_by structural x => x

/-- The number of nodes. -/
def PropDef.size : PropDef → Nat
  | .identRef x1 => 1 + x1.size
  | .spread x1 => 1 + x1.size
  | .named _ x2 x3 => 1 + 1 + x2.size + x3.size
  | .method x1 => 1 + x1.size
termination_by structural x => x

/-- The number of nodes. -/
def PropName.size : PropName → Nat
  | .ident x1 => 1 + x1.size
  | .string x1 => 1 + x1.size
  | .number _ => 1 + 1
  | .computed x1 => 1 + x1.size
termination_by structural x => x

/-- The number of nodes. -/
def MethodDef.size : MethodDef → Nat
  | .mk _ x2 _ x4 x5 _ _ _ => 1 + x2.size + x4.size + x5.size
termination_by structural x => x

/-- The number of nodes. -/
def FormalParams.size : FormalParams → Nat
  | .mk _ x2 x3 => 1 + sizeBindingElements x2 + sizeOptBindingPattern x3
termination_by structural x => x

/-- The number of nodes. -/
def Body.size : Body → Nat
  | .mk _ x2 x3 => 1 + listSum LitString.size x2 + sizeStmts x3
termination_by structural x => x

/-- The number of nodes. -/
def ArrowBody.size : ArrowBody → Nat
  | .expr x1 => 1 + x1.size
  | .body x1 => 1 + x1.size
termination_by structural x => x

/-- The number of nodes. -/
def MemberObject.size : MemberObject → Nat
  | .expr x1 => 1 + x1.size
  | .super _ => 1 + 1
termination_by structural x => x

/-- The number of nodes. -/
def MemberProp.size : MemberProp → Nat
  | .ident x1 => 1 + x1.size
  | .expr x1 => 1 + x1.size
termination_by structural x => x

/-- The number of nodes. -/
def Argument.size : Argument → Nat
  | .expr x1 => 1 + x1.size
  | .spread x1 => 1 + x1.size
termination_by structural x => x

/-- The number of nodes. -/
def Callee.size : Callee → Nat
  | .super => 1
  | .import => 1
  | .expr x1 => 1 + x1.size
termination_by structural x => x

/-- The number of nodes. -/
def BindingPattern.size : BindingPattern → Nat
  | .ident x1 => 1 + x1.size
  | .array _ x2 x3 => 1 + 1 + sizeOptBindingElements x2 + sizeOptBindingPattern x3
  | .object _ x2 x3 => 1 + 1 + sizeBindingProps x2 + sizeOptBindingPattern x3
termination_by structural x => x

/-- The number of nodes. -/
def BindingProp.size : BindingProp → Nat
  | .single _ x2 x3 => 1 + 1 + x2.size + sizeOptExpr x3
  | .named _ x2 x3 => 1 + 1 + x2.size + x3.size
termination_by structural x => x

/-- The number of nodes. -/
def BindingElement.size : BindingElement → Nat
  | .mk _ x2 x3 => 1 + x2.size + sizeOptExpr x3
termination_by structural x => x

/-- The number of nodes. -/
def PatternOrExpr.size : PatternOrExpr → Nat
  | .expr x1 => 1 + x1.size
  | .pattern x1 => 1 + x1.size
termination_by structural x => x

/-- The number of nodes. -/
def AssignPattern.size : AssignPattern → Nat
  | .array _ x2 x3 => 1 + 1 + sizeOptAssignElements x2 + sizeOptPatternOrExpr x3
  | .object _ x2 x3 => 1 + 1 + sizeAssignProps x2 + sizeOptPatternOrExpr x3
termination_by structural x => x

/-- The number of nodes. -/
def AssignElement.size : AssignElement → Nat
  | .mk _ x2 x3 => 1 + x2.size + sizeOptExpr x3
termination_by structural x => x

/-- The number of nodes. -/
def AssignProp.size : AssignProp → Nat
  | .single _ x2 x3 => 1 + 1 + x2.size + sizeOptExpr x3
  | .named _ x2 x3 x4 => 1 + 1 + x2.size + x3.size + sizeOptExpr x4
termination_by structural x => x

/-- The number of nodes. -/
def Stmt.size : Stmt → Nat
  | .block x1 => 1 + x1.size
  | .break _ x2 => 1 + 1 + optSum Ident.size x2
  | .continue _ x2 => 1 + 1 + optSum Ident.size x2
  | .debugger _ => 1 + 1
  | .doWhile _ x2 x3 => 1 + 1 + x2.size + x3.size
  | .empty _ => 1 + 1
  | .expr _ x2 => 1 + 1 + x2.size
  | .for _ x2 x3 x4 x5 => 1 + 1 + sizeOptForInit x2 + sizeOptExpr x3 + sizeOptExpr x4 + x5.size
  | .forIn _ x2 x3 x4 => 1 + 1 + x2.size + x3.size + x4.size
  | .forOf _ x2 x3 x4 _ => 1 + 1 + x2.size + x3.size + x4.size
  | .if _ x2 x3 x4 => 1 + 1 + x2.size + x3.size + sizeOptStmt x4
  | .labeled _ x2 x3 => 1 + 1 + x2.size + x3.size
  | .return _ x2 => 1 + 1 + sizeOptExpr x2
  | .switch _ x2 x3 => 1 + 1 + x2.size + sizeSwitchCases x3
  | .throw _ x2 => 1 + 1 + x2.size
  | .try _ x2 x3 x4 => 1 + 1 + x2.size + sizeOptCatchClause x3 + sizeOptBlock x4
  | .variable x1 => 1 + x1.size
  | .while _ x2 x3 => 1 + 1 + x2.size + x3.size
  | .with _ x2 x3 => 1 + 1 + x2.size + x3.size
  | .classDecl _ x2 x3 x4 => 1 + 1 + x2.size + sizeOptExpr x3 + sizeMethodDefs x4
  | .functionDecl _ _ _ x4 x5 x6 => 1 + 1 + x4.size + x5.size + x6.size
  | .importDecl _ x2 x3 x4 x5 => 1 + 1 + optSum Ident.size x2 + optSum Ident.size x3 + optSum (listSum NamedImport.size) x4 + x5.size
  | .exportDecl x1 => 1 + x1.size
termination_by structural x => x

/-- The number of nodes. -/
def Block.size : Block → Nat
  | .mk _ x2 => 1 + sizeStmts x2
termination_by structural x => x

/-- The number of nodes. -/
def VarStmt.size : VarStmt → Nat
  | .mk _ _ x3 => 1 + sizeVarDecls x3
termination_by structural x => x

/-- The number of nodes. -/
def VarDecl.size : VarDecl → Nat
  | .mk _ x2 x3 => 1 + x2.size + sizeOptExpr x3
termination_by structural x => x

/-- The number of nodes. -/
def CatchClause.size : CatchClause → Nat
  | .mk _ x2 x3 => 1 + sizeOptBindingPattern x2 + x3.size
termination_by structural x => x

/-- The number of nodes. -/
def SwitchCase.size : SwitchCase → Nat
  | .mk _ x2 x3 => 1 + sizeOptExpr x2 + sizeStmts x3
termination_by structural x => x

/-- The number of nodes. -/
def ForInit.size : ForInit → Nat
  | .expr x1 => 1 + x1.size
  | .declaration x1 => 1 + x1.size
termination_by structural x => x

/-- The number of nodes. -/
def ForDecl.size : ForDecl → Nat
  | .expr x1 => 1 + x1.size
  | .pattern x1 => 1 + x1.size
  | .declaration _ _ x3 => 1 + 1 + x3.size
termination_by structural x => x

/-- The number of nodes. -/
def ExportDecl.size : ExportDecl → Nat
  | .decl _ x2 => 1 + 1 + x2.size
  | .defaultExpr _ x2 => 1 + 1 + x2.size
  | .defaultDecl _ x2 => 1 + 1 + x2.size
  | .named _ x2 x3 => 1 + 1 + listSum NamedExport.size x2 + optSum LitString.size x3
  | .namespace _ x2 x3 => 1 + 1 + optSum Ident.size x2 + x3.size
termination_by structural x => x

/-- The number of nodes. -/
def sizeArguments : List (Argument) → Nat
  | [] => 0
  | x :: l => x.size + sizeArguments l
termination_by structural x => x

/-- The number of nodes. -/
def sizeArrayElements : List (ArrayElement) → Nat
  | [] => 0
  | x :: l => x.size + sizeArrayElements l
termination_by structural x => x

/-- The number of nodes. -/
def sizeAssignProps : List (AssignProp) → Nat
  | [] => 0
  | x :: l => x.size + sizeAssignProps l
termination_by structural x => x

/-- The number of nodes. -/
def sizeBindingElements : List (BindingElement) → Nat
  | [] => 0
  | x :: l => x.size + sizeBindingElements l
termination_by structural x => x

/-- The number of nodes. -/
def sizeBindingProps : List (BindingProp) → Nat
  | [] => 0
  | x :: l => x.size + sizeBindingProps l
termination_by structural x => x

/-- The number of nodes. -/
def sizeExprs : List (Expr) → Nat
  | [] => 0
  | x :: l => x.size + sizeExprs l
termination_by structural x => x

/-- The number of nodes. -/
def sizeMethodDefs : List (MethodDef) → Nat
  | [] => 0
  | x :: l => 1 + x.size + sizeMethodDefs l
termination_by structural x => x

/-- The number of nodes. -/
def sizeOptAssignElement : Option (AssignElement) → Nat
  | none => 0
  | some x => x.size
termination_by structural x => x

/-- The number of nodes. -/
def sizeOptAssignElements : List (Option (AssignElement)) → Nat
  | [] => 0
  | x :: l => sizeOptAssignElement x + sizeOptAssignElements l
termination_by structural x => x

/-- The number of nodes. -/
def sizeOptBindingElement : Option (BindingElement) → Nat
  | none => 0
  | some x => x.size
termination_by structural x => x

/-- The number of nodes. -/
def sizeOptBindingElements : List (Option (BindingElement)) → Nat
  | [] => 0
  | x :: l => sizeOptBindingElement x + sizeOptBindingElements l
termination_by structural x => x

/-- The number of nodes. -/
def sizeOptBindingPattern : Option (BindingPattern) → Nat
  | none => 0
  | some x => x.size
termination_by structural x => x

/-- The number of nodes. -/
def sizeOptBlock : Option (Block) → Nat
  | none => 0
  | some x => x.size
termination_by structural x => x

/-- The number of nodes. -/
def sizeOptCatchClause : Option (CatchClause) → Nat
  | none => 0
  | some x => x.size
termination_by structural x => x

/-- The number of nodes. -/
def sizeOptExpr : Option (Expr) → Nat
  | none => 0
  | some x => x.size
termination_by structural x => x

/-- The number of nodes. -/
def sizeOptForInit : Option (ForInit) → Nat
  | none => 0
  | some x => x.size
termination_by structural x => x

/-- The number of nodes. -/
def sizeOptPatternOrExpr : Option (PatternOrExpr) → Nat
  | none => 0
  | some x => x.size
termination_by structural x => x

/-- The number of nodes. -/
def sizeOptStmt : Option (Stmt) → Nat
  | none => 0
  | some x => x.size
termination_by structural x => x

/-- The number of nodes. -/
def sizePropDefs : List (PropDef) → Nat
  | [] => 0
  | x :: l => x.size + sizePropDefs l
termination_by structural x => x

/-- The number of nodes. -/
def sizeStmts : List (Stmt) → Nat
  | [] => 0
  | x :: l => x.size + sizeStmts l
termination_by structural x => x

/-- The number of nodes. -/
def sizeSwitchCases : List (SwitchCase) → Nat
  | [] => 0
  | x :: l => x.size + sizeSwitchCases l
termination_by structural x => x

/-- The number of nodes. -/
def sizeTemplateParts : List (TemplatePart) → Nat
  | [] => 0
  | x :: l => x.size + sizeTemplateParts l
termination_by structural x => x

/-- The number of nodes. -/
def sizeVarDecls : List (VarDecl) → Nat
  | [] => 0
  | x :: l => x.size + sizeVarDecls l
termination_by structural x => x

end

/-- The number of nodes. -/
def Kind.size : (k : Kind) → k.Val → Nat
  | .program, x => 1 + (1 + listSum LitString.size x.directives + sizeStmts x.body)
  | .expr, x => x.size
  | .stmt, x => x.size
  | .bindingPattern, x => x.size
  | .literal, x => x.size
  | .litNumber, x => 1
  | .templatePart, x => x.size
  | .objectBindingProp, x => x.size
  | .propertyName, x => x.size
  | .classElement, x => 1 + x.size
  | .forInit, x => x.size
  | .forDeclaration, x => x.size
  | .callee, x => x.size
  | .argument, x => x.size
  | .memberObject, x => x.size
  | .super, x => 1
  | .memberProperty, x => x.size
  | .arrayElement, x => x.size
  | .arrowFunctionBody, x => x.size
  | .propertyDefinition, x => x.size
  | .binaryOperator, x => 1
  | .logicalOperator, x => 1
  | .assignmentOperator, x => 1
  | .unaryOperator, x => 1
  | .updateOperator, x => 1
  | .declExport, x => x.size
  | .patternOrExpr, x => x.size
  | .assignmentPattern, x => x.size
  | .declFunction, (_, _, _, x4, x5, x6) => 1 + x4.size + x5.size + x6.size
  | .declClass, (_, x2, x3, x4) => 1 + x2.size + sizeOptExpr x3 + sizeMethodDefs x4
  | .declImport, (_, x2, x3, x4, x5) => 1 + optSum Ident.size x2 + optSum Ident.size x3 + optSum (listSum NamedImport.size) x4 + x5.size
  | .stmtExpr, (_, x2) => 1 + x2.size
  | .stmtBlock, x => x.size
  | .exprBinary, (_, _, x3, x4) => 1 + 1 + x3.size + x4.size
  | .exprLogical, (_, _, x3, x4) => 1 + 1 + x3.size + x4.size
  | .exprUnary, (_, _, x3) => 1 + 1 + x3.size
  | .exprCall, (_, x2, _, x4) => 1 + x2.size + sizeArguments x4
  | .exprMember, (_, x2, x3) => 1 + x2.size + x3.size
  | .exprOptionalMember, (_, x2, x3, _) => 1 + x2.size + x3.size
  | .exprOptionalCall, (_, x2, _, x4, _) => 1 + x2.size + sizeArguments x4
  | .exprParenthesized, (_, x2) => 1 + x2.size
  | .exprLiteral, (_, x2) => 1 + x2.size
  | .exprAssignment, (_, _, x3, x4) => 1 + 1 + x3.size + x4.size
  | .exprYield, (_, x2, _) => 1 + sizeOptExpr x2
  | .exprConditional, (_, x2, x3, x4) => 1 + x2.size + x3.size + x4.size
  | .exprUpdate, (_, _, _, x4) => 1 + 1 + x4.size
  | .exprSequence, (_, x2) => 1 + sizeExprs x2
  | .exprThis, _ => 1
  | .exprFunction, (_, _, _, x4, x5, x6) => 1 + optSum Ident.size x4 + x5.size + x6.size
  | .exprNew, (_, x2, _, x4) => 1 + x2.size + sizeArguments x4
  | .exprArrowFunction, (_, _, _, x4, x5) => 1 + x4.size + x5.size
  | .exprAwait, (_, x2) => 1 + x2.size
  | .exprMetaProperty, (_, x2, x3) => 1 + x2.size + x3.size
  | .exprClass, (_, x2, x3, x4) => 1 + optSum Ident.size x2 + sizeOptExpr x3 + sizeMethodDefs x4
  | .stmtReturn, (_, x2) => 1 + sizeOptExpr x2
  | .stmtVariable, x => x.size
  | .stmtEmpty, _ => 1
  | .stmtTry, (_, x2, x3, x4) => 1 + x2.size + sizeOptCatchClause x3 + sizeOptBlock x4
  | .stmtDebugger, _ => 1
  | .stmtThrow, (_, x2) => 1 + x2.size
  | .stmtLabeled, (_, x2, x3) => 1 + x2.size + x3.size
  | .stmtWith, (_, x2, x3) => 1 + x2.size + x3.size
  | .stmtContinue, (_, x2) => 1 + optSum Ident.size x2
  | .stmtBreak, (_, x2) => 1 + optSum Ident.size x2
  | .stmtSwitch, (_, x2, x3) => 1 + x2.size + sizeSwitchCases x3
  | .stmtIf, (_, x2, x3, x4) => 1 + x2.size + x3.size + sizeOptStmt x4
  | .stmtFor, (_, x2, x3, x4, x5) => 1 + sizeOptForInit x2 + sizeOptExpr x3 + sizeOptExpr x4 + x5.size
  | .stmtForOf, (_, x2, x3, x4, _) => 1 + x2.size + x3.size + x4.size
  | .stmtForIn, (_, x2, x3, x4) => 1 + x2.size + x3.size + x4.size
  | .stmtWhile, (_, x2, x3) => 1 + x2.size + x3.size
  | .stmtDoWhile, (_, x2, x3) => 1 + x2.size + x3.size
  | .stmtList, (x1, x2, x3) => 1 + listSum LitString.size x2 + sizeStmts x3
  | .bindingElement, x => x.size
  | .formalParameters, x => x.size
  | .variableDeclaration, x => x.size
  | .litString, x => x.size
  | .litTemplate, x => 1 + sizeTemplateParts x
  | .litArray, x => 1 + sizeArrayElements x
  | .litObject, x => 1 + sizePropDefs x
  | .arrayBinding, (_, x2, x3) => 1 + sizeOptBindingElements x2 + sizeOptBindingPattern x3
  | .objectBinding, (_, x2, x3) => 1 + sizeBindingProps x2 + sizeOptBindingPattern x3
  | .singleNameBinding, (_, x2, x3) => 1 + x2.size + sizeOptExpr x3
  | .namedBinding, (_, x2, x3) => 1 + x2.size + x3.size
  | .namedProperty, (_, x2, x3) => 1 + x2.size + x3.size
  | .methodDefinition, x => x.size
  | .catchClause, x => x.size
  | .switchCase, x => x.size
  | .exportDecl, (_, x2) => 1 + x2.size
  | .exportDefaultDecl, (_, x2) => 1 + x2.size
  | .exportDefaultExpr, (_, x2) => 1 + x2.size
  | .exprTaggedTemplate, (_, x2, x3) => 1 + x2.size + (1 + sizeTemplateParts x3)
  | .exportNamed, (_, x2, x3) => 1 + listSum NamedExport.size x2 + optSum LitString.size x3
  | .exportNamespace, (_, x2, x3) => 1 + optSum Ident.size x2 + x3.size
  | .namedExport, x => x.size
  | .namedImport, x => x.size
  | .ident, x => x.size
  | .body, x => x.size
  | .forBinding, (_, _, x3) => 1 + x3.size

/-- Changes of leaves. -/
structure LeafMap where
  ident : Ident → Ident := id
  string : LitString → LitString := id
  number : Str → Str := id
  binaryOp : BinaryOp → BinaryOp := id
  logicalOp : LogicalOp → LogicalOp := id
  assignOp : AssignOp → AssignOp := id
  unaryOp : UnaryOp → UnaryOp := id
  updateOp : UpdateOp → UpdateOp := id

/-- Change the leaves of a named import. -/
def NamedImport.mapLeaves (m : LeafMap) (x : NamedImport) : NamedImport := ⟨x.span, m.ident x.name, x.alias.map m.ident⟩

/-- Change the leaves of a named export. -/
def NamedExport.mapLeaves (m : LeafMap) (x : NamedExport) : NamedExport := ⟨x.span, m.ident x.name, x.aliasOf.map m.ident⟩

mutual

/-- Change the leaves, wherever they are. -/
def Expr.mapLeaves (m : LeafMap) : Expr → Expr
  | .arrow x1 x2 x3 x4 x5 => .arrow x1 x2 x3 (x4.mapLeaves m) (x5.mapLeaves m)
  | .assign x1 x2 x3 x4 => .assign x1 (m.assignOp x2) (x3.mapLeaves m) (x4.mapLeaves m)
  | .await x1 x2 => .await x1 (x2.mapLeaves m)
  | .binary x1 x2 x3 x4 => .binary x1 (m.binaryOp x2) (x3.mapLeaves m) (x4.mapLeaves m)
  | .call x1 x2 x3 x4 => .call x1 (x2.mapLeaves m) x3 (mapArguments m x4)
  | .classE x1 x2 x3 x4 => .classE x1 (x2.map (fun y => m.ident y)) (mapOptExpr m x3) (mapMethodDefs m x4)
  | .conditional x1 x2 x3 x4 => .conditional x1 (x2.mapLeaves m) (x3.mapLeaves m) (x4.mapLeaves m)
  | .function x1 x2 x3 x4 x5 x6 => .function x1 x2 x3 (x4.map (fun y => m.ident y)) (x5.mapLeaves m) (x6.mapLeaves m)
  | .ident x1 => .ident (m.ident x1)
  | .literal x1 x2 => .literal x1 (x2.mapLeaves m)
  | .logical x1 x2 x3 x4 => .logical x1 (m.logicalOp x2) (x3.mapLeaves m) (x4.mapLeaves m)
  | .member x1 x2 x3 => .member x1 (x2.mapLeaves m) (x3.mapLeaves m)
  | .metaProp x1 x2 x3 => .metaProp x1 (m.ident x2) (m.ident x3)
  | .new x1 x2 x3 x4 => .new x1 (x2.mapLeaves m) x3 (mapArguments m x4)
  | .optCall x1 x2 x3 x4 x5 => .optCall x1 (x2.mapLeaves m) x3 (mapArguments m x4) x5
  | .optMember x1 x2 x3 x4 => .optMember x1 (x2.mapLeaves m) (x3.mapLeaves m) x4
  | .paren x1 x2 => .paren x1 (x2.mapLeaves m)
  | .sequence x1 x2 => .sequence x1 (mapExprs m x2)
  | .tagged x1 x2 x3 => .tagged x1 (x2.mapLeaves m) (mapTemplateParts m x3)
  | .this x1 => .this x1
  | .unary x1 x2 x3 => .unary x1 (m.unaryOp x2) (x3.mapLeaves m)
  | .update x1 x2 x3 x4 => .update x1 (m.updateOp x2) x3 (x4.mapLeaves m)
  | .yield x1 x2 x3 => .yield x1 (mapOptExpr m x2) x3
termination_by structural x => x

/-- Change the leaves, wherever they are. -/
def Literal.mapLeaves (m : LeafMap) : Literal → Literal
  | .null => .null
  | .boolean x1 => .boolean x1
  | .string x1 => .string (m.string x1)
  | .number x1 => .number (m.number x1)
  | .array x1 => .array (mapArrayElements m x1)
  | .object x1 => .object (mapPropDefs m x1)
  | .regexp x1 => .regexp x1
  | .template x1 => .template (mapTemplateParts m x1)
termination_by structural x => x

/-- Change the leaves, wherever they are. -/
def TemplatePart.mapLeaves (m : LeafMap) : TemplatePart → TemplatePart
  | .string x1 => .string x1
  | .expr x1 => .expr (x1.mapLeaves m)
termination_by structural x => x

/-- Change the leaves, wherever they are. -/
def ArrayElement.mapLeaves (m : LeafMap) : ArrayElement → ArrayElement
  | .elision => .elision
  | .expr x1 => .expr (x1.mapLeaves m)
  | .spread x1 => .spread (x1.mapLeaves m)
termination_by structural x => x

/-- Change the leaves, wherever they are. -/
def PropDef.mapLeaves (m : LeafMap) : PropDef → PropDef
  | .identRef x1 => .identRef (m.ident x1)
  | .spread x1 => .spread (x1.mapLeaves m)
  | .named x1 x2 x3 => .named x1 (x2.mapLeaves m) (x3.mapLeaves m)
  | .method x1 => .method (x1.mapLeaves m)
termination_by structural x => x

/-- Change the leaves, wherever they are. -/
def PropName.mapLeaves (m : LeafMap) : PropName → PropName
  | .ident x1 => .ident (m.ident x1)
  | .string x1 => .string (m.string x1)
  | .number x1 => .number (m.number x1)
  | .computed x1 => .computed (x1.mapLeaves m)
termination_by structural x => x

/-- Change the leaves, wherever they are. -/
def MethodDef.mapLeaves (m : LeafMap) : MethodDef → MethodDef
  | .mk x1 x2 x3 x4 x5 x6 x7 x8 => .mk x1 (x2.mapLeaves m) x3 (x4.mapLeaves m) (x5.mapLeaves m) x6 x7 x8
termination_by structural x => x

/-- Change the leaves, wherever they are. -/
def FormalParams.mapLeaves (m : LeafMap) : FormalParams → FormalParams
  | .mk x1 x2 x3 => .mk x1 (mapBindingElements m x2) (mapOptBindingPattern m x3)
termination_by structural x => x

/-- Change the leaves, wherever they are. -/
def Body.mapLeaves (m : LeafMap) : Body → Body
  | .mk x1 x2 x3 => .mk x1 (x2.map (fun y => m.string y)) (mapStmts m x3)
termination_by structural x => x

/-- Change the leaves, wherever they are. -/
def ArrowBody.mapLeaves (m : LeafMap) : ArrowBody → ArrowBody
  | .expr x1 => .expr (x1.mapLeaves m)
  | .body x1 => .body (x1.mapLeaves m)
termination_by structural x => x

/-- Change the leaves, wherever they are. -/
def MemberObject.mapLeaves (m : LeafMap) : MemberObject → MemberObject
  | .expr x1 => .expr (x1.mapLeaves m)
  | .super x1 => .super x1
termination_by structural x => x

/-- Change the leaves, wherever they are. -/
def MemberProp.mapLeaves (m : LeafMap) : MemberProp → MemberProp
  | .ident x1 => .ident (m.ident x1)
  | .expr x1 => .expr (x1.mapLeaves m)
termination_by structural x => x

/-- Change the leaves, wherever they are. -/
def Argument.mapLeaves (m : LeafMap) : Argument → Argument
  | .expr x1 => .expr (x1.mapLeaves m)
  | .spread x1 => .spread (x1.mapLeaves m)
termination_by structural x => x

/-- Change the leaves, wherever they are. -/
def Callee.mapLeaves (m : LeafMap) : Callee → Callee
  | .super => .super
  | .import => .import
  | .expr x1 => .expr (x1.mapLeaves m)
termination_by structural x => x

/-- Change the leaves, wherever they are. -/
def BindingPattern.mapLeaves (m : LeafMap) : BindingPattern → BindingPattern
  | .ident x1 => .ident (m.ident x1)
  | .array x1 x2 x3 => .array x1 (mapOptBindingElements m x2) (mapOptBindingPattern m x3)
  | .object x1 x2 x3 => .object x1 (mapBindingProps m x2) (mapOptBindingPattern m x3)
termination_by structural x => x

/-- Change the leaves, wherever they are. -/
def BindingProp.mapLeaves (m : LeafMap) : BindingProp → BindingProp
  | .single x1 x2 x3 => .single x1 (m.ident x2) (mapOptExpr m x3)
  | .named x1 x2 x3 => .named x1 (x2.mapLeaves m) (x3.mapLeaves m)
termination_by structural x => x

/-- Change the leaves, wherever they are. -/
def BindingElement.mapLeaves (m : LeafMap) : BindingElement → BindingElement
  | .mk x1 x2 x3 => .mk x1 (x2.mapLeaves m) (mapOptExpr m x3)
termination_by structural x => x

/-- Change the leaves, wherever they are. -/
def PatternOrExpr.mapLeaves (m : LeafMap) : PatternOrExpr → PatternOrExpr
  | .expr x1 => .expr (x1.mapLeaves m)
  | .pattern x1 => .pattern (x1.mapLeaves m)
termination_by structural x => x

/-- Change the leaves, wherever they are. -/
def AssignPattern.mapLeaves (m : LeafMap) : AssignPattern → AssignPattern
  | .array x1 x2 x3 => .array x1 (mapOptAssignElements m x2) (mapOptPatternOrExpr m x3)
  | .object x1 x2 x3 => .object x1 (mapAssignProps m x2) (mapOptPatternOrExpr m x3)
termination_by structural x => x

/-- Change the leaves, wherever they are. -/
def AssignElement.mapLeaves (m : LeafMap) : AssignElement → AssignElement
  | .mk x1 x2 x3 => .mk x1 (x2.mapLeaves m) (mapOptExpr m x3)
termination_by structural x => x

/-- Change the leaves, wherever they are. -/
def AssignProp.mapLeaves (m : LeafMap) : AssignProp → AssignProp
  | .single x1 x2 x3 => .single x1 (m.ident x2) (mapOptExpr m x3)
  | .named x1 x2 x3 x4 => .named x1 (x2.mapLeaves m) (x3.mapLeaves m) (mapOptExpr m x4)
termination_by structural x => x

/-- Change the leaves, wherever they are. -/
def Stmt.mapLeaves (m : LeafMap) : Stmt → Stmt
  | .block x1 => .block (x1.mapLeaves m)
  | .break x1 x2 => .break x1 (x2.map (fun y => m.ident y))
  | .continue x1 x2 => .continue x1 (x2.map (fun y => m.ident y))
  | .debugger x1 => .debugger x1
  | .doWhile x1 x2 x3 => .doWhile x1 (x2.mapLeaves m) (x3.mapLeaves m)
  | .empty x1 => .empty x1
  | .expr x1 x2 => .expr x1 (x2.mapLeaves m)
  | .for x1 x2 x3 x4 x5 => .for x1 (mapOptForInit m x2) (mapOptExpr m x3) (mapOptExpr m x4) (x5.mapLeaves m)
  | .forIn x1 x2 x3 x4 => .forIn x1 (x2.mapLeaves m) (x3.mapLeaves m) (x4.mapLeaves m)
  | .forOf x1 x2 x3 x4 x5 => .forOf x1 (x2.mapLeaves m) (x3.mapLeaves m) (x4.mapLeaves m) x5
  | .if x1 x2 x3 x4 => .if x1 (x2.mapLeaves m) (x3.mapLeaves m) (mapOptStmt m x4)
  | .labeled x1 x2 x3 => .labeled x1 (m.ident x2) (x3.mapLeaves m)
  | .return x1 x2 => .return x1 (mapOptExpr m x2)
  | .switch x1 x2 x3 => .switch x1 (x2.mapLeaves m) (mapSwitchCases m x3)
  | .throw x1 x2 => .throw x1 (x2.mapLeaves m)
  | .try x1 x2 x3 x4 => .try x1 (x2.mapLeaves m) (mapOptCatchClause m x3) (mapOptBlock m x4)
  | .variable x1 => .variable (x1.mapLeaves m)
  | .while x1 x2 x3 => .while x1 (x2.mapLeaves m) (x3.mapLeaves m)
  | .with x1 x2 x3 => .with x1 (x2.mapLeaves m) (x3.mapLeaves m)
  | .classDecl x1 x2 x3 x4 => .classDecl x1 (m.ident x2) (mapOptExpr m x3) (mapMethodDefs m x4)
  | .functionDecl x1 x2 x3 x4 x5 x6 => .functionDecl x1 x2 x3 (m.ident x4) (x5.mapLeaves m) (x6.mapLeaves m)
  | .importDecl x1 x2 x3 x4 x5 => .importDecl x1 (x2.map (fun y => m.ident y)) (x3.map (fun y => m.ident y)) (x4.map (fun y => y.map (fun y => y.mapLeaves m))) (m.string x5)
  | .exportDecl x1 => .exportDecl (x1.mapLeaves m)
termination_by structural x => x

/-- Change the leaves, wherever they are. -/
def Block.mapLeaves (m : LeafMap) : Block → Block
  | .mk x1 x2 => .mk x1 (mapStmts m x2)
termination_by structural x => x

/-- Change the leaves, wherever they are. -/
def VarStmt.mapLeaves (m : LeafMap) : VarStmt → VarStmt
  | .mk x1 x2 x3 => .mk x1 x2 (mapVarDecls m x3)
termination_by structural x => x

/-- Change the leaves, wherever they are. -/
def VarDecl.mapLeaves (m : LeafMap) : VarDecl → VarDecl
  | .mk x1 x2 x3 => .mk x1 (x2.mapLeaves m) (mapOptExpr m x3)
termination_by structural x => x

/-- Change the leaves, wherever they are. -/
def CatchClause.mapLeaves (m : LeafMap) : CatchClause → CatchClause
  | .mk x1 x2 x3 => .mk x1 (mapOptBindingPattern m x2) (x3.mapLeaves m)
termination_by structural x => x

/-- Change the leaves, wherever they are. -/
def SwitchCase.mapLeaves (m : LeafMap) : SwitchCase → SwitchCase
  | .mk x1 x2 x3 => .mk x1 (mapOptExpr m x2) (mapStmts m x3)
termination_by structural x => x

/-- Change the leaves, wherever they are. -/
def ForInit.mapLeaves (m : LeafMap) : ForInit → ForInit
  | .expr x1 => .expr (x1.mapLeaves m)
  | .declaration x1 => .declaration (x1.mapLeaves m)
termination_by structural x => x

/-- Change the leaves, wherever they are. -/
def ForDecl.mapLeaves (m : LeafMap) : ForDecl → ForDecl
  | .expr x1 => .expr (x1.mapLeaves m)
  | .pattern x1 => .pattern (x1.mapLeaves m)
  | .declaration x1 x2 x3 => .declaration x1 x2 (x3.mapLeaves m)
termination_by structural x => x

/-- Change the leaves, wherever they are. -/
def ExportDecl.mapLeaves (m : LeafMap) : ExportDecl → ExportDecl
  | .decl x1 x2 => .decl x1 (x2.mapLeaves m)
  | .defaultExpr x1 x2 => .defaultExpr x1 (x2.mapLeaves m)
  | .defaultDecl x1 x2 => .defaultDecl x1 (x2.mapLeaves m)
  | .named x1 x2 x3 => .named x1 (x2.map (fun y => y.mapLeaves m)) (x3.map (fun y => m.string y))
  | .namespace x1 x2 x3 => .namespace x1 (x2.map (fun y => m.ident y)) (m.string x3)
termination_by structural x => x

/-- Change the leaves, wherever they are. -/
def mapArguments (m : LeafMap) : List (Argument) → List (Argument)
  | [] => []
  | x :: l => x.mapLeaves m :: mapArguments m l
termination_by structural x => x

/-- Change the leaves, wherever they are. -/
def mapArrayElements (m : LeafMap) : List (ArrayElement) → List (ArrayElement)
  | [] => []
  | x :: l => x.mapLeaves m :: mapArrayElements m l
termination_by structural x => x

/-- Change the leaves, wherever they are. -/
def mapAssignProps (m : LeafMap) : List (AssignProp) → List (AssignProp)
  | [] => []
  | x :: l => x.mapLeaves m :: mapAssignProps m l
termination_by structural x => x

/-- Change the leaves, wherever they are. -/
def mapBindingElements (m : LeafMap) : List (BindingElement) → List (BindingElement)
  | [] => []
  | x :: l => x.mapLeaves m :: mapBindingElements m l
termination_by structural x => x

/-- Change the leaves, wherever they are. -/
def mapBindingProps (m : LeafMap) : List (BindingProp) → List (BindingProp)
  | [] => []
  | x :: l => x.mapLeaves m :: mapBindingProps m l
termination_by structural x => x

/-- Change the leaves, wherever they are. -/
def mapExprs (m : LeafMap) : List (Expr) → List (Expr)
  | [] => []
  | x :: l => x.mapLeaves m :: mapExprs m l
termination_by structural x => x

/-- Change the leaves, wherever they are. -/
def mapMethodDefs (m : LeafMap) : List (MethodDef) → List (MethodDef)
  | [] => []
  | x :: l => x.mapLeaves m :: mapMethodDefs m l
termination_by structural x => x

/-- Change the leaves, wherever they are. -/
def mapOptAssignElement (m : LeafMap) : Option (AssignElement) → Option (AssignElement)
  | none => none
  | some x => some (x.mapLeaves m)
termination_by structural x => x

/-- Change the leaves, wherever they are. -/
def mapOptAssignElements (m : LeafMap) : List (Option (AssignElement)) → List (Option (AssignElement))
  | [] => []
  | x :: l => mapOptAssignElement m x :: mapOptAssignElements m l
termination_by structural x => x

/-- Change the leaves, wherever they are. -/
def mapOptBindingElement (m : LeafMap) : Option (BindingElement) → Option (BindingElement)
  | none => none
  | some x => some (x.mapLeaves m)
termination_by structural x => x

/-- Change the leaves, wherever they are. -/
def mapOptBindingElements (m : LeafMap) : List (Option (BindingElement)) → List (Option (BindingElement))
  | [] => []
  | x :: l => mapOptBindingElement m x :: mapOptBindingElements m l
termination_by structural x => x

/-- Change the leaves, wherever they are. -/
def mapOptBindingPattern (m : LeafMap) : Option (BindingPattern) → Option (BindingPattern)
  | none => none
  | some x => some (x.mapLeaves m)
termination_by structural x => x

/-- Change the leaves, wherever they are. -/
def mapOptBlock (m : LeafMap) : Option (Block) → Option (Block)
  | none => none
  | some x => some (x.mapLeaves m)
termination_by structural x => x

/-- Change the leaves, wherever they are. -/
def mapOptCatchClause (m : LeafMap) : Option (CatchClause) → Option (CatchClause)
  | none => none
  | some x => some (x.mapLeaves m)
termination_by structural x => x

/-- Change the leaves, wherever they are. -/
def mapOptExpr (m : LeafMap) : Option (Expr) → Option (Expr)
  | none => none
  | some x => some (x.mapLeaves m)
termination_by structural x => x

/-- Change the leaves, wherever they are. -/
def mapOptForInit (m : LeafMap) : Option (ForInit) → Option (ForInit)
  | none => none
  | some x => some (x.mapLeaves m)
termination_by structural x => x

/-- Change the leaves, wherever they are. -/
def mapOptPatternOrExpr (m : LeafMap) : Option (PatternOrExpr) → Option (PatternOrExpr)
  | none => none
  | some x => some (x.mapLeaves m)
termination_by structural x => x

/-- Change the leaves, wherever they are. -/
def mapOptStmt (m : LeafMap) : Option (Stmt) → Option (Stmt)
  | none => none
  | some x => some (x.mapLeaves m)
termination_by structural x => x

/-- Change the leaves, wherever they are. -/
def mapPropDefs (m : LeafMap) : List (PropDef) → List (PropDef)
  | [] => []
  | x :: l => x.mapLeaves m :: mapPropDefs m l
termination_by structural x => x

/-- Change the leaves, wherever they are. -/
def mapStmts (m : LeafMap) : List (Stmt) → List (Stmt)
  | [] => []
  | x :: l => x.mapLeaves m :: mapStmts m l
termination_by structural x => x

/-- Change the leaves, wherever they are. -/
def mapSwitchCases (m : LeafMap) : List (SwitchCase) → List (SwitchCase)
  | [] => []
  | x :: l => x.mapLeaves m :: mapSwitchCases m l
termination_by structural x => x

/-- Change the leaves, wherever they are. -/
def mapTemplateParts (m : LeafMap) : List (TemplatePart) → List (TemplatePart)
  | [] => []
  | x :: l => x.mapLeaves m :: mapTemplateParts m l
termination_by structural x => x

/-- Change the leaves, wherever they are. -/
def mapVarDecls (m : LeafMap) : List (VarDecl) → List (VarDecl)
  | [] => []
  | x :: l => x.mapLeaves m :: mapVarDecls m l
termination_by structural x => x

end

/-- Change the leaves, wherever they are. -/
def Kind.mapLeaves (m : LeafMap) : (k : Kind) → k.Val → k.Val
  | .program, x => ⟨x.sourceType, x.span, x.directives.map (fun y => m.string y), mapStmts m x.body⟩
  | .expr, x => x.mapLeaves m
  | .stmt, x => x.mapLeaves m
  | .bindingPattern, x => x.mapLeaves m
  | .literal, x => x.mapLeaves m
  | .litNumber, x => m.number x
  | .templatePart, x => x.mapLeaves m
  | .objectBindingProp, x => x.mapLeaves m
  | .propertyName, x => x.mapLeaves m
  | .classElement, x => x.mapLeaves m
  | .forInit, x => x.mapLeaves m
  | .forDeclaration, x => x.mapLeaves m
  | .callee, x => x.mapLeaves m
  | .argument, x => x.mapLeaves m
  | .memberObject, x => x.mapLeaves m
  | .super, x => x
  | .memberProperty, x => x.mapLeaves m
  | .arrayElement, x => x.mapLeaves m
  | .arrowFunctionBody, x => x.mapLeaves m
  | .propertyDefinition, x => x.mapLeaves m
  | .binaryOperator, x => m.binaryOp x
  | .logicalOperator, x => m.logicalOp x
  | .assignmentOperator, x => m.assignOp x
  | .unaryOperator, x => m.unaryOp x
  | .updateOperator, x => m.updateOp x
  | .declExport, x => x.mapLeaves m
  | .patternOrExpr, x => x.mapLeaves m
  | .assignmentPattern, x => x.mapLeaves m
  | .declFunction, (x1, x2, x3, x4, x5, x6) => (x1, x2, x3, m.ident x4, x5.mapLeaves m, x6.mapLeaves m)
  | .declClass, (x1, x2, x3, x4) => (x1, m.ident x2, mapOptExpr m x3, mapMethodDefs m x4)
  | .declImport, (x1, x2, x3, x4, x5) => (x1, x2.map (fun y => m.ident y), x3.map (fun y => m.ident y), x4.map (fun y => y.map (fun y => y.mapLeaves m)), m.string x5)
  | .stmtExpr, (x1, x2) => (x1, x2.mapLeaves m)
  | .stmtBlock, x => x.mapLeaves m
  | .exprBinary, (x1, x2, x3, x4) => (x1, m.binaryOp x2, x3.mapLeaves m, x4.mapLeaves m)
  | .exprLogical, (x1, x2, x3, x4) => (x1, m.logicalOp x2, x3.mapLeaves m, x4.mapLeaves m)
  | .exprUnary, (x1, x2, x3) => (x1, m.unaryOp x2, x3.mapLeaves m)
  | .exprCall, (x1, x2, x3, x4) => (x1, x2.mapLeaves m, x3, mapArguments m x4)
  | .exprMember, (x1, x2, x3) => (x1, x2.mapLeaves m, x3.mapLeaves m)
  | .exprOptionalMember, (x1, x2, x3, x4) => (x1, x2.mapLeaves m, x3.mapLeaves m, x4)
  | .exprOptionalCall, (x1, x2, x3, x4, x5) => (x1, x2.mapLeaves m, x3, mapArguments m x4, x5)
  | .exprParenthesized, (x1, x2) => (x1, x2.mapLeaves m)
  | .exprLiteral, (x1, x2) => (x1, x2.mapLeaves m)
  | .exprAssignment, (x1, x2, x3, x4) => (x1, m.assignOp x2, x3.mapLeaves m, x4.mapLeaves m)
  | .exprYield, (x1, x2, x3) => (x1, mapOptExpr m x2, x3)
  | .exprConditional, (x1, x2, x3, x4) => (x1, x2.mapLeaves m, x3.mapLeaves m, x4.mapLeaves m)
  | .exprUpdate, (x1, x2, x3, x4) => (x1, m.updateOp x2, x3, x4.mapLeaves m)
  | .exprSequence, (x1, x2) => (x1, mapExprs m x2)
  | .exprThis, x1 => x1
  | .exprFunction, (x1, x2, x3, x4, x5, x6) => (x1, x2, x3, x4.map (fun y => m.ident y), x5.mapLeaves m, x6.mapLeaves m)
  | .exprNew, (x1, x2, x3, x4) => (x1, x2.mapLeaves m, x3, mapArguments m x4)
  | .exprArrowFunction, (x1, x2, x3, x4, x5) => (x1, x2, x3, x4.mapLeaves m, x5.mapLeaves m)
  | .exprAwait, (x1, x2) => (x1, x2.mapLeaves m)
  | .exprMetaProperty, (x1, x2, x3) => (x1, m.ident x2, m.ident x3)
  | .exprClass, (x1, x2, x3, x4) => (x1, x2.map (fun y => m.ident y), mapOptExpr m x3, mapMethodDefs m x4)
  | .stmtReturn, (x1, x2) => (x1, mapOptExpr m x2)
  | .stmtVariable, x => x.mapLeaves m
  | .stmtEmpty, x1 => x1
  | .stmtTry, (x1, x2, x3, x4) => (x1, x2.mapLeaves m, mapOptCatchClause m x3, mapOptBlock m x4)
  | .stmtDebugger, x1 => x1
  | .stmtThrow, (x1, x2) => (x1, x2.mapLeaves m)
  | .stmtLabeled, (x1, x2, x3) => (x1, m.ident x2, x3.mapLeaves m)
  | .stmtWith, (x1, x2, x3) => (x1, x2.mapLeaves m, x3.mapLeaves m)
  | .stmtContinue, (x1, x2) => (x1, x2.map (fun y => m.ident y))
  | .stmtBreak, (x1, x2) => (x1, x2.map (fun y => m.ident y))
  | .stmtSwitch, (x1, x2, x3) => (x1, x2.mapLeaves m, mapSwitchCases m x3)
  | .stmtIf, (x1, x2, x3, x4) => (x1, x2.mapLeaves m, x3.mapLeaves m, mapOptStmt m x4)
  | .stmtFor, (x1, x2, x3, x4, x5) => (x1, mapOptForInit m x2, mapOptExpr m x3, mapOptExpr m x4, x5.mapLeaves m)
  | .stmtForOf, (x1, x2, x3, x4, x5) => (x1, x2.mapLeaves m, x3.mapLeaves m, x4.mapLeaves m, x5)
  | .stmtForIn, (x1, x2, x3, x4) => (x1, x2.mapLeaves m, x3.mapLeaves m, x4.mapLeaves m)
  | .stmtWhile, (x1, x2, x3) => (x1, x2.mapLeaves m, x3.mapLeaves m)
  | .stmtDoWhile, (x1, x2, x3) => (x1, x2.mapLeaves m, x3.mapLeaves m)
  | .stmtList, (x1, x2, x3) => (x1, x2.map (fun y => m.string y), mapStmts m x3)
  | .bindingElement, x => x.mapLeaves m
  | .formalParameters, x => x.mapLeaves m
  | .variableDeclaration, x => x.mapLeaves m
  | .litString, x => m.string x
  | .litTemplate, x => mapTemplateParts m x
  | .litArray, x => mapArrayElements m x
  | .litObject, x => mapPropDefs m x
  | .arrayBinding, (x1, x2, x3) => (x1, mapOptBindingElements m x2, mapOptBindingPattern m x3)
  | .objectBinding, (x1, x2, x3) => (x1, mapBindingProps m x2, mapOptBindingPattern m x3)
  | .singleNameBinding, (x1, x2, x3) => (x1, m.ident x2, mapOptExpr m x3)
  | .namedBinding, (x1, x2, x3) => (x1, x2.mapLeaves m, x3.mapLeaves m)
  | .namedProperty, (x1, x2, x3) => (x1, x2.mapLeaves m, x3.mapLeaves m)
  | .methodDefinition, x => x.mapLeaves m
  | .catchClause, x => x.mapLeaves m
  | .switchCase, x => x.mapLeaves m
  | .exportDecl, (x1, x2) => (x1, x2.mapLeaves m)
  | .exportDefaultDecl, (x1, x2) => (x1, x2.mapLeaves m)
  | .exportDefaultExpr, (x1, x2) => (x1, x2.mapLeaves m)
  | .exprTaggedTemplate, (x1, x2, x3) => (x1, x2.mapLeaves m, mapTemplateParts m x3)
  | .exportNamed, (x1, x2, x3) => (x1, x2.map (fun y => y.mapLeaves m), x3.map (fun y => m.string y))
  | .exportNamespace, (x1, x2, x3) => (x1, x2.map (fun y => m.ident y), m.string x3)
  | .namedExport, x => x.mapLeaves m
  | .namedImport, x => x.mapLeaves m
  | .ident, x => m.ident x
  | .body, x => x.mapLeaves m
  | .forBinding, (x1, x2, x3) => (x1, x2, x3.mapLeaves m)

/-- Change the reached leaves of a named import: all of them. -/
def NamedImport.mapReached (m : LeafMap) (x : NamedImport) : NamedImport := x.mapLeaves m

/-- Change the reached leaves of a named export: all of them. -/
def NamedExport.mapReached (m : LeafMap) (x : NamedExport) : NamedExport := x.mapLeaves m

/-- A change of leaves, twice. -/
def LeafMap.twice (m : LeafMap) : LeafMap where
  ident x := m.ident (m.ident x)
  string x := m.string (m.string x)
  number x := m.number (m.number x)
  binaryOp x := m.binaryOp (m.binaryOp x)
  logicalOp x := m.logicalOp (m.logicalOp x)
  assignOp x := m.assignOp (m.assignOp x)
  unaryOp x := m.unaryOp (m.unaryOp x)
  updateOp x := m.updateOp (m.updateOp x)

mutual

/-- Change the leaves that are reached, as often as they are reached. -/
def Expr.mapReached (m : LeafMap) : Expr → Expr
  | .arrow x1 x2 x3 x4 x5 => .arrow x1 x2 x3 (x4.mapReached m) (x5.mapReached m)
  | .assign x1 x2 x3 x4 => .assign x1 (m.assignOp x2) (x3.mapReached m) (x4.mapReached m)
  | .await x1 x2 => .await x1 (x2.mapReached m)
  | .binary x1 x2 x3 x4 => .binary x1 (m.binaryOp x2) (x3.mapReached m) (x4.mapReached m)
  | .call x1 x2 x3 x4 => .call x1 (x2.mapReached m) x3 (reachArguments m x4)
  | .classE x1 x2 x3 x4 => .classE x1 (x2.map (fun y => m.ident y)) (reachOptExpr m x3) (reachMethodDefs m x4)
  | .conditional x1 x2 x3 x4 => .conditional x1 (x2.mapReached m.twice) (x3.mapReached m) x4
  | .function x1 x2 x3 x4 x5 x6 => .function x1 x2 x3 (x4.map (fun y => m.ident y)) (x5.mapReached m) (x6.mapReached m)
  | .ident x1 => .ident (m.ident x1)
  | .literal x1 x2 => .literal x1 (x2.mapReached m)
  | .logical x1 x2 x3 x4 => .logical x1 (m.logicalOp x2) (x3.mapReached m) (x4.mapReached m)
  | .member x1 x2 x3 => .member x1 (x2.mapReached m) (x3.mapReached m)
  | .metaProp x1 x2 x3 => .metaProp x1 (m.ident x2) (m.ident x3)
  | .new x1 x2 x3 x4 => .new x1 (x2.mapReached m) x3 (reachArguments m x4)
  | .optCall x1 x2 x3 x4 x5 => .optCall x1 (x2.mapReached m) x3 (reachArguments m x4) x5
  | .optMember x1 x2 x3 x4 => .optMember x1 (x2.mapReached m) (x3.mapReached m) x4
  | .paren x1 x2 => .paren x1 (x2.mapReached m)
  | .sequence x1 x2 => .sequence x1 (reachExprs m x2)
  | .tagged x1 x2 x3 => .tagged x1 (x2.mapReached m) (reachTemplateParts m x3)
  | .this x1 => .this x1
  | .unary x1 x2 x3 => .unary x1 (m.unaryOp x2) (x3.mapReached m)
  | .update x1 x2 x3 x4 => .update x1 (m.updateOp x2) x3 (x4.mapReached m)
  | .yield x1 x2 x3 => .yield x1 (reachOptExpr m x2) x3
termination_by structural x => x

/-- Change the leaves that are reached, as often as they are reached. -/
def Literal.mapReached (m : LeafMap) : Literal → Literal
  | .null => .null
  | .boolean x1 => .boolean x1
  | .string x1 => .string (m.string x1)
  | .number x1 => .number (m.number x1)
  | .array x1 => .array (reachArrayElements m x1)
  | .object x1 => .object (reachPropDefs m x1)
  | .regexp x1 => .regexp x1
  | .template x1 => .template (reachTemplateParts m x1)
termination_by structural x => x

/-- Change the leaves that are reached, as often as they are reached. -/
def TemplatePart.mapReached (m : LeafMap) : TemplatePart → TemplatePart
  | .string x1 => .string x1
  | .expr x1 => .expr (x1.mapReached m)
termination_by structural x => x

/-- Change the leaves that are reached, as often as they are reached. -/
def ArrayElement.mapReached (m : LeafMap) : ArrayElement → ArrayElement
  | .elision => .elision
  | .expr x1 => .expr (x1.mapReached m)
  | .spread x1 => .spread (x1.mapReached m)
termination_by structural x => x

/-- Change the leaves that are reached, as often as they are reached. -/
def PropDef.mapReached (m : LeafMap) : PropDef → PropDef
  | .identRef x1 => .identRef (m.ident x1)
  | .spread x1 => .spread (x1.mapReached m)
  | .named x1 x2 x3 => .named x1 (x2.mapReached m) (x3.mapReached m)
  | .method x1 => .method (x1.mapReached m)
termination_by structural x => x

/-- Change the leaves that are reached, as often as they are reached. -/
def PropName.mapReached (m : LeafMap) : PropName → PropName
  | .ident x1 => .ident (m.ident x1)
  | .string x1 => .string (m.string x1)
  | .number x1 => .number (m.number x1)
  | .computed x1 => .computed (x1.mapReached m)
termination_by structural x => x

/-- Change the leaves that are reached, as often as they are reached. -/
def MethodDef.mapReached (m : LeafMap) : MethodDef → MethodDef
  | .mk x1 x2 x3 x4 x5 x6 x7 x8 => .mk x1 (x2.mapReached m) x3 (x4.mapReached m) (x5.mapReached m) x6 x7 x8
termination_by structural x => x

/-- Change the leaves that are reached, as often as they are reached. -/
def FormalParams.mapReached (m : LeafMap) : FormalParams → FormalParams
  | .mk x1 x2 x3 => .mk x1 (reachBindingElements m x2) (reachOptBindingPattern m x3)
termination_by structural x => x

/-- Change the leaves that are reached, as often as they are reached. -/
def Body.mapReached (m : LeafMap) : Body → Body
  | .mk x1 x2 x3 => .mk x1 (x2.map (fun y => m.string y)) (reachStmts m x3)
termination_by structural x => x

/-- Change the leaves that are reached, as often as they are reached. -/
def ArrowBody.mapReached (m : LeafMap) : ArrowBody → ArrowBody
  | .expr x1 => .expr (x1.mapReached m)
  | .body x1 => .body (x1.mapReached m)
termination_by structural x => x

/-- Change the leaves that are reached, as often as they are reached. -/
def MemberObject.mapReached (m : LeafMap) : MemberObject → MemberObject
  | .expr x1 => .expr (x1.mapReached m)
  | .super x1 => .super x1
termination_by structural x => x

/-- Change the leaves that are reached, as often as they are reached. -/
def MemberProp.mapReached (m : LeafMap) : MemberProp → MemberProp
  | .ident x1 => .ident (m.ident x1)
  | .expr x1 => .expr (x1.mapReached m)
termination_by structural x => x

/-- Change the leaves that are reached, as often as they are reached. -/
def Argument.mapReached (m : LeafMap) : Argument → Argument
  | .expr x1 => .expr (x1.mapReached m)
  | .spread x1 => .spread (x1.mapReached m)
termination_by structural x => x

/-- Change the leaves that are reached, as often as they are reached. -/
def Callee.mapReached (m : LeafMap) : Callee → Callee
  | .super => .super
  | .import => .import
  | .expr x1 => .expr (x1.mapReached m)
termination_by structural x => x

/-- Change the leaves that are reached, as often as they are reached. -/
def BindingPattern.mapReached (m : LeafMap) : BindingPattern → BindingPattern
  | .ident x1 => .ident (m.ident x1)
  | .array x1 x2 x3 => .array x1 (reachOptBindingElements m x2) (reachOptBindingPattern m x3)
  | .object x1 x2 x3 => .object x1 (reachBindingProps m x2) (reachOptBindingPattern m x3)
termination_by structural x => x

/-- Change the leaves that are reached, as often as they are reached. -/
def BindingProp.mapReached (m : LeafMap) : BindingProp → BindingProp
  | .single x1 x2 x3 => .single x1 (m.ident x2) (reachOptExpr m x3)
  | .named x1 x2 x3 => .named x1 (x2.mapReached m) (x3.mapReached m)
termination_by structural x => x

/-- Change the leaves that are reached, as often as they are reached. -/
def BindingElement.mapReached (m : LeafMap) : BindingElement → BindingElement
  | .mk x1 x2 x3 => .mk x1 (x2.mapReached m) (reachOptExpr m x3)
termination_by structural x => x

/-- Change the leaves that are reached, as often as they are reached. -/
def PatternOrExpr.mapReached (m : LeafMap) : PatternOrExpr → PatternOrExpr
  | .expr x1 => .expr (x1.mapReached m)
  | .pattern x1 => .pattern x1
termination_by structural x => x

/-- Change the leaves that are reached, as often as they are reached. -/
def Stmt.mapReached (m : LeafMap) : Stmt → Stmt
  | .block x1 => .block (x1.mapReached m)
  | .break x1 x2 => .break x1 (x2.map (fun y => m.ident y))
  | .continue x1 x2 => .continue x1 (x2.map (fun y => m.ident y))
  | .debugger x1 => .debugger x1
  | .doWhile x1 x2 x3 => .doWhile x1 (x2.mapReached m) (x3.mapReached m)
  | .empty x1 => .empty x1
  | .expr x1 x2 => .expr x1 (x2.mapReached m)
  | .for x1 x2 x3 x4 x5 => .for x1 (reachOptForInit m x2) (reachOptExpr m x3) (reachOptExpr m x4) (x5.mapReached m)
  | .forIn x1 x2 x3 x4 => .forIn x1 (x2.mapReached m) (x3.mapReached m) (x4.mapReached m)
  | .forOf x1 x2 x3 x4 x5 => .forOf x1 (x2.mapReached m) (x3.mapReached m) (x4.mapReached m) x5
  | .if x1 x2 x3 x4 => .if x1 (x2.mapReached m) (x3.mapReached m) (reachOptStmt m x4)
  | .labeled x1 x2 x3 => .labeled x1 (m.ident x2) (x3.mapReached m)
  | .return x1 x2 => .return x1 (reachOptExpr m x2)
  | .switch x1 x2 x3 => .switch x1 (x2.mapReached m) (reachSwitchCases m x3)
  | .throw x1 x2 => .throw x1 (x2.mapReached m)
  | .try x1 x2 x3 x4 => .try x1 (x2.mapReached m) (reachOptCatchClause m x3) (reachOptBlock m x4)
  | .variable x1 => .variable (x1.mapReached m)
  | .while x1 x2 x3 => .while x1 (x2.mapReached m) (x3.mapReached m)
  | .with x1 x2 x3 => .with x1 (x2.mapReached m) (x3.mapReached m)
  | .classDecl x1 x2 x3 x4 => .classDecl x1 (m.ident x2) (reachOptExpr m x3) (reachMethodDefs m x4)
  | .functionDecl x1 x2 x3 x4 x5 x6 => .functionDecl x1 x2 x3 (m.ident x4) (x5.mapReached m) (x6.mapReached m)
  | .importDecl x1 x2 x3 x4 x5 => .importDecl x1 (x2.map (fun y => m.ident y)) x3 (x4.map (fun y => y.map (fun y => y.mapReached m.twice))) (m.string x5)
  | .exportDecl x1 => .exportDecl (x1.mapReached m)
termination_by structural x => x

/-- Change the leaves that are reached, as often as they are reached. -/
def Block.mapReached (m : LeafMap) : Block → Block
  | .mk x1 x2 => .mk x1 (reachStmts m x2)
termination_by structural x => x

/-- Change the leaves that are reached, as often as they are reached. -/
def VarStmt.mapReached (m : LeafMap) : VarStmt → VarStmt
  | .mk x1 x2 x3 => .mk x1 x2 (reachVarDecls m x3)
termination_by structural x => x

/-- Change the leaves that are reached, as often as they are reached. -/
def VarDecl.mapReached (m : LeafMap) : VarDecl → VarDecl
  | .mk x1 x2 x3 => .mk x1 (x2.mapReached m) (reachOptExpr m x3)
termination_by structural x => x

/-- Change the leaves that are reached, as often as they are reached. -/
def CatchClause.mapReached (m : LeafMap) : CatchClause → CatchClause
  | .mk x1 x2 x3 => .mk x1 (reachOptBindingPattern m x2) (x3.mapReached m)
termination_by structural x => x

/-- Change the leaves that are reached, as often as they are reached. -/
def SwitchCase.mapReached (m : LeafMap) : SwitchCase → SwitchCase
  | .mk x1 x2 x3 => .mk x1 (reachOptExpr m x2) (reachStmts m x3)
termination_by structural x => x

/-- Change the leaves that are reached, as often as they are reached. -/
def ForInit.mapReached (m : LeafMap) : ForInit → ForInit
  | .expr x1 => .expr (x1.mapReached m)
  | .declaration x1 => .declaration (x1.mapReached m)
termination_by structural x => x

/-- Change the leaves that are reached, as often as they are reached. -/
def ForDecl.mapReached (m : LeafMap) : ForDecl → ForDecl
  | .expr x1 => .expr (x1.mapReached m)
  | .pattern x1 => .pattern x1
  | .declaration x1 x2 x3 => .declaration x1 x2 x3
termination_by structural x => x

/-- Change the leaves that are reached, as often as they are reached. -/
def ExportDecl.mapReached (m : LeafMap) : ExportDecl → ExportDecl
  | .decl x1 x2 => .decl x1 (x2.mapReached m)
  | .defaultExpr x1 x2 => .defaultExpr x1 (x2.mapReached m)
  | .defaultDecl x1 x2 => .defaultDecl x1 (x2.mapReached m)
  | .named x1 x2 x3 => .named x1 (x2.map (fun y => y.mapReached m)) (x3.map (fun y => m.string y))
  | .namespace x1 x2 x3 => .namespace x1 (x2.map (fun y => m.ident y)) (m.string x3)
termination_by structural x => x

/-- Change the leaves that are reached, as often as they are reached. -/
def reachArguments (m : LeafMap) : List (Argument) → List (Argument)
  | [] => []
  | x :: l => x.mapReached m :: reachArguments m l
termination_by structural x => x

/-- Change the leaves that are reached, as often as they are reached. -/
def reachArrayElements (m : LeafMap) : List (ArrayElement) → List (ArrayElement)
  | [] => []
  | x :: l => x.mapReached m :: reachArrayElements m l
termination_by structural x => x

/-- Change the leaves that are reached, as often as they are reached. -/
def reachBindingElements (m : LeafMap) : List (BindingElement) → List (BindingElement)
  | [] => []
  | x :: l => x.mapReached m :: reachBindingElements m l
termination_by structural x => x

/-- Change the leaves that are reached, as often as they are reached. -/
def reachBindingProps (m : LeafMap) : List (BindingProp) → List (BindingProp)
  | [] => []
  | x :: l => x.mapReached m :: reachBindingProps m l
termination_by structural x => x

/-- Change the leaves that are reached, as often as they are reached. -/
def reachExprs (m : LeafMap) : List (Expr) → List (Expr)
  | [] => []
  | x :: l => x.mapReached m :: reachExprs m l
termination_by structural x => x

/-- Change the leaves that are reached, as often as they are reached. -/
def reachMethodDefs (m : LeafMap) : List (MethodDef) → List (MethodDef)
  | [] => []
  | x :: l => x.mapReached m :: reachMethodDefs m l
termination_by structural x => x

/-- Change the leaves that are reached, as often as they are reached. -/
def reachOptBindingElement (m : LeafMap) : Option (BindingElement) → Option (BindingElement)
  | none => none
  | some x => some (x.mapReached m)
termination_by structural x => x

/-- Change the leaves that are reached, as often as they are reached. -/
def reachOptBindingElements (m : LeafMap) : List (Option (BindingElement)) → List (Option (BindingElement))
  | [] => []
  | x :: l => reachOptBindingElement m x :: reachOptBindingElements m l
termination_by structural x => x

/-- Change the leaves that are reached, as often as they are reached. -/
def reachOptBindingPattern (m : LeafMap) : Option (BindingPattern) → Option (BindingPattern)
  | none => none
  | some x => some (x.mapReached m)
termination_by structural x => x

/-- Change the leaves that are reached, as often as they are reached. -/
def reachOptBlock (m : LeafMap) : Option (Block) → Option (Block)
  | none => none
  | some x => some (x.mapReached m)
termination_by structural x => x

/-- Change the leaves that are reached, as often as they are reached. -/
def reachOptCatchClause (m : LeafMap) : Option (CatchClause) → Option (CatchClause)
  | none => none
  | some x => some (x.mapReached m)
termination_by structural x => x

/-- Change the leaves that are reached, as often as they are reached. -/
def reachOptExpr (m : LeafMap) : Option (Expr) → Option (Expr)
  | none => none
  | some x => some (x.mapReached m)
termination_by structural x => x

/-- Change the leaves that are reached, as often as they are reached. -/
def reachOptForInit (m : LeafMap) : Option (ForInit) → Option (ForInit)
  | none => none
  | some x => some (x.mapReached m)
termination_by structural x => x

/-- Change the leaves that are reached, as often as they are reached. -/
def reachOptStmt (m : LeafMap) : Option (Stmt) → Option (Stmt)
  | none => none
  | some x => some (x.mapReached m)
termination_by structural x => x

/-- Change the leaves that are reached, as often as they are reached. -/
def reachPropDefs (m : LeafMap) : List (PropDef) → List (PropDef)
  | [] => []
  | x :: l => x.mapReached m :: reachPropDefs m l
termination_by structural x => x

/-- Change the leaves that are reached, as often as they are reached. -/
def reachStmts (m : LeafMap) : List (Stmt) → List (Stmt)
  | [] => []
  | x :: l => x.mapReached m :: reachStmts m l
termination_by structural x => x

/-- Change the leaves that are reached, as often as they are reached. -/
def reachSwitchCases (m : LeafMap) : List (SwitchCase) → List (SwitchCase)
  | [] => []
  | x :: l => x.mapReached m :: reachSwitchCases m l
termination_by structural x => x

/-- Change the leaves that are reached, as often as they are reached. -/
def reachTemplateParts (m : LeafMap) : List (TemplatePart) → List (TemplatePart)
  | [] => []
  | x :: l => x.mapReached m :: reachTemplateParts m l
termination_by structural x => x

/-- Change the leaves that are reached, as often as they are reached. -/
def reachVarDecls (m : LeafMap) : List (VarDecl) → List (VarDecl)
  | [] => []
  | x :: l => x.mapReached m :: reachVarDecls m l
termination_by structural x => x

end

/-- Change the leaves that are reached, as often as they are reached. -/
def Kind.mapReached (m : LeafMap) : (k : Kind) → k.Val → k.Val
  | .program, x => ⟨x.sourceType, x.span, x.directives.map (fun y => m.string y), reachStmts m x.body⟩
  | .expr, x => x.mapReached m
  | .stmt, x => x.mapReached m
  | .bindingPattern, x => x.mapReached m
  | .literal, x => x.mapReached m
  | .litNumber, x => m.number x
  | .templatePart, x => x.mapReached m
  | .objectBindingProp, x => x.mapReached m
  | .propertyName, x => x.mapReached m
  | .classElement, x => x.mapReached m
  | .forInit, x => x.mapReached m
  | .forDeclaration, x => x.mapReached m
  | .callee, x => x.mapReached m
  | .argument, x => x.mapReached m
  | .memberObject, x => x.mapReached m
  | .super, x => x
  | .memberProperty, x => x.mapReached m
  | .arrayElement, x => x.mapReached m
  | .arrowFunctionBody, x => x.mapReached m
  | .propertyDefinition, x => x.mapReached m
  | .binaryOperator, x => m.binaryOp x
  | .logicalOperator, x => m.logicalOp x
  | .assignmentOperator, x => m.assignOp x
  | .unaryOperator, x => m.unaryOp x
  | .updateOperator, x => m.updateOp x
  | .declExport, x => x.mapReached m
  | .patternOrExpr, x => x.mapReached m
  | .assignmentPattern, x => x
  | .declFunction, (x1, x2, x3, x4, x5, x6) => (x1, x2, x3, m.ident x4, x5.mapReached m, x6.mapReached m)
  | .declClass, (x1, x2, x3, x4) => (x1, m.ident x2, reachOptExpr m x3, reachMethodDefs m x4)
  | .declImport, (x1, x2, x3, x4, x5) => (x1, x2.map (fun y => m.ident y), x3, x4.map (fun y => y.map (fun y => y.mapReached m.twice)), m.string x5)
  | .stmtExpr, (x1, x2) => (x1, x2.mapReached m)
  | .stmtBlock, x => x.mapReached m
  | .exprBinary, (x1, x2, x3, x4) => (x1, m.binaryOp x2, x3.mapReached m, x4.mapReached m)
  | .exprLogical, (x1, x2, x3, x4) => (x1, m.logicalOp x2, x3.mapReached m, x4.mapReached m)
  | .exprUnary, (x1, x2, x3) => (x1, m.unaryOp x2, x3.mapReached m)
  | .exprCall, (x1, x2, x3, x4) => (x1, x2.mapReached m, x3, reachArguments m x4)
  | .exprMember, (x1, x2, x3) => (x1, x2.mapReached m, x3.mapReached m)
  | .exprOptionalMember, (x1, x2, x3, x4) => (x1, x2.mapReached m, x3.mapReached m, x4)
  | .exprOptionalCall, (x1, x2, x3, x4, x5) => (x1, x2.mapReached m, x3, reachArguments m x4, x5)
  | .exprParenthesized, (x1, x2) => (x1, x2.mapReached m)
  | .exprLiteral, (x1, x2) => (x1, x2.mapReached m)
  | .exprAssignment, (x1, x2, x3, x4) => (x1, m.assignOp x2, x3.mapReached m, x4.mapReached m)
  | .exprYield, (x1, x2, x3) => (x1, reachOptExpr m x2, x3)
  | .exprConditional, (x1, x2, x3, x4) => (x1, x2.mapReached m.twice, x3.mapReached m, x4)
  | .exprUpdate, (x1, x2, x3, x4) => (x1, m.updateOp x2, x3, x4.mapReached m)
  | .exprSequence, (x1, x2) => (x1, reachExprs m x2)
  | .exprThis, x1 => x1
  | .exprFunction, (x1, x2, x3, x4, x5, x6) => (x1, x2, x3, x4.map (fun y => m.ident y), x5.mapReached m, x6.mapReached m)
  | .exprNew, (x1, x2, x3, x4) => (x1, x2.mapReached m, x3, reachArguments m x4)
  | .exprArrowFunction, (x1, x2, x3, x4, x5) => (x1, x2, x3, x4.mapReached m, x5.mapReached m)
  | .exprAwait, (x1, x2) => (x1, x2.mapReached m)
  | .exprMetaProperty, (x1, x2, x3) => (x1, m.ident x2, m.ident x3)
  | .exprClass, (x1, x2, x3, x4) => (x1, x2.map (fun y => m.ident y), reachOptExpr m x3, reachMethodDefs m x4)
  | .stmtReturn, (x1, x2) => (x1, reachOptExpr m x2)
  | .stmtVariable, x => x.mapReached m
  | .stmtEmpty, x1 => x1
  | .stmtTry, (x1, x2, x3, x4) => (x1, x2.mapReached m, reachOptCatchClause m x3, reachOptBlock m x4)
  | .stmtDebugger, x1 => x1
  | .stmtThrow, (x1, x2) => (x1, x2.mapReached m)
  | .stmtLabeled, (x1, x2, x3) => (x1, m.ident x2, x3.mapReached m)
  | .stmtWith, (x1, x2, x3) => (x1, x2.mapReached m, x3.mapReached m)
  | .stmtContinue, (x1, x2) => (x1, x2.map (fun y => m.ident y))
  | .stmtBreak, (x1, x2) => (x1, x2.map (fun y => m.ident y))
  | .stmtSwitch, (x1, x2, x3) => (x1, x2.mapReached m, reachSwitchCases m x3)
  | .stmtIf, (x1, x2, x3, x4) => (x1, x2.mapReached m, x3.mapReached m, reachOptStmt m x4)
  | .stmtFor, (x1, x2, x3, x4, x5) => (x1, reachOptForInit m x2, reachOptExpr m x3, reachOptExpr m x4, x5.mapReached m)
  | .stmtForOf, (x1, x2, x3, x4, x5) => (x1, x2.mapReached m, x3.mapReached m, x4.mapReached m, x5)
  | .stmtForIn, (x1, x2, x3, x4) => (x1, x2.mapReached m, x3.mapReached m, x4.mapReached m)
  | .stmtWhile, (x1, x2, x3) => (x1, x2.mapReached m, x3.mapReached m)
  | .stmtDoWhile, (x1, x2, x3) => (x1, x2.mapReached m, x3.mapReached m)
  | .stmtList, (x1, x2, x3) => (x1, x2.map (fun y => m.string y), reachStmts m x3)
  | .bindingElement, x => x.mapReached m
  | .formalParameters, x => x.mapReached m
  | .variableDeclaration, x => x.mapReached m
  | .litString, x => m.string x
  | .litTemplate, x => reachTemplateParts m x
  | .litArray, x => reachArrayElements m x
  | .litObject, x => reachPropDefs m x
  | .arrayBinding, (x1, x2, x3) => (x1, reachOptBindingElements m x2, reachOptBindingPattern m x3)
  | .objectBinding, (x1, x2, x3) => (x1, reachBindingProps m x2, reachOptBindingPattern m x3)
  | .singleNameBinding, (x1, x2, x3) => (x1, m.ident x2, reachOptExpr m x3)
  | .namedBinding, (x1, x2, x3) => (x1, x2.mapReached m, x3.mapReached m)
  | .namedProperty, (x1, x2, x3) => (x1, x2.mapReached m, x3.mapReached m)
  | .methodDefinition, x => x.mapReached m
  | .catchClause, x => x.mapReached m
  | .switchCase, x => x.mapReached m
  | .exportDecl, (x1, x2) => (x1, x2.mapReached m)
  | .exportDefaultDecl, (x1, x2) => (x1, x2.mapReached m)
  | .exportDefaultExpr, (x1, x2) => (x1, x2.mapReached m)
  | .exprTaggedTemplate, (x1, x2, x3) => (x1, x2.mapReached m, reachTemplateParts m x3)
  | .exportNamed, (x1, x2, x3) => (x1, x2.map (fun y => y.mapReached m), x3.map (fun y => m.string y))
  | .exportNamespace, (x1, x2, x3) => (x1, x2.map (fun y => m.ident y), m.string x3)
  | .namedExport, x => x.mapReached m
  | .namedImport, x => x.mapReached m
  | .ident, x => m.ident x
  | .body, x => x.mapReached m
  | .forBinding, (x1, x2, x3) => (x1, x2, x3)

mutual

/-- No construct whose children are not traversed exactly once. -/
def Expr.Plain : Expr → Prop
  | .arrow _ _ _ x4 x5 => x4.Plain ∧ x5.Plain
  | .assign _ _ x3 x4 => x3.Plain ∧ x4.Plain
  | .await _ x2 => x2.Plain
  | .binary _ _ x3 x4 => x3.Plain ∧ x4.Plain
  | .call _ x2 _ x4 => x2.Plain ∧ plainArguments x4
  | .classE _ _ x3 x4 => plainOptExpr x3 ∧ plainMethodDefs x4
  | .conditional _ _ _ _ => False
  | .function _ _ _ _ x5 x6 => x5.Plain ∧ x6.Plain
  | .ident _ => True
  | .literal _ x2 => x2.Plain
  | .logical _ _ x3 x4 => x3.Plain ∧ x4.Plain
  | .member _ x2 x3 => x2.Plain ∧ x3.Plain
  | .metaProp _ _ _ => True
  | .new _ x2 _ x4 => x2.Plain ∧ plainArguments x4
  | .optCall _ x2 _ x4 _ => x2.Plain ∧ plainArguments x4
  | .optMember _ x2 x3 _ => x2.Plain ∧ x3.Plain
  | .paren _ x2 => x2.Plain
  | .sequence _ x2 => plainExprs x2
  | .tagged _ x2 x3 => x2.Plain ∧ plainTemplateParts x3
  | .this _ => True
  | .unary _ _ x3 => x3.Plain
  | .update _ _ _ x4 => x4.Plain
  | .yield _ x2 _ => plainOptExpr x2
termination_by structural x => x

/-- No construct whose children are not traversed exactly once. -/
def Literal.Plain : Literal → Prop
  | .null => True
  | .boolean _ => True
  | .string _ => True
  | .number _ => True
  | .array x1 => plainArrayElements x1
  | .object x1 => plainPropDefs x1
  | .regexp _ => True
  | .template x1 => plainTemplateParts x1
termination_by structural x => x

/-- No construct whose children are not traversed exactly once. -/
def TemplatePart.Plain : TemplatePart → Prop
  | .string _ => True
  | .expr x1 => x1.Plain
termination_by structural x => x

/-- No construct whose children are not traversed exactly once. -/
def ArrayElement.Plain : ArrayElement → Prop
  | .elision => True
  | .expr x1 => x1.Plain
  | .spread x1 => x1.Plain
termination_by structural x => x

/-- No construct whose children are not traversed exactly once. -/
def PropDef.Plain : PropDef → Prop
  | .identRef _ => True
  | .spread x1 => x1.Plain
  | .named _ x2 x3 => x2.Plain ∧ x3.Plain
  | .method x1 => x1.Plain
termination_by structural x => x

/-- No construct whose children are not traversed exactly once. -/
def PropName.Plain : PropName → Prop
  | .ident _ => True
  | .string _ => True
  | .number _ => True
  | .computed x1 => x1.Plain
termination_by structural x => x

/-- No construct whose children are not traversed exactly once. -/
def MethodDef.Plain : MethodDef → Prop
  | .mk _ x2 _ x4 x5 _ _ _ => x2.Plain ∧ x4.Plain ∧ x5.Plain
termination_by structural x => x

/-- No construct whose children are not traversed exactly once. -/
def FormalParams.Plain : FormalParams → Prop
  | .mk _ x2 x3 => plainBindingElements x2 ∧ plainOptBindingPattern x3
termination_by structural x => x

/-- No construct whose children are not traversed exactly once. -/
def Body.Plain : Body → Prop
  | .mk _ _ x3 => plainStmts x3
termination_by structural x => x

/-- No construct whose children are not traversed exactly once. -/
def ArrowBody.Plain : ArrowBody → Prop
  | .expr x1 => x1.Plain
  | .body x1 => x1.Plain
termination_by structural x => x

/-- No construct whose children are not traversed exactly once. -/
def MemberObject.Plain : MemberObject → Prop
  | .expr x1 => x1.Plain
  | .super _ => True
termination_by structural x => x

/-- No construct whose children are not traversed exactly once. -/
def MemberProp.Plain : MemberProp → Prop
  | .ident _ => True
  | .expr x1 => x1.Plain
termination_by structural x => x

/-- No construct whose children are not traversed exactly once. -/
def Argument.Plain : Argument → Prop
  | .expr x1 => x1.Plain
  | .spread x1 => x1.Plain
termination_by structural x => x

/-- No construct whose children are not traversed exactly once. -/
def Callee.Plain : Callee → Prop
  | .super => True
  | .import => True
  | .expr x1 => x1.Plain
termination_by structural x => x

/-- No construct whose children are not traversed exactly once. -/
def BindingPattern.Plain : BindingPattern → Prop
  | .ident _ => True
  | .array _ x2 x3 => plainOptBindingElements x2 ∧ plainOptBindingPattern x3
  | .object _ x2 x3 => plainBindingProps x2 ∧ plainOptBindingPattern x3
termination_by structural x => x

/-- No construct whose children are not traversed exactly once. -/
def BindingProp.Plain : BindingProp → Prop
  | .single _ _ x3 => plainOptExpr x3
  | .named _ x2 x3 => x2.Plain ∧ x3.Plain
termination_by structural x => x

/-- No construct whose children are not traversed exactly once. -/
def BindingElement.Plain : BindingElement → Prop
  | .mk _ x2 x3 => x2.Plain ∧ plainOptExpr x3
termination_by structural x => x

/-- No construct whose children are not traversed exactly once. -/
def PatternOrExpr.Plain : PatternOrExpr → Prop
  | .expr x1 => x1.Plain
  | .pattern _ => False
termination_by structural x => x

/-- No construct whose children are not traversed exactly once. -/
def Stmt.Plain : Stmt → Prop
  | .block x1 => x1.Plain
  | .break _ _ => True
  | .continue _ _ => True
  | .debugger _ => True
  | .doWhile _ x2 x3 => x2.Plain ∧ x3.Plain
  | .empty _ => True
  | .expr _ x2 => x2.Plain
  | .for _ x2 x3 x4 x5 => plainOptForInit x2 ∧ plainOptExpr x3 ∧ plainOptExpr x4 ∧ x5.Plain
  | .forIn _ x2 x3 x4 => x2.Plain ∧ x3.Plain ∧ x4.Plain
  | .forOf _ x2 x3 x4 _ => x2.Plain ∧ x3.Plain ∧ x4.Plain
  | .if _ x2 x3 x4 => x2.Plain ∧ x3.Plain ∧ plainOptStmt x4
  | .labeled _ _ x3 => x3.Plain
  | .return _ x2 => plainOptExpr x2
  | .switch _ x2 x3 => x2.Plain ∧ plainSwitchCases x3
  | .throw _ x2 => x2.Plain
  | .try _ x2 x3 x4 => x2.Plain ∧ plainOptCatchClause x3 ∧ plainOptBlock x4
  | .variable x1 => x1.Plain
  | .while _ x2 x3 => x2.Plain ∧ x3.Plain
  | .with _ x2 x3 => x2.Plain ∧ x3.Plain
  | .classDecl _ _ x3 x4 => plainOptExpr x3 ∧ plainMethodDefs x4
  | .functionDecl _ _ _ _ x5 x6 => x5.Plain ∧ x6.Plain
  | .importDecl _ _ x3 x4 _ => x3 = none ∧ x4 = none
  | .exportDecl x1 => x1.Plain
termination_by structural x => x

/-- No construct whose children are not traversed exactly once. -/
def Block.Plain : Block → Prop
  | .mk _ x2 => plainStmts x2
termination_by structural x => x

/-- No construct whose children are not traversed exactly once. -/
def VarStmt.Plain : VarStmt → Prop
  | .mk _ _ x3 => plainVarDecls x3
termination_by structural x => x

/-- No construct whose children are not traversed exactly once. -/
def VarDecl.Plain : VarDecl → Prop
  | .mk _ x2 x3 => x2.Plain ∧ plainOptExpr x3
termination_by structural x => x

/-- No construct whose children are not traversed exactly once. -/
def CatchClause.Plain : CatchClause → Prop
  | .mk _ x2 x3 => plainOptBindingPattern x2 ∧ x3.Plain
termination_by structural x => x

/-- No construct whose children are not traversed exactly once. -/
def SwitchCase.Plain : SwitchCase → Prop
  | .mk _ x2 x3 => plainOptExpr x2 ∧ plainStmts x3
termination_by structural x => x

/-- No construct whose children are not traversed exactly once. -/
def ForInit.Plain : ForInit → Prop
  | .expr x1 => x1.Plain
  | .declaration x1 => x1.Plain
termination_by structural x => x

/-- No construct whose children are not traversed exactly once. -/
def ForDecl.Plain : ForDecl → Prop
  | .expr x1 => x1.Plain
  | .pattern _ => False
  | .declaration _ _ _ => False
termination_by structural x => x

/-- No construct whose children are not traversed exactly once. -/
def ExportDecl.Plain : ExportDecl → Prop
  | .decl _ x2 => x2.Plain
  | .defaultExpr _ x2 => x2.Plain
  | .defaultDecl _ x2 => x2.Plain
  | .named _ _ _ => True
  | .namespace _ _ _ => True
termination_by structural x => x

/-- No construct whose children are not traversed exactly once. -/
def plainArguments : List (Argument) → Prop
  | [] => True
  | x :: l => x.Plain ∧ plainArguments l
termination_by structural x => x

/-- No construct whose children are not traversed exactly once. -/
def plainArrayElements : List (ArrayElement) → Prop
  | [] => True
  | x :: l => x.Plain ∧ plainArrayElements l
termination_by structural x => x

/-- No construct whose children are not traversed exactly once. -/
def plainBindingElements : List (BindingElement) → Prop
  | [] => True
  | x :: l => x.Plain ∧ plainBindingElements l
termination_by structural x => x

/-- No construct whose children are not traversed exactly once. -/
def plainBindingProps : List (BindingProp) → Prop
  | [] => True
  | x :: l => x.Plain ∧ plainBindingProps l
termination_by structural x => x

/-- No construct whose children are not traversed exactly once. -/
def plainExprs : List (Expr) → Prop
  | [] => True
  | x :: l => x.Plain ∧ plainExprs l
termination_by structural x => x

/-- No construct whose children are not traversed exactly once. -/
def plainMethodDefs : List (MethodDef) → Prop
  | [] => True
  | x :: l => x.Plain ∧ plainMethodDefs l
termination_by structural x => x

/-- No construct whose children are not traversed exactly once. -/
def plainOptBindingElement : Option (BindingElement) → Prop
  | none => True
  | some x => x.Plain
termination_by structural x => x

/-- No construct whose children are not traversed exactly once. -/
def plainOptBindingElements : List (Option (BindingElement)) → Prop
  | [] => True
  | x :: l => plainOptBindingElement x ∧ plainOptBindingElements l
termination_by structural x => x

/-- No construct whose children are not traversed exactly once. -/
def plainOptBindingPattern : Option (BindingPattern) → Prop
  | none => True
  | some x => x.Plain
termination_by structural x => x

/-- No construct whose children are not traversed exactly once. -/
def plainOptBlock : Option (Block) → Prop
  | none => True
  | some x => x.Plain
termination_by structural x => x

/-- No construct whose children are not traversed exactly once. -/
def plainOptCatchClause : Option (CatchClause) → Prop
  | none => True
  | some x => x.Plain
termination_by structural x => x

/-- No construct whose children are not traversed exactly once. -/
def plainOptExpr : Option (Expr) → Prop
  | none => True
  | some x => x.Plain
termination_by structural x => x

/-- No construct whose children are not traversed exactly once. -/
def plainOptForInit : Option (ForInit) → Prop
  | none => True
  | some x => x.Plain
termination_by structural x => x

/-- No construct whose children are not traversed exactly once. -/
def plainOptStmt : Option (Stmt) → Prop
  | none => True
  | some x => x.Plain
termination_by structural x => x

/-- No construct whose children are not traversed exactly once. -/
def plainPropDefs : List (PropDef) → Prop
  | [] => True
  | x :: l => x.Plain ∧ plainPropDefs l
termination_by structural x => x

/-- No construct whose children are not traversed exactly once. -/
def plainStmts : List (Stmt) → Prop
  | [] => True
  | x :: l => x.Plain ∧ plainStmts l
termination_by structural x => x

/-- No construct whose children are not traversed exactly once. -/
def plainSwitchCases : List (SwitchCase) → Prop
  | [] => True
  | x :: l => x.Plain ∧ plainSwitchCases l
termination_by structural x => x

/-- No construct whose children are not traversed exactly once. -/
def plainTemplateParts : List (TemplatePart) → Prop
  | [] => True
  | x :: l => x.Plain ∧ plainTemplateParts l
termination_by structural x => x

/-- No construct whose children are not traversed exactly once. -/
def plainVarDecls : List (VarDecl) → Prop
  | [] => True
  | x :: l => x.Plain ∧ plainVarDecls l
termination_by structural x => x

end

/-- No construct whose children are not traversed exactly once. -/
def Kind.Plain : (k : Kind) → k.Val → Prop
  | .program, x => plainStmts x.body
  | .expr, x => x.Plain
  | .stmt, x => x.Plain
  | .bindingPattern, x => x.Plain
  | .literal, x => x.Plain
  | .litNumber, _ => True
  | .templatePart, x => x.Plain
  | .objectBindingProp, x => x.Plain
  | .propertyName, x => x.Plain
  | .classElement, x => x.Plain
  | .forInit, x => x.Plain
  | .forDeclaration, x => x.Plain
  | .callee, x => x.Plain
  | .argument, x => x.Plain
  | .memberObject, x => x.Plain
  | .super, _ => True
  | .memberProperty, x => x.Plain
  | .arrayElement, x => x.Plain
  | .arrowFunctionBody, x => x.Plain
  | .propertyDefinition, x => x.Plain
  | .binaryOperator, _ => True
  | .logicalOperator, _ => True
  | .assignmentOperator, _ => True
  | .unaryOperator, _ => True
  | .updateOperator, _ => True
  | .declExport, x => x.Plain
  | .patternOrExpr, x => x.Plain
  | .assignmentPattern, _ => False
  | .declFunction, (_, _, _, _, x5, x6) => x5.Plain ∧ x6.Plain
  | .declClass, (_, _, x3, x4) => plainOptExpr x3 ∧ plainMethodDefs x4
  | .declImport, (_, _, x3, x4, _) => x3 = none ∧ x4 = none
  | .stmtExpr, (_, x2) => x2.Plain
  | .stmtBlock, x => x.Plain
  | .exprBinary, (_, _, x3, x4) => x3.Plain ∧ x4.Plain
  | .exprLogical, (_, _, x3, x4) => x3.Plain ∧ x4.Plain
  | .exprUnary, (_, _, x3) => x3.Plain
  | .exprCall, (_, x2, _, x4) => x2.Plain ∧ plainArguments x4
  | .exprMember, (_, x2, x3) => x2.Plain ∧ x3.Plain
  | .exprOptionalMember, (_, x2, x3, _) => x2.Plain ∧ x3.Plain
  | .exprOptionalCall, (_, x2, _, x4, _) => x2.Plain ∧ plainArguments x4
  | .exprParenthesized, (_, x2) => x2.Plain
  | .exprLiteral, (_, x2) => x2.Plain
  | .exprAssignment, (_, _, x3, x4) => x3.Plain ∧ x4.Plain
  | .exprYield, (_, x2, _) => plainOptExpr x2
  | .exprConditional, (_, _, _, _) => False
  | .exprUpdate, (_, _, _, x4) => x4.Plain
  | .exprSequence, (_, x2) => plainExprs x2
  | .exprThis, _ => True
  | .exprFunction, (_, _, _, _, x5, x6) => x5.Plain ∧ x6.Plain
  | .exprNew, (_, x2, _, x4) => x2.Plain ∧ plainArguments x4
  | .exprArrowFunction, (_, _, _, x4, x5) => x4.Plain ∧ x5.Plain
  | .exprAwait, (_, x2) => x2.Plain
  | .exprMetaProperty, (_, _, _) => True
  | .exprClass, (_, _, x3, x4) => plainOptExpr x3 ∧ plainMethodDefs x4
  | .stmtReturn, (_, x2) => plainOptExpr x2
  | .stmtVariable, x => x.Plain
  | .stmtEmpty, _ => True
  | .stmtTry, (_, x2, x3, x4) => x2.Plain ∧ plainOptCatchClause x3 ∧ plainOptBlock x4
  | .stmtDebugger, _ => True
  | .stmtThrow, (_, x2) => x2.Plain
  | .stmtLabeled, (_, _, x3) => x3.Plain
  | .stmtWith, (_, x2, x3) => x2.Plain ∧ x3.Plain
  | .stmtContinue, (_, _) => True
  | .stmtBreak, (_, _) => True
  | .stmtSwitch, (_, x2, x3) => x2.Plain ∧ plainSwitchCases x3
  | .stmtIf, (_, x2, x3, x4) => x2.Plain ∧ x3.Plain ∧ plainOptStmt x4
  | .stmtFor, (_, x2, x3, x4, x5) => plainOptForInit x2 ∧ plainOptExpr x3 ∧ plainOptExpr x4 ∧ x5.Plain
  | .stmtForOf, (_, x2, x3, x4, _) => x2.Plain ∧ x3.Plain ∧ x4.Plain
  | .stmtForIn, (_, x2, x3, x4) => x2.Plain ∧ x3.Plain ∧ x4.Plain
  | .stmtWhile, (_, x2, x3) => x2.Plain ∧ x3.Plain
  | .stmtDoWhile, (_, x2, x3) => x2.Plain ∧ x3.Plain
  | .stmtList, (x1, x2, x3) => plainStmts x3
  | .bindingElement, x => x.Plain
  | .formalParameters, x => x.Plain
  | .variableDeclaration, x => x.Plain
  | .litString, _ => True
  | .litTemplate, x => plainTemplateParts x
  | .litArray, x => plainArrayElements x
  | .litObject, x => plainPropDefs x
  | .arrayBinding, (_, x2, x3) => plainOptBindingElements x2 ∧ plainOptBindingPattern x3
  | .objectBinding, (_, x2, x3) => plainBindingProps x2 ∧ plainOptBindingPattern x3
  | .singleNameBinding, (_, _, x3) => plainOptExpr x3
  | .namedBinding, (_, x2, x3) => x2.Plain ∧ x3.Plain
  | .namedProperty, (_, x2, x3) => x2.Plain ∧ x3.Plain
  | .methodDefinition, x => x.Plain
  | .catchClause, x => x.Plain
  | .switchCase, x => x.Plain
  | .exportDecl, (_, x2) => x2.Plain
  | .exportDefaultDecl, (_, x2) => x2.Plain
  | .exportDefaultExpr, (_, x2) => x2.Plain
  | .exprTaggedTemplate, (_, x2, x3) => x2.Plain ∧ plainTemplateParts x3
  | .exportNamed, (_, _, _) => True
  | .exportNamespace, (_, _, _) => True
  | .namedExport, _ => True
  | .namedImport, _ => True
  | .ident, _ => True
  | .body, x => x.Plain
  | .forBinding, (_, _, _) => False

end Fajt
