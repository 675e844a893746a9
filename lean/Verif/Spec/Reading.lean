import Verif.Model.Traverse
import Verif.Model.Mutate
import Verif.Spec.TreeMaps
/-!
# Visitors that do not change nodes, as visitors that may
-/
namespace Fajt

/-- The trees below the children of the root. -/
def TTree.grandkids (t : TTree) : List TTree := t.kids.flatMap TTree.kids

/-- The node of `Verif.Model.Traverse` for a node: there, a struct that is inlined is represented by the variant. -/
def Kind.node : (k : Kind) → k.Val → Node
  | .program, x => .program x
  | .expr, x => .expr x
  | .stmt, x => .stmt x
  | .bindingPattern, x => .bindingPattern x
  | .literal, x => .literal x
  | .litNumber, x => .number x
  | .templatePart, x => .templatePart x
  | .objectBindingProp, x => .bindingProp x
  | .propertyName, x => .propName x
  | .classElement, x => .classElement x
  | .forInit, x => .forInit x
  | .forDeclaration, x => .forDecl x
  | .callee, x => .callee x
  | .argument, x => .argument x
  | .memberObject, x => .memberObject x
  | .super, x => .super (.super x)
  | .memberProperty, x => .memberProp x
  | .arrayElement, x => .arrayElement x
  | .arrowFunctionBody, x => .arrowBody x
  | .propertyDefinition, x => .propDef x
  | .binaryOperator, x => .binaryOp x
  | .logicalOperator, x => .logicalOp x
  | .assignmentOperator, x => .assignOp x
  | .unaryOperator, x => .unaryOp x
  | .updateOperator, x => .updateOp x
  | .declExport, x => .export x
  | .patternOrExpr, x => .patternOrExpr x
  | .assignmentPattern, x => .assignPattern x
  | .declFunction, (x1, x2, x3, x4, x5, x6) => .stmtNode (.functionDecl x1 x2 x3 x4 x5 x6)
  | .declClass, (x1, x2, x3, x4) => .stmtNode (.classDecl x1 x2 x3 x4)
  | .declImport, (x1, x2, x3, x4, x5) => .stmtNode (.importDecl x1 x2 x3 x4 x5)
  | .stmtExpr, (x1, x2) => .stmtNode (.expr x1 x2)
  | .stmtBlock, x => .block x
  | .exprBinary, (x1, x2, x3, x4) => .exprNode (.binary x1 x2 x3 x4)
  | .exprLogical, (x1, x2, x3, x4) => .exprNode (.logical x1 x2 x3 x4)
  | .exprUnary, (x1, x2, x3) => .exprNode (.unary x1 x2 x3)
  | .exprCall, (x1, x2, x3, x4) => .exprNode (.call x1 x2 x3 x4)
  | .exprMember, (x1, x2, x3) => .exprNode (.member x1 x2 x3)
  | .exprOptionalMember, (x1, x2, x3, x4) => .exprNode (.optMember x1 x2 x3 x4)
  | .exprOptionalCall, (x1, x2, x3, x4, x5) => .exprNode (.optCall x1 x2 x3 x4 x5)
  | .exprParenthesized, (x1, x2) => .exprNode (.paren x1 x2)
  | .exprLiteral, (x1, x2) => .exprNode (.literal x1 x2)
  | .exprAssignment, (x1, x2, x3, x4) => .exprNode (.assign x1 x2 x3 x4)
  | .exprYield, (x1, x2, x3) => .exprNode (.yield x1 x2 x3)
  | .exprConditional, (x1, x2, x3, x4) => .exprNode (.conditional x1 x2 x3 x4)
  | .exprUpdate, (x1, x2, x3, x4) => .exprNode (.update x1 x2 x3 x4)
  | .exprSequence, (x1, x2) => .exprNode (.sequence x1 x2)
  | .exprThis, x1 => .exprNode (.this x1)
  | .exprFunction, (x1, x2, x3, x4, x5, x6) => .exprNode (.function x1 x2 x3 x4 x5 x6)
  | .exprNew, (x1, x2, x3, x4) => .exprNode (.new x1 x2 x3 x4)
  | .exprArrowFunction, (x1, x2, x3, x4, x5) => .exprNode (.arrow x1 x2 x3 x4 x5)
  | .exprAwait, (x1, x2) => .exprNode (.await x1 x2)
  | .exprMetaProperty, (x1, x2, x3) => .exprNode (.metaProp x1 x2 x3)
  | .exprClass, (x1, x2, x3, x4) => .exprNode (.classE x1 x2 x3 x4)
  | .stmtReturn, (x1, x2) => .stmtNode (.return x1 x2)
  | .stmtVariable, x => .varStmt x
  | .stmtEmpty, x1 => .stmtNode (.empty x1)
  | .stmtTry, (x1, x2, x3, x4) => .stmtNode (.try x1 x2 x3 x4)
  | .stmtDebugger, x1 => .stmtNode (.debugger x1)
  | .stmtThrow, (x1, x2) => .stmtNode (.throw x1 x2)
  | .stmtLabeled, (x1, x2, x3) => .stmtNode (.labeled x1 x2 x3)
  | .stmtWith, (x1, x2, x3) => .stmtNode (.with x1 x2 x3)
  | .stmtContinue, (x1, x2) => .stmtNode (.continue x1 x2)
  | .stmtBreak, (x1, x2) => .stmtNode (.break x1 x2)
  | .stmtSwitch, (x1, x2, x3) => .stmtNode (.switch x1 x2 x3)
  | .stmtIf, (x1, x2, x3, x4) => .stmtNode (.if x1 x2 x3 x4)
  | .stmtFor, (x1, x2, x3, x4, x5) => .stmtNode (.for x1 x2 x3 x4 x5)
  | .stmtForOf, (x1, x2, x3, x4, x5) => .stmtNode (.forOf x1 x2 x3 x4 x5)
  | .stmtForIn, (x1, x2, x3, x4) => .stmtNode (.forIn x1 x2 x3 x4)
  | .stmtWhile, (x1, x2, x3) => .stmtNode (.while x1 x2 x3)
  | .stmtDoWhile, (x1, x2, x3) => .stmtNode (.doWhile x1 x2 x3)
  | .stmtList, (x1, x2, x3) => .stmtList x1 x2 x3
  | .bindingElement, x => .bindingElement x
  | .formalParameters, x => .formalParams x
  | .variableDeclaration, x => .varDecl x
  | .litString, x => .string x
  | .litTemplate, x => .template x
  | .litArray, x => .literalNode (.array x)
  | .litObject, x => .literalNode (.object x)
  | .arrayBinding, (x1, x2, x3) => .bindingNode (.array x1 x2 x3)
  | .objectBinding, (x1, x2, x3) => .bindingNode (.object x1 x2 x3)
  | .singleNameBinding, (x1, x2, x3) => .bindingPropNode (.single x1 x2 x3)
  | .namedBinding, (x1, x2, x3) => .bindingPropNode (.named x1 x2 x3)
  | .namedProperty, (x1, x2, x3) => .namedProp (.named x1 x2 x3)
  | .methodDefinition, x => .method x
  | .catchClause, x => .catchClause x
  | .switchCase, x => .switchCase x
  | .exportDecl, (x1, x2) => .exportNode (.decl x1 x2)
  | .exportDefaultDecl, (x1, x2) => .exportNode (.defaultDecl x1 x2)
  | .exportDefaultExpr, (x1, x2) => .exportNode (.defaultExpr x1 x2)
  | .exprTaggedTemplate, (x1, x2, x3) => .exprNode (.tagged x1 x2 x3)
  | .exportNamed, (x1, x2, x3) => .exportNode (.named x1 x2 x3)
  | .exportNamespace, (x1, x2, x3) => .exportNode (.namespace x1 x2 x3)
  | .namedExport, x => .namedExport x
  | .namedImport, x => .namedImport x
  | .ident, x => .ident x
  | .body, x => .body x
  | .forBinding, (x1, x2, x3) => .forBinding (.declaration x1 x2 x3)

/-- The traversal tree of a node. -/
def Kind.tree : (k : Kind) → k.Val → TTree
  | .program, x => x.ttree
  | .expr, x => x.ttree
  | .stmt, x => x.ttree
  | .bindingPattern, x => x.ttree
  | .literal, x => x.ttree
  | .litNumber, x => leaf (.number x)
  | .templatePart, x => x.ttree
  | .objectBindingProp, x => x.ttree
  | .propertyName, x => x.ttree
  | .classElement, x => .node (.classElement x) [x.ttree]
  | .forInit, x => x.ttree
  | .forDeclaration, x => x.ttree
  | .callee, x => x.ttree
  | .argument, x => x.ttree
  | .memberObject, x => x.ttree
  | .super, x => leaf (.super (.super x))
  | .memberProperty, x => x.ttree
  | .arrayElement, x => x.ttree
  | .arrowFunctionBody, x => x.ttree
  | .propertyDefinition, x => x.ttree
  | .binaryOperator, x => leaf (.binaryOp x)
  | .logicalOperator, x => leaf (.logicalOp x)
  | .assignmentOperator, x => leaf (.assignOp x)
  | .unaryOperator, x => leaf (.unaryOp x)
  | .updateOperator, x => leaf (.updateOp x)
  | .declExport, x => x.ttree
  | .patternOrExpr, x => x.ttree
  | .assignmentPattern, x => leaf (.assignPattern x)
  | .declFunction, (x1, x2, x3, x4, x5, x6) => .node (.stmtNode (.functionDecl x1 x2 x3 x4 x5 x6)) (Stmt.ttree (.functionDecl x1 x2 x3 x4 x5 x6)).grandkids
  | .declClass, (x1, x2, x3, x4) => .node (.stmtNode (.classDecl x1 x2 x3 x4)) (Stmt.ttree (.classDecl x1 x2 x3 x4)).grandkids
  | .declImport, (x1, x2, x3, x4, x5) => .node (.stmtNode (.importDecl x1 x2 x3 x4 x5)) (Stmt.ttree (.importDecl x1 x2 x3 x4 x5)).grandkids
  | .stmtExpr, (x1, x2) => .node (.stmtNode (.expr x1 x2)) (Stmt.ttree (.expr x1 x2)).grandkids
  | .stmtBlock, x => x.ttree
  | .exprBinary, (x1, x2, x3, x4) => .node (.exprNode (.binary x1 x2 x3 x4)) (Expr.ttree (.binary x1 x2 x3 x4)).grandkids
  | .exprLogical, (x1, x2, x3, x4) => .node (.exprNode (.logical x1 x2 x3 x4)) (Expr.ttree (.logical x1 x2 x3 x4)).grandkids
  | .exprUnary, (x1, x2, x3) => .node (.exprNode (.unary x1 x2 x3)) (Expr.ttree (.unary x1 x2 x3)).grandkids
  | .exprCall, (x1, x2, x3, x4) => .node (.exprNode (.call x1 x2 x3 x4)) (Expr.ttree (.call x1 x2 x3 x4)).grandkids
  | .exprMember, (x1, x2, x3) => .node (.exprNode (.member x1 x2 x3)) (Expr.ttree (.member x1 x2 x3)).grandkids
  | .exprOptionalMember, (x1, x2, x3, x4) => .node (.exprNode (.optMember x1 x2 x3 x4)) (Expr.ttree (.optMember x1 x2 x3 x4)).grandkids
  | .exprOptionalCall, (x1, x2, x3, x4, x5) => .node (.exprNode (.optCall x1 x2 x3 x4 x5)) (Expr.ttree (.optCall x1 x2 x3 x4 x5)).grandkids
  | .exprParenthesized, (x1, x2) => .node (.exprNode (.paren x1 x2)) (Expr.ttree (.paren x1 x2)).grandkids
  | .exprLiteral, (x1, x2) => .node (.exprNode (.literal x1 x2)) (Expr.ttree (.literal x1 x2)).grandkids
  | .exprAssignment, (x1, x2, x3, x4) => .node (.exprNode (.assign x1 x2 x3 x4)) (Expr.ttree (.assign x1 x2 x3 x4)).grandkids
  | .exprYield, (x1, x2, x3) => .node (.exprNode (.yield x1 x2 x3)) (Expr.ttree (.yield x1 x2 x3)).grandkids
  | .exprConditional, (x1, x2, x3, x4) => .node (.exprNode (.conditional x1 x2 x3 x4)) (Expr.ttree (.conditional x1 x2 x3 x4)).grandkids
  | .exprUpdate, (x1, x2, x3, x4) => .node (.exprNode (.update x1 x2 x3 x4)) (Expr.ttree (.update x1 x2 x3 x4)).grandkids
  | .exprSequence, (x1, x2) => .node (.exprNode (.sequence x1 x2)) (Expr.ttree (.sequence x1 x2)).grandkids
  | .exprThis, x1 => .node (.exprNode (.this x1)) (Expr.ttree (.this x1)).grandkids
  | .exprFunction, (x1, x2, x3, x4, x5, x6) => .node (.exprNode (.function x1 x2 x3 x4 x5 x6)) (Expr.ttree (.function x1 x2 x3 x4 x5 x6)).grandkids
  | .exprNew, (x1, x2, x3, x4) => .node (.exprNode (.new x1 x2 x3 x4)) (Expr.ttree (.new x1 x2 x3 x4)).grandkids
  | .exprArrowFunction, (x1, x2, x3, x4, x5) => .node (.exprNode (.arrow x1 x2 x3 x4 x5)) (Expr.ttree (.arrow x1 x2 x3 x4 x5)).grandkids
  | .exprAwait, (x1, x2) => .node (.exprNode (.await x1 x2)) (Expr.ttree (.await x1 x2)).grandkids
  | .exprMetaProperty, (x1, x2, x3) => .node (.exprNode (.metaProp x1 x2 x3)) (Expr.ttree (.metaProp x1 x2 x3)).grandkids
  | .exprClass, (x1, x2, x3, x4) => .node (.exprNode (.classE x1 x2 x3 x4)) (Expr.ttree (.classE x1 x2 x3 x4)).grandkids
  | .stmtReturn, (x1, x2) => .node (.stmtNode (.return x1 x2)) (Stmt.ttree (.return x1 x2)).grandkids
  | .stmtVariable, x => x.ttree
  | .stmtEmpty, x1 => .node (.stmtNode (.empty x1)) (Stmt.ttree (.empty x1)).grandkids
  | .stmtTry, (x1, x2, x3, x4) => .node (.stmtNode (.try x1 x2 x3 x4)) (Stmt.ttree (.try x1 x2 x3 x4)).grandkids
  | .stmtDebugger, x1 => .node (.stmtNode (.debugger x1)) (Stmt.ttree (.debugger x1)).grandkids
  | .stmtThrow, (x1, x2) => .node (.stmtNode (.throw x1 x2)) (Stmt.ttree (.throw x1 x2)).grandkids
  | .stmtLabeled, (x1, x2, x3) => .node (.stmtNode (.labeled x1 x2 x3)) (Stmt.ttree (.labeled x1 x2 x3)).grandkids
  | .stmtWith, (x1, x2, x3) => .node (.stmtNode (.with x1 x2 x3)) (Stmt.ttree (.with x1 x2 x3)).grandkids
  | .stmtContinue, (x1, x2) => .node (.stmtNode (.continue x1 x2)) (Stmt.ttree (.continue x1 x2)).grandkids
  | .stmtBreak, (x1, x2) => .node (.stmtNode (.break x1 x2)) (Stmt.ttree (.break x1 x2)).grandkids
  | .stmtSwitch, (x1, x2, x3) => .node (.stmtNode (.switch x1 x2 x3)) (Stmt.ttree (.switch x1 x2 x3)).grandkids
  | .stmtIf, (x1, x2, x3, x4) => .node (.stmtNode (.if x1 x2 x3 x4)) (Stmt.ttree (.if x1 x2 x3 x4)).grandkids
  | .stmtFor, (x1, x2, x3, x4, x5) => .node (.stmtNode (.for x1 x2 x3 x4 x5)) (Stmt.ttree (.for x1 x2 x3 x4 x5)).grandkids
  | .stmtForOf, (x1, x2, x3, x4, x5) => .node (.stmtNode (.forOf x1 x2 x3 x4 x5)) (Stmt.ttree (.forOf x1 x2 x3 x4 x5)).grandkids
  | .stmtForIn, (x1, x2, x3, x4) => .node (.stmtNode (.forIn x1 x2 x3 x4)) (Stmt.ttree (.forIn x1 x2 x3 x4)).grandkids
  | .stmtWhile, (x1, x2, x3) => .node (.stmtNode (.while x1 x2 x3)) (Stmt.ttree (.while x1 x2 x3)).grandkids
  | .stmtDoWhile, (x1, x2, x3) => .node (.stmtNode (.doWhile x1 x2 x3)) (Stmt.ttree (.doWhile x1 x2 x3)).grandkids
  | .stmtList, (x1, x2, x3) => .node (.stmtList x1 x2 x3) (x2.map (fun d => leaf (.string d)) ++ stmtTrees x3)
  | .bindingElement, x => x.ttree
  | .formalParameters, x => x.ttree
  | .variableDeclaration, x => x.ttree
  | .litString, x => leaf (.string x)
  | .litTemplate, x => .node (.template x) (partTrees x)
  | .litArray, x => .node (.literalNode (.array x)) (arrayElementTrees x)
  | .litObject, x => .node (.literalNode (.object x)) (propDefTrees x)
  | .arrayBinding, (x1, x2, x3) => .node (.bindingNode (.array x1 x2 x3)) (BindingPattern.ttree (.array x1 x2 x3)).grandkids
  | .objectBinding, (x1, x2, x3) => .node (.bindingNode (.object x1 x2 x3)) (BindingPattern.ttree (.object x1 x2 x3)).grandkids
  | .singleNameBinding, (x1, x2, x3) => .node (.bindingPropNode (.single x1 x2 x3)) (BindingProp.ttree (.single x1 x2 x3)).grandkids
  | .namedBinding, (x1, x2, x3) => .node (.bindingPropNode (.named x1 x2 x3)) (BindingProp.ttree (.named x1 x2 x3)).grandkids
  | .namedProperty, (x1, x2, x3) => .node (.namedProp (.named x1 x2 x3)) (PropDef.ttree (.named x1 x2 x3)).grandkids
  | .methodDefinition, x => x.ttree
  | .catchClause, x => x.ttree
  | .switchCase, x => x.ttree
  | .exportDecl, (x1, x2) => .node (.exportNode (.decl x1 x2)) (ExportDecl.ttree (.decl x1 x2)).grandkids
  | .exportDefaultDecl, (x1, x2) => .node (.exportNode (.defaultDecl x1 x2)) (ExportDecl.ttree (.defaultDecl x1 x2)).grandkids
  | .exportDefaultExpr, (x1, x2) => .node (.exportNode (.defaultExpr x1 x2)) (ExportDecl.ttree (.defaultExpr x1 x2)).grandkids
  | .exprTaggedTemplate, (x1, x2, x3) => .node (.exprNode (.tagged x1 x2 x3)) (Expr.ttree (.tagged x1 x2 x3)).grandkids
  | .exportNamed, (x1, x2, x3) => .node (.exportNode (.named x1 x2 x3)) (ExportDecl.ttree (.named x1 x2 x3)).grandkids
  | .exportNamespace, (x1, x2, x3) => .node (.exportNode (.namespace x1 x2 x3)) (ExportDecl.ttree (.namespace x1 x2 x3)).grandkids
  | .namedExport, x => x.ttree
  | .namedImport, x => x.ttree
  | .ident, x => leaf (.ident x)
  | .body, x => x.ttree
  | .forBinding, (x1, x2, x3) => .node (.forBinding (.declaration x1 x2 x3)) (ForDecl.ttree (.declaration x1 x2 x3)).grandkids

/-- A visitor of `Verif.Model.Traverse` as one that could change nodes, but does not. -/
def Visitor.reading {σ : Type} (v : Visitor σ) : MVisitor σ where
  enter k a s := ((v.enter (k.node a) s).1, a, (v.enter (k.node a) s).2)
  exit k a s := (a, v.exit (k.node a) s)

end Fajt
