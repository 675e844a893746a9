import Verif.Spec.AllSpans
import Verif.Proofs.SerdeBase
/-!
# Deserialising what was serialised

Written by `tools/gen_serde.py`.
-/
set_option linter.unusedVariables false
namespace Fajt
open Serde


mutual

theorem Expr.trip : (x : Expr) → x.AllSpans Small → decode x.toJson (.enum .Expr) = .ok x
  | .arrow x1 x2 x3 x4 x5, h => new_ok (e := .Expr) (k := c!"ArrowFunction") (t := .struct .ExprArrowFunction) (f := id) rfl (struct_ok (s := .ExprArrowFunction) (r := (x1, x2, x3, x4, x5, ())) (.cons (span_trip h.1) (.cons rfl (.cons rfl (.cons (x4.trip h.2.1) (.cons (x5.trip h.2.2) .nil))))) (by decide))
  | .assign x1 x2 x3 x4, h => new_ok (e := .Expr) (k := c!"Assignment") (t := .struct .ExprAssignment) (f := id) rfl (struct_ok (s := .ExprAssignment) (r := (x1, x2, x3, x4, ())) (.cons (span_trip h.1) (.cons (x2.trip) (.cons (x3.trip h.2.1) (.cons (x4.trip h.2.2) .nil)))) (by decide))
  | .await x1 x2, h => new_ok (e := .Expr) (k := c!"Await") (t := .struct .ExprAwait) (f := id) rfl (struct_ok (s := .ExprAwait) (r := (x1, x2, ())) (.cons (span_trip h.1) (.cons (x2.trip h.2) .nil)) (by decide))
  | .binary x1 x2 x3 x4, h => new_ok (e := .Expr) (k := c!"Binary") (t := .struct .ExprBinary) (f := id) rfl (struct_ok (s := .ExprBinary) (r := (x1, x2, x3, x4, ())) (.cons (span_trip h.1) (.cons (x2.trip) (.cons (x3.trip h.2.1) (.cons (x4.trip h.2.2) .nil)))) (by decide))
  | .call x1 x2 x3 x4, h => new_ok (e := .Expr) (k := c!"Call") (t := .struct .ExprCall) (f := id) rfl (struct_ok (s := .ExprCall) (r := (x1, x2, x3, x4, ())) (.cons (span_trip h.1) (.cons (x2.trip h.2.1) (.cons (span_trip h.2.2.1) (.cons (arr_trip (tripArguments x4 h.2.2.2)) .nil)))) (by decide))
  | .classE x1 x2 x3 x4, h => new_ok (e := .Expr) (k := c!"Class") (t := .struct .ExprClass) (f := id) rfl (struct_ok (s := .ExprClass) (r := (x1, x2, x3, x4, ())) (.cons (span_trip h.1) (.cons (optIdent_trip x2 h.2.1) (.cons (tripOptExpr x3 h.2.2.1) (.cons (arr_trip (tripMethodDefs x4 h.2.2.2)) .nil)))) (by decide))
  | .conditional x1 x2 x3 x4, h => new_ok (e := .Expr) (k := c!"Conditional") (t := .struct .ExprConditional) (f := id) rfl (struct_ok (s := .ExprConditional) (r := (x1, x2, x3, x4, ())) (.cons (span_trip h.1) (.cons (x2.trip h.2.1) (.cons (x3.trip h.2.2.1) (.cons (x4.trip h.2.2.2) .nil)))) (by decide))
  | .function x1 x2 x3 x4 x5 x6, h => new_ok (e := .Expr) (k := c!"Function") (t := .struct .ExprFunction) (f := id) rfl (struct_ok (s := .ExprFunction) (r := (x1, x2, x3, x4, x5, x6, ())) (.cons (span_trip h.1) (.cons rfl (.cons rfl (.cons (optIdent_trip x4 h.2.1) (.cons (x5.trip h.2.2.1) (.cons (x6.trip h.2.2.2) .nil)))))) (by decide))
  | .ident x1, h => new_ok (e := .Expr) (k := c!"IdentRef") (t := .struct .Ident) (f := .ident) rfl (x1.trip h)
  | .literal x1 x2, h => new_ok (e := .Expr) (k := c!"Literal") (t := .struct .ExprLiteral) (f := id) rfl (struct_ok (s := .ExprLiteral) (r := (x1, x2, ())) (.cons (span_trip h.1) (.cons (x2.trip h.2) .nil)) (by decide))
  | .logical x1 x2 x3 x4, h => new_ok (e := .Expr) (k := c!"Logical") (t := .struct .ExprLogical) (f := id) rfl (struct_ok (s := .ExprLogical) (r := (x1, x2, x3, x4, ())) (.cons (span_trip h.1) (.cons (x2.trip) (.cons (x3.trip h.2.1) (.cons (x4.trip h.2.2) .nil)))) (by decide))
  | .member x1 x2 x3, h => new_ok (e := .Expr) (k := c!"Member") (t := .struct .ExprMember) (f := id) rfl (struct_ok (s := .ExprMember) (r := (x1, x2, x3, ())) (.cons (span_trip h.1) (.cons (x2.trip h.2.1) (.cons (x3.trip h.2.2) .nil))) (by decide))
  | .metaProp x1 x2 x3, h => new_ok (e := .Expr) (k := c!"MetaProperty") (t := .struct .ExprMetaProperty) (f := id) rfl (struct_ok (s := .ExprMetaProperty) (r := (x1, x2, x3, ())) (.cons (span_trip h.1) (.cons (x2.trip h.2.1) (.cons (x3.trip h.2.2) .nil))) (by decide))
  | .new x1 x2 x3 x4, h => new_ok (e := .Expr) (k := c!"New") (t := .struct .ExprNew) (f := id) rfl (struct_ok (s := .ExprNew) (r := (x1, x2, x3, x4, ())) (.cons (span_trip h.1) (.cons (x2.trip h.2.1) (.cons (optSpan_trip x3 h.2.2.1) (.cons (arr_trip (tripArguments x4 h.2.2.2)) .nil)))) (by decide))
  | .optCall x1 x2 x3 x4 x5, h => new_ok (e := .Expr) (k := c!"OptionalCall") (t := .struct .ExprOptionalCall) (f := id) rfl (struct_ok (s := .ExprOptionalCall) (r := (x1, x2, x3, x4, x5, ())) (.cons (span_trip h.1) (.cons (x2.trip h.2.1) (.cons (span_trip h.2.2.1) (.cons (arr_trip (tripArguments x4 h.2.2.2)) (.cons rfl .nil))))) (by decide))
  | .optMember x1 x2 x3 x4, h => new_ok (e := .Expr) (k := c!"OptionalMember") (t := .struct .ExprOptionalMember) (f := id) rfl (struct_ok (s := .ExprOptionalMember) (r := (x1, x2, x3, x4, ())) (.cons (span_trip h.1) (.cons (x2.trip h.2.1) (.cons (x3.trip h.2.2) (.cons rfl .nil)))) (by decide))
  | .paren x1 x2, h => new_ok (e := .Expr) (k := c!"Parenthesized") (t := .struct .ExprParenthesized) (f := id) rfl (struct_ok (s := .ExprParenthesized) (r := (x1, x2, ())) (.cons (span_trip h.1) (.cons (x2.trip h.2) .nil)) (by decide))
  | .sequence x1 x2, h => new_ok (e := .Expr) (k := c!"Sequence") (t := .struct .ExprSequence) (f := id) rfl (struct_ok (s := .ExprSequence) (r := (x1, x2, ())) (.cons (span_trip h.1) (.cons (arr_trip (tripExprs x2 h.2)) .nil)) (by decide))
  | .tagged x1 x2 x3, h => new_ok (e := .Expr) (k := c!"TaggedTemplate") (t := .struct .ExprTaggedTemplate) (f := id) rfl (struct_ok (s := .ExprTaggedTemplate) (r := (x1, x2, x3, ())) (.cons (span_trip h.1) (.cons (x2.trip h.2.1) (.cons (struct_ok (s := .LitTemplate) (r := (x3, ())) (.cons (arr_trip (tripTemplateParts x3 h.2.2)) .nil) (by decide)) .nil))) (by decide))
  | .this x1, h => new_ok (e := .Expr) (k := c!"This") (t := .struct .ExprThis) (f := id) rfl (struct_ok (s := .ExprThis) (r := (x1, ())) (.cons (span_trip h) .nil) (by decide))
  | .unary x1 x2 x3, h => new_ok (e := .Expr) (k := c!"Unary") (t := .struct .ExprUnary) (f := id) rfl (struct_ok (s := .ExprUnary) (r := (x1, x2, x3, ())) (.cons (span_trip h.1) (.cons (x2.trip) (.cons (x3.trip h.2) .nil))) (by decide))
  | .update x1 x2 x3 x4, h => new_ok (e := .Expr) (k := c!"Update") (t := .struct .ExprUpdate) (f := id) rfl (struct_ok (s := .ExprUpdate) (r := (x1, x2, x3, x4, ())) (.cons (span_trip h.1) (.cons (x2.trip) (.cons rfl (.cons (x4.trip h.2) .nil)))) (by decide))
  | .yield x1 x2 x3, h => new_ok (e := .Expr) (k := c!"Yield") (t := .struct .ExprYield) (f := id) rfl (struct_ok (s := .ExprYield) (r := (x1, x2, x3, ())) (.cons (span_trip h.1) (.cons (tripOptExpr x2 h.2) (.cons rfl .nil))) (by decide))
termination_by structural x => x

theorem Literal.trip : (x : Literal) → x.AllSpans Small → decode x.toJson (.enum .Literal) = .ok x
  | .null, h => unit_ok (e := .Literal) rfl
  | .boolean x1, h => new_ok (e := .Literal) (k := c!"Boolean") (t := .bool) (f := .boolean) rfl rfl
  | .string x1, h => new_ok (e := .Literal) (k := c!"String") (t := .struct .LitString) (f := .string) rfl (litString_trip x1)
  | .number x1, h => new_ok (e := .Literal) (k := c!"Number") (t := .struct .LitNumber) (f := .number) rfl (number_trip x1)
  | .array x1, h => new_ok (e := .Literal) (k := c!"Array") (t := .struct .LitArray) (f := .array) rfl (struct_ok (s := .LitArray) (r := (x1, ())) (.cons (arr_trip (tripArrayElements x1 h)) .nil) (by decide))
  | .object x1, h => new_ok (e := .Literal) (k := c!"Object") (t := .struct .LitObject) (f := .object) rfl (struct_ok (s := .LitObject) (r := (x1, ())) (.cons (arr_trip (tripPropDefs x1 h)) .nil) (by decide))
  | .regexp x1, h => new_ok (e := .Literal) (k := c!"Regexp") (t := .string) (f := .regexp) rfl rfl
  | .template x1, h => new_ok (e := .Literal) (k := c!"Template") (t := .struct .LitTemplate) (f := .template) rfl (struct_ok (s := .LitTemplate) (r := (x1, ())) (.cons (arr_trip (tripTemplateParts x1 h)) .nil) (by decide))
termination_by structural x => x

theorem TemplatePart.trip : (x : TemplatePart) → x.AllSpans Small → decode x.toJson (.enum .TemplatePart) = .ok x
  | .string x1, h => new_ok (e := .TemplatePart) (k := c!"String") (t := .string) (f := .string) rfl rfl
  | .expr x1, h => new_ok (e := .TemplatePart) (k := c!"Expr") (t := .enum .Expr) (f := .expr) rfl (x1.trip h)
termination_by structural x => x

theorem ArrayElement.trip : (x : ArrayElement) → x.AllSpans Small → decode x.toJson (.enum .ArrayElement) = .ok x
  | .elision, h => unit_ok (e := .ArrayElement) rfl
  | .expr x1, h => new_ok (e := .ArrayElement) (k := c!"Expr") (t := .enum .Expr) (f := .expr) rfl (x1.trip h)
  | .spread x1, h => new_ok (e := .ArrayElement) (k := c!"Spread") (t := .enum .Expr) (f := .spread) rfl (x1.trip h)
termination_by structural x => x

theorem PropDef.trip : (x : PropDef) → x.AllSpans Small → decode x.toJson (.enum .PropertyDefinition) = .ok x
  | .identRef x1, h => new_ok (e := .PropertyDefinition) (k := c!"IdentRef") (t := .struct .Ident) (f := .identRef) rfl (x1.trip h)
  | .spread x1, h => new_ok (e := .PropertyDefinition) (k := c!"Spread") (t := .enum .Expr) (f := .spread) rfl (x1.trip h)
  | .named x1 x2 x3, h => new_ok (e := .PropertyDefinition) (k := c!"Named") (t := .struct .NamedProperty) (f := id) rfl (struct_ok (s := .NamedProperty) (r := (x1, x2, x3, ())) (.cons (span_trip h.1) (.cons (x2.trip h.2.1) (.cons (x3.trip h.2.2) .nil))) (by decide))
  | .method x1, h => new_ok (e := .PropertyDefinition) (k := c!"Method") (t := .struct .MethodDefinition) (f := .method) rfl (x1.trip h)
termination_by structural x => x

theorem PropName.trip : (x : PropName) → x.AllSpans Small → decode x.toJson (.enum .PropertyName) = .ok x
  | .ident x1, h => new_ok (e := .PropertyName) (k := c!"Ident") (t := .struct .Ident) (f := .ident) rfl (x1.trip h)
  | .string x1, h => new_ok (e := .PropertyName) (k := c!"String") (t := .struct .LitString) (f := .string) rfl (litString_trip x1)
  | .number x1, h => new_ok (e := .PropertyName) (k := c!"Number") (t := .struct .LitNumber) (f := .number) rfl (number_trip x1)
  | .computed x1, h => new_ok (e := .PropertyName) (k := c!"Computed") (t := .enum .Expr) (f := .computed) rfl (x1.trip h)
termination_by structural x => x

theorem MethodDef.trip : (x : MethodDef) → x.AllSpans Small → decode x.toJson (.struct .MethodDefinition) = .ok x
  | .mk x1 x2 x3 x4 x5 x6 x7 x8, h => struct_ok (s := .MethodDefinition) (r := (x1, x2, x3, x4, x5, x6, x7, x8, ())) (.cons (span_trip h.1) (.cons (x2.trip h.2.1) (.cons (x3.trip) (.cons (x4.trip h.2.2.1) (.cons (x5.trip h.2.2.2) (.cons rfl (.cons rfl (.cons rfl .nil)))))))) (by decide)
termination_by structural x => x

theorem FormalParams.trip : (x : FormalParams) → x.AllSpans Small → decode x.toJson (.struct .FormalParameters) = .ok x
  | .mk x1 x2 x3, h => struct_ok (s := .FormalParameters) (r := (x1, x2, x3, ())) (.cons (span_trip h.1) (.cons (arr_trip (tripBindingElements x2 h.2.1)) (.cons (tripOptBindingPattern x3 h.2.2) .nil))) (by decide)
termination_by structural x => x

theorem Body.trip : (x : Body) → x.AllSpans Small → decode x.toJson (.struct .Body) = .ok x
  | .mk x1 x2 x3, h => struct_ok (s := .Body) (r := (x1, x2, x3, ())) (.cons (span_trip h.1) (.cons (litStrings_trip x2) (.cons (arr_trip (tripStmts x3 h.2)) .nil))) (by decide)
termination_by structural x => x

theorem ArrowBody.trip : (x : ArrowBody) → x.AllSpans Small → decode x.toJson (.enum .ArrowFunctionBody) = .ok x
  | .expr x1, h => new_ok (e := .ArrowFunctionBody) (k := c!"Expr") (t := .enum .Expr) (f := .expr) rfl (x1.trip h)
  | .body x1, h => new_ok (e := .ArrowFunctionBody) (k := c!"Body") (t := .struct .Body) (f := .body) rfl (x1.trip h)
termination_by structural x => x

theorem MemberObject.trip : (x : MemberObject) → x.AllSpans Small → decode x.toJson (.enum .MemberObject) = .ok x
  | .expr x1, h => new_ok (e := .MemberObject) (k := c!"Expr") (t := .enum .Expr) (f := .expr) rfl (x1.trip h)
  | .super x1, h => new_ok (e := .MemberObject) (k := c!"Super") (t := .struct .Super) (f := .super) rfl (super_trip h)
termination_by structural x => x

theorem MemberProp.trip : (x : MemberProp) → x.AllSpans Small → decode x.toJson (.enum .MemberProperty) = .ok x
  | .ident x1, h => new_ok (e := .MemberProperty) (k := c!"Ident") (t := .struct .Ident) (f := .ident) rfl (x1.trip h)
  | .expr x1, h => new_ok (e := .MemberProperty) (k := c!"Expr") (t := .enum .Expr) (f := .expr) rfl (x1.trip h)
termination_by structural x => x

theorem Argument.trip : (x : Argument) → x.AllSpans Small → decode x.toJson (.enum .Argument) = .ok x
  | .expr x1, h => new_ok (e := .Argument) (k := c!"Expr") (t := .enum .Expr) (f := .expr) rfl (x1.trip h)
  | .spread x1, h => new_ok (e := .Argument) (k := c!"Spread") (t := .enum .Expr) (f := .spread) rfl (x1.trip h)
termination_by structural x => x

theorem Callee.trip : (x : Callee) → x.AllSpans Small → decode x.toJson (.enum .Callee) = .ok x
  | .super, h => unit_ok (e := .Callee) rfl
  | .import, h => unit_ok (e := .Callee) rfl
  | .expr x1, h => new_ok (e := .Callee) (k := c!"Expr") (t := .enum .Expr) (f := .expr) rfl (x1.trip h)
termination_by structural x => x

theorem BindingPattern.trip : (x : BindingPattern) → x.AllSpans Small → decode x.toJson (.enum .BindingPattern) = .ok x
  | .ident x1, h => new_ok (e := .BindingPattern) (k := c!"Ident") (t := .struct .Ident) (f := .ident) rfl (x1.trip h)
  | .array x1 x2 x3, h => new_ok (e := .BindingPattern) (k := c!"Array") (t := .struct .ArrayBinding) (f := id) rfl (struct_ok (s := .ArrayBinding) (r := (x1, x2, x3, ())) (.cons (span_trip h.1) (.cons (arr_trip (tripOptBindingElements x2 h.2.1)) (.cons (tripOptBindingPattern x3 h.2.2) .nil))) (by decide))
  | .object x1 x2 x3, h => new_ok (e := .BindingPattern) (k := c!"Object") (t := .struct .ObjectBinding) (f := id) rfl (struct_ok (s := .ObjectBinding) (r := (x1, x2, x3, ())) (.cons (span_trip h.1) (.cons (arr_trip (tripBindingProps x2 h.2.1)) (.cons (tripOptBindingPattern x3 h.2.2) .nil))) (by decide))
termination_by structural x => x

theorem BindingProp.trip : (x : BindingProp) → x.AllSpans Small → decode x.toJson (.enum .ObjectBindingProp) = .ok x
  | .single x1 x2 x3, h => new_ok (e := .ObjectBindingProp) (k := c!"Single") (t := .struct .SingleNameBinding) (f := id) rfl (struct_ok (s := .SingleNameBinding) (r := (x1, x2, x3, ())) (.cons (span_trip h.1) (.cons (x2.trip h.2.1) (.cons (tripOptExpr x3 h.2.2) .nil))) (by decide))
  | .named x1 x2 x3, h => new_ok (e := .ObjectBindingProp) (k := c!"Named") (t := .struct .NamedBinding) (f := id) rfl (struct_ok (s := .NamedBinding) (r := (x1, x2, x3, ())) (.cons (span_trip h.1) (.cons (x2.trip h.2.1) (.cons (x3.trip h.2.2) .nil))) (by decide))
termination_by structural x => x

theorem BindingElement.trip : (x : BindingElement) → x.AllSpans Small → decode x.toJson (.struct .BindingElement) = .ok x
  | .mk x1 x2 x3, h => struct_ok (s := .BindingElement) (r := (x1, x2, x3, ())) (.cons (span_trip h.1) (.cons (x2.trip h.2.1) (.cons (tripOptExpr x3 h.2.2) .nil))) (by decide)
termination_by structural x => x

theorem PatternOrExpr.trip : (x : PatternOrExpr) → x.AllSpans Small → decode x.toJson (.enum .PatternOrExpr) = .ok x
  | .expr x1, h => new_ok (e := .PatternOrExpr) (k := c!"Expr") (t := .enum .Expr) (f := .expr) rfl (x1.trip h)
  | .pattern x1, h => new_ok (e := .PatternOrExpr) (k := c!"AssignmentPattern") (t := .enum .AssignmentPattern) (f := .pattern) rfl (x1.trip h)
termination_by structural x => x

theorem AssignPattern.trip : (x : AssignPattern) → x.AllSpans Small → decode x.toJson (.enum .AssignmentPattern) = .ok x
  | .array x1 x2 x3, h => new_ok (e := .AssignmentPattern) (k := c!"Array") (t := .struct .ArrayAssignmentPattern) (f := id) rfl (struct_ok (s := .ArrayAssignmentPattern) (r := (x1, x2, x3, ())) (.cons (span_trip h.1) (.cons (arr_trip (tripOptAssignElements x2 h.2.1)) (.cons (tripOptPatternOrExpr x3 h.2.2) .nil))) (by decide))
  | .object x1 x2 x3, h => new_ok (e := .AssignmentPattern) (k := c!"Object") (t := .struct .ObjectAssignmentPattern) (f := id) rfl (struct_ok (s := .ObjectAssignmentPattern) (r := (x1, x2, x3, ())) (.cons (span_trip h.1) (.cons (arr_trip (tripAssignProps x2 h.2.1)) (.cons (tripOptPatternOrExpr x3 h.2.2) .nil))) (by decide))
termination_by structural x => x

theorem AssignElement.trip : (x : AssignElement) → x.AllSpans Small → decode x.toJson (.struct .AssignmentElement) = .ok x
  | .mk x1 x2 x3, h => struct_ok (s := .AssignmentElement) (r := (x1, x2, x3, ())) (.cons (span_trip h.1) (.cons (x2.trip h.2.1) (.cons (tripOptExpr x3 h.2.2) .nil))) (by decide)
termination_by structural x => x

theorem AssignProp.trip : (x : AssignProp) → x.AllSpans Small → decode x.toJson (.enum .AssignmentProp) = .ok x
  | .single x1 x2 x3, h => new_ok (e := .AssignmentProp) (k := c!"Single") (t := .struct .SingleNameAssignmentProp) (f := id) rfl (struct_ok (s := .SingleNameAssignmentProp) (r := (x1, x2, x3, ())) (.cons (span_trip h.1) (.cons (x2.trip h.2.1) (.cons (tripOptExpr x3 h.2.2) .nil))) (by decide))
  | .named x1 x2 x3 x4, h => new_ok (e := .AssignmentProp) (k := c!"Named") (t := .struct .NamedAssignmentProp) (f := id) rfl (struct_ok (s := .NamedAssignmentProp) (r := (x1, x2, x3, x4, ())) (.cons (span_trip h.1) (.cons (x2.trip h.2.1) (.cons (x3.trip h.2.2.1) (.cons (tripOptExpr x4 h.2.2.2) .nil)))) (by decide))
termination_by structural x => x

theorem Stmt.trip : (x : Stmt) → x.AllSpans Small → decode x.toJson (.enum .Stmt) = .ok x
  | .block x1, h => new_ok (e := .Stmt) (k := c!"Block") (t := .struct .StmtBlock) (f := .block) rfl (x1.trip h)
  | .break x1 x2, h => new_ok (e := .Stmt) (k := c!"Break") (t := .struct .StmtBreak) (f := id) rfl (struct_ok (s := .StmtBreak) (r := (x1, x2, ())) (.cons (span_trip h.1) (.cons (optIdent_trip x2 h.2) .nil)) (by decide))
  | .continue x1 x2, h => new_ok (e := .Stmt) (k := c!"Continue") (t := .struct .StmtContinue) (f := id) rfl (struct_ok (s := .StmtContinue) (r := (x1, x2, ())) (.cons (span_trip h.1) (.cons (optIdent_trip x2 h.2) .nil)) (by decide))
  | .debugger x1, h => new_ok (e := .Stmt) (k := c!"Debugger") (t := .struct .StmtDebugger) (f := id) rfl (struct_ok (s := .StmtDebugger) (r := (x1, ())) (.cons (span_trip h) .nil) (by decide))
  | .doWhile x1 x2 x3, h => new_ok (e := .Stmt) (k := c!"DoWhile") (t := .struct .StmtDoWhile) (f := id) rfl (struct_ok (s := .StmtDoWhile) (r := (x1, x2, x3, ())) (.cons (span_trip h.1) (.cons (x2.trip h.2.1) (.cons (x3.trip h.2.2) .nil))) (by decide))
  | .empty x1, h => new_ok (e := .Stmt) (k := c!"Empty") (t := .struct .StmtEmpty) (f := id) rfl (struct_ok (s := .StmtEmpty) (r := (x1, ())) (.cons (span_trip h) .nil) (by decide))
  | .expr x1 x2, h => new_ok (e := .Stmt) (k := c!"Expr") (t := .struct .StmtExpr) (f := id) rfl (struct_ok (s := .StmtExpr) (r := (x1, x2, ())) (.cons (span_trip h.1) (.cons (x2.trip h.2) .nil)) (by decide))
  | .for x1 x2 x3 x4 x5, h => new_ok (e := .Stmt) (k := c!"For") (t := .struct .StmtFor) (f := id) rfl (struct_ok (s := .StmtFor) (r := (x1, x2, x3, x4, x5, ())) (.cons (span_trip h.1) (.cons (tripOptForInit x2 h.2.1) (.cons (tripOptExpr x3 h.2.2.1) (.cons (tripOptExpr x4 h.2.2.2.1) (.cons (x5.trip h.2.2.2.2) .nil))))) (by decide))
  | .forIn x1 x2 x3 x4, h => new_ok (e := .Stmt) (k := c!"ForIn") (t := .struct .StmtForIn) (f := id) rfl (struct_ok (s := .StmtForIn) (r := (x1, x2, x3, x4, ())) (.cons (span_trip h.1) (.cons (x2.trip h.2.1) (.cons (x3.trip h.2.2.1) (.cons (x4.trip h.2.2.2) .nil)))) (by decide))
  | .forOf x1 x2 x3 x4 x5, h => new_ok (e := .Stmt) (k := c!"ForOf") (t := .struct .StmtForOf) (f := id) rfl (struct_ok (s := .StmtForOf) (r := (x1, x2, x3, x4, x5, ())) (.cons (span_trip h.1) (.cons (x2.trip h.2.1) (.cons (x3.trip h.2.2.1) (.cons (x4.trip h.2.2.2) (.cons rfl .nil))))) (by decide))
  | .if x1 x2 x3 x4, h => new_ok (e := .Stmt) (k := c!"If") (t := .struct .StmtIf) (f := id) rfl (struct_ok (s := .StmtIf) (r := (x1, x2, x3, x4, ())) (.cons (span_trip h.1) (.cons (x2.trip h.2.1) (.cons (x3.trip h.2.2.1) (.cons (tripOptStmt x4 h.2.2.2) .nil)))) (by decide))
  | .labeled x1 x2 x3, h => new_ok (e := .Stmt) (k := c!"Labeled") (t := .struct .StmtLabeled) (f := id) rfl (struct_ok (s := .StmtLabeled) (r := (x1, x2, x3, ())) (.cons (span_trip h.1) (.cons (x2.trip h.2.1) (.cons (x3.trip h.2.2) .nil))) (by decide))
  | .return x1 x2, h => new_ok (e := .Stmt) (k := c!"Return") (t := .struct .StmtReturn) (f := id) rfl (struct_ok (s := .StmtReturn) (r := (x1, x2, ())) (.cons (span_trip h.1) (.cons (tripOptExpr x2 h.2) .nil)) (by decide))
  | .switch x1 x2 x3, h => new_ok (e := .Stmt) (k := c!"Switch") (t := .struct .StmtSwitch) (f := id) rfl (struct_ok (s := .StmtSwitch) (r := (x1, x2, x3, ())) (.cons (span_trip h.1) (.cons (x2.trip h.2.1) (.cons (arr_trip (tripSwitchCases x3 h.2.2)) .nil))) (by decide))
  | .throw x1 x2, h => new_ok (e := .Stmt) (k := c!"Throw") (t := .struct .StmtThrow) (f := id) rfl (struct_ok (s := .StmtThrow) (r := (x1, x2, ())) (.cons (span_trip h.1) (.cons (x2.trip h.2) .nil)) (by decide))
  | .try x1 x2 x3 x4, h => new_ok (e := .Stmt) (k := c!"Try") (t := .struct .StmtTry) (f := id) rfl (struct_ok (s := .StmtTry) (r := (x1, x2, x3, x4, ())) (.cons (span_trip h.1) (.cons (x2.trip h.2.1) (.cons (tripOptCatchClause x3 h.2.2.1) (.cons (tripOptBlock x4 h.2.2.2) .nil)))) (by decide))
  | .variable x1, h => new_ok (e := .Stmt) (k := c!"Variable") (t := .struct .StmtVariable) (f := .variable) rfl (x1.trip h)
  | .while x1 x2 x3, h => new_ok (e := .Stmt) (k := c!"While") (t := .struct .StmtWhile) (f := id) rfl (struct_ok (s := .StmtWhile) (r := (x1, x2, x3, ())) (.cons (span_trip h.1) (.cons (x2.trip h.2.1) (.cons (x3.trip h.2.2) .nil))) (by decide))
  | .with x1 x2 x3, h => new_ok (e := .Stmt) (k := c!"With") (t := .struct .StmtWith) (f := id) rfl (struct_ok (s := .StmtWith) (r := (x1, x2, x3, ())) (.cons (span_trip h.1) (.cons (x2.trip h.2.1) (.cons (x3.trip h.2.2) .nil))) (by decide))
  | .classDecl x1 x2 x3 x4, h => new_ok (e := .Stmt) (k := c!"ClassDecl") (t := .struct .DeclClass) (f := id) rfl (struct_ok (s := .DeclClass) (r := (x1, x2, x3, x4, ())) (.cons (span_trip h.1) (.cons (x2.trip h.2.1) (.cons (tripOptExpr x3 h.2.2.1) (.cons (arr_trip (tripMethodDefs x4 h.2.2.2)) .nil)))) (by decide))
  | .functionDecl x1 x2 x3 x4 x5 x6, h => new_ok (e := .Stmt) (k := c!"FunctionDecl") (t := .struct .DeclFunction) (f := id) rfl (struct_ok (s := .DeclFunction) (r := (x1, x2, x3, x4, x5, x6, ())) (.cons (span_trip h.1) (.cons rfl (.cons rfl (.cons (x4.trip h.2.1) (.cons (x5.trip h.2.2.1) (.cons (x6.trip h.2.2.2) .nil)))))) (by decide))
  | .importDecl x1 x2 x3 x4 x5, h => new_ok (e := .Stmt) (k := c!"ImportDecl") (t := .struct .DeclImport) (f := id) rfl (struct_ok (s := .DeclImport) (r := (x1, x2, x3, x4, x5, ())) (.cons (span_trip h.1) (.cons (optIdent_trip x2 h.2.1) (.cons (optIdent_trip x3 h.2.2.1) (.cons (optImports_trip x4 h.2.2.2) (.cons (litString_trip x5) .nil))))) (by decide))
  | .exportDecl x1, h => new_ok (e := .Stmt) (k := c!"ExportDecl") (t := .enum .DeclExport) (f := .exportDecl) rfl (x1.trip h)
termination_by structural x => x

theorem Block.trip : (x : Block) → x.AllSpans Small → decode x.toJson (.struct .StmtBlock) = .ok x
  | .mk x1 x2, h => struct_ok (s := .StmtBlock) (r := (x1, x2, ())) (.cons (span_trip h.1) (.cons (arr_trip (tripStmts x2 h.2)) .nil)) (by decide)
termination_by structural x => x

theorem VarStmt.trip : (x : VarStmt) → x.AllSpans Small → decode x.toJson (.struct .StmtVariable) = .ok x
  | .mk x1 x2 x3, h => struct_ok (s := .StmtVariable) (r := (x1, x2, x3, ())) (.cons (span_trip h.1) (.cons (x2.trip) (.cons (arr_trip (tripVarDecls x3 h.2)) .nil))) (by decide)
termination_by structural x => x

theorem VarDecl.trip : (x : VarDecl) → x.AllSpans Small → decode x.toJson (.struct .VariableDeclaration) = .ok x
  | .mk x1 x2 x3, h => struct_ok (s := .VariableDeclaration) (r := (x1, x2, x3, ())) (.cons (span_trip h.1) (.cons (x2.trip h.2.1) (.cons (tripOptExpr x3 h.2.2) .nil))) (by decide)
termination_by structural x => x

theorem CatchClause.trip : (x : CatchClause) → x.AllSpans Small → decode x.toJson (.struct .CatchClause) = .ok x
  | .mk x1 x2 x3, h => struct_ok (s := .CatchClause) (r := (x1, x2, x3, ())) (.cons (span_trip h.1) (.cons (tripOptBindingPattern x2 h.2.1) (.cons (x3.trip h.2.2) .nil))) (by decide)
termination_by structural x => x

theorem SwitchCase.trip : (x : SwitchCase) → x.AllSpans Small → decode x.toJson (.struct .SwitchCase) = .ok x
  | .mk x1 x2 x3, h => struct_ok (s := .SwitchCase) (r := (x1, x2, x3, ())) (.cons (span_trip h.1) (.cons (tripOptExpr x2 h.2.1) (.cons (arr_trip (tripStmts x3 h.2.2)) .nil))) (by decide)
termination_by structural x => x

theorem ForInit.trip : (x : ForInit) → x.AllSpans Small → decode x.toJson (.enum .ForInit) = .ok x
  | .expr x1, h => new_ok (e := .ForInit) (k := c!"Expr") (t := .enum .Expr) (f := .expr) rfl (x1.trip h)
  | .declaration x1, h => new_ok (e := .ForInit) (k := c!"Declaration") (t := .struct .StmtVariable) (f := .declaration) rfl (x1.trip h)
termination_by structural x => x

theorem ForDecl.trip : (x : ForDecl) → x.AllSpans Small → decode x.toJson (.enum .ForDeclaration) = .ok x
  | .expr x1, h => new_ok (e := .ForDeclaration) (k := c!"Expr") (t := .enum .Expr) (f := .expr) rfl (x1.trip h)
  | .pattern x1, h => new_ok (e := .ForDeclaration) (k := c!"AssignmentPattern") (t := .enum .AssignmentPattern) (f := .pattern) rfl (x1.trip h)
  | .declaration x1 x2 x3, h => new_ok (e := .ForDeclaration) (k := c!"Declaration") (t := .struct .ForBinding) (f := id) rfl (struct_ok (s := .ForBinding) (r := (x1, x2, x3, ())) (.cons (span_trip h.1) (.cons (x2.trip) (.cons (x3.trip h.2) .nil))) (by decide))
termination_by structural x => x

theorem ExportDecl.trip : (x : ExportDecl) → x.AllSpans Small → decode x.toJson (.enum .DeclExport) = .ok x
  | .decl x1 x2, h => new_ok (e := .DeclExport) (k := c!"Decl") (t := .struct .ExportDecl) (f := id) rfl (struct_ok (s := .ExportDecl) (r := (x1, x2, ())) (.cons (span_trip h.1) (.cons (x2.trip h.2) .nil)) (by decide))
  | .defaultExpr x1 x2, h => new_ok (e := .DeclExport) (k := c!"DefaultExpr") (t := .struct .ExportDefaultExpr) (f := id) rfl (struct_ok (s := .ExportDefaultExpr) (r := (x1, x2, ())) (.cons (span_trip h.1) (.cons (x2.trip h.2) .nil)) (by decide))
  | .defaultDecl x1 x2, h => new_ok (e := .DeclExport) (k := c!"DefaultDecl") (t := .struct .ExportDefaultDecl) (f := id) rfl (struct_ok (s := .ExportDefaultDecl) (r := (x1, x2, ())) (.cons (span_trip h.1) (.cons (x2.trip h.2) .nil)) (by decide))
  | .named x1 x2 x3, h => new_ok (e := .DeclExport) (k := c!"Named") (t := .struct .ExportNamed) (f := id) rfl (struct_ok (s := .ExportNamed) (r := (x1, x2, x3, ())) (.cons (span_trip h.1) (.cons (exports_trip x2 h.2) (.cons (optLitString_trip x3) .nil))) (by decide))
  | .namespace x1 x2 x3, h => new_ok (e := .DeclExport) (k := c!"Namespace") (t := .struct .ExportNamespace) (f := id) rfl (struct_ok (s := .ExportNamespace) (r := (x1, x2, x3, ())) (.cons (span_trip h.1) (.cons (optIdent_trip x2 h.2) (.cons (litString_trip x3) .nil))) (by decide))
termination_by structural x => x

theorem tripArguments : (x : List (Argument)) → allArguments Small x → Each (.enum .Argument) (serArguments x) x
  | [], _ => .nil
  | x :: l, h => .cons (x.trip h.1) (tripArguments l h.2)
termination_by structural x => x

theorem tripArrayElements : (x : List (ArrayElement)) → allArrayElements Small x → Each (.enum .ArrayElement) (serArrayElements x) x
  | [], _ => .nil
  | x :: l, h => .cons (x.trip h.1) (tripArrayElements l h.2)
termination_by structural x => x

theorem tripAssignProps : (x : List (AssignProp)) → allAssignProps Small x → Each (.enum .AssignmentProp) (serAssignProps x) x
  | [], _ => .nil
  | x :: l, h => .cons (x.trip h.1) (tripAssignProps l h.2)
termination_by structural x => x

theorem tripBindingElements : (x : List (BindingElement)) → allBindingElements Small x → Each (.struct .BindingElement) (serBindingElements x) x
  | [], _ => .nil
  | x :: l, h => .cons (x.trip h.1) (tripBindingElements l h.2)
termination_by structural x => x

theorem tripBindingProps : (x : List (BindingProp)) → allBindingProps Small x → Each (.enum .ObjectBindingProp) (serBindingProps x) x
  | [], _ => .nil
  | x :: l, h => .cons (x.trip h.1) (tripBindingProps l h.2)
termination_by structural x => x

theorem tripExprs : (x : List (Expr)) → allExprs Small x → Each (.enum .Expr) (serExprs x) x
  | [], _ => .nil
  | x :: l, h => .cons (x.trip h.1) (tripExprs l h.2)
termination_by structural x => x

theorem tripMethodDefs : (x : List (MethodDef)) → allMethodDefs Small x → Each (.enum .ClassElement) (serMethodDefs x) x
  | [], _ => .nil
  | x :: l, h => .cons (class_trip x (x.trip h.1)) (tripMethodDefs l h.2)
termination_by structural x => x

theorem tripOptAssignElement : (x : Option AssignElement) → allOptAssignElement Small x → decode (serOptAssignElement x) (.opt (.struct .AssignmentElement)) = .ok x
  | none, _ => rfl
  | some x, h => some_ok (x.trip h)
termination_by structural x => x

theorem tripOptAssignElements : (x : List (Option (AssignElement))) → allOptAssignElements Small x → Each (.opt (.struct .AssignmentElement)) (serOptAssignElements x) x
  | [], _ => .nil
  | x :: l, h => .cons (tripOptAssignElement x h.1) (tripOptAssignElements l h.2)
termination_by structural x => x

theorem tripOptBindingElement : (x : Option BindingElement) → allOptBindingElement Small x → decode (serOptBindingElement x) (.opt (.struct .BindingElement)) = .ok x
  | none, _ => rfl
  | some x, h => some_ok (x.trip h)
termination_by structural x => x

theorem tripOptBindingElements : (x : List (Option (BindingElement))) → allOptBindingElements Small x → Each (.opt (.struct .BindingElement)) (serOptBindingElements x) x
  | [], _ => .nil
  | x :: l, h => .cons (tripOptBindingElement x h.1) (tripOptBindingElements l h.2)
termination_by structural x => x

theorem tripOptBindingPattern : (x : Option BindingPattern) → allOptBindingPattern Small x → decode (serOptBindingPattern x) (.opt (.enum .BindingPattern)) = .ok x
  | none, _ => rfl
  | some x, h => some_ok (x.trip h)
termination_by structural x => x

theorem tripOptBlock : (x : Option Block) → allOptBlock Small x → decode (serOptBlock x) (.opt (.struct .StmtBlock)) = .ok x
  | none, _ => rfl
  | some x, h => some_ok (x.trip h)
termination_by structural x => x

theorem tripOptCatchClause : (x : Option CatchClause) → allOptCatchClause Small x → decode (serOptCatchClause x) (.opt (.struct .CatchClause)) = .ok x
  | none, _ => rfl
  | some x, h => some_ok (x.trip h)
termination_by structural x => x

theorem tripOptExpr : (x : Option Expr) → allOptExpr Small x → decode (serOptExpr x) (.opt (.enum .Expr)) = .ok x
  | none, _ => rfl
  | some x, h => some_ok (x.trip h)
termination_by structural x => x

theorem tripOptForInit : (x : Option ForInit) → allOptForInit Small x → decode (serOptForInit x) (.opt (.enum .ForInit)) = .ok x
  | none, _ => rfl
  | some x, h => some_ok (x.trip h)
termination_by structural x => x

theorem tripOptPatternOrExpr : (x : Option PatternOrExpr) → allOptPatternOrExpr Small x → decode (serOptPatternOrExpr x) (.opt (.enum .PatternOrExpr)) = .ok x
  | none, _ => rfl
  | some x, h => some_ok (x.trip h)
termination_by structural x => x

theorem tripOptStmt : (x : Option Stmt) → allOptStmt Small x → decode (serOptStmt x) (.opt (.enum .Stmt)) = .ok x
  | none, _ => rfl
  | some x, h => some_ok (x.trip h)
termination_by structural x => x

theorem tripPropDefs : (x : List (PropDef)) → allPropDefs Small x → Each (.enum .PropertyDefinition) (serPropDefs x) x
  | [], _ => .nil
  | x :: l, h => .cons (x.trip h.1) (tripPropDefs l h.2)
termination_by structural x => x

theorem tripStmts : (x : List (Stmt)) → allStmts Small x → Each (.enum .Stmt) (serStmts x) x
  | [], _ => .nil
  | x :: l, h => .cons (x.trip h.1) (tripStmts l h.2)
termination_by structural x => x

theorem tripSwitchCases : (x : List (SwitchCase)) → allSwitchCases Small x → Each (.struct .SwitchCase) (serSwitchCases x) x
  | [], _ => .nil
  | x :: l, h => .cons (x.trip h.1) (tripSwitchCases l h.2)
termination_by structural x => x

theorem tripTemplateParts : (x : List (TemplatePart)) → allTemplateParts Small x → Each (.enum .TemplatePart) (serTemplateParts x) x
  | [], _ => .nil
  | x :: l, h => .cons (x.trip h.1) (tripTemplateParts l h.2)
termination_by structural x => x

theorem tripVarDecls : (x : List (VarDecl)) → allVarDecls Small x → Each (.struct .VariableDeclaration) (serVarDecls x) x
  | [], _ => .nil
  | x :: l, h => .cons (x.trip h.1) (tripVarDecls l h.2)
termination_by structural x => x

end

end Fajt
