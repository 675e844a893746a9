import Verif.Model.Ast
import Verif.Model.SpanSerde
/-!
# Serialising and deserialising trees (`/repo/ast/src`, the serde derives of `/repo/ast/src/macros/mod.rs:69-80`)

Every type of the tree derives `serde::Serialize` and `serde::Deserialize`; `Span` has implementations of its own
(`Verif.Model.SpanSerde`).  This file was written by `tools/gen_serde.py` from the declarations in `/repo/ast/src`.

Modelled: the values of the serde data model that arise (`Json`, objects as lists of fields in order), the derived serialisers
(`toJson`: structs as objects with their fields in order, variants as `{"Variant": content}`, unit variants as strings), and the
derived deserialisers driven by a self-describing format such as JSON (`decode`): fields in any order, unknown fields skipped,
duplicate fields refused, missing fields refused except for those of type `Option`, structs also as arrays, unit variants as
strings or as `{"Variant": null}`.

Not modelled: the text of JSON (serde_json) and the messages of serde's errors (the message is empty here, except for that of
`Span`).  `Box` is transparent.  As in `Verif.Model.Ast`, structs that occur in one variant only are part of the variant.
-/
namespace Fajt

set_option genSizeOf false in
/-- Values of the serde data model that arise from trees: there are no numbers, spans are written as strings. -/
inductive Json where
  | null
  | bool (b : Bool)
  | str (s : Str)
  | arr (vs : List Json)
  | obj (fields : List (Str × Json))

/-- `/repo/ast/src/span.rs:32-39` `Serialize for Span`. -/
def Span.toJson (s : Span) : Json := .str s.serialize

/-- Options: `null`, or the content. -/
def serOpt {α : Type} (f : α → Json) : Option α → Json
  | none => .null
  | some a => f a

/-- `/repo/ast/src/lib.rs:66-69` `Ident`, derived `Serialize`. -/
def Ident.toJson (x : Ident) : Json :=
  .obj [(c!"span", x.span.toJson), (c!"name", .str x.name)]

/-- `/repo/ast/src/literal.rs:34-37` `LitString`, derived `Serialize`. -/
def LitString.toJson (x : LitString) : Json :=
  .obj [(c!"value", .str x.value), (c!"delimiter", .str [x.delimiter])]

/-- `/repo/ast/src/stmt.rs:325-329` `NamedImport`, derived `Serialize`. -/
def NamedImport.toJson (x : NamedImport) : Json :=
  .obj [(c!"span", x.span.toJson), (c!"name", x.name.toJson), (c!"alias", serOpt (fun x => x.toJson) x.alias)]

/-- `/repo/ast/src/stmt.rs:386-390` `NamedExport`, derived `Serialize`. -/
def NamedExport.toJson (x : NamedExport) : Json :=
  .obj [(c!"span", x.span.toJson), (c!"name", x.name.toJson), (c!"alias_of", serOpt (fun x => x.toJson) x.aliasOf)]

/-- `/repo/ast/src/expr.rs:105-150` `BinaryOperator`, derived `Serialize`. -/
def BinaryOp.toJson : BinaryOp → Json
  | .plus => .str c!"Plus"
  | .minus => .str c!"Minus"
  | .mul => .str c!"Multiplication"
  | .div => .str c!"Division"
  | .mod => .str c!"Modulus"
  | .exp => .str c!"Exponent"
  | .shl => .str c!"ShiftLeft"
  | .shr => .str c!"ShiftRight"
  | .ushr => .str c!"ShiftRightUnsigned"
  | .lt => .str c!"LessThan"
  | .gt => .str c!"MoreThan"
  | .le => .str c!"LessThanEquals"
  | .ge => .str c!"MoreThanEquals"
  | .instanceof => .str c!"InstanceOf"
  | .in_ => .str c!"In"
  | .eq => .str c!"Equal"
  | .ne => .str c!"NotEqual"
  | .seq => .str c!"StrictEqual"
  | .sne => .str c!"StrictNotEqual"
  | .bitAnd => .str c!"BitwiseAnd"
  | .bitXor => .str c!"BitwiseXOR"
  | .bitOr => .str c!"BitwiseOR"

/-- `/repo/ast/src/expr.rs:170-177` `LogicalOperator`, derived `Serialize`. -/
def LogicalOp.toJson : LogicalOp → Json
  | .and => .str c!"And"
  | .or => .str c!"Or"
  | .coalesce => .str c!"Coalesce"

/-- `/repo/ast/src/expr.rs:196-211` `UnaryOperator`, derived `Serialize`. -/
def UnaryOp.toJson : UnaryOp → Json
  | .delete => .str c!"Delete"
  | .void => .str c!"Void"
  | .typeof => .str c!"Typeof"
  | .plus => .str c!"Plus"
  | .minus => .str c!"Minus"
  | .bitNot => .str c!"BitwiseNot"
  | .not => .str c!"Not"

/-- `/repo/ast/src/expr.rs:231-236` `UpdateOperator`, derived `Serialize`. -/
def UpdateOp.toJson : UpdateOp → Json
  | .incr => .str c!"Increase"
  | .decr => .str c!"Decrease"

/-- `/repo/ast/src/expr.rs:383-410` `AssignmentOperator`, derived `Serialize`. -/
def AssignOp.toJson : AssignOp → Json
  | .assign => .str c!"Assign"
  | .mul => .str c!"Multiply"
  | .pow => .str c!"Power"
  | .div => .str c!"Divide"
  | .mod => .str c!"Modulus"
  | .add => .str c!"Add"
  | .sub => .str c!"Sub"
  | .shl => .str c!"LeftShift"
  | .shr => .str c!"RightShift"
  | .ushr => .str c!"UnsignedRightShift"
  | .bitAnd => .str c!"BitwiseAnd"
  | .bitXor => .str c!"BitwiseXOr"
  | .bitOr => .str c!"BitwiseOr"

/-- `/repo/ast/src/stmt.rs:138-145` `VariableKind`, derived `Serialize`. -/
def VarKind.toJson : VarKind → Json
  | .const => .str c!"Const"
  | .let_ => .str c!"Let"
  | .var => .str c!"Var"

/-- `/repo/ast/src/method.rs:17-21` `MethodKind`, derived `Serialize`. -/
def MethodKind.toJson : MethodKind → Json
  | .method => .str c!"Method"
  | .get => .str c!"Get"
  | .set => .str c!"Set"

mutual

/-- `/repo/ast/src/expr.rs:7-31` `Expr`, derived `Serialize` (with the structs of the variants: expr.rs:282-288, expr.rs:367-372, expr.rs:257-260, expr.rs:89-94, expr.rs:414-419, class.rs:13-18, expr.rs:248-253, expr.rs:271-278, expr.rs:67-70, expr.rs:154-159, expr.rs:306-310, expr.rs:343-347, expr.rs:351-356, expr.rs:423-429, expr.rs:314-319, expr.rs:299-302, expr.rs:264-267, expr.rs:441-445, expr.rs:74-76, expr.rs:181-185, expr.rs:215-220, expr.rs:240-244). -/
def Expr.toJson : Expr → Json
  | .arrow x1 x2 x3 x4 x5 => .obj [(c!"ArrowFunction", .obj [(c!"span", x1.toJson), (c!"asynchronous", .bool x2), (c!"binding_parameter", .bool x3), (c!"parameters", x4.toJson), (c!"body", x5.toJson)])]
  | .assign x1 x2 x3 x4 => .obj [(c!"Assignment", .obj [(c!"span", x1.toJson), (c!"operator", x2.toJson), (c!"left", x3.toJson), (c!"right", x4.toJson)])]
  | .await x1 x2 => .obj [(c!"Await", .obj [(c!"span", x1.toJson), (c!"argument", x2.toJson)])]
  | .binary x1 x2 x3 x4 => .obj [(c!"Binary", .obj [(c!"span", x1.toJson), (c!"operator", x2.toJson), (c!"left", x3.toJson), (c!"right", x4.toJson)])]
  | .call x1 x2 x3 x4 => .obj [(c!"Call", .obj [(c!"span", x1.toJson), (c!"callee", x2.toJson), (c!"arguments_span", x3.toJson), (c!"arguments", .arr (serArguments x4))])]
  | .classE x1 x2 x3 x4 => .obj [(c!"Class", .obj [(c!"span", x1.toJson), (c!"identifier", serOpt (fun x => x.toJson) x2), (c!"super_class", serOptExpr x3), (c!"body", .arr (serMethodDefs x4))])]
  | .conditional x1 x2 x3 x4 => .obj [(c!"Conditional", .obj [(c!"span", x1.toJson), (c!"condition", x2.toJson), (c!"consequent", x3.toJson), (c!"alternate", x4.toJson)])]
  | .function x1 x2 x3 x4 x5 x6 => .obj [(c!"Function", .obj [(c!"span", x1.toJson), (c!"asynchronous", .bool x2), (c!"generator", .bool x3), (c!"identifier", serOpt (fun x => x.toJson) x4), (c!"parameters", x5.toJson), (c!"body", x6.toJson)])]
  | .ident x1 => .obj [(c!"IdentRef", x1.toJson)]
  | .literal x1 x2 => .obj [(c!"Literal", .obj [(c!"span", x1.toJson), (c!"literal", x2.toJson)])]
  | .logical x1 x2 x3 x4 => .obj [(c!"Logical", .obj [(c!"span", x1.toJson), (c!"operator", x2.toJson), (c!"left", x3.toJson), (c!"right", x4.toJson)])]
  | .member x1 x2 x3 => .obj [(c!"Member", .obj [(c!"span", x1.toJson), (c!"object", x2.toJson), (c!"property", x3.toJson)])]
  | .metaProp x1 x2 x3 => .obj [(c!"MetaProperty", .obj [(c!"span", x1.toJson), (c!"meta", x2.toJson), (c!"property", x3.toJson)])]
  | .new x1 x2 x3 x4 => .obj [(c!"New", .obj [(c!"span", x1.toJson), (c!"callee", x2.toJson), (c!"arguments_span", serOpt (fun x => x.toJson) x3), (c!"arguments", .arr (serArguments x4))])]
  | .optCall x1 x2 x3 x4 x5 => .obj [(c!"OptionalCall", .obj [(c!"span", x1.toJson), (c!"callee", x2.toJson), (c!"arguments_span", x3.toJson), (c!"arguments", .arr (serArguments x4)), (c!"optional", .bool x5)])]
  | .optMember x1 x2 x3 x4 => .obj [(c!"OptionalMember", .obj [(c!"span", x1.toJson), (c!"object", x2.toJson), (c!"property", x3.toJson), (c!"optional", .bool x4)])]
  | .paren x1 x2 => .obj [(c!"Parenthesized", .obj [(c!"span", x1.toJson), (c!"expression", x2.toJson)])]
  | .sequence x1 x2 => .obj [(c!"Sequence", .obj [(c!"span", x1.toJson), (c!"expr", .arr (serExprs x2))])]
  | .tagged x1 x2 x3 => .obj [(c!"TaggedTemplate", .obj [(c!"span", x1.toJson), (c!"callee", x2.toJson), (c!"template", .obj [(c!"parts", .arr (serTemplateParts x3))])])]
  | .this x1 => .obj [(c!"This", .obj [(c!"span", x1.toJson)])]
  | .unary x1 x2 x3 => .obj [(c!"Unary", .obj [(c!"span", x1.toJson), (c!"operator", x2.toJson), (c!"argument", x3.toJson)])]
  | .update x1 x2 x3 x4 => .obj [(c!"Update", .obj [(c!"span", x1.toJson), (c!"operator", x2.toJson), (c!"prefix", .bool x3), (c!"argument", x4.toJson)])]
  | .yield x1 x2 x3 => .obj [(c!"Yield", .obj [(c!"span", x1.toJson), (c!"argument", serOptExpr x2), (c!"delegate", .bool x3)])]
termination_by structural x => x

/-- `/repo/ast/src/literal.rs:4-13` `Literal`, derived `Serialize`. -/
def Literal.toJson : Literal → Json
  | .null => .str c!"Null"
  | .boolean x1 => .obj [(c!"Boolean", .bool x1)]
  | .string x1 => .obj [(c!"String", x1.toJson)]
  | .number x1 => .obj [(c!"Number", .obj [(c!"raw", .str x1)])]
  | .array x1 => .obj [(c!"Array", .obj [(c!"elements", .arr (serArrayElements x1))])]
  | .object x1 => .obj [(c!"Object", .obj [(c!"props", .arr (serPropDefs x1))])]
  | .regexp x1 => .obj [(c!"Regexp", .str x1)]
  | .template x1 => .obj [(c!"Template", .obj [(c!"parts", .arr (serTemplateParts x1))])]
termination_by structural x => x

/-- `/repo/ast/src/literal.rs:17-20` `TemplatePart`, derived `Serialize`. -/
def TemplatePart.toJson : TemplatePart → Json
  | .string x1 => .obj [(c!"String", .str x1)]
  | .expr x1 => .obj [(c!"Expr", x1.toJson)]
termination_by structural x => x

/-- `/repo/ast/src/literal.rs:53-57` `ArrayElement`, derived `Serialize`. -/
def ArrayElement.toJson : ArrayElement → Json
  | .elision => .str c!"Elision"
  | .expr x1 => .obj [(c!"Expr", x1.toJson)]
  | .spread x1 => .obj [(c!"Spread", x1.toJson)]
termination_by structural x => x

/-- `/repo/ast/src/literal.rs:67-72` `PropertyDefinition`, derived `Serialize` (with the structs of the variants: literal.rs:76-80). -/
def PropDef.toJson : PropDef → Json
  | .identRef x1 => .obj [(c!"IdentRef", x1.toJson)]
  | .spread x1 => .obj [(c!"Spread", x1.toJson)]
  | .named x1 x2 x3 => .obj [(c!"Named", .obj [(c!"span", x1.toJson), (c!"name", x2.toJson), (c!"value", x3.toJson)])]
  | .method x1 => .obj [(c!"Method", x1.toJson)]
termination_by structural x => x

/-- `/repo/ast/src/binding.rs:52-57` `PropertyName`, derived `Serialize`. -/
def PropName.toJson : PropName → Json
  | .ident x1 => .obj [(c!"Ident", x1.toJson)]
  | .string x1 => .obj [(c!"String", x1.toJson)]
  | .number x1 => .obj [(c!"Number", .obj [(c!"raw", .str x1)])]
  | .computed x1 => .obj [(c!"Computed", x1.toJson)]
termination_by structural x => x

/-- `/repo/ast/src/method.rs:4-13` `MethodDefinition`, derived `Serialize`. -/
def MethodDef.toJson : MethodDef → Json
  | .mk x1 x2 x3 x4 x5 x6 x7 x8 => .obj [(c!"span", x1.toJson), (c!"name", x2.toJson), (c!"kind", x3.toJson), (c!"parameters", x4.toJson), (c!"body", x5.toJson), (c!"generator", .bool x6), (c!"asynchronous", .bool x7), (c!"is_static", .bool x8)]
termination_by structural x => x

/-- `/repo/ast/src/stmt.rs:87-91` `FormalParameters`, derived `Serialize`. -/
def FormalParams.toJson : FormalParams → Json
  | .mk x1 x2 x3 => .obj [(c!"span", x1.toJson), (c!"bindings", .arr (serBindingElements x2)), (c!"rest", serOptBindingPattern x3)]
termination_by structural x => x

/-- `/repo/ast/src/stmt.rs:79-83` `Body`, derived `Serialize`. -/
def Body.toJson : Body → Json
  | .mk x1 x2 x3 => .obj [(c!"span", x1.toJson), (c!"directives", .arr (x2.map (fun x => x.toJson))), (c!"statements", .arr (serStmts x3))]
termination_by structural x => x

/-- `/repo/ast/src/expr.rs:292-295` `ArrowFunctionBody`, derived `Serialize`. -/
def ArrowBody.toJson : ArrowBody → Json
  | .expr x1 => .obj [(c!"Expr", x1.toJson)]
  | .body x1 => .obj [(c!"Body", x1.toJson)]
termination_by structural x => x

/-- `/repo/ast/src/expr.rs:323-326` `MemberObject`, derived `Serialize`. -/
def MemberObject.toJson : MemberObject → Json
  | .expr x1 => .obj [(c!"Expr", x1.toJson)]
  | .super x1 => .obj [(c!"Super", .obj [(c!"span", x1.toJson)])]
termination_by structural x => x

/-- `/repo/ast/src/expr.rs:336-339` `MemberProperty`, derived `Serialize`. -/
def MemberProp.toJson : MemberProp → Json
  | .ident x1 => .obj [(c!"Ident", x1.toJson)]
  | .expr x1 => .obj [(c!"Expr", x1.toJson)]
termination_by structural x => x

/-- `/repo/ast/src/expr.rs:360-363` `Argument`, derived `Serialize`. -/
def Argument.toJson : Argument → Json
  | .expr x1 => .obj [(c!"Expr", x1.toJson)]
  | .spread x1 => .obj [(c!"Spread", x1.toJson)]
termination_by structural x => x

/-- `/repo/ast/src/expr.rs:433-437` `Callee`, derived `Serialize`. -/
def Callee.toJson : Callee → Json
  | .super => .str c!"Super"
  | .import => .str c!"Import"
  | .expr x1 => .obj [(c!"Expr", x1.toJson)]
termination_by structural x => x

/-- `/repo/ast/src/binding.rs:4-8` `BindingPattern`, derived `Serialize` (with the structs of the variants: binding.rs:12-16, binding.rs:20-25). -/
def BindingPattern.toJson : BindingPattern → Json
  | .ident x1 => .obj [(c!"Ident", x1.toJson)]
  | .array x1 x2 x3 => .obj [(c!"Array", .obj [(c!"span", x1.toJson), (c!"elements", .arr (serOptBindingElements x2)), (c!"rest", serOptBindingPattern x3)])]
  | .object x1 x2 x3 => .obj [(c!"Object", .obj [(c!"span", x1.toJson), (c!"props", .arr (serBindingProps x2)), (c!"rest", serOptBindingPattern x3)])]
termination_by structural x => x

/-- `/repo/ast/src/binding.rs:29-32` `ObjectBindingProp`, derived `Serialize` (with the structs of the variants: binding.rs:36-40, binding.rs:44-48). -/
def BindingProp.toJson : BindingProp → Json
  | .single x1 x2 x3 => .obj [(c!"Single", .obj [(c!"span", x1.toJson), (c!"ident", x2.toJson), (c!"initializer", serOptExpr x3)])]
  | .named x1 x2 x3 => .obj [(c!"Named", .obj [(c!"span", x1.toJson), (c!"property", x2.toJson), (c!"binding", x3.toJson)])]
termination_by structural x => x

/-- `/repo/ast/src/binding.rs:61-65` `BindingElement`, derived `Serialize`. -/
def BindingElement.toJson : BindingElement → Json
  | .mk x1 x2 x3 => .obj [(c!"span", x1.toJson), (c!"pattern", x2.toJson), (c!"initializer", serOptExpr x3)]
termination_by structural x => x

/-- `/repo/ast/src/assignment.rs:4-7` `PatternOrExpr`, derived `Serialize`. -/
def PatternOrExpr.toJson : PatternOrExpr → Json
  | .expr x1 => .obj [(c!"Expr", x1.toJson)]
  | .pattern x1 => .obj [(c!"AssignmentPattern", x1.toJson)]
termination_by structural x => x

/-- `/repo/ast/src/assignment.rs:11-14` `AssignmentPattern`, derived `Serialize` (with the structs of the variants: assignment.rs:18-22, assignment.rs:34-38). -/
def AssignPattern.toJson : AssignPattern → Json
  | .array x1 x2 x3 => .obj [(c!"Array", .obj [(c!"span", x1.toJson), (c!"elements", .arr (serOptAssignElements x2)), (c!"rest", serOptPatternOrExpr x3)])]
  | .object x1 x2 x3 => .obj [(c!"Object", .obj [(c!"span", x1.toJson), (c!"props", .arr (serAssignProps x2)), (c!"rest", serOptPatternOrExpr x3)])]
termination_by structural x => x

/-- `/repo/ast/src/assignment.rs:26-30` `AssignmentElement`, derived `Serialize`. -/
def AssignElement.toJson : AssignElement → Json
  | .mk x1 x2 x3 => .obj [(c!"span", x1.toJson), (c!"target", x2.toJson), (c!"initializer", serOptExpr x3)]
termination_by structural x => x

/-- `/repo/ast/src/assignment.rs:42-45` `AssignmentProp`, derived `Serialize` (with the structs of the variants: assignment.rs:49-53, assignment.rs:57-62). -/
def AssignProp.toJson : AssignProp → Json
  | .single x1 x2 x3 => .obj [(c!"Single", .obj [(c!"span", x1.toJson), (c!"ident", x2.toJson), (c!"initializer", serOptExpr x3)])]
  | .named x1 x2 x3 x4 => .obj [(c!"Named", .obj [(c!"span", x1.toJson), (c!"name", x2.toJson), (c!"value", x3.toJson), (c!"initializer", serOptExpr x4)])]
termination_by structural x => x

/-- `/repo/ast/src/stmt.rs:8-32` `Stmt`, derived `Serialize` (with the structs of the variants: stmt.rs:156-159, stmt.rs:163-166, stmt.rs:177-179, stmt.rs:233-237, stmt.rs:115-117, stmt.rs:60-63, stmt.rs:249-255, stmt.rs:266-271, stmt.rs:275-281, stmt.rs:183-188, stmt.rs:301-305, stmt.rs:149-152, stmt.rs:217-221, stmt.rs:170-173, stmt.rs:200-205, stmt.rs:241-245, stmt.rs:192-196, class.rs:4-9, stmt.rs:67-74, stmt.rs:309-315). -/
def Stmt.toJson : Stmt → Json
  | .block x1 => .obj [(c!"Block", x1.toJson)]
  | .break x1 x2 => .obj [(c!"Break", .obj [(c!"span", x1.toJson), (c!"label", serOpt (fun x => x.toJson) x2)])]
  | .continue x1 x2 => .obj [(c!"Continue", .obj [(c!"span", x1.toJson), (c!"label", serOpt (fun x => x.toJson) x2)])]
  | .debugger x1 => .obj [(c!"Debugger", .obj [(c!"span", x1.toJson)])]
  | .doWhile x1 x2 x3 => .obj [(c!"DoWhile", .obj [(c!"span", x1.toJson), (c!"body", x2.toJson), (c!"test", x3.toJson)])]
  | .empty x1 => .obj [(c!"Empty", .obj [(c!"span", x1.toJson)])]
  | .expr x1 x2 => .obj [(c!"Expr", .obj [(c!"span", x1.toJson), (c!"expr", x2.toJson)])]
  | .for x1 x2 x3 x4 x5 => .obj [(c!"For", .obj [(c!"span", x1.toJson), (c!"init", serOptForInit x2), (c!"test", serOptExpr x3), (c!"update", serOptExpr x4), (c!"body", x5.toJson)])]
  | .forIn x1 x2 x3 x4 => .obj [(c!"ForIn", .obj [(c!"span", x1.toJson), (c!"left", x2.toJson), (c!"right", x3.toJson), (c!"body", x4.toJson)])]
  | .forOf x1 x2 x3 x4 x5 => .obj [(c!"ForOf", .obj [(c!"span", x1.toJson), (c!"left", x2.toJson), (c!"right", x3.toJson), (c!"body", x4.toJson), (c!"asynchronous", .bool x5)])]
  | .if x1 x2 x3 x4 => .obj [(c!"If", .obj [(c!"span", x1.toJson), (c!"condition", x2.toJson), (c!"consequent", x3.toJson), (c!"alternate", serOptStmt x4)])]
  | .labeled x1 x2 x3 => .obj [(c!"Labeled", .obj [(c!"span", x1.toJson), (c!"label", x2.toJson), (c!"body", x3.toJson)])]
  | .return x1 x2 => .obj [(c!"Return", .obj [(c!"span", x1.toJson), (c!"argument", serOptExpr x2)])]
  | .switch x1 x2 x3 => .obj [(c!"Switch", .obj [(c!"span", x1.toJson), (c!"discriminant", x2.toJson), (c!"cases", .arr (serSwitchCases x3))])]
  | .throw x1 x2 => .obj [(c!"Throw", .obj [(c!"span", x1.toJson), (c!"argument", x2.toJson)])]
  | .try x1 x2 x3 x4 => .obj [(c!"Try", .obj [(c!"span", x1.toJson), (c!"block", x2.toJson), (c!"handler", serOptCatchClause x3), (c!"finalizer", serOptBlock x4)])]
  | .variable x1 => .obj [(c!"Variable", x1.toJson)]
  | .while x1 x2 x3 => .obj [(c!"While", .obj [(c!"span", x1.toJson), (c!"test", x2.toJson), (c!"body", x3.toJson)])]
  | .with x1 x2 x3 => .obj [(c!"With", .obj [(c!"span", x1.toJson), (c!"object", x2.toJson), (c!"body", x3.toJson)])]
  | .classDecl x1 x2 x3 x4 => .obj [(c!"ClassDecl", .obj [(c!"span", x1.toJson), (c!"identifier", x2.toJson), (c!"super_class", serOptExpr x3), (c!"body", .arr (serMethodDefs x4))])]
  | .functionDecl x1 x2 x3 x4 x5 x6 => .obj [(c!"FunctionDecl", .obj [(c!"span", x1.toJson), (c!"asynchronous", .bool x2), (c!"generator", .bool x3), (c!"identifier", x4.toJson), (c!"parameters", x5.toJson), (c!"body", x6.toJson)])]
  | .importDecl x1 x2 x3 x4 x5 => .obj [(c!"ImportDecl", .obj [(c!"span", x1.toJson), (c!"default_binding", serOpt (fun x => x.toJson) x2), (c!"namespace_binding", serOpt (fun x => x.toJson) x3), (c!"named_imports", serOpt (fun l => .arr (l.map (fun x => x.toJson))) x4), (c!"from", x5.toJson)])]
  | .exportDecl x1 => .obj [(c!"ExportDecl", x1.toJson)]
termination_by structural x => x

/-- `/repo/ast/src/stmt.rs:108-111` `StmtBlock`, derived `Serialize`. -/
def Block.toJson : Block → Json
  | .mk x1 x2 => .obj [(c!"span", x1.toJson), (c!"statements", .arr (serStmts x2))]
termination_by structural x => x

/-- `/repo/ast/src/stmt.rs:121-125` `StmtVariable`, derived `Serialize`. -/
def VarStmt.toJson : VarStmt → Json
  | .mk x1 x2 x3 => .obj [(c!"span", x1.toJson), (c!"kind", x2.toJson), (c!"declarations", .arr (serVarDecls x3))]
termination_by structural x => x

/-- `/repo/ast/src/stmt.rs:129-133` `VariableDeclaration`, derived `Serialize`. -/
def VarDecl.toJson : VarDecl → Json
  | .mk x1 x2 x3 => .obj [(c!"span", x1.toJson), (c!"pattern", x2.toJson), (c!"initializer", serOptExpr x3)]
termination_by structural x => x

/-- `/repo/ast/src/stmt.rs:209-213` `CatchClause`, derived `Serialize`. -/
def CatchClause.toJson : CatchClause → Json
  | .mk x1 x2 x3 => .obj [(c!"span", x1.toJson), (c!"parameter", serOptBindingPattern x2), (c!"body", x3.toJson)]
termination_by structural x => x

/-- `/repo/ast/src/stmt.rs:225-229` `SwitchCase`, derived `Serialize`. -/
def SwitchCase.toJson : SwitchCase → Json
  | .mk x1 x2 x3 => .obj [(c!"span", x1.toJson), (c!"test", serOptExpr x2), (c!"consequent", .arr (serStmts x3))]
termination_by structural x => x

/-- `/repo/ast/src/stmt.rs:259-262` `ForInit`, derived `Serialize`. -/
def ForInit.toJson : ForInit → Json
  | .expr x1 => .obj [(c!"Expr", x1.toJson)]
  | .declaration x1 => .obj [(c!"Declaration", x1.toJson)]
termination_by structural x => x

/-- `/repo/ast/src/stmt.rs:285-289` `ForDeclaration`, derived `Serialize` (with the structs of the variants: stmt.rs:293-297). -/
def ForDecl.toJson : ForDecl → Json
  | .expr x1 => .obj [(c!"Expr", x1.toJson)]
  | .pattern x1 => .obj [(c!"AssignmentPattern", x1.toJson)]
  | .declaration x1 x2 x3 => .obj [(c!"Declaration", .obj [(c!"span", x1.toJson), (c!"kind", x2.toJson), (c!"binding", x3.toJson)])]
termination_by structural x => x

/-- `/repo/ast/src/stmt.rs:333-339` `DeclExport`, derived `Serialize` (with the structs of the variants: stmt.rs:343-346, stmt.rs:357-360, stmt.rs:350-353, stmt.rs:364-368, stmt.rs:372-376). -/
def ExportDecl.toJson : ExportDecl → Json
  | .decl x1 x2 => .obj [(c!"Decl", .obj [(c!"span", x1.toJson), (c!"decl", x2.toJson)])]
  | .defaultExpr x1 x2 => .obj [(c!"DefaultExpr", .obj [(c!"span", x1.toJson), (c!"expr", x2.toJson)])]
  | .defaultDecl x1 x2 => .obj [(c!"DefaultDecl", .obj [(c!"span", x1.toJson), (c!"decl", x2.toJson)])]
  | .named x1 x2 x3 => .obj [(c!"Named", .obj [(c!"span", x1.toJson), (c!"named_exports", .arr (x2.map (fun x => x.toJson))), (c!"from", serOpt (fun x => x.toJson) x3)])]
  | .namespace x1 x2 x3 => .obj [(c!"Namespace", .obj [(c!"span", x1.toJson), (c!"alias", serOpt (fun x => x.toJson) x2), (c!"from", x3.toJson)])]
termination_by structural x => x

/-- The elements of a `Vec`, derived `Serialize`. -/
def serArguments : List (Argument) → List Json
  | [] => []
  | x :: l => x.toJson :: serArguments l
termination_by structural x => x

/-- The elements of a `Vec`, derived `Serialize`. -/
def serArrayElements : List (ArrayElement) → List Json
  | [] => []
  | x :: l => x.toJson :: serArrayElements l
termination_by structural x => x

/-- The elements of a `Vec`, derived `Serialize`. -/
def serAssignProps : List (AssignProp) → List Json
  | [] => []
  | x :: l => x.toJson :: serAssignProps l
termination_by structural x => x

/-- The elements of a `Vec`, derived `Serialize`. -/
def serBindingElements : List (BindingElement) → List Json
  | [] => []
  | x :: l => x.toJson :: serBindingElements l
termination_by structural x => x

/-- The elements of a `Vec`, derived `Serialize`. -/
def serBindingProps : List (BindingProp) → List Json
  | [] => []
  | x :: l => x.toJson :: serBindingProps l
termination_by structural x => x

/-- The elements of a `Vec`, derived `Serialize`. -/
def serExprs : List (Expr) → List Json
  | [] => []
  | x :: l => x.toJson :: serExprs l
termination_by structural x => x

/-- The elements of a `Vec`, derived `Serialize`. -/
def serMethodDefs : List (MethodDef) → List Json
  | [] => []
  | x :: l => .obj [(c!"Method", x.toJson)] :: serMethodDefs l
termination_by structural x => x

/-- `Option`, derived `Serialize`. -/
def serOptAssignElement : Option AssignElement → Json
  | none => .null
  | some x => x.toJson
termination_by structural x => x

/-- The elements of a `Vec`, derived `Serialize`. -/
def serOptAssignElements : List (Option (AssignElement)) → List Json
  | [] => []
  | x :: l => serOptAssignElement x :: serOptAssignElements l
termination_by structural x => x

/-- `Option`, derived `Serialize`. -/
def serOptBindingElement : Option BindingElement → Json
  | none => .null
  | some x => x.toJson
termination_by structural x => x

/-- The elements of a `Vec`, derived `Serialize`. -/
def serOptBindingElements : List (Option (BindingElement)) → List Json
  | [] => []
  | x :: l => serOptBindingElement x :: serOptBindingElements l
termination_by structural x => x

/-- `Option`, derived `Serialize`. -/
def serOptBindingPattern : Option BindingPattern → Json
  | none => .null
  | some x => x.toJson
termination_by structural x => x

/-- `Option`, derived `Serialize`. -/
def serOptBlock : Option Block → Json
  | none => .null
  | some x => x.toJson
termination_by structural x => x

/-- `Option`, derived `Serialize`. -/
def serOptCatchClause : Option CatchClause → Json
  | none => .null
  | some x => x.toJson
termination_by structural x => x

/-- `Option`, derived `Serialize`. -/
def serOptExpr : Option Expr → Json
  | none => .null
  | some x => x.toJson
termination_by structural x => x

/-- `Option`, derived `Serialize`. -/
def serOptForInit : Option ForInit → Json
  | none => .null
  | some x => x.toJson
termination_by structural x => x

/-- `Option`, derived `Serialize`. -/
def serOptPatternOrExpr : Option PatternOrExpr → Json
  | none => .null
  | some x => x.toJson
termination_by structural x => x

/-- `Option`, derived `Serialize`. -/
def serOptStmt : Option Stmt → Json
  | none => .null
  | some x => x.toJson
termination_by structural x => x

/-- The elements of a `Vec`, derived `Serialize`. -/
def serPropDefs : List (PropDef) → List Json
  | [] => []
  | x :: l => x.toJson :: serPropDefs l
termination_by structural x => x

/-- The elements of a `Vec`, derived `Serialize`. -/
def serStmts : List (Stmt) → List Json
  | [] => []
  | x :: l => x.toJson :: serStmts l
termination_by structural x => x

/-- The elements of a `Vec`, derived `Serialize`. -/
def serSwitchCases : List (SwitchCase) → List Json
  | [] => []
  | x :: l => x.toJson :: serSwitchCases l
termination_by structural x => x

/-- The elements of a `Vec`, derived `Serialize`. -/
def serTemplateParts : List (TemplatePart) → List Json
  | [] => []
  | x :: l => x.toJson :: serTemplateParts l
termination_by structural x => x

/-- The elements of a `Vec`, derived `Serialize`. -/
def serVarDecls : List (VarDecl) → List Json
  | [] => []
  | x :: l => x.toJson :: serVarDecls l
termination_by structural x => x

end

/-- `/repo/ast/src/lib.rs:43-46` `Program` and `/repo/ast/src/lib.rs:36-40` `StmtList<Stmt>`, derived `Serialize`. -/
def Program.toJson (p : Program) : Json :=
  .obj [(match p.sourceType with | .script => c!"Script" | .module => c!"Module",
    .obj [(c!"span", p.span.toJson), (c!"directives", .arr (p.directives.map (fun x => x.toJson))), (c!"body", .arr (serStmts p.body))])]

/-! ## Deserialising -/

/-- Sequencing of deserialisers: errors and panics stop. -/
def Deser.bind {α β : Type} (x : Deser α) (f : α → Deser β) : Deser β :=
  match x with
  | .ok a => f a
  | .err m => .err m
  | .panic => .panic

/-- The result under a function. -/
def Deser.map {α β : Type} (f : α → β) (x : Deser α) : Deser β := x.bind fun a => .ok (f a)

/-- The structs of `/repo/ast/src` with derived serde implementations. -/
inductive StructTy where
  /-- `/repo/ast/src/expr.rs:67-70` -/
  | ExprLiteral
  /-- `/repo/ast/src/expr.rs:74-76` -/
  | ExprThis
  /-- `/repo/ast/src/expr.rs:89-94` -/
  | ExprBinary
  /-- `/repo/ast/src/expr.rs:154-159` -/
  | ExprLogical
  /-- `/repo/ast/src/expr.rs:181-185` -/
  | ExprUnary
  /-- `/repo/ast/src/expr.rs:215-220` -/
  | ExprUpdate
  /-- `/repo/ast/src/expr.rs:240-244` -/
  | ExprYield
  /-- `/repo/ast/src/expr.rs:248-253` -/
  | ExprConditional
  /-- `/repo/ast/src/expr.rs:257-260` -/
  | ExprAwait
  /-- `/repo/ast/src/expr.rs:264-267` -/
  | ExprSequence
  /-- `/repo/ast/src/expr.rs:271-278` -/
  | ExprFunction
  /-- `/repo/ast/src/expr.rs:282-288` -/
  | ExprArrowFunction
  /-- `/repo/ast/src/expr.rs:299-302` -/
  | ExprParenthesized
  /-- `/repo/ast/src/expr.rs:306-310` -/
  | ExprMember
  /-- `/repo/ast/src/expr.rs:314-319` -/
  | ExprOptionalMember
  /-- `/repo/ast/src/expr.rs:330-332` -/
  | Super
  /-- `/repo/ast/src/expr.rs:343-347` -/
  | ExprMetaProperty
  /-- `/repo/ast/src/expr.rs:351-356` -/
  | ExprNew
  /-- `/repo/ast/src/expr.rs:367-372` -/
  | ExprAssignment
  /-- `/repo/ast/src/expr.rs:414-419` -/
  | ExprCall
  /-- `/repo/ast/src/expr.rs:423-429` -/
  | ExprOptionalCall
  /-- `/repo/ast/src/expr.rs:441-445` -/
  | ExprTaggedTemplate
  /-- `/repo/ast/src/literal.rs:34-37` -/
  | LitString
  /-- `/repo/ast/src/literal.rs:41-43` -/
  | LitTemplate
  /-- `/repo/ast/src/literal.rs:47-49` -/
  | LitArray
  /-- `/repo/ast/src/literal.rs:61-63` -/
  | LitObject
  /-- `/repo/ast/src/literal.rs:76-80` -/
  | NamedProperty
  /-- `/repo/ast/src/literal.rs:84-86` -/
  | LitNumber
  /-- `/repo/ast/src/class.rs:4-9` -/
  | DeclClass
  /-- `/repo/ast/src/class.rs:13-18` -/
  | ExprClass
  /-- `/repo/ast/src/method.rs:4-13` -/
  | MethodDefinition
  /-- `/repo/ast/src/binding.rs:12-16` -/
  | ArrayBinding
  /-- `/repo/ast/src/binding.rs:20-25` -/
  | ObjectBinding
  /-- `/repo/ast/src/binding.rs:36-40` -/
  | SingleNameBinding
  /-- `/repo/ast/src/binding.rs:44-48` -/
  | NamedBinding
  /-- `/repo/ast/src/binding.rs:61-65` -/
  | BindingElement
  /-- `/repo/ast/src/assignment.rs:18-22` -/
  | ArrayAssignmentPattern
  /-- `/repo/ast/src/assignment.rs:26-30` -/
  | AssignmentElement
  /-- `/repo/ast/src/assignment.rs:34-38` -/
  | ObjectAssignmentPattern
  /-- `/repo/ast/src/assignment.rs:49-53` -/
  | SingleNameAssignmentProp
  /-- `/repo/ast/src/assignment.rs:57-62` -/
  | NamedAssignmentProp
  /-- `/repo/ast/src/stmt.rs:60-63` -/
  | StmtExpr
  /-- `/repo/ast/src/stmt.rs:67-74` -/
  | DeclFunction
  /-- `/repo/ast/src/stmt.rs:79-83` -/
  | Body
  /-- `/repo/ast/src/stmt.rs:87-91` -/
  | FormalParameters
  /-- `/repo/ast/src/stmt.rs:108-111` -/
  | StmtBlock
  /-- `/repo/ast/src/stmt.rs:115-117` -/
  | StmtEmpty
  /-- `/repo/ast/src/stmt.rs:121-125` -/
  | StmtVariable
  /-- `/repo/ast/src/stmt.rs:129-133` -/
  | VariableDeclaration
  /-- `/repo/ast/src/stmt.rs:149-152` -/
  | StmtReturn
  /-- `/repo/ast/src/stmt.rs:156-159` -/
  | StmtBreak
  /-- `/repo/ast/src/stmt.rs:163-166` -/
  | StmtContinue
  /-- `/repo/ast/src/stmt.rs:170-173` -/
  | StmtThrow
  /-- `/repo/ast/src/stmt.rs:177-179` -/
  | StmtDebugger
  /-- `/repo/ast/src/stmt.rs:183-188` -/
  | StmtIf
  /-- `/repo/ast/src/stmt.rs:192-196` -/
  | StmtWith
  /-- `/repo/ast/src/stmt.rs:200-205` -/
  | StmtTry
  /-- `/repo/ast/src/stmt.rs:209-213` -/
  | CatchClause
  /-- `/repo/ast/src/stmt.rs:217-221` -/
  | StmtSwitch
  /-- `/repo/ast/src/stmt.rs:225-229` -/
  | SwitchCase
  /-- `/repo/ast/src/stmt.rs:233-237` -/
  | StmtDoWhile
  /-- `/repo/ast/src/stmt.rs:241-245` -/
  | StmtWhile
  /-- `/repo/ast/src/stmt.rs:249-255` -/
  | StmtFor
  /-- `/repo/ast/src/stmt.rs:266-271` -/
  | StmtForIn
  /-- `/repo/ast/src/stmt.rs:275-281` -/
  | StmtForOf
  /-- `/repo/ast/src/stmt.rs:293-297` -/
  | ForBinding
  /-- `/repo/ast/src/stmt.rs:301-305` -/
  | StmtLabeled
  /-- `/repo/ast/src/stmt.rs:309-315` -/
  | DeclImport
  /-- `/repo/ast/src/stmt.rs:325-329` -/
  | NamedImport
  /-- `/repo/ast/src/stmt.rs:343-346` -/
  | ExportDecl
  /-- `/repo/ast/src/stmt.rs:350-353` -/
  | ExportDefaultDecl
  /-- `/repo/ast/src/stmt.rs:357-360` -/
  | ExportDefaultExpr
  /-- `/repo/ast/src/stmt.rs:364-368` -/
  | ExportNamed
  /-- `/repo/ast/src/stmt.rs:372-376` -/
  | ExportNamespace
  /-- `/repo/ast/src/stmt.rs:386-390` -/
  | NamedExport
  /-- `/repo/ast/src/lib.rs:36-40` -/
  | StmtList
  /-- `/repo/ast/src/lib.rs:66-69` -/
  | Ident
deriving DecidableEq

/-- The enums of `/repo/ast/src` with derived serde implementations. -/
inductive EnumTy where
  /-- `/repo/ast/src/expr.rs:7-31` -/
  | Expr
  /-- `/repo/ast/src/expr.rs:105-150` -/
  | BinaryOperator
  /-- `/repo/ast/src/expr.rs:170-177` -/
  | LogicalOperator
  /-- `/repo/ast/src/expr.rs:196-211` -/
  | UnaryOperator
  /-- `/repo/ast/src/expr.rs:231-236` -/
  | UpdateOperator
  /-- `/repo/ast/src/expr.rs:292-295` -/
  | ArrowFunctionBody
  /-- `/repo/ast/src/expr.rs:323-326` -/
  | MemberObject
  /-- `/repo/ast/src/expr.rs:336-339` -/
  | MemberProperty
  /-- `/repo/ast/src/expr.rs:360-363` -/
  | Argument
  /-- `/repo/ast/src/expr.rs:383-410` -/
  | AssignmentOperator
  /-- `/repo/ast/src/expr.rs:433-437` -/
  | Callee
  /-- `/repo/ast/src/literal.rs:4-13` -/
  | Literal
  /-- `/repo/ast/src/literal.rs:17-20` -/
  | TemplatePart
  /-- `/repo/ast/src/literal.rs:53-57` -/
  | ArrayElement
  /-- `/repo/ast/src/literal.rs:67-72` -/
  | PropertyDefinition
  /-- `/repo/ast/src/class.rs:22-24` -/
  | ClassElement
  /-- `/repo/ast/src/method.rs:17-21` -/
  | MethodKind
  /-- `/repo/ast/src/binding.rs:4-8` -/
  | BindingPattern
  /-- `/repo/ast/src/binding.rs:29-32` -/
  | ObjectBindingProp
  /-- `/repo/ast/src/binding.rs:52-57` -/
  | PropertyName
  /-- `/repo/ast/src/assignment.rs:4-7` -/
  | PatternOrExpr
  /-- `/repo/ast/src/assignment.rs:11-14` -/
  | AssignmentPattern
  /-- `/repo/ast/src/assignment.rs:42-45` -/
  | AssignmentProp
  /-- `/repo/ast/src/stmt.rs:8-32` -/
  | Stmt
  /-- `/repo/ast/src/stmt.rs:138-145` -/
  | VariableKind
  /-- `/repo/ast/src/stmt.rs:259-262` -/
  | ForInit
  /-- `/repo/ast/src/stmt.rs:285-289` -/
  | ForDeclaration
  /-- `/repo/ast/src/stmt.rs:333-339` -/
  | DeclExport
  /-- `/repo/ast/src/lib.rs:43-46` -/
  | Program
deriving DecidableEq

/-- The types of the fields of the tree; `unit` is the type of the content of a unit variant. -/
inductive Ty where
  | unit | bool | string | char | span
  | opt (t : Ty)
  | vec (t : Ty)
  | struct (s : StructTy)
  | enum (e : EnumTy)
deriving DecidableEq

/-- The type of the model for a struct: for a struct that is part of a variant, the type of the variant. -/
@[reducible] def StructTy.sem : StructTy → Type
  | .ExprLiteral => Fajt.Expr
  | .ExprThis => Fajt.Expr
  | .ExprBinary => Fajt.Expr
  | .ExprLogical => Fajt.Expr
  | .ExprUnary => Fajt.Expr
  | .ExprUpdate => Fajt.Expr
  | .ExprYield => Fajt.Expr
  | .ExprConditional => Fajt.Expr
  | .ExprAwait => Fajt.Expr
  | .ExprSequence => Fajt.Expr
  | .ExprFunction => Fajt.Expr
  | .ExprArrowFunction => Fajt.Expr
  | .ExprParenthesized => Fajt.Expr
  | .ExprMember => Fajt.Expr
  | .ExprOptionalMember => Fajt.Expr
  | .Super => Fajt.Span
  | .ExprMetaProperty => Fajt.Expr
  | .ExprNew => Fajt.Expr
  | .ExprAssignment => Fajt.Expr
  | .ExprCall => Fajt.Expr
  | .ExprOptionalCall => Fajt.Expr
  | .ExprTaggedTemplate => Fajt.Expr
  | .LitString => Fajt.LitString
  | .LitTemplate => List Fajt.TemplatePart
  | .LitArray => List Fajt.ArrayElement
  | .LitObject => List Fajt.PropDef
  | .NamedProperty => Fajt.PropDef
  | .LitNumber => Fajt.Str
  | .DeclClass => Fajt.Stmt
  | .ExprClass => Fajt.Expr
  | .MethodDefinition => Fajt.MethodDef
  | .ArrayBinding => Fajt.BindingPattern
  | .ObjectBinding => Fajt.BindingPattern
  | .SingleNameBinding => Fajt.BindingProp
  | .NamedBinding => Fajt.BindingProp
  | .BindingElement => Fajt.BindingElement
  | .ArrayAssignmentPattern => Fajt.AssignPattern
  | .AssignmentElement => Fajt.AssignElement
  | .ObjectAssignmentPattern => Fajt.AssignPattern
  | .SingleNameAssignmentProp => Fajt.AssignProp
  | .NamedAssignmentProp => Fajt.AssignProp
  | .StmtExpr => Fajt.Stmt
  | .DeclFunction => Fajt.Stmt
  | .Body => Fajt.Body
  | .FormalParameters => Fajt.FormalParams
  | .StmtBlock => Fajt.Block
  | .StmtEmpty => Fajt.Stmt
  | .StmtVariable => Fajt.VarStmt
  | .VariableDeclaration => Fajt.VarDecl
  | .StmtReturn => Fajt.Stmt
  | .StmtBreak => Fajt.Stmt
  | .StmtContinue => Fajt.Stmt
  | .StmtThrow => Fajt.Stmt
  | .StmtDebugger => Fajt.Stmt
  | .StmtIf => Fajt.Stmt
  | .StmtWith => Fajt.Stmt
  | .StmtTry => Fajt.Stmt
  | .CatchClause => Fajt.CatchClause
  | .StmtSwitch => Fajt.Stmt
  | .SwitchCase => Fajt.SwitchCase
  | .StmtDoWhile => Fajt.Stmt
  | .StmtWhile => Fajt.Stmt
  | .StmtFor => Fajt.Stmt
  | .StmtForIn => Fajt.Stmt
  | .StmtForOf => Fajt.Stmt
  | .ForBinding => Fajt.ForDecl
  | .StmtLabeled => Fajt.Stmt
  | .DeclImport => Fajt.Stmt
  | .NamedImport => Fajt.NamedImport
  | .ExportDecl => Fajt.ExportDecl
  | .ExportDefaultDecl => Fajt.ExportDecl
  | .ExportDefaultExpr => Fajt.ExportDecl
  | .ExportNamed => Fajt.ExportDecl
  | .ExportNamespace => Fajt.ExportDecl
  | .NamedExport => Fajt.NamedExport
  | .StmtList => Fajt.Span × List Fajt.LitString × List Fajt.Stmt
  | .Ident => Fajt.Ident

/-- The type of the model for an enum. -/
@[reducible] def EnumTy.sem : EnumTy → Type
  | .Expr => Fajt.Expr
  | .BinaryOperator => Fajt.BinaryOp
  | .LogicalOperator => Fajt.LogicalOp
  | .UnaryOperator => Fajt.UnaryOp
  | .UpdateOperator => Fajt.UpdateOp
  | .ArrowFunctionBody => Fajt.ArrowBody
  | .MemberObject => Fajt.MemberObject
  | .MemberProperty => Fajt.MemberProp
  | .Argument => Fajt.Argument
  | .AssignmentOperator => Fajt.AssignOp
  | .Callee => Fajt.Callee
  | .Literal => Fajt.Literal
  | .TemplatePart => Fajt.TemplatePart
  | .ArrayElement => Fajt.ArrayElement
  | .PropertyDefinition => Fajt.PropDef
  | .ClassElement => Fajt.MethodDef
  | .MethodKind => Fajt.MethodKind
  | .BindingPattern => Fajt.BindingPattern
  | .ObjectBindingProp => Fajt.BindingProp
  | .PropertyName => Fajt.PropName
  | .PatternOrExpr => Fajt.PatternOrExpr
  | .AssignmentPattern => Fajt.AssignPattern
  | .AssignmentProp => Fajt.AssignProp
  | .Stmt => Fajt.Stmt
  | .VariableKind => Fajt.VarKind
  | .ForInit => Fajt.ForInit
  | .ForDeclaration => Fajt.ForDecl
  | .DeclExport => Fajt.ExportDecl
  | .Program => Fajt.Program

/-- The type of the model for a type. -/
@[reducible] def Ty.sem : Ty → Type
  | .unit => Unit
  | .bool => Bool
  | .string => Str
  | .char => Char
  | .span => Span
  | .opt t => Option t.sem
  | .vec t => List t.sem
  | .struct s => s.sem
  | .enum e => e.sem

/-- The values of the fields of a struct. -/
@[reducible] def Row : List (Str × Ty) → Type
  | [] => Unit
  | f :: fs => f.2.sem × Row fs

/-- The fields of a struct that have been read. -/
@[reducible] def Slots : List (Str × Ty) → Type
  | [] => Unit
  | f :: fs => Option f.2.sem × Slots fs

/-- The fields of the structs, see `StructTy` for the lines. -/
@[reducible] def StructTy.fields : StructTy → List (Str × Ty)
  | .ExprLiteral => [(c!"span", .span), (c!"literal", .enum .Literal)]
  | .ExprThis => [(c!"span", .span)]
  | .ExprBinary => [(c!"span", .span), (c!"operator", .enum .BinaryOperator), (c!"left", .enum .Expr), (c!"right", .enum .Expr)]
  | .ExprLogical => [(c!"span", .span), (c!"operator", .enum .LogicalOperator), (c!"left", .enum .Expr), (c!"right", .enum .Expr)]
  | .ExprUnary => [(c!"span", .span), (c!"operator", .enum .UnaryOperator), (c!"argument", .enum .Expr)]
  | .ExprUpdate => [(c!"span", .span), (c!"operator", .enum .UpdateOperator), (c!"prefix", .bool), (c!"argument", .enum .Expr)]
  | .ExprYield => [(c!"span", .span), (c!"argument", .opt (.enum .Expr)), (c!"delegate", .bool)]
  | .ExprConditional => [(c!"span", .span), (c!"condition", .enum .Expr), (c!"consequent", .enum .Expr), (c!"alternate", .enum .Expr)]
  | .ExprAwait => [(c!"span", .span), (c!"argument", .enum .Expr)]
  | .ExprSequence => [(c!"span", .span), (c!"expr", .vec (.enum .Expr))]
  | .ExprFunction => [(c!"span", .span), (c!"asynchronous", .bool), (c!"generator", .bool), (c!"identifier", .opt (.struct .Ident)), (c!"parameters", .struct .FormalParameters), (c!"body", .struct .Body)]
  | .ExprArrowFunction => [(c!"span", .span), (c!"asynchronous", .bool), (c!"binding_parameter", .bool), (c!"parameters", .struct .FormalParameters), (c!"body", .enum .ArrowFunctionBody)]
  | .ExprParenthesized => [(c!"span", .span), (c!"expression", .enum .Expr)]
  | .ExprMember => [(c!"span", .span), (c!"object", .enum .MemberObject), (c!"property", .enum .MemberProperty)]
  | .ExprOptionalMember => [(c!"span", .span), (c!"object", .enum .Expr), (c!"property", .enum .MemberProperty), (c!"optional", .bool)]
  | .Super => [(c!"span", .span)]
  | .ExprMetaProperty => [(c!"span", .span), (c!"meta", .struct .Ident), (c!"property", .struct .Ident)]
  | .ExprNew => [(c!"span", .span), (c!"callee", .enum .Expr), (c!"arguments_span", .opt .span), (c!"arguments", .vec (.enum .Argument))]
  | .ExprAssignment => [(c!"span", .span), (c!"operator", .enum .AssignmentOperator), (c!"left", .enum .PatternOrExpr), (c!"right", .enum .Expr)]
  | .ExprCall => [(c!"span", .span), (c!"callee", .enum .Callee), (c!"arguments_span", .span), (c!"arguments", .vec (.enum .Argument))]
  | .ExprOptionalCall => [(c!"span", .span), (c!"callee", .enum .Expr), (c!"arguments_span", .span), (c!"arguments", .vec (.enum .Argument)), (c!"optional", .bool)]
  | .ExprTaggedTemplate => [(c!"span", .span), (c!"callee", .enum .Expr), (c!"template", .struct .LitTemplate)]
  | .LitString => [(c!"value", .string), (c!"delimiter", .char)]
  | .LitTemplate => [(c!"parts", .vec (.enum .TemplatePart))]
  | .LitArray => [(c!"elements", .vec (.enum .ArrayElement))]
  | .LitObject => [(c!"props", .vec (.enum .PropertyDefinition))]
  | .NamedProperty => [(c!"span", .span), (c!"name", .enum .PropertyName), (c!"value", .enum .Expr)]
  | .LitNumber => [(c!"raw", .string)]
  | .DeclClass => [(c!"span", .span), (c!"identifier", .struct .Ident), (c!"super_class", .opt (.enum .Expr)), (c!"body", .vec (.enum .ClassElement))]
  | .ExprClass => [(c!"span", .span), (c!"identifier", .opt (.struct .Ident)), (c!"super_class", .opt (.enum .Expr)), (c!"body", .vec (.enum .ClassElement))]
  | .MethodDefinition => [(c!"span", .span), (c!"name", .enum .PropertyName), (c!"kind", .enum .MethodKind), (c!"parameters", .struct .FormalParameters), (c!"body", .struct .Body), (c!"generator", .bool), (c!"asynchronous", .bool), (c!"is_static", .bool)]
  | .ArrayBinding => [(c!"span", .span), (c!"elements", .vec (.opt (.struct .BindingElement))), (c!"rest", .opt (.enum .BindingPattern))]
  | .ObjectBinding => [(c!"span", .span), (c!"props", .vec (.enum .ObjectBindingProp)), (c!"rest", .opt (.enum .BindingPattern))]
  | .SingleNameBinding => [(c!"span", .span), (c!"ident", .struct .Ident), (c!"initializer", .opt (.enum .Expr))]
  | .NamedBinding => [(c!"span", .span), (c!"property", .enum .PropertyName), (c!"binding", .struct .BindingElement)]
  | .BindingElement => [(c!"span", .span), (c!"pattern", .enum .BindingPattern), (c!"initializer", .opt (.enum .Expr))]
  | .ArrayAssignmentPattern => [(c!"span", .span), (c!"elements", .vec (.opt (.struct .AssignmentElement))), (c!"rest", .opt (.enum .PatternOrExpr))]
  | .AssignmentElement => [(c!"span", .span), (c!"target", .enum .PatternOrExpr), (c!"initializer", .opt (.enum .Expr))]
  | .ObjectAssignmentPattern => [(c!"span", .span), (c!"props", .vec (.enum .AssignmentProp)), (c!"rest", .opt (.enum .PatternOrExpr))]
  | .SingleNameAssignmentProp => [(c!"span", .span), (c!"ident", .struct .Ident), (c!"initializer", .opt (.enum .Expr))]
  | .NamedAssignmentProp => [(c!"span", .span), (c!"name", .enum .PropertyName), (c!"value", .enum .PatternOrExpr), (c!"initializer", .opt (.enum .Expr))]
  | .StmtExpr => [(c!"span", .span), (c!"expr", .enum .Expr)]
  | .DeclFunction => [(c!"span", .span), (c!"asynchronous", .bool), (c!"generator", .bool), (c!"identifier", .struct .Ident), (c!"parameters", .struct .FormalParameters), (c!"body", .struct .Body)]
  | .Body => [(c!"span", .span), (c!"directives", .vec (.struct .LitString)), (c!"statements", .vec (.enum .Stmt))]
  | .FormalParameters => [(c!"span", .span), (c!"bindings", .vec (.struct .BindingElement)), (c!"rest", .opt (.enum .BindingPattern))]
  | .StmtBlock => [(c!"span", .span), (c!"statements", .vec (.enum .Stmt))]
  | .StmtEmpty => [(c!"span", .span)]
  | .StmtVariable => [(c!"span", .span), (c!"kind", .enum .VariableKind), (c!"declarations", .vec (.struct .VariableDeclaration))]
  | .VariableDeclaration => [(c!"span", .span), (c!"pattern", .enum .BindingPattern), (c!"initializer", .opt (.enum .Expr))]
  | .StmtReturn => [(c!"span", .span), (c!"argument", .opt (.enum .Expr))]
  | .StmtBreak => [(c!"span", .span), (c!"label", .opt (.struct .Ident))]
  | .StmtContinue => [(c!"span", .span), (c!"label", .opt (.struct .Ident))]
  | .StmtThrow => [(c!"span", .span), (c!"argument", .enum .Expr)]
  | .StmtDebugger => [(c!"span", .span)]
  | .StmtIf => [(c!"span", .span), (c!"condition", .enum .Expr), (c!"consequent", .enum .Stmt), (c!"alternate", .opt (.enum .Stmt))]
  | .StmtWith => [(c!"span", .span), (c!"object", .enum .Expr), (c!"body", .enum .Stmt)]
  | .StmtTry => [(c!"span", .span), (c!"block", .struct .StmtBlock), (c!"handler", .opt (.struct .CatchClause)), (c!"finalizer", .opt (.struct .StmtBlock))]
  | .CatchClause => [(c!"span", .span), (c!"parameter", .opt (.enum .BindingPattern)), (c!"body", .struct .StmtBlock)]
  | .StmtSwitch => [(c!"span", .span), (c!"discriminant", .enum .Expr), (c!"cases", .vec (.struct .SwitchCase))]
  | .SwitchCase => [(c!"span", .span), (c!"test", .opt (.enum .Expr)), (c!"consequent", .vec (.enum .Stmt))]
  | .StmtDoWhile => [(c!"span", .span), (c!"body", .enum .Stmt), (c!"test", .enum .Expr)]
  | .StmtWhile => [(c!"span", .span), (c!"test", .enum .Expr), (c!"body", .enum .Stmt)]
  | .StmtFor => [(c!"span", .span), (c!"init", .opt (.enum .ForInit)), (c!"test", .opt (.enum .Expr)), (c!"update", .opt (.enum .Expr)), (c!"body", .enum .Stmt)]
  | .StmtForIn => [(c!"span", .span), (c!"left", .enum .ForDeclaration), (c!"right", .enum .Expr), (c!"body", .enum .Stmt)]
  | .StmtForOf => [(c!"span", .span), (c!"left", .enum .ForDeclaration), (c!"right", .enum .Expr), (c!"body", .enum .Stmt), (c!"asynchronous", .bool)]
  | .ForBinding => [(c!"span", .span), (c!"kind", .enum .VariableKind), (c!"binding", .enum .BindingPattern)]
  | .StmtLabeled => [(c!"span", .span), (c!"label", .struct .Ident), (c!"body", .enum .Stmt)]
  | .DeclImport => [(c!"span", .span), (c!"default_binding", .opt (.struct .Ident)), (c!"namespace_binding", .opt (.struct .Ident)), (c!"named_imports", .opt (.vec (.struct .NamedImport))), (c!"from", .struct .LitString)]
  | .NamedImport => [(c!"span", .span), (c!"name", .struct .Ident), (c!"alias", .opt (.struct .Ident))]
  | .ExportDecl => [(c!"span", .span), (c!"decl", .enum .Stmt)]
  | .ExportDefaultDecl => [(c!"span", .span), (c!"decl", .enum .Stmt)]
  | .ExportDefaultExpr => [(c!"span", .span), (c!"expr", .enum .Expr)]
  | .ExportNamed => [(c!"span", .span), (c!"named_exports", .vec (.struct .NamedExport)), (c!"from", .opt (.struct .LitString))]
  | .ExportNamespace => [(c!"span", .span), (c!"alias", .opt (.struct .Ident)), (c!"from", .struct .LitString)]
  | .NamedExport => [(c!"span", .span), (c!"name", .struct .Ident), (c!"alias_of", .opt (.struct .Ident))]
  | .StmtList => [(c!"span", .span), (c!"directives", .vec (.struct .LitString)), (c!"body", .vec (.enum .Stmt))]
  | .Ident => [(c!"span", .span), (c!"name", .string)]

/-- The struct with these fields. -/
def StructTy.build : (s : StructTy) → Row s.fields → s.sem
  | .ExprLiteral, (x1, x2, ()) => .literal x1 x2
  | .ExprThis, (x1, ()) => .this x1
  | .ExprBinary, (x1, x2, x3, x4, ()) => .binary x1 x2 x3 x4
  | .ExprLogical, (x1, x2, x3, x4, ()) => .logical x1 x2 x3 x4
  | .ExprUnary, (x1, x2, x3, ()) => .unary x1 x2 x3
  | .ExprUpdate, (x1, x2, x3, x4, ()) => .update x1 x2 x3 x4
  | .ExprYield, (x1, x2, x3, ()) => .yield x1 x2 x3
  | .ExprConditional, (x1, x2, x3, x4, ()) => .conditional x1 x2 x3 x4
  | .ExprAwait, (x1, x2, ()) => .await x1 x2
  | .ExprSequence, (x1, x2, ()) => .sequence x1 x2
  | .ExprFunction, (x1, x2, x3, x4, x5, x6, ()) => .function x1 x2 x3 x4 x5 x6
  | .ExprArrowFunction, (x1, x2, x3, x4, x5, ()) => .arrow x1 x2 x3 x4 x5
  | .ExprParenthesized, (x1, x2, ()) => .paren x1 x2
  | .ExprMember, (x1, x2, x3, ()) => .member x1 x2 x3
  | .ExprOptionalMember, (x1, x2, x3, x4, ()) => .optMember x1 x2 x3 x4
  | .Super, (x1, ()) => x1
  | .ExprMetaProperty, (x1, x2, x3, ()) => .metaProp x1 x2 x3
  | .ExprNew, (x1, x2, x3, x4, ()) => .new x1 x2 x3 x4
  | .ExprAssignment, (x1, x2, x3, x4, ()) => .assign x1 x2 x3 x4
  | .ExprCall, (x1, x2, x3, x4, ()) => .call x1 x2 x3 x4
  | .ExprOptionalCall, (x1, x2, x3, x4, x5, ()) => .optCall x1 x2 x3 x4 x5
  | .ExprTaggedTemplate, (x1, x2, x3, ()) => .tagged x1 x2 x3
  | .LitString, (x1, x2, ()) => ⟨x1, x2⟩
  | .LitTemplate, (x1, ()) => x1
  | .LitArray, (x1, ()) => x1
  | .LitObject, (x1, ()) => x1
  | .NamedProperty, (x1, x2, x3, ()) => .named x1 x2 x3
  | .LitNumber, (x1, ()) => x1
  | .DeclClass, (x1, x2, x3, x4, ()) => .classDecl x1 x2 x3 x4
  | .ExprClass, (x1, x2, x3, x4, ()) => .classE x1 x2 x3 x4
  | .MethodDefinition, (x1, x2, x3, x4, x5, x6, x7, x8, ()) => .mk x1 x2 x3 x4 x5 x6 x7 x8
  | .ArrayBinding, (x1, x2, x3, ()) => .array x1 x2 x3
  | .ObjectBinding, (x1, x2, x3, ()) => .object x1 x2 x3
  | .SingleNameBinding, (x1, x2, x3, ()) => .single x1 x2 x3
  | .NamedBinding, (x1, x2, x3, ()) => .named x1 x2 x3
  | .BindingElement, (x1, x2, x3, ()) => .mk x1 x2 x3
  | .ArrayAssignmentPattern, (x1, x2, x3, ()) => .array x1 x2 x3
  | .AssignmentElement, (x1, x2, x3, ()) => .mk x1 x2 x3
  | .ObjectAssignmentPattern, (x1, x2, x3, ()) => .object x1 x2 x3
  | .SingleNameAssignmentProp, (x1, x2, x3, ()) => .single x1 x2 x3
  | .NamedAssignmentProp, (x1, x2, x3, x4, ()) => .named x1 x2 x3 x4
  | .StmtExpr, (x1, x2, ()) => .expr x1 x2
  | .DeclFunction, (x1, x2, x3, x4, x5, x6, ()) => .functionDecl x1 x2 x3 x4 x5 x6
  | .Body, (x1, x2, x3, ()) => .mk x1 x2 x3
  | .FormalParameters, (x1, x2, x3, ()) => .mk x1 x2 x3
  | .StmtBlock, (x1, x2, ()) => .mk x1 x2
  | .StmtEmpty, (x1, ()) => .empty x1
  | .StmtVariable, (x1, x2, x3, ()) => .mk x1 x2 x3
  | .VariableDeclaration, (x1, x2, x3, ()) => .mk x1 x2 x3
  | .StmtReturn, (x1, x2, ()) => .return x1 x2
  | .StmtBreak, (x1, x2, ()) => .break x1 x2
  | .StmtContinue, (x1, x2, ()) => .continue x1 x2
  | .StmtThrow, (x1, x2, ()) => .throw x1 x2
  | .StmtDebugger, (x1, ()) => .debugger x1
  | .StmtIf, (x1, x2, x3, x4, ()) => .if x1 x2 x3 x4
  | .StmtWith, (x1, x2, x3, ()) => .with x1 x2 x3
  | .StmtTry, (x1, x2, x3, x4, ()) => .try x1 x2 x3 x4
  | .CatchClause, (x1, x2, x3, ()) => .mk x1 x2 x3
  | .StmtSwitch, (x1, x2, x3, ()) => .switch x1 x2 x3
  | .SwitchCase, (x1, x2, x3, ()) => .mk x1 x2 x3
  | .StmtDoWhile, (x1, x2, x3, ()) => .doWhile x1 x2 x3
  | .StmtWhile, (x1, x2, x3, ()) => .while x1 x2 x3
  | .StmtFor, (x1, x2, x3, x4, x5, ()) => .for x1 x2 x3 x4 x5
  | .StmtForIn, (x1, x2, x3, x4, ()) => .forIn x1 x2 x3 x4
  | .StmtForOf, (x1, x2, x3, x4, x5, ()) => .forOf x1 x2 x3 x4 x5
  | .ForBinding, (x1, x2, x3, ()) => .declaration x1 x2 x3
  | .StmtLabeled, (x1, x2, x3, ()) => .labeled x1 x2 x3
  | .DeclImport, (x1, x2, x3, x4, x5, ()) => .importDecl x1 x2 x3 x4 x5
  | .NamedImport, (x1, x2, x3, ()) => ⟨x1, x2, x3⟩
  | .ExportDecl, (x1, x2, ()) => .decl x1 x2
  | .ExportDefaultDecl, (x1, x2, ()) => .defaultDecl x1 x2
  | .ExportDefaultExpr, (x1, x2, ()) => .defaultExpr x1 x2
  | .ExportNamed, (x1, x2, x3, ()) => .named x1 x2 x3
  | .ExportNamespace, (x1, x2, x3, ()) => .namespace x1 x2 x3
  | .NamedExport, (x1, x2, x3, ()) => ⟨x1, x2, x3⟩
  | .StmtList, (x1, x2, x3, ()) => (x1, x2, x3)
  | .Ident, (x1, x2, ()) => ⟨x1, x2⟩

/-- A variant of an enum: without content, or with content of a type. -/
inductive Variant (α : Type) where
  | unit (a : α)
  | new (t : Ty) (f : t.sem → α)

/-- The variants of the enums, see `EnumTy` for the lines. -/
def EnumTy.variants : (e : EnumTy) → List (Str × Variant e.sem)
  | .Expr => [(c!"ArrowFunction", .new (.struct .ExprArrowFunction) id), (c!"Assignment", .new (.struct .ExprAssignment) id), (c!"Await", .new (.struct .ExprAwait) id), (c!"Binary", .new (.struct .ExprBinary) id), (c!"Call", .new (.struct .ExprCall) id), (c!"Class", .new (.struct .ExprClass) id), (c!"Conditional", .new (.struct .ExprConditional) id), (c!"Function", .new (.struct .ExprFunction) id), (c!"IdentRef", .new (.struct .Ident) .ident), (c!"Literal", .new (.struct .ExprLiteral) id), (c!"Logical", .new (.struct .ExprLogical) id), (c!"Member", .new (.struct .ExprMember) id), (c!"MetaProperty", .new (.struct .ExprMetaProperty) id), (c!"New", .new (.struct .ExprNew) id), (c!"OptionalCall", .new (.struct .ExprOptionalCall) id), (c!"OptionalMember", .new (.struct .ExprOptionalMember) id), (c!"Parenthesized", .new (.struct .ExprParenthesized) id), (c!"Sequence", .new (.struct .ExprSequence) id), (c!"TaggedTemplate", .new (.struct .ExprTaggedTemplate) id), (c!"This", .new (.struct .ExprThis) id), (c!"Unary", .new (.struct .ExprUnary) id), (c!"Update", .new (.struct .ExprUpdate) id), (c!"Yield", .new (.struct .ExprYield) id)]
  | .BinaryOperator => [(c!"Plus", .unit .plus), (c!"Minus", .unit .minus), (c!"Multiplication", .unit .mul), (c!"Division", .unit .div), (c!"Modulus", .unit .mod), (c!"Exponent", .unit .exp), (c!"ShiftLeft", .unit .shl), (c!"ShiftRight", .unit .shr), (c!"ShiftRightUnsigned", .unit .ushr), (c!"LessThan", .unit .lt), (c!"MoreThan", .unit .gt), (c!"LessThanEquals", .unit .le), (c!"MoreThanEquals", .unit .ge), (c!"InstanceOf", .unit .instanceof), (c!"In", .unit .in_), (c!"Equal", .unit .eq), (c!"NotEqual", .unit .ne), (c!"StrictEqual", .unit .seq), (c!"StrictNotEqual", .unit .sne), (c!"BitwiseAnd", .unit .bitAnd), (c!"BitwiseXOR", .unit .bitXor), (c!"BitwiseOR", .unit .bitOr)]
  | .LogicalOperator => [(c!"And", .unit .and), (c!"Or", .unit .or), (c!"Coalesce", .unit .coalesce)]
  | .UnaryOperator => [(c!"Delete", .unit .delete), (c!"Void", .unit .void), (c!"Typeof", .unit .typeof), (c!"Plus", .unit .plus), (c!"Minus", .unit .minus), (c!"BitwiseNot", .unit .bitNot), (c!"Not", .unit .not)]
  | .UpdateOperator => [(c!"Increase", .unit .incr), (c!"Decrease", .unit .decr)]
  | .ArrowFunctionBody => [(c!"Expr", .new (.enum .Expr) .expr), (c!"Body", .new (.struct .Body) .body)]
  | .MemberObject => [(c!"Expr", .new (.enum .Expr) .expr), (c!"Super", .new (.struct .Super) .super)]
  | .MemberProperty => [(c!"Ident", .new (.struct .Ident) .ident), (c!"Expr", .new (.enum .Expr) .expr)]
  | .Argument => [(c!"Expr", .new (.enum .Expr) .expr), (c!"Spread", .new (.enum .Expr) .spread)]
  | .AssignmentOperator => [(c!"Assign", .unit .assign), (c!"Multiply", .unit .mul), (c!"Power", .unit .pow), (c!"Divide", .unit .div), (c!"Modulus", .unit .mod), (c!"Add", .unit .add), (c!"Sub", .unit .sub), (c!"LeftShift", .unit .shl), (c!"RightShift", .unit .shr), (c!"UnsignedRightShift", .unit .ushr), (c!"BitwiseAnd", .unit .bitAnd), (c!"BitwiseXOr", .unit .bitXor), (c!"BitwiseOr", .unit .bitOr)]
  | .Callee => [(c!"Super", .unit .super), (c!"Import", .unit .import), (c!"Expr", .new (.enum .Expr) .expr)]
  | .Literal => [(c!"Null", .unit .null), (c!"Boolean", .new .bool .boolean), (c!"String", .new (.struct .LitString) .string), (c!"Number", .new (.struct .LitNumber) .number), (c!"Array", .new (.struct .LitArray) .array), (c!"Object", .new (.struct .LitObject) .object), (c!"Regexp", .new .string .regexp), (c!"Template", .new (.struct .LitTemplate) .template)]
  | .TemplatePart => [(c!"String", .new .string .string), (c!"Expr", .new (.enum .Expr) .expr)]
  | .ArrayElement => [(c!"Elision", .unit .elision), (c!"Expr", .new (.enum .Expr) .expr), (c!"Spread", .new (.enum .Expr) .spread)]
  | .PropertyDefinition => [(c!"IdentRef", .new (.struct .Ident) .identRef), (c!"Spread", .new (.enum .Expr) .spread), (c!"Named", .new (.struct .NamedProperty) id), (c!"Method", .new (.struct .MethodDefinition) .method)]
  | .ClassElement => [(c!"Method", .new (.struct .MethodDefinition) id)]
  | .MethodKind => [(c!"Method", .unit .method), (c!"Get", .unit .get), (c!"Set", .unit .set)]
  | .BindingPattern => [(c!"Ident", .new (.struct .Ident) .ident), (c!"Array", .new (.struct .ArrayBinding) id), (c!"Object", .new (.struct .ObjectBinding) id)]
  | .ObjectBindingProp => [(c!"Single", .new (.struct .SingleNameBinding) id), (c!"Named", .new (.struct .NamedBinding) id)]
  | .PropertyName => [(c!"Ident", .new (.struct .Ident) .ident), (c!"String", .new (.struct .LitString) .string), (c!"Number", .new (.struct .LitNumber) .number), (c!"Computed", .new (.enum .Expr) .computed)]
  | .PatternOrExpr => [(c!"Expr", .new (.enum .Expr) .expr), (c!"AssignmentPattern", .new (.enum .AssignmentPattern) .pattern)]
  | .AssignmentPattern => [(c!"Array", .new (.struct .ArrayAssignmentPattern) id), (c!"Object", .new (.struct .ObjectAssignmentPattern) id)]
  | .AssignmentProp => [(c!"Single", .new (.struct .SingleNameAssignmentProp) id), (c!"Named", .new (.struct .NamedAssignmentProp) id)]
  | .Stmt => [(c!"Block", .new (.struct .StmtBlock) .block), (c!"Break", .new (.struct .StmtBreak) id), (c!"Continue", .new (.struct .StmtContinue) id), (c!"Debugger", .new (.struct .StmtDebugger) id), (c!"DoWhile", .new (.struct .StmtDoWhile) id), (c!"Empty", .new (.struct .StmtEmpty) id), (c!"Expr", .new (.struct .StmtExpr) id), (c!"For", .new (.struct .StmtFor) id), (c!"ForIn", .new (.struct .StmtForIn) id), (c!"ForOf", .new (.struct .StmtForOf) id), (c!"If", .new (.struct .StmtIf) id), (c!"Labeled", .new (.struct .StmtLabeled) id), (c!"Return", .new (.struct .StmtReturn) id), (c!"Switch", .new (.struct .StmtSwitch) id), (c!"Throw", .new (.struct .StmtThrow) id), (c!"Try", .new (.struct .StmtTry) id), (c!"Variable", .new (.struct .StmtVariable) .variable), (c!"While", .new (.struct .StmtWhile) id), (c!"With", .new (.struct .StmtWith) id), (c!"ClassDecl", .new (.struct .DeclClass) id), (c!"FunctionDecl", .new (.struct .DeclFunction) id), (c!"ImportDecl", .new (.struct .DeclImport) id), (c!"ExportDecl", .new (.enum .DeclExport) .exportDecl)]
  | .VariableKind => [(c!"Const", .unit .const), (c!"Let", .unit .let_), (c!"Var", .unit .var)]
  | .ForInit => [(c!"Expr", .new (.enum .Expr) .expr), (c!"Declaration", .new (.struct .StmtVariable) .declaration)]
  | .ForDeclaration => [(c!"Expr", .new (.enum .Expr) .expr), (c!"AssignmentPattern", .new (.enum .AssignmentPattern) .pattern), (c!"Declaration", .new (.struct .ForBinding) id)]
  | .DeclExport => [(c!"Decl", .new (.struct .ExportDecl) id), (c!"DefaultExpr", .new (.struct .ExportDefaultExpr) id), (c!"DefaultDecl", .new (.struct .ExportDefaultDecl) id), (c!"Named", .new (.struct .ExportNamed) id), (c!"Namespace", .new (.struct .ExportNamespace) id)]
  | .Program => [(c!"Script", .new (.struct .StmtList) fun (s, d, b) => ⟨.script, s, d, b⟩), (c!"Module", .new (.struct .StmtList) fun (s, d, b) => ⟨.module, s, d, b⟩)]

/-- The result of deserialising a value as a value of any type. -/
abbrev DeserAs := (t : Ty) → Deser t.sem

/-- The derived `visit_map`: the field of this name is read, unless it has been read before; other fields are skipped. -/
def putField (k : Str) (o : DeserAs) : (fs : List (Str × Ty)) → Slots fs → Deser (Slots fs)
  | [], u => .ok u
  | f :: fs, (a, r) =>
    if k = f.1 then
      match a with
      | some _ => .err []
      | none => (o f.2).map fun x => (some x, r)
    else (putField k o fs r).map fun r' => (a, r')

/-- The derived `visit_map`: the fields in order. -/
def putFields (fs : List (Str × Ty)) : List (Str × DeserAs) → Slots fs → Deser (Slots fs)
  | [], s => .ok s
  | (k, o) :: kvs, s => (putField k o fs s).bind (putFields fs kvs)

/-- A field that was not read: only an `Option` may be missing. -/
def missing : (t : Ty) → Deser t.sem
  | .opt _ => .ok none
  | _ => .err []

/-- The end of the derived `visit_map`. -/
def finish : (fs : List (Str × Ty)) → Slots fs → Deser (Row fs)
  | [], _ => .ok ()
  | f :: fs, (a, r) =>
    (match a with
     | some x => Deser.ok x
     | none => missing f.2).bind fun x => (finish fs r).map fun r' => (x, r')

/-- No field has been read. -/
def emptySlots : (fs : List (Str × Ty)) → Slots fs
  | [] => ()
  | _ :: fs => (none, emptySlots fs)

/-- The derived `visit_seq`: the fields in order, neither fewer nor more. -/
def visitSeq : (fs : List (Str × Ty)) → List DeserAs → Deser (Row fs)
  | [], [] => .ok ()
  | [], _ :: _ => .err []
  | _ :: _, [] => .err []
  | f :: fs, o :: os => (o f.2).bind fun x => (visitSeq fs os).map fun r => (x, r)

/-- The elements of a `Vec`. -/
def visitElems (t : Ty) : List DeserAs → Deser (List t.sem)
  | [] => .ok []
  | o :: os => (o t).bind fun x => (visitElems t os).map fun l => x :: l

/-- The variant of this name. -/
def variantOf (e : EnumTy) (k : Str) : Option (Variant e.sem) := (e.variants.find? (fun v => v.1 == k)).map Prod.snd

/-- `null` as a value of a type. -/
def decodeNull : (t : Ty) → Deser t.sem
  | .unit => .ok ()
  | .opt _ => .ok none
  | _ => .err []

/-- A boolean as a value of a type. -/
def decodeBool (b : Bool) : (t : Ty) → Deser t.sem
  | .bool => .ok b
  | .opt t => (decodeBool b t).map some
  | _ => .err []

/-- A string as a value of a type: a text, a character, a span, a unit variant. -/
def decodeStr (s : Str) : (t : Ty) → Deser t.sem
  | .string => .ok s
  | .char =>
    match s with
    | [c] => .ok c
    | _ => .err []
  | .span => Span.deserialize s
  | .enum e =>
    match variantOf e s with
    | some (.unit a) => .ok a
    | _ => .err []
  | .opt t => (decodeStr s t).map some
  | _ => .err []

/-- An array as a value of a type. -/
def decodeArr (os : List DeserAs) : (t : Ty) → Deser t.sem
  | .vec t => visitElems t os
  | .struct s => (visitSeq s.fields os).map s.build
  | .opt t => (decodeArr os t).map some
  | _ => .err []

/-- An object as a value of a type: a struct, or a variant with content. -/
def decodeObj (kvs : List (Str × DeserAs)) : (t : Ty) → Deser t.sem
  | .struct s => ((putFields s.fields kvs (emptySlots s.fields)).bind (finish s.fields)).map s.build
  | .enum e =>
    match kvs with
    | [] => .err []
    | (k, o) :: rest =>
      (match variantOf e k with
       | some (.unit a) => (o .unit).map fun _ => a
       | some (.new t f) => (o t).map f
       | none => .err []).bind fun a => if rest.isEmpty then .ok a else .err []
  | .opt t => (decodeObj kvs t).map some
  | _ => .err []

mutual

/-- Deserialising: the value `j` as a value of any type. -/
def decode : Json → DeserAs
  | .null => decodeNull
  | .bool b => decodeBool b
  | .str s => decodeStr s
  | .arr vs => decodeArr (decodes vs)
  | .obj kvs => decodeObj (decodeFields kvs)
termination_by structural x => x

/-- The elements of an array. -/
def decodes : List Json → List DeserAs
  | [] => []
  | v :: vs => decode v :: decodes vs
termination_by structural x => x

/-- The fields of an object. -/
def decodeFields : List (Str × Json) → List (Str × DeserAs)
  | [] => []
  | kv :: kvs => decodeField kv :: decodeFields kvs
termination_by structural x => x

/-- A field of an object. -/
def decodeField : Str × Json → Str × DeserAs
  | (k, v) => (k, decode v)
termination_by structural x => x

end

/-- Deserialising a program, e.g. `serde_json::from_str::<Program>`. -/
def Program.fromJson (j : Json) : Deser Program := decode j (.enum .Program)

end Fajt
