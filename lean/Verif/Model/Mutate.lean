import Verif.Model.Ast
/-!
# Visitors that change the nodes they visit (`/repo/ast/src/traverse/mod.rs`, `/repo/ast/src/traverse/macros.rs`)

The hooks of a `Visitor` get a `&mut` reference to the node, and can replace it.  Here a hook returns the new node.  This file
was written by `tools/gen_mutate.py` from the declarations in `/repo/ast/src` and the table in `traverse/mod.rs:33-539`.

The traversal of a replaced node need not end (a hook can grow the tree while it is traversed), so that `traverse` has a bound on
the depth of the recursion: `none` means that the recursion is deeper than that.

Simplification: `Box` is dropped, `Vec` is `List`, as in `Verif.Model.Ast`.  A struct that is inlined there is a tuple here.
-/
namespace Fajt

/-- The types for which the macro generates an implementation of `Traverse` and hooks: the rows of the table. -/
inductive Kind where
  /-- mod.rs:35-38, `enter_program`, `exit_program` -/
  | program
  /-- mod.rs:40-64, `enter_expr`, `exit_expr` -/
  | expr
  /-- mod.rs:66-90, `enter_stmt`, `exit_stmt` -/
  | stmt
  /-- mod.rs:92-96, `enter_binding_pattern`, `exit_binding_pattern` -/
  | bindingPattern
  /-- mod.rs:98-104, `enter_literal`, `exit_literal` -/
  | literal
  /-- mod.rs:106-106, `enter_number_literal`, `exit_number_literal` -/
  | litNumber
  /-- mod.rs:108-110, `enter_template_part`, `exit_template_part` -/
  | templatePart
  /-- mod.rs:112-115, `enter_object_binding_prop`, `exit_object_binding_prop` -/
  | objectBindingProp
  /-- mod.rs:117-122, `enter_property_name`, `exit_property_name` -/
  | propertyName
  /-- mod.rs:124-126, `enter_class_element`, `exit_class_element` -/
  | classElement
  /-- mod.rs:128-131, `enter_for_init`, `exit_for_init` -/
  | forInit
  /-- mod.rs:133-137, `enter_for_declaration`, `exit_for_declaration` -/
  | forDeclaration
  /-- mod.rs:139-141, `enter_callee`, `exit_callee` -/
  | callee
  /-- mod.rs:143-146, `enter_argument`, `exit_argument` -/
  | argument
  /-- mod.rs:148-151, `enter_member_object`, `exit_member_object` -/
  | memberObject
  /-- mod.rs:153-153, `enter_super`, `exit_super` -/
  | super
  /-- mod.rs:155-158, `enter_member_property`, `exit_member_property` -/
  | memberProperty
  /-- mod.rs:160-163, `enter_array_element`, `exit_array_element` -/
  | arrayElement
  /-- mod.rs:165-168, `enter_arrow_function_body`, `exit_arrow_function_body` -/
  | arrowFunctionBody
  /-- mod.rs:170-175, `enter_property_definition`, `exit_property_definition` -/
  | propertyDefinition
  /-- mod.rs:177-177, `enter_binary_operator`, `exit_binary_operator` -/
  | binaryOperator
  /-- mod.rs:179-179, `enter_logical_operator`, `exit_logical_operator` -/
  | logicalOperator
  /-- mod.rs:181-181, `enter_assignment_operator`, `exit_assignment_operator` -/
  | assignmentOperator
  /-- mod.rs:183-183, `enter_unary_operator`, `exit_unary_operator` -/
  | unaryOperator
  /-- mod.rs:185-185, `enter_update_operator`, `exit_update_operator` -/
  | updateOperator
  /-- mod.rs:187-193, `enter_export`, `exit_export` -/
  | declExport
  /-- mod.rs:195-198, `enter_pattern_or_expr`, `exit_pattern_or_expr` -/
  | patternOrExpr
  /-- mod.rs:200-202, `enter_assignment_pattern`, `exit_assignment_pattern` -/
  | assignmentPattern
  /-- mod.rs:208-212, `enter_function_decl`, `exit_function_decl` -/
  | declFunction
  /-- mod.rs:214-218, `enter_class_decl`, `exit_class_decl` -/
  | declClass
  /-- mod.rs:220-225, `enter_import`, `exit_import` -/
  | declImport
  /-- mod.rs:227-229, `enter_stmt_expr`, `exit_stmt_expr` -/
  | stmtExpr
  /-- mod.rs:231-233, `enter_block_stmt`, `exit_block_stmt` -/
  | stmtBlock
  /-- mod.rs:235-239, `enter_binary_expr`, `exit_binary_expr` -/
  | exprBinary
  /-- mod.rs:241-245, `enter_logical_expr`, `exit_logical_expr` -/
  | exprLogical
  /-- mod.rs:247-250, `enter_unary_expr`, `exit_unary_expr` -/
  | exprUnary
  /-- mod.rs:252-255, `enter_call_expr`, `exit_call_expr` -/
  | exprCall
  /-- mod.rs:257-260, `enter_member_expr`, `exit_member_expr` -/
  | exprMember
  /-- mod.rs:262-265, `enter_optional_member_expr`, `exit_optional_member_expr` -/
  | exprOptionalMember
  /-- mod.rs:267-270, `enter_optional_call_expr`, `exit_optional_call_expr` -/
  | exprOptionalCall
  /-- mod.rs:272-274, `enter_parenthesized_expr`, `exit_parenthesized_expr` -/
  | exprParenthesized
  /-- mod.rs:276-278, `enter_literal_expr`, `exit_literal_expr` -/
  | exprLiteral
  /-- mod.rs:280-284, `enter_assignment_expr`, `exit_assignment_expr` -/
  | exprAssignment
  /-- mod.rs:286-288, `enter_yield_expr`, `exit_yield_expr` -/
  | exprYield
  /-- mod.rs:290-294, `enter_conditional_expr`, `exit_conditional_expr` -/
  | exprConditional
  /-- mod.rs:296-299, `enter_update_expr`, `exit_update_expr` -/
  | exprUpdate
  /-- mod.rs:301-303, `enter_sequence_expr`, `exit_sequence_expr` -/
  | exprSequence
  /-- mod.rs:305-305, `enter_this_expr`, `exit_this_expr` -/
  | exprThis
  /-- mod.rs:307-311, `enter_function_expr`, `exit_function_expr` -/
  | exprFunction
  /-- mod.rs:313-316, `enter_new_expr`, `exit_new_expr` -/
  | exprNew
  /-- mod.rs:318-321, `enter_arrow_function`, `exit_arrow_function` -/
  | exprArrowFunction
  /-- mod.rs:323-325, `enter_await_expr`, `exit_await_expr` -/
  | exprAwait
  /-- mod.rs:327-330, `enter_meta_property`, `exit_meta_property` -/
  | exprMetaProperty
  /-- mod.rs:332-336, `enter_class_expr`, `exit_class_expr` -/
  | exprClass
  /-- mod.rs:338-340, `enter_return_stmt`, `exit_return_stmt` -/
  | stmtReturn
  /-- mod.rs:342-344, `enter_variable_stmt`, `exit_variable_stmt` -/
  | stmtVariable
  /-- mod.rs:346-346, `enter_empty_statement`, `exit_empty_statement` -/
  | stmtEmpty
  /-- mod.rs:348-352, `enter_try_stmt`, `exit_try_stmt` -/
  | stmtTry
  /-- mod.rs:354-354, `enter_debugger_stmt`, `exit_debugger_stmt` -/
  | stmtDebugger
  /-- mod.rs:356-358, `enter_throw_stmt`, `exit_throw_stmt` -/
  | stmtThrow
  /-- mod.rs:360-363, `enter_labeled_stmt`, `exit_labeled_stmt` -/
  | stmtLabeled
  /-- mod.rs:365-368, `enter_with_stmt`, `exit_with_stmt` -/
  | stmtWith
  /-- mod.rs:370-372, `enter_continue_stmt`, `exit_continue_stmt` -/
  | stmtContinue
  /-- mod.rs:374-376, `enter_break_stmt`, `exit_break_stmt` -/
  | stmtBreak
  /-- mod.rs:378-381, `enter_switch_stmt`, `exit_switch_stmt` -/
  | stmtSwitch
  /-- mod.rs:383-387, `enter_if_stmt`, `exit_if_stmt` -/
  | stmtIf
  /-- mod.rs:389-394, `enter_for_stmt`, `exit_for_stmt` -/
  | stmtFor
  /-- mod.rs:396-400, `enter_for_of_stmt`, `exit_for_of_stmt` -/
  | stmtForOf
  /-- mod.rs:402-406, `enter_for_in_stmt`, `exit_for_in_stmt` -/
  | stmtForIn
  /-- mod.rs:408-411, `enter_while_stmt`, `exit_while_stmt` -/
  | stmtWhile
  /-- mod.rs:413-416, `enter_do_while_stmt`, `exit_do_while_stmt` -/
  | stmtDoWhile
  /-- mod.rs:418-421, `enter_stmt_list`, `exit_stmt_list` -/
  | stmtList
  /-- mod.rs:423-426, `enter_binding_element`, `exit_binding_element` -/
  | bindingElement
  /-- mod.rs:428-431, `enter_formal_parameters`, `exit_formal_parameters` -/
  | formalParameters
  /-- mod.rs:433-436, `enter_variable_declaration`, `exit_variable_declaration` -/
  | variableDeclaration
  /-- mod.rs:438-438, `enter_string_literal`, `exit_string_literal` -/
  | litString
  /-- mod.rs:440-442, `enter_template_literal`, `exit_template_literal` -/
  | litTemplate
  /-- mod.rs:444-446, `enter_array_literal`, `exit_array_literal` -/
  | litArray
  /-- mod.rs:448-450, `enter_object_literal`, `exit_object_literal` -/
  | litObject
  /-- mod.rs:452-455, `enter_array_binding`, `exit_array_binding` -/
  | arrayBinding
  /-- mod.rs:457-460, `enter_object_binding`, `exit_object_binding` -/
  | objectBinding
  /-- mod.rs:462-465, `enter_single_name_binding`, `exit_single_name_binding` -/
  | singleNameBinding
  /-- mod.rs:467-470, `enter_named_binding`, `exit_named_binding` -/
  | namedBinding
  /-- mod.rs:472-475, `enter_named_property`, `exit_named_property` -/
  | namedProperty
  /-- mod.rs:477-481, `enter_method_definition`, `exit_method_definition` -/
  | methodDefinition
  /-- mod.rs:483-486, `enter_catch_clause`, `exit_catch_clause` -/
  | catchClause
  /-- mod.rs:488-491, `enter_switch_case`, `exit_switch_case` -/
  | switchCase
  /-- mod.rs:493-495, `enter_export_decl`, `exit_export_decl` -/
  | exportDecl
  /-- mod.rs:497-499, `enter_export_default_decl`, `exit_export_default_decl` -/
  | exportDefaultDecl
  /-- mod.rs:501-503, `enter_export_default_expr`, `exit_export_default_expr` -/
  | exportDefaultExpr
  /-- mod.rs:505-508, `enter_tagged_template_expr`, `exit_tagged_template_expr` -/
  | exprTaggedTemplate
  /-- mod.rs:510-513, `enter_export_named`, `exit_export_named` -/
  | exportNamed
  /-- mod.rs:515-518, `enter_export_namespace`, `exit_export_namespace` -/
  | exportNamespace
  /-- mod.rs:520-523, `enter_named_export`, `exit_named_export` -/
  | namedExport
  /-- mod.rs:525-528, `enter_named_import`, `exit_named_import` -/
  | namedImport
  /-- mod.rs:530-530, `enter_ident`, `exit_ident` -/
  | ident
  /-- mod.rs:532-535, `enter_body`, `exit_body` -/
  | body
  /-- mod.rs:537-537, `enter_for_binding`, `exit_for_binding` -/
  | forBinding
deriving DecidableEq, Repr

/-- The values of these types. -/
@[reducible] def Kind.Val : Kind → Type
  | .program => Fajt.Program
  | .expr => Fajt.Expr
  | .stmt => Fajt.Stmt
  | .bindingPattern => Fajt.BindingPattern
  | .literal => Fajt.Literal
  | .litNumber => Fajt.Str
  | .templatePart => Fajt.TemplatePart
  | .objectBindingProp => Fajt.BindingProp
  | .propertyName => Fajt.PropName
  | .classElement => Fajt.MethodDef
  | .forInit => Fajt.ForInit
  | .forDeclaration => Fajt.ForDecl
  | .callee => Fajt.Callee
  | .argument => Fajt.Argument
  | .memberObject => Fajt.MemberObject
  | .super => Fajt.Span
  | .memberProperty => Fajt.MemberProp
  | .arrayElement => Fajt.ArrayElement
  | .arrowFunctionBody => Fajt.ArrowBody
  | .propertyDefinition => Fajt.PropDef
  | .binaryOperator => Fajt.BinaryOp
  | .logicalOperator => Fajt.LogicalOp
  | .assignmentOperator => Fajt.AssignOp
  | .unaryOperator => Fajt.UnaryOp
  | .updateOperator => Fajt.UpdateOp
  | .declExport => Fajt.ExportDecl
  | .patternOrExpr => Fajt.PatternOrExpr
  | .assignmentPattern => Fajt.AssignPattern
  | .declFunction => Fajt.Span × Bool × Bool × Fajt.Ident × Fajt.FormalParams × Fajt.Body
  | .declClass => Fajt.Span × Fajt.Ident × Option (Fajt.Expr) × List (Fajt.MethodDef)
  | .declImport => Fajt.Span × Option (Fajt.Ident) × Option (Fajt.Ident) × Option (List (Fajt.NamedImport)) × Fajt.LitString
  | .stmtExpr => Fajt.Span × Fajt.Expr
  | .stmtBlock => Fajt.Block
  | .exprBinary => Fajt.Span × Fajt.BinaryOp × Fajt.Expr × Fajt.Expr
  | .exprLogical => Fajt.Span × Fajt.LogicalOp × Fajt.Expr × Fajt.Expr
  | .exprUnary => Fajt.Span × Fajt.UnaryOp × Fajt.Expr
  | .exprCall => Fajt.Span × Fajt.Callee × Fajt.Span × List (Fajt.Argument)
  | .exprMember => Fajt.Span × Fajt.MemberObject × Fajt.MemberProp
  | .exprOptionalMember => Fajt.Span × Fajt.Expr × Fajt.MemberProp × Bool
  | .exprOptionalCall => Fajt.Span × Fajt.Expr × Fajt.Span × List (Fajt.Argument) × Bool
  | .exprParenthesized => Fajt.Span × Fajt.Expr
  | .exprLiteral => Fajt.Span × Fajt.Literal
  | .exprAssignment => Fajt.Span × Fajt.AssignOp × Fajt.PatternOrExpr × Fajt.Expr
  | .exprYield => Fajt.Span × Option (Fajt.Expr) × Bool
  | .exprConditional => Fajt.Span × Fajt.Expr × Fajt.Expr × Fajt.Expr
  | .exprUpdate => Fajt.Span × Fajt.UpdateOp × Bool × Fajt.Expr
  | .exprSequence => Fajt.Span × List (Fajt.Expr)
  | .exprThis => Fajt.Span
  | .exprFunction => Fajt.Span × Bool × Bool × Option (Fajt.Ident) × Fajt.FormalParams × Fajt.Body
  | .exprNew => Fajt.Span × Fajt.Expr × Option (Fajt.Span) × List (Fajt.Argument)
  | .exprArrowFunction => Fajt.Span × Bool × Bool × Fajt.FormalParams × Fajt.ArrowBody
  | .exprAwait => Fajt.Span × Fajt.Expr
  | .exprMetaProperty => Fajt.Span × Fajt.Ident × Fajt.Ident
  | .exprClass => Fajt.Span × Option (Fajt.Ident) × Option (Fajt.Expr) × List (Fajt.MethodDef)
  | .stmtReturn => Fajt.Span × Option (Fajt.Expr)
  | .stmtVariable => Fajt.VarStmt
  | .stmtEmpty => Fajt.Span
  | .stmtTry => Fajt.Span × Fajt.Block × Option (Fajt.CatchClause) × Option (Fajt.Block)
  | .stmtDebugger => Fajt.Span
  | .stmtThrow => Fajt.Span × Fajt.Expr
  | .stmtLabeled => Fajt.Span × Fajt.Ident × Fajt.Stmt
  | .stmtWith => Fajt.Span × Fajt.Expr × Fajt.Stmt
  | .stmtContinue => Fajt.Span × Option (Fajt.Ident)
  | .stmtBreak => Fajt.Span × Option (Fajt.Ident)
  | .stmtSwitch => Fajt.Span × Fajt.Expr × List (Fajt.SwitchCase)
  | .stmtIf => Fajt.Span × Fajt.Expr × Fajt.Stmt × Option (Fajt.Stmt)
  | .stmtFor => Fajt.Span × Option (Fajt.ForInit) × Option (Fajt.Expr) × Option (Fajt.Expr) × Fajt.Stmt
  | .stmtForOf => Fajt.Span × Fajt.ForDecl × Fajt.Expr × Fajt.Stmt × Bool
  | .stmtForIn => Fajt.Span × Fajt.ForDecl × Fajt.Expr × Fajt.Stmt
  | .stmtWhile => Fajt.Span × Fajt.Expr × Fajt.Stmt
  | .stmtDoWhile => Fajt.Span × Fajt.Stmt × Fajt.Expr
  | .stmtList => Fajt.Span × List Fajt.LitString × List Fajt.Stmt
  | .bindingElement => Fajt.BindingElement
  | .formalParameters => Fajt.FormalParams
  | .variableDeclaration => Fajt.VarDecl
  | .litString => Fajt.LitString
  | .litTemplate => List Fajt.TemplatePart
  | .litArray => List Fajt.ArrayElement
  | .litObject => List Fajt.PropDef
  | .arrayBinding => Fajt.Span × List (Option (Fajt.BindingElement)) × Option (Fajt.BindingPattern)
  | .objectBinding => Fajt.Span × List (Fajt.BindingProp) × Option (Fajt.BindingPattern)
  | .singleNameBinding => Fajt.Span × Fajt.Ident × Option (Fajt.Expr)
  | .namedBinding => Fajt.Span × Fajt.PropName × Fajt.BindingElement
  | .namedProperty => Fajt.Span × Fajt.PropName × Fajt.Expr
  | .methodDefinition => Fajt.MethodDef
  | .catchClause => Fajt.CatchClause
  | .switchCase => Fajt.SwitchCase
  | .exportDecl => Fajt.Span × Fajt.Stmt
  | .exportDefaultDecl => Fajt.Span × Fajt.Stmt
  | .exportDefaultExpr => Fajt.Span × Fajt.Expr
  | .exprTaggedTemplate => Fajt.Span × Fajt.Expr × List Fajt.TemplatePart
  | .exportNamed => Fajt.Span × List (Fajt.NamedExport) × Option (Fajt.LitString)
  | .exportNamespace => Fajt.Span × Option (Fajt.Ident) × Fajt.LitString
  | .namedExport => Fajt.NamedExport
  | .namedImport => Fajt.NamedImport
  | .ident => Fajt.Ident
  | .body => Fajt.Body
  | .forBinding => Fajt.Span × Fajt.VarKind × Fajt.BindingPattern

/-- What the traversal of the children of a node does: visit one after the other, and put the results in their places. -/
inductive Plan (α : Type) : Type where
  | ret (a : α)
  | visit (k : Kind) (x : k.Val) (next : k.Val → Plan α)

/-- `/repo/ast/src/traverse/mod.rs:22-28` `Traverse for Option<F>`, followed by `next`. -/
def Plan.opt {α : Type} (k : Kind) (x : Option k.Val) (next : Option k.Val → Plan α) : Plan α :=
  match x with
  | none => next none
  | some a => .visit k a fun a => next (some a)

/-- `/repo/ast/src/traverse/mod.rs:10-14` `Traverse for Vec<F>`, followed by `next`. -/
def Plan.list {α : Type} (k : Kind) (l : List k.Val) (next : List k.Val → Plan α) : Plan α :=
  match l with
  | [] => next []
  | a :: as => .visit k a fun a => Plan.list k as fun as => next (a :: as)

/-- The same for `Vec<Option<F>>`. -/
def Plan.listOpt {α : Type} (k : Kind) (l : List (Option k.Val)) (next : List (Option k.Val) → Plan α) : Plan α :=
  match l with
  | [] => next []
  | a :: as => .opt k a fun a => Plan.listOpt k as fun as => next (a :: as)

/-- The same for `Option<Vec<F>>`. -/
def Plan.optList {α : Type} (k : Kind) (x : Option (List k.Val)) (next : Option (List k.Val) → Plan α) : Plan α :=
  match x with
  | none => next none
  | some l => .list k l fun l => next (some l)

/-- The children of the nodes, as listed in the table `/repo/ast/src/traverse/mod.rs:33-539`; the variants that are not listed
have no children (`macros.rs:33-34`). -/
def plan : (k : Kind) → k.Val → Plan k.Val
  -- mod.rs:35-38
  | .program, ⟨st, x1, x2, x3⟩ => Plan.visit .stmtList (x1, x2, x3) fun (x1, x2, x3) => .ret ⟨st, x1, x2, x3⟩
  -- mod.rs:40-64
  | .expr, .arrow x1 x2 x3 x4 x5 => .visit .exprArrowFunction (x1, x2, x3, x4, x5) fun (x1, x2, x3, x4, x5) => .ret (.arrow x1 x2 x3 x4 x5)
  | .expr, .assign x1 x2 x3 x4 => .visit .exprAssignment (x1, x2, x3, x4) fun (x1, x2, x3, x4) => .ret (.assign x1 x2 x3 x4)
  | .expr, .await x1 x2 => .visit .exprAwait (x1, x2) fun (x1, x2) => .ret (.await x1 x2)
  | .expr, .binary x1 x2 x3 x4 => .visit .exprBinary (x1, x2, x3, x4) fun (x1, x2, x3, x4) => .ret (.binary x1 x2 x3 x4)
  | .expr, .call x1 x2 x3 x4 => .visit .exprCall (x1, x2, x3, x4) fun (x1, x2, x3, x4) => .ret (.call x1 x2 x3 x4)
  | .expr, .classE x1 x2 x3 x4 => .visit .exprClass (x1, x2, x3, x4) fun (x1, x2, x3, x4) => .ret (.classE x1 x2 x3 x4)
  | .expr, .conditional x1 x2 x3 x4 => .visit .exprConditional (x1, x2, x3, x4) fun (x1, x2, x3, x4) => .ret (.conditional x1 x2 x3 x4)
  | .expr, .function x1 x2 x3 x4 x5 x6 => .visit .exprFunction (x1, x2, x3, x4, x5, x6) fun (x1, x2, x3, x4, x5, x6) => .ret (.function x1 x2 x3 x4 x5 x6)
  | .expr, .ident x1 => .visit .ident x1 fun x1 => .ret (.ident x1)
  | .expr, .literal x1 x2 => .visit .exprLiteral (x1, x2) fun (x1, x2) => .ret (.literal x1 x2)
  | .expr, .logical x1 x2 x3 x4 => .visit .exprLogical (x1, x2, x3, x4) fun (x1, x2, x3, x4) => .ret (.logical x1 x2 x3 x4)
  | .expr, .member x1 x2 x3 => .visit .exprMember (x1, x2, x3) fun (x1, x2, x3) => .ret (.member x1 x2 x3)
  | .expr, .metaProp x1 x2 x3 => .visit .exprMetaProperty (x1, x2, x3) fun (x1, x2, x3) => .ret (.metaProp x1 x2 x3)
  | .expr, .new x1 x2 x3 x4 => .visit .exprNew (x1, x2, x3, x4) fun (x1, x2, x3, x4) => .ret (.new x1 x2 x3 x4)
  | .expr, .optCall x1 x2 x3 x4 x5 => .visit .exprOptionalCall (x1, x2, x3, x4, x5) fun (x1, x2, x3, x4, x5) => .ret (.optCall x1 x2 x3 x4 x5)
  | .expr, .optMember x1 x2 x3 x4 => .visit .exprOptionalMember (x1, x2, x3, x4) fun (x1, x2, x3, x4) => .ret (.optMember x1 x2 x3 x4)
  | .expr, .paren x1 x2 => .visit .exprParenthesized (x1, x2) fun (x1, x2) => .ret (.paren x1 x2)
  | .expr, .sequence x1 x2 => .visit .exprSequence (x1, x2) fun (x1, x2) => .ret (.sequence x1 x2)
  | .expr, .tagged x1 x2 x3 => .visit .exprTaggedTemplate (x1, x2, x3) fun (x1, x2, x3) => .ret (.tagged x1 x2 x3)
  | .expr, .this x1 => .visit .exprThis x1 fun x1 => .ret (.this x1)
  | .expr, .unary x1 x2 x3 => .visit .exprUnary (x1, x2, x3) fun (x1, x2, x3) => .ret (.unary x1 x2 x3)
  | .expr, .update x1 x2 x3 x4 => .visit .exprUpdate (x1, x2, x3, x4) fun (x1, x2, x3, x4) => .ret (.update x1 x2 x3 x4)
  | .expr, .yield x1 x2 x3 => .visit .exprYield (x1, x2, x3) fun (x1, x2, x3) => .ret (.yield x1 x2 x3)
  -- mod.rs:66-90
  | .stmt, .block x1 => .visit .stmtBlock x1 fun x1 => .ret (.block x1)
  | .stmt, .break x1 x2 => .visit .stmtBreak (x1, x2) fun (x1, x2) => .ret (.break x1 x2)
  | .stmt, .continue x1 x2 => .visit .stmtContinue (x1, x2) fun (x1, x2) => .ret (.continue x1 x2)
  | .stmt, .debugger x1 => .visit .stmtDebugger x1 fun x1 => .ret (.debugger x1)
  | .stmt, .doWhile x1 x2 x3 => .visit .stmtDoWhile (x1, x2, x3) fun (x1, x2, x3) => .ret (.doWhile x1 x2 x3)
  | .stmt, .empty x1 => .visit .stmtEmpty x1 fun x1 => .ret (.empty x1)
  | .stmt, .expr x1 x2 => .visit .stmtExpr (x1, x2) fun (x1, x2) => .ret (.expr x1 x2)
  | .stmt, .for x1 x2 x3 x4 x5 => .visit .stmtFor (x1, x2, x3, x4, x5) fun (x1, x2, x3, x4, x5) => .ret (.for x1 x2 x3 x4 x5)
  | .stmt, .forIn x1 x2 x3 x4 => .visit .stmtForIn (x1, x2, x3, x4) fun (x1, x2, x3, x4) => .ret (.forIn x1 x2 x3 x4)
  | .stmt, .forOf x1 x2 x3 x4 x5 => .visit .stmtForOf (x1, x2, x3, x4, x5) fun (x1, x2, x3, x4, x5) => .ret (.forOf x1 x2 x3 x4 x5)
  | .stmt, .if x1 x2 x3 x4 => .visit .stmtIf (x1, x2, x3, x4) fun (x1, x2, x3, x4) => .ret (.if x1 x2 x3 x4)
  | .stmt, .labeled x1 x2 x3 => .visit .stmtLabeled (x1, x2, x3) fun (x1, x2, x3) => .ret (.labeled x1 x2 x3)
  | .stmt, .return x1 x2 => .visit .stmtReturn (x1, x2) fun (x1, x2) => .ret (.return x1 x2)
  | .stmt, .switch x1 x2 x3 => .visit .stmtSwitch (x1, x2, x3) fun (x1, x2, x3) => .ret (.switch x1 x2 x3)
  | .stmt, .throw x1 x2 => .visit .stmtThrow (x1, x2) fun (x1, x2) => .ret (.throw x1 x2)
  | .stmt, .try x1 x2 x3 x4 => .visit .stmtTry (x1, x2, x3, x4) fun (x1, x2, x3, x4) => .ret (.try x1 x2 x3 x4)
  | .stmt, .variable x1 => .visit .stmtVariable x1 fun x1 => .ret (.variable x1)
  | .stmt, .while x1 x2 x3 => .visit .stmtWhile (x1, x2, x3) fun (x1, x2, x3) => .ret (.while x1 x2 x3)
  | .stmt, .with x1 x2 x3 => .visit .stmtWith (x1, x2, x3) fun (x1, x2, x3) => .ret (.with x1 x2 x3)
  | .stmt, .classDecl x1 x2 x3 x4 => .visit .declClass (x1, x2, x3, x4) fun (x1, x2, x3, x4) => .ret (.classDecl x1 x2 x3 x4)
  | .stmt, .functionDecl x1 x2 x3 x4 x5 x6 => .visit .declFunction (x1, x2, x3, x4, x5, x6) fun (x1, x2, x3, x4, x5, x6) => .ret (.functionDecl x1 x2 x3 x4 x5 x6)
  | .stmt, .importDecl x1 x2 x3 x4 x5 => .visit .declImport (x1, x2, x3, x4, x5) fun (x1, x2, x3, x4, x5) => .ret (.importDecl x1 x2 x3 x4 x5)
  | .stmt, .exportDecl x1 => .visit .declExport x1 fun x1 => .ret (.exportDecl x1)
  -- mod.rs:92-96
  | .bindingPattern, .ident x1 => .visit .ident x1 fun x1 => .ret (.ident x1)
  | .bindingPattern, .array x1 x2 x3 => .visit .arrayBinding (x1, x2, x3) fun (x1, x2, x3) => .ret (.array x1 x2 x3)
  | .bindingPattern, .object x1 x2 x3 => .visit .objectBinding (x1, x2, x3) fun (x1, x2, x3) => .ret (.object x1 x2 x3)
  -- mod.rs:98-104
  | .literal, .null => .ret .null
  | .literal, .boolean x1 => .ret (.boolean x1)
  | .literal, .string x1 => .visit .litString x1 fun x1 => .ret (.string x1)
  | .literal, .number x1 => .visit .litNumber x1 fun x1 => .ret (.number x1)
  | .literal, .array x1 => .visit .litArray x1 fun x1 => .ret (.array x1)
  | .literal, .object x1 => .visit .litObject x1 fun x1 => .ret (.object x1)
  | .literal, .regexp x1 => .ret (.regexp x1)
  | .literal, .template x1 => .visit .litTemplate x1 fun x1 => .ret (.template x1)
  -- mod.rs:106-106
  | .litNumber, x => .ret x
  -- mod.rs:108-110
  | .templatePart, .string x1 => .ret (.string x1)
  | .templatePart, .expr x1 => .visit .expr x1 fun x1 => .ret (.expr x1)
  -- mod.rs:112-115
  | .objectBindingProp, .single x1 x2 x3 => .visit .singleNameBinding (x1, x2, x3) fun (x1, x2, x3) => .ret (.single x1 x2 x3)
  | .objectBindingProp, .named x1 x2 x3 => .visit .namedBinding (x1, x2, x3) fun (x1, x2, x3) => .ret (.named x1 x2 x3)
  -- mod.rs:117-122
  | .propertyName, .ident x1 => .visit .ident x1 fun x1 => .ret (.ident x1)
  | .propertyName, .string x1 => .visit .litString x1 fun x1 => .ret (.string x1)
  | .propertyName, .number x1 => .visit .litNumber x1 fun x1 => .ret (.number x1)
  | .propertyName, .computed x1 => .visit .expr x1 fun x1 => .ret (.computed x1)
  -- mod.rs:124-126
  | .classElement, x => .visit .methodDefinition x .ret
  -- mod.rs:128-131
  | .forInit, .expr x1 => .visit .expr x1 fun x1 => .ret (.expr x1)
  | .forInit, .declaration x1 => .visit .stmtVariable x1 fun x1 => .ret (.declaration x1)
  -- mod.rs:133-137
  | .forDeclaration, .expr x1 => .visit .expr x1 fun x1 => .ret (.expr x1)
  | .forDeclaration, .pattern x1 => .visit .assignmentPattern x1 fun x1 => .ret (.pattern x1)
  | .forDeclaration, .declaration x1 x2 x3 => .visit .forBinding (x1, x2, x3) fun (x1, x2, x3) => .ret (.declaration x1 x2 x3)
  -- mod.rs:139-141
  | .callee, .super => .ret .super
  | .callee, .import => .ret .import
  | .callee, .expr x1 => .visit .expr x1 fun x1 => .ret (.expr x1)
  -- mod.rs:143-146
  | .argument, .expr x1 => .visit .expr x1 fun x1 => .ret (.expr x1)
  | .argument, .spread x1 => .visit .expr x1 fun x1 => .ret (.spread x1)
  -- mod.rs:148-151
  | .memberObject, .expr x1 => .visit .expr x1 fun x1 => .ret (.expr x1)
  | .memberObject, .super x1 => .visit .super x1 fun x1 => .ret (.super x1)
  -- mod.rs:153-153
  | .super, x => .ret x
  -- mod.rs:155-158
  | .memberProperty, .ident x1 => .visit .ident x1 fun x1 => .ret (.ident x1)
  | .memberProperty, .expr x1 => .visit .expr x1 fun x1 => .ret (.expr x1)
  -- mod.rs:160-163
  | .arrayElement, .elision => .ret .elision
  | .arrayElement, .expr x1 => .visit .expr x1 fun x1 => .ret (.expr x1)
  | .arrayElement, .spread x1 => .visit .expr x1 fun x1 => .ret (.spread x1)
  -- mod.rs:165-168
  | .arrowFunctionBody, .expr x1 => .visit .expr x1 fun x1 => .ret (.expr x1)
  | .arrowFunctionBody, .body x1 => .visit .body x1 fun x1 => .ret (.body x1)
  -- mod.rs:170-175
  | .propertyDefinition, .identRef x1 => .visit .ident x1 fun x1 => .ret (.identRef x1)
  | .propertyDefinition, .spread x1 => .visit .expr x1 fun x1 => .ret (.spread x1)
  | .propertyDefinition, .named x1 x2 x3 => .visit .namedProperty (x1, x2, x3) fun (x1, x2, x3) => .ret (.named x1 x2 x3)
  | .propertyDefinition, .method x1 => .visit .methodDefinition x1 fun x1 => .ret (.method x1)
  -- mod.rs:177-177
  | .binaryOperator, x => .ret x
  -- mod.rs:179-179
  | .logicalOperator, x => .ret x
  -- mod.rs:181-181
  | .assignmentOperator, x => .ret x
  -- mod.rs:183-183
  | .unaryOperator, x => .ret x
  -- mod.rs:185-185
  | .updateOperator, x => .ret x
  -- mod.rs:187-193
  | .declExport, .decl x1 x2 => .visit .exportDecl (x1, x2) fun (x1, x2) => .ret (.decl x1 x2)
  | .declExport, .defaultExpr x1 x2 => .visit .exportDefaultExpr (x1, x2) fun (x1, x2) => .ret (.defaultExpr x1 x2)
  | .declExport, .defaultDecl x1 x2 => .visit .exportDefaultDecl (x1, x2) fun (x1, x2) => .ret (.defaultDecl x1 x2)
  | .declExport, .named x1 x2 x3 => .visit .exportNamed (x1, x2, x3) fun (x1, x2, x3) => .ret (.named x1 x2 x3)
  | .declExport, .namespace x1 x2 x3 => .visit .exportNamespace (x1, x2, x3) fun (x1, x2, x3) => .ret (.namespace x1 x2 x3)
  -- mod.rs:195-198
  | .patternOrExpr, .expr x1 => .visit .expr x1 fun x1 => .ret (.expr x1)
  | .patternOrExpr, .pattern x1 => .visit .assignmentPattern x1 fun x1 => .ret (.pattern x1)
  -- mod.rs:200-202
  | .assignmentPattern, x => .ret x
  -- mod.rs:208-212
  | .declFunction, (x1, x2, x3, x4, x5, x6) => .visit .ident x4 fun x4 => .visit .formalParameters x5 fun x5 => .visit .body x6 fun x6 => .ret (x1, x2, x3, x4, x5, x6)
  -- mod.rs:214-218
  | .declClass, (x1, x2, x3, x4) => .visit .ident x2 fun x2 => .opt .expr x3 fun x3 => .list .classElement x4 fun x4 => .ret (x1, x2, x3, x4)
  -- mod.rs:220-225
  | .declImport, (x1, x2, x3, x4, x5) => .opt .ident x2 fun x2 => .optList .namedImport x4 fun x4 => .optList .namedImport x4 fun x4 => .visit .litString x5 fun x5 => .ret (x1, x2, x3, x4, x5)
  -- mod.rs:227-229
  | .stmtExpr, (x1, x2) => .visit .expr x2 fun x2 => .ret (x1, x2)
  -- mod.rs:231-233
  | .stmtBlock, .mk x1 x2 => .list .stmt x2 fun x2 => .ret (.mk x1 x2)
  -- mod.rs:235-239
  | .exprBinary, (x1, x2, x3, x4) => .visit .expr x3 fun x3 => .visit .binaryOperator x2 fun x2 => .visit .expr x4 fun x4 => .ret (x1, x2, x3, x4)
  -- mod.rs:241-245
  | .exprLogical, (x1, x2, x3, x4) => .visit .expr x3 fun x3 => .visit .logicalOperator x2 fun x2 => .visit .expr x4 fun x4 => .ret (x1, x2, x3, x4)
  -- mod.rs:247-250
  | .exprUnary, (x1, x2, x3) => .visit .unaryOperator x2 fun x2 => .visit .expr x3 fun x3 => .ret (x1, x2, x3)
  -- mod.rs:252-255
  | .exprCall, (x1, x2, x3, x4) => .visit .callee x2 fun x2 => .list .argument x4 fun x4 => .ret (x1, x2, x3, x4)
  -- mod.rs:257-260
  | .exprMember, (x1, x2, x3) => .visit .memberObject x2 fun x2 => .visit .memberProperty x3 fun x3 => .ret (x1, x2, x3)
  -- mod.rs:262-265
  | .exprOptionalMember, (x1, x2, x3, x4) => .visit .expr x2 fun x2 => .visit .memberProperty x3 fun x3 => .ret (x1, x2, x3, x4)
  -- mod.rs:267-270
  | .exprOptionalCall, (x1, x2, x3, x4, x5) => .visit .expr x2 fun x2 => .list .argument x4 fun x4 => .ret (x1, x2, x3, x4, x5)
  -- mod.rs:272-274
  | .exprParenthesized, (x1, x2) => .visit .expr x2 fun x2 => .ret (x1, x2)
  -- mod.rs:276-278
  | .exprLiteral, (x1, x2) => .visit .literal x2 fun x2 => .ret (x1, x2)
  -- mod.rs:280-284
  | .exprAssignment, (x1, x2, x3, x4) => .visit .patternOrExpr x3 fun x3 => .visit .assignmentOperator x2 fun x2 => .visit .expr x4 fun x4 => .ret (x1, x2, x3, x4)
  -- mod.rs:286-288
  | .exprYield, (x1, x2, x3) => .opt .expr x2 fun x2 => .ret (x1, x2, x3)
  -- mod.rs:290-294
  | .exprConditional, (x1, x2, x3, x4) => .visit .expr x2 fun x2 => .visit .expr x3 fun x3 => .visit .expr x2 fun x2 => .ret (x1, x2, x3, x4)
  -- mod.rs:296-299
  | .exprUpdate, (x1, x2, x3, x4) => .visit .expr x4 fun x4 => .visit .updateOperator x2 fun x2 => .ret (x1, x2, x3, x4)
  -- mod.rs:301-303
  | .exprSequence, (x1, x2) => .list .expr x2 fun x2 => .ret (x1, x2)
  -- mod.rs:305-305
  | .exprThis, x => .ret x
  -- mod.rs:307-311
  | .exprFunction, (x1, x2, x3, x4, x5, x6) => .opt .ident x4 fun x4 => .visit .formalParameters x5 fun x5 => .visit .body x6 fun x6 => .ret (x1, x2, x3, x4, x5, x6)
  -- mod.rs:313-316
  | .exprNew, (x1, x2, x3, x4) => .visit .expr x2 fun x2 => .list .argument x4 fun x4 => .ret (x1, x2, x3, x4)
  -- mod.rs:318-321
  | .exprArrowFunction, (x1, x2, x3, x4, x5) => .visit .formalParameters x4 fun x4 => .visit .arrowFunctionBody x5 fun x5 => .ret (x1, x2, x3, x4, x5)
  -- mod.rs:323-325
  | .exprAwait, (x1, x2) => .visit .expr x2 fun x2 => .ret (x1, x2)
  -- mod.rs:327-330
  | .exprMetaProperty, (x1, x2, x3) => .visit .ident x2 fun x2 => .visit .ident x3 fun x3 => .ret (x1, x2, x3)
  -- mod.rs:332-336
  | .exprClass, (x1, x2, x3, x4) => .opt .ident x2 fun x2 => .opt .expr x3 fun x3 => .list .classElement x4 fun x4 => .ret (x1, x2, x3, x4)
  -- mod.rs:338-340
  | .stmtReturn, (x1, x2) => .opt .expr x2 fun x2 => .ret (x1, x2)
  -- mod.rs:342-344
  | .stmtVariable, .mk x1 x2 x3 => .list .variableDeclaration x3 fun x3 => .ret (.mk x1 x2 x3)
  -- mod.rs:346-346
  | .stmtEmpty, x => .ret x
  -- mod.rs:348-352
  | .stmtTry, (x1, x2, x3, x4) => .visit .stmtBlock x2 fun x2 => .opt .catchClause x3 fun x3 => .opt .stmtBlock x4 fun x4 => .ret (x1, x2, x3, x4)
  -- mod.rs:354-354
  | .stmtDebugger, x => .ret x
  -- mod.rs:356-358
  | .stmtThrow, (x1, x2) => .visit .expr x2 fun x2 => .ret (x1, x2)
  -- mod.rs:360-363
  | .stmtLabeled, (x1, x2, x3) => .visit .ident x2 fun x2 => .visit .stmt x3 fun x3 => .ret (x1, x2, x3)
  -- mod.rs:365-368
  | .stmtWith, (x1, x2, x3) => .visit .expr x2 fun x2 => .visit .stmt x3 fun x3 => .ret (x1, x2, x3)
  -- mod.rs:370-372
  | .stmtContinue, (x1, x2) => .opt .ident x2 fun x2 => .ret (x1, x2)
  -- mod.rs:374-376
  | .stmtBreak, (x1, x2) => .opt .ident x2 fun x2 => .ret (x1, x2)
  -- mod.rs:378-381
  | .stmtSwitch, (x1, x2, x3) => .visit .expr x2 fun x2 => .list .switchCase x3 fun x3 => .ret (x1, x2, x3)
  -- mod.rs:383-387
  | .stmtIf, (x1, x2, x3, x4) => .visit .expr x2 fun x2 => .visit .stmt x3 fun x3 => .opt .stmt x4 fun x4 => .ret (x1, x2, x3, x4)
  -- mod.rs:389-394
  | .stmtFor, (x1, x2, x3, x4, x5) => .opt .forInit x2 fun x2 => .opt .expr x3 fun x3 => .opt .expr x4 fun x4 => .visit .stmt x5 fun x5 => .ret (x1, x2, x3, x4, x5)
  -- mod.rs:396-400
  | .stmtForOf, (x1, x2, x3, x4, x5) => .visit .forDeclaration x2 fun x2 => .visit .expr x3 fun x3 => .visit .stmt x4 fun x4 => .ret (x1, x2, x3, x4, x5)
  -- mod.rs:402-406
  | .stmtForIn, (x1, x2, x3, x4) => .visit .forDeclaration x2 fun x2 => .visit .expr x3 fun x3 => .visit .stmt x4 fun x4 => .ret (x1, x2, x3, x4)
  -- mod.rs:408-411
  | .stmtWhile, (x1, x2, x3) => .visit .expr x2 fun x2 => .visit .stmt x3 fun x3 => .ret (x1, x2, x3)
  -- mod.rs:413-416
  | .stmtDoWhile, (x1, x2, x3) => .visit .stmt x2 fun x2 => .visit .expr x3 fun x3 => .ret (x1, x2, x3)
  -- mod.rs:418-421
  | .stmtList, (x1, x2, x3) => .list .litString x2 fun x2 => .list .stmt x3 fun x3 => .ret (x1, x2, x3)
  -- mod.rs:423-426
  | .bindingElement, .mk x1 x2 x3 => .visit .bindingPattern x2 fun x2 => .opt .expr x3 fun x3 => .ret (.mk x1 x2 x3)
  -- mod.rs:428-431
  | .formalParameters, .mk x1 x2 x3 => .list .bindingElement x2 fun x2 => .opt .bindingPattern x3 fun x3 => .ret (.mk x1 x2 x3)
  -- mod.rs:433-436
  | .variableDeclaration, .mk x1 x2 x3 => .visit .bindingPattern x2 fun x2 => .opt .expr x3 fun x3 => .ret (.mk x1 x2 x3)
  -- mod.rs:438-438
  | .litString, x => .ret x
  -- mod.rs:440-442
  | .litTemplate, x1 => .list .templatePart x1 fun x1 => .ret x1
  -- mod.rs:444-446
  | .litArray, x1 => .list .arrayElement x1 fun x1 => .ret x1
  -- mod.rs:448-450
  | .litObject, x1 => .list .propertyDefinition x1 fun x1 => .ret x1
  -- mod.rs:452-455
  | .arrayBinding, (x1, x2, x3) => .listOpt .bindingElement x2 fun x2 => .opt .bindingPattern x3 fun x3 => .ret (x1, x2, x3)
  -- mod.rs:457-460
  | .objectBinding, (x1, x2, x3) => .list .objectBindingProp x2 fun x2 => .opt .bindingPattern x3 fun x3 => .ret (x1, x2, x3)
  -- mod.rs:462-465
  | .singleNameBinding, (x1, x2, x3) => .visit .ident x2 fun x2 => .opt .expr x3 fun x3 => .ret (x1, x2, x3)
  -- mod.rs:467-470
  | .namedBinding, (x1, x2, x3) => .visit .propertyName x2 fun x2 => .visit .bindingElement x3 fun x3 => .ret (x1, x2, x3)
  -- mod.rs:472-475
  | .namedProperty, (x1, x2, x3) => .visit .propertyName x2 fun x2 => .visit .expr x3 fun x3 => .ret (x1, x2, x3)
  -- mod.rs:477-481
  | .methodDefinition, .mk x1 x2 x3 x4 x5 x6 x7 x8 => .visit .propertyName x2 fun x2 => .visit .formalParameters x4 fun x4 => .visit .body x5 fun x5 => .ret (.mk x1 x2 x3 x4 x5 x6 x7 x8)
  -- mod.rs:483-486
  | .catchClause, .mk x1 x2 x3 => .opt .bindingPattern x2 fun x2 => .visit .stmtBlock x3 fun x3 => .ret (.mk x1 x2 x3)
  -- mod.rs:488-491
  | .switchCase, .mk x1 x2 x3 => .opt .expr x2 fun x2 => .list .stmt x3 fun x3 => .ret (.mk x1 x2 x3)
  -- mod.rs:493-495
  | .exportDecl, (x1, x2) => .visit .stmt x2 fun x2 => .ret (x1, x2)
  -- mod.rs:497-499
  | .exportDefaultDecl, (x1, x2) => .visit .stmt x2 fun x2 => .ret (x1, x2)
  -- mod.rs:501-503
  | .exportDefaultExpr, (x1, x2) => .visit .expr x2 fun x2 => .ret (x1, x2)
  -- mod.rs:505-508
  | .exprTaggedTemplate, (x1, x2, x3) => .visit .expr x2 fun x2 => .visit .litTemplate x3 fun x3 => .ret (x1, x2, x3)
  -- mod.rs:510-513
  | .exportNamed, (x1, x2, x3) => .list .namedExport x2 fun x2 => .opt .litString x3 fun x3 => .ret (x1, x2, x3)
  -- mod.rs:515-518
  | .exportNamespace, (x1, x2, x3) => .opt .ident x2 fun x2 => .visit .litString x3 fun x3 => .ret (x1, x2, x3)
  -- mod.rs:520-523
  | .namedExport, ⟨x1, x2, x3⟩ => .visit .ident x2 fun x2 => .opt .ident x3 fun x3 => .ret ⟨x1, x2, x3⟩
  -- mod.rs:525-528
  | .namedImport, ⟨x1, x2, x3⟩ => .visit .ident x2 fun x2 => .opt .ident x3 fun x3 => .ret ⟨x1, x2, x3⟩
  -- mod.rs:530-530
  | .ident, x => .ret x
  -- mod.rs:532-535
  | .body, .mk x1 x2 x3 => .list .litString x2 fun x2 => .list .stmt x3 fun x3 => .ret (.mk x1 x2 x3)
  -- mod.rs:537-537
  | .forBinding, x => .ret x

/-- `/repo/ast/src/traverse/macros.rs:60-75` `trait Visitor`, with a state `σ`: hooks get a node and return it, changed or not;
enter hooks also tell whether the children are to be traversed. -/
structure MVisitor (σ : Type) where
  enter : (k : Kind) → k.Val → σ → Bool × k.Val × σ
  exit : (k : Kind) → k.Val → σ → k.Val × σ

/-- Carry out a plan. -/
def Plan.run {σ α : Type} (tr : (k : Kind) → k.Val → σ → Option (k.Val × σ)) : Plan α → σ → Option (α × σ)
  | .ret a, s => some (a, s)
  | .visit k x c, s =>
    match tr k x s with
    | some (y, s) => (c y).run tr s
    | none => none

/-- `/repo/ast/src/traverse/macros.rs:26-39,45-55`, the bodies of the generated `traverse` methods: the enter hook, the children of
the node as it is after that, the exit hook. -/
def MVisitor.traverse {σ : Type} (v : MVisitor σ) : Nat → (k : Kind) → k.Val → σ → Option (k.Val × σ)
  | 0, _, _, _ => none
  | n + 1, k, a, s =>
    match v.enter k a s with
    | (true, a, s) =>
      match (plan k a).run (v.traverse n) s with
      | some (a, s) => some (v.exit k a s)
      | none => none
    | (false, a, s) => some (v.exit k a s)

end Fajt
