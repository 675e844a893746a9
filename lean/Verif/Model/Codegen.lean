import Verif.Model.Lexer
import Verif.Model.Ast
import Verif.Model.Token
/-!
# The code generator (`/repo/codegen/src/lib.rs`)

`CodeGenerator` is a visitor (`Visitor for CodeGenerator`); the model writes out, for every node, what the traversal of that
node with this visitor does: the enter hook, the default traversal of the children when the hook returns `true`
(`/repo/ast/src/traverse/mod.rs`), the exit hook.  The output buffer, the shared `Index` and the flag
`skip_next_separation` are the state; `GeneratorContext` is passed down.  A generator created by `with_indent`, `with_align` or
`without_align` shares the buffer and the index and has its own copy of the flag.

`col_pos` subtracts `usize` values; the field `underflow` of the state records whether a subtraction had a negative result
(it never has: theorem `C43_no_underflow`).
`get_closing_paren` is only called with `{`, `[` and `(`.
-/
namespace Fajt
variable [UnicodeID]

/-- `/repo/codegen/src/lib.rs:14-19` `GeneratorContext`; `indent_size` is always 4 (private field). -/
structure GCtx where
  minified : Bool
  indent : Nat := 0
  align : Option Nat := none
deriving Repr

/-- `/repo/codegen/src/lib.rs:76-81` `CodeGenerator`, with the `Index` (lib.rs:46-49).  `underflow` is not in the code: it
becomes true when `col_pos` is called with `last_new_line` beyond the end of the buffer, where `usize` subtraction panics (debug) or
wraps (release). -/
structure Gen where
  data : Str := []
  lastNewLine : Nat := 0
  lastBlockStart : Nat := 0
  skipNextSeparation : Bool := false
  underflow : Bool := false
deriving Repr, DecidableEq

/-- A piece of code generation: what it does to the state. -/
abbrev GAct := Gen → Gen

namespace Gen

/-- `/repo/codegen/src/lib.rs:295-297` `pos`. -/
def pos (g : Gen) : Nat := byteLen g.data

/-- `/repo/codegen/src/lib.rs:300-302` `col_pos`: the value. -/
def colPos (g : Gen) : Nat := g.pos - g.lastNewLine

/-- `/repo/codegen/src/lib.rs:300-302` `col_pos`: records a negative result of the subtraction. -/
def askCol (g : Gen) : Gen := { g with underflow := g.underflow || decide (g.pos < g.lastNewLine) }

/-- `data.push`, `data.push_str`. -/
def push (s : Str) : GAct := fun g => { g with data := g.data ++ s }

/-- `/repo/codegen/src/lib.rs:31-37` `indentation`. -/
def _root_.Fajt.GCtx.indentation (c : GCtx) : Nat :=
  match c.align with
  | some a => a
  | none => c.indent * 4

/-- `/repo/codegen/src/lib.rs:374-380` `indent`. -/
def indent (c : GCtx) : GAct := fun g =>
  if c.minified then g
  else
    let g := g.askCol
    if g.colPos ≠ 0 then g else g.push (List.replicate c.indentation ' ')

/-- `/repo/codegen/src/lib.rs:305-308` `char`. -/
def char (c : GCtx) (ch : Char) : GAct := fun g => (g.indent c).push [ch]

/-- `Option<char>::map(char::is_alphanumeric).unwrap_or(false)`. -/
def isAlnum : Option Char → Bool
  | some ch => UnicodeID.alphanumeric ch
  | none => false

/-- `/repo/codegen/src/lib.rs:383-391` `must_add_space_before`. -/
def mustAddSpaceBefore (s : Str) (g : Gen) : Bool := isAlnum g.data.getLast? && isAlnum s.head?

/-- `/repo/codegen/src/lib.rs:311-320` `string`. -/
def string (c : GCtx) (s : Str) : GAct := fun g =>
  let g := g.indent c
  if g.mustAddSpaceBefore s then g.push (' ' :: s) else g.push s

/-- `/repo/codegen/src/lib.rs:323-327` `space`. -/
def space (c : GCtx) : GAct := fun g => if c.minified then g else g.char c ' '

/-- `/repo/codegen/src/lib.rs:278-288` `remove_last`; the result tells whether a character was removed. -/
def removeLast (ch : Char) (g : Gen) : Bool × Gen :=
  if g.data.getLast? = some ch then (true, { g with data := g.data.dropLast }) else (false, g)

/-- `/repo/codegen/src/lib.rs:367-372` `new_line`. -/
def newLine (c : GCtx) : GAct := fun g =>
  if c.minified then g else
    let g := g.char c '\n'
    { g with lastNewLine := g.pos }

/-- `/repo/codegen/src/lib.rs:329-333` `start_block`. -/
def startBlock (c : GCtx) : GAct := fun g =>
  let g := (g.char c '{').newLine c
  { g with lastBlockStart := g.pos }

/-- `/repo/codegen/src/lib.rs:351-353` `at_block_start`. -/
def atBlockStart (g : Gen) : Bool := g.lastBlockStart = g.pos

/-- `/repo/codegen/src/lib.rs:335-349` `end_block`. -/
def endBlock (c : GCtx) : GAct := fun g =>
  let g := if g.atBlockStart && !c.minified then
      match g.removeLast '\n' with
      | (true, g) => { g with lastNewLine := 0 }
      | (false, g) => g
    else g
  let g := if c.minified then (g.removeLast ';').2 else g
  g.char c '}'

/-- `/repo/codegen/src/lib.rs:356-365` `separation`. -/
def separation (c : GCtx) : GAct := fun g =>
  if g.skipNextSeparation then { g with skipNextSeparation := false }
  else if !g.atBlockStart then g.newLine c else g

/-- Run a generator with its own copy of `skip_next_separation` (`/repo/codegen/src/lib.rs:240-250`,
252-263, 265-275). -/
def child (f : GAct) : GAct := fun g => { f g with skipNextSeparation := g.skipNextSeparation }

/-- `/repo/codegen/src/lib.rs:240-250` `with_indent`. -/
def _root_.Fajt.GCtx.indented (c : GCtx) : GCtx := { c with indent := c.indent + 1 }

/-- `/repo/codegen/src/lib.rs:252-263` `with_align`. -/
def _root_.Fajt.GCtx.aligned (c : GCtx) (col : Nat) : GCtx := { c with align := some col }

/-- `/repo/codegen/src/lib.rs:265-275` `without_align`. -/
def _root_.Fajt.GCtx.unaligned (c : GCtx) : GCtx := { c with align := none }

/-- `/repo/codegen/src/lib.rs:229-236` `get_closing_paren`. -/
def closing : Char → Char
  | '{' => '}'
  | '[' => ']'
  | _ => ')'

/-- `/repo/codegen/src/lib.rs:215-227` `parenthesize`. -/
def parenthesize (c : GCtx) (op : Char) (spaced : Bool) (content : GAct) : GAct := fun g =>
  let g := g.char c op
  let g := if spaced then g.space c else g
  let g := content g
  let g := if spaced then g.space c else g
  g.char c (closing op)

/-- `/repo/codegen/src/lib.rs:208-212` `quote`. -/
def quote (c : GCtx) (d : Char) (s : Str) : GAct := fun g => ((g.char c d).string c s).char c d

/-- `/repo/codegen/src/lib.rs:1176-1179` `enter_string_literal`. -/
def litString (c : GCtx) (s : LitString) : GAct := quote c s.delimiter s.value

/-- `/repo/codegen/src/lib.rs:1298-1301` `enter_ident`. -/
def ident (c : GCtx) (i : Ident) : GAct := string c i.name

/-- Traversal of an `Option<Ident>`. -/
def optIdent (c : GCtx) : Option Ident → GAct
  | some i => ident c i
  | none => id

/-- `/repo/codegen/src/lib.rs:137-147` `maybe_as_alias`. -/
def asAlias (c : GCtx) : Option Ident → GAct
  | some i => fun g => (((g.space c).string c c!"as").space c).ident c i
  | none => id

/-- A list of pieces separated by `, ` (`/repo/codegen/src/lib.rs:93-105` `comma_separated`). -/
def commaSep (c : GCtx) : List GAct → GAct
  | [] => id
  | [a] => a
  | a :: as => fun g => commaSep c as (((a g).char c ',').space c)

/-- The directives of a program or body (`/repo/codegen/src/lib.rs:403-411`, 989-1002). -/
def directives (c : GCtx) : List LitString → GAct
  | [] => id
  | d :: ds => fun g => directives c ds (((g.litString c d).char c ';').newLine c)

/-- `/repo/codegen/src/lib.rs:983-987` `enter_named_import`. -/
def namedImport (c : GCtx) (n : NamedImport) : GAct := fun g => (g.ident c n.name).asAlias c n.alias

/-- `/repo/codegen/src/lib.rs:927-936` `enter_named_export`. -/
def namedExport (c : GCtx) (n : NamedExport) : GAct := fun g =>
  let g := match n.aliasOf with
    | some a => (((g.ident c a).space c).string c c!"as").space c
    | none => g
  g.ident c n.name

/-- `/repo/codegen/src/lib.rs:1273-1277` `exit_stmt`. -/
def exitStmt (c : GCtx) : GAct := fun g => if g.lastNewLine ≠ g.pos then g.newLine c else g

/-- `/repo/codegen/src/lib.rs:938-981` `enter_import`. -/
def importDecl (c : GCtx) (default_ namespace_ : Option Ident) (named : Option (List NamedImport)) (source : LitString) : GAct :=
  fun g =>
  let g := g.string c c!"import"
  let g := match default_ with
    | some i => (g.space c).ident c i
    | none => g
  let g := match namespace_ with
    | some i =>
      let g := if default_.isSome then g.char c ',' else g
      (((((g.space c).char c '*').space c).string c c!"as").space c).ident c i
    | none => g
  let g := match named with
    | some ns =>
      let g := if default_.isSome then g.char c ',' else g
      (g.space c).parenthesize c '{' (!ns.isEmpty) (commaSep c (ns.map (namedImport c)))
    | none => g
  let g := if default_.isSome || namespace_.isSome || named.isSome then (g.space c).string c c!"from" else g
  ((g.space c).litString c source).char c ';'

/-- `Display for` the operators (`/repo/ast/src/expr.rs`, macro `ast_mapping`): their text. -/
def operator (c : GCtx) (op : Str) : GAct := string c op

end Gen

open Gen

/-- `decl.initializer.is_some()` (`/repo/codegen/src/lib.rs:1058-1081`). -/
def VarDecl.hasInit : VarDecl → Bool
  | .mk _ _ init => init.isSome

/-- `matches!(*node.decl, Stmt::FunctionDecl(_))` (`/repo/codegen/src/lib.rs:861-883`). -/
def Stmt.isFunctionDecl : Stmt → Bool
  | .functionDecl .. => true
  | _ => false

mutual

/-- `Expr` (no hook on the enum) and the hooks of the structs. -/
def Expr.gen (c : GCtx) : Expr → GAct
  -- lib.rs:507-526
  | .arrow _ async bindingParameter ps b => fun g =>
    let g := if async then (g.string c c!"async").space c else g
    let g := if bindingParameter then ps.genBindings c g else ps.gen c g
    b.gen c (((g.space c).string c c!"=>").space c)
  -- lib.rs:1049-1056
  | .assign _ op l r => fun g => r.gen c ((((l.gen c g).space c).operator c op.asStr).space c)
  -- lib.rs:528-533
  | .await _ a => fun g => a.gen c ((g.string c c!"await").space c)
  -- lib.rs:664-671
  | .binary _ op l r => fun g => r.gen c ((((l.gen c g).space c).operator c op.asStr).space c)
  -- lib.rs:682-688
  | .call _ callee _ as => fun g => (callee.gen c g).parenthesize c '(' false (commaSep c (argActs c as))
  -- lib.rs:801-804, 149-175
  | .classE _ i sc b => fun g =>
    let g := (g.string c c!"class").optIdent c i
    let g := genExtends c sc g
    let g := (g.space c).startBlock c
    (child (elementsGen c.indented b) g).endBlock c
  -- lib.rs:835-846
  | .conditional _ x t e => fun g =>
    let g := (((x.gen c g).space c).char c '?').space c
    let g := (((t.gen c g).space c).char c ':').space c
    e.gen c g
  -- lib.rs:773-782, 177-205
  | .function _ async generator i ps b => fun g =>
    let g := if async then g.string c c!"async " else g
    let g := g.string c c!"function"
    let g := if generator then g.char c '*' else g
    let g := (g.space c).optIdent c i
    b.gen c ((ps.gen c g).space c)
  | .ident i => Gen.ident c i
  | .literal _ l => l.gen c
  -- lib.rs:673-680
  | .logical _ op l r => fun g => r.gen c ((((l.gen c g).space c).operator c op.asStr).space c)
  -- no hook on `ExprMember`: object, then property
  | .member _ o p => fun g => p.gen c (o.gen c g)
  -- lib.rs:704-709
  | .metaProp _ o p => fun g => ((g.ident c o).char c '.').ident c p
  -- lib.rs:848-859
  | .new _ callee asp as => fun g =>
    let g := callee.gen c ((g.string c c!"new").space c)
    if asp.isSome then g.parenthesize c '(' false (commaSep c (argActs c as)) else g
  -- lib.rs:711-722
  | .optCall _ callee _ as optional => fun g =>
    let g := callee.gen c g
    let g := if optional then g.string c c!"?." else g
    g.parenthesize c '(' false (commaSep c (argActs c as))
  -- lib.rs:724-738
  | .optMember _ o p optional => fun g =>
    let g := o.gen c g
    let g := if optional then
        let g := g.char c '?'
        match p with
        | .expr _ => g.char c '.'
        | .ident _ => g
      else g
    p.gen c g
  -- lib.rs:766-771
  | .paren _ x => Gen.parenthesize c '(' false (x.gen c)
  -- lib.rs:1288-1291
  | .sequence _ xs => commaSep c (exprActs c xs)
  -- no hook on `ExprTaggedTemplate`; lib.rs:1181-1186
  | .tagged _ callee t => fun g => (partsGen c t ((callee.gen c g).char c '`')).char c '`'
  -- lib.rs:1159-1162
  | .this _ => Gen.string c c!"this"
  -- lib.rs:647-651
  | .unary _ op a => fun g => a.gen c (g.operator c op.asStr)
  -- lib.rs:653-662
  | .update _ op pre a => fun g =>
    if pre then a.gen c (g.operator c op.asStr) else (a.gen c g).operator c op.asStr
  -- lib.rs:1034-1047
  | .yield _ a delegate => fun g =>
    let g := g.string c c!"yield"
    let g := if delegate then g.char c '*' else g
    genSpaced c a g
termination_by structural e => e

/-- ` extends` of a class (lib.rs:149-175). -/
def genExtends (c : GCtx) : Option Expr → GAct
  | some e => fun g => e.gen c (g.string c c!"extends")
  | none => id
termination_by structural e => e

/-- An optional expression preceded by a space (lib.rs:1034-1047, 1004-1014). -/
def genSpaced (c : GCtx) : Option Expr → GAct
  | some e => fun g => e.gen c (g.space c)
  | none => id
termination_by structural e => e

/-- Traversal of an `Option<Expr>`. -/
def genOpt (c : GCtx) : Option Expr → GAct
  | some e => e.gen c
  | none => id
termination_by structural e => e

/-- lib.rs:125-135 `initializer`. -/
def genInit (c : GCtx) : Option Expr → GAct
  | some e => fun g => e.gen c (((g.space c).char c '=').space c)
  | none => id
termination_by structural e => e

/-- The pieces of a list of expressions. -/
def exprActs (c : GCtx) : List Expr → List GAct
  | [] => []
  | e :: es => e.gen c :: exprActs c es
termination_by structural es => es

/-- lib.rs:1164-1174, 1176-1179, 1293-1296, 1188-1194, 1196-1202,
1181-1186. -/
def Literal.gen (c : GCtx) : Literal → GAct
  | .null => Gen.string c c!"null"
  | .boolean true => Gen.string c c!"true"
  | .boolean false => Gen.string c c!"false"
  | .string s => Gen.litString c s
  | .number raw => Gen.string c raw
  | .array es => Gen.parenthesize c '[' (!es.isEmpty) (commaSep c (arrayActs c es))
  | .object ps => Gen.parenthesize c '{' (!ps.isEmpty) (commaSep c (propActs c ps))
  | .regexp s => Gen.string c s
  | .template ps => fun g => (partsGen c ps (g.char c '`')).char c '`'
termination_by structural l => l

/-- The parts of a template in order. -/
def partsGen (c : GCtx) : List TemplatePart → GAct
  | [] => id
  | t :: ts => fun g => partsGen c ts (t.gen c g)
termination_by structural ts => ts

/-- lib.rs:1204-1217. -/
def TemplatePart.gen (c : GCtx) : TemplatePart → GAct
  | .string s => Gen.string c s
  | .expr e => fun g => (e.gen c (g.string c c!"${")).char c '}'
termination_by structural t => t

/-- lib.rs:1148-1157. -/
def ArrayElement.gen (c : GCtx) : ArrayElement → GAct
  | .elision => id
  | .expr e => e.gen c
  | .spread e => fun g => e.gen c (g.string c c!"...")
termination_by structural a => a

/-- The pieces of an array literal. -/
def arrayActs (c : GCtx) : List ArrayElement → List GAct
  | [] => []
  | e :: es => e.gen c :: arrayActs c es
termination_by structural es => es

/-- lib.rs:1219-1224, 1226-1232. -/
def PropDef.gen (c : GCtx) : PropDef → GAct
  | .identRef i => Gen.ident c i
  | .spread e => fun g => e.gen c (g.string c c!"...")
  | .named _ n v => fun g => v.gen c (((n.gen c g).char c ':').space c)
  | .method m => m.gen c
termination_by structural p => p

/-- The pieces of an object literal. -/
def propActs (c : GCtx) : List PropDef → List GAct
  | [] => []
  | e :: es => e.gen c :: propActs c es
termination_by structural es => es

/-- lib.rs:1234-1242. -/
def PropName.gen (c : GCtx) : PropName → GAct
  | .ident i => Gen.ident c i
  | .string s => Gen.litString c s
  | .number raw => Gen.string c raw
  | .computed e => Gen.parenthesize c '[' false (e.gen c)
termination_by structural n => n

/-- lib.rs:806-833. -/
def MethodDef.gen (c : GCtx) : MethodDef → GAct
  | .mk _ n kind ps b generator async isStatic => fun g =>
    let g := if isStatic then (g.string c c!"static").space c else g
    let g := if async then (g.string c c!"async").space c else g
    let g := if generator then g.char c '*' else g
    let g := match kind with
      | .get => g.string c c!"get"
      | .set => g.string c c!"set"
      | .method => g
    b.gen c ((ps.gen c (n.gen c g)).space c)
termination_by structural m => m

/-- The elements of a class, each on its own line (lib.rs:149-175). -/
def elementsGen (c : GCtx) : List MethodDef → GAct
  | [] => id
  | m :: ms => fun g => elementsGen c ms ((m.gen c g).newLine c)
termination_by structural ms => ms

/-- lib.rs:1016-1021, 107-123. -/
def FormalParams.gen (c : GCtx) : FormalParams → GAct
  | .mk _ bs r => Gen.parenthesize c '(' false (fun g =>
      genRest c (!bs.isEmpty) r (commaSep c (bindingElementActs c bs) g))
termination_by structural p => p

/-- `node.parameters.bindings.traverse` (lib.rs:507-526): the bindings without parentheses or commas. -/
def FormalParams.genBindings (c : GCtx) : FormalParams → GAct
  | .mk _ bs _ => bindingElementsGen c bs
termination_by structural p => p

/-- The rest element of a list (lib.rs:107-123). -/
def genRest (c : GCtx) (comma : Bool) : Option BindingPattern → GAct
  | some p => fun g =>
    let g := if comma then (g.char c ',').space c else g
    p.gen c (g.string c c!"...")
  | none => id
termination_by structural p => p

/-- Binding elements one after the other. -/
def bindingElementsGen (c : GCtx) : List BindingElement → GAct
  | [] => id
  | b :: bs => fun g => bindingElementsGen c bs (b.gen c g)
termination_by structural bs => bs

/-- The pieces of a list of binding elements. -/
def bindingElementActs (c : GCtx) : List BindingElement → List GAct
  | [] => []
  | b :: bs => b.gen c :: bindingElementActs c bs
termination_by structural bs => bs

/-- lib.rs:989-1002. -/
def Body.gen (c : GCtx) : Body → GAct
  | .mk _ ds ss => fun g =>
    let g := g.startBlock c
    (child (fun g => stmtsGen c.indented ss (g.directives c.indented ds)) g).endBlock c
termination_by structural b => b

/-- `ArrowFunctionBody` (no hook). -/
def ArrowBody.gen (c : GCtx) : ArrowBody → GAct
  | .expr e => e.gen c
  | .body b => b.gen c
termination_by structural b => b

/-- `MemberObject` (no hook); lib.rs:699-702. -/
def MemberObject.gen (c : GCtx) : MemberObject → GAct
  | .expr e => e.gen c
  | .super _ => Gen.string c c!"super"
termination_by structural o => o

/-- lib.rs:740-753. -/
def MemberProp.gen (c : GCtx) : MemberProp → GAct
  | .ident i => fun g => (g.char c '.').ident c i
  | .expr e => Gen.parenthesize c '[' false (e.gen c)
termination_by structural p => p

/-- lib.rs:755-764. -/
def Argument.gen (c : GCtx) : Argument → GAct
  | .expr e => e.gen c
  | .spread e => fun g => e.gen c (g.string c c!"...")
termination_by structural a => a

/-- The pieces of an argument list. -/
def argActs (c : GCtx) : List Argument → List GAct
  | [] => []
  | a :: as => a.gen c :: argActs c as
termination_by structural as => as

/-- lib.rs:690-697. -/
def Callee.gen (c : GCtx) : Callee → GAct
  | .super => Gen.string c c!"super"
  | .import => Gen.string c c!"import"
  | .expr e => e.gen c
termination_by structural x => x

/-- `BindingPattern` (no hook); lib.rs:1083-1110, 1112-1118. -/
def BindingPattern.gen (c : GCtx) : BindingPattern → GAct
  | .ident i => Gen.ident c i
  | .array _ es r => Gen.parenthesize c '[' (!es.isEmpty || r.isSome) (fun g =>
      genRest c (!es.isEmpty) r (optElementsGen c es g))
  | .object _ ps r => Gen.parenthesize c '{' (!ps.isEmpty || r.isSome) (fun g =>
      genRest c (!ps.isEmpty) r (commaSep c (bindingPropActs c ps) g))
termination_by structural p => p

/-- The elements of an array binding (lib.rs:1083-1110): a comma after every element but the last, and also after
a last element that is missing. -/
def optElementsGen (c : GCtx) : List (Option BindingElement) → GAct
  | [] => id
  | o :: os => fun g =>
    let g := optElementGen c o g
    let g := if !os.isEmpty || o.isNone then g.char c ',' else g
    let g := if !os.isEmpty then g.space c else g
    optElementsGen c os g
termination_by structural os => os

/-- Traversal of an `Option<BindingElement>`. -/
def optElementGen (c : GCtx) : Option BindingElement → GAct
  | some b => b.gen c
  | none => id
termination_by structural o => o

/-- lib.rs:1120-1124, 1126-1132. -/
def BindingProp.gen (c : GCtx) : BindingProp → GAct
  | .single _ i init => fun g => genInit c init (g.ident c i)
  | .named _ n b => fun g => b.gen c (((n.gen c g).char c ':').space c)
termination_by structural p => p

/-- The pieces of an object binding. -/
def bindingPropActs (c : GCtx) : List BindingProp → List GAct
  | [] => []
  | p :: ps => p.gen c :: bindingPropActs c ps
termination_by structural ps => ps

/-- lib.rs:1028-1032. -/
def BindingElement.gen (c : GCtx) : BindingElement → GAct
  | .mk _ p init => fun g => genInit c init (p.gen c g)
termination_by structural b => b

/-- `PatternOrExpr` (no hook); nothing is generated for an `AssignmentPattern`, because it has no hook and its children are
not traversed (`/repo/ast/src/traverse/mod.rs:200-202`). -/
def PatternOrExpr.gen (c : GCtx) : PatternOrExpr → GAct
  | .expr e => e.gen c
  | .pattern _ => id
termination_by structural p => p

/-- `Stmt`: the hooks of the structs, then lib.rs:1273-1277 `exit_stmt`. -/
def Stmt.gen (c : GCtx) : Stmt → GAct
  | .block b => fun g => (b.gen c g).exitStmt c
  -- lib.rs:1257-1267
  | .break _ l => fun g =>
    let g := g.string c c!"break"
    let g := match l with
      | some l => (g.space c).ident c l
      | none => g
    (g.char c ';').exitStmt c
  -- lib.rs:1244-1255
  | .continue _ l => fun g =>
    let g := g.string c c!"continue"
    let g := match l with
      | some l => (g.space c).ident c l
      | none => g
    (g.char c ';').exitStmt c
  -- lib.rs:1303-1306
  | .debugger _ => fun g => (g.string c c!"debugger;").exitStmt c
  -- lib.rs:618-630
  | .doWhile _ b t => fun g =>
    let g := b.gen c (g.string c c!"do ")
    let g := (g.string c c!"while").space c
    (g.parenthesize c '(' false (t.gen c)).exitStmt c
  -- lib.rs:1023-1026
  | .empty _ => fun g => (g.char c ';').exitStmt c
  -- lib.rs:1269-1271
  | .expr _ e => fun g => ((e.gen c g).char c ';').exitStmt c
  -- lib.rs:535-554
  | .for _ i t u b => fun g =>
    let g := (g.string c c!"for").space c
    let g := g.parenthesize c '(' false (fun g =>
      let g := (genForInit c i g).char c ';'
      let g := if t.isSome then g.space c else g
      let g := (genOpt c t g).char c ';'
      let g := if u.isSome then g.space c else g
      genOpt c u g)
    (b.gen c (g.space c)).exitStmt c
  -- lib.rs:586-602
  | .forIn _ l r b => fun g =>
    let g := (g.string c c!"for").space c
    let g := g.parenthesize c '(' false (fun g => r.gen c (((l.gen c g).string c c!"in").space c))
    (b.gen c (g.space c)).exitStmt c
  -- lib.rs:556-577
  | .forOf _ l r b async => fun g =>
    let g := g.string c c!"for"
    let g := if async then g.string c c!"await" else g
    let g := (g.space c).parenthesize c '(' false (fun g => r.gen c (((l.gen c g).string c c!"of").space c))
    (b.gen c (g.space c)).exitStmt c
  -- lib.rs:485-505
  | .if _ x t a => fun g =>
    let g := (g.string c c!"if").space c
    let g := (g.parenthesize c '(' false (x.gen c)).newLine c
    let g := child (t.gen c.indented) g
    (genElse c a g).exitStmt c
  -- lib.rs:454-460
  | .labeled _ l b => fun g => (b.gen c (((g.ident c l).char c ':').space c)).exitStmt c
  -- lib.rs:1004-1014
  | .return _ a => fun g => ((genSpaced c a (g.string c c!"return")).char c ';').exitStmt c
  -- lib.rs:469-483
  | .switch _ d cs => fun g =>
    let g := (g.string c c!"switch").space c
    let g := (g.parenthesize c '(' false (d.gen c)).space c
    ((child (casesGen c.indented cs) (g.startBlock c)).endBlock c).exitStmt c
  -- lib.rs:462-467
  | .throw _ a => fun g => (a.gen c ((g.string c c!"throw").space c)).exitStmt c
  -- lib.rs:420-440
  | .try _ b h f => fun g =>
    let g := b.gen c ((g.string c c!"try").space c)
    (genFinally c f (genCatch c h g)).exitStmt c
  | .variable v => fun g => (v.gen c g).exitStmt c
  -- lib.rs:604-616
  | .while _ t b => fun g =>
    let g := (g.string c c!"while").space c
    let g := g.parenthesize c '(' false (t.gen c)
    (b.gen c (g.space c)).exitStmt c
  -- lib.rs:1279-1286
  | .with _ x b => fun g =>
    let g := (x.gen c (g.string c c!"with(")).char c ')'
    (b.gen c (g.space c)).exitStmt c
  -- lib.rs:796-799, 149-175
  | .classDecl _ i sc b => fun g =>
    let g := genExtends c sc ((g.string c c!"class").ident c i)
    let g := (g.space c).startBlock c
    ((child (elementsGen c.indented b) g).endBlock c).exitStmt c
  -- lib.rs:784-794, 177-205
  | .functionDecl _ async generator i ps b => fun g =>
    let g := g.separation c
    let g := if async then g.string c c!"async " else g
    let g := g.string c c!"function"
    let g := if generator then g.char c '*' else g
    let g := (g.space c).ident c i
    (b.gen c ((ps.gen c g).space c)).exitStmt c
  | .importDecl _ d ns n src => fun g => (g.importDecl c d ns n src).exitStmt c
  | .exportDecl d => fun g => (d.gen c g).exitStmt c
termination_by structural s => s

/-- Statements one after the other. -/
def stmtsGen (c : GCtx) : List Stmt → GAct
  | [] => id
  | s :: ss => fun g => stmtsGen c ss (s.gen c g)
termination_by structural ss => ss

/-- The `else` part of an `if` statement (lib.rs:485-505). -/
def genElse (c : GCtx) : Option Stmt → GAct
  | some s => fun g => child (s.gen c.indented) ((g.string c c!"else").newLine c)
  | none => id
termination_by structural s => s

/-- lib.rs:413-418. -/
def Block.gen (c : GCtx) : Block → GAct
  | .mk _ ss => fun g => (child (stmtsGen c.indented ss) (g.startBlock c)).endBlock c
termination_by structural b => b

/-- The `finally` part of a `try` statement (lib.rs:420-440). -/
def genFinally (c : GCtx) : Option Block → GAct
  | some b => fun g => b.gen c (((g.space c).string c c!"finally").space c)
  | none => id
termination_by structural b => b

/-- The `catch` part of a `try` statement (lib.rs:420-440). -/
def genCatch (c : GCtx) : Option CatchClause → GAct
  | some x => fun g => x.gen c (((g.space c).string c c!"catch").space c)
  | none => id
termination_by structural x => x

/-- lib.rs:442-452. -/
def CatchClause.gen (c : GCtx) : CatchClause → GAct
  | .mk _ p b => fun g => b.gen c (genCatchParam c p g)
termination_by structural x => x

/-- The parameter of a catch clause (lib.rs:442-452). -/
def genCatchParam (c : GCtx) : Option BindingPattern → GAct
  | some p => fun g => (g.parenthesize c '(' false (p.gen c)).space c
  | none => id
termination_by structural p => p

/-- lib.rs:1058-1081: the declarations are printed by a generator aligned at the current column. -/
def VarStmt.gen (c : GCtx) : VarStmt → GAct
  | .mk _ k ds => fun g =>
    let g := ((g.string c k.asStr).space c).askCol
    child (varDeclsGen (c.aligned g.colPos) ds) g
termination_by structural v => v

/-- The loop of lib.rs:1058-1081. -/
def varDeclsGen (c : GCtx) : List VarDecl → GAct
  | [] => id
  | d :: ds => fun g =>
    let g := d.gen c g
    if ds.isEmpty then g.char c ';'
    else
      let g := g.char c ','
      varDeclsGen c ds (if d.hasInit then g.newLine c else g.space c)
termination_by structural ds => ds

/-- lib.rs:1134-1146. -/
def VarDecl.gen (c : GCtx) : VarDecl → GAct
  | .mk _ p init => fun g =>
    let g := p.gen c g
    match init with
    | some (.arrow ..) | some (.function ..) => child (genInit c.unaligned init) g
    | _ => genInit c init g
termination_by structural v => v

/-- lib.rs:632-645. -/
def SwitchCase.gen (c : GCtx) : SwitchCase → GAct
  | .mk _ t ss => fun g =>
    let g := genCaseTest c t g
    child (stmtsGen c.indented ss) ((g.char c ':').newLine c)
termination_by structural x => x

/-- The head of a switch case (lib.rs:632-645). -/
def genCaseTest (c : GCtx) : Option Expr → GAct
  | some e => fun g => e.gen c (g.string c c!"case ")
  | none => Gen.string c c!"default"
termination_by structural e => e

/-- Switch cases one after the other. -/
def casesGen (c : GCtx) : List SwitchCase → GAct
  | [] => id
  | x :: xs => fun g => casesGen c xs (x.gen c g)
termination_by structural xs => xs

/-- Traversal of an `Option<ForInit>`; lib.rs:579-584 `exit_for_init`. -/
def genForInit (c : GCtx) : Option ForInit → GAct
  | some f => f.gen c
  | none => id
termination_by structural f => f

/-- `ForInit`; lib.rs:579-584 `exit_for_init`. -/
def ForInit.gen (c : GCtx) : ForInit → GAct
  | .expr e => e.gen c
  | .declaration v => fun g => ((v.gen c g).removeLast ';').2
termination_by structural f => f

/-- `ForDeclaration` (no hook); nothing is generated for an `AssignmentPattern` or a `ForBinding`: they have no hooks and their
children are not traversed. -/
def ForDecl.gen (c : GCtx) : ForDecl → GAct
  | .expr e => e.gen c
  | .pattern _ => id
  | .declaration .. => id
termination_by structural f => f

/-- `DeclExport` (no hook); lib.rs:861-871, 873-883, 885-892,
908-925, 894-906. -/
def ExportDecl.gen (c : GCtx) : ExportDecl → GAct
  | .decl _ d => fun g =>
    let g := (g.string c c!"export").space c
    d.gen c (if d.isFunctionDecl then { g with skipNextSeparation := true } else g)
  | .defaultExpr _ e => fun g => (e.gen c ((g.string c c!"export default").space c)).char c ';'
  | .defaultDecl _ d => fun g =>
    let g := (g.string c c!"export default").space c
    d.gen c (if d.isFunctionDecl then { g with skipNextSeparation := true } else g)
  | .named _ ns src => fun g =>
    let g := ((g.string c c!"export").space c).parenthesize c '{' (!ns.isEmpty) (commaSep c (ns.map (namedExport c)))
    let g := match src with
      | some s => (((g.space c).string c c!"from").space c).litString c s
      | none => g
    g.char c ';'
  | .namespace _ a src => fun g =>
    let g := (((g.string c c!"export").space c).char c '*').asAlias c a
    (((g.space c).string c c!"from").space c).litString c src
termination_by structural d => d

end

/-- `Program` and `StmtList`: lib.rs:403-411, 395-401. -/
def Program.gen (c : GCtx) (p : Program) : GAct := fun g =>
  let g := stmtsGen c p.body (g.directives c p.directives)
  if c.minified then
    match g.removeLast ';' with
    | (true, g) => if g.data.getLast? = some ')' then g.char c ';' else g
    | (false, g) => g
  else g

/-- `/repo/codegen/src/lib.rs:6-11` `generate_code` for a program, with `GeneratorContext::new()` and the flag
`minified` (`/repo/src/main.rs:66-72`). -/
def generateCode (minified : Bool) (p : Program) : Str := (p.gen { minified } {}).data

/-- `generate_code` is generic in the traversed node: for a statement. -/
def generateStmt (minified : Bool) (s : Stmt) : Str := (s.gen { minified } {}).data

/-- `generate_code` is generic in the traversed node: for an expression. -/
def generateExpr (minified : Bool) (e : Expr) : Str := (e.gen { minified } {}).data

end Fajt
