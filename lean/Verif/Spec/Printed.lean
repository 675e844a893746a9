import Verif.Model.Token
import Verif.Model.Lexer
import Verif.Model.Ast
/-!
# The tokens a tree is printed with

`items` gives, for every tree, the tokens that stand for it in source code, in order, together with the places where a blank or a
line feed is written and the restrictions on lookahead that the grammar has at these places.  The code generator is not
mentioned here.  `Fits` is the condition under which such a sequence can be written down and read again: neighbours without a
blank between them do not merge, and the lookahead restrictions hold.
-/
namespace Fajt.Print
open Fajt

/-! ## Items -/

/-- How a token is read: normally, as a regular expression or as the continuation of a template. -/
inductive Kind where
  | plain | regex | cont
deriving DecidableEq

/-- A token with its text. -/
structure Lex where
  kind : Kind
  val : TokVal
  text : Str

/-- The parts of a printed text. -/
inductive Item where
  /-- a token -/
  | tok (l : Lex)
  /-- a blank -/
  | gap
  /-- a blank that is also written in minified code -/
  | blank
  /-- the semicolon at the end of a statement -/
  | semi
  /-- the end of a block, in front of its brace -/
  | close
  /-- the end of a line -/
  | nl
  /-- the end of the line after the brace that opens a block -/
  | «open»
  /-- here a line must start -/
  | sep
  /-- here no line must start -/
  | still
  /-- the string of a template is in one piece -/
  | single (b : Bool)
  /-- if a token follows, its value and whether it is the first on its line satisfy the condition -/
  | next (q : TokVal → Bool → Bool)
  /-- if two tokens follow and the first one is a word, their values satisfy the condition -/
  | next2 (q : TokVal → TokVal → Bool)
  /-- a token follows -/
  | more
  /-- a token or the end of the text follows (this always holds) -/
  | lexed
  /-- a condition on the tree -/
  | demand (b : Bool)

/-- The value of the token that an identifier name is read as. -/
def nameVal (n : Str) : TokVal :=
  match Keyword.fromStr n with
  | some k => .keyword k
  | none => .ident n

/-- A word. -/
def word (n : Str) : Item := .tok ⟨.plain, nameVal n, n⟩

/-- A punctuator. -/
def pu (p : Punct) : Item := .tok ⟨.plain, .punct p, p.asStr⟩

/-- An operator: a punctuator or a word. -/
def oper (s : Str) : Item :=
  match Punct.fromStr s with
  | some p => pu p
  | none => word s

/-- A string literal. -/
def strItem (s : LitString) : Item := .tok ⟨.plain, .lit (.string s), s.delimiter :: s.value ++ [s.delimiter]⟩

/-- A number. -/
def numItem (raw : Str) : Item := .tok ⟨.plain, .lit (.number raw), raw⟩

/-- A regular expression. -/
def regexItem (s : Str) : Item := .tok ⟨.regex, .lit (.regexp s), s⟩

/-- The end of a template, from its start or the last substitution. -/
def templateEnd (first : Bool) (s : Str) : Item :=
  if first then .tok ⟨.plain, .lit (.template s), '`' :: s ++ ['`']⟩
  else .tok ⟨.cont, .templateTail s, '}' :: s ++ ['`']⟩

/-- A part of a template in front of a substitution. -/
def templateSub (first : Bool) (s : Str) : Item :=
  if first then .tok ⟨.plain, .templateHead s, '`' :: s ++ ['$', '{']⟩
  else .tok ⟨.cont, .templateMiddle s, '}' :: s ++ ['$', '{']⟩

/-- Pieces separated by commas. -/
def commaItems : List (List Item) → List Item
  | [] => []
  | [x] => x
  | x :: xs => x ++ [pu p!",", .gap] ++ commaItems xs

/-- A blank unless the list is empty. -/
def gapIf (b : Bool) : List Item := if b then [.gap] else []

/-- The name of a function or class declaration; it is empty in some default exports. -/
def nameItems (n : Str) : List Item := if n = [] then [.still] else [word n]

/-- The name of a function or class expression. -/
def optNameItems : Option Ident → List Item
  | some i => [word i.name]
  | none => []

/-! ## Lookahead restrictions -/

/-- The next token is not `v`. -/
def notNext (v : TokVal) : Item := .next fun u _ => u != v

/-- The next token is on the same line. -/
def sameLine : Item := .next fun _ f => !f

/-- The next token is not a string. -/
def notString : Item := .next fun v _ => match v with
  | .lit (.string _) => false
  | _ => true

/-- A token that ends `yield` without an operand. -/
def yieldEnd : Item := .next fun v _ => [.punct p!";", .punct p!"}", .punct p!")", .punct p!"]"].contains v

/-- The token does not continue an expression and is not a semicolon; it is on a new line or `}`. -/
def throwEnd : Item := .next fun v f => (f || v == .punct p!"}") && match v with
  | .punct p!";" | .punct p!"," | .punct p!"=" | .punct p!"*=" | .punct p!"/=" | .punct p!"%=" | .punct p!"+=" | .punct p!"-="
  | .punct p!"<<=" | .punct p!">>=" | .punct p!">>>=" | .punct p!"&=" | .punct p!"^=" | .punct p!"|=" | .punct p!"**="
  | .punct p!"?" | .punct p!"??" | .punct p!"||" | .punct p!"&&" | .punct p!"|" | .punct p!"^" | .punct p!"&" | .punct p!"=="
  | .punct p!"!=" | .punct p!"===" | .punct p!"!==" | .punct p!"<" | .punct p!">" | .punct p!"<=" | .punct p!">="
  | .keyword k!"instanceof" | .keyword k!"in" | .punct p!"<<" | .punct p!">>" | .punct p!">>>" | .punct p!"+" | .punct p!"-"
  | .punct p!"*" | .punct p!"/" | .punct p!"%" | .punct p!"**" | .punct p!"?." | .punct p!"(" | .punct p!"." | .punct p!"["
  | .lit (.template _) | .templateHead _ | .punct p!"=>" => false
  | _ => true

/-- The token is on a new line or `}`, and it is not a semicolon. -/
def lineEnds : Item := .next fun v f => (f || v == .punct p!"}") && v != .punct p!";"

/-- The end of the statements of a case. -/
def caseEnd : List Item := [.more, .next fun v _ => [.punct p!"}", .keyword k!"case", .keyword k!"default"].contains v]

/-- The start of an expression statement: not `{`, `function`, `class`, `import`, `let`, `async function` or a label. -/
def stmtStart : List Item :=
  [.more,
   .next fun v _ => ![.punct p!"{", .keyword k!"function", .keyword k!"class", .keyword k!"import", .keyword k!"let"].contains v,
   .next2 fun v u => (v != .keyword k!"async" || u != .keyword k!"function") && u != .punct p!":"]

/-- The start of an expression that is exported by default. -/
def exportStart : List Item :=
  [.next fun v _ => ![.keyword k!"function", .keyword k!"class"].contains v,
   .next2 fun v u => v != .keyword k!"async" || u != .keyword k!"function"]

/-! ## Conditions on trees -/

/-- The list does not end with a hole. -/
def lastNotHole : List ArrayElement → Bool
  | [] => true
  | [.elision] => false
  | _ :: es => lastNotHole es

/-- The pattern does not have a hole in front of a rest element. -/
def noHoleBeforeRest : List (Option BindingElement) → Option BindingPattern → Bool
  | [none], some _ => false
  | _ :: es, r => noHoleBeforeRest es r
  | [], _ => true

/-- A name that can be the target of an assignment. -/
def targetName (i : Ident) : Bool := ![c!"async", c!"eval", c!"arguments"].contains i.name

/-- The rest of a pattern is a name or missing. -/
def coverRest : Option BindingPattern → Bool
  | none => true
  | some (.ident i) => targetName i
  | some _ => false

mutual

/-- The text of the pattern is also the text of a pattern of a destructuring assignment: its names can be assigned to, shorthand
properties are not taken for something else, and the rest is a name. -/
def coverPattern : BindingPattern → Bool
  | .ident i => targetName i
  | .object _ ps r => coverProps ps && coverRest r
  | .array _ es r => coverElements es && coverRest r
termination_by structural p => p

/-- As `coverPattern`, for the properties of an object pattern. -/
def coverProps : List BindingProp → Bool
  | [] => true
  | p :: ps => coverProp p && coverProps ps
termination_by structural ps => ps

/-- As `coverPattern`, for a property. -/
def coverProp : BindingProp → Bool
  | .single _ i _ => targetName i && ![c!"get", c!"set", c!"static"].contains i.name
  | .named _ _ e => coverElement e
termination_by structural p => p

/-- As `coverPattern`, for an element. -/
def coverElement : BindingElement → Bool
  | .mk _ p _ => coverPattern p
termination_by structural e => e

/-- As `coverPattern`, for the elements of an array pattern. -/
def coverElements : List (Option BindingElement) → Bool
  | [] => true
  | o :: os => coverOptElement o && coverElements os
termination_by structural os => os

/-- As `coverPattern`, for an element that may be missing. -/
def coverOptElement : Option BindingElement → Bool
  | some e => coverElement e
  | none => true
termination_by structural o => o

end

mutual

/-- The text of the pattern is not the text of a literal, because it has a shorthand property with an initial value (which is not inside
of an element that has an initial value itself). -/
def initPattern : BindingPattern → Bool
  | .ident _ => false
  | .object _ ps _ => initProps ps
  | .array _ es _ => initElements es
termination_by structural p => p

/-- As `initPattern`, for the properties of an object pattern. -/
def initProps : List BindingProp → Bool
  | [] => false
  | p :: ps => initProp p || initProps ps
termination_by structural ps => ps

/-- As `initPattern`, for a property. -/
def initProp : BindingProp → Bool
  | .single _ _ i => i.isSome
  | .named _ _ e => initElement e
termination_by structural p => p

/-- As `initPattern`, for an element. -/
def initElement : BindingElement → Bool
  | .mk _ p i => i.isNone && initPattern p
termination_by structural e => e

/-- As `initPattern`, for the elements of an array pattern. -/
def initElements : List (Option BindingElement) → Bool
  | [] => false
  | o :: os => initOptElement o || initElements os
termination_by structural os => os

/-- As `initPattern`, for an element that may be missing. -/
def initOptElement : Option BindingElement → Bool
  | some e => initElement e
  | none => false
termination_by structural o => o

end

/-- A parameter of an arrow function that can be recognized: a name, or a pattern that is also the pattern of an assignment, with an
optional initial value. -/
def simpleParam : BindingElement → Bool
  | .mk _ (.ident i) none => i.name != c!"async"
  | e => coverElement e

/-- Parameters of an arrow function that can be recognized. -/
def simpleParams : FormalParams → Bool
  | .mk _ bs _ => bs.all simpleParam

/-- The text of the parameters is also the text of the arguments of a call, as it must be after `async`. -/
def argumentParams : FormalParams → Bool
  | .mk _ bs none => bs.all fun b => !initElement b
  | .mk _ bs (some (.ident i)) => (bs.all fun b => !initElement b) && i.name != c!"async"
  | .mk _ _ (some _) => false

/-- A computed name. -/
def isComputed : PropName → Bool
  | .computed _ => true
  | _ => false

/-- The name has the text. -/
def hasName (s : Str) : PropName → Bool
  | .ident i => i.name == s
  | .string v => v.value == s
  | _ => false

/-- The name is this identifier. -/
def isIdentName (s : Str) : PropName → Bool
  | .ident i => i.name == s
  | _ => false

/-- Accessors are not generators and not asynchronous; a plain method does not have the name `async`. -/
def methodOk (n : PropName) (kind : MethodKind) (generator asynchronous : Bool) : Bool :=
  if generator || asynchronous then kind == .method else !(kind == .method && isIdentName c!"async" n)

/-- Whether a method of a class can be its constructor, then it is not a generator and not asynchronous. -/
def ctorOk : MethodDef → Bool
  | .mk _ n _ _ _ generator asynchronous _ => !(generator || asynchronous) || !hasName c!"constructor" n

/-- A method of an object with a computed name and nothing in front of it. -/
def bareComputed : MethodDef → Bool
  | .mk _ n k _ _ generator asynchronous isStatic => isComputed n && k == .method && !generator && !asynchronous && !isStatic

/-- A method of an object with a computed name is not a generator and not asynchronous. -/
def computedOk : MethodDef → Bool
  | .mk _ n k _ _ generator asynchronous _ => !(isComputed n && k == .method && (generator || asynchronous))

/-- `new` without arguments. -/
def isPlainNew : Expr → Bool
  | .new _ _ none _ => true
  | _ => false

/-- A name, `this`, a parenthesized expression, or a member or call of such an expression. -/
def plainTarget : Expr → Bool
  | .ident _ | .this _ | .paren .. | .member _ (.super _) _ => true
  | .member _ (.expr e) _ | .call _ (.expr e) _ _ => plainTarget e
  | _ => false

/-- A declaration of a function. -/
def isFunction : Stmt → Bool
  | .functionDecl .. => true
  | _ => false

/-- A declaration with an initial value. -/
def hasInit : VarDecl → Bool
  | .mk _ _ init => init.isSome

/-! ## Trees -/

/-- A named import: `name` or `name as alias`. -/
def importItems (n : NamedImport) : List Item :=
  word n.name.name :: match n.alias with
    | some a => [.gap, word c!"as", .gap, word a.name]
    | none => []

/-- A named export: `name` or `name as alias`. -/
def exportItems (n : NamedExport) : List Item :=
  (match n.aliasOf with
    | some a => [word a.name, .gap, word c!"as", .gap]
    | none => []) ++ [word n.name.name]

/-- A list in braces. -/
def braces (xs : List (List Item)) : List Item :=
  pu p!"{" :: gapIf (!xs.isEmpty) ++ commaItems xs ++ gapIf (!xs.isEmpty) ++ [pu p!"}"]

/-- A directive prologue. -/
def directiveItems : List LitString → List Item
  | [] => []
  | d :: ds => strItem d :: .semi :: .nl :: directiveItems ds

/-- A block with the given lines. -/
def blockItems (lines : List Item) : List Item :=
  if lines.isEmpty then [pu p!"{", pu p!"}"] else pu p!"{" :: .open :: lines ++ [.close, pu p!"}"]

/-- An import declaration. -/
def importDeclItems (d ns : Option Ident) (named : Option (List NamedImport)) (source : LitString) : List Item :=
  [word c!"import"] ++
  (match d with
    | some i => [.gap, word i.name]
    | none => []) ++
  (match ns with
    | some i => (if d.isSome then [pu p!","] else []) ++ [.gap, pu p!"*", .gap, word c!"as", .gap, word i.name]
    | none => []) ++
  (match named with
    | some l => (if d.isSome then [pu p!","] else []) ++ .gap :: braces (l.map importItems)
    | none => []) ++
  (if d.isSome || ns.isSome || named.isSome then [.gap, word c!"from"] else []) ++
  [.gap, strItem source, .semi]

end Fajt.Print

namespace Fajt
open Print

mutual

/-- An expression. -/
def Expr.items : Expr → List Item
  | .arrow _ async bindingParameter ps b =>
    (if async then [word c!"async", .gap] else []) ++
    (if bindingParameter then ps.bare else .demand (simpleParams ps && (!async || argumentParams ps)) :: ps.items) ++ [.gap, pu p!"=>", .gap] ++ b.items
  | .assign _ op l r => notNext (.keyword k!"async") :: l.items ++ [.gap, oper op.asStr, .gap] ++ r.items
  | .await _ a => word c!"await" :: .gap :: a.items
  | .binary _ op l r => l.items ++ [.gap, oper op.asStr, .gap] ++ r.items
  | .call _ callee _ as => callee.items ++ pu p!"(" :: commaItems (argItems as) ++ [pu p!")"]
  | .classE _ i sc b => word c!"class" :: optNameItems i ++ extendsItems sc ++ .gap :: blockItems (elementItems b)
  | .conditional _ x t e => x.items ++ [.gap, pu p!"?", .gap] ++ t.items ++ [.gap, pu p!":", .gap] ++ e.items
  | .function _ async generator i ps b =>
    (if async then [word c!"async", .blank] else []) ++ word c!"function" :: (if generator then [pu p!"*"] else []) ++
    .gap :: optNameItems i ++ ps.items ++ .gap :: b.items
  | .ident i => [.demand (i.name != c!"async"), word i.name]
  | .literal _ l => l.items
  | .logical _ op l r => l.items ++ [.gap, oper op.asStr, .gap] ++ r.items
  | .member _ o p => o.items ++ p.items
  | .metaProp _ o p => [word o.name, pu p!".", word p.name]
  | .new _ callee asp as => .demand (!(asp.isSome && isPlainNew callee)) :: word c!"new" :: .gap :: callee.items ++
    (if asp.isSome then pu p!"(" :: commaItems (argItems as) ++ [pu p!")"] else [])
  | .optCall _ callee _ as optional => callee.items ++ (if optional then [pu p!"?."] else []) ++
    pu p!"(" :: commaItems (argItems as) ++ [pu p!")"]
  | .optMember _ o p optional => o.items ++ (if optional then p.optItems else p.items)
  | .paren _ x => pu p!"(" :: x.items ++ [pu p!")"]
  | .sequence _ xs => commaItems (exprItems xs)
  | .tagged _ callee t => callee.items ++ partItems true [] t
  | .this _ => [word c!"this"]
  | .unary _ op a => oper op.asStr :: a.items
  | .update _ op pre a => if pre then oper op.asStr :: a.items else a.items ++ [oper op.asStr]
  | .yield _ a delegate => word c!"yield" :: yieldItems delegate a
termination_by structural e => e

/-- What follows `yield`. -/
def yieldItems (delegate : Bool) : Option Expr → List Item
  | some e => if delegate then sameLine :: pu p!"*" :: .gap :: e.items else .gap :: sameLine :: e.items
  | none => if delegate then [pu p!"*"] else [yieldEnd]
termination_by structural e => e

/-- The superclass of a class. -/
def extendsItems : Option Expr → List Item
  | some e => word c!"extends" :: e.items
  | none => []
termination_by structural e => e

/-- An optional expression with a blank in front of it. -/
def spacedItems : Option Expr → List Item
  | some e => .gap :: e.items
  | none => []
termination_by structural e => e

/-- An initial value. -/
def initItems : Option Expr → List Item
  | some e => [.gap, pu p!"=", .gap] ++ e.items
  | none => []
termination_by structural e => e

/-- The expressions of a list. -/
def exprItems : List Expr → List (List Item)
  | [] => []
  | e :: es => e.items :: exprItems es
termination_by structural es => es

/-- A literal. -/
def Literal.items : Literal → List Item
  | .null => [word c!"null"]
  | .boolean true => [word c!"true"]
  | .boolean false => [word c!"false"]
  | .string s => [strItem s]
  | .number raw => [numItem raw]
  | .array es => pu p!"[" :: .demand (lastNotHole es) :: gapIf (!es.isEmpty) ++ commaItems (arrayItems es) ++
    gapIf (!es.isEmpty) ++ [pu p!"]"]
  | .object ps => pu p!"{" :: gapIf (!ps.isEmpty) ++ commaItems (propItems ps) ++ gapIf (!ps.isEmpty) ++ [pu p!"}"]
  | .regexp s => [regexItem s]
  | .template ps => partItems true [] ps
termination_by structural l => l

/-- The parts of a template: `s` has been read since its start or the last substitution. -/
def partItems (first : Bool) (s : Str) : List TemplatePart → List Item
  | [] => [templateEnd first s]
  | .string t :: ps => .single s.isEmpty :: partItems first (s ++ t) ps
  | .expr e :: ps => templateSub first s :: e.items ++ partItems false [] ps
termination_by structural ps => ps

/-- An element of an array. -/
def ArrayElement.items : ArrayElement → List Item
  | .elision => []
  | .expr e => e.items
  | .spread e => pu p!"..." :: e.items
termination_by structural a => a

/-- The elements of an array. -/
def arrayItems : List ArrayElement → List (List Item)
  | [] => []
  | e :: es => e.items :: arrayItems es
termination_by structural es => es

/-- A property of an object. -/
def PropDef.items : PropDef → List Item
  | .identRef i => [.demand (!([c!"async", c!"get", c!"set", c!"static"].contains i.name)), word i.name]
  | .spread e => pu p!"..." :: e.items
  | .named _ n v => n.items ++ [pu p!":", .gap] ++ v.items
  | .method m => .demand (computedOk m) :: (if bareComputed m then [] else [notNext (.punct p!"[")]) ++ m.items
termination_by structural p => p

/-- The properties of an object. -/
def propItems : List PropDef → List (List Item)
  | [] => []
  | e :: es => e.items :: propItems es
termination_by structural es => es

/-- The name of a property. -/
def PropName.items : PropName → List Item
  | .ident i => [word i.name]
  | .string s => [strItem s]
  | .number raw => [numItem raw]
  | .computed e => pu p!"[" :: e.items ++ [pu p!"]"]
termination_by structural n => n

/-- A method. -/
def MethodDef.items : MethodDef → List Item
  | .mk _ n kind ps b generator async isStatic =>
    .demand (methodOk n kind generator async) :: (if isStatic then [word c!"static", .gap] else []) ++
    (if async then [word c!"async", .gap, sameLine] else []) ++ (if generator then [pu p!"*"] else []) ++
    (match kind with
      | .get => [word c!"get"]
      | .set => [word c!"set"]
      | .method => []) ++ n.items ++ ps.items ++ .gap :: b.items
termination_by structural m => m

/-- The methods of a class, each on its own line. -/
def elementItems : List MethodDef → List Item
  | [] => []
  | m :: ms => .demand (ctorOk m) :: m.items ++ .nl :: elementItems ms
termination_by structural ms => ms

/-- Parameters. -/
def FormalParams.items : FormalParams → List Item
  | .mk _ bs r => pu p!"(" :: commaItems (bindingElementItems bs) ++ restItems (!bs.isEmpty) r ++ [pu p!")"]
termination_by structural p => p

/-- The single parameter of an arrow function without parentheses. -/
def FormalParams.bare : FormalParams → List Item
  | .mk _ bs _ => bareItems bs
termination_by structural p => p

/-- A rest element. -/
def restItems (comma : Bool) : Option BindingPattern → List Item
  | some p => (if comma then [pu p!",", .gap] else []) ++ pu p!"..." :: p.items
  | none => []
termination_by structural p => p

/-- Binding elements one after the other. -/
def bareItems : List BindingElement → List Item
  | [] => []
  | b :: bs => b.items ++ bareItems bs
termination_by structural bs => bs

/-- The elements of a list. -/
def bindingElementItems : List BindingElement → List (List Item)
  | [] => []
  | b :: bs => b.items :: bindingElementItems bs
termination_by structural bs => bs

/-- A function body. -/
def Body.items : Body → List Item
  | .mk _ ds ss => if ds.isEmpty && ss.isEmpty then [pu p!"{", pu p!"}"]
    else pu p!"{" :: .open :: directiveItems ds ++ notString :: stmtItems ss ++ [.close, pu p!"}"]
termination_by structural b => b

/-- The body of an arrow function. -/
def ArrowBody.items : ArrowBody → List Item
  | .expr e => notNext (.punct p!"{") :: e.items
  | .body b => b.items
termination_by structural b => b

/-- The object of a member expression. -/
def MemberObject.items : MemberObject → List Item
  | .expr e => e.items
  | .super _ => [word c!"super"]
termination_by structural o => o

/-- The property of a member expression. -/
def MemberProp.items : MemberProp → List Item
  | .ident i => [pu p!".", word i.name]
  | .expr e => pu p!"[" :: e.items ++ [pu p!"]"]
termination_by structural p => p

/-- The property of an optional member expression. -/
def MemberProp.optItems : MemberProp → List Item
  | .ident i => [pu p!"?.", word i.name]
  | .expr e => pu p!"?." :: pu p!"[" :: e.items ++ [pu p!"]"]
termination_by structural p => p

/-- An argument. -/
def Argument.items : Argument → List Item
  | .expr e => e.items
  | .spread e => pu p!"..." :: e.items
termination_by structural a => a

/-- The arguments of a call. -/
def argItems : List Argument → List (List Item)
  | [] => []
  | a :: as => a.items :: argItems as
termination_by structural as => as

/-- What is called. -/
def Callee.items : Callee → List Item
  | .super => [word c!"super"]
  | .import => [word c!"import"]
  | .expr e => e.items
termination_by structural x => x

/-- A binding pattern. -/
def BindingPattern.items : BindingPattern → List Item
  | .ident i => [word i.name]
  | .array _ es r => pu p!"[" :: .demand (noHoleBeforeRest es r) :: gapIf (!es.isEmpty || r.isSome) ++ optElementItems es ++
    restItems (!es.isEmpty) r ++ gapIf (!es.isEmpty || r.isSome) ++ [pu p!"]"]
  | .object _ ps r => pu p!"{" :: gapIf (!ps.isEmpty || r.isSome) ++ commaItems (bindingPropItems ps) ++
    restItems (!ps.isEmpty) r ++ gapIf (!ps.isEmpty || r.isSome) ++ [pu p!"}"]
termination_by structural p => p

/-- The elements of an array pattern: a comma after every element but the last, and also after a last element that is
missing. -/
def optElementItems : List (Option BindingElement) → List Item
  | [] => []
  | o :: os => optElement o ++ (if !os.isEmpty || o.isNone then [pu p!","] else []) ++ gapIf (!os.isEmpty) ++ optElementItems os
termination_by structural os => os

/-- An element of an array pattern or nothing. -/
def optElement : Option BindingElement → List Item
  | some b => b.items
  | none => []
termination_by structural o => o

/-- A property of an object pattern. -/
def BindingProp.items : BindingProp → List Item
  | .single _ i init => word i.name :: initItems init
  | .named _ n b => n.items ++ [pu p!":", .gap] ++ b.items
termination_by structural p => p

/-- The properties of an object pattern. -/
def bindingPropItems : List BindingProp → List (List Item)
  | [] => []
  | p :: ps => p.items :: bindingPropItems ps
termination_by structural ps => ps

/-- An element with an optional initial value. -/
def BindingElement.items : BindingElement → List Item
  | .mk _ p init => p.items ++ initItems init
termination_by structural b => b

/-- The left side of an assignment; patterns are not supported. -/
def PatternOrExpr.items : PatternOrExpr → List Item
  | .expr e => e.items
  | .pattern _ => [.demand false]
termination_by structural p => p

/-- A statement or declaration, with the end of its line. -/
def Stmt.items : Stmt → List Item
  | .block b => b.items ++ [.nl]
  | .break _ l => word c!"break" :: (match l with
      | some l => [.gap, word l.name]
      | none => []) ++ [.semi, .nl]
  | .continue _ l => word c!"continue" :: (match l with
      | some l => [.gap, word l.name]
      | none => []) ++ [.semi, .nl]
  | .debugger _ => [word c!"debugger", .semi, .nl]
  | .doWhile _ b t => word c!"do" :: .blank :: b.items ++ word c!"while" :: .gap :: pu p!"(" :: t.items ++
    [pu p!")", notNext (.punct p!";"), .nl]
  | .empty _ => [pu p!";", .nl]
  | .expr _ e => stmtStart ++ e.items ++ [.semi, .nl]
  | .for _ i t u b => word c!"for" :: .gap :: pu p!"(" :: forInitItems i ++ pu p!";" :: spacedItems t ++ pu p!";" ::
    spacedItems u ++ pu p!")" :: .gap :: b.items ++ [.nl]
  | .forIn _ l r b => word c!"for" :: .gap :: pu p!"(" :: l.items ++ word c!"in" :: .gap :: r.items ++ pu p!")" :: .gap ::
    b.items ++ [.nl]
  | .forOf _ l r b async => word c!"for" :: (if async then [word c!"await"] else []) ++ .gap :: pu p!"(" :: l.items ++
    word c!"of" :: .gap :: r.items ++ pu p!")" :: .gap :: b.items ++ [.nl]
  | .if _ x t a => word c!"if" :: .gap :: pu p!"(" :: x.items ++ pu p!")" :: .nl :: t.items ++ elseItems a ++ [.nl]
  | .labeled _ l b => word l.name :: pu p!":" :: .gap :: b.items ++ [.nl]
  | .return _ a => word c!"return" :: returnItems a ++ [.semi, .nl]
  | .switch _ d cs => word c!"switch" :: .gap :: pu p!"(" :: d.items ++ pu p!")" :: .gap :: blockItems (caseItems cs) ++ [.nl]
  | .throw _ a => word c!"throw" :: .gap :: sameLine :: a.items ++ [throwEnd, .lexed, .nl]
  | .try _ b h f => word c!"try" :: .gap :: b.items ++ catchItems h ++ finallyItems f ++ [.nl]
  | .variable v => v.items ++ [.nl]
  | .while _ t b => word c!"while" :: .gap :: pu p!"(" :: t.items ++ pu p!")" :: .gap :: b.items ++ [.nl]
  | .with _ x b => word c!"with" :: pu p!"(" :: x.items ++ pu p!")" :: .gap :: b.items ++ [.nl]
  | .classDecl _ i sc b => .demand (i.name != [] || sc.isNone) :: word c!"class" :: nameItems i.name ++ extendsItems sc ++ .gap :: blockItems (elementItems b) ++ [.nl]
  | .functionDecl _ async generator i ps b => .sep ::
    (if async then [word c!"async", .blank] else []) ++ word c!"function" :: (if generator then [pu p!"*"] else []) ++
    .gap :: nameItems i.name ++ ps.items ++ .gap :: b.items ++ [.nl]
  | .importDecl _ d ns n src => importDeclItems d ns n src ++ [.nl]
  | .exportDecl d => d.items ++ [.nl]
termination_by structural s => s

/-- What follows `return`. -/
def returnItems : Option Expr → List Item
  | some e => .gap :: sameLine :: e.items
  | none => []
termination_by structural e => e

/-- Statements one after the other. -/
def stmtItems : List Stmt → List Item
  | [] => []
  | s :: ss => s.items ++ stmtItems ss
termination_by structural ss => ss

/-- The `else` part of an `if` statement; without it, `else` does not follow. -/
def elseItems : Option Stmt → List Item
  | some s => word c!"else" :: .nl :: s.items
  | none => [notNext (.keyword k!"else")]
termination_by structural s => s

/-- A block. -/
def Block.items : Block → List Item
  | .mk _ ss => blockItems (stmtItems ss)
termination_by structural b => b

/-- The `finally` part of a `try` statement; without it, `finally` does not follow. -/
def finallyItems : Option Block → List Item
  | some b => .gap :: word c!"finally" :: .gap :: b.items
  | none => [notNext (.keyword k!"finally")]
termination_by structural b => b

/-- The `catch` part of a `try` statement. -/
def catchItems : Option CatchClause → List Item
  | some x => .gap :: word c!"catch" :: .gap :: x.items
  | none => []
termination_by structural x => x

/-- What follows `catch`. -/
def CatchClause.items : CatchClause → List Item
  | .mk _ p b => catchParamItems p ++ b.items
termination_by structural x => x

/-- The parameter of a catch clause. -/
def catchParamItems : Option BindingPattern → List Item
  | some p => pu p!"(" :: p.items ++ [pu p!")", .gap]
  | none => []
termination_by structural p => p

/-- A variable statement with its semicolon. -/
def VarStmt.items : VarStmt → List Item
  | .mk _ k ds => word k.asStr :: .gap :: varDeclItems ds ++ (if ds.isEmpty then [] else [.semi])
termination_by structural v => v

/-- A variable statement without its semicolon. -/
def VarStmt.bare : VarStmt → List Item
  | .mk _ k ds => word k.asStr :: .gap :: varDeclItems ds
termination_by structural v => v

/-- Declarations; those with an initial value are on lines of their own. -/
def varDeclItems : List VarDecl → List Item
  | [] => []
  | d :: ds => d.items ++ (if ds.isEmpty then [] else [pu p!",", if hasInit d then .nl else .gap]) ++ varDeclItems ds
termination_by structural ds => ds

/-- A declaration. -/
def VarDecl.items : VarDecl → List Item
  | .mk _ p init => p.items ++ initItems init
termination_by structural v => v

/-- A case of a `switch` statement. -/
def SwitchCase.items : SwitchCase → List Item
  | .mk _ t ss => caseTestItems t ++ pu p!":" :: .nl :: stmtItems ss ++ caseEnd
termination_by structural x => x

/-- The head of a case. -/
def caseTestItems : Option Expr → List Item
  | some e => word c!"case" :: .blank :: e.items
  | none => [word c!"default"]
termination_by structural e => e

/-- The cases of a `switch` statement. -/
def caseItems : List SwitchCase → List Item
  | [] => []
  | x :: xs => x.items ++ caseItems xs
termination_by structural xs => xs

/-- The first part of a `for` statement. -/
def forInitItems : Option ForInit → List Item
  | some f => f.items
  | none => []
termination_by structural f => f

/-- The first part of a `for` statement. -/
def ForInit.items : ForInit → List Item
  | .expr e => .more :: notNext (.keyword k!"let") :: e.items
  | .declaration v => v.bare
termination_by structural f => f

/-- The variable of a `for-in` or `for-of` statement; only expressions are supported. -/
def ForDecl.items : ForDecl → List Item
  | .expr e => .demand (plainTarget e) :: .more ::
    .next (fun v _ => ![.punct p!"{", .punct p!"[", .keyword k!"let"].contains v) :: e.items
  | .pattern _ => [.demand false]
  | .declaration .. => [.demand false]
termination_by structural f => f

/-- An export declaration. -/
def ExportDecl.items : ExportDecl → List Item
  | .decl _ d => word c!"export" :: .gap ::
    .next (fun v _ => ![.keyword k!"import", .keyword k!"export"].contains v) ::
    (if isFunction d then d.items.drop 1 else d.items)
  | .defaultExpr _ e => word c!"export" :: .blank :: word c!"default" :: .gap :: exportStart ++ e.items ++ [.semi]
  | .defaultDecl _ d => word c!"export" :: .blank :: word c!"default" :: .gap ::
    .next (fun v _ => [.keyword k!"function", .keyword k!"async", .keyword k!"class"].contains v) ::
    (if isFunction d then d.items.drop 1 else d.items)
  | .named _ ns src => word c!"export" :: .gap :: braces (ns.map exportItems) ++
    (match src with
      | some s => [.gap, word c!"from", .gap, strItem s]
      | none => []) ++ [.semi]
  | .namespace _ a src => word c!"export" :: .gap :: pu p!"*" ::
    (match a with
      | some i => [.gap, word c!"as", .gap, word i.name]
      | none => []) ++ [.gap, word c!"from", .gap, strItem src, lineEnds, .lexed]
termination_by structural d => d

end

/-- A program. -/
def Program.items (p : Program) : List Item := directiveItems p.directives ++ notString :: stmtItems p.body

end Fajt
