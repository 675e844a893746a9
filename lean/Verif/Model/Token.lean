import Verif.Model.Ast
/-!
# Tokens (`/repo/lexer/src/token.rs`) and the `FromString` derive (`/repo/macros/src/enum_from_string.rs`)
-/
namespace Fajt

/-- `/repo/lexer/src/token.rs:74-128` `enum Keyword`. -/
inductive Keyword where
  | awaitK | asK | asyncK | breakK | caseK | catchK | classK | constK
  | continueK | debuggerK | defaultK | deleteK | doK | elseK | enumK | exportK
  | extendsK | falseK | finallyK | forK | fromK | functionK | getK | ifK
  | implementsK | importK | inK | instanceofK | interfaceK | letK | newK | nullK
  | ofK | packageK | privateK | protectedK | publicK | returnK | setK | staticK
  | superK | switchK | targetK | thisK | throwK | trueK | tryK | typeofK
  | varK | voidK | whileK | withK | yieldK
deriving DecidableEq, Repr, Inhabited

/-- All keywords, in declaration order. -/
def Keyword.all : List Keyword := [
  .awaitK, .asK, .asyncK, .breakK, .caseK, .catchK, .classK, .constK,
  .continueK, .debuggerK, .defaultK, .deleteK, .doK, .elseK, .enumK, .exportK,
  .extendsK, .falseK, .finallyK, .forK, .fromK, .functionK, .getK, .ifK,
  .implementsK, .importK, .inK, .instanceofK, .interfaceK, .letK, .newK, .nullK,
  .ofK, .packageK, .privateK, .protectedK, .publicK, .returnK, .setK, .staticK,
  .superK, .switchK, .targetK, .thisK, .throwK, .trueK, .tryK, .typeofK,
  .varK, .voidK, .whileK, .withK, .yieldK]

/-- `Keyword::as_str`, generated by `/repo/macros/src/enum_from_string.rs:40-64`; without a `from_string` attribute the
string is the lower-cased variant name (`enum_from_string.rs:127-142`). -/
def Keyword.asStr : Keyword → Str
  | .awaitK => c!"await"
  | .asK => c!"as"
  | .asyncK => c!"async"
  | .breakK => c!"break"
  | .caseK => c!"case"
  | .catchK => c!"catch"
  | .classK => c!"class"
  | .constK => c!"const"
  | .continueK => c!"continue"
  | .debuggerK => c!"debugger"
  | .defaultK => c!"default"
  | .deleteK => c!"delete"
  | .doK => c!"do"
  | .elseK => c!"else"
  | .enumK => c!"enum"
  | .exportK => c!"export"
  | .extendsK => c!"extends"
  | .falseK => c!"false"
  | .finallyK => c!"finally"
  | .forK => c!"for"
  | .fromK => c!"from"
  | .functionK => c!"function"
  | .getK => c!"get"
  | .ifK => c!"if"
  | .implementsK => c!"implements"
  | .importK => c!"import"
  | .inK => c!"in"
  | .instanceofK => c!"instanceof"
  | .interfaceK => c!"interface"
  | .letK => c!"let"
  | .newK => c!"new"
  | .nullK => c!"null"
  | .ofK => c!"of"
  | .packageK => c!"package"
  | .privateK => c!"private"
  | .protectedK => c!"protected"
  | .publicK => c!"public"
  | .returnK => c!"return"
  | .setK => c!"set"
  | .staticK => c!"static"
  | .superK => c!"super"
  | .switchK => c!"switch"
  | .targetK => c!"target"
  | .thisK => c!"this"
  | .throwK => c!"throw"
  | .trueK => c!"true"
  | .tryK => c!"try"
  | .typeofK => c!"typeof"
  | .varK => c!"var"
  | .voidK => c!"void"
  | .whileK => c!"while"
  | .withK => c!"with"
  | .yieldK => c!"yield"

/-- `/repo/lexer/src/token.rs:179-288` `enum Punctuator`. -/
inductive Punct where
  | parenOpen | parenClose | braceOpen | braceClose | bracketOpen | bracketClose
  | dot | tripleDot | semiColon | comma | lessThan | doubleLessThan
  | greaterThan | doubleGreaterThan | tripleGreaterThan | equal | doubleEqual | lessEqual
  | doubleLessEqual | greaterEqual | doubleGreaterEqual | tripleGreaterEqual | equalGreater | notEqual
  | plusEqual | minusEqual | starEqual | doubleStarEqual | slashEqual | percentEqual
  | pipeEqual | caretEqual | ampersandEqual | tripleEqual | exclamationDoubleEqual | plus
  | doublePlus | minus | doubleMinus | star | doubleStar | slash
  | percent | ampersand | doubleAmpersand | pipe | doublePipe | caret
  | exclamation | tilde | questionMark | doubleQuestionMark | questionMarkDot | colon
deriving DecidableEq, Repr, Inhabited

/-- All punctuators, in declaration order. -/
def Punct.all : List Punct := [
  .parenOpen, .parenClose, .braceOpen, .braceClose, .bracketOpen, .bracketClose,
  .dot, .tripleDot, .semiColon, .comma, .lessThan, .doubleLessThan,
  .greaterThan, .doubleGreaterThan, .tripleGreaterThan, .equal, .doubleEqual, .lessEqual,
  .doubleLessEqual, .greaterEqual, .doubleGreaterEqual, .tripleGreaterEqual, .equalGreater, .notEqual,
  .plusEqual, .minusEqual, .starEqual, .doubleStarEqual, .slashEqual, .percentEqual,
  .pipeEqual, .caretEqual, .ampersandEqual, .tripleEqual, .exclamationDoubleEqual, .plus,
  .doublePlus, .minus, .doubleMinus, .star, .doubleStar, .slash,
  .percent, .ampersand, .doubleAmpersand, .pipe, .doublePipe, .caret,
  .exclamation, .tilde, .questionMark, .doubleQuestionMark, .questionMarkDot, .colon]

/-- `Punctuator::as_str` (strings from the `from_string` attributes, token.rs:179-288). -/
def Punct.asStr : Punct → Str
  | .parenOpen => c!"("
  | .parenClose => c!")"
  | .braceOpen => c!"["
  | .braceClose => c!"]"
  | .bracketOpen => c!"{"
  | .bracketClose => c!"}"
  | .dot => c!"."
  | .tripleDot => c!"..."
  | .semiColon => c!";"
  | .comma => c!","
  | .lessThan => c!"<"
  | .doubleLessThan => c!"<<"
  | .greaterThan => c!">"
  | .doubleGreaterThan => c!">>"
  | .tripleGreaterThan => c!">>>"
  | .equal => c!"="
  | .doubleEqual => c!"=="
  | .lessEqual => c!"<="
  | .doubleLessEqual => c!"<<="
  | .greaterEqual => c!">="
  | .doubleGreaterEqual => c!">>="
  | .tripleGreaterEqual => c!">>>="
  | .equalGreater => c!"=>"
  | .notEqual => c!"!="
  | .plusEqual => c!"+="
  | .minusEqual => c!"-="
  | .starEqual => c!"*="
  | .doubleStarEqual => c!"**="
  | .slashEqual => c!"/="
  | .percentEqual => c!"%="
  | .pipeEqual => c!"|="
  | .caretEqual => c!"^="
  | .ampersandEqual => c!"&="
  | .tripleEqual => c!"==="
  | .exclamationDoubleEqual => c!"!=="
  | .plus => c!"+"
  | .doublePlus => c!"++"
  | .minus => c!"-"
  | .doubleMinus => c!"--"
  | .star => c!"*"
  | .doubleStar => c!"**"
  | .slash => c!"/"
  | .percent => c!"%"
  | .ampersand => c!"&"
  | .doubleAmpersand => c!"&&"
  | .pipe => c!"|"
  | .doublePipe => c!"||"
  | .caret => c!"^"
  | .exclamation => c!"!"
  | .tilde => c!"~"
  | .questionMark => c!"?"
  | .doubleQuestionMark => c!"??"
  | .questionMarkDot => c!"?."
  | .colon => c!":"

/-- `FromStr` generated by `/repo/macros/src/enum_from_string.rs:18-38`: a `match` over the variant strings in declaration
order, modelled as the first variant of `all` whose string equals the input. -/
def fromStrIn {α : Type} (all : List α) (asStr : α → Str) (s : Str) : Option α := all.find? (fun a => asStr a == s)

/-- `Keyword::from_str`. -/
def Keyword.fromStr (s : Str) : Option Keyword := fromStrIn Keyword.all Keyword.asStr s

/-- `Punctuator::from_str`. -/
def Punct.fromStr (s : Str) : Option Punct := fromStrIn Punct.all Punct.asStr s

/-- All variants of `BinaryOperator`, in declaration order. -/
def BinaryOp.all : List BinaryOp := [.plus, .minus, .mul, .div, .mod, .exp, .shl, .shr, .ushr, .lt, .gt, .le, .ge, .instanceof, .in_, .eq, .ne, .seq, .sne, .bitAnd, .bitXor, .bitOr]

/-- `BinaryOperator::as_str` (`/repo/ast/src/expr.rs:102-149`). -/
def BinaryOp.asStr : BinaryOp → Str
  | .plus => c!"+"
  | .minus => c!"-"
  | .mul => c!"*"
  | .div => c!"/"
  | .mod => c!"%"
  | .exp => c!"**"
  | .shl => c!"<<"
  | .shr => c!">>"
  | .ushr => c!">>>"
  | .lt => c!"<"
  | .gt => c!">"
  | .le => c!"<="
  | .ge => c!">="
  | .instanceof => c!"instanceof"
  | .in_ => c!"in"
  | .eq => c!"=="
  | .ne => c!"!="
  | .seq => c!"==="
  | .sne => c!"!=="
  | .bitAnd => c!"&"
  | .bitXor => c!"^"
  | .bitOr => c!"|"

/-- `BinaryOperator::from_str`. -/
def BinaryOp.fromStr (s : Str) : Option BinaryOp := fromStrIn BinaryOp.all BinaryOp.asStr s

/-- All variants of `LogicalOperator`, in declaration order. -/
def LogicalOp.all : List LogicalOp := [.and, .or, .coalesce]

/-- `LogicalOperator::as_str` (`/repo/ast/src/expr.rs:169-176`). -/
def LogicalOp.asStr : LogicalOp → Str
  | .and => c!"&&"
  | .or => c!"||"
  | .coalesce => c!"??"

/-- `LogicalOperator::from_str`. -/
def LogicalOp.fromStr (s : Str) : Option LogicalOp := fromStrIn LogicalOp.all LogicalOp.asStr s

/-- All variants of `UnaryOperator`, in declaration order. -/
def UnaryOp.all : List UnaryOp := [.delete, .void, .typeof, .plus, .minus, .bitNot, .not]

/-- `UnaryOperator::as_str` (`/repo/ast/src/expr.rs:195-210`). -/
def UnaryOp.asStr : UnaryOp → Str
  | .delete => c!"delete"
  | .void => c!"void"
  | .typeof => c!"typeof"
  | .plus => c!"+"
  | .minus => c!"-"
  | .bitNot => c!"~"
  | .not => c!"!"

/-- `UnaryOperator::from_str`. -/
def UnaryOp.fromStr (s : Str) : Option UnaryOp := fromStrIn UnaryOp.all UnaryOp.asStr s

/-- All variants of `UpdateOperator`, in declaration order. -/
def UpdateOp.all : List UpdateOp := [.incr, .decr]

/-- `UpdateOperator::as_str` (`/repo/ast/src/expr.rs:230-235`). -/
def UpdateOp.asStr : UpdateOp → Str
  | .incr => c!"++"
  | .decr => c!"--"

/-- `UpdateOperator::from_str`. -/
def UpdateOp.fromStr (s : Str) : Option UpdateOp := fromStrIn UpdateOp.all UpdateOp.asStr s

/-- All variants of `AssignmentOperator`, in declaration order. -/
def AssignOp.all : List AssignOp := [.assign, .mul, .pow, .div, .mod, .add, .sub, .shl, .shr, .ushr, .bitAnd, .bitXor, .bitOr]

/-- `AssignmentOperator::as_str` (`/repo/ast/src/expr.rs:384-411`). -/
def AssignOp.asStr : AssignOp → Str
  | .assign => c!"="
  | .mul => c!"*="
  | .pow => c!"**="
  | .div => c!"/="
  | .mod => c!"%="
  | .add => c!"+="
  | .sub => c!"-="
  | .shl => c!"<<="
  | .shr => c!">>="
  | .ushr => c!">>>="
  | .bitAnd => c!"&="
  | .bitXor => c!"^="
  | .bitOr => c!"|="

/-- `AssignmentOperator::from_str`. -/
def AssignOp.fromStr (s : Str) : Option AssignOp := fromStrIn AssignOp.all AssignOp.asStr s

/-- All variants of `VariableKind`, in declaration order. -/
def VarKind.all : List VarKind := [.const, .let_, .var]

/-- `VariableKind::as_str` (`/repo/ast/src/stmt.rs:124-134`). -/
def VarKind.asStr : VarKind → Str
  | .const => c!"const"
  | .let_ => c!"let"
  | .var => c!"var"

/-- `VariableKind::from_str`. -/
def VarKind.fromStr (s : Str) : Option VarKind := fromStrIn VarKind.all VarKind.asStr s

/-- `p!"("` is the punctuator written `(`, like the Rust macro `punct!("(")`. -/
syntax:max (name := punctLit) "p!" noWs str : term
macro_rules
  | `(p!$s:str) => do
    match s.getString with
    | "(" => `(Fajt.Punct.parenOpen)
    | ")" => `(Fajt.Punct.parenClose)
    | "[" => `(Fajt.Punct.braceOpen)
    | "]" => `(Fajt.Punct.braceClose)
    | "{" => `(Fajt.Punct.bracketOpen)
    | "}" => `(Fajt.Punct.bracketClose)
    | "." => `(Fajt.Punct.dot)
    | "..." => `(Fajt.Punct.tripleDot)
    | ";" => `(Fajt.Punct.semiColon)
    | "," => `(Fajt.Punct.comma)
    | "<" => `(Fajt.Punct.lessThan)
    | "<<" => `(Fajt.Punct.doubleLessThan)
    | ">" => `(Fajt.Punct.greaterThan)
    | ">>" => `(Fajt.Punct.doubleGreaterThan)
    | ">>>" => `(Fajt.Punct.tripleGreaterThan)
    | "=" => `(Fajt.Punct.equal)
    | "==" => `(Fajt.Punct.doubleEqual)
    | "<=" => `(Fajt.Punct.lessEqual)
    | "<<=" => `(Fajt.Punct.doubleLessEqual)
    | ">=" => `(Fajt.Punct.greaterEqual)
    | ">>=" => `(Fajt.Punct.doubleGreaterEqual)
    | ">>>=" => `(Fajt.Punct.tripleGreaterEqual)
    | "=>" => `(Fajt.Punct.equalGreater)
    | "!=" => `(Fajt.Punct.notEqual)
    | "+=" => `(Fajt.Punct.plusEqual)
    | "-=" => `(Fajt.Punct.minusEqual)
    | "*=" => `(Fajt.Punct.starEqual)
    | "**=" => `(Fajt.Punct.doubleStarEqual)
    | "/=" => `(Fajt.Punct.slashEqual)
    | "%=" => `(Fajt.Punct.percentEqual)
    | "|=" => `(Fajt.Punct.pipeEqual)
    | "^=" => `(Fajt.Punct.caretEqual)
    | "&=" => `(Fajt.Punct.ampersandEqual)
    | "===" => `(Fajt.Punct.tripleEqual)
    | "!==" => `(Fajt.Punct.exclamationDoubleEqual)
    | "+" => `(Fajt.Punct.plus)
    | "++" => `(Fajt.Punct.doublePlus)
    | "-" => `(Fajt.Punct.minus)
    | "--" => `(Fajt.Punct.doubleMinus)
    | "*" => `(Fajt.Punct.star)
    | "**" => `(Fajt.Punct.doubleStar)
    | "/" => `(Fajt.Punct.slash)
    | "%" => `(Fajt.Punct.percent)
    | "&" => `(Fajt.Punct.ampersand)
    | "&&" => `(Fajt.Punct.doubleAmpersand)
    | "|" => `(Fajt.Punct.pipe)
    | "||" => `(Fajt.Punct.doublePipe)
    | "^" => `(Fajt.Punct.caret)
    | "!" => `(Fajt.Punct.exclamation)
    | "~" => `(Fajt.Punct.tilde)
    | "?" => `(Fajt.Punct.questionMark)
    | "??" => `(Fajt.Punct.doubleQuestionMark)
    | "?." => `(Fajt.Punct.questionMarkDot)
    | ":" => `(Fajt.Punct.colon)
    | _ => Lean.Macro.throwError "no such punctuator"

/-- `k!"new"` is the keyword written `new`, like the Rust macro `keyword!("new")`. -/
syntax:max (name := keywordLit) "k!" noWs str : term
macro_rules
  | `(k!$s:str) => do
    match s.getString with
    | "await" => `(Fajt.Keyword.awaitK)
    | "as" => `(Fajt.Keyword.asK)
    | "async" => `(Fajt.Keyword.asyncK)
    | "break" => `(Fajt.Keyword.breakK)
    | "case" => `(Fajt.Keyword.caseK)
    | "catch" => `(Fajt.Keyword.catchK)
    | "class" => `(Fajt.Keyword.classK)
    | "const" => `(Fajt.Keyword.constK)
    | "continue" => `(Fajt.Keyword.continueK)
    | "debugger" => `(Fajt.Keyword.debuggerK)
    | "default" => `(Fajt.Keyword.defaultK)
    | "delete" => `(Fajt.Keyword.deleteK)
    | "do" => `(Fajt.Keyword.doK)
    | "else" => `(Fajt.Keyword.elseK)
    | "enum" => `(Fajt.Keyword.enumK)
    | "export" => `(Fajt.Keyword.exportK)
    | "extends" => `(Fajt.Keyword.extendsK)
    | "false" => `(Fajt.Keyword.falseK)
    | "finally" => `(Fajt.Keyword.finallyK)
    | "for" => `(Fajt.Keyword.forK)
    | "from" => `(Fajt.Keyword.fromK)
    | "function" => `(Fajt.Keyword.functionK)
    | "get" => `(Fajt.Keyword.getK)
    | "if" => `(Fajt.Keyword.ifK)
    | "implements" => `(Fajt.Keyword.implementsK)
    | "import" => `(Fajt.Keyword.importK)
    | "in" => `(Fajt.Keyword.inK)
    | "instanceof" => `(Fajt.Keyword.instanceofK)
    | "interface" => `(Fajt.Keyword.interfaceK)
    | "let" => `(Fajt.Keyword.letK)
    | "new" => `(Fajt.Keyword.newK)
    | "null" => `(Fajt.Keyword.nullK)
    | "of" => `(Fajt.Keyword.ofK)
    | "package" => `(Fajt.Keyword.packageK)
    | "private" => `(Fajt.Keyword.privateK)
    | "protected" => `(Fajt.Keyword.protectedK)
    | "public" => `(Fajt.Keyword.publicK)
    | "return" => `(Fajt.Keyword.returnK)
    | "set" => `(Fajt.Keyword.setK)
    | "static" => `(Fajt.Keyword.staticK)
    | "super" => `(Fajt.Keyword.superK)
    | "switch" => `(Fajt.Keyword.switchK)
    | "target" => `(Fajt.Keyword.targetK)
    | "this" => `(Fajt.Keyword.thisK)
    | "throw" => `(Fajt.Keyword.throwK)
    | "true" => `(Fajt.Keyword.trueK)
    | "try" => `(Fajt.Keyword.tryK)
    | "typeof" => `(Fajt.Keyword.typeofK)
    | "var" => `(Fajt.Keyword.varK)
    | "void" => `(Fajt.Keyword.voidK)
    | "while" => `(Fajt.Keyword.whileK)
    | "with" => `(Fajt.Keyword.withK)
    | "yield" => `(Fajt.Keyword.yieldK)
    | _ => Lean.Macro.throwError "no such keyword"

/-- `/repo/lexer/src/token.rs:44-52` `KeywordContext`: the three flags as booleans. -/
structure KwCtx where
  await : Bool
  yield : Bool
  strict : Bool
deriving DecidableEq, Repr, Inhabited

/-- `/repo/lexer/src/token.rs:132-159` `Keyword::is_allowed_as_identifier`. -/
def Keyword.allowedAsIdent (k : Keyword) (c : KwCtx) : Bool :=
  match k with
  | k!"as" | k!"async" | k!"from" | k!"get" | k!"of" | k!"set" | k!"target" => true
  | k!"await" => !c.await
  | k!"yield" => !(c.yield || c.strict)
  | k!"implements" | k!"interface" | k!"let" | k!"package" | k!"private" | k!"protected" | k!"public" | k!"static" =>
    !c.strict
  | _ => false

/-- The literals a token can carry (`fajt_ast::Literal` restricted to what the lexer produces,
`/repo/lexer/src/number.rs:37`, `string.rs:12-15`, `regexp.rs:40`, `lib.rs:386-388`). -/
inductive TLit where
  | string (s : LitString)
  | number (raw : Str)
  | regexp (s : Str)
  | template (s : Str)
deriving DecidableEq, Repr, Inhabited

/-- The `fajt_ast::Literal` of a token literal. -/
def TLit.toLiteral : TLit → Literal
  | .string s => .string s
  | .number raw => .number raw
  | .regexp s => .regexp s
  | .template s => .template [.string s]

/-- `/repo/lexer/src/token.rs:321-329` `TokenValue`. -/
inductive TokVal where
  | keyword (k : Keyword)
  | ident (name : Str)
  | punct (p : Punct)
  | lit (l : TLit)
  | templateHead (s : Str)
  | templateMiddle (s : Str)
  | templateTail (s : Str)
deriving DecidableEq, Repr, Inhabited

/-- `/repo/lexer/src/token.rs:332-336` `Token`. -/
structure Token where
  value : TokVal
  fol : Bool
  span : Span
deriving DecidableEq, Repr, Inhabited

end Fajt
