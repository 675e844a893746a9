import Verif.Model.Lexer
/-!
# Lexical grammar

A specification of white space, comments and lexemes that does not mention the lexer: what texts are trivia, and which text
is a spelling of which token value in front of which following text.  It uses only the character classes and the tables of
`Verif.Model.Token`.
-/
namespace Fajt

/-- A source all of whose characters are ASCII. -/
def Ascii (w : Str) : Prop := ∀ c ∈ w, c.toNat < 128

/-- The position fajt reports after the text `w`, when `w` starts at byte `off` and the position before it is `pos`: the byte
offset of the last character plus its UTF-16 length.  For ASCII text this is the number of characters. -/
def posAfter (off pos : Nat) : Str → Nat
  | [] => pos
  | c :: w => posAfter (off + c.utf8Size) (off + lenUtf16 c) w

end Fajt

namespace Fajt.Spec
open Fajt
variable [UnicodeID]

/-- No character of `p` starts `rest`. -/
def NotHead (p : Char → Bool) (rest : Str) : Prop := ∀ c ∈ rest.head?, p c = false

/-- The rest of a line, after the characters that open a single line comment: characters that are not line terminators,
up to and including the next line terminator or up to the end of the source. -/
inductive LineRest : Str → Str → Prop where
  | eol {body : Str} {c : Char} {rest : Str} : (∀ d ∈ body, isLT d = false) → isLT c = true → LineRest (body ++ [c]) rest
  | eof {body : Str} : (∀ d ∈ body, isLT d = false) → LineRest body []

/-- `Trivia html fol w rest fol'`: the text `w`, followed by `rest`, consists of white space, line terminators and comments.
`fol` tells whether no token precedes `w` on its line, `fol'` whether this is so at the end of `w`.  `html` allows html-like
comments.  fajt takes any `<!` for the start of an html-like comment. -/
inductive Trivia (html : Bool) : Bool → Str → Str → Bool → Prop where
  | nil {fol : Bool} {rest : Str} : Trivia html fol [] rest fol
  | ws {fol fol' : Bool} {c : Char} {w rest : Str} :
      isWS c = true → Trivia html fol w rest fol' → Trivia html fol (c :: w) rest fol'
  | lt {fol fol' : Bool} {c : Char} {w rest : Str} :
      isLT c = true → Trivia html true w rest fol' → Trivia html fol (c :: w) rest fol'
  | line {fol fol' : Bool} {l w rest : Str} :
      LineRest l (w ++ rest) → Trivia html true w rest fol' → Trivia html fol ('/' :: '/' :: l ++ w) rest fol'
  | htmlOpen {fol fol' : Bool} {l w rest : Str} : html = true →
      LineRest l (w ++ rest) → Trivia html true w rest fol' → Trivia html fol ('<' :: '!' :: l ++ w) rest fol'
  | htmlClose {fol' : Bool} {l w rest : Str} : html = true →
      LineRest l (w ++ rest) → Trivia html true w rest fol' →
      Trivia html true ('-' :: '-' :: '>' :: l ++ w) rest fol'
  | block {fol fol' : Bool} {body w rest : Str} : (∀ u v, body ≠ u ++ '*' :: '/' :: v) →
      Trivia html (fol || body.any isLT) w rest fol' →
      Trivia html fol ('/' :: '*' :: body ++ '*' :: '/' :: w) rest fol'

/-- No white space, line terminator or comment starts here. -/
def NoTrivia (fol : Bool) (rest : Str) : Prop :=
  NotHead (fun c => isWS c || isLT c) rest ∧ (∀ r, rest ≠ '/' :: '/' :: r) ∧ (∀ r, rest ≠ '/' :: '*' :: r) ∧
  (∀ r, rest ≠ '<' :: '!' :: r) ∧ ¬ (fol = true ∧ ∃ r, rest = '-' :: '-' :: '>' :: r)

/-- White space, line terminators and complete multi-line comments. -/
inductive Filler : Str → Prop where
  | nil : Filler []
  | blank {c : Char} {w : Str} : (isWS c || isLT c) = true → Filler w → Filler (c :: w)
  | comment {body w : Str} : (∀ u v, body ≠ u ++ '*' :: '/' :: v) → Filler w → Filler ('/' :: '*' :: body ++ '*' :: '/' :: w)

/-! ## Numbers -/

/-- Digits with separators: no two adjacent underscores and none at the end. -/
structure DigitRun (isD : Char → Bool) (w : Str) : Prop where
  digits : ∀ c ∈ w, isD c = true ∨ c = '_'
  single : ∀ u v, w ≠ u ++ '_' :: '_' :: v
  last : w.getLast? ≠ some '_'

def isOct (c : Char) : Bool := '0' ≤ c && c ≤ '7'
def isBin (c : Char) : Bool := c == '0' || c == '1'

/-- `NumberText w rest`: the text `w` in front of `rest` is a numeric literal. -/
inductive NumberText : Str → Str → Prop where
  | hex {x : Char} {ds rest : Str} : x = 'x' ∨ x = 'X' → DigitRun isHex ds → ds ≠ [] →
      NotHead (fun c => isHex c || c == '_') rest → NumberText ('0' :: x :: ds) rest
  | oct {x : Char} {ds rest : Str} : x = 'o' ∨ x = 'O' → DigitRun isOct ds → ds ≠ [] →
      NotHead (fun c => isOct c || c == '_') rest → NumberText ('0' :: x :: ds) rest
  | bin {x : Char} {ds rest : Str} : x = 'b' ∨ x = 'B' → DigitRun isBin ds → ds ≠ [] →
      NotHead (fun c => isBin c || c == '_') rest → NumberText ('0' :: x :: ds) rest
  | dec {i f e rest : Str} : DigitRun Char.isDigit i → NotHead (fun c => c.isDigit || c == '_') (f ++ (e ++ rest)) →
      (f = [] ∧ NotHead (· == '.') (e ++ rest) ∨
        ∃ ds, f = '.' :: ds ∧ DigitRun Char.isDigit ds ∧ NotHead (fun c => c.isDigit || c == '_') (e ++ rest)) →
      (e = [] ∧ NotHead (fun c => c == 'e' || c == 'E') rest ∨
        ∃ x sign ds, e = x :: (sign ++ ds) ∧ (x = 'e' ∨ x = 'E') ∧ (sign = [] ∨ sign = ['-'] ∨ sign = ['+']) ∧
          DigitRun Char.isDigit ds ∧ ds ≠ [] ∧ NotHead (fun c => c.isDigit || c == '_') rest) →
      -- starts with a digit, or a dot and a digit
      ((∃ c r, i ++ (f ++ e) = c :: r ∧ c.isDigit = true) ∨
        ∃ c r, i ++ (f ++ e) = '.' :: c :: r ∧ c.isDigit = true) →
      -- not a number with a leading zero, and no base prefix
      (∀ c r, i ++ (f ++ (e ++ rest)) = '0' :: c :: r → c.isDigit = false ∧ c ∉ ['x', 'X', 'o', 'O', 'b', 'B']) →
      NumberText (i ++ (f ++ e)) rest

/-! ## Strings and templates -/

/-- `StringBody q w v`: the text `w` between quotes `q` denotes the value `v` (escaping backslashes dropped, nothing decoded). -/
inductive StringBody (q : Char) : Str → Str → Prop where
  | nil : StringBody q [] []
  | plain {c : Char} {w v : Str} : c ≠ '\\' → c ≠ q → c ≠ '\r' → c ≠ '\n' → StringBody q w v → StringBody q (c :: w) (c :: v)
  | escape {c : Char} {w v : Str} : StringBody q w v → StringBody q ('\\' :: c :: w) (c :: v)
  | escapeCRLF {w v : Str} : StringBody q w v → StringBody q ('\\' :: '\r' :: '\n' :: w) ('\r' :: '\n' :: v)

/-- `TemplateBody w v`: the text `w` inside a template denotes the value `v`. -/
inductive TemplateBody : Str → Str → Prop where
  | nil : TemplateBody [] []
  | plain {c : Char} {w v : Str} : c ≠ '\\' → c ≠ '`' → ¬ (c = '$' ∧ w.head? = some '{') → TemplateBody w v →
      TemplateBody (c :: w) (c :: v)
  | escape {c : Char} {w v : Str} : TemplateBody w v → TemplateBody ('\\' :: c :: w) (c :: v)

/-! ## Regular expressions -/

/-- The text of a character class after `[`, including the closing `]`. -/
inductive ClassText : Str → Prop where
  | close : ClassText [']']
  | plain {c : Char} {w : Str} : c ≠ ']' → c ≠ '\\' → ClassText w → ClassText (c :: w)
  | escape {c : Char} {w : Str} : ClassText w → ClassText ('\\' :: c :: w)

/-- The text of a regular expression after the opening `/`, including the closing `/`. -/
inductive RegexpText : Str → Prop where
  | close : RegexpText ['/']
  | plain {c : Char} {w : Str} : c ∉ ['\n', '/', '\\', '['] → RegexpText w → RegexpText (c :: w)
  | escape {c : Char} {w : Str} : c ≠ '\n' → RegexpText w → RegexpText ('\\' :: c :: w)
  | cls {u w : Str} : ClassText u → RegexpText w → RegexpText ('[' :: (u ++ w))

/-! ## Identifiers -/

/-- A unicode escape sequence and the character it denotes. -/
inductive Escape : Str → Char → Prop where
  | four {a b c d ch : Char} : isHex a = true → isHex b = true → isHex c = true → isHex d = true →
      Lexer.hexVal [a, b, c, d] = ch.toNat → Escape ['\\', 'u', a, b, c, d] ch
  | braces {ds : Str} {ch : Char} : ds ≠ [] → (∀ d ∈ ds, isHex d = true) → Lexer.hexVal ds = ch.toNat →
      Escape ('\\' :: 'u' :: '{' :: ds ++ ['}']) ch

/-- `w` spells the characters of `name`, each literally or with a unicode escape. -/
inductive Spells : Str → Str → Prop where
  | nil : Spells [] []
  | plain {c : Char} {w n : Str} : Spells w n → Spells (c :: w) (c :: n)
  | escape {e : Str} {c : Char} {w n : Str} : Escape e c → Spells w n → Spells (e ++ w) (c :: n)

/-- An identifier name. -/
def IdentName (n : Str) : Prop := (∃ c r, n = c :: r ∧ isIdStart c = true) ∧ ∀ c ∈ n, isIdPart c = true

/-- The text `w`, in front of `rest`, spells the identifier name `n`. -/
structure NameText (w n rest : Str) : Prop where
  spells : Spells w n
  valid : IdentName n
  maximal : NotHead (fun c => isIdPart c || c == '\\') rest

/-! ## Punctuators -/

/-- The text of the punctuator `p` in front of `rest`: no longer punctuator could be read (but `?` before a dot and a digit
is not `?.`), and a single dot is not followed by a dot or a digit. -/
structure PunctText (p : Punct) (rest : Str) : Prop where
  longest : ∀ q : Punct, p.asStr.length < q.asStr.length → q.asStr <+: p.asStr ++ rest →
    p = p!"?" ∧ q = p!"?." ∧ ∃ c r, rest = '.' :: c :: r ∧ c.isDigit = true
  chain : p = p!"?." → NotHead Char.isDigit rest
  dot : p = p!"." → NotHead (fun c => c == '.' || c.isDigit) rest

/-! ## Lexemes -/

/-- `Lexeme regex v w rest`: where no trivia starts, the text `w` in front of `rest` is a spelling of the token value `v`;
`regex` tells whether `/` starts a regular expression. -/
inductive Lexeme (regex : Bool) : TokVal → Str → Str → Prop where
  | punct {p : Punct} {rest : Str} : PunctText p rest → (regex = true → p.asStr.head? ≠ some '/') →
      Lexeme regex (.punct p) p.asStr rest
  | keyword {k : Keyword} {w rest : Str} : NameText w k.asStr rest → Lexeme regex (.keyword k) w rest
  | ident {n w rest : Str} : NameText w n rest → (∀ k : Keyword, k.asStr ≠ n) → Lexeme regex (.ident n) w rest
  | number {w rest : Str} : NumberText w rest → NotHead isIdStart rest → Lexeme regex (.lit (.number w)) w rest
  | string {q : Char} {w v rest : Str} : q = '"' ∨ q = '\'' → StringBody q w v →
      Lexeme regex (.lit (.string ⟨v, q⟩)) (q :: w ++ [q]) rest
  | regexp {w flags rest : Str} : regex = true → RegexpText w → (∀ c ∈ flags, isIdPart c = true) → NotHead isIdPart rest →
      Lexeme regex (.lit (.regexp ('/' :: w ++ flags))) ('/' :: w ++ flags) rest
  | template {w v rest : Str} : TemplateBody w v → Lexeme regex (.lit (.template v)) ('`' :: w ++ ['`']) rest
  | templateHead {w v rest : Str} : TemplateBody w v → Lexeme regex (.templateHead v) ('`' :: w ++ ['$', '{']) rest

/-- Spellings of template continuations, read where the parser expects one. -/
inductive Continuation : TokVal → Str → Prop where
  | middle {w v : Str} : TemplateBody w v → Continuation (.templateMiddle v) ('}' :: w ++ ['$', '{'])
  | tail {w v : Str} : TemplateBody w v → Continuation (.templateTail v) ('}' :: w ++ ['`'])

/-! ## Token sequences -/

/-- `Tokens html regex pre fol src ts`: after the text `pre`, the text `src` consists of the lexemes of the tokens `ts`, in
order, with trivia before, between and after them and nothing else.  Every token carries the position where its lexeme starts
and ends, and the flag telling whether it is the first on its line: `fol` for the first token, or a line terminator in front
of it. -/
inductive Tokens (html regex : Bool) : Str → Bool → Str → List Token → Prop where
  | nil {pre src : Str} {fol fol' : Bool} : Trivia html fol src [] fol' → Tokens html regex pre fol src []
  | cons {pre tr w rest : Str} {fol : Bool} {t : Token} {ts : List Token} :
      Trivia html fol tr (w ++ rest) t.fol →
      t.fol = (fol || tr.any isLT) →
      NoTrivia t.fol (w ++ rest) →
      w ≠ [] →
      Lexeme regex t.value w rest →
      t.span = ⟨posAfter 0 0 (pre ++ tr), posAfter 0 0 (pre ++ tr ++ w)⟩ →
      Tokens html regex (pre ++ tr ++ w) false rest ts →
      Tokens html regex pre fol (tr ++ (w ++ rest)) (t :: ts)

end Fajt.Spec
