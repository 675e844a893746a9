import Verif.Spec.Fits
/-!
# A test for `Fits`

`fits` decides a sufficient condition for `Fits` by computation: for every token, whether it has the form of a token of its kind, and
whether it ends in front of the character that follows it.
-/
namespace Fajt.Print
open Fajt Spec
variable [UnicodeID]

/-- The punctuator ends in front of this character. -/
def punctStops (p : Punct) (c : Char) : Bool :=
  !(Punct.all.any fun q => (p.asStr ++ [c]).isPrefixOf q.asStr) && !((p == p!"." || p == p!"?.") && c.isDigit) &&
  !(p == p!"/" && (c == '/' || c == '*')) && !(p == p!"<" && c == '!') && !(p == p!"--" && c == '>')

/-- The text is an identifier name. -/
def isName (n : Str) : Bool := n.head?.any isIdStart && n.all isIdPart

/-- A word ends in front of this character. -/
def nameStops (c : Char) : Bool := !isIdPart c && c != '\\'

/-- Two underscores. -/
def hasDouble : Str → Bool
  | '_' :: '_' :: _ => true
  | _ :: w => hasDouble w
  | [] => false

/-- Digits with separators. -/
def isRun (isD : Char → Bool) (w : Str) : Bool := w.all (fun c => isD c || c == '_') && !hasDouble w && w.getLast? != some '_'

/-- A digit or a separator. -/
def digitOr_ (c : Char) : Bool := c.isDigit || c == '_'

/-- The integer part, the fraction with its dot, and the exponent with its letter. -/
def splitNumber (w : Str) : Str × Str × Str :=
  let i := w.takeWhile digitOr_
  match w.dropWhile digitOr_ with
  | '.' :: r => (i, '.' :: r.takeWhile digitOr_, r.dropWhile digitOr_)
  | r => (i, [], r)

/-- The text of an exponent. -/
def isExponent : Str → Bool
  | [] => true
  | x :: r => (x == 'e' || x == 'E') && (isRun Char.isDigit r && r != [] || match r with
      | s :: d => (s == '+' || s == '-') && isRun Char.isDigit d && d != []
      | [] => false)

/-- A number with digits of another base. -/
def isBased : Str → Bool
  | '0' :: x :: ds => ds != [] && ((x == 'x' || x == 'X') && isRun isHex ds || (x == 'o' || x == 'O') && isRun isOct ds ||
      (x == 'b' || x == 'B') && isRun isBin ds)
  | _ => false

/-- A decimal number. -/
def isDecimal (w : Str) : Bool :=
  let (i, f, e) := splitNumber w
  isRun Char.isDigit i && isRun Char.isDigit (f.drop 1) && isExponent e &&
  (match w with
    | '.' :: c :: _ => c.isDigit
    | '0' :: c :: _ => !c.isDigit && !['x', 'X', 'o', 'O', 'b', 'B'].contains c
    | c :: _ => c.isDigit
    | [] => false)

/-- The number ends in front of this character; a dot can follow if there is a fraction, an exponent or another base. -/
def numberStops (w : Str) (c : Char) : Bool :=
  !c.isDigit && c != '_' && !isIdStart c && (c != '.' || isBased w || (splitNumber w).2 != ([], []))

/-- The text of a string between its quotes. -/
def isPlain (q : Char) (w : Str) : Bool := w.all fun c => c != '\\' && c != q && c != '\r' && c != '\n'

/-- The text of a template between the places where it is interrupted. -/
def isTemplatePlain : Str → Bool
  | [] => true
  | c :: w => c != '\\' && c != '`' && !(c == '$' && w.head? == some '{') && isTemplatePlain w

/-- What follows the slash that ends a regular expression; `cls`: the text starts inside a class. -/
def regexFlags : Bool → Str → Option Str
  | _, [] => none
  | true, ']' :: w => regexFlags false w
  | true, '\\' :: _ :: w => regexFlags true w
  | true, c :: w => if c = '\\' then none else regexFlags true w
  | false, '/' :: w => some w
  | false, '[' :: w => regexFlags true w
  | false, '\\' :: c :: w => if c = '\n' then none else regexFlags false w
  | false, c :: w => if c = '\n' ∨ c = '\\' then none else regexFlags false w

/-- The text of a regular expression. -/
def isRegexp : Str → Bool
  | '/' :: w => w.head? != some '/' && w.head? != some '*' && (regexFlags false w).any fun f => f.all isIdPart
  | _ => false

/-- The token has the form of a token of its kind and ends in front of this character (or at the end of the text). -/
def Lex.ok (l : Lex) (h : Option Char) : Bool :=
  match l.kind, l.val with
  | .plain, .punct p => l.text == p.asStr && h.all (punctStops p)
  | .plain, .keyword k => l.text == k.asStr && h.all nameStops
  | .plain, .ident n => l.text == n && isName n && (Keyword.fromStr n).isNone && h.all nameStops
  | .plain, .lit (.number w) => l.text == w && (isBased w || isDecimal w) && h.all (numberStops w)
  | .plain, .lit (.string s) => l.text == s.delimiter :: s.value ++ [s.delimiter] && (s.delimiter == '"' || s.delimiter == '\'') &&
      isPlain s.delimiter s.value
  | .plain, .lit (.template v) => l.text == '`' :: v ++ ['`'] && isTemplatePlain v
  | .plain, .templateHead v => l.text == '`' :: v ++ ['$', '{'] && isTemplatePlain v
  | .regex, .lit (.regexp s) => l.text == s && isRegexp s && h.all fun c => !isIdPart c
  | .cont, .templateMiddle v => l.text == '}' :: v ++ ['$', '{'] && isTemplatePlain v
  | .cont, .templateTail v => l.text == '}' :: v ++ ['`'] && isTemplatePlain v
  | _, _ => false

/-- The test for `Lex.WF`. -/
def Lex.wf (l : Lex) : Bool :=
  l.text != [] && l.ok none && l.ok (some ' ') && l.ok (some '\n') && l.text.getLast?.all fun c => decide (c.toNat < 128) && c != '\n'

/-- The test for `Lay.Takes`. -/
def Lay.takes (s : Lay) : Item → Bool
  | .tok l => l.wf && (l.kind != .cont || s.last.isSome && !s.gap) &&
      s.last.all fun k => s.gap || bothAlnum k.text l.text || k.ok l.text.head?
  | .nl => !s.open
  | .open => s.last.isSome && !s.line && !s.gap
  | .sep => s.line
  | .still => !s.line
  | .single b => b
  | _ => true

/-- The test for `Writable`. -/
def writable (s : Lay) : List Item → Bool
  | [] => true
  | i :: is => s.takes i && writable (s.next i) is

/-- The test for `AheadOk`. -/
def aheadOk (f : Bool) (is : List Item) : Item → Bool
  | .next q => (nextTok f is).all fun x => x.1.seen.all fun v => q v x.2.1
  | .next2 q => (nextTok f is).all fun x => (nextTok false x.2.2).all fun y => x.1.kind != .plain || y.1.seen.all fun u => q x.1.val u
  | .more => (nextTok f is).isSome
  | .demand b => b
  | _ => true

/-- The test for `Lookahead`. -/
def lookahead (f : Bool) : List Item → Bool
  | [] => true
  | i :: is => aheadOk f is i && lookahead (lineAfter f i) is

/-- The test for `Fits`. -/
def fits (mini : Bool) (is : List Item) : Bool := writable {} (written mini is) && lookahead true (written mini is)

end Fajt.Print
