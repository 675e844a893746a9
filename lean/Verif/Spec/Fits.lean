import Verif.Spec.Printed
import Verif.Spec.Lexical
/-!
# When a sequence of printed tokens can be read again
-/
namespace Fajt.Print
open Fajt Spec
variable [UnicodeID]

/-- The token is recognized in front of this character (or the end of the text). -/
def Lex.Ok (l : Lex) (h : Option Char) : Prop :=
  ∀ rest : Str, rest.head? = h →
    match l.kind with
    | .plain => (∀ f, NoTrivia f (l.text ++ rest)) ∧ Lexeme false l.val l.text rest
    | .regex => (∀ f, NoTrivia f (l.text ++ rest)) ∧ Lexeme true l.val l.text rest ∧ l.val = .lit (.regexp l.text)
    | .cont => Continuation l.val l.text

/-- A token with which code can be written: it is recognized in front of blanks and at the end, and its last character is an
ASCII character (otherwise fajt reports a wrong position for the next token and panics when it goes back to it). -/
structure Lex.WF (l : Lex) : Prop where
  ne : l.text ≠ []
  eof : l.Ok none
  blank : l.Ok (some ' ')
  line : l.Ok (some '\n')
  ascii : ∀ c ∈ l.text.getLast?, c.toNat < 128 ∧ c ≠ '\n'

/-- What has been written: the last token, whether blanks follow it, whether a line is starting and whether a block has just
been opened. -/
structure Lay where
  last : Option Lex := none
  gap : Bool := false
  line : Bool := true
  «open» : Bool := false

/-- Writing an item. -/
def Lay.next (s : Lay) : Item → Lay
  | .tok l => ⟨some l, false, false, false⟩
  | .gap | .blank => { s with gap := true, «open» := false }
  | .nl => { s with gap := true, line := true, «open» := false }
  | .open => { s with gap := true, line := true, «open» := true }
  | _ => s

/-- The characters are letters or digits: between words a blank is written. -/
def bothAlnum (k l : Str) : Bool := k.getLast?.any UnicodeID.alphanumeric && l.head?.any UnicodeID.alphanumeric

/-- The item can be written here.  A token next to the previous one, without a blank: both are words, or the previous one
is recognized in front of the first character of this one. -/
def Lay.Takes (s : Lay) : Item → Prop
  | .tok l => l.WF ∧ (l.kind = .cont → s.last.isSome = true ∧ s.gap = false) ∧
      ∀ k ∈ s.last, s.gap = false → bothAlnum k.text l.text = true ∨ k.Ok l.text.head?
  | .nl => s.open = false
  | .open => s.last.isSome = true ∧ s.line = false ∧ s.gap = false
  | .sep => s.line = true
  | .still => s.line = false
  | .single b => b = true
  | _ => True

/-- All items can be written. -/
def Writable (s : Lay) : List Item → Prop
  | [] => True
  | i :: is => s.Takes i ∧ Writable (s.next i) is

/-- Whether a line is starting after the item. -/
def lineAfter (f : Bool) : Item → Bool
  | .tok _ => false
  | .nl | .open => true
  | _ => f

/-- The next token, whether it is the first on its line, and what follows it. -/
def nextTok (f : Bool) : List Item → Option (Lex × Bool × List Item)
  | [] => none
  | .tok l :: is => some (l, f, is)
  | i :: is => nextTok (lineAfter f i) is

/-- The values that the token can have for a reader who does not know how it has to be read. -/
def Lex.seen (l : Lex) : List TokVal :=
  match l.kind with
  | .plain => [l.val]
  | .regex => [.punct p!"/", .punct p!"/="]
  | .cont => [.punct p!"}"]

/-- The restrictions of the item on what follows hold. -/
def AheadOk (f : Bool) (is : List Item) : Item → Prop
  | .next q => ∀ x ∈ nextTok f is, ∀ v ∈ x.1.seen, q v x.2.1 = true
  | .next2 q => ∀ x ∈ nextTok f is, ∀ y ∈ nextTok false x.2.2, x.1.kind = .plain → ∀ u ∈ y.1.seen, q x.1.val u = true
  | .more => (nextTok f is).isSome = true
  | .demand b => b = true
  | _ => True

/-- All restrictions on what follows hold. -/
def Lookahead (f : Bool) : List Item → Prop
  | [] => True
  | i :: is => AheadOk f is i ∧ Lookahead (lineAfter f i) is

/-! ## Pretty and minified code -/

/-- The items of pretty code: all blanks, line feeds and semicolons are written. -/
def pretty : List Item → List Item
  | [] => []
  | .semi :: is => pu p!";" :: pretty is
  | .blank :: is => .gap :: pretty is
  | .close :: is => pretty is
  | i :: is => i :: pretty is

/-- The last token ends with a closing parenthesis. -/
def paren (last : Option Lex) : Bool := last.any fun k => k.text.getLast? == some ')'

/-- A block ends here, or the program ends and the last token does not end with a closing parenthesis (`p`): here minified code
does not have a semicolon. -/
def ending (p : Bool) : List Item → Bool
  | [] => !p
  | .close :: _ => true
  | .tok _ :: _ | .semi :: _ | .blank :: _ => false
  | _ :: is => ending p is

/-- The end of the text or `}` follows. -/
def braceNext : Item := .next fun v _ => v == .punct p!"}"

/-- The items of minified code: there are no line feeds, only a few blanks, and no semicolons at the end of a block or the program.
There, a semicolon that is not the end of a statement cannot be written (no other token ends with a semicolon).
`last` is the last token, if no blank follows it. -/
def minified (last : Option Lex) : List Item → List Item
  | [] => []
  | .tok l :: is =>
    .demand (l.text.getLast? != some ';' || (l.text == [';'] && !ending (paren last) is)) :: .tok l :: minified (some l) is
  | .semi :: is =>
    if ending (paren last) is then .demand (last.any fun k => k.text.getLast? != some ';') :: braceNext :: .lexed :: minified last is
    else pu p!";" :: minified (some ⟨.plain, .punct p!";", p!";".asStr⟩) is
  | .blank :: is => .blank :: minified none is
  | .gap :: is | .nl :: is | .open :: is | .sep :: is | .still :: is | .close :: is => minified last is
  | i :: is => i :: minified last is

/-- The items of the code. -/
def written (mini : Bool) (is : List Item) : List Item := if mini then minified none is else pretty is

/-- The sequence can be written down, in pretty or minified form, and read again. -/
def Fits (mini : Bool) (is : List Item) : Prop := Writable {} (written mini is) ∧ Lookahead true (written mini is)

end Fajt.Print
