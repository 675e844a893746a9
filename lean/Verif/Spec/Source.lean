import Verif.Spec.Grammar
import Verif.Spec.Lexical
/-!
# Programs in a source

What the parser reads: the tokens of the source (now with template continuations and with `/` as division or as the start of
a regular expression, as the grammar demands), and where a semicolon may be inserted.
-/
namespace Fajt.Spec
open Fajt
variable [UnicodeID]

/-- `SourceTokens pre fol src ts`: after the text `pre`, the text `src` consists of the spellings of the tokens `ts`, with
trivia before, between and after them and nothing else.  In contrast to `Tokens`, the choice between division and regular
expression is free for every token and template continuations are tokens.  Departures: whether HTML-like comments are comments
is free for every token, too; after a template continuation `fol2` is arbitrary, that is, the next token may count as the first
of its line although it is not; a template continuation may count as not the first of its line although it is. -/
inductive SourceTokens : Str → Bool → Str → List Token → Prop where
  | nil {pre src : Str} {html fol fol' : Bool} : Trivia html fol src [] fol' → SourceTokens pre fol src []
  | cons {pre tr w rest : Str} {html fol fol1 fol2 : Bool} {t : Token} {ts : List Token} :
      Trivia html fol tr (w ++ rest) fol1 →
      (t.fol = fol1 ∨ t.fol = false ∧ w.head? = some '}') →
      w ≠ [] →
      ((∃ regex, Lexeme regex t.value w rest) ∧ fol2 = false ∨ Continuation t.value w) →
      t.span = ⟨posAfter 0 0 (pre ++ tr), posAfter 0 0 (pre ++ tr ++ w)⟩ →
      SourceTokens (pre ++ tr ++ w) fol2 rest ts →
      SourceTokens pre fol (tr ++ (w ++ rest)) (t :: ts)

/-- After the text `pre`, which ends at the position `q`, a semicolon may be inserted: apart from trivia the end of the source
follows, or `}`, or there is a line terminator in the trivia.  Departure: also behind a template. -/
def AsiAfter (src : Str) (q : Nat) : Prop :=
  ∃ (pre tr rest : Str) (html fol fol' : Bool), src = pre ++ (tr ++ rest) ∧ posAfter 0 0 pre = q ∧ Trivia html fol tr rest fol' ∧
    (rest = [] ∨ rest.head? = some '}' ∨ tr.any isLT = true ∨
      fol = true ∧ (pre.getLast? = some '`' ∨ pre.getLast? = some '{'))

/-- `SourcePart pre fol src ts`: after the text `pre`, the text `src` begins with the tokens `ts`; like `SourceTokens`, but anything may
follow. -/
inductive SourcePart : Str → Bool → Str → List Token → Prop where
  | nil {pre src : Str} {fol : Bool} : SourcePart pre fol src []
  | cons {pre tr w rest : Str} {html fol fol1 fol2 : Bool} {t : Token} {ts : List Token} :
      Trivia html fol tr (w ++ rest) fol1 →
      (t.fol = fol1 ∨ t.fol = false ∧ w.head? = some '}') →
      w ≠ [] →
      ((∃ regex, Lexeme regex t.value w rest) ∧ fol2 = false ∨ Continuation t.value w) →
      t.span = ⟨posAfter 0 0 (pre ++ tr), posAfter 0 0 (pre ++ tr ++ w)⟩ →
      SourcePart (pre ++ tr ++ w) fol2 rest ts →
      SourcePart pre fol (tr ++ (w ++ rest)) (t :: ts)

/-- What the grammar needs to know of a source, if directives may end anywhere. -/
def freeEnv (src : Str) (styp : SourceType) : GEnv := ⟨AsiAfter src, styp = .module, fun _ => True⟩

/-- At the position `q` of the source a statement can be read that begins with a string but is not a directive. -/
def OtherStatement (src : Str) (styp : SourceType) (q : Nat) : Prop :=
  ∃ (pre rest : Str) (fol : Bool) (t : Token) (l : LitString) (us : List Token) (ctx : Ctx) (s : Stmt),
    src = pre ++ rest ∧ SourcePart pre fol rest (t :: us) ∧ t.value = .lit (.string l) ∧ t.span.start = q ∧
    D (freeEnv src styp) ctx (.item s) (t :: us) ∧ ∀ d, ¬ IsDirective s d

/-- What the grammar needs to know of a source. -/
def sourceEnv (src : Str) (styp : SourceType) : GEnv := ⟨AsiAfter src, styp = .module, OtherStatement src styp⟩

end Fajt.Spec
