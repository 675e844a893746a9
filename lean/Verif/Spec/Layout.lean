import Verif.Spec.Lexical
import Verif.Spec.Strip
import Verif.Model.Parser
/-!
# Layout

What it means that two sources differ in layout only, and that two runs of the parser end in the same way up to positions.
-/
namespace Fajt.Spec
variable [UnicodeID]

/-- A token whose reading does not depend on where it stands: not a punctuator that starts with a slash (it could also be the
start of a regular expression) and not the head of a template. -/
def PlainToken : TokVal → Prop
  | .punct p => p.asStr.head? ≠ some '/'
  | .templateHead _ => False
  | _ => True

/-- The reported start of every token is the number of bytes in front of some character of the source.  (True of every ASCII
source; after other characters fajt can report positions inside of a character.) -/
def Addressable (src : Str) (ts : List Token) : Prop :=
  ∀ t ∈ ts, ∃ before rest, src = before ++ rest ∧ byteLen before = t.span.start

/-- Two sources with the same tokens, which also agree on the tokens in front of which there is a line terminator.  Blanks,
comments, the form of the line terminators and their number are free. -/
def SameTokens (sty : SourceType) (src src' : Str) : Prop :=
  ∃ ts ts' : List Token,
    Tokens (sty = .script) false [] true src ts ∧ Tokens (sty = .script) false [] true src' ts' ∧
    ts.map (fun t => (t.value, t.fol)) = ts'.map (fun t => (t.value, t.fol)) ∧
    (∀ t ∈ ts, PlainToken t.value) ∧ Addressable src ts ∧ Addressable src' ts'

/-- The kind of a lexer error without positions. -/
def stripLexErr : LexErrKind → LexErrKind
  | .invalidOrUnexpectedToken t => .invalidOrUnexpectedToken { t with span := nowhere }
  | k => k

/-- Two calls of the lexer that give corresponding tokens, or errors that differ in positions only, and leave the lexers at
corresponding places. -/
def SameRead (R : Cursor → Cursor → Prop) (T : Token → Token → Prop) : Res Cursor LexErr Token → Res Cursor LexErr Token → Prop
  | .ok t c, .ok t' c' => T t t' ∧ R c c'
  | .err e c, .err e' c' => stripLexErr e.kind = stripLexErr e'.kind ∧ R c c'
  | _, _ => False

/-- Going back to corresponding tokens and reading there in the state `again`: both panic, or the results correspond.  After a
token the lexer goes on in the state in which it was before.  After an error it stays in the state `again`; then the places have
to be related by `E`. -/
def SameAgain (src src' : Str) (states : LexState → Prop) (R : LexState → Cursor → Cursor → Prop) (T : Token → Token → Prop)
    (E : Cursor → Cursor → Prop) (again : LexState) (t t' : Token) : Prop :=
  match LexerS.dropBytes src t.span.start, LexerS.dropBytes src' t'.span.start with
  | some r, some r' =>
    match Lexer.read again ⟨r, t.span.start, t.span.start, t.fol⟩, Lexer.read again ⟨r', t'.span.start, t'.span.start, t'.fol⟩ with
    | .ok u c, .ok u' c' => T u u' ∧ ∀ st, states st → R st c c'
    | .err e c, .err e' c' => stripLexErr e.kind = stripLexErr e'.kind ∧ E c c'
    | _, _ => False
  | none, none => True
  | _, _ => False

/-- `Twins sty src src' states R T`: the places of `src` and `src'` that are related by `R st` cannot be told apart by reading
tokens in the state `st` of the lexer, and going back to a token that has been read leads to such places again.  `T` relates the
tokens that are read at such places. -/
structure Twins (sty : SourceType) (src src' : Str) (states : LexState → Prop) (R : LexState → Cursor → Cursor → Prop)
    (T : Token → Token → Prop) : Prop where
  /-- The state in which the parser starts. -/
  plain : states ⟨sty = .script, false, false⟩
  /-- The starts of the sources correspond. -/
  start : R ⟨sty = .script, false, false⟩ ⟨src, 0, 0, true⟩ ⟨src', 0, 0, true⟩
  /-- Reading at corresponding places. -/
  read : ∀ {st c c'}, states st → R st c c' → SameRead (R st) T (Lexer.read st c) (Lexer.read st c')
  /-- Corresponding tokens have the same value and agree on whether a line terminator is in front of them. -/
  token : ∀ {t t'}, T t t' → t.value = t'.value ∧ t.fol = t'.fol
  /-- Going back to corresponding tokens panics in both sources or leads to corresponding places. -/
  back : ∀ {t t'}, T t t' → match LexerS.dropBytes src t.span.start, LexerS.dropBytes src' t'.span.start with
    | some r, some r' => ∀ st, states st → R st ⟨r, t.span.start, t.span.start, t.fol⟩ ⟨r', t'.span.start, t'.span.start, t'.fol⟩
    | none, none => True
    | _, _ => False
  /-- The correspondence of the places of tokens is one to one. -/
  one : ∀ {t t' u u'}, T t t' → T u u' → (t.span.start = u.span.start ↔ t'.span.start = u'.span.start)
  /-- Tokens can be read again as regular expressions.  (This makes a difference for slashes only.) -/
  regexp : ∀ {t t'}, T t t' → SameAgain src src' states R T
    (fun c c' => states LexState.regexAllowed ∧ R LexState.regexAllowed c c') LexState.regexAllowed t t'
  /-- If there are heads of templates, then tokens can be read again as continuations of templates.  (This is an error, the same
  one, for everything but closing braces.)  After such an error the lexer stays in the state for templates, and only a `for`
  statement goes on: without these, the places after the error need not correspond. -/
  template : ∀ {u u' s}, T u u' → u.value = .templateHead s → ∃ E : Cursor → Cursor → Prop,
    (∀ {t t'}, T t t' → SameAgain src src' states R T E LexState.insideTemplate t t') ∧
    ((∀ {c c'}, E c c' → states LexState.insideTemplate ∧ R LexState.insideTemplate c c') ∨
      ∀ {t t'}, T t t' → t.value ≠ .keyword k!"for")

/-- Two sources that the lexer cannot tell apart, whatever the parser asks of it: the same tokens, with line terminators in front
of the same ones, when a slash is read as an operator and when it is read as the start of a regular expression, when a brace is
read as a punctuator and (if there are templates with substitutions) when it is read as the continuation of a template. -/
def SameForLexer (sty : SourceType) (src src' : Str) : Prop := ∃ states R T, Twins sty src src' states R T

/-- How a run of the parser ends, without positions. -/
inductive Ending (α : Type) where
  | tree (a : α)
  | refused (why : PErrKind)
  | panicked (message : Str)
  | outOfFuel

end Fajt.Spec

namespace Fajt

/-- The kind of an error without positions. -/
def PErrKind.strip : PErrKind → PErrKind
  | .endOfStream => .endOfStream
  | .lexer e => .lexer ⟨nowhere, Spec.stripLexErr e.kind⟩
  | .syn m => .syn m
  | .expectedIdent v => .expectedIdent v
  | .unexpectedToken v x => .unexpectedToken v x
  | .unexpectedIdent id => .unexpectedIdent id.strip
  | .forbiddenIdent n => .forbiddenIdent n
  | .arrowNotAllowed e => .arrowNotAllowed e.strip
  | .initializedName => .initializedName

/-- The end of a run without positions: the tree, the kind of the error or the message of the panic. -/
def Spec.ending {α : Type} (strip : α → α) : Res PState PErr α → Spec.Ending α
  | .ok a _ => .tree (strip a)
  | .err e _ => .refused e.kind.strip
  | .panic w => .panicked w
  | .oof => .outOfFuel

end Fajt
