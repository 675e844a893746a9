import Verif.Spec.Source
/-!
# What a source that makes the parser panic looks like
-/
namespace Fajt.Spec

/-- `TokensTo pre fol src ts rest fol'`: the text `src`, which follows `pre`, starts with the tokens `ts`, and `rest` follows them;
`fol'` tells whether the next token counts as the first of its line if no line terminator is in front of it.  As `SourceTokens`, but
not up to the end of the source. -/
inductive TokensTo [UnicodeID] : Str → Bool → Str → List Token → Str → Bool → Prop where
  | nil {pre src : Str} {fol : Bool} : TokensTo pre fol src [] src fol
  | cons {pre tr w rest rest' : Str} {html fol fol1 fol2 fol' : Bool} {t : Token} {ts : List Token} :
      Trivia html fol tr (w ++ rest) fol1 →
      (t.fol = fol1 ∨ t.fol = false ∧ w.head? = some '}') →
      w ≠ [] →
      ((∃ regex, Lexeme regex t.value w rest) ∧ fol2 = false ∨ Continuation t.value w) →
      t.span = ⟨posAfter 0 0 (pre ++ tr), posAfter 0 0 (pre ++ tr ++ w)⟩ →
      TokensTo (pre ++ tr ++ w) fol2 rest ts rest' fol' →
      TokensTo pre fol (tr ++ (w ++ rest)) (t :: ts) rest' fol'

/-- Behind some tokens and trivia there is a token `w` such that the character `d` immediately in front of it is not ASCII. -/
def TokenBehindWide [UnicodeID] (src : Str) : Prop :=
  ∃ (ts : List Token) (tr w rest u : Str) (d : Char) (html fol fol1 : Bool),
    TokensTo [] true src ts (tr ++ (w ++ rest)) fol ∧ Trivia html fol tr (w ++ rest) fol1 ∧ w ≠ [] ∧
    ((∃ regex v, Lexeme regex v w rest) ∨ ∃ v, Continuation v w) ∧
    src = u ++ d :: (w ++ rest) ∧ 128 ≤ d.toNat

/-- Behind some tokens there is the keyword `from`, followed by a literal that is not a string. -/
def FromNonString [UnicodeID] (src : Str) : Prop :=
  ∃ (ts : List Token) (t u : Token) (l : TLit) (rest : Str) (fol : Bool),
    TokensTo [] true src (ts ++ [t, u]) rest fol ∧ t.value = .keyword k!"from" ∧ u.value = .lit l ∧ ∀ s, l ≠ .string s

/-- What can make the parser panic. -/
def PanicCause [UnicodeID] (src : Str) (styp : SourceType) : Prop :=
  TokenBehindWide src ∨ styp = .module ∧ FromNonString src

/-- Behind `export` or `export default` there is a token; `sp` runs backwards from the start of that token to the end of the keyword. -/
def BehindExport [UnicodeID] (src : Str) (sp : Span) : Prop :=
  ∃ (ts : List Token) (t u : Token) (rest : Str) (fol : Bool),
    TokensTo [] true src (ts ++ [t, u]) rest fol ∧
    (t.value = .keyword k!"export" ∨
      t.value = .keyword k!"default" ∧ ∃ ts' x, ts = ts' ++ [x] ∧ x.value = .keyword k!"export") ∧
    sp = ⟨u.span.start, t.span.stop⟩

/-- The span of an error lies in the source; only the error "Expected statement" of modules, behind `export`, can have a span whose end
is in front of its start. -/
def ErrorSpan [UnicodeID] (src : Str) (styp : SourceType) (e : PErr) : Prop :=
  e.span.start ≤ e.span.stop ∧ e.span.stop ≤ byteLen src ∨
  styp = .module ∧ e.kind = .syn c!"Expected statement" ∧ BehindExport src e.span ∧
    e.span.stop ≤ e.span.start ∧ e.span.start ≤ byteLen src

end Fajt.Spec
