import Verif.Proofs.LayoutProgram
import Verif.Proofs.LayoutCheck
import Verif.Proofs.LayoutEquiv
import Verif.Proofs.CodegenStrip
import Verif.Props.Complete
import Verif.Props.RoundTrip
import Verif.Props.Lexer
/-!
# Layout does not matter (C52)

Two sources that the lexer cannot tell apart (`Spec.SameForLexer`) are treated in the same way: both are accepted, with the same
tree up to spans, or both are refused, with the same error up to spans, or both panic.  Blanks, comments, indentation, the kind
and number of line terminators do not matter.

That the lexer cannot tell two sources apart means: wherever the parser can bring the lexers to, they read the same tokens, with
line terminators in front of the same ones.  For sources without slashes and without templates with substitutions this is a
matter of the tokens alone (`Spec.SameTokens`, `C52_same_tokens`): the same tokens, in sources in which the positions of the
tokens are those of characters (all ASCII sources).  A slash is read as an operator first and possibly, by going back, as the
start of a regular expression; a closing brace possibly as the continuation of a template.  `Spec.Twins` says what has to be the
same then.  It is checked by `Layout.sameForLexer` for given sources (proved sound), see the examples.
-/
set_option linter.unusedSectionVars false
namespace Fajt.Props
open Fajt Fajt.Parser Spec

section
variable [UnicodeID]

/-- **C52**.  Scripts that the lexer cannot tell apart end in the same way. -/
theorem C52_script {src src' : Str} (h : SameForLexer .script src src') :
    ending Program.strip (parseScript src) = ending Program.strip (parseScript src') :=
  Layout.parse_same (fun _ _ _ hr => Layout.program_lock hr) h (C19_parse_terminates src).1 (C19_parse_terminates src').1

/-- **C52**.  Modules that the lexer cannot tell apart end in the same way. -/
theorem C52_module {src src' : Str} (h : SameForLexer .module src src') :
    ending Program.strip (parseModule src) = ending Program.strip (parseModule src') :=
  Layout.parse_same (fun _ _ _ hr => Layout.program_lock hr) h (C19_parse_terminates src).2.1 (C19_parse_terminates src').2.1

/-- **C52**.  The same for `parse::<Expr>` and `parse::<Stmt>`. -/
theorem C52_entry_points {sty : SourceType} {src src' : Str} (h : SameForLexer sty src src') :
    ending Expr.strip (parseExpr src sty) = ending Expr.strip (parseExpr src' sty) ∧
    ending Stmt.strip (parseStmt src sty) = ending Stmt.strip (parseStmt src' sty) :=
  ⟨Layout.parse_same (fun _ _ _ hr => Layout.expr_lock hr) h (C19_entry_points_terminate src sty).1 (C19_entry_points_terminate src' sty).1,
    Layout.parse_same (fun _ _ _ hr => Layout.declOrStmt_lock hr) h (C19_entry_points_terminate src sty).2 (C19_entry_points_terminate src' sty).2⟩

theorem ending_ok {α : Type} {f : α → α} {a : α} {st : PState} {y : Res PState PErr α}
    (h : ending f (.ok a st) = ending f y) : ∃ b st', y = .ok b st' ∧ f b = f a := by
  cases y with
  | ok b st' => exact ⟨b, st', rfl, (Ending.tree.inj h).symm⟩
  | err => cases h
  | panic => cases h
  | oof => cases h

/-- **C52**.  If a source is accepted, then so is every source that the lexer cannot tell apart from it; the trees are the same up to spans, and the
same code is generated for them. -/
theorem C52_accepted {sty : SourceType} {src src' : Str} {p : Program} (h : Accepts sty src p) (hs : SameForLexer sty src src') :
    ∃ p', Accepts sty src' p' ∧ p'.strip = p.strip ∧ ∀ minified, generateCode minified p' = generateCode minified p := by
  cases h with
  | script hp =>
    have := C52_script hs
    rw [hp] at this
    obtain ⟨p', st', h1, h2⟩ := ending_ok this
    exact ⟨p', .script h1, h2, C50_spans_irrelevant h2⟩
  | module hp =>
    have := C52_module hs
    rw [hp] at this
    obtain ⟨p', st', h1, h2⟩ := ending_ok this
    exact ⟨p', .module h1, h2, C50_spans_irrelevant h2⟩

/-- **C52**.  The lexer cannot tell sources with the same plain tokens apart. -/
theorem C52_same_tokens {sty : SourceType} {src src' : Str} (h : SameTokens sty src src') : SameForLexer sty src src' :=
  Layout.sameForLexer_of_tokens h

/-- **C52**.  In ASCII sources the condition on the positions is met: there it is enough that the lexer finds the same plain
tokens, with line terminators in front of the same ones. -/
theorem C52_ascii {sty : SourceType} {src src' : Str} (ha : Ascii src) (ha' : Ascii src') {ts ts' : List Token}
    (h : Tokens (sty = .script) false [] true src ts) (h' : Tokens (sty = .script) false [] true src' ts')
    (he : ts.map (fun t => (t.value, t.fol)) = ts'.map (fun t => (t.value, t.fol))) (hp : ∀ t ∈ ts, PlainToken t.value) :
    SameTokens sty src src' :=
  ⟨ts, ts', h, h', he, hp, Layout.tokens_addressable h ha, Layout.tokens_addressable h' ha'⟩

/-- **C52**.  Blanks, line terminators and comments in front of an ASCII source do not matter. -/
theorem C52_leading {sty : SourceType} {trivia src : Str} (ha : Ascii (trivia ++ src)) {ts : List Token} {f : Bool}
    (ht : Trivia (sty = .script) true trivia src f) (h : Tokens (sty = .script) false [] true src ts)
    (hp : ∀ t ∈ ts, PlainToken t.value) : SameTokens sty src (trivia ++ src) := by
  obtain ⟨ts', h1, h2⟩ := Layout.tokens_leading ht h
  exact C52_ascii (fun c hc => ha c (List.mem_append_right _ hc)) ha h h1 h2 hp

/-- **C52**.  Blanks, line terminators and comments in front of *any* source do not matter: also if the source has slashes, regular
expressions and templates, is not ASCII, cannot be read or makes the parser panic.  Only the last character of what is put in
front has to be ASCII (see `C52_position_counterexample`). -/
theorem C52_leading_any {sty : SourceType} {trivia src : Str} {f : Bool} (ht : Trivia (sty = .script) true trivia src f)
    (hl : ∀ c ∈ trivia.getLast?, c.toNat < 128) : SameForLexer sty src (trivia ++ src) := Layout.leading_same ht hl

/-- **C52**.  To be the same for the lexer is an equivalence, so the theorems can be chained. -/
theorem C52_equivalence (sty : SourceType) : Equivalence (SameForLexer sty) :=
  ⟨Layout.same_refl sty, Layout.same_symm, Layout.same_trans⟩

end

section
attribute [local instance] asciiID

/-- A check for ASCII sources with the same plain tokens. -/
def sameTokens (sty : SourceType) (src src' : Str) : Bool :=
  match tokensOf (LexerS.readAll (start src ⟨sty = .script, false, false⟩)),
      tokensOf (LexerS.readAll (start src' ⟨sty = .script, false, false⟩)) with
  | some ts, some ts' =>
    decide (ts.map (fun t => (t.value, t.fol)) = ts'.map (fun t => (t.value, t.fol))) &&
      ts.all (fun t => match t.value with
        | .punct p => decide (p.asStr.head? ≠ some '/')
        | .templateHead _ => false
        | _ => true) && src.all (fun c => decide (c.toNat < 128)) && src'.all (fun c => decide (c.toNat < 128))
  | _, _ => false

theorem sameTokens_sound {sty : SourceType} {src src' : Str} (h : sameTokens sty src src' = true) : SameTokens sty src src' := by
  unfold sameTokens at h
  split at h
  · next ts ts' h1 h2 =>
    simp only [Bool.and_eq_true, decide_eq_true_eq, List.all_eq_true] at h
    obtain ⟨⟨⟨h3, h4⟩, h5⟩, h6⟩ := h
    refine C52_ascii h5 h6 ((tokensOf_iff _ _ rfl _).1 h1) ((tokensOf_iff _ _ rfl _).1 h2) h3 fun t ht => ?_
    have := h4 t ht
    unfold PlainToken
    split at this
    · next e => rw [e]; simpa using this
    · cases this
    · next e1 e2 =>
      split
      · next e => exact absurd e (e1 _)
      · next e => exact absurd e (e2 _)
      · trivial
  · cases h

/-- Two layouts of a script. -/
private def scriptA : Str := c!"function f(a,b=1){return a*b}\nlet[x,...y]=f(`t`)"

private def scriptB : Str :=
  c!"/* one */ function f ( a , b = 1 ) { /* two */ return a /* three */ * b  }\r\n\n // four\n  <!-- five\n let [ x, ... y ] = f(`t`) // six"

/-- Comments, blanks and blank lines differ; `C52_same_tokens`, `C52_script` and `C52_accepted` apply. -/
example : SameTokens .script scriptA scriptB ∧
    (match parseScript scriptA, parseScript scriptB with
     | .ok p _, .ok q _ => decide (p.span ≠ q.span ∧ p.body.length = 2 ∧ generateCode true p = generateCode true q)
     | _, _ => false) = true := ⟨sameTokens_sound (by decide +kernel), by decide +kernel⟩

/-- Two layouts of a module. -/
example : SameTokens .module c!"import {a as b} from 'm'\nexport default class{m(){}}"
    c!" import{a as b}from'm'\r//\nexport default class { m ( ) { } }" := sameTokens_sound (by decide +kernel)

/-- Two layouts of a source which is refused. -/
example : SameTokens .script c!"if(a b" c!" if ( a /**/ b" ∧
    (match parseScript c!"if(a b" with | .err _ _ => true | _ => false) = true :=
  ⟨sameTokens_sound (by decide +kernel), by decide +kernel⟩

/-- A case of `C52_leading`: a comment in front of a script. -/
example : SameTokens .script c!"a+b" (c!"/* c */\n" ++ c!"a+b") := sameTokens_sound (by decide +kernel)

/-- The state of the lexer in scripts. -/
private def plainState : LexState := ⟨true, false, false⟩

/-- Two layouts of a script with a division, a regular expression and a template with substitutions. -/
private def scriptC : Str := c!"x=a/2\nif(/=*[/]\\//g.test(x)){\ny=`s${x+1}t${x}`}"

private def scriptD : Str :=
  c!"/* one */ x = a / 2 \r\n if ( /=*[/]\\//g . test ( x ) ) {\n /* two */ y = `s${ x /* three */ + 1 }t${ x }` } // four"

/-- `C52_script` and `C52_accepted` apply to them, although they have slashes and templates. -/
example : SameForLexer .script scriptC scriptD ∧
    (match parseScript scriptC, parseScript scriptD with
     | .ok p _, .ok q _ => decide (p.span ≠ q.span ∧ p.body.length = 2 ∧ generateCode true p = generateCode true q)
     | _, _ => false) = true :=
  ⟨Layout.sameForLexer_sound (sts := [plainState, LexState.regexAllowed]) (agains := [LexState.regexAllowed, LexState.insideTemplate])
    (by decide +kernel), by decide +kernel⟩

/-- Two layouts of a source with a template that is refused: there is a token too many in the substitution. -/
example : SameForLexer .script c!"`a${b c}`" c!" `a${ b  c}` //" ∧
    (match parseScript c!"`a${b c}`" with | .err _ _ => true | _ => false) = true :=
  ⟨Layout.sameForLexer_sound (sts := [plainState]) (agains := [LexState.regexAllowed, LexState.insideTemplate])
    (by decide +kernel), by decide +kernel⟩

/-- A case of `C52_leading_any`: a comment that is not ASCII in front of a script with a `for` statement, a regular expression and
templates, in which fajt also gets the positions wrong. -/
example : SameForLexer .script c!"for(x of `ä${/[/]/.test(s)/2}`)y\n" (c!" // ä\n" ++ c!"for(x of `ä${/[/]/.test(s)/2}`)y\n") :=
  C52_leading_any (f := true) (.ws (by decide) (.line (l := c!" ä\n") (.eol (body := c!" ä") (by decide) (by decide)) .nil)) (by decide)

example : (match parseScript c!"for(x of `ä${/[/]/.test(s)/2}`)y\n", parseScript (c!" // ä\n" ++ c!"for(x of `ä${/[/]/.test(s)/2}`)y\n") with
     | .ok p _, .ok q _ => decide (p.span ≠ q.span ∧ generateCode true p = generateCode true q)
     | _, _ => false) = true := by decide +kernel

/-- The values and the line terminator flags of the tokens of a script. -/
private def seen (src : Str) : Option (List (TokVal × Bool)) :=
  (tokensOf (LexerS.readAll (start src ⟨true, false, false⟩))).map (·.map fun t => (t.value, t.fol))

/-- The minified code of a script. -/
private def code (src : Str) : Option Str :=
  match parseScript src with
  | .ok p _ => some (generateCode true p)
  | _ => none

/-- **C52**.  The same tokens are not enough for sources with slashes: the lexer on its own finds the same tokens in these two scripts,
two slashes among them, but the parser reads them again as regular expressions, which contain the blank. -/
theorem C52_slash_counterexample :
    seen c!"x = / a/" = seen c!"x = /a/" ∧ (seen c!"x = /a/").isSome ∧
    code c!"x = / a/" = some c!"x=/ a/" ∧ code c!"x = /a/" = some c!"x=/a/" := by decide +kernel

/-- **C52**.  The condition on the line terminators is needed: only the first of these scripts is accepted. -/
theorem C52_line_counterexample :
    (seen c!"a\nb").map (·.map Prod.fst) = (seen c!"a b").map (·.map Prod.fst) ∧ (seen c!"a b").isSome ∧
    code c!"a\nb" = some c!"a;b" ∧ code c!"a b" = none := by decide +kernel

/-- **C52**.  The condition on the positions is needed: after a no-break space fajt takes the start of the parenthesis to be inside
of the no-break space, and going back to it panics; with a plain blank the same tokens are accepted. -/
theorem C52_position_counterexample :
    seen c!"\u00a0(a)=>b" = seen c!" (a)=>b" ∧ (seen c!" (a)=>b").isSome ∧
    isPanic (parseScript c!"\u00a0(a)=>b") = true ∧ code c!" (a)=>b" = some c!"(a)=>b" := by decide +kernel

end
end Fajt.Props
