import Verif.Props.ParserTree
import Verif.Proofs.Debug
import Verif.Proofs.DebugSim
import Verif.Proofs.DebugParse
/-!
# Debug builds (C57)

`DebugLexer` and `DebugParser` (`Verif.Model.Debug`) are the lexer and the parser with the checks of a debug build: `debug_assert!` and
subtraction.  `DebugParser.parseScript`, .. are the entry points; what a debug build may panic on is `DebugCause`
(`Verif.Spec.Debug`): a cause of a panic of a release build (C20), or `async` with `function` on the next line.
-/
set_option linter.unusedSectionVars false
namespace Fajt.Props
open Fajt Spec
variable [UnicodeID]

/-- **C57**, lexer. The checks of a debug build never fail in the lexer: from every state, also those that no source leads to, and in
every reading mode, reading a token has the result that it has in a release build. -/
theorem C57_lexer : (∀ st c, DebugLexer.read st c = Lexer.read st c) ∧ ∀ lx, DebugLexer.next lx = LexerS.next lx :=
  ⟨fun st c => congrFun (Debug.read_eq st) c, fun lx => congrFun Debug.next_eq lx⟩

/-- A debug build has the result of a release build, or it panics for one of the causes. -/
def SameOrBlamed {α : Type} (src : Str) (styp : SourceType) (debug release : Res PState PErr α) : Prop :=
  debug = release ∨ (∃ w, debug = .panic w) ∧ DebugCause src styp

theorem sameOrBlamed {α : Type} {src : Str} {styp : SourceType} {m : Rec → P α} {Q : α → Prop}
    (hm : ∀ r r', Debug.Sims r r' → Debug.Sim (m r) (m r'))
    (ho : letI : Blame := ⟨DebugCause, .inl⟩; Outcome src styp Q (DebugParser.parse m src styp)) :
    SameOrBlamed src styp (DebugParser.parse m src styp) (Parser.parse m src styp) := by
  rcases Debug.parse_sim hm src styp with h | ⟨w, h⟩
  · exact .inl h
  · rw [h] at ho
    exact .inr ⟨⟨w, h⟩, ho⟩

/-- **C57**, programs. -/
theorem C57_programs (src : Str) :
    SameOrBlamed src .script (DebugParser.parseScript src) (Parser.parseScript src) ∧
      SameOrBlamed src .module (DebugParser.parseModule src) (Parser.parseModule src) :=
  ⟨sameOrBlamed (fun _ _ h => Debug.program_sim h) (Debug.parse_program src .script),
    sameOrBlamed (fun _ _ h => Debug.program_sim h) (Debug.parse_program src .module)⟩

/-- **C57**, the other entry points. -/
theorem C57_entry_points (src : Str) (styp : SourceType) :
    SameOrBlamed src styp (DebugParser.parseExpr src styp) (Parser.parseExpr src styp) ∧
      SameOrBlamed src styp (DebugParser.parseStmt src styp) (Parser.parseStmt src styp) :=
  ⟨sameOrBlamed (fun _ _ h => Debug.expr_sim h) (Debug.parse_expr src styp),
    sameOrBlamed (fun _ _ h => Debug.declOrStmt_sim h) (Debug.parse_stmt src styp)⟩

/-- **C57**: without a cause there is no difference. -/
theorem C57_same (src : Str) :
    (¬ DebugCause src .script → DebugParser.parseScript src = Parser.parseScript src) ∧
      (¬ DebugCause src .module → DebugParser.parseModule src = Parser.parseModule src) :=
  ⟨fun h => (C57_programs src).1.resolve_right fun h' => h h'.2, fun h => (C57_programs src).2.resolve_right fun h' => h h'.2⟩

/-- **C57**, a simple sufficient condition: in an ASCII source without backslashes and the text `async` there is nothing that a debug
build of the script parser may panic on, and it does what a release build does; for modules the text `from` must not occur either. -/
theorem C57_no_async (src : Str) (ha : Ascii src) (hb : '\\' ∉ src) (hs : ¬ c!"async" <:+: src) :
    DebugParser.parseScript src = Parser.parseScript src ∧
      (¬ c!"from" <:+: src → DebugParser.parseModule src = Parser.parseModule src) := by
  have hn : ¬ AsyncBreak src := by
    rintro ⟨ts, t, u, rest, fol, h1, h2, -, -⟩
    exact hs (keyword_infix h1 hb (by simp) h2)
  refine ⟨(C57_same src).1 ?_, fun hf => (C57_same src).2 ?_⟩
  · exact fun h => h.elim (fun h => h.elim (ascii_not_wide ha) fun h => nomatch h.1) hn
  · refine fun h => h.elim (fun h => h.elim (ascii_not_wide ha) ?_) hn
    rintro ⟨-, ts, t, u, l, rest, fol, h1, h2, -, -⟩
    exact hf (keyword_infix h1 hb (by simp) h2)

/-- **C57**: a tree or an error of a debug build is the tree or the error of a release build. -/
theorem C57_results (src : Str) :
    (∀ p s, DebugParser.parseScript src = .ok p s → Parser.parseScript src = .ok p s) ∧
      (∀ e s, DebugParser.parseScript src = .err e s → Parser.parseScript src = .err e s) ∧
      (∀ p s, DebugParser.parseModule src = .ok p s → Parser.parseModule src = .ok p s) ∧
      (∀ e s, DebugParser.parseModule src = .err e s → Parser.parseModule src = .err e s) := by
  refine ⟨fun p s h => ?_, fun p s h => ?_, fun p s h => ?_, fun p s h => ?_⟩
  · rcases (C57_programs src).1 with h' | ⟨⟨w, h'⟩, -⟩
    · rw [← h', h]
    · rw [h] at h'; cases h'
  · rcases (C57_programs src).1 with h' | ⟨⟨w, h'⟩, -⟩
    · rw [← h', h]
    · rw [h] at h'; cases h'
  · rcases (C57_programs src).2 with h' | ⟨⟨w, h'⟩, -⟩
    · rw [← h', h]
    · rw [h] at h'; cases h'
  · rcases (C57_programs src).2 with h' | ⟨⟨w, h'⟩, -⟩
    · rw [← h', h]
    · rw [h] at h'; cases h'

/-- **C57** departure: a debug build panics on a script that a release build accepts, as an asynchronous function. -/
theorem C57_departure : letI := asciiID
    isPanic (DebugParser.parseScript c!"async\nfunction f() {}") = true ∧ isPanic (Parser.parseScript c!"async\nfunction f() {}") = false ∧
      scriptHas c!"async\nfunction f() {}" (fun p => match p.body with
        | [.functionDecl ..] => true
        | _ => false) = true := by decide +kernel

/-! ## Concrete cases -/

/-- The cause of the panic of the departure is `AsyncBreak`. -/
example : letI := asciiID; AsyncBreak c!"async\nfunction f() {}" := by
  letI := asciiID
  obtain ⟨w, hw⟩ := isPanic_iff.mp C57_departure.1
  rcases (C57_programs c!"async\nfunction f() {}").1 with h | ⟨-, h⟩
  · have := C57_departure.2.1
    rw [← h, C57_departure.1] at this
    cases this
  · exact h.elim (fun h => h.elim (fun h => absurd h (ascii_not_wide (by unfold Ascii; decide))) fun h => nomatch h.1) id

/-- A debug build accepts a source with the other assertions: a regular expression, an asynchronous function expression. -/
example : letI := asciiID
    isPanic (DebugParser.parseScript c!"x = /a/g; y = async function() { return `a`; }") = false ∧
      scriptHas c!"x = /a/g; y = async function() { return `a`; }" (fun p => p.body.length = 2) = true := by decide +kernel

example : Ascii c!"if (a) { b = /c/ } else function d() {}" ∧ '\\' ∉ c!"if (a) { b = /c/ } else function d() {}" ∧
    ¬ c!"async" <:+: c!"if (a) { b = /c/ } else function d() {}" := by unfold Ascii; decide

end Fajt.Props
