import Verif.Proofs.TablesSim
import Verif.Spec.Accepts
import Verif.Spec.Ascii
/-!
# The Unicode tables (C61)

The parser depends on the tables of identifier characters only at characters of the source that are not ASCII, and where the source has a
unicode escape.  So the version of Unicode that fajt is built with does not matter for other sources, and what the examples of this project
compute with `asciiID` holds for the tables of the crate `unicode_id`.
-/
set_option linter.unusedSectionVars false
namespace Fajt.Props
open Fajt Spec Fajt.Tables

/-- **C61**, when two tables agree on a source: all do on an ASCII text without `\u`. -/
theorem C61_ascii (src : Str) (ha : Ascii src) (he : ¬ c!"\\u" <:+: src) (i j : UnicodeID) : SameChars i j src :=
  ⟨fun c hc h => absurd (ha c hc) (by omega), he⟩

theorem ResS.eq {σ ε α : Type} {G : σ → Prop} {x y : Res σ ε α} (h : ResS G x y) : x = y := by
  revert h
  cases x <;> cases y <;> intro h <;> first
    | exact h.elim
    | (obtain ⟨rfl, rfl, -⟩ := h; rfl)
    | (cases h; rfl)
    | rfl

/-- **C61** for the lexer: wherever in a text on which the tables agree, and in whatever state, the next token, or error, and what is left of
the text are the same; reading in another state too. -/
theorem C61_lexer (i j : UnicodeID) (l : LexerS) (h : SameChars i j l.data) (hr : l.cursor.rest <:+: l.data) :
    (letI := i; LexerS.next l) = (letI := j; LexerS.next l) ∧
    ∀ st, (letI := i; LexerS.readWithState st l) = (letI := j; LexerS.readWithState st l) :=
  ⟨ResS.eq (next_agree l ⟨h, h.mono hr⟩), fun st => ResS.eq (readWithState_agree st l ⟨h, h.mono hr⟩)⟩

/-- **C61**: every entry point of the parser returns the same tree or error, or panics with the same message, with either of two tables that
agree on the source. -/
theorem C61_parser (i j : UnicodeID) (src : Str) (h : SameChars i j src) :
    (letI := i; Parser.parseScript src) = (letI := j; Parser.parseScript src) ∧
    (letI := i; Parser.parseModule src) = (letI := j; Parser.parseModule src) ∧
    ∀ st, (letI := i; Parser.parseExpr src st) = (letI := j; Parser.parseExpr src st) ∧
      (letI := i; Parser.parseStmt src st) = (letI := j; Parser.parseStmt src st) :=
  ⟨parse_agree (fun hr => program_agree hr) h _, parse_agree (fun hr => program_agree hr) h _, fun st =>
    ⟨parse_agree (fun hr => expr_agree hr) h _, parse_agree (fun hr => declOrStmt_agree hr) h _⟩⟩

/-- **C61**: an ASCII source without `\u` that is accepted with the ASCII table is accepted with every table, with the same tree, and
conversely. -/
theorem C61_accepted (i : UnicodeID) (src : Str) (ha : Ascii src) (he : ¬ c!"\\u" <:+: src) (st : SourceType) (p : Program) :
    (letI := i; Accepts st src p) ↔ (letI := asciiID; Accepts st src p) := by
  have key := C61_parser i asciiID src (C61_ascii src ha he i asciiID)
  have key1 : @Parser.parseScript i src = @Parser.parseScript asciiID src := key.1
  have key2 : @Parser.parseModule i src = @Parser.parseModule asciiID src := key.2.1
  constructor
  · intro h
    cases h with
    | script hp => exact @Accepts.script asciiID _ _ _ (key1.symm.trans hp)
    | module hp => exact @Accepts.module asciiID _ _ _ (key2.symm.trans hp)
  · intro h
    cases h with
    | script hp => exact @Accepts.script i _ _ _ (key1.trans hp)
    | module hp => exact @Accepts.module i _ _ _ (key2.trans hp)

/-- The source is accepted as a script. -/
def tableAccepts (i : UnicodeID) (src : Str) : Bool :=
  match (letI := i; Parser.parseScript src) with
  | .ok .. => true
  | _ => false

/-- A table in which `é` is a letter. -/
@[reducible] def latinID : UnicodeID where
  idStart c := c.isAlpha || c == 'é'
  idContinue c := (c.isAlphanum || c == '_') || c == 'é'
  alphanumeric c := c.isAlphanum || c == 'é'
  start_continue c h := by
    rcases Bool.or_eq_true _ _ ▸ h with h | h
    · rw [Char.isAlphanum, h]; rfl
    · rw [h, Bool.or_true]
  ascii_start c h := by
    have : c ≠ 'é' := by rintro rfl; revert h; decide
    simp [this]
  ascii_continue c h := by
    have : c ≠ 'é' := by rintro rfl; revert h; decide
    simp [this]
  ascii_alphanumeric c h := by
    have : c ≠ 'é' := by rintro rfl; revert h; decide
    simp [this]
  blank c h := by
    have h1 : (c == 'é') = false := beq_eq_false_iff_ne.2 (by rintro rfl; revert h; decide)
    have h2 : (c.isAlphanum || c == '_') = false := asciiID.blank c h
    rw [h1, h2]; rfl

/-- **C61**, both conditions matter: tables that differ at `é` accept different sources with `é`, also if it is written as an escape.  (In a
string neither matters.) -/
theorem C61_differences :
    tableAccepts latinID c!"é" = true ∧ tableAccepts asciiID c!"é" = false ∧
    tableAccepts latinID c!"a\\u00e9" = true ∧ tableAccepts asciiID c!"a\\u00e9" = false ∧
    tableAccepts latinID c!"'\\u00e9é'" = true ∧ tableAccepts asciiID c!"'\\u00e9é'" = true := by decide +kernel

/-- A source of the kind C61 is about. -/
def tableSource : Str := c!"async function* f({ a, b = 1 }) { for await (const x of a) yield /[/]/.test(`a${b}`); }"

example : SameChars latinID asciiID tableSource := C61_ascii _ (by unfold Ascii; decide +kernel) (by decide +kernel) _ _

/-- Hence it is accepted with every table. -/
example (i : UnicodeID) : tableAccepts i tableSource = true := by
  have h : @Parser.parseScript i tableSource = @Parser.parseScript asciiID tableSource :=
    (C61_parser i asciiID tableSource (C61_ascii _ (by unfold Ascii; decide +kernel) (by decide +kernel) _ _)).1
  unfold tableAccepts
  show (match @Parser.parseScript i tableSource with | .ok .. => true | _ => false) = true
  rw [h]
  decide +kernel

/-- Other characters may occur where the tables agree: here in a comment and in a string. -/
example : SameChars latinID asciiID c!"a = '→' // ×" :=
  ⟨fun c hc h => by
    have : c = '→' ∨ c = '×' := by
      rcases (by simpa using hc : c = 'a' ∨ c = ' ' ∨ c = '=' ∨ c = ' ' ∨ c = '\'' ∨ c = '→' ∨ c = '\'' ∨ c = ' ' ∨ c = '/' ∨ c = '/' ∨ c = ' ' ∨ c = '×')
        with e | e | e | e | e | e | e | e | e | e | e | e <;> subst e <;> first | exact .inl rfl | exact .inr rfl | (revert h; decide)
    rcases this with rfl | rfl <;> decide, by decide +kernel⟩

end Fajt.Props
