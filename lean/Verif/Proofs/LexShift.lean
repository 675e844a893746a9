import Lean.Elab.Tactic.ElabTerm
import Verif.Spec.Layout
/-!
# The lexer does not look at what it has read

Two lexers with the same characters in front of them do the same, up to positions: `Sh a b V m m'`.
-/
namespace Fajt
open Spec
set_option linter.unusedSectionVars false
set_option linter.unusedVariables false
variable [UnicodeID]

namespace Shift

/-- The same characters are to come; the positions differ by a constant. -/
structure Near (a b : Nat) (c c' : Cursor) : Prop where
  rest : c.rest = c'.rest
  off : c.off + a = c'.off + b
  pos : c.pos + a = c'.pos + b
  fol : c.fol = c'.fol

/-- Results that differ in positions only. -/
def ShR (a b : Nat) {α : Type} (V : α → α → Prop) : Res Cursor LexErr α → Res Cursor LexErr α → Prop
  | .ok x c, .ok x' c' => V x x' ∧ Near a b c c'
  | .err e c, .err e' c' => stripLexErr e.kind = stripLexErr e'.kind ∧ Near a b c c'
  | .panic w, .panic w' => w = w'
  | .oof, .oof => True
  | _, _ => False

/-- Two functions of the lexer that do the same. -/
def Sh (a b : Nat) {α : Type} (V : α → α → Prop) (m m' : L α) : Prop := ∀ c c', Near a b c c' → ShR a b V (m c) (m' c')

/-- The same position. -/
def SamePlace (a b : Nat) (p p' : Nat) : Prop := p + a = p' + b

section
variable {a b : Nat} {α β : Type} {V : α → α → Prop} {U : β → β → Prop}

theorem Sh.pure {x x' : α} (h : V x x') : Sh a b V (Pure.pure x) (Pure.pure x') := fun _ _ hs => ⟨h, hs⟩

theorem Sh.throw {e e' : LexErr} (h : stripLexErr e.kind = stripLexErr e'.kind) : Sh a b V (M.throw e : L α) (M.throw e') :=
  fun _ _ hs => ⟨h, hs⟩

theorem Sh.oof : Sh a b V (M.oof : L α) M.oof := fun _ _ _ => trivial

theorem Sh.panic {w : Str} : Sh a b V (M.panic w : L α) (M.panic w) := fun _ _ _ => rfl

theorem Sh.bind {m m' : L α} {f f' : α → L β} (h1 : Sh a b V m m') (h2 : ∀ x x', V x x' → Sh a b U (f x) (f' x')) :
    Sh a b U (m >>= f) (m' >>= f') := by
  intro s s' hs
  have h := h1 s s' hs
  simp only [M.bind_def, M.bind]
  cases hm : m s <;> cases hm' : m' s' <;> simp only [hm, hm', ShR] at h ⊢ <;> first
    | exact h2 _ _ h.1 _ _ h.2
    | exact h

theorem Sh.bindEq {m m' : L α} {f f' : α → L β} (h1 : Sh a b Eq m m') (h2 : ∀ x, Sh a b U (f x) (f' x)) :
    Sh a b U (m >>= f) (m' >>= f') := Sh.bind h1 fun x x' h => h ▸ h2 x

theorem Sh.ite {p : Prop} [Decidable p] {A A' B B' : L α} (h1 : Sh a b V A A') (h2 : Sh a b V B B') :
    Sh a b V (if p then A else B) (if p then A' else B') := by
  by_cases h : p
  · rw [if_pos h, if_pos h]; exact h1
  · rw [if_neg h, if_neg h]; exact h2

theorem Sh.loop {body body' : β → L (β ⊕ α)} (h : ∀ x, Sh a b Eq (body x) (body' x)) {n : Nat} {x : β} :
    Sh a b Eq (Fajt.loop body n x) (Fajt.loop body' n x) := by
  induction n generalizing x with
  | zero => exact Sh.oof
  | succ n ih =>
    refine Sh.bindEq (h x) fun y => ?_
    cases y
    · exact ih
    · exact Sh.pure rfl

theorem Sh.gets {f f' : Cursor → α} (h : ∀ s s', Near a b s s' → V (f s) (f' s')) : Sh a b V (M.gets f : L α) (M.gets f') :=
  fun s s' hs => ⟨h s s' hs, hs⟩

theorem Near.advance {c c' : Cursor} (h : Near a b c c') (x : Char) (cs : List Char) :
    Near a b (c.advance x cs) (c'.advance x cs) := by
  have := h.off
  refine ⟨rfl, ?_, ?_, h.fol⟩ <;> simp only [Cursor.advance] <;> omega
end

open Lexer

section
variable {a b : Nat}

theorem consume_sh : Sh a b Eq Lexer.consume Lexer.consume := by
  intro c c' h
  unfold Lexer.consume
  rw [← h.rest]
  split
  · exact ⟨rfl, h⟩
  · exact ⟨rfl, h.advance _ _⟩

theorem consumeUnwrap_sh : Sh a b Eq Lexer.consumeUnwrap Lexer.consumeUnwrap := by
  intro c c' h
  unfold Lexer.consumeUnwrap
  rw [← h.rest]
  split
  · exact rfl
  · exact ⟨rfl, h.advance _ _⟩

theorem current_sh : Sh a b Eq Lexer.current Lexer.current := by
  intro c c' h
  unfold Lexer.current
  rw [← h.rest]
  split
  · exact ⟨rfl, h⟩
  · exact ⟨rfl, h⟩

theorem cur?_sh : Sh a b Eq Lexer.cur? Lexer.cur? := Sh.gets fun s s' h => by unfold Cursor.cur; rw [h.rest]

theorem peek?_sh : Sh a b Eq Lexer.peek? Lexer.peek? := Sh.gets fun s s' h => by unfold Cursor.peek; rw [h.rest]

theorem position_sh : Sh a b (SamePlace a b) Lexer.position Lexer.position := Sh.gets fun s s' h => h.pos

theorem fol_sh : Sh a b Eq (M.gets Cursor.fol : L Bool) (M.gets Cursor.fol) := Sh.gets fun s s' h => h.fol

theorem setFol_sh {v : Bool} : Sh a b Eq (setFol v) (setFol v) := fun c c' h => ⟨rfl, h.rest, h.off, h.pos, rfl⟩

theorem fuel_sh : Sh a b Eq fuel fuel := Sh.gets fun s s' h => by rw [h.rest]

theorem readWhileGo_near {check : Char → Bool} (w : List Char) {c c' : Cursor} (h : Near a b c c') :
    c.rest = w → (readWhileGo check w c).1 = (readWhileGo check w c').1 ∧
    Near a b (readWhileGo check w c).2 (readWhileGo check w c').2 := by
  intro _
  induction w generalizing c c' with
  | nil => exact ⟨rfl, h⟩
  | cons x w ih =>
    unfold readWhileGo
    split
    · have := ih (h.advance x w) rfl
      exact ⟨congrArg (x :: ·) this.1, this.2⟩
    · exact ⟨rfl, h⟩

theorem readWhile_sh {check : Char → Bool} : Sh a b Eq (readWhile check) (readWhile check) := by
  intro c c' h
  have := readWhileGo_near (check := check) c.rest h rfl
  unfold readWhile
  rw [← h.rest]
  exact this

theorem skipWhitespacesGo_near (w : List Char) {c c' : Cursor} (h : Near a b c c') :
    Near a b (skipWhitespacesGo w c) (skipWhitespacesGo w c') := by
  induction w generalizing c c' with
  | nil => exact h
  | cons x w ih =>
    unfold skipWhitespacesGo
    split
    · exact ih (Near.advance (c := { c with fol := true }) (c' := { c' with fol := true }) ⟨h.rest, h.off, h.pos, rfl⟩ x w)
    split
    · exact ih (h.advance x w)
    · exact h

theorem skipWhitespaces_sh : Sh a b Eq skipWhitespaces skipWhitespaces := by
  intro c c' h
  unfold skipWhitespaces
  rw [← h.rest]
  exact ⟨rfl, skipWhitespacesGo_near c.rest h⟩

open Lean Elab Tactic Meta in
/-- Apply the lemma for the function at the head. -/
elab "sh_apply" : tactic => withMainContext do
  let g ← getMainGoal
  let t ← whnfR (← instantiateMVars (← g.getType))
  unless t.isAppOf ``Sh do throwError "not a Sh"
  let args := t.getAppArgs
  let m := args[args.size - 2]!.headBeta
  let .const n _ := m.getAppFn | throwError "no head"
  let .str p s := n | throwError "no name"
  let lem := if p == `Fajt.M then `Fajt.Shift.fol_sh else `Fajt.Shift ++ Name.mkSimple (s ++ "_sh")
  let c ← mkConstWithFreshMVarLevels lem
  let gs ← withReducible (g.apply c)
  replaceMainGoal gs

/-- Name the results of the first of two functions. -/
macro "sh_intro" : tactic => `(tactic| (intro x x' h; first | subst h | skip))

/-- One step. -/
macro "sh_step" : tactic => `(tactic| first
  | (sh_apply; done)
  | exact Sh.pure rfl
  | exact Sh.throw rfl
  | exact Sh.panic
  | (apply Sh.bind; (focus (sh_apply; done)); sh_intro)
  | (refine Sh.bindEq ?_ fun x => ?_)
  | (refine Sh.loop fun x => ?_)
  | (refine Sh.ite ?_ ?_)
  | split
  | (obtain ⟨x1, x2⟩ := ‹_ × _›; dsimp only))

/-- Prove that two runs are in step. -/
macro "sh" : tactic => `(tactic| (repeat' sh_step))

theorem skipRestOfLine_sh : Sh a b Eq skipRestOfLine skipRestOfLine := by unfold skipRestOfLine; sh

theorem skipSingleLineComment_sh : Sh a b Eq skipSingleLineComment skipSingleLineComment := by unfold skipSingleLineComment; sh

theorem skipMultiLineComment_sh : Sh a b Eq skipMultiLineComment skipMultiLineComment := by unfold skipMultiLineComment; sh

theorem skipCommentsAndWhiteSpaces_sh {st : LexState} : Sh a b Eq (skipCommentsAndWhiteSpaces st) (skipCommentsAndWhiteSpaces st) := by
  unfold skipCommentsAndWhiteSpaces; sh

theorem readNumberString_sh {p p' : Nat} {check : Char → Bool} : Sh a b Eq (readNumberString p check) (readNumberString p' check) := by
  unfold readNumberString; sh

theorem expectReadNumberString_sh {p p' : Nat} {check : Char → Bool} :
    Sh a b Eq (expectReadNumberString p check) (expectReadNumberString p' check) := by unfold expectReadNumberString; sh

theorem readPrefixedString_sh {check : Char → Bool} : Sh a b Eq (readPrefixedString check) (readPrefixedString check) := by
  unfold readPrefixedString; sh

theorem readFraction_sh {p p' : Nat} : Sh a b Eq (readFraction p) (readFraction p') := by unfold readFraction; sh

theorem readSign_sh : Sh a b Eq readSign readSign := by unfold readSign; sh

theorem readExponent_sh {p p' : Nat} : Sh a b Eq (readExponent p) (readExponent p') := by unfold readExponent; sh

theorem readDecimalString_sh : Sh a b Eq readDecimalString readDecimalString := by unfold readDecimalString; sh

theorem readNumberText_sh : Sh a b Eq readNumberText readNumberText := by unfold readNumberText; sh

theorem readNumberLiteral_sh : Sh a b Eq readNumberLiteral readNumberLiteral := by unfold readNumberLiteral; sh

theorem readEscapeSequence_sh : Sh a b Eq readEscapeSequence readEscapeSequence := by unfold readEscapeSequence; sh

theorem readUntilUnescapedDelimiter_sh {d : Char} : Sh a b Eq (readUntilUnescapedDelimiter d) (readUntilUnescapedDelimiter d) := by
  unfold readUntilUnescapedDelimiter; sh

theorem readStringLiteral_sh : Sh a b Eq readStringLiteral readStringLiteral := by unfold readStringLiteral; sh

theorem readRegexpGroupBody_sh : Sh a b Eq readRegexpGroupBody readRegexpGroupBody := by unfold readRegexpGroupBody; sh

theorem readRegexpLiteral_sh : Sh a b Eq readRegexpLiteral readRegexpLiteral := by unfold readRegexpLiteral; sh

theorem readHexChar_sh {p p' : Nat} : Sh a b Eq (readHexChar p) (readHexChar p') := by unfold readHexChar; sh

theorem readCodePoint_sh {p p' : Nat} : Sh a b Eq (readCodePoint p) (readCodePoint p') := by unfold readCodePoint; sh

theorem read4DigitHex_sh {p p' : Nat} : Sh a b Eq (read4DigitHex p) (read4DigitHex p') := by unfold read4DigitHex; sh

theorem readEscapeDigits_sh {p p' : Nat} : Sh a b Eq (readEscapeDigits p) (readEscapeDigits p') := by unfold readEscapeDigits; sh

theorem readUnicodeEscapeSequence_sh : Sh a b Eq readUnicodeEscapeSequence readUnicodeEscapeSequence := by
  unfold readUnicodeEscapeSequence; sh

theorem readAndExpandUnicodeEscapeSequence_sh {v : Bool} :
    Sh a b Eq (readAndExpandUnicodeEscapeSequence v) (readAndExpandUnicodeEscapeSequence v) := by
  unfold readAndExpandUnicodeEscapeSequence; sh

theorem readIdentifierWord_sh : Sh a b Eq readIdentifierWord readIdentifierWord := by unfold readIdentifierWord; sh

theorem readIdentifierOrKeyword_sh : Sh a b Eq readIdentifierOrKeyword readIdentifierOrKeyword := by unfold readIdentifierOrKeyword; sh

theorem readTemplatePart_sh : Sh a b Eq readTemplatePart readTemplatePart := by unfold readTemplatePart; sh

theorem readTemplateLiteralHead_sh : Sh a b Eq readTemplateLiteralHead readTemplateLiteralHead := by unfold readTemplateLiteralHead; sh

theorem produce1_sh {p : Punct} : Sh a b Eq (produce1 p) (produce1 p) := by unfold produce1; sh

theorem produce2_sh {p : Punct} : Sh a b Eq (produce2 p) (produce2 p) := by unfold produce2; sh

theorem producePeek_sh {c : Char} {p q : Punct} : Sh a b Eq (producePeek c p q) (producePeek c p q) := by unfold producePeek; sh

theorem readArms_sh {p p' : Nat} {c : Char} {n : Option Char} : Sh a b Eq (readArms p c n) (readArms p' c n) := by
  unfold readArms; sh

theorem readArms2_sh {st : LexState} {p p' : Nat} {c : Char} {n : Option Char} : Sh a b Eq (readArms2 st p c n) (readArms2 st p' c n) := by
  unfold readArms2; sh

theorem readValue_sh {st : LexState} {p p' : Nat} : Sh a b Eq (readValue st p) (readValue st p') := by unfold readValue; sh

/-- Tokens that differ in positions only. -/
def SameToken (a b : Nat) (t t' : Token) : Prop :=
  t.value = t'.value ∧ t.fol = t'.fol ∧ SamePlace a b t.span.start t'.span.start

theorem readTemplateLiteralMiddleOrTail_sh :
    Sh a b (SameToken a b) readTemplateLiteralMiddleOrTail readTemplateLiteralMiddleOrTail := by
  unfold readTemplateLiteralMiddleOrTail
  sh
  all_goals exact Sh.pure ⟨rfl, rfl, by assumption⟩

theorem readGo_sh {st : LexState} {n : Nat} : Sh a b (SameToken a b) (readGo st n) (readGo st n) := by
  induction n with
  | zero => exact Sh.oof
  | succ n ih =>
    unfold readGo
    sh
    all_goals first | exact ih | exact readTemplateLiteralMiddleOrTail_sh | exact Sh.pure ⟨rfl, rfl, by assumption⟩

theorem read_sh {st : LexState} : Sh a b (SameToken a b) (Lexer.read st) (Lexer.read st) := by
  intro c c' h
  unfold Lexer.read
  rw [h.rest]
  exact readGo_sh _ _ h

end
end Shift
end Fajt
