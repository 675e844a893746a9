import Verif.Model.Debug
/-!
# The assertions and subtractions of the lexer do not fail (for C57)

Each function of `DebugLexer` is the function of `Lexer` of the same name, in the states in which it is called.
-/
namespace Fajt.Debug
set_option linter.unusedSectionVars false
variable [UnicodeID]
open Lexer

theorem bind_congr {σ ε α β : Type} {m : M σ ε α} {f g : α → M σ ε β} {s : σ} (h : ∀ a s', m s = .ok a s' → f a s' = g a s') :
    (m >>= f) s = (m >>= g) s := by
  show M.bind m f s = M.bind m g s
  simp only [M.bind]
  cases hm : m s with
  | ok a s' => exact h a s' hm
  | err e s' => rfl
  | panic w => rfl
  | oof => rfl

theorem loop_congr {σ ε α β : Type} {f g : β → M σ ε (β ⊕ α)} (h : f = g) (n : Nat) (b : β) : loop f n b = loop g n b := by rw [h]


theorem checkedSub_of_le {σ ε : Type} {a b : Nat} (h : b ≤ a) : (checkedSub a b : M σ ε Nat) = pure (a - b) := by
  unfold checkedSub; rw [if_pos h]

theorem debugAssert_true {σ ε : Type} {b : Bool} (h : b = true) : (debugAssert b : M σ ε Unit) = pure () := by
  unfold debugAssert; rw [if_pos h]

theorem utf16_pos (c : Char) : 1 ≤ lenUtf16 c := by unfold lenUtf16; split <;> omega

/-- After a character has been consumed the position is not 0, and the character was the current one. -/
theorem consume_ok {a : Char} {s s' : Cursor} (h : consume s = .ok a s') : 1 ≤ s'.pos ∧ s.cur = some a := by
  unfold consume at h
  split at h
  · nomatch h
  · rename_i c cs hc
    obtain ⟨rfl, rfl⟩ := Res.ok.inj h
    exact ⟨by simp only [Cursor.advance]; have := utf16_pos c; omega, by simp [Cursor.cur, hc]⟩

theorem readUntilUnescapedDelimiter_eq (d : Char) :
    DebugLexer.readUntilUnescapedDelimiter d = Lexer.readUntilUnescapedDelimiter d := by
  unfold DebugLexer.readUntilUnescapedDelimiter Lexer.readUntilUnescapedDelimiter
  funext s
  refine bind_congr fun n s' _ => ?_
  refine congrFun (loop_congr ?_ _ _) _
  funext acc s
  refine bind_congr fun c s' hc => ?_
  have hp := (consume_ok hc).1
  split
  · rfl
  · split
    · rfl
    · split
      · refine bind_congr fun p s'' h => ?_
        obtain ⟨rfl, rfl⟩ := Res.ok.inj h
        rw [checkedSub_of_le hp]; rfl
      · rfl

theorem readStringLiteral_eq {s : Cursor} (h : s.cur = some '"' ∨ s.cur = some '\'') :
    DebugLexer.readStringLiteral s = Lexer.readStringLiteral s := by
  unfold DebugLexer.readStringLiteral Lexer.readStringLiteral
  simp only [readUntilUnescapedDelimiter_eq]
  refine bind_congr fun c s' hc => ?_
  rw [(consume_ok hc).2] at h
  rw [debugAssert_true (by rcases h with h | h <;> simp [Option.some.inj h])]; rfl

theorem readRegexpLiteral_eq {s : Cursor} (h : s.cur = some '/') :
    DebugLexer.readRegexpLiteral s = Lexer.readRegexpLiteral s := by
  unfold DebugLexer.readRegexpLiteral Lexer.readRegexpLiteral
  refine bind_congr fun p s' hp => ?_
  obtain ⟨rfl, rfl⟩ := Res.ok.inj hp
  refine bind_congr fun c s' hc => ?_
  rw [(consume_ok hc).2] at h
  rw [debugAssert_true (by simp [Option.some.inj h])]
  show M.bind (pure ()) _ _ = _
  simp only [M.bind, M.pure_def]
  refine bind_congr fun n s' _ => ?_
  refine congrFun (congrArg (fun m => M.bind m _) (loop_congr ?_ _ _)) _
  funext acc s
  refine bind_congr fun c s' hc => ?_
  have hp := (consume_ok hc).1
  split
  · refine bind_congr fun p s'' h => ?_
    obtain ⟨rfl, rfl⟩ := Res.ok.inj h
    rw [checkedSub_of_le hp]; rfl
  · rfl

theorem readCodePoint_eq {n : Nat} {s : Cursor} (h : s.cur = some '{') :
    DebugLexer.readCodePoint n s = Lexer.readCodePoint n s := by
  unfold DebugLexer.readCodePoint Lexer.readCodePoint
  refine bind_congr fun c s' hc => ?_
  rw [(consume_ok hc).2] at h
  rw [debugAssert_true (by simp [Option.some.inj h])]; rfl

theorem current_ok {a : Char} {s s' : Cursor} (h : current s = .ok a s') : s' = s ∧ s.cur = some a := by
  unfold current at h
  split at h
  · nomatch h
  · rename_i c cs hc
    obtain ⟨rfl, rfl⟩ := Res.ok.inj h
    exact ⟨rfl, by simp [Cursor.cur, hc]⟩

theorem readEscapeDigits_eq (n : Nat) : DebugLexer.readEscapeDigits n = Lexer.readEscapeDigits n := by
  unfold DebugLexer.readEscapeDigits Lexer.readEscapeDigits
  funext s
  refine bind_congr fun c s' hc => ?_
  obtain ⟨rfl, hc⟩ := current_ok hc
  split
  · rename_i h; exact readCodePoint_eq (h ▸ hc)
  · rfl

theorem readUnicodeEscapeSequence_eq {s : Cursor} (h : s.cur = some '\\') :
    DebugLexer.readUnicodeEscapeSequence s = Lexer.readUnicodeEscapeSequence s := by
  unfold DebugLexer.readUnicodeEscapeSequence Lexer.readUnicodeEscapeSequence
  refine bind_congr fun p s' hp => ?_
  obtain ⟨rfl, rfl⟩ := Res.ok.inj hp
  refine bind_congr fun c s' hc => ?_
  rw [(consume_ok hc).2] at h
  rw [debugAssert_true (by simp [Option.some.inj h])]
  simp only [readEscapeDigits_eq]; rfl

theorem readAndExpand_eq {b : Bool} {s : Cursor} (h : s.cur = some '\\') :
    DebugLexer.readAndExpandUnicodeEscapeSequence b s = Lexer.readAndExpandUnicodeEscapeSequence b s := by
  unfold DebugLexer.readAndExpandUnicodeEscapeSequence Lexer.readAndExpandUnicodeEscapeSequence
  refine bind_congr fun p s' hp => ?_
  obtain ⟨rfl, rfl⟩ := Res.ok.inj hp
  show M.bind _ _ _ = M.bind _ _ _
  simp only [M.bind, readUnicodeEscapeSequence_eq h]

theorem readIdentifierWord_eq : DebugLexer.readIdentifierWord = Lexer.readIdentifierWord := by
  unfold DebugLexer.readIdentifierWord Lexer.readIdentifierWord
  funext s
  refine bind_congr fun n s' _ => ?_
  refine congrFun (loop_congr ?_ _ _) _
  funext word s
  refine bind_congr fun c s' hc => ?_
  obtain ⟨rfl, rfl⟩ := Res.ok.inj hc
  cases hc : s.cur with
  | none => rfl
  | some c =>
    show (if isIdPart c = true then _ else _ : L (Str ⊕ Str)) s = (if isIdPart c = true then _ else _ : L (Str ⊕ Str)) s
    split
    · rfl
    · split
      · rename_i h
        show M.bind _ _ _ = M.bind _ _ _
        simp only [M.bind, readAndExpand_eq (h ▸ hc)]
      · rfl

theorem readIdentifierOrKeyword_eq : DebugLexer.readIdentifierOrKeyword = Lexer.readIdentifierOrKeyword := by
  unfold DebugLexer.readIdentifierOrKeyword Lexer.readIdentifierOrKeyword
  simp only [readIdentifierWord_eq]
  rfl

theorem readTemplateLiteralHead_eq {s : Cursor} (h : s.cur = some '`') :
    DebugLexer.readTemplateLiteralHead s = Lexer.readTemplateLiteralHead s := by
  unfold DebugLexer.readTemplateLiteralHead Lexer.readTemplateLiteralHead
  refine bind_congr fun c s' hc => ?_
  rw [(consume_ok hc).2] at h
  rw [debugAssert_true (by simp [Option.some.inj h])]; rfl

theorem arms_idStart {start : Nat} {c : Char} {p : Option Char} (hd : c.isDigit = false) (hi : isIdStart c = true) :
    Lexer.readArms start c p = Lexer.readIdentifierOrKeyword := by
  unfold Lexer.readArms
  split
  all_goals first
    | rfl
    | (exfalso; revert hi; simp [isIdStart, UnicodeID.ascii_start]; done)
    | skip
  rw [if_neg (by simp [hd]), if_pos hi]

theorem readArms_eq {start : Nat} {c : Char} {p : Option Char} {s : Cursor} (h : s.cur = some c) :
    DebugLexer.readArms start c p s = Lexer.readArms start c p s := by
  unfold DebugLexer.readArms
  split
  · exact readStringLiteral_eq (.inl h)
  · exact readStringLiteral_eq (.inr h)
  · exact readTemplateLiteralHead_eq h
  · rw [readIdentifierOrKeyword_eq]; rfl
  · split
    · rename_i hi
      rw [arms_idStart hi.1 hi.2, readIdentifierOrKeyword_eq]
    · rfl

theorem readArms2_eq {st : LexState} {start : Nat} {c : Char} {p : Option Char} {s : Cursor} (h : s.cur = some c) :
    DebugLexer.readArms2 st start c p s = Lexer.readArms2 st start c p s := by
  unfold DebugLexer.readArms2
  split
  · rename_i hc
    rw [readRegexpLiteral_eq (hc.1 ▸ h)]
    unfold Lexer.readArms2
    rw [if_pos hc]
  · rename_i hc
    split
    · rfl
    · rename_i hn
      rw [readArms_eq h]
      unfold Lexer.readArms2
      simp only [not_or] at hn
      rw [if_neg hc, if_neg hn.1, if_neg hn.2.1, if_neg hn.2.2.1, if_neg hn.2.2.2]

theorem readValue_eq (st : LexState) (start : Nat) : DebugLexer.readValue st start = Lexer.readValue st start := by
  unfold DebugLexer.readValue Lexer.readValue
  funext s
  refine bind_congr fun c s' hc => ?_
  obtain ⟨rfl, hc⟩ := current_ok hc
  refine bind_congr fun p s' hp => ?_
  obtain ⟨rfl, rfl⟩ := Res.ok.inj hp
  exact readArms2_eq hc

theorem readGo_eq (st : LexState) (n : Nat) : DebugLexer.readGo st n = Lexer.readGo st n := by
  induction n with
  | zero => rfl
  | succ n ih => simp only [DebugLexer.readGo, Lexer.readGo, readValue_eq, ih]

theorem read_eq (st : LexState) : DebugLexer.read st = Lexer.read st := by
  funext s
  simp only [DebugLexer.read, Lexer.read, readGo_eq]

theorem next_eq : DebugLexer.next = LexerS.next := by
  funext s
  simp only [DebugLexer.next, LexerS.next, read_eq]
  rfl

end Fajt.Debug
