import Verif.Proofs.LayoutProgram
import Verif.Proofs.LexShift
import Verif.Proofs.LexTrivia
/-!
# What stands in front of a source

Blanks, line terminators and comments in front of a source only move the positions.
-/
namespace Fajt
open Spec
set_option linter.unusedSectionVars false
set_option linter.unusedVariables false
variable [UnicodeID]

namespace Layout
open Shift

theorem dropBytes_shift (u w : Str) (n : Nat) : LexerS.dropBytes (u ++ w) (n + byteLen u) = LexerS.dropBytes w n := by
  induction u with
  | nil => rfl
  | cons c u ih =>
    have hc := c.utf8Size_pos
    have e : byteLen (c :: u) = c.utf8Size + byteLen u := rfl
    obtain ⟨m, hm⟩ : ∃ m, n + byteLen (c :: u) = m + 1 := ⟨n + byteLen (c :: u) - 1, by omega⟩
    rw [hm, List.cons_append, LexerS.dropBytes, if_pos (by omega), show m + 1 - c.utf8Size = n + byteLen u by omega, ih]

/-- Places with the same characters to come. -/
def Ahead (k : Nat) (c c' : Cursor) : Prop := Near k 0 c c' ∧ (∃ S, Place S c) ∧ ∃ S, Place S c'

theorem read_ahead {k : Nat} (st : LexState) {c c' : Cursor} (h : Ahead k c c') :
    SameRead (Ahead k) (SameToken k 0) (Lexer.read st c) (Lexer.read st c') := by
  obtain ⟨h1, ⟨S, h2⟩, S', h3⟩ := h
  have h := read_sh (st := st) _ _ h1
  rcases read_total st h2 with ⟨t, d, k1, p1⟩ | ⟨e, d, k1, p1⟩ <;> rcases read_total st h3 with ⟨t', d', k2, p2⟩ | ⟨e', d', k2, p2⟩ <;>
    rw [k1, k2] at h ⊢
  · exact ⟨h.1, h.2, ⟨S, p1⟩, S', p2⟩
  · exact h
  · exact h
  · exact ⟨h.1, h.2, ⟨S, p1⟩, S', p2⟩

theorem back_ahead {k : Nat} {r : Str} {t t' : Token} (h : SameToken k 0 t t') :
    Ahead k ⟨r, t.span.start, t.span.start, t.fol⟩ ⟨r, t'.span.start, t'.span.start, t'.fol⟩ :=
  ⟨⟨rfl, h.2.2, h.2.2, h.2.1⟩, place_back _ _ _, place_back _ _ _⟩

/-- The start of a source, with and without something in front of it that ends with an ASCII character. -/
theorem posAfter_last {tr : Str} (hl : ∀ c ∈ tr.getLast?, c.toNat < 128) : posAfter 0 0 tr = byteLen tr := by
  rcases List.eq_nil_or_concat tr with rfl | ⟨u, c, rfl⟩
  · rfl
  · have hc : c.toNat < 128 := hl c (by simp)
    have h1 := posAfter_ascii 0 (w := [c]) (by intro d hd; simp at hd; subst hd; exact hc)
    simp only [posAfter, byteLen, List.map_cons, List.map_nil, List.sum_cons, List.sum_nil] at h1
    rw [List.concat_eq_append, posAfter_snoc, byteLen_append]
    show _ = _ + (c.utf8Size + 0)
    omega

/-- What stands in front of a source only moves the positions. -/
theorem leading_same {sty : SourceType} {tr src : Str} {f : Bool} (ht : Trivia (sty = .script) true tr src f)
    (hl : ∀ c ∈ tr.getLast?, c.toNat < 128) : SameForLexer sty src (tr ++ src) := by
  have hf := trivia_true ht rfl
  subst hf
  let base : LexState := ⟨sty = .script, false, false⟩
  let T : Token → Token → Prop := SameToken (byteLen tr) 0
  let R : LexState → Cursor → Cursor → Prop := fun st c c' => Ahead (byteLen tr) c c' ∨
    (st = base ∧ c = ⟨src, 0, 0, true⟩ ∧ c' = ⟨tr ++ src, 0, 0, true⟩)
  have hstart : Ahead (byteLen tr) ⟨src, 0, 0, true⟩ (Cursor.afterF ⟨tr ++ src, 0, 0, true⟩ tr src true) := by
    refine ⟨⟨rfl, ?_, ?_, rfl⟩, place_back _ _ _, ⟨tr ++ src, tr, rfl, ?_, rfl⟩⟩
    · show 0 + byteLen tr = 0 + byteLen tr + 0
      omega
    · show 0 + byteLen tr = posAfter 0 0 tr + 0
      rw [posAfter_last hl]; omega
    · show 0 + byteLen tr = byteLen tr
      omega
  have hmono : ∀ {st : LexState} {x y}, SameRead (Ahead (byteLen tr)) T x y → SameRead (R st) T x y := by
    intro st x y h
    cases x <;> cases y <;> first | exact ⟨h.1, .inl h.2⟩ | exact h
  have again : ∀ {t t' : Token} (st : LexState), T t t' → SameAgain src (tr ++ src) (fun _ => True) R T
      (fun c c' => True ∧ R st c c') st t t' := by
    intro t t' st h
    have e : t'.span.start = t.span.start + byteLen tr := by have := h.2.2; unfold SamePlace at this; omega
    unfold SameAgain
    rw [e, dropBytes_shift, ← e]
    cases hd : LexerS.dropBytes src t.span.start with
    | none => trivial
    | some r =>
      dsimp only
      have := read_ahead st (back_ahead (r := r) h)
      cases h1 : Lexer.read st ⟨r, t.span.start, t.span.start, t.fol⟩ <;>
        cases h2 : Lexer.read st ⟨r, t'.span.start, t'.span.start, t'.fol⟩ <;> rw [h1, h2] at this <;> first
        | exact ⟨this.1, fun _ _ => .inl this.2⟩
        | exact ⟨this.1, trivial, .inl this.2⟩
        | exact this
  refine ⟨fun _ => True, R, T, trivial, .inr ⟨rfl, rfl, rfl⟩, ?_, fun h => ⟨h.1, h.2.1⟩, ?_, ?_, fun h => again _ h, ?_⟩
  · rintro st c c' - (h | ⟨rfl, rfl, rfl⟩)
    · exact hmono (read_ahead st h)
    · rw [read_trivia base rfl ht ⟨tr ++ src, 0, 0, true⟩ (Nat.le_refl _) rfl rfl]
      exact hmono (read_ahead base hstart)
  · intro t t' h
    have e : t'.span.start = t.span.start + byteLen tr := by have := h.2.2; unfold SamePlace at this; omega
    rw [e, dropBytes_shift, ← e]
    cases hd : LexerS.dropBytes src t.span.start with
    | none => trivial
    | some r => exact fun st _ => .inl (back_ahead h)
  · intro t t' u u' h1 h2
    have h1 := h1.2.2
    have h2 := h2.2.2
    unfold SamePlace at h1 h2
    omega
  · intro u u' s _ _
    exact ⟨_, fun h => again _ h, .inl fun h => h⟩

end Layout
end Fajt
