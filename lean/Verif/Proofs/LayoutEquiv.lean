import Verif.Proofs.LayoutLead
/-!
# `SameForLexer` is an equivalence
-/
namespace Fajt
open Spec
set_option linter.unusedSectionVars false
set_option linter.unusedVariables false
variable [UnicodeID]

namespace Layout

theorem same_refl (sty : SourceType) (src : Str) : SameForLexer sty src src :=
  leading_same (tr := []) .nil (by simp)

theorem sameRead_symm {R : Cursor → Cursor → Prop} {T : Token → Token → Prop} {x y : Res Cursor LexErr Token} (h : SameRead R T x y) :
    SameRead (fun c c' => R c' c) (fun t t' => T t' t) y x := by
  cases x <;> cases y <;> first | exact h | exact ⟨h.1.symm, h.2⟩

theorem sameAgain_symm {src src' : Str} {states : LexState → Prop} {R : LexState → Cursor → Cursor → Prop} {T : Token → Token → Prop}
    {E : Cursor → Cursor → Prop} {st : LexState} {t t' : Token} (h : SameAgain src src' states R T E st t t') :
    SameAgain src' src states (fun st c c' => R st c' c) (fun t t' => T t' t) (fun c c' => E c' c) st t' t := by
  unfold SameAgain at h ⊢
  cases h1 : LexerS.dropBytes src t.span.start <;> cases h2 : LexerS.dropBytes src' t'.span.start <;> simp only [h1, h2] at h ⊢
  rename_i r r'
  cases h3 : Lexer.read st ⟨r, t.span.start, t.span.start, t.fol⟩ <;>
    cases h4 : Lexer.read st ⟨r', t'.span.start, t'.span.start, t'.fol⟩ <;> simp only [h3, h4] at h ⊢ <;> first
    | exact h
    | exact ⟨h.1.symm, h.2⟩

theorem same_symm {sty : SourceType} {src src' : Str} (h : SameForLexer sty src src') : SameForLexer sty src' src := by
  obtain ⟨states, R, T, h⟩ := h
  refine ⟨states, fun st c c' => R st c' c, fun t t' => T t' t, h.plain, h.start, fun h1 h2 => sameRead_symm (h.read h1 h2),
    fun ht => ⟨(h.token ht).1.symm, (h.token ht).2.symm⟩, ?_, fun h1 h2 => (h.one h1 h2).symm, fun ht => sameAgain_symm (h.regexp ht), ?_⟩
  · intro t t' ht
    have := h.back ht
    cases h1 : LexerS.dropBytes src t'.span.start <;> cases h2 : LexerS.dropBytes src' t.span.start <;> simp only [h1, h2] at this ⊢
    exact this
  · intro u u' s hu hs
    obtain ⟨E, h1, h2⟩ := h.template hu ((h.token hu).1.trans hs)
    refine ⟨fun c c' => E c' c, fun ht => sameAgain_symm (h1 ht), ?_⟩
    rcases h2 with h2 | h2
    · exact .inl fun he => h2 he
    · exact .inr fun ht => by rw [← (h.token ht).1]; exact h2 ht

/-- Composition of relations. -/
def Comp {α : Type} (R Q : α → α → Prop) (x z : α) : Prop := ∃ y, R x y ∧ Q y z

theorem sameRead_trans {R Q : Cursor → Cursor → Prop} {T U : Token → Token → Prop} {x y z : Res Cursor LexErr Token}
    (h1 : SameRead R T x y) (h2 : SameRead Q U y z) : SameRead (Comp R Q) (Comp T U) x z := by
  cases x <;> cases y <;> cases z <;> first
    | exact ⟨⟨_, h1.1, h2.1⟩, ⟨_, h1.2, h2.2⟩⟩
    | exact ⟨h1.1.trans h2.1, ⟨_, h1.2, h2.2⟩⟩
    | exact False.elim h1
    | exact False.elim h2

theorem sameAgain_trans {src src' src'' : Str} {states states' : LexState → Prop} {R Q : LexState → Cursor → Cursor → Prop}
    {T U : Token → Token → Prop} {E F : Cursor → Cursor → Prop} {st : LexState} {t t' t'' : Token}
    (h : SameAgain src src' states R T E st t t') (h' : SameAgain src' src'' states' Q U F st t' t'') :
    SameAgain src src'' (fun st => states st ∧ states' st) (fun st => Comp (R st) (Q st)) (Comp T U) (Comp E F) st t t'' := by
  unfold SameAgain at h h' ⊢
  cases h1 : LexerS.dropBytes src t.span.start <;> cases h2 : LexerS.dropBytes src' t'.span.start <;>
    cases h2' : LexerS.dropBytes src'' t''.span.start <;> simp only [h1, h2, h2'] at h h' ⊢
  rename_i r r' r''
  cases h3 : Lexer.read st ⟨r, t.span.start, t.span.start, t.fol⟩ <;>
    cases h4 : Lexer.read st ⟨r', t'.span.start, t'.span.start, t'.fol⟩ <;>
    cases h5 : Lexer.read st ⟨r'', t''.span.start, t''.span.start, t''.fol⟩ <;> simp only [h3, h4, h5] at h h' ⊢ <;> first
    | exact ⟨⟨_, h.1, h'.1⟩, fun st hst => ⟨_, h.2 st hst.1, h'.2 st hst.2⟩⟩
    | exact ⟨h.1.trans h'.1, ⟨_, h.2, h'.2⟩⟩

theorem same_trans {sty : SourceType} {src src' src'' : Str} (h : SameForLexer sty src src') (h' : SameForLexer sty src' src'') :
    SameForLexer sty src src'' := by
  obtain ⟨states, R, T, h⟩ := h
  obtain ⟨states', Q, U, h'⟩ := h'
  refine ⟨fun st => states st ∧ states' st, fun st => Comp (R st) (Q st), Comp T U, ⟨h.plain, h'.plain⟩, ⟨_, h.start, h'.start⟩, ?_, ?_,
    ?_, ?_, ?_, ?_⟩
  · rintro st c c'' hst ⟨c', h1, h2⟩
    exact sameRead_trans (h.read hst.1 h1) (h'.read hst.2 h2)
  · rintro t t'' ⟨t', h1, h2⟩
    exact ⟨(h.token h1).1.trans (h'.token h2).1, (h.token h1).2.trans (h'.token h2).2⟩
  · rintro t t'' ⟨t', h1, h2⟩
    have b1 := h.back h1
    have b2 := h'.back h2
    cases d1 : LexerS.dropBytes src t.span.start <;> cases d2 : LexerS.dropBytes src' t'.span.start <;>
      cases d3 : LexerS.dropBytes src'' t''.span.start <;> simp only [d1, d2, d3] at b1 b2 ⊢
    exact fun st hst => ⟨_, b1 st hst.1, b2 st hst.2⟩
  · rintro t t'' u u'' ⟨t', h1, h2⟩ ⟨u', h3, h4⟩
    exact (h.one h1 h3).trans (h'.one h2 h4)
  · rintro t t'' ⟨t', h1, h2⟩
    have := sameAgain_trans (h.regexp h1) (h'.regexp h2)
    unfold SameAgain at this ⊢
    split <;> rename_i k1 k2 <;> simp only [k1, k2] at this ⊢
    split <;> rename_i k3 k4 <;> simp only [k3, k4] at this ⊢
    · exact this
    · obtain ⟨h1, y, h2, h3⟩ := this
      exact ⟨h1, ⟨h2.1, h3.1⟩, y, h2.2, h3.2⟩
  · rintro u u'' s ⟨u', h1, h2⟩ hs
    obtain ⟨E, e1, e2⟩ := h.template h1 hs
    obtain ⟨F, f1, f2⟩ := h'.template h2 ((h.token h1).1.symm.trans hs)
    refine ⟨Comp E F, ?_, ?_⟩
    · rintro t t'' ⟨t', h1, h2⟩
      exact sameAgain_trans (e1 h1) (f1 h2)
    · rcases e2 with e2 | e2
      · rcases f2 with f2 | f2
        · left
          rintro c c'' ⟨c', h1, h2⟩
          exact ⟨⟨(e2 h1).1, (f2 h2).1⟩, c', (e2 h1).2, (f2 h2).2⟩
        · right
          rintro t t'' ⟨t', h1, h2⟩
          rw [(h.token h1).1]
          exact f2 h2
      · right
        rintro t t'' ⟨t', h1, h2⟩
        exact e2 h1

end Layout
end Fajt
