import Verif.Proofs.CompleteSeek
import Verif.Proofs.LexBlank
/-!
# Layout: the tokens of a source, as the parser meets them

`SeqOf sty S ts`: what the proof needs to know of a source `S` with the tokens `ts`.
-/
namespace Fajt
open Spec Complete
set_option linter.unusedSectionVars false
variable [UnicodeID]

namespace Layout

/-- The cursor after `i` tokens, from `c`. -/
def after (sty : SourceType) (c : Cursor) : Nat → Cursor
  | 0 => c
  | i + 1 => after sty (lexAt sty c).2 i

theorem after_cons (sty : SourceType) (c : Cursor) (i : Nat) : after sty c (i + 1) = after sty (lexAt sty c).2 i := rfl

theorem after_succ (sty : SourceType) (c : Cursor) (i : Nat) : after sty c (i + 1) = (lexAt sty (after sty c i)).2 := by
  induction i generalizing c with
  | zero => rfl
  | succ i ih => exact ih _

/-- The token number `i`, or the end of the source. -/
def look (ts : List Token) (i : Nat) : Except LexErr Token :=
  match ts[i]? with
  | some t => .ok t
  | none => .error LexErr.endOfStream

/-- The cursor at the start of a source. -/
def begin (S : Str) : Cursor := ⟨S, 0, 0, true⟩

/-- The token starts with a slash. -/
def slash : TokVal → Prop
  | .punct p => p.asStr.head? = some '/'
  | _ => False

/-- What the proof needs to know of a source. -/
structure SeqOf (sty : SourceType) (S : Str) (ts : List Token) : Prop where
  res : ∀ i, (lexAt sty (after sty (begin S) i)).1 = look ts i
  place : ∀ i, Place S (after sty (begin S) i)
  seek : ∀ j t, ts[j]? = some t → ∃ rest, LexerS.dropBytes S t.span.start = some rest ∧
    Place S ⟨rest, t.span.start, t.span.start, t.fol⟩ ∧
    ∀ st : LexState, st.template = false → (st.regex = true → ¬ slash t.value) →
      Lexer.read st ⟨rest, t.span.start, t.span.start, t.fol⟩ = .ok t (after sty (begin S) (j + 1))
  wide : ∀ t ∈ ts, t.span.start < t.span.stop
  order : ts.Pairwise fun a b => a.span.stop ≤ b.span.start

theorem lexAt_end (sty : SourceType) {c : Cursor} (hp : c.pos ≤ c.off) {f : Bool}
    (h : Trivia (lexSt sty).html c.fol c.rest [] f) :
    ∃ c', lexAt sty c = (.error LexErr.endOfStream, c') ∧ c'.rest = [] ∧ c'.pos ≤ c'.off := by
  obtain ⟨c', h'⟩ := (read_eos_iff (lexSt sty) rfl c hp).2 ⟨f, h⟩
  have hs := read_spec (lexSt sty) rfl c hp
  rw [h'] at hs
  obtain ⟨⟨w, hw⟩, hs⟩ := hs
  refine ⟨c', by unfold lexAt; rw [h']; rfl, ?_, ?_⟩
  · rcases hs with ⟨-, h, -⟩ | h
    · exact h
    · exact absurd rfl h.notEos
  · rw [hw.pos, hw.off]
    have := posAfter_le c.off c.pos w hp
    exact this

theorem after_end (sty : SourceType) {c : Cursor} (hp : c.pos ≤ c.off) {f : Bool}
    (h : Trivia (lexSt sty).html c.fol c.rest [] f) (i : Nat) :
    (lexAt sty (after sty c i)).1 = .error LexErr.endOfStream := by
  induction i generalizing c f with
  | zero => obtain ⟨c', h', -⟩ := lexAt_end sty hp h; show (lexAt sty c).1 = _; rw [h']
  | succ i ih =>
    obtain ⟨c', h', hr, hp'⟩ := lexAt_end sty hp h
    show (lexAt sty (after sty (lexAt sty c).2 i)).1 = _
    rw [h']
    refine ih hp' (f := c'.fol) ?_
    simp only [hr]
    exact .nil

theorem lexeme_regex {v : TokVal} {w rest : Str} (h : Lexeme false v w rest) {b : Bool} (hb : b = true → ¬ slash v) :
    Lexeme b v w rest := by
  cases h with
  | punct h1 h2 => exact .punct h1 fun e hh => hb e hh
  | keyword h => exact .keyword h
  | ident h1 h2 => exact .ident h1 h2
  | number h1 h2 => exact .number h1 h2
  | string h1 h2 => exact .string h1 h2
  | regexp h => cases h
  | template h => exact .template h
  | templateHead h => exact .templateHead h

theorem tokens_after {sty : SourceType} {pre src : Str} {fol : Bool} {ts : List Token}
    (h : Tokens (lexSt sty).html false pre fol src ts) :
    (∀ i, (lexAt sty (after sty (cursor ⟨pre, src, fol⟩) i)).1 = look ts i) ∧
    (∀ j t, ts[j]? = some t → (∃ p r, pre ++ src = p ++ r ∧ byteLen p = t.span.start) →
      ∃ rest, LexerS.dropBytes (pre ++ src) t.span.start = some rest ∧
      Place (pre ++ src) ⟨rest, t.span.start, t.span.start, t.fol⟩ ∧
      ∀ st : LexState, st.template = false → (st.regex = true → ¬ slash t.value) →
        Lexer.read st ⟨rest, t.span.start, t.span.start, t.fol⟩ = .ok t (after sty (cursor ⟨pre, src, fol⟩) (j + 1))) := by
  induction h with
  | @nil pre src fol fol' h =>
    have hb : Behind pre (cursor ⟨pre, src, fol⟩) := ⟨rfl, rfl⟩
    exact ⟨fun i => after_end sty hb.pos_le h i, fun j t h => by simp at h⟩
  | @cons pre tr w rest fol t ts h1 h2 h3 h4 h5 h6 _ ih =>
    have hn : Next sty ⟨pre, tr ++ (w ++ rest), fol⟩ t ⟨pre ++ tr ++ w, rest, false⟩ := .intro h1 h3 h4 h5 h6
    have hl := next_lexAt hn
    constructor
    · intro i
      cases i with
      | zero => show (lexAt sty (cursor _)).1 = _; rw [hl]; rfl
      | succ i =>
        show (lexAt sty (after sty (lexAt sty (cursor _)).2 i)).1 = _
        rw [hl]
        exact ih.1 i
    · intro j u hu hs
      cases j with
      | zero =>
        simp only [List.getElem?_cons_zero, Option.some.injEq] at hu
        subst hu
        have hst : t.span.start = posAfter 0 0 (pre ++ tr) := by rw [h6]
        rw [hst] at hs
        have hd := drop_at (f := t.fol) hs
        refine ⟨w ++ rest, by rw [hst]; exact hd.1, ?_, ?_⟩
        · rw [hst, ← hd.2]
          have := cursor_place ⟨pre ++ tr, w ++ rest, t.fol⟩
          simpa using this
        · intro st ht hr
          have hr : Reads st.html st.regex ⟨pre ++ tr, [] ++ (w ++ rest), t.fol⟩ t ⟨pre ++ tr ++ [] ++ w, rest, false⟩ :=
            .intro .nil h3 h4 (lexeme_regex h5 hr) (by simpa using h6)
          have := reads_read ht hr
          rw [hst, ← hd.2]
          simp only [List.nil_append, List.append_nil] at this
          rw [this]
          show _ = Res.ok t (after sty (lexAt sty (cursor _)).2 0)
          rw [hl]
          rfl
      | succ j =>
        have e : pre ++ (tr ++ (w ++ rest)) = pre ++ tr ++ w ++ rest := by simp
        rw [e] at hs ⊢
        obtain ⟨r, a1, a2, a3⟩ := ih.2 j u (by simpa using hu) hs
        refine ⟨r, a1, a2, fun st ht hr => ?_⟩
        rw [a3 st ht hr, after_cons _ _ (j + 1), hl]

theorem SeqOf.intro {sty : SourceType} {S : Str} {ts : List Token} (h : Tokens (lexSt sty).html false [] true S ts)
    (hs : ∀ t ∈ ts, ∃ p r, S = p ++ r ∧ byteLen p = t.span.start) : SeqOf sty S ts := by
  have h1 := tokens_after h
  have h2 := tokens_bounds h
  have e : cursor ⟨[], S, true⟩ = begin S := rfl
  rw [e] at h1
  refine ⟨h1.1, fun i => ?_, fun j t ht => h1.2 j t ht (hs t (List.mem_of_getElem? ht)), fun t ht => (h2.1 t ht).2.1, h2.2⟩
  induction i with
  | zero => exact ⟨[], rfl, rfl, rfl⟩
  | succ i ih => rw [after_succ]; exact lexAt_place sty ih

end Layout
end Fajt
