import Verif.Proofs.LexTrivia
/-!
# `read_all` is exact
-/
namespace Fajt
open Spec Lexer
set_option linter.unusedSectionVars false
variable [UnicodeID]

theorem lineRest_any {l rest : Str} (h : LineRest l rest) (hr : rest ≠ []) : l.any isLT = true := by
  cases h with
  | eol _ hc => simp [hc]
  | eof => exact absurd rfl hr

/-- In front of a token the flag is set by line terminators only. -/
theorem trivia_flag {html fol fol' : Bool} {tr rest : Str} (h : Trivia html fol tr rest fol') (hr : rest ≠ []) :
    fol' = (fol || tr.any isLT) := by
  have hne : ∀ w : Str, w ++ rest ≠ [] := fun w h => hr (List.append_eq_nil_iff.1 h).2
  induction h with
  | nil => simp
  | ws hc _ ih => rw [ih hr hne]; simp [not_lt_of_ws hc]
  | lt hc _ ih => rw [ih hr hne]; simp [hc]
  | line hl _ ih => rw [ih hr hne]; simp [lineRest_any hl (hne _)]
  | htmlOpen _ hl _ ih => rw [ih hr hne]; simp [lineRest_any hl (hne _)]
  | htmlClose _ hl _ ih => rw [ih hr hne]; simp [lineRest_any hl (hne _)]
  | block _ _ ih => 
    rw [ih hr hne]
    have h1 : isLT '/' = false := by decide
    have h2 : isLT '*' = false := by decide
    simp [h1, h2, Bool.or_assoc]

/-- The lexer with the text `pre` behind its cursor. -/
structure Behind (pre : Str) (c : Cursor) : Prop where
  off : c.off = byteLen pre
  pos : c.pos = posAfter 0 0 pre

theorem Behind.pos_le {pre : Str} {c : Cursor} (h : Behind pre c) : c.pos ≤ c.off := by
  rw [h.off, h.pos]
  have := posAfter_le 0 0 pre (Nat.le_refl 0)
  omega

theorem Behind.eats {pre w : Str} {c c' : Cursor} (h : Behind pre c) (he : Eats c w c') : Behind (pre ++ w) c' :=
  ⟨by rw [he.off, h.off, byteLen_append], by rw [he.pos, h.off, h.pos, posAfter_append]; simp⟩

/-- The body of the loop of `read_all`. -/
def readAllBody : List Token → M LexerS LexErr (List Token ⊕ List Token) := fun acc => M.attempt LexerS.next
      (fun t => return .inl (acc ++ [t]))
      (fun e => if e.kind ≠ .endOfStream then M.throw e else return .inr acc)

theorem readAll_eq (lx : LexerS) : LexerS.readAll lx = loop readAllBody (lx.cursor.rest.length + 1) [] lx := rfl

theorem body_ok {lx : LexerS} {t : Token} {c : Cursor} (acc : List Token) (h : Lexer.read lx.st lx.cursor = .ok t c) :
    readAllBody acc lx = .ok (.inl (acc ++ [t])) { lx with cursor := c } := by
  unfold readAllBody M.attempt LexerS.next
  rw [h]; rfl

theorem body_eos {lx : LexerS} {c : Cursor} (acc : List Token) (h : Lexer.read lx.st lx.cursor = .err LexErr.endOfStream c) :
    readAllBody acc lx = .ok (.inr acc) { lx with cursor := c } := by
  unfold readAllBody M.attempt LexerS.next
  rw [h]; rfl

theorem body_err {lx : LexerS} {c : Cursor} {e : LexErr} (acc : List Token) (h : Lexer.read lx.st lx.cursor = .err e c)
    (he : e.kind ≠ .endOfStream) : readAllBody acc lx = .err e { lx with cursor := c } := by
  unfold readAllBody M.attempt LexerS.next
  rw [h]
  simp only [ne_eq, he, not_false_eq_true, if_true]
  rfl

/-- Outcome of the loop of `read_all`. -/
def AllSpec (st : LexState) (pre : Str) (c : Cursor) (acc : List Token) : Res LexerS LexErr (List Token) → Prop
  | .ok r lx' => ∃ ts, r = acc ++ ts ∧ Tokens st.html st.regex pre c.fol c.rest ts ∧ lx'.cursor.rest = [] ∧ lx'.st = st
  | .err e _ => e.kind ≠ .endOfStream ∧ e.span.start ≤ e.span.stop ∧ e.span.stop ≤ c.off + byteLen c.rest
  | .panic _ => False
  | .oof => False

theorem readAll_spec (st : LexState) (ht : st.template = false) (n : Nat) (pre : Str) (lx : LexerS) (hst : lx.st = st)
    (hb : Behind pre lx.cursor) (hn : lx.cursor.rest.length < n) (acc : List Token) :
    AllSpec st pre lx.cursor acc (loop readAllBody n acc lx) := by
  induction n generalizing pre lx acc with
  | zero => exact absurd hn (Nat.not_lt_zero _)
  | succ n ih =>
    have hspec := read_spec st ht lx.cursor hb.pos_le
    cases hr : Lexer.read st lx.cursor with
    | ok t c2 =>
      rw [hr] at hspec
      obtain ⟨tr, c, he, htr, htok⟩ := hspec
      rw [loop_step (body_ok acc (by rw [hst]; exact hr))]
      obtain ⟨w, hew, hw, hlex⟩ := htok.lexeme
      have hb1 := hb.eats he
      have hb2 := hb1.eats hew
      have hlen : c2.rest.length < n := by
        have h1 := he.length
        have h2 := hew.length
        have : 0 < w.length := List.length_pos_iff.2 hw
        omega
      have := ih (pre ++ tr ++ w) { lx with cursor := c2 } hst hb2 hlen (acc ++ [t])
      have hbytes : c2.off + byteLen c2.rest = lx.cursor.off + byteLen lx.cursor.rest := by
        rw [hew.total, he.total]
      revert this
      cases loop readAllBody n (acc ++ [t]) { lx with cursor := c2 } with
      | ok r lx' =>
        rintro ⟨ts, rfl, hts, hrest, hst'⟩
        refine ⟨t :: ts, by simp, ?_, hrest, hst'⟩
        have hcr := hew.rest
        rw [he.rest, hcr]
        rw [htok.fol'] at hts
        refine .cons (by rw [← htok.fol, ← hcr]; exact htr) ?_ (by rw [← hcr]; exact htok.noTrivia) hw hlex ?_ hts
        · rw [← htok.fol]
          exact trivia_flag htr (by rw [hcr]; simp [hw])
        · rw [htok.span, hb1.pos, hb2.pos]
      | err e lx' =>
        rintro ⟨h1, h2, h3⟩
        exact ⟨h1, h2, by rw [← hbytes]; exact h3⟩
      | panic => exact id
      | oof => exact id
    | err e c =>
      rw [hr] at hspec
      obtain ⟨-, ⟨rfl, h1, h2⟩ | hok⟩ := hspec
      · rw [loop_done (body_eos acc (by rw [hst]; exact hr))]
        exact ⟨[], by simp, .nil h2, h1, hst⟩
      · have : loop readAllBody (n + 1) acc lx = .err e { lx with cursor := c } := by
          rw [loop, M.seq_err (body_err acc (by rw [hst]; exact hr) hok.notEos)]
        rw [this]
        exact ⟨hok.notEos, hok.le, hok.bound⟩
    | panic => rw [hr] at hspec; exact hspec.elim
    | oof => rw [hr] at hspec; exact hspec.elim

theorem readAll_complete (st : LexState) (ht : st.template = false) {pre src : Str} {fol : Bool} {ts : List Token}
    (h : Tokens st.html st.regex pre fol src ts) (lx : LexerS) (hst : lx.st = st) (hb : Behind pre lx.cursor)
    (hs : lx.cursor.rest = src) (hf : lx.cursor.fol = fol) (n : Nat) (hn : lx.cursor.rest.length < n) (acc : List Token) :
    ∃ lx', loop readAllBody n acc lx = .ok (acc ++ ts) lx' := by
  induction h generalizing lx n acc with
  | nil htr =>
    cases n with
    | zero => exact absurd hn (Nat.not_lt_zero _)
    | succ n =>
      obtain ⟨c, hc⟩ := (read_eos_iff st ht lx.cursor hb.pos_le).2 ⟨_, by rw [hs, hf]; exact htr⟩
      exact ⟨{ lx with cursor := c }, by rw [loop_done (body_eos acc (by rw [hst]; exact hc))]; simp⟩
  | @cons pre tr w rest fol t ts htr hfl hnt hw hlex hsp _ ih =>
    cases n with
    | zero => exact absurd hn (Nat.not_lt_zero _)
    | succ n =>
      have he : Eats lx.cursor tr (lx.cursor.afterF tr (w ++ rest) t.fol) := Eats.afterF hs
      have hew : Eats (lx.cursor.afterF tr (w ++ rest) t.fol) w
        ((lx.cursor.afterF tr (w ++ rest) t.fol).afterF w rest false) := Eats.afterF rfl
      have hb1 := hb.eats he
      have hb2 := hb1.eats hew
      have hr : Lexer.read st lx.cursor = .ok t _ := (read_ok_iff st ht _ hb.pos_le _ _).2
        ⟨tr, _, he, by rw [hf]; exact htr, ⟨hnt, ⟨w, hew, hw, hlex⟩, by rw [hsp, hb1.pos, hb2.pos], rfl, rfl⟩⟩
      rw [loop_step (body_ok acc (by rw [hst]; exact hr))]
      have hlen : rest.length < n := by
        have : 0 < w.length := List.length_pos_iff.2 hw
        rw [hs] at hn
        simp at hn
        omega
      obtain ⟨lx', h'⟩ := ih { lx with cursor := (lx.cursor.afterF tr (w ++ rest) t.fol).afterF w rest false } hst hb2 rfl rfl
        n hlen (acc ++ [t])
      exact ⟨lx', by rw [h']; simp⟩

theorem readAll_iff (src : Str) (st : LexState) (ht : st.template = false) (ts : List Token) :
    (∃ lx, LexerS.readAll ⟨src, st, ⟨src, 0, 0, true⟩⟩ = .ok ts lx) ↔ Tokens st.html st.regex [] true src ts := by
  have hb : Behind [] ⟨src, 0, 0, true⟩ := ⟨rfl, rfl⟩
  constructor
  · rintro ⟨lx, h⟩
    have := readAll_spec st ht _ [] ⟨src, st, ⟨src, 0, 0, true⟩⟩ rfl hb (Nat.lt_succ_self _) []
    rw [← readAll_eq, h] at this
    obtain ⟨ts', rfl, h', -⟩ := this
    exact h'
  · intro h
    obtain ⟨lx, h'⟩ := readAll_complete st ht h ⟨src, st, ⟨src, 0, 0, true⟩⟩ rfl hb rfl rfl _ (Nat.lt_succ_self _) []
    exact ⟨lx, by rw [readAll_eq, h']; simp⟩

theorem Spec.Continuation.ne_nil {v : TokVal} {w : Str} (h : Continuation v w) : w ≠ [] := by
  cases h <;> simp

/-- In the template state `read_all` also ends, without a panic. -/
theorem readAll_template (st : LexState) (ht : st.template = true) (n : Nat) (lx : LexerS) (hst : lx.st = st)
    (hb : lx.cursor.pos ≤ lx.cursor.off) (hn : lx.cursor.rest.length < n) (acc : List Token) :
    match loop readAllBody n acc lx with
    | .ok _ _ => False
    | .err e _ => e.kind ≠ .endOfStream ∧ e.span.start ≤ e.span.stop ∧ e.span.stop ≤ lx.cursor.off + byteLen lx.cursor.rest
    | .panic _ => False
    | .oof => False := by
  induction n generalizing lx acc with
  | zero => exact absurd hn (Nat.not_lt_zero _)
  | succ n ih =>
    have hrt := read_template st ht
    rcases (LS_readTemplateLiteralMiddleOrTail (s := lx.cursor)).run hb with ⟨t, w, c, hr, he, hc, -⟩ | ⟨e, w, c, hr, he, hok⟩
    · rw [loop_step (body_ok acc (by rw [hst, hrt]; exact hr))]
      have hlen := he.length
      have : 0 < w.length := List.length_pos_iff.2 hc.ne_nil
      have := ih { lx with cursor := c } hst (he.pos_le hb) (by show c.rest.length < n; omega) (acc ++ [t])
      rw [show ({ lx with cursor := c } : LexerS).cursor = c from rfl, he.total] at this
      exact this
    · have : loop readAllBody (n + 1) acc lx = .err e { lx with cursor := c } := by
        rw [loop, M.seq_err (body_err acc (by rw [hst, hrt]; exact hr) hok.notEos)]
      rw [this]
      exact ⟨hok.notEos, hok.le, hok.bound⟩

end Fajt
