import Verif.Proofs.LexRead
import Verif.Proofs.LexTokens
import Verif.Spec.Kind
/-!
# The lexer reads scripts and modules alike

A source without the marks of html comments is read alike whether html comments are allowed or not.
-/
namespace Fajt.Kind
set_option linter.unusedSectionVars false
variable [UnicodeID]
open Spec Lexer Fajt

theorem _root_.Fajt.Spec.PlainSource.mono {v w : Str} (h : PlainSource w) (hv : v <:+: w) : PlainSource v :=
  ⟨fun h' => h.1 (h'.trans hv), fun h' => h.2 (h'.trans hv), fun u n h' => h.3 u n (h'.trans hv)⟩

/-- The cursor is at a plain text. -/
structure PlainAt (s : Cursor) : Prop where
  plain : PlainSource s.rest
  le : s.pos ≤ s.off

theorem PlainAt.eats {s s' : Cursor} {w : Str} (h : PlainAt s) (he : Eats s w s') : PlainAt s' :=
  ⟨h.plain.mono ⟨w, [], by rw [he.rest]; simp⟩, he.pos_le h.le⟩

theorem PlainAt.fol {s : Cursor} (h : PlainAt s) (b : Bool) : PlainAt { s with fol := b } := ⟨h.plain, h.le⟩

/-- One round of skipping comments. -/
def skipBody (st : LexState) : Unit → L (Unit ⊕ Unit) := fun () => do
    skipWhitespaces
    let c ← cur?
    let p ← peek?
    if c = some '/' ∧ p = some '/' then
      skipSingleLineComment
      setFol true
      return .inl ()
    else if c = some '<' ∧ p = some '!' then
      if !st.html then
        let position ← position
        M.throw (LexErr.syntax c!"HTML comments are not allowed in this context" position (position + 2))
      skipSingleLineComment
      setFol true
      return .inl ()
    else if c = some '/' ∧ p = some '*' then
      skipMultiLineComment
      return .inl ()
    else return .inr ()

theorem two_heads {l : Str} {a b : Char} (h : l.head? = some a) (h' : l.tail.head? = some b) : ∃ r, l = a :: b :: r := by
  cases l with
  | nil => cases h
  | cons c t =>
    cases t with
    | nil => cases h'
    | cons d t => cases h; cases h'; exact ⟨t, rfl⟩

theorem skipBody_same (st st' : LexState) {s : Cursor} (h : PlainAt s) : skipBody st () s = skipBody st' () s := by
  unfold skipBody
  rcases (LS_skipWhitespaces st.html (s := s)).run h.le with ⟨⟨⟩, w, c, hr, he, -⟩ | ⟨e, w, s', hr, he, -⟩
  · dsimp only
    rw [M.seq_ok hr, M.seq_ok hr]
    have e1 : cur? c = .ok c.rest.head? c := rfl
    have e2 : peek? c = .ok c.rest.tail.head? c := rfl
    rw [M.seq_ok e1, M.seq_ok e1, M.seq_ok e2, M.seq_ok e2]
    by_cases hx : c.rest.head? = some '<' ∧ c.rest.tail.head? = some '!'
    · obtain ⟨r, hr⟩ := two_heads hx.1 hx.2
      exact absurd ⟨[], r, by rw [hr]; rfl⟩ (h.eats he).plain.htmlOpen
    · simp only [if_neg hx]
  · dsimp only
    rw [M.seq_err hr, M.seq_err hr]

theorem LS_skipBody (st : LexState) {s : Cursor} : LS (skipBody st ()) s (fun _ _ _ => True) := by
  unfold skipBody
  refine LS.bind (LS_skipWhitespaces st.html) ?_
  rintro _ v s2 hv -
  refine LS_cur ?_
  refine LS_peek ?_
  refine LS.ite ?_ fun hc1 => LS.ite ?_ fun hc2 => LS.ite ?_ fun hc3 => ?_
  · rintro ⟨ha, hb⟩
    obtain ⟨r, hr⟩ := two_heads ha hb
    refine LS.bind (LS_skipSingleLineComment hr) ?_
    rintro _ _ s3 h3 -
    refine LS.bind LS_setFol ?_
    rintro _ _ s4 - -
    exact LS.pure trivial
  · rintro ⟨ha, hb⟩
    obtain ⟨r, hr⟩ := two_heads ha hb
    refine LS.ite ?_ ?_
    · intro _
      refine LS_position ?_
      refine LS.throw fun hp => ⟨by simp [LexErr.syntax], by simp [LexErr.syntax], ?_⟩
      rw [hr]; simp only [byteLen_cons, LexErr.syntax]
      have := utf8Size_pos '<'; have := utf8Size_pos '!'
      omega
    · intro hh
      refine LS.bind (LS_skipSingleLineComment hr) ?_
      rintro _ _ s3 h3 -
      refine LS.bind LS_setFol ?_
      rintro _ _ s4 - -
      exact LS.pure trivial
  · rintro ⟨ha, hb⟩
    obtain ⟨r, hr⟩ := two_heads ha hb
    refine LS.bind (LS_skipMultiLineComment hr) ?_
    rintro _ _ s3 h3 -
    exact LS.pure trivial
  · exact LS.pure trivial

theorem skipComments_same (st st' : LexState) {s : Cursor} (h : PlainAt s) :
    skipCommentsAndWhiteSpaces st s = skipCommentsAndWhiteSpaces st' s := by
  have key : ∀ n (s : Cursor), PlainAt s → loop (skipBody st) n () s = loop (skipBody st') n () s := by
    intro n
    induction n with
    | zero => intro s _; rfl
    | succ n ih =>
      intro s h
      unfold loop
      rcases (LS_skipBody st (s := s)).run h.le with ⟨x, w, c, hr, he, -⟩ | ⟨e, w, s', hr, he, -⟩
      · rw [M.seq_ok hr, M.seq_ok ((skipBody_same st st' h).symm.trans hr)]
        cases x with
        | inl => exact ih c (h.eats he)
        | inr => rfl
      · rw [M.seq_err hr, M.seq_err ((skipBody_same st st' h).symm.trans hr)]
  have e1 : fuel s = .ok (s.rest.length + 1) s := rfl
  unfold skipCommentsAndWhiteSpaces
  rw [M.seq_ok e1, M.seq_ok e1]
  have := key (s.rest.length + 1) s h
  unfold skipBody at this
  show M.bind _ _ s = M.bind _ _ s
  unfold M.bind
  rw [this]

theorem readValue_same {st st' : LexState} (h : st.regex = st'.regex) (n : Nat) : readValue st n = readValue st' n := by
  unfold readValue readArms2
  rw [h]

/-- A token that is neither `import` nor `export`. -/
def Usual (t : Token) : Prop := t.value ≠ .keyword k!"import" ∧ t.value ≠ .keyword k!"export"

theorem _root_.Fajt.Spec.PlainSource.usual {src u : Str} {k : Keyword} (h : PlainSource src) (hw : u <:+: src) (hs : Spells u k.asStr) :
    k ≠ k!"import" ∧ k ≠ k!"export" := by
  have := h.words u _ hw hs
  exact ⟨fun e => this.1 (by rw [e]; rfl), fun e => this.2 (by rw [e]; rfl)⟩

/-- What reading a token of a plain text comes to. -/
def UsualRead (r : Res Cursor LexErr Token) : Prop :=
  match r with
  | .ok t s => Usual t ∧ PlainAt s
  | .err _ s => PlainAt s
  | _ => True

theorem read_usual (st : LexState) {s : Cursor} (h : PlainAt s) : UsualRead (Lexer.read st s) := by
  cases ht : st.template with
  | true =>
    rw [read_template st ht]
    rcases (LS_readTemplateLiteralMiddleOrTail (s := s)).run h.le with ⟨t, w, c, hr, he, hc, -⟩ | ⟨e, w, c, hr, he, hok⟩
    · rw [hr]
      refine ⟨?_, h.eats he⟩
      obtain ⟨v, b, sp⟩ := t
      cases hc <;> exact ⟨by simp, by simp⟩
    · rw [hr]; exact h.eats he
  | false =>
    have := read_spec st ht s h.le
    revert this
    cases Lexer.read st s with
    | ok t c =>
      rintro ⟨tr, c', he, -, htok⟩
      obtain ⟨w, he', -, hl⟩ := htok.lexeme
      refine ⟨?_, (h.eats he).eats he'⟩
      obtain ⟨v, b, sp⟩ := t
      cases hl with
      | keyword hk =>
        have := (h.eats he).plain.usual ⟨[], c.rest, by rw [he'.rest]; rfl⟩ hk.spells
        exact ⟨by simpa using this.1, by simpa using this.2⟩
      | _ => exact ⟨by simp, by simp⟩
    | err e c => rintro ⟨⟨w, he⟩, -⟩; exact h.eats he
    | panic => intro; trivial
    | oof => intro; trivial

/-- A plain text is read alike whether html comments are allowed or not. -/
theorem read_same {st st' : LexState} (hr : st.regex = st'.regex) (ht : st.template = st'.template) {s : Cursor} (h : PlainAt s) :
    Lexer.read st s = Lexer.read st' s := by
  unfold Lexer.read readGo
  rw [ht]
  split
  · rfl
  rcases (LS_skipComments st (s := s)).run h.le with ⟨⟨⟩, w, c, hr1, he, -⟩ | ⟨e, w, s', hr1, he, -⟩
  rotate_left
  · rw [M.seq_err hr1, M.seq_err ((skipComments_same st st' h).symm.trans hr1)]
  rw [M.seq_ok hr1, M.seq_ok ((skipComments_same st st' h).symm.trans hr1)]
  have e1 : cur? c = .ok c.rest.head? c := rfl
  rw [M.seq_ok e1, M.seq_ok e1]
  split
  · rfl
  have e2 : position c = .ok c.pos c := rfl
  show M.bind _ _ c = M.bind _ _ c
  unfold M.bind
  simp only [e2, readValue_same hr]
  have hc := h.eats he
  rcases (LS_readValue (s := c) (st := st')).run hc.le with ⟨v, w, s1, hr1, he1, hlex, hf1⟩ | ⟨e, w, s1, hr1, he1, hok⟩
  rotate_left
  · rw [M.seq_err hr1]
    simp only [M.bind_def, M.bind, hr1]
  simp only [M.bind_def, M.bind, hr1]
  have e3 : position s1 = .ok s1.pos s1 := rfl
  have e4 : (M.gets Cursor.fol : L Bool) s1 = .ok s1.fol s1 := rfl
  have e5 : cur? s1 = .ok s1.rest.head? s1 := rfl
  simp only [e3, e4, e5]
  rw [if_neg, if_neg]
  all_goals
    rintro ⟨-, rfl, hgt⟩
    have hw2 : w = ['-', '-'] := by
      cases hlex with
      | punct => rfl
    subst hw2
    obtain ⟨r', hr'⟩ := head?_eq_some hgt
    exact hc.plain.htmlClose ⟨[], r', by rw [he1.rest, hr']; rfl⟩

end Fajt.Kind
