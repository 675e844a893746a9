import Verif.Proofs.LexComplete
/-!
# Completeness of trivia skipping, and exactness of `read`
-/
namespace Fajt
open Spec Lexer
set_option linter.unusedSectionVars false
variable [UnicodeID]

/-! ## Fuel -/

/-- The body of the loop of `skip_comments_and_white_spaces`. -/
def skipBody (st : LexState) : Unit → L (Unit ⊕ Unit) := fun () => do
    skipWhitespaces
    let c ← cur?
    let p ← peek?
    if c = some '/' ∧ p = some '/' then
      skipSingleLineComment
      setFol true
      return .inl ()
    else if c = some '<' ∧ p = some '!' then
      if !st.html then
        let position ← position
        M.throw (LexErr.syntax c!"HTML comments are not allowed in this context" position (position + 2))
      skipSingleLineComment
      setFol true
      return .inl ()
    else if c = some '/' ∧ p = some '*' then
      skipMultiLineComment
      return .inl ()
    else return .inr ()

def skipN (st : LexState) (n : Nat) : L Unit := do
  loop (skipBody st) n ()
  skipWhitespaces

theorem skip_eq (st : LexState) (s : Cursor) : skipCommentsAndWhiteSpaces st s = skipN st (s.rest.length + 1) s := rfl

theorem skipN_eq (st : LexState) {n : Nat} {s : Cursor} (hp : s.pos ≤ s.off) (hn : s.rest.length + 1 ≤ n) :
    skipN st n s = skipCommentsAndWhiteSpaces st s := by
  rw [skip_eq]
  have : loop (skipBody st) (s.rest.length + 1) () s ≠ .oof := by
    intro h
    have h2 : skipCommentsAndWhiteSpaces st s = .oof := by
      rw [skip_eq]; unfold skipN; rw [M.bind_def, M.bind, h]
    rcases (LS_skipComments st (s := s)).run hp with ⟨_, _, _, hr, _⟩ | ⟨_, _, _, hr, _⟩ <;> rw [h2] at hr <;> cases hr
  unfold skipN
  rw [M.bind_def, M.bind, loop_mono _ hn _ _ this, M.bind_def, M.bind]

theorem not_lt_of_ws {c : Char} (h : isWS c = true) : isLT c = false := by
  unfold isWS at h
  unfold isLT
  simp only [Bool.or_eq_true, Bool.and_eq_true, beq_iff_eq, decide_eq_true_eq] at h
  simp only [Bool.or_eq_false_iff, beq_eq_false_iff_ne]
  omega

/-- The cursor after `w`, with the flag `f`. -/
def Cursor.afterF (s : Cursor) (w rest : Str) (f : Bool) : Cursor := { s.after w rest with fol := f }

theorem Cursor.afterF_after (s : Cursor) (v w r rest : Str) (f g : Bool) :
    (s.afterF v r f).afterF w rest g = s.afterF (v ++ w) rest g := by
  simp [Cursor.afterF, Cursor.after, posAfter_append, Nat.add_assoc]

theorem Cursor.after_afterF (s : Cursor) (v w r rest : Str) (g : Bool) :
    (s.after v r).afterF w rest g = s.afterF (v ++ w) rest g := by
  simp [Cursor.afterF, Cursor.after, posAfter_append, Nat.add_assoc]

@[simp] theorem Cursor.afterF_rest (s : Cursor) (w rest : Str) (f : Bool) : (s.afterF w rest f).rest = rest := rfl
@[simp] theorem Cursor.afterF_fol (s : Cursor) (w rest : Str) (f : Bool) : (s.afterF w rest f).fol = f := rfl

theorem Eats.afterF {s : Cursor} {w rest : Str} {f : Bool} (h : s.rest = w ++ rest) : Eats s w (s.afterF w rest f) :=
  ⟨h, rfl, rfl⟩

theorem Eats.eq_afterF {s s' : Cursor} {w : Str} (h : Eats s w s') : s' = s.afterF w s'.rest s'.fol := h.eq_after

theorem Cursor.afterF_nil (s : Cursor) : s.afterF [] s.rest s.fol = s := by
  simp [Cursor.afterF, Cursor.after, posAfter]

theorem skipWhitespaces_ws {s : Cursor} {c : Char} {r : Str} (h : s.rest = c :: r) (hw : isWS c = true) :
    skipWhitespaces s = skipWhitespaces (s.afterF [c] r s.fol) := by
  unfold skipWhitespaces
  rw [h]
  simp only [skipWhitespacesGo, not_lt_of_ws hw, hw, Cursor.afterF, Cursor.after_one]
  rfl

theorem skipWhitespaces_lt {s : Cursor} {c : Char} {r : Str} (h : s.rest = c :: r) (hw : isLT c = true) :
    skipWhitespaces s = skipWhitespaces (s.afterF [c] r true) := by
  unfold skipWhitespaces
  rw [h]
  simp only [skipWhitespacesGo, hw, Cursor.afterF, Cursor.after_one]
  rfl

theorem skipWhitespaces_none {s : Cursor} (h : NotHead (fun c => isWS c || isLT c) s.rest) : skipWhitespaces s = .ok () s := by
  unfold skipWhitespaces
  cases hs : s.rest with
  | nil => rfl
  | cons c r =>
    have := h c (by simp [hs])
    simp only [Bool.or_eq_false_iff] at this
    simp [skipWhitespacesGo, this]

theorem skip_of_ws (st : LexState) {s : Cursor} {w r : Str} {f : Bool} (hp : s.pos ≤ s.off) (h : s.rest = w ++ r)
    (he : skipWhitespaces s = skipWhitespaces (s.afterF w r f)) :
    skipCommentsAndWhiteSpaces st s = skipCommentsAndWhiteSpaces st (s.afterF w r f) := by
  have hl : s.rest.length = w.length + r.length := by rw [h]; simp
  rw [← skipN_eq st (n := s.rest.length + 1) (s := s.afterF w r f) ((Eats.afterF h).pos_le hp) (by simp; omega), skip_eq]
  unfold skipN loop
  have : skipBody st () s = skipBody st () (s.afterF w r f) := by
    unfold skipBody
    rw [M.bind_def, M.bind, he, M.bind_def, M.bind]
  simp only [M.bind_def, M.bind, this]

theorem skip_of_step (st : LexState) {s : Cursor} {w r : Str} {f : Bool} (hp : s.pos ≤ s.off) (h : s.rest = w ++ r)
    (hw : w ≠ []) (he : skipBody st () s = .ok (.inl ()) (s.afterF w r f)) :
    skipCommentsAndWhiteSpaces st s = skipCommentsAndWhiteSpaces st (s.afterF w r f) := by
  have hl : s.rest.length = w.length + r.length := by rw [h]; simp
  have : 0 < w.length := List.length_pos_iff.2 hw
  rw [← skipN_eq st (n := s.rest.length) (s := s.afterF w r f) ((Eats.afterF h).pos_le hp) (by simp; omega), skip_eq]
  unfold skipN
  rw [M.bind_def, M.bind, loop_step he, M.bind_def, M.bind]

theorem skipRestOfLine_eq {s : Cursor} {l rest : Str} (h : s.rest = l ++ rest) (hl : LineRest l rest) :
    skipRestOfLine s = .ok () (s.after l rest) := by
  unfold skipRestOfLine
  cases hl with
  | @eol body c _ hb hc =>
    rw [M.seq_ok (readWhile_eq (w := body) (rest := c :: rest) (by simp [h]) (fun d hd => by simp [hb d hd]) (by
      intro d hd; simp at hd; simp [← hd, hc]))]
    rw [M.seq_ok (cur?_eq _), if_pos (by simp)]
    show Res.ok _ _ = _
    simp [Cursor.after, Cursor.advance, posAfter_append, Nat.add_assoc, posAfter]
  | eof hb =>
    rw [M.seq_ok (readWhile_eq h (fun d hd => by simp [hb d hd]) (by intro d hd; simp at hd))]
    rw [M.seq_ok (cur?_eq _), if_neg (by simp)]
    rfl

theorem consumeUnwrap_eq {s : Cursor} {c : Char} {cs : Str} (h : s.rest = c :: cs) :
    consumeUnwrap s = .ok c (s.after [c] cs) := by
  rw [Cursor.after_one]; unfold consumeUnwrap; rw [h]

theorem skipSingleLineComment_eq {s : Cursor} {a b : Char} {l rest : Str} (h : s.rest = a :: b :: l ++ rest)
    (hl : LineRest l rest) : skipSingleLineComment s = .ok () (s.after (a :: b :: l) rest) := by
  unfold skipSingleLineComment
  rw [M.seq_ok (consumeUnwrap_eq h), M.seq_ok (consumeUnwrap_eq (c := b) (cs := l ++ rest) (by rfl)),
    skipRestOfLine_eq (by rfl) hl]
  simp [Cursor.after_after]

/-- The body of the loop of `skip_multi_line_comment`. -/
def mlBody (start : Nat) : Unit → L (Unit ⊕ Unit) := fun () => do
    if (← cur?) = some '*' ∧ (← peek?) = some '/' then
      let _ ← consume
      let _ ← consume
      return .inr ()
    if (← cur?).isNone then
      M.throw (LexErr.syntax c!"Unterminated comment" start (start + 2))
    let c ← consume
    if isLT c then setFol true
    return .inl ()

theorem ml_loop (start : Nat) {body rest : Str} (hb : ∀ u v, body ≠ u ++ '*' :: '/' :: v) (s2 : Cursor)
    (hr2 : s2.rest = body ++ '*' :: '/' :: rest) (n : Nat) (hn : body.length < n) :
    loop (mlBody start) n () s2 = .ok () (s2.afterF (body ++ ['*', '/']) rest (s2.fol || body.any isLT)) := by
  induction body generalizing s2 n with
  | nil =>
    cases n with
    | zero => simp at hn
    | succ n =>
      refine loop_done ?_
      unfold mlBody
      rw [M.seq_ok (cur?_eq s2), M.seq_ok (peek?_eq s2), if_pos (by simp [hr2]), M.seq_ok (consume_eq hr2),
        M.seq_ok (consume_eq (c := '/') (cs := rest) (by rfl))]
      simp [Cursor.after_after, Cursor.afterF]
      rfl
  | cons c body ih =>
    cases n with
    | zero => simp at hn
    | succ n =>
      have := ih (fun u v hu => hb (c :: u) v (by rw [hu]; rfl))
        (s2.afterF [c] (body ++ '*' :: '/' :: rest) (s2.fol || isLT c)) rfl n (by simp at hn; omega)
      rw [Cursor.afterF_after] at this
      simp only [Cursor.afterF_fol, Bool.or_assoc] at this
      refine Eq.trans (loop_step ?_) this
      unfold mlBody
      rw [M.seq_ok (cur?_eq s2), M.seq_ok (peek?_eq s2), if_neg (by
        rw [hr2]
        rintro ⟨h1, h2⟩
        simp at h1 h2
        subst h1
        cases body with
        | nil => simp at h2
        | cons d b =>
          simp at h2
          subst h2
          exact hb [] b rfl), M.seq_ok (cur?_eq s2), if_neg (by simp [hr2])]
      show (consume >>= _) s2 = _
      rw [M.seq_ok (consume_eq hr2)]
      cases hlt : isLT c with
      | false => simp [Cursor.afterF]; rfl
      | true => simp [Cursor.afterF]; rfl

theorem skipMultiLineComment_eq {s : Cursor} {body rest : Str} (h : s.rest = '/' :: '*' :: body ++ '*' :: '/' :: rest)
    (hb : ∀ u v, body ≠ u ++ '*' :: '/' :: v) :
    skipMultiLineComment s = .ok () (s.afterF ('/' :: '*' :: body ++ ['*', '/']) rest (s.fol || body.any isLT)) := by
  unfold skipMultiLineComment
  rw [M.seq_ok (position_eq s), M.seq_ok (consume_eq h),
    M.seq_ok (consume_eq (c := '*') (cs := body ++ '*' :: '/' :: rest) (by rfl)), M.seq_ok (fuel_eq _)]
  refine (ml_loop s.pos hb _ (by rfl) _ (by simp; omega)).trans ?_
  rw [Cursor.after_after, Cursor.after_afterF]; rfl

theorem skip_line (st : LexState) {s : Cursor} {l w : Str} (hp : s.pos ≤ s.off) (h : s.rest = ('/' :: '/' :: l) ++ w)
    (hl : LineRest l w) :
    skipCommentsAndWhiteSpaces st s = skipCommentsAndWhiteSpaces st (s.afterF ('/' :: '/' :: l) w true) := by
  refine skip_of_step st hp h (by simp) ?_
  unfold skipBody
  rw [M.seq_ok (skipWhitespaces_none (by rw [h]; intro d hd; simp at hd; subst hd; decide)), M.seq_ok (cur?_eq s),
    M.seq_ok (peek?_eq s), if_pos (by simp [h]), M.seq_ok (skipSingleLineComment_eq h hl)]
  rfl

theorem skip_htmlOpen (st : LexState) {s : Cursor} {l w : Str} (hp : s.pos ≤ s.off) (h : s.rest = ('<' :: '!' :: l) ++ w)
    (hh : st.html = true) (hl : LineRest l w) :
    skipCommentsAndWhiteSpaces st s = skipCommentsAndWhiteSpaces st (s.afterF ('<' :: '!' :: l) w true) := by
  refine skip_of_step st hp h (by simp) ?_
  unfold skipBody
  rw [M.seq_ok (skipWhitespaces_none (by rw [h]; intro d hd; simp at hd; subst hd; decide)), M.seq_ok (cur?_eq s),
    M.seq_ok (peek?_eq s), if_neg (by simp [h]), if_pos (by simp [h]), if_neg (by simp [hh])]
  show (skipSingleLineComment >>= _) s = _
  rw [M.seq_ok (skipSingleLineComment_eq h hl)]
  rfl

theorem skip_block (st : LexState) {s : Cursor} {body w : Str} (hp : s.pos ≤ s.off)
    (h : s.rest = ('/' :: '*' :: body ++ ['*', '/']) ++ w) (hb : ∀ u v, body ≠ u ++ '*' :: '/' :: v) :
    skipCommentsAndWhiteSpaces st s =
      skipCommentsAndWhiteSpaces st (s.afterF ('/' :: '*' :: body ++ ['*', '/']) w (s.fol || body.any isLT)) := by
  refine skip_of_step st hp h (by simp) ?_
  unfold skipBody
  rw [M.seq_ok (skipWhitespaces_none (by rw [h]; intro d hd; simp at hd; subst hd; decide)), M.seq_ok (cur?_eq s),
    M.seq_ok (peek?_eq s), if_neg (by simp [h]), if_neg (by simp [h]), if_pos (by simp [h]),
    M.seq_ok (skipMultiLineComment_eq (by simpa using h) hb)]
  rfl

theorem skip_none (st : LexState) {s : Cursor} (h1 : NotHead (fun c => isWS c || isLT c) s.rest)
    (h2 : ∀ r, s.rest ≠ '/' :: '/' :: r) (h3 : ∀ r, s.rest ≠ '/' :: '*' :: r) (h4 : ∀ r, s.rest ≠ '<' :: '!' :: r) :
    skipCommentsAndWhiteSpaces st s = .ok () s := by
  have key : ∀ a b, ¬ (s.rest.head? = some a ∧ s.rest.tail.head? = some b) ∨ ∃ r, s.rest = a :: b :: r := by
    intro a b
    cases s.rest with
    | nil => simp
    | cons x r =>
      cases r with
      | nil => simp
      | cons y r =>
        by_cases h : x = a ∧ y = b
        · exact .inr ⟨r, by rw [h.1, h.2]⟩
        · exact .inl (by simpa using h)
  rw [skip_eq]
  unfold skipN
  rw [M.seq_ok (loop_done (a := ()) (s' := s) ?_), skipWhitespaces_none h1]
  unfold skipBody
  rw [M.seq_ok (skipWhitespaces_none h1), M.seq_ok (cur?_eq s), M.seq_ok (peek?_eq s),
    if_neg ((key _ _).resolve_right fun ⟨r, h⟩ => h2 r h), if_neg ((key _ _).resolve_right fun ⟨r, h⟩ => h4 r h),
    if_neg ((key _ _).resolve_right fun ⟨r, h⟩ => h3 r h)]
  rfl

/-! ## `read` -/

theorem readGo_congr (st : LexState) (ht : st.template = false) {s s' : Cursor}
    (h : skipCommentsAndWhiteSpaces st s = skipCommentsAndWhiteSpaces st s') (n : Nat) : readGo st n s = readGo st n s' := by
  cases n with
  | zero => rfl
  | succ n =>
    unfold readGo
    rw [ht]
    simp only [Bool.false_eq_true, if_false, M.bind_def, M.bind, h]

/-- `readGo` with its recursive call abstracted. -/
def readStep (st : LexState) (k : L Token) : L Token := do
    if st.template then readTemplateLiteralMiddleOrTail
    else do
      skipCommentsAndWhiteSpaces st
      if (← cur?).isNone then M.throw LexErr.endOfStream
      let start ← position
      let value ← readValue st start
      let stop ← position
      let fol ← M.gets Cursor.fol
      if fol = true ∧ value = .punct p!"--" ∧ (← cur?) = some '>' then
        if !st.html then
          M.throw (LexErr.syntax c!"HTML comments are not allowed in this context" start (start + 3))
        skipRestOfLine
        setFol true
        k
      else do
        setFol false
        return { value, fol, span := ⟨start, stop⟩ }

theorem readGo_step (st : LexState) (n : Nat) : readGo st (n + 1) = readStep st (readGo st n) := rfl

theorem readStep_cases (st : LexState) (s : Cursor) :
    (∃ r, ∀ k, readStep st k s = r) ∨ ∃ s', ∀ k, readStep st k s = k s' := by
  unfold readStep
  split
  · exact .inl ⟨_, fun _ => rfl⟩
  · cases h : skipCommentsAndWhiteSpaces st s with
    | ok a s1 =>
      simp only [M.seq_ok h, M.seq_ok (cur?_eq s1)]
      split
      · exact .inl ⟨_, fun _ => rfl⟩
      · simp only [M.seq_ok (position_eq s1)]
        cases h2 : readValue st s1.pos s1 with
        | ok v s2 =>
          simp only [M.seq_ok h2, M.seq_ok (position_eq s2)]
          have e : (M.gets Cursor.fol : L Bool) s2 = .ok s2.fol s2 := rfl
          simp only [M.seq_ok e, M.seq_ok (cur?_eq s2)]
          split
          · split
            · exact .inl ⟨_, fun _ => rfl⟩
            · cases h3 : skipRestOfLine s2 with
              | ok a s3 =>
                simp only [M.seq_ok h3]
                exact .inr ⟨{ s3 with fol := true }, fun _ => rfl⟩
              | _ => simp only [M.bind_def, M.bind, h3]; exact .inl ⟨_, fun _ => rfl⟩
          · exact .inl ⟨_, fun _ => rfl⟩
        | _ => simp only [M.bind_def, M.bind, h2]; exact .inl ⟨_, fun _ => rfl⟩
    | _ => simp only [M.bind_def, M.bind, h]; exact .inl ⟨_, fun _ => rfl⟩

theorem readGo_succ (st : LexState) (n : Nat) (s : Cursor) (h : readGo st n s ≠ .oof) :
    readGo st (n + 1) s = readGo st n s := by
  induction n generalizing s with
  | zero => exact absurd rfl h
  | succ n ih =>
    rw [readGo_step] at h
    rw [readGo_step, readGo_step st n]
    rcases readStep_cases st s with ⟨r, hr⟩ | ⟨s', hs⟩
    · rw [hr, hr]
    · rw [hs] at h
      rw [hs, hs]
      exact ih s' h

theorem readGo_mono (st : LexState) {n m : Nat} (s : Cursor) (hnm : n ≤ m) (h : readGo st n s ≠ .oof) :
    readGo st m s = readGo st n s := by
  induction hnm with
  | refl => rfl
  | step _ ih => rw [readGo_succ _ _ _ (by rw [ih]; exact h), ih]

theorem readGo_eq_read (st : LexState) (ht : st.template = false) {n : Nat} {s : Cursor} (hp : s.pos ≤ s.off)
    (hn : s.rest.length < n) : readGo st n s = Lexer.read st s := by
  have h : readGo st (s.rest.length + 1) s ≠ .oof := by
    intro h
    have := read_spec st ht s hp
    unfold Lexer.read at this
    rw [h] at this
    exact this
  exact readGo_mono st s hn h

theorem read_congr (st : LexState) (ht : st.template = false) {s s' : Cursor} (hp : s.pos ≤ s.off) (hp' : s'.pos ≤ s'.off)
    (h : skipCommentsAndWhiteSpaces st s = skipCommentsAndWhiteSpaces st s') : Lexer.read st s = Lexer.read st s' := by
  have h1 := readGo_eq_read st ht (n := s.rest.length + s'.rest.length + 1) hp (by omega)
  have h2 := readGo_eq_read st ht (n := s.rest.length + s'.rest.length + 1) hp' (by omega)
  rw [← h1, ← h2, readGo_congr st ht h]

theorem read_htmlClose (st : LexState) (ht : st.template = false) (hh : st.html = true) {s : Cursor} (hp : s.pos ≤ s.off)
    {l w : Str} (h : s.rest = '-' :: '-' :: '>' :: l ++ w) (hf : s.fol = true) (hl : LineRest l w) :
    Lexer.read st s = Lexer.read st (s.afterF ('-' :: '-' :: '>' :: l) w true) := by
  have hlen : w.length < s.rest.length := by rw [h]; simp; omega
  rw [← readGo_eq_read st ht (n := s.rest.length) (s := s.afterF ('-' :: '-' :: '>' :: l) w true)
    ((Eats.afterF h).pos_le hp) (by simpa using hlen)]
  unfold Lexer.read
  rw [readGo_step]
  unfold readStep
  rw [ht]
  simp only [Bool.false_eq_true, if_false]
  have hl2 : LineRest ('>' :: l) w := by
    have key : ∀ b : Str, (∀ d ∈ b, isLT d = false) → ∀ d ∈ '>' :: b, isLT d = false := by
      intro b hb d hd
      rcases List.mem_cons.1 hd with rfl | hd
      · decide
      · exact hb d hd
    cases hl with
    | @eol b c _ hb hc => exact .eol (body := '>' :: b) (key b hb) hc
    | eof hb => exact .eof (key _ hb)
  rw [M.seq_ok (skip_none st (by rw [h]; intro d hd; simp at hd; subst hd; decide) (by simp [h]) (by simp [h]) (by simp [h])),
    M.seq_ok (cur?_eq s), if_neg (by simp [h])]
  show (position >>= _) s = _
  have hv := readValue_minusminus st h
  generalize hs2 : (s.advance '-' _).advance '-' _ = s2 at hv
  have e : (M.gets Cursor.fol : L Bool) s2 = .ok true s2 := by rw [← hf, ← hs2]; rfl
  have hs2r : s2.rest = ('>' :: l) ++ w := by rw [← hs2]; rfl
  rw [M.seq_ok (position_eq s), M.seq_ok hv, M.seq_ok (position_eq _), M.seq_ok e, M.seq_ok (cur?_eq _),
    if_pos (by simp [hs2r]), if_neg (by simp [hh])]
  show (skipRestOfLine >>= _) _ = _
  rw [M.seq_ok (skipRestOfLine_eq hs2r hl2)]
  show readGo st _ { (s2.after ('>' :: l) w) with fol := true } = _
  rw [← hs2]
  simp [Cursor.after_cons, Cursor.afterF]

/-- Reading ignores leading trivia, except for the flag and the position. -/
theorem read_trivia (st : LexState) (ht : st.template = false) {tr rest : Str} {f f' : Bool}
    (h : Trivia st.html f tr rest f') (s : Cursor) (hp : s.pos ≤ s.off) (hs : s.rest = tr ++ rest) (hf : s.fol = f) :
    Lexer.read st s = Lexer.read st (s.afterF tr rest f') := by
  induction h generalizing s with
  | nil =>
    have := s.afterF_nil
    rw [hs, hf] at this
    simp only [List.nil_append] at this
    rw [this]
  | @ws _ _ c w rest hc _ ih =>
    have hs' : s.rest = [c] ++ (w ++ rest) := hs
    have hp2 := (Eats.afterF (f := s.fol) hs').pos_le hp
    rw [read_congr st ht hp hp2 (skip_of_ws st hp hs' (skipWhitespaces_ws hs' hc)),
      ih _ hp2 rfl hf, Cursor.afterF_after]
    rfl
  | @lt _ _ c w rest hc _ ih =>
    have hs' : s.rest = [c] ++ (w ++ rest) := hs
    have hp2 := (Eats.afterF (f := true) hs').pos_le hp
    rw [read_congr st ht hp hp2 (skip_of_ws st hp hs' (skipWhitespaces_lt hs' hc)),
      ih _ hp2 rfl rfl, Cursor.afterF_after]
    rfl
  | @line _ _ l w rest hl _ ih =>
    have hs' : s.rest = ('/' :: '/' :: l) ++ (w ++ rest) := by rw [hs]; simp
    have hp2 := (Eats.afterF (f := true) hs').pos_le hp
    rw [read_congr st ht hp hp2 (skip_line st hp hs' hl), ih _ hp2 rfl rfl, Cursor.afterF_after]
  | @htmlOpen _ _ l w rest hh hl _ ih =>
    have hs' : s.rest = ('<' :: '!' :: l) ++ (w ++ rest) := by rw [hs]; simp
    have hp2 := (Eats.afterF (f := true) hs').pos_le hp
    rw [read_congr st ht hp hp2 (skip_htmlOpen st hp hs' hh hl), ih _ hp2 rfl rfl, Cursor.afterF_after]
  | @htmlClose _ l w rest hh hl _ ih =>
    have hs' : s.rest = ('-' :: '-' :: '>' :: l) ++ (w ++ rest) := by rw [hs]; simp
    have hp2 := (Eats.afterF (f := true) hs').pos_le hp
    rw [read_htmlClose st ht hh hp hs' hf hl, ih _ hp2 rfl rfl, Cursor.afterF_after]
  | @block _ _ body w rest hb _ ih =>
    have hs' : s.rest = ('/' :: '*' :: body ++ ['*', '/']) ++ (w ++ rest) := by rw [hs]; simp
    have hp2 := (Eats.afterF (f := s.fol || body.any isLT) hs').pos_le hp
    rw [read_congr st ht hp hp2 (skip_block st hp hs' hb), ih _ hp2 rfl (by rw [← hf]; rfl), Cursor.afterF_after]
    congr 1
    simp

theorem read_token (st : LexState) (ht : st.template = false) {c c' : Cursor} {t : Token} (h : TokenAt st c t c') :
    Lexer.read st c = .ok t c' := by
  obtain ⟨⟨n1, n2, n3, n4, n5⟩, ⟨w, he, hw, hlex⟩, hsp, hf, hf'⟩ := h
  unfold Lexer.read
  rw [readGo_step]
  unfold readStep
  rw [ht]
  simp only [Bool.false_eq_true, if_false]
  have hr := he.rest
  rw [M.seq_ok (skip_none st n1 n2 n3 n4), M.seq_ok (cur?_eq c), if_neg (by
    rw [hr]; cases w with
    | nil => exact absurd rfl hw
    | cons => simp)]
  show (position >>= _) c = _
  have e : (M.gets Cursor.fol : L Bool) (c.after w c'.rest) = .ok c.fol _ := rfl
  rw [M.seq_ok (position_eq c), M.seq_ok (readValue_complete hr hlex), M.seq_ok (position_eq _), M.seq_ok e,
    M.seq_ok (cur?_eq _), if_neg (by
      rintro ⟨h1, h2, h3⟩
      obtain ⟨r, hr'⟩ := head?_eq_some h3
      have : w = ['-', '-'] := by
        rw [h2] at hlex
        cases hlex with
        | punct => rfl
      refine n5 ⟨hf ▸ h1, r, ?_⟩
      rw [hr, this]
      simpa using hr')]
  show Res.ok (Token.mk _ _ _) { c.after w c'.rest with fol := false } = _
  have h1 : c'.pos = (c.after w c'.rest).pos := he.pos
  have h2 : ({ c.after w c'.rest with fol := false } : Cursor) = c' := by
    rw [he.eq_after]; simp [hf', Cursor.after]
  rw [h2]
  cases t with
  | mk v f sp =>
    simp only at hsp hf
    rw [hsp, h1, hf]

/-- Exactness of `read`. -/
theorem read_ok_iff (st : LexState) (ht : st.template = false) (s : Cursor) (hp : s.pos ≤ s.off) (t : Token) (s' : Cursor) :
    Lexer.read st s = .ok t s' ↔
      ∃ tr c, Eats s tr c ∧ Trivia st.html s.fol tr c.rest c.fol ∧ TokenAt st c t s' := by
  constructor
  · intro h
    have := read_spec st ht s hp
    rwa [h] at this
  · rintro ⟨tr, c, he, htr, htok⟩
    rw [read_trivia st ht htr s hp he.rest rfl, ← he.eq_afterF]
    exact read_token st ht htok

theorem read_eos_iff (st : LexState) (ht : st.template = false) (s : Cursor) (hp : s.pos ≤ s.off) :
    (∃ s', Lexer.read st s = .err LexErr.endOfStream s') ↔ ∃ f, Trivia st.html s.fol s.rest [] f := by
  constructor
  · rintro ⟨s', h⟩
    have := read_spec st ht s hp
    rw [h] at this
    rcases this with ⟨-, ⟨-, -, h⟩ | h⟩
    · exact ⟨_, h⟩
    · exact absurd rfl h.notEos
  · rintro ⟨f, h⟩
    refine ⟨s.afterF s.rest [] f, ?_⟩
    rw [read_trivia st ht h s hp (by simp) rfl]
    unfold Lexer.read
    rw [readGo_step]
    unfold readStep
    rw [ht]
    simp only [Bool.false_eq_true, if_false]
    rw [M.seq_ok (skip_none st (by intro d hd; simp at hd) (by simp) (by simp) (by simp)), M.seq_ok (cur?_eq _), if_pos (by simp)]
    rfl

end Fajt
