import Verif.Proofs.LexLogic
import Verif.Spec.Lexical
/-!
# The lexer functions meet the lexical grammar (soundness and totality)
-/
namespace Fajt
open Spec Lexer
set_option linter.unusedSectionVars false
variable [UnicodeID]

/-! ## Characters -/

theorem idStart_idPart {c : Char} (h : isIdStart c = true) : isIdPart c = true := by
  unfold isIdStart at h; unfold isIdPart
  have := UnicodeID.start_continue c
  simp only [Bool.or_eq_true] at *
  rcases h with ((h | h) | h) | h
  · simp [h]
  · simp [h]
  · simp [h]
  · simp [this h]

theorem isIdPart_bslash : isIdPart '\\' = false := by
  unfold isIdPart
  rw [UnicodeID.ascii_continue '\\' (by decide)]
  decide

/-! ## Primitive steps -/

theorem LS_consume {s : Cursor} : LS consume s (fun c w s' => w = [c] ∧ s'.fol = s.fol) := by
  intro hp
  unfold consume
  cases h : s.rest with
  | nil => exact ⟨⟨[], Eats.refl s⟩, by simp [LexErr.unexpectedEndOfStream], Nat.le_refl _, Nat.zero_le _⟩
  | cons c cs => exact ⟨[c], Eats.advance h, rfl, rfl⟩

/-- Consuming when the next character is known. -/
theorem LS_consume_of {s : Cursor} {c : Char} {cs : Str} (h : s.rest = c :: cs) :
    LS consume s (fun d w s' => d = c ∧ w = [c] ∧ s'.rest = cs ∧ s'.fol = s.fol) := by
  intro hp
  unfold consume
  rw [h]
  exact ⟨[c], Eats.advance h, rfl, rfl, rfl, rfl⟩

theorem LS_consumeUnwrap_of {s : Cursor} {c : Char} {cs : Str} (h : s.rest = c :: cs) :
    LS consumeUnwrap s (fun d w s' => d = c ∧ w = [c] ∧ s'.rest = cs ∧ s'.fol = s.fol) := by
  intro hp
  unfold consumeUnwrap
  rw [h]
  exact ⟨[c], Eats.advance h, rfl, rfl, rfl, rfl⟩

theorem LS_current {s : Cursor} : LS current s (fun c w s' => w = [] ∧ s' = s ∧ ∃ cs, s.rest = c :: cs) := by
  intro hp
  unfold current
  cases h : s.rest with
  | nil => exact ⟨⟨[], Eats.refl s⟩, by simp [LexErr.unexpectedEndOfStream], Nat.le_refl _, Nat.zero_le _⟩
  | cons c cs => exact ⟨[], Eats.refl s, rfl, rfl, _, rfl⟩

theorem LS_setFol {s : Cursor} {b : Bool} : LS (setFol b) s (fun _ w s' => w = [] ∧ s' = { s with fol := b }) :=
  fun _ => ⟨[], Eats.refl' s b, rfl, rfl⟩

theorem LS_cur {α : Type} {s : Cursor} {g : Option Char → L α} {Q : α → Str → Cursor → Prop}
    (h : LS (g s.rest.head?) s Q) : LS (cur? >>= g) s Q := h

theorem LS_peek {α : Type} {s : Cursor} {g : Option Char → L α} {Q : α → Str → Cursor → Prop}
    (h : LS (g s.rest.tail.head?) s Q) : LS (peek? >>= g) s Q := h

theorem LS_position {α : Type} {s : Cursor} {g : Nat → L α} {Q : α → Str → Cursor → Prop}
    (h : LS (g s.pos) s Q) : LS (position >>= g) s Q := h

theorem LS_fuel {α : Type} {s : Cursor} {g : Nat → L α} {Q : α → Str → Cursor → Prop}
    (h : LS (g (s.rest.length + 1)) s Q) : LS (fuel >>= g) s Q := h

theorem readWhileGo_spec (check : Char → Bool) (s : Cursor) :
    (readWhileGo check s.rest s).1 = s.rest.takeWhile check ∧
    Eats s (s.rest.takeWhile check) (readWhileGo check s.rest s).2 ∧
    (readWhileGo check s.rest s).2.fol = s.fol ∧ (readWhileGo check s.rest s).2.rest = s.rest.dropWhile check := by
  generalize hr : s.rest = r
  induction r generalizing s with
  | nil => exact ⟨rfl, by simpa [readWhileGo] using Eats.refl s, rfl, by simp [readWhileGo, hr]⟩
  | cons c cs ih =>
    unfold readWhileGo
    by_cases hc : check c = true
    · simp only [hc, if_true, List.takeWhile_cons, List.dropWhile_cons]
      obtain ⟨h1, h2, h3, h4⟩ := ih (s.advance c cs) rfl
      exact ⟨by rw [h1], (Eats.advance hr).trans h2, by rw [h3]; rfl, h4⟩
    · simp only [hc, List.takeWhile_cons, List.dropWhile_cons]
      exact ⟨rfl, by simpa using Eats.refl s, rfl, hr⟩

theorem takeWhile_all {p : Char → Bool} (l : Str) : ∀ c ∈ l.takeWhile p, p c = true := by
  induction l with
  | nil => simp
  | cons a l ih =>
    intro c hc
    by_cases h : p a = true
    · simp [h] at hc
      rcases hc with rfl | hc
      · exact h
      · exact ih c hc
    · simp [h] at hc

theorem dropWhile_notHead {p : Char → Bool} (l : Str) : NotHead p (l.dropWhile p) := by
  induction l with
  | nil => intro c hc; simp at hc
  | cons a l ih =>
    by_cases h : p a = true
    · simpa [h] using ih
    · intro c hc
      simp [h] at hc
      subst hc; simpa using h

theorem LS_readWhile {s : Cursor} {check : Char → Bool} :
    LS (readWhile check) s (fun r w s' => r = w ∧ (∀ c ∈ w, check c = true) ∧ NotHead check s'.rest ∧ s'.fol = s.fol) := by
  intro _
  obtain ⟨h1, h2, h3, h4⟩ := readWhileGo_spec check s
  unfold readWhile
  simp only
  exact ⟨_, h2, h1, takeWhile_all _, by rw [h4]; exact dropWhile_notHead _, h3⟩

/-! ## Trivia -/

theorem Trivia.trans {html f f1 f2 : Bool} {v w rest : Str} (h1 : Trivia html f v (w ++ rest) f1)
    (h2 : Trivia html f1 w rest f2) : Trivia html f (v ++ w) rest f2 := by
  generalize hr : w ++ rest = r at h1
  induction h1 with
  | nil => exact h2
  | ws hc _ ih => exact .ws hc (ih h2 hr)
  | lt hc _ ih => exact .lt hc (ih h2 hr)
  | line hl _ ih =>
    subst hr
    rw [List.append_assoc]
    exact .line (by rw [List.append_assoc]; exact hl) (ih h2 rfl)
  | htmlOpen hh hl _ ih =>
    subst hr
    rw [List.append_assoc]
    exact .htmlOpen hh (by rw [List.append_assoc]; exact hl) (ih h2 rfl)
  | htmlClose hh hl _ ih =>
    subst hr
    rw [List.append_assoc]
    exact .htmlClose hh (by rw [List.append_assoc]; exact hl) (ih h2 rfl)
  | @block f f' body w' rest' hb _ ih =>
    have := Trivia.block (html := html) (fol := f) hb (ih h2 hr)
    simpa using this

theorem skipWhitespacesGo_spec (html : Bool) (s : Cursor) : ∃ w,
    Eats s w (skipWhitespacesGo s.rest s) ∧ (∀ rest, Trivia html s.fol w rest (skipWhitespacesGo s.rest s).fol) ∧
    NotHead (fun c => isWS c || isLT c) (skipWhitespacesGo s.rest s).rest := by
  generalize hr : s.rest = r
  induction r generalizing s with
  | nil => exact ⟨[], Eats.refl s, fun _ => .nil, by simp [skipWhitespacesGo, hr, NotHead]⟩
  | cons c cs ih =>
    unfold skipWhitespacesGo
    by_cases hc : isLT c = true
    · simp only [hc, if_true]
      obtain ⟨w, h1, h2, h3⟩ := ih ({ s with fol := true }.advance c cs) rfl
      exact ⟨c :: w, (⟨(Eats.advance hr).rest, (Eats.advance hr).off, (Eats.advance hr).pos⟩ :
        Eats s [c] ({ s with fol := true }.advance c cs)).trans h1, fun rest => .lt hc (h2 rest), h3⟩
    · by_cases hw : isWS c = true
      · simp only [hc, hw, if_true]
        obtain ⟨w, h1, h2, h3⟩ := ih (s.advance c cs) rfl
        exact ⟨c :: w, (Eats.advance hr).trans h1, fun rest => .ws hw (h2 rest), h3⟩
      · simp only [hc, hw]
        refine ⟨[], Eats.refl s, fun _ => .nil, ?_⟩
        intro d hd
        simp [hr] at hd
        subst hd
        simp [hc, hw]

theorem LS_skipWhitespaces (html : Bool) {s : Cursor} : LS skipWhitespaces s (fun _ w s' =>
    (∀ rest, Trivia html s.fol w rest s'.fol) ∧ NotHead (fun c => isWS c || isLT c) s'.rest) := by
  intro _
  obtain ⟨w, h1, h2, h3⟩ := skipWhitespacesGo_spec html s
  exact ⟨w, h1, h2, h3⟩

theorem LS_skipRestOfLine {s : Cursor} : LS skipRestOfLine s (fun _ w s' => LineRest w s'.rest) := by
  unfold skipRestOfLine
  refine LS.bind LS_readWhile ?_
  rintro _ w s1 - ⟨rfl, hall, hnot, -⟩
  refine LS_cur ?_
  cases hr : s1.rest with
  | nil =>
    refine LS.pure ?_
    simp only [List.append_nil, hr]
    exact .eof (fun d hd => by simpa using hall d hd)
  | cons c cs =>
    simp only [List.head?_cons, Option.isSome_some, if_true]
    refine LS.bind (LS_consumeUnwrap_of hr) ?_
    rintro d v s2 - ⟨rfl, rfl, hr2, -⟩
    refine LS.pure ?_
    rw [List.append_nil]
    refine .eol (fun d hd => by simpa using hall d hd) ?_
    have := hnot d (by simp [hr])
    simpa using this

theorem LS_skipSingleLineComment {s : Cursor} {a b : Char} {r : Str} (h : s.rest = a :: b :: r) :
    LS skipSingleLineComment s (fun _ w s' => ∃ l, w = a :: b :: l ∧ LineRest l s'.rest) := by
  unfold skipSingleLineComment
  refine LS.bind (LS_consumeUnwrap_of h) ?_
  rintro _ _ s1 - ⟨rfl, rfl, h1, -⟩
  refine LS.bind (LS_consumeUnwrap_of h1) ?_
  rintro _ _ s2 - ⟨rfl, rfl, h2, -⟩
  refine LS_skipRestOfLine.mono ?_
  intro _ w s3 _ hl
  exact ⟨w, rfl, hl⟩

theorem LS_skipMultiLineComment {s : Cursor} {r : Str} (h : s.rest = '/' :: '*' :: r) :
    LS skipMultiLineComment s (fun _ w s' => ∃ body, w = '/' :: '*' :: body ++ ['*', '/'] ∧
      (∀ u v, body ≠ u ++ '*' :: '/' :: v) ∧ s'.fol = (s.fol || body.any isLT)) := by
  refine LS.withPos fun hp => ?_
  unfold skipMultiLineComment
  refine LS_position ?_
  refine LS.bind (LS_consume_of h) ?_
  rintro _ _ s1 he1 ⟨rfl, rfl, h1, hf1⟩
  refine LS.bind (LS_consume_of h1) ?_
  rintro _ _ s2 he2 ⟨rfl, rfl, h2, hf2⟩
  refine LS_fuel ?_
  refine LS.loop (fun _ w s' => (∀ u v, w ++ s'.rest.take 1 ≠ u ++ '*' :: '/' :: v) ∧
    s'.fol = (s.fol || w.any isLT)) ?_ (Nat.lt_succ_self _) ?_
  · rintro _ w s3 hw ⟨hno, hf⟩
    refine LS_cur ?_
    refine LS_peek ?_
    refine LS.ite ?_ ?_
    · rintro ⟨ha, hb⟩
      cases hr : s3.rest with
      | nil => rw [hr] at ha; cases ha
      | cons a t =>
        rw [hr] at ha hb
        simp only [List.head?_cons, Option.some.injEq] at ha
        subst ha
        cases ht : t with
        | nil => rw [ht] at hb; cases hb
        | cons b t' =>
          rw [ht] at hb
          simp only [List.tail_cons, List.head?_cons, Option.some.injEq] at hb
          subst hb
          subst ht
          refine LS.bind (LS_consume_of hr) ?_
          rintro _ _ s4 - ⟨rfl, rfl, h4, hf4⟩
          refine LS.bind (LS_consume_of h4) ?_
          rintro _ _ s5 - ⟨rfl, rfl, h5, hf5⟩
          refine LS.pure ?_
          refine ⟨w, by simp, ?_, by rw [hf5, hf4, hf]⟩
          intro u v heq
          refine hno u (v ++ ['*']) ?_
          rw [hr]; simp [heq]
    · intro hcond
      refine LS_cur ?_
      refine LS.ite ?_ ?_
      · intro _
        refine LS.throw fun _ => ⟨by simp [LexErr.syntax], by simp [LexErr.syntax], ?_⟩
        have e := hw.total
        have e1 := he1.total
        have e2 := he2.total
        have l1 := he1.length
        have := length_le_byteLen s.rest
        simp [LexErr.syntax]
        rw [h] at this
        simp at this
        have h4 := hw.total.trans (he2.total.trans he1.total)
        rw [h4, h]; simp only [byteLen_cons]
        have := utf8Size_pos '/'; have := utf8Size_pos '*'
        omega
      · intro hsome
        cases hr : s3.rest with
        | nil => rw [hr] at hsome; exact absurd rfl hsome
        | cons a t =>
          refine LS.bind (LS_consume_of hr) ?_
          rintro c _ s4 - ⟨rfl, rfl, h4, hf4⟩
          have key : ∀ u v, w ++ [c] ++ s4.rest.take 1 ≠ u ++ '*' :: '/' :: v := by
            intro u v heq
            have hwc : ∀ u v, w ++ [c] ≠ u ++ '*' :: '/' :: v := by
              intro u v h; exact hno u v (by rw [hr]; simpa using h)
            rw [h4] at heq
            cases t with
            | nil => exact hwc u v (by simpa using heq)
            | cons b t' =>
              simp only [List.take_succ_cons, List.take_zero] at heq
              rcases List.eq_nil_or_concat v with hv | ⟨v', x, hv⟩
              · subst hv
                have h1 : w ++ [c] ++ [b] = (u ++ ['*']) ++ ['/'] := by simpa using heq
                have h2 := List.append_inj' h1 rfl
                have h3 := List.append_inj' h2.1 rfl
                simp only [List.cons.injEq, and_true] at h3 h2
                apply hcond
                rw [hr]; simp [h3.2, h2.2]
              · subst hv
                have h1 : w ++ [c] ++ [b] = (u ++ '*' :: '/' :: v') ++ [x] := by simpa using heq
                have h2 := List.append_inj' h1 rfl
                exact hwc u v' h2.1
          refine LS.ite ?_ ?_
          · intro hlt
            refine LS.bind LS_setFol ?_
            rintro _ _ s5 - ⟨rfl, rfl⟩
            refine LS.pure ⟨by simp, ?_, by simp [hlt]⟩
            simpa using key
          · intro hlt
            refine LS.pure ⟨by simp, ?_, by simp [hf4, hf, hlt]⟩
            simpa using key
  · refine ⟨?_, by rw [hf2, hf1]; simp⟩
    intro u v heq
    have hl := congrArg List.length heq
    simp only [List.nil_append, List.length_append, List.length_cons, List.length_take] at hl
    omega

theorem LS_skipComments (st : LexState) {s : Cursor} : LS (skipCommentsAndWhiteSpaces st) s (fun _ w s' =>
    Trivia st.html s.fol w s'.rest s'.fol ∧ NotHead (fun c => isWS c || isLT c) s'.rest ∧
    (∀ r, s'.rest ≠ '/' :: '/' :: r) ∧ (∀ r, s'.rest ≠ '/' :: '*' :: r) ∧ (∀ r, s'.rest ≠ '<' :: '!' :: r)) := by
  unfold skipCommentsAndWhiteSpaces
  refine LS_fuel ?_
  refine LS.bind (R := fun _ w s' => Trivia st.html s.fol w s'.rest s'.fol ∧ NotHead (fun c => isWS c || isLT c) s'.rest ∧
    (∀ r, s'.rest ≠ '/' :: '/' :: r) ∧ (∀ r, s'.rest ≠ '/' :: '*' :: r) ∧ (∀ r, s'.rest ≠ '<' :: '!' :: r)) ?_ ?_
  · refine LS.loop (fun _ w s' => Trivia st.html s.fol w s'.rest s'.fol) ?_ (Nat.lt_succ_self _) .nil
    rintro _ w s1 hw htr
    refine LS.bind (LS_skipWhitespaces st.html) ?_
    rintro _ v s2 hv ⟨htv, hns⟩
    have htr2 : Trivia st.html s.fol (w ++ v) s2.rest s2.fol :=
      Trivia.trans (by rw [← hv.rest]; exact htr) (htv _)
    refine LS_cur ?_
    refine LS_peek ?_
    refine LS.ite ?_ fun hc1 => LS.ite ?_ fun hc2 => LS.ite ?_ fun hc3 => ?_
    · rintro ⟨ha, hb⟩
      obtain ⟨r, hr⟩ : ∃ r, s2.rest = '/' :: '/' :: r := by
        revert ha hb; cases s2.rest with
        | nil => simp
        | cons a t => cases t with
          | nil => simp
          | cons b t => simp; rintro rfl rfl; exact ⟨rfl, rfl⟩
      refine LS.bind (LS_skipSingleLineComment hr) ?_
      rintro _ _ s3 h3 ⟨l, rfl, hl⟩
      refine LS.bind LS_setFol ?_
      rintro _ _ s4 - ⟨rfl, rfl⟩
      refine LS.pure ⟨by simp, ?_⟩
      have : Trivia st.html s2.fol ('/' :: '/' :: l ++ []) s3.rest true := .line (by simpa using hl) .nil
      rw [List.append_nil] at this
      have := Trivia.trans (by rw [← h3.rest]; exact htr2) this
      simpa using this
    · rintro ⟨ha, hb⟩
      obtain ⟨r, hr⟩ : ∃ r, s2.rest = '<' :: '!' :: r := by
        revert ha hb; cases s2.rest with
        | nil => simp
        | cons a t => cases t with
          | nil => simp
          | cons b t => simp; rintro rfl rfl; exact ⟨rfl, rfl⟩
      refine LS.ite ?_ ?_
      · intro _
        refine LS_position ?_
        refine LS.throw fun hp => ⟨by simp [LexErr.syntax], by simp [LexErr.syntax], ?_⟩
        rw [hr]; simp only [byteLen_cons, LexErr.syntax]
        have := utf8Size_pos '<'; have := utf8Size_pos '!'
        omega
      · intro hh
        have hh : st.html = true := by simpa using hh
        refine LS.bind (LS_skipSingleLineComment hr) ?_
        rintro _ _ s3 h3 ⟨l, rfl, hl⟩
        refine LS.bind LS_setFol ?_
        rintro _ _ s4 - ⟨rfl, rfl⟩
        refine LS.pure ⟨by simp, ?_⟩
        have : Trivia st.html s2.fol ('<' :: '!' :: l ++ []) s3.rest true := .htmlOpen hh (by simpa using hl) .nil
        rw [List.append_nil] at this
        have := Trivia.trans (by rw [← h3.rest]; exact htr2) this
        simpa using this
    · rintro ⟨ha, hb⟩
      obtain ⟨r, hr⟩ : ∃ r, s2.rest = '/' :: '*' :: r := by
        revert ha hb; cases s2.rest with
        | nil => simp
        | cons a t => cases t with
          | nil => simp
          | cons b t => simp; rintro rfl rfl; exact ⟨rfl, rfl⟩
      refine LS.bind (LS_skipMultiLineComment hr) ?_
      rintro _ _ s3 h3 ⟨body, rfl, hb, hf⟩
      refine LS.pure ⟨by simp, ?_⟩
      have : Trivia st.html s2.fol ('/' :: '*' :: body ++ '*' :: '/' :: []) s3.rest (s2.fol || body.any isLT) :=
        .block hb .nil
      rw [← hf] at this
      have := Trivia.trans (by rw [← h3.rest]; exact htr2) this
      simpa using this
    · refine LS.pure ?_
      simp only [List.append_nil]
      refine ⟨htr2, hns, ?_, ?_, ?_⟩
      · intro r hr; exact hc1 (by simp [hr])
      · intro r hr; exact hc3 (by simp [hr])
      · intro r hr; exact hc2 (by simp [hr])
  · rintro _ w s1 hw ⟨h1, h2, h3, h4, h5⟩
    intro _
    have hnop : skipWhitespacesGo s1.rest s1 = s1 := by
      cases hr : s1.rest with
      | nil => rfl
      | cons c cs =>
        have := h2 c (by simp [hr])
        simp only [Bool.or_eq_false_iff] at this
        simp [skipWhitespacesGo, this.1, this.2]
    unfold skipWhitespaces
    rw [hnop]
    exact ⟨[], Eats.refl s1, by simpa using h1, h2, h3, h4, h5⟩

end Fajt
