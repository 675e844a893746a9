import Verif.Proofs.LexRead
/-!
# Completeness: every text of the lexical grammar is read
-/
namespace Fajt
open Spec Lexer
set_option linter.unusedSectionVars false
variable [UnicodeID]

/-- The cursor after moving over `w`, with `rest` left. -/
def Cursor.after (s : Cursor) (w rest : Str) : Cursor := ⟨rest, s.off + byteLen w, posAfter s.off s.pos w, s.fol⟩

theorem Cursor.after_nil (s : Cursor) (h : s.rest = r) : s.after [] r = s := by
  subst h; rfl

theorem Cursor.after_cons (s : Cursor) (c : Char) (w cs rest : Str) :
    (s.advance c cs).after w rest = s.after (c :: w) rest := by
  simp [Cursor.after, Cursor.advance, posAfter, Nat.add_assoc]

theorem Cursor.after_after (s : Cursor) (v w r rest : Str) :
    (s.after v r).after w rest = s.after (v ++ w) rest := by
  simp [Cursor.after, posAfter_append, Nat.add_assoc]

theorem Cursor.after_one (s : Cursor) (c : Char) (rest : Str) : s.after [c] rest = s.advance c rest := by
  simp [Cursor.after, Cursor.advance, posAfter]

theorem Eats.eq_after {s s' : Cursor} {w : Str} (h : Eats s w s') : s' = { s.after w s'.rest with fol := s'.fol } := by
  cases s'
  simp only [Cursor.after, Cursor.mk.injEq, true_and, and_true]
  exact ⟨h.off, h.pos⟩

theorem Eats.after {s : Cursor} {w rest : Str} (h : s.rest = w ++ rest) : Eats s w (s.after w rest) := ⟨h, rfl, rfl⟩

@[simp] theorem Cursor.after_rest (s : Cursor) (w rest : Str) : (s.after w rest).rest = rest := rfl
@[simp] theorem Cursor.after_fol (s : Cursor) (w rest : Str) : (s.after w rest).fol = s.fol := rfl

theorem consume_eq {s : Cursor} {c : Char} {cs : Str} (h : s.rest = c :: cs) : consume s = .ok c (s.after [c] cs) := by
  rw [Cursor.after_one]; unfold consume; rw [h]

theorem current_eq {s : Cursor} {c : Char} {cs : Str} (h : s.rest = c :: cs) : current s = .ok c s := by
  unfold current; rw [h]

theorem cur?_eq (s : Cursor) : cur? s = .ok s.rest.head? s := rfl
theorem peek?_eq (s : Cursor) : peek? s = .ok s.rest.tail.head? s := rfl
theorem position_eq (s : Cursor) : position s = .ok s.pos s := rfl
theorem fuel_eq (s : Cursor) : fuel s = .ok (s.rest.length + 1) s := rfl

theorem takeWhile_append_of {p : Char → Bool} {w rest : Str} (h : ∀ c ∈ w, p c = true) (hr : NotHead p rest) :
    (w ++ rest).takeWhile p = w ∧ (w ++ rest).dropWhile p = rest := by
  induction w with
  | nil =>
    cases rest with
    | nil => simp
    | cons a r => simp [hr a (by simp)]
  | cons a w ih =>
    have ha := h a (by simp)
    have := ih (fun c hc => h c (by simp [hc]))
    simp [ha, this]

theorem readWhile_eq {s : Cursor} {p : Char → Bool} {w rest : Str} (h : s.rest = w ++ rest) (hw : ∀ c ∈ w, p c = true)
    (hr : NotHead p rest) : readWhile p s = .ok w (s.after w rest) := by
  obtain ⟨h1, h2, h3, h4⟩ := readWhileGo_spec p s
  rw [h] at h1 h2 h3 h4
  obtain ⟨t1, t2⟩ := takeWhile_append_of hw hr
  rw [t1] at h1 h2
  rw [t2] at h4
  unfold readWhile
  simp only
  have := h2.eq_after
  rw [h4, h3] at this
  rw [h, h1, this]; rfl

/-! ## Numbers -/

theorem readNumberString_eq {s : Cursor} {start : Nat} {p : Char → Bool} {w rest : Str} (h : s.rest = w ++ rest)
    (hw : DigitRun p w) (hr : NotHead (fun c => p c || c == '_') rest) :
    readNumberString start p s = .ok w (s.after w rest) := by
  unfold readNumberString
  rw [M.seq_ok (readWhile_eq h (fun c hc => by simpa using hw.digits c hc) hr)]
  rw [if_neg (fun h => by obtain ⟨u, v, h⟩ := (hasDoubleUnderscore_iff _).1 h; exact hw.single u v h),
    if_neg hw.last]
  rfl

theorem expectReadNumberString_eq {s : Cursor} {start : Nat} {p : Char → Bool} {w rest : Str} (h : s.rest = w ++ rest)
    (hw : DigitRun p w) (hne : w ≠ []) (hr : NotHead (fun c => p c || c == '_') rest) :
    expectReadNumberString start p s = .ok w (s.after w rest) := by
  unfold expectReadNumberString
  rw [M.seq_ok (readNumberString_eq h hw hr)]
  rw [if_neg (by simpa using hne)]
  rfl

theorem readPrefixedString_eq {s : Cursor} {p : Char → Bool} {a b : Char} {w rest : Str} (h : s.rest = a :: b :: w ++ rest)
    (hw : DigitRun p w) (hne : w ≠ []) (hr : NotHead (fun c => p c || c == '_') rest) :
    readPrefixedString p s = .ok (a :: b :: w) (s.after (a :: b :: w) rest) := by
  unfold readPrefixedString
  rw [M.seq_ok (position_eq s), M.seq_ok (consume_eq h), M.seq_ok (consume_eq (c := b) (cs := w ++ rest) (by rfl)),
    M.seq_ok (expectReadNumberString_eq (by simp) hw hne hr)]
  simp [Cursor.after_after]

theorem readFraction_eq {s : Cursor} {start : Nat} {f rest : Str} (h : s.rest = f ++ rest)
    (hf : f = [] ∧ NotHead (· == '.') rest ∨
        ∃ ds, f = '.' :: ds ∧ DigitRun Char.isDigit ds ∧ NotHead (fun c => c.isDigit || c == '_') rest) :
    readFraction start s = .ok f (s.after f rest) := by
  unfold readFraction
  rw [M.seq_ok (cur?_eq s)]
  rcases hf with ⟨rfl, hn⟩ | ⟨ds, rfl, hd, hn⟩
  · rw [if_neg, Cursor.after_nil s (by simpa using h)]
    · rfl
    · intro h'
      rw [h] at h'
      have := hn '.' (by simpa using h')
      simp at this
  · rw [if_pos (by simp [h])]
    rw [M.seq_ok (consume_eq (by rw [h]; rfl)), M.seq_ok (readNumberString_eq (by rfl) hd hn)]
    simp [Cursor.after_after]

theorem readSign_eq {s : Cursor} {sg rest : Str} (h : s.rest = sg ++ rest) (hs : sg = [] ∨ sg = ['-'] ∨ sg = ['+'])
    (hn : NotHead (fun c => c == '-' || c == '+') rest) : readSign s = .ok sg (s.after sg rest) := by
  unfold readSign
  rw [M.seq_ok (cur?_eq s)]
  rcases hs with rfl | rfl | rfl
  · rw [if_neg, Cursor.after_nil s (by simpa using h)]
    · rfl
    · rw [h]
      rintro (h' | h')
      · have := hn '-' (by simpa using h'); simp at this
      · have := hn '+' (by simpa using h'); simp at this
  · rw [if_pos (by simp [h]), M.seq_ok (consume_eq (by rw [h]; rfl))]
    rfl
  · rw [if_pos (by simp [h]), M.seq_ok (consume_eq (by rw [h]; rfl))]
    rfl

theorem readExponent_eq {s : Cursor} {start : Nat} {e rest : Str} (h : s.rest = e ++ rest)
    (he : e = [] ∧ NotHead (fun c => c == 'e' || c == 'E') rest ∨
        ∃ x sign ds, e = x :: (sign ++ ds) ∧ (x = 'e' ∨ x = 'E') ∧ (sign = [] ∨ sign = ['-'] ∨ sign = ['+']) ∧
          DigitRun Char.isDigit ds ∧ ds ≠ [] ∧ NotHead (fun c => c.isDigit || c == '_') rest) :
    readExponent start s = .ok e (s.after e rest) := by
  unfold readExponent
  rw [M.seq_ok (cur?_eq s)]
  rcases he with ⟨rfl, hn⟩ | ⟨x, sg, ds, rfl, hx, hsg, hd, hne, hn⟩
  · rw [if_neg, Cursor.after_nil s (by simpa using h)]
    · rfl
    · rw [h]
      rintro (h' | h')
      · have := hn 'e' (by simpa using h'); simp at this
      · have := hn 'E' (by simpa using h'); simp at this
  · rw [if_pos (by rcases hx with rfl | rfl <;> simp [h])]
    rw [M.seq_ok (consume_eq (by rw [h]; rfl))]
    have hsn : NotHead (fun c => c == '-' || c == '+') (ds ++ rest) := by
      cases ds with
      | nil => exact absurd rfl hne
      | cons a ds =>
        intro c hc
        simp at hc; subst hc
        rcases hd.digits a (by simp) with h | rfl
        · cases hx : (a == '-' || a == '+') with
          | false => exact hx
          | true =>
            simp at hx
            rcases hx with rfl | rfl <;> revert h <;> decide
        · rfl
    rw [M.seq_ok (readSign_eq (sg := sg) (rest := ds ++ rest) (by simp) hsg hsn),
      M.seq_ok (expectReadNumberString_eq (by rfl) hd hne hn)]
    simp [Cursor.after_after]

theorem readNumberText_eq {s : Cursor} {w rest : Str} (h : s.rest = w ++ rest) (hw : NumberText w rest) :
    readNumberText s = .ok w (s.after w rest) := by
  unfold readNumberText
  cases hw with
  | @hex x ds _ hx hd hne hn =>
    rw [M.seq_ok (current_eq (by rw [h]; rfl)), M.seq_ok (peek?_eq s), h]
    rw [if_pos (by rcases hx with rfl | rfl <;> simp)]
    exact readPrefixedString_eq h hd hne hn
  | @oct x ds _ hx hd hne hn =>
    rw [M.seq_ok (current_eq (by rw [h]; rfl)), M.seq_ok (peek?_eq s), h]
    rw [if_neg (by rcases hx with rfl | rfl <;> simp), if_pos (by rcases hx with rfl | rfl <;> simp)]
    exact readPrefixedString_eq h hd hne hn
  | @bin x ds _ hx hd hne hn =>
    rw [M.seq_ok (current_eq (by rw [h]; rfl)), M.seq_ok (peek?_eq s), h]
    rw [if_neg (by rcases hx with rfl | rfl <;> simp), if_neg (by rcases hx with rfl | rfl <;> simp),
      if_pos (by rcases hx with rfl | rfl <;> simp)]
    exact readPrefixedString_eq h hd hne hn
  | @dec i f e _ hi hin hf he hst h0 =>
    obtain ⟨c, r, hc⟩ : ∃ c r, i ++ (f ++ e) = c :: r := by
      rcases hst with ⟨c, r, h, -⟩ | ⟨c, r, h, -⟩
      · exact ⟨_, _, h⟩
      · exact ⟨_, _, h⟩
    have hsr : s.rest = c :: (r ++ rest) := by rw [h, hc]; rfl
    rw [M.seq_ok (current_eq hsr), M.seq_ok (peek?_eq s)]
    have hno : ∀ d, c = '0' → s.rest.tail.head? = some d → d.isDigit = false ∧ d ∉ ['x', 'X', 'o', 'O', 'b', 'B'] := by
      rintro d rfl hd
      rw [hsr] at hd
      obtain ⟨r', hr'⟩ := head?_eq_some hd
      refine h0 d r' ?_
      rw [← hr']
      have : i ++ (f ++ (e ++ rest)) = i ++ (f ++ e) ++ rest := by simp
      rw [this, hc]; rfl
    rw [if_neg, if_neg, if_neg, if_neg]
    · unfold readDecimalString
      rw [M.seq_ok (position_eq s), M.seq_ok (readNumberString_eq (rest := f ++ (e ++ rest)) (by rw [h]; simp) hi hin),
        M.seq_ok (readFraction_eq (rest := e ++ rest) (by simp) hf), M.seq_ok (readExponent_eq (by rfl) he)]
      simp [Cursor.after_after]
    · rintro ⟨h1, h2⟩
      cases hd : s.rest.tail.head? with
      | none => rw [hd] at h2; cases h2
      | some d => rw [hd] at h2; have := (hno d h1 hd).1; simp at h2; rw [this] at h2; cases h2
    all_goals
      rintro ⟨h1, h2 | h2⟩ <;> exact absurd (hno _ h1 h2).2 (by simp)

theorem readNumberLiteral_eq {s : Cursor} {w rest : Str} (h : s.rest = w ++ rest) (hw : NumberText w rest)
    (hr : NotHead isIdStart rest) : readNumberLiteral s = .ok (.lit (.number w)) (s.after w rest) := by
  unfold readNumberLiteral
  rw [M.seq_ok (readNumberText_eq h hw), M.seq_ok (cur?_eq _), if_neg]
  · rfl
  · simp only [Cursor.after_rest]
    cases rest with
    | nil => simp
    | cons a r => have := hr a (by simp); simp [this]

/-! ## Strings, regular expressions, templates -/

theorem loop_step {σ ε α β : Type} {body : β → M σ ε (β ⊕ α)} {n : Nat} {b b' : β} {s s' : σ}
    (h : body b s = .ok (.inl b') s') : loop body (n + 1) b s = loop body n b' s' := by
  rw [loop, M.seq_ok h]

theorem loop_done {σ ε α β : Type} {body : β → M σ ε (β ⊕ α)} {n : Nat} {b : β} {a : α} {s s' : σ}
    (h : body b s = .ok (.inr a) s') : loop body (n + 1) b s = .ok a s' := by
  rw [loop, M.seq_ok h]; rfl

theorem readUntil_eq {q : Char} (hq : q ≠ '\\' ∧ q ≠ '\n') {w v rest : Str} (hw : StringBody q w v) (s : Cursor)
    (h : s.rest = w ++ q :: rest) :
    readUntilUnescapedDelimiter q s = .ok v (s.after (w ++ [q]) rest) := by
  unfold readUntilUnescapedDelimiter
  rw [M.seq_ok (fuel_eq s)]
  have hn : s.rest.length < s.rest.length + 1 := Nat.lt_succ_self _
  revert hn
  generalize s.rest.length + 1 = n
  suffices hh : ∀ acc, s.rest.length < n → loop _ n acc s = Res.ok (acc ++ v) (s.after (w ++ [q]) rest) from hh []
  induction hw generalizing s n with
  | nil =>
    intro acc hn
    obtain ⟨n, rfl⟩ : ∃ m, n = m + 1 := ⟨n - 1, by omega⟩
    rw [loop_done (a := acc) (s' := s.after [q] rest)]
    · simp
    · rw [M.seq_ok (consume_eq h), if_neg hq.1, if_pos rfl]; rfl
  | @plain c w v h1 h2 h3 h4 _ ih =>
    intro acc hn
    obtain ⟨n, rfl⟩ : ∃ m, n = m + 1 := ⟨n - 1, by omega⟩
    rw [loop_step (b' := acc ++ [c]) (s' := s.after [c] (w ++ q :: rest))]
    · rw [ih _ (by rfl) n (acc ++ [c]) (by rw [h] at hn; simp at hn ⊢; omega)]
      simp [Cursor.after_after]
    · rw [M.seq_ok (consume_eq h), if_neg h1, if_neg h2, if_neg (by simp [h3, h4])]; rfl
  | @escape c w v hw' ih =>
    intro acc hn
    obtain ⟨n, rfl⟩ : ∃ m, n = m + 1 := ⟨n - 1, by omega⟩
    rw [loop_step (b' := acc ++ [c]) (s' := s.after ['\\', c] (w ++ q :: rest))]
    · rw [ih _ (by rfl) n (acc ++ [c]) (by rw [h] at hn; simp at hn ⊢; omega)]
      simp [Cursor.after_after]
    · rw [M.seq_ok (consume_eq h), if_pos rfl]
      have : readEscapeSequence (s.after ['\\'] (c :: (w ++ q :: rest))) =
          .ok [c] ((s.after ['\\'] (c :: (w ++ q :: rest))).after [c] (w ++ q :: rest)) := by
        unfold readEscapeSequence
        rw [M.seq_ok (consume_eq (by rfl)), M.seq_ok (cur?_eq _), if_neg]
        · rfl
        · rintro ⟨rfl, h'⟩
          simp only [Cursor.after_rest] at h'
          cases hw' with
          | nil => simp at h'; exact hq.2 h'
          | plain _ _ _ h4 _ => simp at h'; exact h4 h'
          | escape => simp at h'
          | escapeCRLF => simp at h'
      erw [M.seq_ok this]
      simp [Cursor.after_after]
  | @escapeCRLF w v _ ih =>
    intro acc hn
    obtain ⟨n, rfl⟩ : ∃ m, n = m + 1 := ⟨n - 1, by omega⟩
    rw [loop_step (b' := acc ++ ['\r', '\n']) (s' := s.after ['\\', '\r', '\n'] (w ++ q :: rest))]
    · rw [ih _ (by rfl) n _ (by rw [h] at hn; simp at hn ⊢; omega)]
      simp [Cursor.after_after]
    · rw [M.seq_ok (consume_eq h), if_pos rfl]
      have : readEscapeSequence (s.after ['\\'] ('\r' :: '\n' :: (w ++ q :: rest))) =
          .ok ['\r', '\n'] ((s.after ['\\'] ('\r' :: '\n' :: (w ++ q :: rest))).after ['\r', '\n'] (w ++ q :: rest)) := by
        unfold readEscapeSequence
        rw [M.seq_ok (consume_eq (by rfl)), M.seq_ok (cur?_eq _), if_pos (by simp), M.seq_ok (consume_eq (by rfl))]
        simp [Cursor.after_after]
      simp only [List.append_eq, List.cons_append]
      rw [M.seq_ok this]
      simp [Cursor.after_after]

theorem readStringLiteral_eq {q : Char} (hq : q ≠ '\\' ∧ q ≠ '\n') {w v rest : Str} (hw : StringBody q w v) (s : Cursor)
    (h : s.rest = q :: w ++ [q] ++ rest) :
    readStringLiteral s = .ok (.lit (.string ⟨v, q⟩)) (s.after (q :: w ++ [q]) rest) := by
  unfold readStringLiteral
  rw [M.seq_ok (consume_eq h), M.seq_ok (readUntil_eq (rest := rest) hq hw _ (by simp))]
  simp [Cursor.after_after]

theorem readRegexpGroupBody_eq {w rest : Str} (hw : ClassText w) (s : Cursor) (h : s.rest = w ++ rest) :
    readRegexpGroupBody s = .ok w (s.after w rest) := by
  unfold readRegexpGroupBody
  rw [M.seq_ok (fuel_eq s)]
  have hn : s.rest.length < s.rest.length + 1 := Nat.lt_succ_self _
  revert hn
  generalize s.rest.length + 1 = n
  suffices hh : ∀ acc, s.rest.length < n → loop _ n acc s = Res.ok (acc ++ w) (s.after w rest) from hh []
  induction hw generalizing s n with
  | close =>
    intro acc hn
    obtain ⟨n, rfl⟩ : ∃ m, n = m + 1 := ⟨n - 1, by omega⟩
    refine loop_done ?_
    rw [M.seq_ok (consume_eq h)]; rfl
  | @plain c w h1 h2 _ ih =>
    intro acc hn
    obtain ⟨n, rfl⟩ : ∃ m, n = m + 1 := ⟨n - 1, by omega⟩
    rw [loop_step (b' := acc ++ [c]) (s' := s.after [c] (w ++ rest))]
    · rw [ih _ (by rfl) n (acc ++ [c]) (by rw [h] at hn; simp at hn ⊢; omega)]
      simp [Cursor.after_after]
    · rw [M.seq_ok (consume_eq h), if_neg h1, if_neg h2]; rfl
  | @escape c w _ ih =>
    intro acc hn
    obtain ⟨n, rfl⟩ : ∃ m, n = m + 1 := ⟨n - 1, by omega⟩
    rw [loop_step (b' := acc ++ ['\\', c]) (s' := s.after ['\\', c] (w ++ rest))]
    · rw [ih _ (by rfl) n _ (by rw [h] at hn; simp at hn ⊢; omega)]
      simp [Cursor.after_after]
    · rw [M.seq_ok (consume_eq h), if_neg (by decide), if_pos rfl, M.seq_ok (consume_eq (by rfl))]
      simp [Cursor.after_after]

theorem readRegexpLiteral_eq {w flags rest : Str} (hw : RegexpText w) (hfl : ∀ c ∈ flags, isIdPart c = true)
    (hr : NotHead isIdPart rest) (s : Cursor) (h : s.rest = '/' :: w ++ flags ++ rest) :
    readRegexpLiteral s = .ok (.lit (.regexp ('/' :: w ++ flags))) (s.after ('/' :: w ++ flags) rest) := by
  unfold readRegexpLiteral
  rw [M.seq_ok (position_eq s), M.seq_ok (consume_eq (c := '/') (cs := w ++ (flags ++ rest)) (by rw [h]; simp)), M.seq_ok (fuel_eq _)]
  have key : ∀ (s' : Cursor) (n : Nat) (acc : Str), s'.rest = w ++ (flags ++ rest) → s'.rest.length < n →
      (loop (fun acc : Str => (do
        let c ← consume
        let acc := acc ++ [c]
        if c = '\n' then
          M.throw (LexErr.syntax c!"Unterminated regular expression literal" s.pos ((← position) - 1))
        else if c = '/' then return .inr acc
        else if c = '\\' then
          if !isLT (← current) then return .inl (acc ++ [← consume]) else return .inl acc
        else if c = '[' then return .inl (acc ++ (← readRegexpGroupBody))
        else return .inl acc : L (Str ⊕ Str))) n acc s') = .ok (acc ++ w) (s'.after w (flags ++ rest)) := by
    clear h
    induction hw with
    | close =>
      intro s' n acc h hn
      obtain ⟨n, rfl⟩ : ∃ m, n = m + 1 := ⟨n - 1, by omega⟩
      refine loop_done ?_
      rw [M.seq_ok (consume_eq h)]; rfl
    | @plain c w h1 _ ih =>
      intro s' n acc h hn
      obtain ⟨n, rfl⟩ : ∃ m, n = m + 1 := ⟨n - 1, by omega⟩
      rw [loop_step (b' := acc ++ [c]) (s' := s'.after [c] (w ++ (flags ++ rest)))]
      · rw [ih _ n (acc ++ [c]) (by rfl) (by rw [h] at hn; simp at hn ⊢; omega)]
        simp [Cursor.after_after]
      · simp at h1
        rw [M.seq_ok (consume_eq h)]
        simp only [h1, if_false]; rfl
    | @escape c w h1 _ ih =>
      intro s' n acc h hn
      obtain ⟨n, rfl⟩ : ∃ m, n = m + 1 := ⟨n - 1, by omega⟩
      by_cases hlt : isLT c = true
      · -- the backslash and the line terminator are taken one after the other
        rw [loop_step (b' := acc ++ ['\\']) (s' := s'.after ['\\'] (c :: w ++ (flags ++ rest)))]
        · obtain ⟨n, rfl⟩ : ∃ m, n = m + 1 := ⟨n - 1, by rw [h] at hn; simp at hn; omega⟩
          rw [loop_step (b' := acc ++ ['\\'] ++ [c]) (s' := (s'.after ['\\'] (c :: w ++ (flags ++ rest))).after [c] (w ++ (flags ++ rest)))]
          · rw [ih _ n _ (by rfl) (by rw [h] at hn; simp at hn ⊢; omega)]
            simp [Cursor.after_after]
          · rw [M.seq_ok (consume_eq (by rfl))]
            have h2 : c ≠ '/' := by rintro rfl; revert hlt; decide
            have h3 : c ≠ '\\' := by rintro rfl; revert hlt; decide
            have h4 : c ≠ '[' := by rintro rfl; revert hlt; decide
            simp only [h1, h2, h3, h4, if_false]; rfl
        · rw [M.seq_ok (consume_eq h), if_neg (by decide), if_neg (by decide), if_pos rfl, M.seq_ok (current_eq (by rfl)),
            if_neg (by simp [hlt])]
          rfl
      · rw [loop_step (b' := acc ++ ['\\', c]) (s' := s'.after ['\\', c] (w ++ (flags ++ rest)))]
        · rw [ih _ n _ (by rfl) (by rw [h] at hn; simp at hn ⊢; omega)]
          simp [Cursor.after_after]
        · rw [M.seq_ok (consume_eq h), if_neg (by decide), if_neg (by decide), if_pos rfl, M.seq_ok (current_eq (by rfl)),
            if_pos (by simp [hlt]), M.seq_ok (consume_eq (by rfl))]
          simp [Cursor.after_after]
    | @cls u w hu _ ih =>
      intro s' n acc h hn
      obtain ⟨n, rfl⟩ : ∃ m, n = m + 1 := ⟨n - 1, by omega⟩
      rw [loop_step (b' := acc ++ ['['] ++ u) (s' := s'.after ('[' :: u) (w ++ (flags ++ rest)))]
      · rw [ih _ n _ (by rfl) (by rw [h] at hn; simp at hn ⊢; omega)]
        simp [Cursor.after_after]
      · rw [M.seq_ok (consume_eq h), if_neg (by decide), if_neg (by decide), if_neg (by decide), if_pos rfl,
          M.seq_ok (readRegexpGroupBody_eq hu _ (rest := w ++ (flags ++ rest)) (by simp))]
        simp [Cursor.after_after]
  rw [M.seq_ok (key _ _ _ (by rfl) (Nat.lt_succ_self _)), M.seq_ok (readWhile_eq (rest := rest) (by rfl) hfl hr)]
  simp [Cursor.after_after]

/-! ## Names -/

theorem readHexChar_eq {s : Cursor} {start : Nat} {c : Char} {rest : Str} (h : s.rest = c :: rest) (hc : isHex c = true) :
    readHexChar start s = .ok c (s.after [c] rest) := by
  unfold readHexChar
  rw [M.seq_ok (consume_eq h), if_pos hc]; rfl

theorem isHex_ne_brace {c : Char} (h : isHex c = true) : c ≠ '{' ∧ c ≠ '}' := by
  constructor <;> rintro rfl <;> revert h <;> decide

theorem readCodePoint_eq {s : Cursor} {start : Nat} {ds rest : Str} (h : s.rest = '{' :: ds ++ '}' :: rest) (hne : ds ≠ [])
    (hd : ∀ d ∈ ds, isHex d = true) (hv : hexVal ds ≤ 0x10FFFF) :
    readCodePoint start s = .ok (hexVal ds) (s.after ('{' :: ds ++ ['}']) rest) := by
  unfold readCodePoint
  rw [M.seq_ok (consume_eq h), M.seq_ok (fuel_eq _)]
  have key : ∀ (s' : Cursor) (n : Nat) (acc : Str), s'.rest = ds ++ '}' :: rest → s'.rest.length < n →
      (loop (fun acc : Str => (do
        let acc := acc ++ [← readHexChar start]
        if (← current) = '}' then
          let _ ← consume
          return .inr acc
        else return .inl acc : L (Str ⊕ Str))) n acc s') = .ok (acc ++ ds) (s'.after (ds ++ ['}']) rest) := by
    clear h hv
    induction ds with
    | nil => exact absurd rfl hne
    | cons d ds ih =>
      intro s' n acc h hn
      obtain ⟨n, rfl⟩ : ∃ m, n = m + 1 := ⟨n - 1, by omega⟩
      have hdd := hd d (by simp)
      cases ds with
      | nil =>
        refine loop_done ?_
        rw [M.seq_ok (readHexChar_eq h hdd), M.seq_ok (current_eq (by rfl)), if_pos rfl, M.seq_ok (consume_eq (by rfl))]
        simp [Cursor.after_after]
      | cons e ds =>
        rw [loop_step (b' := acc ++ [d]) (s' := s'.after [d] (e :: ds ++ '}' :: rest))]
        · rw [ih (by simp) (fun x hx => hd x (by simp at hx ⊢; right; exact hx)) _ n _ (by rfl)
            (by rw [h] at hn; simp at hn ⊢; omega)]
          simp [Cursor.after_after]
        · rw [M.seq_ok (readHexChar_eq h hdd), M.seq_ok (current_eq (c := e) (by rfl)),
            if_neg (isHex_ne_brace (hd e (by simp))).2]
          rfl
  rw [M.seq_ok (key _ _ _ (by rfl) (Nat.lt_succ_self _)), if_pos (by simpa using hv)]
  simp [Cursor.after_after]

theorem read4DigitHex_eq {s : Cursor} {start : Nat} {a b c d : Char} {rest : Str} (h : s.rest = a :: b :: c :: d :: rest)
    (ha : isHex a = true) (hb : isHex b = true) (hc : isHex c = true) (hd : isHex d = true) :
    read4DigitHex start s = .ok (hexVal [a, b, c, d]) (s.after [a, b, c, d] rest) := by
  unfold read4DigitHex
  rw [M.seq_ok (readHexChar_eq h ha), M.seq_ok (readHexChar_eq (by rfl) hb), M.seq_ok (readHexChar_eq (by rfl) hc),
    M.seq_ok (readHexChar_eq (by rfl) hd)]
  simp [Cursor.after_after]

theorem charOfNat?_toNat (c : Char) : charOfNat? c.toNat = some c := by
  unfold charOfNat?
  have : c.toNat.isValidChar := c.valid
  rw [if_pos this, Char.ofNat_toNat]

theorem char_le (c : Char) : c.toNat ≤ 0x10FFFF := by
  have : c.toNat.isValidChar := c.valid
  rcases this with h | h <;> omega

theorem readUnicodeEscapeSequence_eq {s : Cursor} {w rest : Str} {c : Char} (h : s.rest = w ++ rest) (he : Escape w c) :
    readUnicodeEscapeSequence s = .ok c (s.after w rest) := by
  unfold readUnicodeEscapeSequence
  rw [M.seq_ok (position_eq s)]
  cases he with
  | @four a b x d _ ha hb hx hd hv =>
    rw [M.seq_ok (consume_eq h), M.seq_ok (consume_eq (by rfl)), if_neg (by simp)]
    have : readEscapeDigits s.pos ((s.after ['\\'] ('u' :: a :: b :: x :: d :: rest)).after ['u'] (a :: b :: x :: d :: rest)) =
        .ok (hexVal [a, b, x, d]) (s.after ['\\', 'u', a, b, x, d] rest) := by
      unfold readEscapeDigits
      rw [M.seq_ok (current_eq (by rfl)), if_neg (isHex_ne_brace ha).1, read4DigitHex_eq (by rfl) ha hb hx hd]
      simp [Cursor.after_after]
    erw [M.seq_ok this]
    rw [hv]
    simp only [charOfNat?_toNat]
    rfl
  | @braces ds _ hne hall hv =>
    rw [M.seq_ok (consume_eq h), M.seq_ok (consume_eq (by rfl)), if_neg (by simp)]
    have : readEscapeDigits s.pos ((s.after ['\\'] ('u' :: ('{' :: ds ++ ['}'] ++ rest))).after ['u'] ('{' :: ds ++ ['}'] ++ rest)) =
        .ok (hexVal ds) (s.after ('\\' :: 'u' :: '{' :: ds ++ ['}']) rest) := by
      unfold readEscapeDigits
      rw [M.seq_ok (current_eq (by rfl)), if_pos rfl, readCodePoint_eq (rest := rest) (by simp) hne hall (by rw [hv]; exact char_le c)]
      simp [Cursor.after_after]
    erw [M.seq_ok this]
    rw [hv]
    simp only [charOfNat?_toNat]
    rfl

theorem readIdentifierWord_eq {s : Cursor} {w n rest : Str} (h : s.rest = w ++ rest) (hw : NameText w n rest) :
    readIdentifierWord s = .ok n (s.after w rest) := by
  obtain ⟨hsp, hv, hm⟩ := hw
  unfold readIdentifierWord
  rw [M.seq_ok (fuel_eq _)]
  have hn : s.rest.length < s.rest.length + 1 := Nat.lt_succ_self _
  revert hn
  generalize s.rest.length + 1 = k
  suffices hh : ∀ word, (word ++ n ≠ [] → IdentName (word ++ n)) → s.rest.length < k →
      loop _ k word s = Res.ok (word ++ n) (s.after w rest) from hh [] (fun _ => hv)
  clear hv
  induction hsp generalizing s k with
  | nil =>
    intro word hv hn
    obtain ⟨k, rfl⟩ : ∃ m, k = m + 1 := ⟨k - 1, by omega⟩
    refine loop_done ?_
    rw [M.seq_ok (cur?_eq s), h]
    cases rest with
    | nil => rw [Cursor.after_nil s (r := []) (by simpa using h)]; simp
    | cons a r =>
      have := hm a (by simp)
      simp at this
      simp only [List.nil_append, List.head?_cons]
      rw [if_neg (by simp [this.1]), if_neg this.2, Cursor.after_nil s (r := a :: r) (by simpa using h)]
      simp
  | @plain c w n _ ih =>
    intro word hv hn
    obtain ⟨k, rfl⟩ : ∃ m, k = m + 1 := ⟨k - 1, by omega⟩
    have hc : isIdPart c = true := (hv (by simp)).2 c (by simp)
    rw [loop_step (b' := word ++ [c]) (s' := s.after [c] (w ++ rest))]
    · rw [ih (by rfl) k _ (by simpa using hv) (by rw [h] at hn; simp at hn ⊢; omega)]
      simp [Cursor.after_after]
    · rw [M.seq_ok (cur?_eq s), h]
      simp only [List.cons_append, List.head?_cons]
      rw [if_pos hc, M.seq_ok (consume_eq h)]; rfl
  | @escape e c w n he _ ih =>
    intro word hv hn
    obtain ⟨k, rfl⟩ : ∃ m, k = m + 1 := ⟨k - 1, by omega⟩
    have hc : isIdPart c = true := (hv (by simp)).2 c (by simp)
    have hlen : 0 < e.length := by cases e with | nil => exact absurd rfl he.ne_nil | cons => simp
    rw [loop_step (b' := word ++ [c]) (s' := s.after e (w ++ rest))]
    · rw [ih (by rfl) k _ (by simpa using hv) (by rw [h] at hn; simp at hn ⊢; omega)]
      simp [Cursor.after_after]
    · rw [M.seq_ok (cur?_eq s)]
      have hb : s.rest.head? = some '\\' := by rw [h]; cases he <;> rfl
      rw [hb]
      simp only
      rw [if_neg (by simp [isIdPart_bslash]), if_pos trivial]
      have : readAndExpandUnicodeEscapeSequence word.isEmpty s = .ok c (s.after e (w ++ rest)) := by
        unfold readAndExpandUnicodeEscapeSequence
        rw [M.seq_ok (position_eq s), M.seq_ok (readUnicodeEscapeSequence_eq (rest := w ++ rest) (by rw [h]; simp) he), if_neg]
        · rfl
        · cases word with
          | nil =>
            obtain ⟨a, r, h1, h2⟩ := (hv (by simp)).1
            simp at h1
            simp [h1.1, h2]
          | cons => simp [hc]
      rw [M.seq_ok this]; rfl

/-! ## Templates -/

theorem readTemplatePart_eq {w v rest : Str} {sub : Bool} (hw : TemplateBody w v) (s : Cursor)
    (h : s.rest = w ++ (if sub then ['$', '{'] else ['`']) ++ rest) :
    readTemplatePart s = .ok (v, sub) (s.after (w ++ (if sub then ['$', '{'] else ['`'])) rest) := by
  unfold readTemplatePart
  rw [M.seq_ok (fuel_eq _)]
  have hn : s.rest.length < s.rest.length + 1 := Nat.lt_succ_self _
  revert hn
  generalize s.rest.length + 1 = k
  suffices hh : ∀ acc, s.rest.length < k →
      loop _ k (acc, false) s = Res.ok (acc ++ v, sub) (s.after (w ++ (if sub then ['$', '{'] else ['`'])) rest) from hh []
  induction hw generalizing s k with
  | nil =>
    intro acc hn
    obtain ⟨k, rfl⟩ : ∃ m, k = m + 1 := ⟨k - 1, by omega⟩
    refine loop_done ?_
    cases sub with
    | true =>
      simp only [if_true, List.nil_append, List.cons_append] at h
      dsimp only
      rw [M.seq_ok (consume_eq h), if_neg (by decide), if_pos (by decide), M.seq_ok (current_eq (by rfl)), if_pos rfl,
        M.seq_ok (consume_eq (by rfl))]
      simp [Cursor.after_after]
    | false =>
      simp only [Bool.false_eq_true, if_false, List.nil_append, List.cons_append] at h
      dsimp only
      rw [M.seq_ok (consume_eq h), if_pos (by decide)]
      simp
  | @plain c w v h1 h2 h3 hb ih =>
    intro acc hn
    obtain ⟨k, rfl⟩ : ∃ m, k = m + 1 := ⟨k - 1, by omega⟩
    rw [loop_step (b' := (acc ++ [c], false)) (s' := s.after [c] (w ++ (if sub then ['$', '{'] else ['`']) ++ rest))]
    · rw [ih _ (by rfl) k _ (by rw [h] at hn; simp at hn ⊢; omega)]
      simp [Cursor.after_after]
    · dsimp only
      rw [M.seq_ok (consume_eq h), if_neg (by simp [h2])]
      by_cases hd : c = '$'
      · subst hd
        rw [if_pos (by simp)]
        cases w with
        | nil =>
          cases sub with
          | true => erw [M.seq_ok (current_eq (c := '$') (by rfl)), if_neg (by decide)]; rfl
          | false => erw [M.seq_ok (current_eq (c := '`') (by rfl)), if_neg (by decide)]; rfl
        | cons d w =>
          erw [M.seq_ok (current_eq (c := d) (by rfl)), if_neg (by simpa using h3)]; rfl
      · rw [if_neg (by simp [hd])]
        have : (c == '\\' && !false) = false := by simp [h1]
        rw [this]
        rfl
  | @escape c w v _ ih =>
    intro acc hn
    obtain ⟨k, rfl⟩ : ∃ m, k = m + 1 := ⟨k - 1, by omega⟩
    rw [loop_step (b' := (acc, true)) (s' := s.after ['\\'] (c :: (w ++ (if sub then ['$', '{'] else ['`']) ++ rest)))]
    · obtain ⟨k, rfl⟩ : ∃ m, k = m + 1 := ⟨k - 1, by rw [h] at hn; simp at hn; omega⟩
      rw [loop_step (b' := (acc ++ [c], false))
        (s' := (s.after ['\\'] (c :: (w ++ (if sub then ['$', '{'] else ['`']) ++ rest))).after [c]
          (w ++ (if sub then ['$', '{'] else ['`']) ++ rest))]
      · rw [ih _ (by rfl) k _ (by rw [h] at hn; simp at hn ⊢; omega)]
        simp [Cursor.after_after]
      · dsimp only
        rw [M.seq_ok (consume_eq (by rfl)), if_neg (by simp), if_neg (by simp)]
        simp
    · dsimp only
      rw [M.seq_ok (consume_eq h), if_neg (by decide), if_neg (by decide)]
      rfl

/-! ## Punctuators -/

theorem PunctText.notNext {p : Punct} {rest : Str} (h : PunctText p rest) (h1 : p ≠ p!".") (h2 : p ≠ p!"?") :
    ∀ c ∈ rest.head?, c ∉ nextChars p := by
  intro c hc hn
  have hq : ∃ q, q ∈ Punct.all ∧ q.asStr = p.asStr ++ [c] := by
    have key : ∀ p : Punct, p ≠ p!"." → ∀ c ∈ nextChars p, ∃ q, q ∈ Punct.all ∧ q.asStr = p.asStr ++ [c] := by
      intro p; cases p <;> decide
    exact key p h1 c hn
  obtain ⟨q, -, hq⟩ := hq
  obtain ⟨r, rfl⟩ := head?_eq_some hc
  have := h.longest q (by rw [hq]; simp) (by rw [hq]; exact ⟨r, by simp⟩)
  exact h2 this.1

theorem produce1_eq {s : Cursor} {c : Char} {r : Str} (p : Punct) (h : s.rest = c :: r) :
    produce1 p s = .ok (.punct p) (s.after [c] r) := by
  unfold produce1; rw [M.seq_ok (consume_eq h)]; rfl

theorem produce2_eq {s : Cursor} {c d : Char} {r : Str} (p : Punct) (h : s.rest = c :: d :: r) :
    produce2 p s = .ok (.punct p) (s.after [c, d] r) := by
  unfold produce2; rw [M.seq_ok (consume_eq h), M.seq_ok (consume_eq (by rfl))]; simp [Cursor.after_after]

theorem producePeek_yes {s : Cursor} {c d : Char} {r : Str} (p q : Punct) (h : s.rest = c :: d :: r) :
    producePeek d p q s = .ok (.punct p) (s.after [c, d] r) := by
  unfold producePeek; rw [M.seq_ok (peek?_eq s), h, if_pos (by rfl), produce2_eq _ h]

theorem producePeek_no {s : Cursor} {c e : Char} {r : Str} (p q : Punct) (h : s.rest = c :: r) (hn : r.head? ≠ some e) :
    producePeek e p q s = .ok (.punct q) (s.after [c] r) := by
  unfold producePeek; rw [M.seq_ok (peek?_eq s), h, if_neg (by exact hn), produce1_eq _ h]

theorem readValue_of (st : LexState) {s : Cursor} {c : Char} {r : Str} (h : s.rest = c :: r) :
    readValue st s.pos s = readArms2 st s.pos c r.head? s := by
  unfold readValue
  rw [M.seq_ok (current_eq h), M.seq_ok (peek?_eq s), h]; rfl

theorem readArms2_tail {st : LexState} {start : Nat} {c : Char} {p : Option Char} (h1 : ¬ (c = '/' ∧ st.regex = true))
    (h2 : c ∈ ['/', '*', '%', '+', '-', '|', '^', '&', '<', '>', '=', '!'] → p ≠ some '=')
    (h3 : c = '<' → p ≠ some '<') (h4 : c = '>' → p ≠ some '>') : readArms2 st start c p = readArms start c p := by
  unfold readArms2
  rw [if_neg h1, if_neg (fun h => h2 (by have := h.2; simp at this ⊢; grind) h.1), if_neg (fun h => h3 h.1 h.2), if_neg (fun h => h4 h.1 h.2),
    if_neg (fun h => h2 (by simp [h.1]) h.2)]

theorem readValue_punct (st : LexState) {p : Punct} {rest : Str} (hp : PunctText p rest)
    (hre : st.regex = true → p.asStr.head? ≠ some '/') (s : Cursor) (h : s.rest = p.asStr ++ rest) :
    readValue st s.pos s = .ok (.punct p) (s.after p.asStr rest) := by
  have hnx := PunctText.notNext hp
  have hdot := hp.dot
  have hch := hp.chain
  have hlong := hp.longest
  have hre' : ∀ {c}, p.asStr.head? = some c → ¬ (c = '/' ∧ st.regex = true) := by
    rintro _ h ⟨rfl, hr⟩; exact hre hr h
  have hne : ∀ c, p ≠ p!"." → p ≠ p!"?" → c ∈ nextChars p → rest.head? ≠ some c := by
    intro c h1 h2 hc h; exact hnx h1 h2 c h hc
  clear hp hre hnx
  cases p
  case questionMark =>
    have h : s.rest = '?' :: rest := h
    rw [readValue_of st h, readArms2_tail (by simp) (by simp) (by simp) (by simp)]
    show (consume >>= _) s = _
    rw [M.seq_ok (consume_eq h), M.seq_ok (cur?_eq _), M.seq_ok (peek?_eq _)]
    refine (congrFun (if_neg ?_) _).trans ((congrFun (if_neg ?_) _).trans rfl)
    · rintro ⟨h', hd⟩
      obtain ⟨r, rfl⟩ := head?_eq_some h'
      obtain ⟨-, -, c, r', h1, h2⟩ := hlong p!"?." (by decide) ⟨r, rfl⟩
      cases h1
      simp [h2] at hd
    · intro h'
      obtain ⟨r, rfl⟩ := head?_eq_some h'
      have := hlong p!"??" (by decide) ⟨r, rfl⟩
      exact absurd this.2.1 (by decide)
  case dot =>
    have h : s.rest = '.' :: rest := h
    have hd := hdot rfl
    rw [readValue_of st h, readArms2_tail (by simp) (by simp) (by simp) (by simp)]
    refine (congrFun (if_neg ?_) _).trans ((congrFun (if_neg ?_) _).trans (produce1_eq _ h))
    · intro h'
      have := hd '.' h'; simp at this
    · cases rest with
      | nil => simp
      | cons a r => have := hd a (by simp); simp at this; simp [this]
  case questionMarkDot =>
    have h : s.rest = '?' :: '.' :: rest := h
    have hd := hch rfl
    rw [readValue_of st h, readArms2_tail (by simp) (by simp) (by simp) (by simp)]
    show (consume >>= _) s = _
    rw [M.seq_ok (consume_eq h), M.seq_ok (cur?_eq _), M.seq_ok (peek?_eq _)]
    refine (congrFun (if_pos ?_) _).trans ?_
    · refine ⟨rfl, ?_⟩
      show (!(rest.head?).any Char.isDigit) = true
      cases rest with
      | nil => rfl
      | cons a r => have := hd a (by simp); simp [this]
    · rw [M.seq_ok (consume_eq (by rfl))]
      simp [Cursor.after_after, Punct.asStr]
  case doubleQuestionMark =>
    have h : s.rest = '?' :: '?' :: rest := h
    rw [readValue_of st h, readArms2_tail (by simp) (by simp) (by simp) (by simp)]
    show (consume >>= _) s = _
    rw [M.seq_ok (consume_eq h), M.seq_ok (cur?_eq _), M.seq_ok (peek?_eq _)]
    refine (congrFun (if_neg (by simp)) _).trans ((congrFun (if_pos (by simp)) _).trans ?_)
    rw [M.seq_ok (consume_eq (by rfl))]
    simp [Cursor.after_after, Punct.asStr]
  case tripleDot =>
    have h : s.rest = '.' :: '.' :: '.' :: rest := h
    rw [readValue_of st h, readArms2_tail (by simp) (by simp) (by simp) (by simp)]
    have hif : readArms s.pos '.' (some '.') = (do
        let _ ← consume
        if (← peek?) = some '.' then produce2 p!"..."
        else do
          let stop ← position
          let fol ← M.gets Cursor.fol
          M.throw ⟨⟨s.pos, stop⟩, .invalidOrUnexpectedToken { value := .punct p!".", fol, span := ⟨s.pos, stop⟩ }⟩) := rfl
    rw [List.head?_cons, hif, M.seq_ok (consume_eq h), M.seq_ok (peek?_eq _)]
    refine (congrFun (if_pos (by simp)) _).trans ?_
    rw [produce2_eq _ (by rfl)]
    simp [Cursor.after_after, Punct.asStr]
  all_goals clear hlong hdot hch
  all_goals replace hne := fun c => hne c (by decide) (by decide)
  all_goals
    replace hre' : ∀ {c}, _ = some c → ¬ (c = '/' ∧ st.regex = true) := hre'
    simp only [Punct.asStr, List.cons_append, List.nil_append] at h ⊢
  -- one character
  any_goals
    (rw [readValue_of st h, readArms2_tail (hre' rfl) (fun hm => hne _ (by revert hm; decide))
      (fun hm => hne _ (by revert hm; decide)) (fun hm => hne _ (by revert hm; decide))]
     first
     | exact produce1_eq _ h
     | exact producePeek_no _ _ h (hne _ (by decide))
     | exact (congrFun (if_neg (hne _ (by decide))) _).trans (produce1_eq _ h)
     done)
  -- two characters, the second `=`
  any_goals
    (rw [readValue_of st h]
     refine (congrFun (if_neg (hre' rfl)) _).trans ((congrFun (if_pos ⟨rfl, by decide⟩) _).trans ?_)
     exact produce2_eq _ h
     done)
  any_goals
    (rw [readValue_of st h, readArms2_tail (hre' rfl) (by simp) (by simp) (by simp)]
     exact producePeek_yes _ _ h
     done)
  case doubleGreaterThan =>
    rw [readValue_of st h]
    show (consume >>= _) s = _
    rw [M.seq_ok (consume_eq h), M.seq_ok (peek?_eq _)]
    have h1 := hne '>' (by decide)
    have h2 := hne '=' (by decide)
    have : produce1 p!">>" (s.after ['>'] ('>' :: rest)) = .ok (.punct p!">>") (s.after ['>', '>'] rest) := by
      rw [produce1_eq _ (by rfl)]; simp [Cursor.after_after]
    rw [← this]
    simp only [Cursor.after_rest, List.tail_cons]
  case tripleGreaterThan =>
    rw [readValue_of st h]
    show (consume >>= _) s = _
    rw [M.seq_ok (consume_eq h), M.seq_ok (peek?_eq _)]
    show (consume >>= _) _ = _
    rw [M.seq_ok (consume_eq (by rfl)), producePeek_no _ _ (by rfl) (hne _ (by decide))]
    simp [Cursor.after_after]
  case tripleGreaterEqual =>
    rw [readValue_of st h]
    show (consume >>= _) s = _
    rw [M.seq_ok (consume_eq h), M.seq_ok (peek?_eq _)]
    show (consume >>= _) _ = _
    rw [M.seq_ok (consume_eq (by rfl)), producePeek_yes _ _ (by rfl)]
    simp [Cursor.after_after]
  case doubleGreaterEqual =>
    rw [readValue_of st h]
    show (consume >>= _) s = _
    rw [M.seq_ok (consume_eq h), M.seq_ok (peek?_eq _)]
    show produce2 _ _ = _
    rw [produce2_eq _ (by rfl)]
    simp [Cursor.after_after]
  -- `==`, `!=`, `**`, `<<` and their longer forms
  all_goals
    rw [readValue_of st h]
    first
    | show (consume >>= _) s = _
    | (refine (congrFun (if_neg (hre' rfl)) _).trans ?_
       show (consume >>= _) s = _)
    rw [M.seq_ok (consume_eq h)]
    first
    | (rw [producePeek_yes _ _ (by rfl)]; simp [Cursor.after_after]; done)
    | (rw [producePeek_no _ _ (by rfl) (hne _ (by decide))]; simp [Cursor.after_after]; done)

/-! ## All lexemes -/

/-- The characters with an arm of their own in `readArms`. -/
def armChars : List Char := ['=', '<', '>', '^', '%', ';', '{', '}', ',', '[', ']', '(', ')', '~', ':', '!', '&', '|', '+', '-',
  '?', '*', '.', '/', '"', '\'', '`', '\\']

theorem readArms_default {start : Nat} {c : Char} {p : Option Char} (h : c ∉ armChars) :
    readArms start c p = if c.isDigit then readNumberLiteral
    else if isIdStart c then readIdentifierOrKeyword
    else (do
      let c ← consume
      M.throw ⟨⟨start, start + c.utf8Size⟩, .unrecognizedCodePoint c.toNat⟩ : L TokVal) := by
  unfold readArms
  split
  all_goals first | rfl | exact absurd (by decide) h

theorem idStart_notArm {c : Char} (h : isIdStart c = true) : c ∉ armChars ∧ c.isDigit = false := by
  have key : ∀ d ∈ armChars, isIdStart d = false := by
    intro d hd
    have h128 : d.toNat < 128 := by
      have : ∀ d ∈ armChars, d.toNat < 128 := by decide
      exact this d hd
    unfold isIdStart
    rw [UnicodeID.ascii_start d h128]
    have : ∀ d ∈ armChars, (d.isAlpha || d == '_' || d == '$' || d.isAlpha) = false := by decide
    exact this d hd
  refine ⟨fun hc => (by rw [key c hc] at h; cases h), ?_⟩
  cases hd : c.isDigit with
  | false => rfl
  | true =>
    have hb := hd
    simp only [Char.isDigit, Bool.and_eq_true, decide_eq_true_eq] at hb
    have h48 : 48 ≤ c.toNat ∧ c.toNat ≤ 57 := by
      constructor
      · exact UInt32.le_iff_toNat_le.1 hb.1
      · exact UInt32.le_iff_toNat_le.1 hb.2
    unfold isIdStart at h
    rw [UnicodeID.ascii_start c (by omega)] at h
    have ha : c.isAlpha = false := by
      cases hal : c.isAlpha with
      | false => rfl
      | true =>
        simp only [Char.isAlpha, Char.isUpper, Char.isLower, Bool.or_eq_true, Bool.and_eq_true, decide_eq_true_eq] at hal
        rcases hal with ⟨h1, -⟩ | ⟨h1, -⟩
        · have := UInt32.le_iff_toNat_le.1 h1
          have h65 : 65 ≤ c.toNat := this
          omega
        · have := UInt32.le_iff_toNat_le.1 h1
          have h97 : 97 ≤ c.toNat := this
          omega
    rw [ha] at h
    have h1 : (c == '_') = false := by
      cases hh : c == '_' with
      | false => rfl
      | true => simp at hh; subst hh; exact absurd hd (by decide)
    have h2 : (c == '$') = false := by
      cases hh : c == '$' with
      | false => rfl
      | true => simp at hh; subst hh; exact absurd hd (by decide)
    rw [h1, h2] at h
    exact h.symm

theorem digit_notArm {c : Char} (h : c.isDigit = true) : c ∉ armChars := by
  have key : ∀ d ∈ armChars, d.isDigit = false := by decide
  intro hc; rw [key c hc] at h; cases h

theorem readArms2_default {st : LexState} {start : Nat} {c : Char} {p : Option Char} (h : c ∉ armChars) :
    readArms2 st start c p = readArms start c p := by
  have : ∀ d ∈ armChars, c ≠ d := by rintro d hd rfl; exact h hd
  refine readArms2_tail ?_ ?_ ?_ ?_
  · rintro ⟨h1, -⟩; exact this _ (by decide) h1
  · intro hm
    have hs : ∀ d ∈ ['/', '*', '%', '+', '-', '|', '^', '&', '<', '>', '=', '!'], d ∈ armChars := by decide
    exact absurd (hs c hm) h
  · intro h1; exact absurd h1 (this _ (by decide))
  · intro h1; exact absurd h1 (this _ (by decide))

theorem readIdentifierOrKeyword_eq {s : Cursor} {w n rest : Str} (h : s.rest = w ++ rest) (hw : NameText w n rest) :
    readIdentifierOrKeyword s = .ok (match Keyword.fromStr n with | some k => .keyword k | none => .ident n)
      (s.after w rest) := by
  unfold readIdentifierOrKeyword
  rw [M.seq_ok (readIdentifierWord_eq h hw)]
  cases Keyword.fromStr n <;> rfl

theorem readValue_name {st : LexState} {s : Cursor} {w n rest : Str} (h : s.rest = w ++ rest) (hw : NameText w n rest) :
    readValue st s.pos s = .ok (match Keyword.fromStr n with | some k => .keyword k | none => .ident n)
      (s.after w rest) := by
  rw [← readIdentifierOrKeyword_eq h hw]
  obtain ⟨hs, ⟨⟨c, r, rfl, hst⟩, -⟩, -⟩ := hw
  cases hs with
  | plain _ =>
    rw [readValue_of st (by rw [h]; rfl), readArms2_default (idStart_notArm hst).1, readArms_default (idStart_notArm hst).1,
      (idStart_notArm hst).2, hst]
    rfl
  | @escape e _ w' _ he _ =>
    obtain ⟨r', hr'⟩ : ∃ r', e = '\\' :: r' := by cases he <;> exact ⟨_, rfl⟩
    subst hr'
    rw [readValue_of st (by rw [h]; rfl), readArms2_tail (by simp) (by simp) (by simp) (by simp)]
    rfl

theorem fromStr_asStr (k : Keyword) : Keyword.fromStr k.asStr = some k := by cases k <;> decide

theorem readValue_complete {st : LexState} {s : Cursor} {v : TokVal} {w rest : Str} (h : s.rest = w ++ rest)
    (hl : Lexeme st.regex v w rest) : readValue st s.pos s = .ok v (s.after w rest) := by
  cases hl with
  | punct hp hre => exact readValue_punct st hp hre s h
  | keyword hn => rw [readValue_name h hn, fromStr_asStr]
  | @ident n _ _ hn hk =>
    rw [readValue_name h hn]
    cases hf : Keyword.fromStr n with
    | none => rfl
    | some k => exact absurd (fromStr_some hf) (hk k)
  | number hn hi =>
    rw [← readNumberLiteral_eq h hn hi]
    have hd : ∀ c r, s.rest = c :: r → c.isDigit = true → readValue st s.pos s = readNumberLiteral s := by
      intro c r hr hd
      rw [readValue_of st hr, readArms2_default (digit_notArm hd), readArms_default (digit_notArm hd), if_pos hd]
    cases hn with
    | hex => exact hd _ _ h rfl
    | oct => exact hd _ _ h rfl
    | bin => exact hd _ _ h rfl
    | dec _ _ _ _ hst =>
      rcases hst with ⟨c, r, hc, hdig⟩ | ⟨c, r, hc, hdig⟩
      · rw [hc] at h; exact hd _ _ h hdig
      · rw [hc] at h
        rw [readValue_of st h, readArms2_tail (by simp) (by simp) (by simp) (by simp)]
        have hcd : c ≠ '.' := by rintro rfl; revert hdig; decide
        refine (congrFun (if_neg ?_) _).trans (congrFun (if_pos ?_) _)
        · simpa using hcd
        · simpa using hdig
  | @string q _ _ _ hq hb =>
    rw [← readStringLiteral_eq (by rcases hq with rfl | rfl <;> decide) hb s h]
    rcases hq with rfl | rfl
    · rw [readValue_of st h, readArms2_tail (by simp) (by simp) (by simp) (by simp)]; rfl
    · rw [readValue_of st h, readArms2_tail (by simp) (by simp) (by simp) (by simp)]; rfl
  | regexp hre hb hf hr =>
    rw [← readRegexpLiteral_eq hb hf hr s h, readValue_of st h]
    exact congrFun (if_pos ⟨rfl, hre⟩) _
  | template hb =>
    rw [readValue_of st h, readArms2_tail (by simp) (by simp) (by simp) (by simp)]
    show readTemplateLiteralHead s = _
    unfold readTemplateLiteralHead
    rw [M.seq_ok (consume_eq h), M.seq_ok (readTemplatePart_eq (sub := false) (rest := rest) hb _ (by simp))]
    simp [Cursor.after_after]
  | templateHead hb =>
    rw [readValue_of st h, readArms2_tail (by simp) (by simp) (by simp) (by simp)]
    show readTemplateLiteralHead s = _
    unfold readTemplateLiteralHead
    rw [M.seq_ok (consume_eq h), M.seq_ok (readTemplatePart_eq (sub := true) (rest := rest) hb _ (by simp))]
    simp [Cursor.after_after]

end Fajt
