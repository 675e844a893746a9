import Verif.Proofs.LexFns
/-!
# Literals, names and punctuators meet the lexical grammar
-/
namespace Fajt
open Spec Lexer
set_option linter.unusedSectionVars false
variable [UnicodeID]

/-! ## Numbers -/

theorem hasDoubleUnderscore_iff (w : Str) : hasDoubleUnderscore w = true ↔ ∃ u v, w = u ++ '_' :: '_' :: v := by
  induction w with
  | nil => simp [hasDoubleUnderscore]
  | cons a w ih =>
    unfold hasDoubleUnderscore
    split
    · rename_i x cs heq
      simp only [List.cons.injEq] at heq
      obtain ⟨rfl, rfl⟩ := heq
      exact ⟨fun _ => ⟨[], cs, rfl⟩, fun _ => rfl⟩
    · rename_i hd tl hne heq
      simp only [List.cons.injEq] at heq
      obtain ⟨rfl, rfl⟩ := heq
      rw [ih]
      constructor
      · rintro ⟨u, v, rfl⟩; exact ⟨_ :: u, v, rfl⟩
      · rintro ⟨u, v, h⟩
        cases u with
        | nil =>
          simp only [List.nil_append, List.cons.injEq] at h
          exact absurd h.2 (fun h2 => hne v h.1 h2)
        | cons b u => simp only [List.cons_append, List.cons.injEq] at h; exact ⟨u, v, h.2⟩
    · rename_i heq; cases heq

theorem LS_readNumberString {s : Cursor} {start : Nat} {check : Char → Bool} (hst : start ≤ s.pos) :
    LS (readNumberString start check) s (fun r w s' => r = w ∧ DigitRun check w ∧
      NotHead (fun c => check c || c == '_') s'.rest ∧ s'.fol = s.fol) := by
  refine LS.withPos fun hp => ?_
  unfold readNumberString
  refine LS.bind LS_readWhile ?_
  rintro _ w s1 he ⟨rfl, hall, hnot, hf⟩
  have hpos := he.pos_mono hp
  have hle := he.pos_le hp
  have hwf : ∀ msg, ErrOK s1 (LexErr.syntax msg start s1.pos) := fun msg =>
    ⟨by simp [LexErr.syntax], by simp [LexErr.syntax]; omega, by simp [LexErr.syntax]; omega⟩
  refine LS.ite ?_ fun hd => LS.ite ?_ fun hl => ?_
  · intro _
    exact LS_position (LS.throw fun _ => hwf _)
  · intro _
    exact LS_position (LS.throw fun _ => hwf _)
  · refine LS.pure ?_
    rw [List.append_nil]
    refine ⟨rfl, ⟨?_, ?_, hl⟩, hnot, hf⟩
    · intro c hc; simpa using hall c hc
    · intro u v h; exact hd ((hasDoubleUnderscore_iff _).2 ⟨u, v, h⟩)

theorem LS_expectReadNumberString {s : Cursor} {start : Nat} {check : Char → Bool} (hst : start ≤ s.pos) :
    LS (expectReadNumberString start check) s (fun r w s' => r = w ∧ w ≠ [] ∧ DigitRun check w ∧
      NotHead (fun c => check c || c == '_') s'.rest ∧ s'.fol = s.fol) := by
  unfold expectReadNumberString
  refine LS.bind (LS_readNumberString hst) ?_
  rintro _ w s1 he ⟨rfl, hd, hn, hf⟩
  refine LS.ite ?_ fun hne => ?_
  · intro _
    exact LS_position (LS.throw fun hp => ⟨by simp [LexErr.syntax], Nat.le_refl _, by simp [LexErr.syntax]; omega⟩)
  · refine LS.pure ?_
    rw [List.append_nil]
    exact ⟨rfl, by simpa using hne, hd, hn, hf⟩

theorem LS_readPrefixedString {s : Cursor} {a b : Char} {r : Str} (h : s.rest = a :: b :: r) {check : Char → Bool} :
    LS (readPrefixedString check) s (fun t w s' => t = w ∧ ∃ ds, w = a :: b :: ds ∧ ds ≠ [] ∧ DigitRun check ds ∧
      NotHead (fun c => check c || c == '_') s'.rest ∧ s'.fol = s.fol) := by
  refine LS.withPos fun hp => ?_
  unfold readPrefixedString
  refine LS_position ?_
  refine LS.bind (LS_consume_of h) ?_
  rintro _ _ s1 he1 ⟨rfl, rfl, h1, hf1⟩
  refine LS.bind (LS_consume_of h1) ?_
  rintro _ _ s2 he2 ⟨rfl, rfl, h2, hf2⟩
  have hp1 := he1.pos_le hp
  refine LS.bind (LS_expectReadNumberString (Nat.le_trans (he1.pos_mono hp) (he2.pos_mono hp1))) ?_
  rintro _ w s3 he3 ⟨rfl, hne, hd, hn, hf3⟩
  refine LS.pure ?_
  refine ⟨by simp, _, by simp, hne, hd, hn, by rw [hf3, hf2, hf1]⟩

theorem NotHead_append_nil {p : Char → Bool} {r : Str} (h : NotHead p r) : NotHead p ([] ++ r) := h

/-- The shape of a decimal literal, without the conditions on how it starts. -/
def DecShape (w rest : Str) : Prop := ∃ i f e, w = i ++ (f ++ e) ∧
  DigitRun Char.isDigit i ∧ NotHead (fun c => c.isDigit || c == '_') (f ++ (e ++ rest)) ∧
  (f = [] ∧ NotHead (· == '.') (e ++ rest) ∨
    ∃ ds, f = '.' :: ds ∧ DigitRun Char.isDigit ds ∧ NotHead (fun c => c.isDigit || c == '_') (e ++ rest)) ∧
  (e = [] ∧ NotHead (fun c => c == 'e' || c == 'E') rest ∨
    ∃ x sign ds, e = x :: (sign ++ ds) ∧ (x = 'e' ∨ x = 'E') ∧ (sign = [] ∨ sign = ['-'] ∨ sign = ['+']) ∧
      DigitRun Char.isDigit ds ∧ ds ≠ [] ∧ NotHead (fun c => c.isDigit || c == '_') rest)

theorem head?_eq_some {r : Str} {c : Char} (h : r.head? = some c) : ∃ cs, r = c :: cs := by
  cases r with
  | nil => cases h
  | cons a cs => simp at h; exact ⟨cs, by rw [h]⟩

theorem LS_readFraction {s : Cursor} {start : Nat} (hst : start ≤ s.pos) :
    LS (readFraction start) s (fun f w s2 => f = w ∧ s2.fol = s.fol ∧
      (f = [] ∧ NotHead (· == '.') s2.rest ∨
      ∃ ds, f = '.' :: ds ∧ DigitRun Char.isDigit ds ∧ NotHead (fun c => c.isDigit || c == '_') s2.rest)) := by
  refine LS.withPos fun hp => ?_
  unfold readFraction
  refine LS_cur ?_
  refine LS.ite (fun hdot => ?_) (fun hdot => ?_)
  · obtain ⟨cs, hcs⟩ := head?_eq_some hdot
    refine LS.bind (LS_consume_of hcs) ?_
    rintro _ _ s2 he2 ⟨rfl, rfl, h2, hf2⟩
    refine LS.bind (LS_readNumberString (Nat.le_trans hst (he2.pos_mono hp))) ?_
    rintro ds _ s3 he3 ⟨rfl, hd, hn, hf3⟩
    refine LS.pure ⟨by simp, by rw [hf3, hf2], Or.inr ⟨_, rfl, hd, hn⟩⟩
  · refine LS.pure ⟨rfl, rfl, Or.inl ⟨rfl, ?_⟩⟩
    intro c hc
    by_cases hcd : c = '.'
    · subst hcd; exact absurd hc hdot
    · simpa using hcd

theorem LS_readSign {s : Cursor} : LS readSign s (fun sg w s4 => sg = w ∧ s4.fol = s.fol ∧
    (sg = [] ∨ sg = ['-'] ∨ sg = ['+'])) := by
  unfold readSign
  refine LS_cur ?_
  refine LS.ite (fun hs => ?_) (fun hs => ?_)
  · obtain ⟨y, hy, hye⟩ : ∃ y, s.rest.head? = some y ∧ (y = '-' ∨ y = '+') := by
      rcases hs with h | h
      · exact ⟨_, h, .inl rfl⟩
      · exact ⟨_, h, .inr rfl⟩
    obtain ⟨cs', hcs'⟩ := head?_eq_some hy
    refine LS.bind (LS_consume_of hcs') ?_
    rintro _ _ s4 he4 ⟨rfl, rfl, h4, hf4⟩
    refine LS.pure ⟨by simp, hf4, ?_⟩
    rcases hye with rfl | rfl <;> simp
  · exact LS.pure ⟨rfl, rfl, .inl rfl⟩

theorem LS_readExponent {s : Cursor} {start : Nat} (hst : start ≤ s.pos) :
    LS (readExponent start) s (fun e w s3 => e = w ∧ s3.fol = s.fol ∧
      (e = [] ∧ NotHead (fun c => c == 'e' || c == 'E') s3.rest ∨
        ∃ x sign ds, e = x :: (sign ++ ds) ∧ (x = 'e' ∨ x = 'E') ∧ (sign = [] ∨ sign = ['-'] ∨ sign = ['+']) ∧
          DigitRun Char.isDigit ds ∧ ds ≠ [] ∧ NotHead (fun c => c.isDigit || c == '_') s3.rest)) := by
  refine LS.withPos fun hp => ?_
  unfold readExponent
  refine LS_cur ?_
  refine LS.ite (fun hexp => ?_) (fun hexp => ?_)
  · obtain ⟨x, hx, hxe⟩ : ∃ x, s.rest.head? = some x ∧ (x = 'e' ∨ x = 'E') := by
      rcases hexp with h | h
      · exact ⟨_, h, .inl rfl⟩
      · exact ⟨_, h, .inr rfl⟩
    obtain ⟨cs, hcs⟩ := head?_eq_some hx
    refine LS.bind (LS_consume_of hcs) ?_
    rintro _ _ s3 he3 ⟨rfl, rfl, h3, hf3⟩
    have hp3 := he3.pos_le hp
    have hm3 := he3.pos_mono hp
    refine LS.bind LS_readSign ?_
    rintro sg _ s4 he4 ⟨rfl, hf4, hsg⟩
    refine LS.bind (LS_expectReadNumberString
      (Nat.le_trans hst (Nat.le_trans hm3 (he4.pos_mono hp3)))) ?_
    rintro ds _ s5 he5 ⟨rfl, hne, hd, hn, hf5⟩
    refine LS.pure ⟨by simp, by rw [hf5, hf4, hf3], Or.inr ⟨_, sg, ds, rfl, hxe, hsg, hd, hne, hn⟩⟩
  · refine LS.pure ⟨rfl, rfl, Or.inl ⟨rfl, ?_⟩⟩
    intro c hc
    have : ¬ (c = 'e' ∨ c = 'E') := by
      rintro (rfl | rfl)
      · exact hexp (.inl hc)
      · exact hexp (.inr hc)
    simpa using this

theorem LS_readDecimalString {s : Cursor} : LS readDecimalString s (fun t w s' => t = w ∧ DecShape w s'.rest ∧
    s'.fol = s.fol) := by
  refine LS.withPos fun hp => ?_
  unfold readDecimalString
  refine LS_position ?_
  refine LS.bind (LS_readNumberString (Nat.le_refl _)) ?_
  rintro i _ s1 he1 ⟨rfl, hdi, hni, hf1⟩
  have hp1 := he1.pos_le hp
  have hm1 := he1.pos_mono hp
  refine LS.bind (LS_readFraction hm1) ?_
  rintro f _ s2 he2 ⟨rfl, hf2, hfr⟩
  have hm2 := he2.pos_mono hp1
  refine LS.bind (LS_readExponent (Nat.le_trans hm1 hm2)) ?_
  rintro e _ s3 he3 ⟨rfl, hf3, hex⟩
  refine LS.pure ?_
  rw [List.append_nil]
  refine ⟨rfl, ⟨i, f, e, rfl, hdi, ?_, ?_, hex⟩, by rw [hf3, hf2, hf1]⟩
  · rw [← he3.rest, ← he2.rest]; exact hni
  · rw [← he3.rest]; exact hfr

theorem LS_readNumberLiteral {s : Cursor} (hstart : (∃ c r, s.rest = c :: r ∧ c.isDigit = true) ∨
      ∃ c r, s.rest = '.' :: c :: r ∧ c.isDigit = true) :
    LS readNumberLiteral s (fun v w s' => v = .lit (.number w) ∧ NumberText w s'.rest ∧ NotHead isIdStart s'.rest ∧
      w ≠ [] ∧ s'.fol = s.fol) := by
  unfold readNumberLiteral
  refine LS.bind (R := fun t w s' => t = w ∧ NumberText w s'.rest ∧ w ≠ [] ∧ s'.fol = s.fol) ?_ ?_
  · unfold readNumberText
    refine LS.bind LS_current ?_
    rintro c _ s1 - ⟨rfl, hs1, cs, hcs⟩
    subst s1
    refine LS_peek ?_
    simp only [List.nil_append]
    have two : ∀ d, s.rest.tail.head? = some d → ∃ r, s.rest = c :: d :: r := by
      intro d hd
      rw [hcs] at hd
      obtain ⟨r, hr⟩ := head?_eq_some hd
      exact ⟨r, by rw [hcs]; simpa using hr⟩
    refine LS.ite ?_ fun h1 => LS.ite ?_ fun h2 => LS.ite ?_ fun h3 => LS.ite ?_ fun h4 => ?_
    · rintro ⟨rfl, hx⟩
      obtain ⟨x, hx, hxx⟩ : ∃ x, s.rest.tail.head? = some x ∧ (x = 'x' ∨ x = 'X') := by
        rcases hx with h | h
        · exact ⟨_, h, .inl rfl⟩
        · exact ⟨_, h, .inr rfl⟩
      obtain ⟨r, hr⟩ := two x hx
      refine (LS_readPrefixedString hr).mono ?_
      rintro t w s' he ⟨rfl, ds, rfl, hne, hd, hn, hf⟩
      exact ⟨rfl, .hex hxx hd hne hn, by simp, hf⟩
    · rintro ⟨rfl, hx⟩
      obtain ⟨x, hx, hxx⟩ : ∃ x, s.rest.tail.head? = some x ∧ (x = 'o' ∨ x = 'O') := by
        rcases hx with h | h
        · exact ⟨_, h, .inl rfl⟩
        · exact ⟨_, h, .inr rfl⟩
      obtain ⟨r, hr⟩ := two x hx
      refine (LS_readPrefixedString hr).mono ?_
      rintro t w s' he ⟨rfl, ds, rfl, hne, hd, hn, hf⟩
      exact ⟨rfl, .oct hxx hd hne hn, by simp, hf⟩
    · rintro ⟨rfl, hx⟩
      obtain ⟨x, hx, hxx⟩ : ∃ x, s.rest.tail.head? = some x ∧ (x = 'b' ∨ x = 'B') := by
        rcases hx with h | h
        · exact ⟨_, h, .inl rfl⟩
        · exact ⟨_, h, .inr rfl⟩
      obtain ⟨r, hr⟩ := two x hx
      refine (LS_readPrefixedString hr).mono ?_
      rintro t w s' he ⟨rfl, ds, rfl, hne, hd, hn, hf⟩
      exact ⟨rfl, .bin hxx hd hne hn, by simp, hf⟩
    · rintro ⟨rfl, hx⟩
      refine LS_position (LS.throw fun hp => ⟨by simp [LexErr.syntax], by simp [LexErr.syntax], ?_⟩)
      simp only [LexErr.syntax, hcs, byteLen_cons]
      have := utf8Size_pos '0'; omega
    · refine LS_readDecimalString.mono ?_
      rintro t w s' he ⟨rfl, ⟨i, f, e, rfl, hdi, hni, hfr, hex⟩, hf⟩
      have hw : i ++ (f ++ e) ++ s'.rest = s.rest := he.rest.symm
      have hne : i ++ (f ++ e) ≠ [] := by
        intro h0
        have hi : i = [] := by simp at h0; exact h0.1
        have hff : f = [] := by simp at h0; exact h0.2.1
        have hee : e = [] := by simp at h0; exact h0.2.2
        subst hi hff hee
        have hw' : s.rest = s'.rest := by simpa using hw.symm
        rcases hstart with ⟨d, r, hd, hdig⟩ | ⟨d, r, hd, hdig⟩
        · have := hni d (by simp [← hw', hd])
          simp [hdig] at this
        · rcases hfr with ⟨-, h⟩ | ⟨ds, h, -⟩
          · have := h '.' (by simp [← hw', hd])
            simp at this
          · cases h
      refine ⟨rfl, .dec hdi hni hfr hex ?_ ?_, hne, hf⟩
      · rcases hstart with ⟨d, r, hd, hdig⟩ | ⟨d, r, hd, hdig⟩
        · left
          cases hL : i ++ (f ++ e) with
          | nil => exact absurd hL hne
          | cons a l =>
            rw [hL, hd] at hw
            simp only [List.cons_append, List.cons.injEq] at hw
            exact ⟨a, l, rfl, by rw [hw.1]; exact hdig⟩
        · -- a dot first: the integer part is empty and the fraction is not
          right
          have hi : i = [] := by
            cases i with
            | nil => rfl
            | cons a l =>
              rw [hd] at hw
              simp only [List.cons_append, List.cons.injEq] at hw
              have := hdi.digits a (by simp)
              rw [hw.1] at this
              exact absurd this (by decide)
          subst hi
          rcases hfr with ⟨rfl, h⟩ | ⟨ds, rfl, hds, hnd⟩
          · have : ('.' == '.') = false := h '.' (by
              have : e ++ s'.rest = s.rest := by simpa using hw
              rw [this, hd]; simp)
            cases this
          · have hw2 : ds ++ (e ++ s'.rest) = d :: r := by
              rw [hd] at hw; simpa using hw
            cases ds with
            | nil =>
              have := hnd d (by rw [show e ++ s'.rest = d :: r by simpa using hw2]; simp)
              simp [hdig] at this
            | cons a l =>
              simp only [List.cons_append, List.cons.injEq] at hw2
              exact ⟨a, l ++ e, by simp, by rw [hw2.1]; exact hdig⟩
      · intro a r ha
        have hs : s.rest = '0' :: a :: r := by rw [← hw, ← ha]; simp
        rw [hcs] at hs
        simp only [List.cons.injEq] at hs
        obtain ⟨rfl, hs⟩ := hs
        have hpk : s.rest.tail.head? = some a := by rw [hcs, hs]; rfl
        rw [hpk] at h1 h2 h3 h4
        simp only [Option.some.injEq, Option.any_some] at h1 h2 h3 h4
        simp only [true_and, not_or] at h1 h2 h3 h4
        refine ⟨by simpa using h4, ?_⟩
        simp [h1.1, h1.2, h2.1, h2.2, h3.1, h3.2]
  · rintro t _ s1 he1 ⟨rfl, hn, hne, hf⟩
    refine LS_cur ?_
    refine LS.ite ?_ fun hid => ?_
    · intro _
      exact LS_position (LS.throw fun hp => ⟨by simp [LexErr.syntax], Nat.le_refl _, by simp [LexErr.syntax]; omega⟩)
    · refine LS.pure ?_
      rw [List.append_nil]
      refine ⟨rfl, hn, ?_, hne, hf⟩
      intro d hd
      cases hb : isIdStart d with
      | false => rfl
      | true => exact absurd (by rw [Option.mem_def.1 hd]; simpa using hb) hid

/-! ## Strings -/

theorem Spec.StringBody.append {q : Char} {u x v y : Str} (h1 : StringBody q u x) (h2 : StringBody q v y) :
    StringBody q (u ++ v) (x ++ y) := by
  induction h1 with
  | nil => exact h2
  | plain a b c d _ ih => exact .plain a b c d ih
  | escape _ ih => exact .escape ih
  | escapeCRLF _ ih => exact .escapeCRLF ih

theorem LS_readEscapeSequence {s : Cursor} : LS readEscapeSequence s (fun r w s' => r = w ∧ s'.fol = s.fol ∧
    ((∃ c, w = [c]) ∨ w = ['\r', '\n'])) := by
  unfold readEscapeSequence
  refine LS.bind LS_consume ?_
  rintro c _ s1 he1 ⟨rfl, hf⟩
  refine LS_cur ?_
  refine LS.ite ?_ fun _ => ?_
  · rintro ⟨rfl, h⟩
    obtain ⟨cs, hcs⟩ := head?_eq_some h
    refine LS.bind (LS_consume_of hcs) ?_
    rintro _ _ s2 - ⟨rfl, rfl, -, hf2⟩
    exact LS.pure ⟨rfl, by rw [hf2, hf], .inr rfl⟩
  · exact LS.pure ⟨by simp, hf, .inl ⟨c, by simp⟩⟩

theorem LS_readUntilUnescapedDelimiter {s : Cursor} {q : Char} (hq : q ≠ '\\') :
    LS (readUntilUnescapedDelimiter q) s (fun v w s' => ∃ u, w = u ++ [q] ∧ StringBody q u v ∧ s'.fol = s.fol) := by
  unfold readUntilUnescapedDelimiter
  refine LS_fuel ?_
  refine LS.loop (fun acc w s' => StringBody q w acc ∧ s'.fol = s.fol) ?_ (Nat.lt_succ_self _) ⟨.nil, rfl⟩
  rintro acc w s1 hw ⟨hb, hf⟩
  refine LS.bind LS_consume ?_
  rintro c _ s2 he2 ⟨rfl, hf2⟩
  refine LS.ite ?_ fun hbs => LS.ite ?_ fun hd => ?_
  · rintro rfl
    refine LS.bind LS_readEscapeSequence ?_
    rintro r _ s3 he3 ⟨rfl, hf3, hr⟩
    refine LS.pure ⟨by simp, ?_, by rw [hf3, hf2, hf]⟩
    rw [List.append_nil]
    refine hb.append ?_
    rcases hr with ⟨c, rfl⟩ | rfl
    · exact .escape .nil
    · exact .escapeCRLF .nil
  · rintro rfl
    refine LS.pure ⟨w, by simp, hb, by rw [hf2, hf]⟩
  · refine LS.ite ?_ fun hnl => ?_
    · intro _
      refine LS_position (LS.throw fun hp => ⟨by simp [LexErr.syntax], Nat.le_refl _, ?_⟩)
      simp [LexErr.syntax]; omega
    · refine LS.pure ⟨by simp, ?_, by rw [hf2, hf]⟩
      rw [List.append_nil]
      exact hb.append (.plain hbs hd (fun h => hnl (.inl h)) (fun h => hnl (.inr h)) .nil)

theorem LS_readStringLiteral {s : Cursor} {q : Char} {r : Str} (h : s.rest = q :: r) (hq : q = '"' ∨ q = '\'') :
    LS readStringLiteral s (fun v w s' => ∃ u x, v = .lit (.string ⟨x, q⟩) ∧ w = q :: u ++ [q] ∧ StringBody q u x ∧
      s'.fol = s.fol) := by
  unfold readStringLiteral
  refine LS.bind (LS_consume_of h) ?_
  rintro d _ s1 he1 ⟨rfl, rfl, h1, hf1⟩
  refine LS.bind (LS_readUntilUnescapedDelimiter (by rcases hq with rfl | rfl <;> decide)) ?_
  · rintro x _ s2 he2 ⟨u, rfl, hb, hf⟩
    exact LS.pure ⟨u, x, rfl, by simp, hb, by rw [hf, hf1]⟩

/-! ## Regular expressions -/

theorem LS_readRegexpGroupBody {s : Cursor} : LS readRegexpGroupBody s (fun r w s' => r = w ∧ ClassText w ∧
    s'.fol = s.fol) := by
  unfold readRegexpGroupBody
  refine LS_fuel ?_
  refine LS.loop (fun acc w s' => acc = w ∧ (∀ x, ClassText x → ClassText (w ++ x)) ∧ s'.fol = s.fol) ?_
    (Nat.lt_succ_self _) ⟨rfl, fun _ h => h, rfl⟩
  rintro acc w s1 hw ⟨rfl, hc, hf⟩
  refine LS.bind LS_consume ?_
  rintro c _ s2 he2 ⟨rfl, hf2⟩
  refine LS.ite ?_ fun h1 => LS.ite ?_ fun h2 => ?_
  · rintro rfl
    refine LS.pure ⟨by simp, ?_, by rw [hf2, hf]⟩
    rw [List.append_nil]
    exact hc _ .close
  · rintro rfl
    refine LS.bind LS_consume ?_
    rintro d _ s3 he3 ⟨rfl, hf3⟩
    refine LS.pure ⟨by simp, by simp, ?_, by rw [hf3, hf2, hf]⟩
    intro x hx
    have := hc _ (.escape (c := d) hx)
    simpa using this
  · refine LS.pure ⟨by simp, by simp, ?_, by rw [hf2, hf]⟩
    intro x hx
    have := hc _ (.plain h1 h2 hx)
    simpa using this

theorem LS_readRegexpLiteral {s : Cursor} {r : Str} (h : s.rest = '/' :: r) :
    LS readRegexpLiteral s (fun v w s' => v = .lit (.regexp w) ∧ (∃ u flags, w = '/' :: u ++ flags ∧ RegexpText u ∧
      (∀ c ∈ flags, isIdPart c = true) ∧ NotHead isIdPart s'.rest) ∧ s'.fol = s.fol) := by
  refine LS.withPos fun hp => ?_
  unfold readRegexpLiteral
  refine LS_position ?_
  refine LS.bind (LS_consume_of h) ?_
  rintro _ _ s1 he1 ⟨rfl, rfl, h1, hf1⟩
  have hm1 := he1.off_lt_pos (by simp)
  have hp1 := he1.pos_le hp
  refine LS_fuel ?_
  refine LS.bind (R := fun b w s' => b = '/' :: w ∧ RegexpText w ∧ s'.fol = s.fol) ?_ ?_
  · refine LS.loop (fun acc w s' => acc = '/' :: w ∧ s'.fol = s.fol ∧
        ((∀ x, RegexpText x → RegexpText (w ++ x)) ∨
          ∃ w0, w = w0 ++ ['\\'] ∧ (∀ x, RegexpText x → RegexpText (w0 ++ x)) ∧ ∃ c cs, s'.rest = c :: cs ∧ isLT c = true))
      ?_ (Nat.lt_succ_self _) ⟨rfl, hf1, .inl fun _ h => h⟩
    rintro acc w s2 hw ⟨rfl, hf2, hinv⟩
    have hp2 := hw.pos_le hp1
    have hm2 := hw.pos_mono hp1
    refine LS.bind LS_consume ?_
    rintro c _ s3 he3 ⟨rfl, hf3⟩
    have hp3 := he3.pos_le hp2
    have hm3 := he3.pos_mono hp2
    refine LS.ite ?_ fun hnl => ?_
    · intro _
      refine LS_position (LS.throw fun _ => ⟨by simp [LexErr.syntax], ?_, ?_⟩)
      · simp [LexErr.syntax]; omega
      · simp [LexErr.syntax]; omega
    · rcases hinv with hinv | ⟨w0, rfl, hw0, c', cs', hcs', hlt⟩
      · refine LS.ite ?_ fun hsl => LS.ite ?_ fun hbs => LS.ite ?_ fun hbr => ?_
        · rintro rfl
          refine LS.pure ⟨by simp, ?_, by rw [hf3, hf2]⟩
          rw [List.append_nil]
          exact hinv _ .close
        · rintro rfl
          refine LS.bind LS_current ?_
          rintro d _ s3' - ⟨rfl, hs3, ds, hds⟩
          subst s3'
          refine LS.ite ?_ fun hlt => ?_
          · intro hlt
            refine LS.bind (LS_consume_of hds) ?_
            rintro d' _ s4 he4 ⟨hd', rfl, h4, hf4⟩
            subst d'
            refine LS.pure ⟨by simp, by simp, by rw [hf4, hf3, hf2], .inl ?_⟩
            intro x hx
            have hdn : d ≠ '\n' := by rintro rfl; revert hlt; decide
            simpa using hinv _ (.escape hdn hx)
          · refine LS.pure ⟨by simp, by simp, by rw [hf3, hf2], .inr ⟨w, by simp, hinv, d, ds, hds, by simpa using hlt⟩⟩
        · rintro rfl
          refine LS.bind LS_readRegexpGroupBody ?_
          rintro g _ s4 he4 ⟨rfl, hg, hf4⟩
          refine LS.pure ⟨by simp, by simp, by rw [hf4, hf3, hf2], .inl ?_⟩
          intro x hx
          simpa using hinv _ (.cls hg hx)
        · refine LS.pure ⟨by simp, by simp, by rw [hf3, hf2], .inl ?_⟩
          intro x hx
          simpa using hinv _ (.plain (by simp [hnl, hsl, hbs, hbr]) hx)
      · have hc : c = c' := by
          have := he3.rest; rw [hcs'] at this; simp at this; exact this.1.symm
        subst hc
        have h1 : c ≠ '/' := by rintro rfl; revert hlt; decide
        have h2 : c ≠ '\\' := by rintro rfl; revert hlt; decide
        have h3 : c ≠ '[' := by rintro rfl; revert hlt; decide
        simp only [h1, h2, h3, if_false]
        refine LS.pure ⟨by simp, by simp, by rw [hf3, hf2], .inl ?_⟩
        intro x hx
        simpa using hw0 _ (.escape hnl hx)
  · rintro b _ s2 he2 ⟨rfl, ht, hf2⟩
    refine LS.bind LS_readWhile ?_
    rintro fl _ s3 he3 ⟨rfl, hall, hnot, hf3⟩
    refine LS.pure ?_
    refine ⟨by simp, ⟨_, fl, by simp, ht, hall, by simpa using hnot⟩, by rw [hf3, hf2]⟩

end Fajt
