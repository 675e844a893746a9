import Verif.Proofs.NodePlace
import Verif.Proofs.NodeFacts
import Verif.Proofs.LexBlank
import Verif.Spec.Text
/-!
# From tokens to the text of the source
-/
set_option linter.unusedSectionVars false
namespace Fajt
open Spec
variable [UnicodeID]

/-! ## Line terminators in trivia -/

theorem trivia_fol {html fol fol' : Bool} {w rest : Str} (h : Trivia html fol w rest fol') (hf : fol' = false) :
    fol = false ∧ ∀ c ∈ w, isLT c = false := by
  induction h with
  | nil => exact ⟨hf, by simp⟩
  | ws hc _ ih =>
    refine ⟨(ih hf).1, fun d hd => ?_⟩
    rcases List.mem_cons.1 hd with rfl | hd
    · exact not_lt_of_ws hc
    · exact (ih hf).2 d hd
  | lt _ _ ih => exact absurd (ih hf).1 (by simp)
  | line _ _ ih => exact absurd (ih hf).1 (by simp)
  | htmlOpen _ _ _ ih => exact absurd (ih hf).1 (by simp)
  | htmlClose _ _ _ ih => exact absurd (ih hf).1 (by simp)
  | block _ _ ih =>
    obtain ⟨h1, h2⟩ := ih hf
    simp only [Bool.or_eq_false_iff] at h1
    refine ⟨h1.1, fun d hd => ?_⟩
    simp only [List.cons_append, List.mem_cons, List.mem_append] at hd
    rcases hd with rfl | rfl | hd | rfl | rfl | hd
    · decide
    · decide
    · have := h1.2
      rw [List.any_eq_false] at this
      simpa using this d hd
    · decide
    · decide
    · exact h2 d hd

/-! ## Line terminators in spellings -/

theorem idPart_not_lt {c : Char} (h : isIdPart c = true) : isLT c = false := by
  cases hl : isLT c with
  | false => rfl
  | true => have := (blank_facts (c := c) (by simp [isBlank, hl])).1; rw [this] at h; cases h

theorem hex_not_lt {c : Char} (h : isHex c = true) : isLT c = false := by
  cases hl : isLT c with
  | false => rfl
  | true => have := (blank_facts (c := c) (by simp [isBlank, hl])).2.2.2.1; rw [this] at h; cases h

theorem Spec.Escape.not_lt {e : Str} {c : Char} (h : Escape e c) : ∀ d ∈ e, isLT d = false := by
  cases h with
  | four h1 h2 h3 h4 _ =>
    intro d hd
    simp only [List.mem_cons, List.not_mem_nil, or_false] at hd
    rcases hd with rfl | rfl | rfl | rfl | rfl | rfl
    · decide
    · decide
    all_goals exact hex_not_lt ‹_›
  | braces _ h _ =>
    intro d hd
    simp only [List.cons_append, List.mem_cons, List.mem_append, List.not_mem_nil, or_false] at hd
    rcases hd with rfl | rfl | rfl | hd | rfl
    · decide
    · decide
    · decide
    · exact hex_not_lt (h d hd)
    · decide

theorem Spec.Spells.not_lt {w n : Str} (h : Spells w n) (hn : ∀ c ∈ n, isIdPart c = true) : ∀ d ∈ w, isLT d = false := by
  induction h with
  | nil => simp
  | plain _ ih =>
    intro d hd
    rcases List.mem_cons.1 hd with rfl | hd
    · exact idPart_not_lt (hn _ (by simp))
    · exact ih (fun c hc => hn c (by simp [hc])) d hd
  | escape he _ ih =>
    intro d hd
    rcases List.mem_append.1 hd with hd | hd
    · exact he.not_lt d hd
    · exact ih (fun c hc => hn c (by simp [hc])) d hd

theorem punct_not_lt (p : Punct) : ∀ d ∈ p.asStr, isLT d = false := by
  cases p <;> decide

/-- Punctuators, keywords and names are spelt without line terminators. -/
theorem lexeme_not_lt {regex : Bool} {v : TokVal} {w rest : Str} (h : Lexeme regex v w rest)
    (hv : (∃ p, v = .punct p) ∨ (∃ k, v = .keyword k) ∨ ∃ n, v = .ident n) : ∀ d ∈ w, isLT d = false := by
  cases h with
  | punct => exact punct_not_lt _
  | keyword h => exact h.spells.not_lt h.valid.2
  | ident h => exact h.spells.not_lt h.valid.2
  | _ => simp at hv

/-! ## Places of tokens -/

theorem Spec.SourceTokens.split {as bs : List Token} {pre src : Str} {fol : Bool} (h : SourceTokens pre fol src (as ++ bs)) :
    ∃ S1 S2 fol', src = S1 ++ S2 ∧ SourceTokens (pre ++ S1) fol' S2 bs ∧ (as = [] → S1 = []) ∧
      (∀ a ∈ as.getLast?, ∃ q w, S1 = q ++ w ∧ TokAt (pre ++ src) a (pre ++ q) w S2) := by
  induction as generalizing pre src fol with
  | nil => exact ⟨[], src, fol, rfl, by simpa using h, fun _ => rfl, by simp⟩
  | cons a as ih =>
    cases h with
    | @cons _ tr w rest html _ fol1 fol2 _ _ h1 h2 h3 h4 h5 h6 =>
      obtain ⟨S1, S2, fol', rfl, h7, hnil, h8⟩ := ih h6
      refine ⟨tr ++ (w ++ S1), S2, fol', by simp, by simpa using h7, by simp, ?_⟩
      intro b hb
      cases as with
      | nil =>
        simp only [List.getLast?_singleton, Option.mem_some_iff] at hb
        subst hb
        have := hnil rfl
        subst this
        refine ⟨tr, w, by simp, by simp, h3, ?_, by simpa using h5⟩
        rcases h4 with h4 | h4
        · exact .inl (by simpa using h4.1)
        · exact .inr h4
      | cons x as =>
        obtain ⟨p, w', h9, h10⟩ := h8 b (by simpa using hb)
        exact ⟨tr ++ (w ++ p), w', by simp [h9], by simpa using h10⟩

theorem starts_head_ne {t : Token} {w rest : Str} (h : (∃ regex, Lexeme regex t.value w rest) ∨ Continuation t.value w)
    (hs : Starts t) : w.head? ≠ some '}' := by
  rcases h with ⟨regex, h⟩ | h
  · cases hv : t.value.stable with
    | true => exact (stable_head h hv).1
    | false =>
      obtain ⟨h1, h2⟩ := hs
      generalize t.value = v at h h1 h2 hv
      cases h with
      | punct hp hr =>
        rename_i p
        cases p <;> first | exact absurd rfl h1 | decide
      | regexp => simp
      | _ => simp [TokVal.stable] at hv
  · obtain ⟨h1, h2⟩ := hs
    generalize t.value = v at h h1 h2
    cases h with
    | middle => exact absurd rfl (h2 _).1
    | tail => exact absurd rfl (h2 _).2

/-- Two adjacent tokens with what is between them. -/
theorem next_to {src : Str} {xs ys : List Token} {a b : Token} (h : SourceTokens [] true src (xs ++ a :: b :: ys)) :
    ∃ p wa tr wb rest, ∃ html fol fol', src = p ++ (wa ++ (tr ++ (wb ++ rest))) ∧ TokAt src a p wa (tr ++ (wb ++ rest)) ∧
      TokAt src b (p ++ wa ++ tr) wb rest ∧ Trivia html fol tr (wb ++ rest) fol' ∧
      (b.fol = false → Starts b → ∀ c ∈ tr, isLT c = false) := by
  rw [show xs ++ a :: b :: ys = (xs ++ [a]) ++ b :: ys by simp] at h
  obtain ⟨S1, S2, fol', rfl, h1, -, h2⟩ := h.split
  obtain ⟨p, wa, h3, h4⟩ := h2 a (by simp)
  simp only [List.nil_append] at h1 h3 h4
  subst h3
  cases h1 with
  | @cons _ tr w rest html _ fol1 fol2 _ _ h5 h6 h7 h8 h9 h10 =>
    have h8' : (∃ regex, Lexeme regex b.value w rest) ∨ Continuation b.value w := by
      rcases h8 with h8 | h8
      · exact .inl h8.1
      · exact .inr h8
    refine ⟨p, wa, tr, w, rest, html, _, fol1, by simp, h4, ⟨by simp, h7, h8', h9⟩, h5, ?_⟩
    intro hb hs
    refine (trivia_fol h5 ?_).2
    rcases h6 with h6 | h6
    · rw [← h6, hb]
    · exact absurd h6.2 (starts_head_ne h8' hs)

/-- The spelling of a punctuator. -/
theorem Spec.TokAt.punct {src pre w rest : Str} {t : Token} {p : Punct} (h : TokAt src t pre w rest) (hp : t.value = .punct p) :
    w = p.asStr := by
  obtain ⟨-, -, h, -⟩ := h
  rw [hp] at h
  rcases h with ⟨_, h⟩ | h
  · cases h; rfl
  · cases h

/-- Two adjacent tokens; the second one does not count as the first one on its line. -/
theorem adjacent {src : Str} {xs ys : List Token} {a b : Token} (h : SourceTokens [] true src (xs ++ a :: b :: ys))
    (hb : b.fol = false) (hs : Starts b) :
    ∃ p wa mid wb rest, src = p ++ (wa ++ (mid ++ (wb ++ rest))) ∧ TokAt src a p wa (mid ++ (wb ++ rest)) ∧
      TokAt src b (p ++ wa ++ mid) wb rest ∧ ∀ c ∈ mid, isLT c = false := by
  rw [show xs ++ a :: b :: ys = (xs ++ [a]) ++ b :: ys by simp] at h
  obtain ⟨S1, S2, fol', rfl, h1, -, h2⟩ := h.split
  obtain ⟨p, wa, h3, h4⟩ := h2 a (by simp)
  simp only [List.nil_append] at h1 h3 h4
  subst h3
  cases h1 with
  | @cons _ tr w rest html _ fol1 fol2 _ _ h5 h6 h7 h8 h9 h10 =>
    have h8' : (∃ regex, Lexeme regex b.value w rest) ∨ Continuation b.value w := by
      rcases h8 with h8 | h8
      · exact .inl h8.1
      · exact .inr h8
    refine ⟨p, wa, tr, w, rest, by simp, h4, ⟨by simp, h7, h8', h9⟩, ?_⟩
    refine (trivia_fol h5 ?_).2
    rcases h6 with h6 | h6
    · rw [← h6, hb]
    · exact absurd h6.2 (starts_head_ne h8' hs)

theorem adjacent_between {src : Str} {xs ys : List Token} {a b : Token} (h : SourceTokens [] true src (xs ++ a :: b :: ys))
    (hb : b.fol = false) (hs : Starts b) : NoLineBreak src a.span.stop b.span.start := by
  obtain ⟨p, wa, mid, wb, rest, h1, h2, h3, h4⟩ := adjacent h hb hs
  refine ⟨p ++ wa, mid, wb ++ rest, by simp [h1], ?_, ?_, h4⟩
  · rw [h2.2.2.2]
  · rw [h3.2.2.2]

/-- The spelling of the token has no line terminators. -/
def Plain (t : Token) : Prop := (∃ p, t.value = .punct p) ∨ (∃ k, t.value = .keyword k) ∨ ∃ n, t.value = .ident n

theorem Spec.TokAt.not_lt {src pre w rest : Str} {t : Token} (h : TokAt src t pre w rest) (hp : Plain t) : ∀ c ∈ w, isLT c = false := by
  obtain ⟨-, -, h, -⟩ := h
  rcases h with ⟨_, h⟩ | h
  · exact lexeme_not_lt h hp
  · unfold Plain at hp
    generalize t.value = v at h hp
    cases h <;> simp at hp

theorem adjacent_from {src : Str} {xs ys : List Token} {a b : Token} (h : SourceTokens [] true src (xs ++ a :: b :: ys))
    (hb : b.fol = false) (hs : Starts b) (ha : Plain a) : NoLineBreak src a.span.start b.span.start := by
  obtain ⟨p, wa, mid, wb, rest, h1, h2, h3, h4⟩ := adjacent h hb hs
  refine ⟨p, wa ++ mid, wb ++ rest, by simp [h1], ?_, ?_, ?_⟩
  · rw [h2.2.2.2]
  · rw [h3.2.2.2]; simp
  · intro c hc
    rcases List.mem_append.1 hc with hc | hc
    · exact h2.not_lt ha c hc
    · exact h4 c hc

theorem adjacent_to {src : Str} {xs ys : List Token} {a b : Token} (h : SourceTokens [] true src (xs ++ a :: b :: ys))
    (hb : b.fol = false) (hs : Starts b) (ha : Plain b) : NoLineBreak src a.span.stop b.span.stop := by
  obtain ⟨p, wa, mid, wb, rest, h1, h2, h3, h4⟩ := adjacent h hb hs
  refine ⟨p ++ wa, mid ++ wb, rest, by simp [h1], ?_, ?_, ?_⟩
  · rw [h2.2.2.2]
  · rw [h3.2.2.2]; simp
  · intro c hc
    rcases List.mem_append.1 hc with hc | hc
    · exact h4 c hc
    · exact h3.not_lt ha c hc

theorem adjacent_all {src : Str} {xs ys : List Token} {a b : Token} (h : SourceTokens [] true src (xs ++ a :: b :: ys))
    (hb : b.fol = false) (hs : Starts b) (ha : Plain a) (hp : Plain b) : NoLineBreak src a.span.start b.span.stop := by
  obtain ⟨p, wa, mid, wb, rest, h1, h2, h3, h4⟩ := adjacent h hb hs
  refine ⟨p, wa ++ (mid ++ wb), rest, by simp [h1], ?_, ?_, ?_⟩
  · rw [h2.2.2.2]
  · rw [h3.2.2.2]; simp
  · intro c hc
    simp only [List.mem_append] at hc
    rcases hc with hc | hc | hc
    · exact h2.not_lt ha c hc
    · exact h4 c hc
    · exact h3.not_lt hp c hc

/-! ## Tokens of the source -/

theorem Spec.SourceTokens.mem {src : Str} {ts : List Token} {t : Token} (h : SourceTokens [] true src ts) (ht : t ∈ ts) :
    ∃ p w rest, TokAt src t p w rest := by
  obtain ⟨as, bs, rfl⟩ := List.append_of_mem ht
  rw [show as ++ t :: bs = (as ++ [t]) ++ bs by simp] at h
  obtain ⟨S1, S2, fol', e, h1, -, h2⟩ := h.split
  obtain ⟨p, w, -, h4⟩ := h2 t (by simp)
  simp only [List.nil_append] at h4
  exact ⟨p, w, S2, h4⟩

theorem Spec.SourceTokens.ordered {pre src : Str} {fol : Bool} {xs ys : List Token} {a b : Token}
    (h : SourceTokens pre fol src (xs ++ a :: ys)) (hb : b ∈ ys) :
    ∃ pa wa mid wb rest, pre ++ src = pa ++ (wa ++ (mid ++ (wb ++ rest))) ∧ TokAt (pre ++ src) a pa wa (mid ++ (wb ++ rest)) ∧
      TokAt (pre ++ src) b (pa ++ wa ++ mid) wb rest := by
  rw [show xs ++ a :: ys = (xs ++ [a]) ++ ys by simp] at h
  obtain ⟨S1, S2, fol', rfl, h1, -, h2⟩ := h.split
  obtain ⟨pa, wa, h3, h4⟩ := h2 a (by simp)
  obtain ⟨us, vs, rfl⟩ := List.append_of_mem hb
  rw [show us ++ b :: vs = (us ++ [b]) ++ vs by simp] at h1
  obtain ⟨T1, T2, fol'', rfl, h5, -, h6⟩ := h1.split
  obtain ⟨pb, wb, h7, h8⟩ := h6 b (by simp)
  subst h3 h7
  exact ⟨pre ++ pa, wa, pb, wb, T2, by simp, by simpa using h4, by simpa using h8⟩

end Fajt
