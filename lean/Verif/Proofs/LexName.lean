import Verif.Proofs.LexLit
/-!
# Names and templates meet the lexical grammar
-/
namespace Fajt
open Spec Lexer
set_option linter.unusedSectionVars false
variable [UnicodeID]

/-! ## Unicode escapes -/

theorem LS_readHexChar {s : Cursor} {start : Nat} (hst : start ≤ s.pos) :
    LS (readHexChar start) s (fun c w s' => w = [c] ∧ isHex c = true ∧ s'.fol = s.fol) := by
  refine LS.withPos fun hp => ?_
  unfold readHexChar
  refine LS.bind LS_consume ?_
  rintro c _ s1 he ⟨rfl, hf⟩
  refine LS.ite (fun hc => ?_) (fun hc => ?_)
  · exact LS.pure ⟨by simp, hc, hf⟩
  · have := he.pos_mono hp
    exact LS_position (LS.throw fun hp1 => ⟨by simp [LexErr.syntax], by simp [LexErr.syntax]; omega,
      by simp [LexErr.syntax]; omega⟩)

theorem LS_readCodePoint {s : Cursor} {start : Nat} {r : Str} (h : s.rest = '{' :: r) (hst : start ≤ s.pos) :
    LS (readCodePoint start) s (fun n w s' => ∃ ds, w = '{' :: ds ++ ['}'] ∧ ds ≠ [] ∧ (∀ d ∈ ds, isHex d = true) ∧
      hexVal ds = n ∧ s'.fol = s.fol) := by
  refine LS.withPos fun hp => ?_
  unfold readCodePoint
  refine LS.bind (LS_consume_of h) ?_
  rintro _ _ s1 he1 ⟨rfl, rfl, h1, hf1⟩
  have hp1 := he1.pos_le hp
  have hm1 := he1.pos_mono hp
  refine LS_fuel ?_
  refine LS.bind (R := fun ds w s' => w = ds ++ ['}'] ∧ ds ≠ [] ∧ (∀ d ∈ ds, isHex d = true) ∧ s'.fol = s.fol) ?_ ?_
  · refine LS.loop (fun acc w s' => acc = w ∧ (∀ d ∈ w, isHex d = true) ∧ s'.fol = s.fol) ?_ (Nat.lt_succ_self _)
      ⟨rfl, by simp, hf1⟩
    rintro acc w s2 hw ⟨rfl, hall, hf2⟩
    have hm2 := hw.pos_mono hp1
    refine LS.bind (LS_readHexChar (by omega)) ?_
    rintro c _ s3 he3 ⟨rfl, hc, hf3⟩
    refine LS.bind LS_current ?_
    rintro d _ s3' - ⟨rfl, hs3, cs, hcs⟩
    subst s3'
    have hall' : ∀ d ∈ acc ++ [c], isHex d = true := by
      intro d hd
      rcases List.mem_append.1 hd with h | h
      · exact hall d h
      · simp at h; rw [h]; exact hc
    refine LS.ite ?_ fun _ => ?_
    · rintro rfl
      refine LS.bind (LS_consume_of hcs) ?_
      rintro _ _ s4 he4 ⟨rfl, rfl, h4, hf4⟩
      exact LS.pure ⟨by simp, by simp, hall', by rw [hf4, hf3, hf2]⟩
    · exact LS.pure ⟨by simp, by simp, by simpa using hall', by rw [hf3, hf2]⟩
  · rintro ds _ s2 he2 ⟨rfl, hne, hall, hf2⟩
    have hm2 := he2.pos_mono hp1
    refine LS.ite (fun _ => ?_) (fun _ => ?_)
    · exact LS.pure ⟨ds, by simp, hne, hall, rfl, hf2⟩
    · exact LS_position (LS.throw fun hp1 => ⟨by simp [LexErr.syntax], by simp [LexErr.syntax]; omega,
        by simp [LexErr.syntax]; omega⟩)

theorem LS_read4DigitHex {s : Cursor} {start : Nat} (hst : start ≤ s.pos) :
    LS (read4DigitHex start) s (fun n w s' => ∃ a b c d, w = [a, b, c, d] ∧ isHex a = true ∧ isHex b = true ∧
      isHex c = true ∧ isHex d = true ∧ hexVal w = n ∧ s'.fol = s.fol) := by
  refine LS.withPos fun hp => ?_
  unfold read4DigitHex
  refine LS.bind (LS_readHexChar hst) ?_
  rintro a _ s1 he1 ⟨rfl, ha, hf1⟩
  have hp1 := he1.pos_le hp
  have hm1 := he1.pos_mono hp
  refine LS.bind (LS_readHexChar (by omega)) ?_
  rintro b _ s2 he2 ⟨rfl, hb, hf2⟩
  have hp2 := he2.pos_le hp1
  have hm2 := he2.pos_mono hp1
  refine LS.bind (LS_readHexChar (by omega)) ?_
  rintro c _ s3 he3 ⟨rfl, hc, hf3⟩
  have hp3 := he3.pos_le hp2
  have hm3 := he3.pos_mono hp2
  refine LS.bind (LS_readHexChar (by omega)) ?_
  rintro d _ s4 he4 ⟨rfl, hd, hf4⟩
  exact LS.pure ⟨a, b, c, d, by simp, ha, hb, hc, hd, by simp, by rw [hf4, hf3, hf2, hf1]⟩

theorem charOfNat?_eq {n : Nat} {c : Char} (h : charOfNat? n = some c) : n = c.toNat := by
  unfold charOfNat? at h
  split at h
  · rename_i hv
    cases h
    unfold Char.ofNat
    rw [dif_pos hv]
    unfold Char.ofNatAux Char.toNat
    simp
  · cases h

theorem LS_readUnicodeEscapeSequence {s : Cursor} {r : Str} (h : s.rest = '\\' :: r) :
    LS readUnicodeEscapeSequence s (fun c w s' => Escape w c ∧ s'.fol = s.fol) := by
  refine LS.withPos fun hp => ?_
  unfold readUnicodeEscapeSequence
  refine LS_position ?_
  refine LS.bind (LS_consume_of h) ?_
  rintro _ _ s1 he1 ⟨rfl, rfl, h1, hf1⟩
  have hp1 := he1.pos_le hp
  have hm1 := he1.pos_mono hp
  refine LS.bind LS_consume ?_
  rintro u _ s2 he2 ⟨rfl, hf2⟩
  have hp2 := he2.pos_le hp1
  have hm2 := he2.pos_mono hp1
  refine LS.ite (fun _ => ?_) (fun hu => ?_)
  · exact LS_position (LS.throw fun hp1 => ⟨by simp [LexErr.syntax], by simp [LexErr.syntax]; omega,
      by simp [LexErr.syntax]; omega⟩)
  · have hu : u = 'u' := by simpa using hu
    subst hu
    refine LS.bind (R := fun n w s' => s'.fol = s.fol ∧ ∀ ch : Char, n = ch.toNat → Escape ('\\' :: 'u' :: w) ch) ?_ ?_
    · unfold readEscapeDigits
      refine LS.bind LS_current ?_
      rintro d _ s3' - ⟨rfl, hs3, cs, hcs⟩
      subst s3'
      refine LS.ite ?_ fun _ => ?_
      · rintro rfl
        refine (LS_readCodePoint hcs (by omega)).mono ?_
        rintro n w s3 - ⟨ds, rfl, hne, hall, hv, hf⟩
        exact ⟨by rw [hf, hf2, hf1], fun ch hch => by simpa using Escape.braces hne hall (hv.trans hch)⟩
      · refine (LS_read4DigitHex (by omega)).mono ?_
        rintro n w s3 - ⟨a, b, c, d, rfl, ha, hb, hc, hd, hv, hf⟩
        exact ⟨by rw [hf, hf2, hf1], fun ch hch => by simpa using Escape.four ha hb hc hd (hv.trans hch)⟩
    · rintro n w s3 he3 ⟨hf3, hesc⟩
      cases hc : charOfNat? n with
      | some c =>
        refine LS.pure ⟨?_, hf3⟩
        simpa using hesc c (charOfNat?_eq hc)
      | none =>
        exact LS_position (LS.throw fun hp1 => ⟨by simp, by simp, by simp; omega⟩)

theorem LS_readAndExpand {s : Cursor} {r : Str} (h : s.rest = '\\' :: r) {isStart : Bool} :
    LS (readAndExpandUnicodeEscapeSequence isStart) s (fun c w s' => Escape w c ∧
      (if isStart then isIdStart c else isIdPart c) = true ∧ s'.fol = s.fol) := by
  refine LS.withPos fun hp => ?_
  unfold readAndExpandUnicodeEscapeSequence
  refine LS_position ?_
  refine LS.bind (LS_readUnicodeEscapeSequence h) ?_
  rintro c w s1 he1 ⟨hesc, hf⟩
  have hp1 := he1.pos_le hp
  have hm1 := he1.pos_mono hp
  refine LS.ite (fun _ => ?_) (fun hu => ?_)
  · exact LS_position (LS.throw fun hp1 => ⟨by simp [LexErr.syntax], by simp [LexErr.syntax]; omega,
      by simp [LexErr.syntax]; omega⟩)
  · exact LS.pure ⟨by simpa using hesc, by simpa using hu, hf⟩

theorem Spec.Escape.ne_nil {w : Str} {c : Char} (h : Escape w c) : w ≠ [] := by
  cases h <;> simp

theorem Spec.Spells.append {v w m n : Str} (h1 : Spells v m) (h2 : Spells w n) : Spells (v ++ w) (m ++ n) := by
  induction h1 with
  | nil => exact h2
  | plain _ ih => exact .plain ih
  | escape he _ ih => rw [List.append_assoc]; exact .escape he ih

theorem Spec.IdentName.snoc {n : Str} {c : Char} (h : n = [] ∧ isIdStart c = true ∨ IdentName n ∧ isIdPart c = true) :
    IdentName (n ++ [c]) := by
  rcases h with ⟨rfl, h⟩ | ⟨⟨⟨a, r, rfl, ha⟩, hall⟩, h⟩
  · refine ⟨⟨c, [], rfl, h⟩, ?_⟩
    intro d hd; simp at hd; rw [hd]; exact idStart_idPart h
  · refine ⟨⟨a, r ++ [c], rfl, ha⟩, ?_⟩
    intro d hd
    rcases List.mem_append.1 hd with h' | h'
    · exact hall d h'
    · simp at h'; rw [h']; exact h

theorem LS_readIdentifierWord {s : Cursor} (h : ∃ c r, s.rest = c :: r ∧ (isIdStart c = true ∨ c = '\\')) :
    LS readIdentifierWord s (fun n w s' => NameText w n s'.rest ∧ s'.fol = s.fol) := by
  obtain ⟨c0, r0, h0, hc0⟩ := h
  unfold readIdentifierWord
  refine LS_fuel ?_
  refine LS.loop (fun n w s' => Spells w n ∧ s'.fol = s.fol ∧ (n = [] ∧ s' = s ∨ IdentName n)) ?_ (Nat.lt_succ_self _)
    ⟨.nil, rfl, .inl ⟨rfl, rfl⟩⟩
  rintro n w s1 hw ⟨hsp, hf, hn⟩
  refine LS_cur ?_
  have hmax : ∀ c, s1.rest.head? = some c → ¬ isIdPart c = true → c ≠ '\\' → IdentName n := by
    intro c hc hp hb
    rcases hn with ⟨rfl, rfl⟩ | hn
    · rw [h0] at hc; simp at hc; subst hc
      rcases hc0 with h | h
      · exact absurd (idStart_idPart h) hp
      · exact absurd h hb
    · exact hn
  cases hr : s1.rest with
  | nil =>
    refine LS.pure ⟨⟨by simpa using hsp, ?_, by simp [NotHead, hr]⟩, hf⟩
    rcases hn with ⟨-, rfl⟩ | hn
    · rw [h0] at hr; cases hr
    · exact hn
  | cons c cs =>
    refine LS.ite (fun hp => ?_) fun hp => LS.ite ?_ fun hb => ?_
    · refine LS.bind (LS_consume_of hr) ?_
      rintro _ _ s2 he2 ⟨rfl, rfl, h2, hf2⟩
      refine LS.pure ⟨by simp, by simpa using hsp.append (.plain .nil), by rw [hf2, hf], .inr (.snoc ?_)⟩
      rcases hn with ⟨rfl, rfl⟩ | hn
      · left
        rw [h0] at hr; cases hr
        rcases hc0 with h | rfl
        · exact ⟨rfl, h⟩
        · rw [isIdPart_bslash] at hp; cases hp
      · exact .inr ⟨hn, hp⟩
    · rintro rfl
      refine LS.bind (LS_readAndExpand hr) ?_
      rintro d e s2 he2 ⟨hesc, hv, hf2⟩
      refine LS.pure ⟨by simpa using hesc.ne_nil, ?_, by rw [hf2, hf], .inr (.snoc ?_)⟩
      · have := hsp.append (.escape hesc .nil)
        simpa using this
      · rcases hn with ⟨rfl, rfl⟩ | hn
        · exact .inl ⟨rfl, by simpa using hv⟩
        · refine .inr ⟨hn, ?_⟩
          obtain ⟨⟨a, r, rfl, -⟩, -⟩ := hn
          simpa using hv
    · refine LS.pure ⟨⟨by simpa using hsp, hmax c (by simp [hr]) hp hb, ?_⟩, hf⟩
      intro d hd
      rw [hr] at hd; simp at hd; subst hd
      simp [hp, hb]

/-! ## The keyword table -/

theorem fromStr_some {w : Str} {k : Keyword} (h : Keyword.fromStr w = some k) : k.asStr = w := by
  unfold Keyword.fromStr at h
  have := List.find?_some h
  simpa using this

theorem all_complete (k : Keyword) : k ∈ Keyword.all := by cases k <;> decide

theorem fromStr_none {w : Str} (h : Keyword.fromStr w = none) (k : Keyword) : k.asStr ≠ w := by
  unfold Keyword.fromStr at h
  have := List.find?_eq_none.1 h k (all_complete k)
  simpa using this

theorem LS_readIdentifierOrKeyword {s : Cursor} (h : ∃ c r, s.rest = c :: r ∧ (isIdStart c = true ∨ c = '\\'))
    (regex : Bool) : LS readIdentifierOrKeyword s (fun v w s' => Lexeme regex v w s'.rest ∧ s'.fol = s.fol) := by
  unfold readIdentifierOrKeyword
  refine LS.bind (LS_readIdentifierWord h) ?_
  rintro n w s1 he ⟨hn, hf⟩
  cases hk : Keyword.fromStr n with
  | some k =>
    refine LS.pure ⟨?_, hf⟩
    rw [← fromStr_some hk] at hn
    simpa using Lexeme.keyword hn
  | none => exact LS.pure ⟨by simpa using Lexeme.ident hn (fromStr_none hk), hf⟩

/-! ## Templates -/

theorem LS_readTemplatePart {s : Cursor} : LS readTemplatePart s (fun r w s' =>
    (∃ u, w = u ++ (if r.2 then ['$', '{'] else ['`']) ∧ TemplateBody u r.1) ∧ s'.fol = s.fol) := by
  unfold readTemplatePart
  refine LS_fuel ?_
  refine LS.loop (fun a w s' => s'.fol = s.fol ∧
      if a.2 then ∃ w0, w = w0 ++ ['\\'] ∧
        ∀ x y, TemplateBody x y → x <+: '\\' :: s'.rest → TemplateBody (w0 ++ x) (a.1 ++ y)
      else (∀ x y, TemplateBody x y → x <+: s'.rest → TemplateBody (w ++ x) (a.1 ++ y)))
    ?_ (Nat.lt_succ_self _) ⟨rfl, by simp; exact fun _ _ h _ => h⟩
  rintro ⟨acc, esc⟩ w s1 hw ⟨hf, hinv⟩
  refine LS.bind LS_consume ?_
  rintro c _ s2 he2 ⟨rfl, hf2⟩
  have hr := he2.rest
  refine LS.ite (fun h1 => ?_) fun h1 => LS.ite (fun h2 => ?_) fun h2 => ?_
  · simp only [Bool.and_eq_true, Bool.not_eq_true', beq_iff_eq] at h1
    obtain ⟨rfl, rfl⟩ := h1
    refine LS.pure ⟨⟨w, by simp, ?_⟩, by rw [hf2, hf]⟩
    simpa using hinv [] [] .nil (List.nil_prefix)
  · simp only [Bool.and_eq_true, Bool.not_eq_true', beq_iff_eq] at h2
    obtain ⟨rfl, rfl⟩ := h2
    refine LS.bind LS_current ?_
    rintro d _ s3' - ⟨rfl, hs3, cs, hcs⟩
    subst s3'
    refine LS.ite ?_ fun hd => ?_
    · rintro rfl
      refine LS.bind (LS_consume_of hcs) ?_
      rintro _ _ s4 he4 ⟨rfl, rfl, h4, hf4⟩
      refine LS.pure ⟨⟨w, by simp, ?_⟩, by rw [hf4, hf2, hf]⟩
      simpa using hinv [] [] .nil (List.nil_prefix)
    · refine LS.pure ⟨by simp, by rw [hf2, hf], ?_⟩
      rw [if_neg (by simp)]
      intro x y hx hp
      have := hinv ('$' :: x) ('$' :: y) (.plain (by decide) (by decide) ?_ hx) ?_
      · simpa using this
      · rintro ⟨-, hb⟩
        obtain ⟨cs', rfl⟩ := head?_eq_some hb
        obtain ⟨z, hz⟩ := hp
        rw [hcs] at hz; simp at hz
        exact hd hz.1.symm
      · rw [hr]; simpa using hp
  · by_cases hes : esc = true
    · subst hes
      rw [if_pos rfl] at hinv
      obtain ⟨w0, rfl, hinv⟩ := hinv
      refine LS.pure ⟨by simp, by rw [hf2, hf], ?_⟩
      rw [if_neg (by simp)]
      intro x y hx hp
      have := hinv ('\\' :: c :: x) (c :: y) (.escape hx) (by rw [hr]; simpa using hp)
      simpa using this
    · have hes : esc = false := by simpa using hes
      subst hes
      rw [if_neg (by simp)] at hinv
      simp only [Bool.not_false, Bool.true_and, beq_iff_eq] at h1 h2
      by_cases hbs : c = '\\'
      · subst hbs
        refine LS.pure ⟨by simp, by rw [hf2, hf], ?_⟩
        rw [if_pos (by simp)]
        refine ⟨w, by simp, ?_⟩
        intro x y hx hp
        have := hinv x y hx (by rw [hr]; simpa using hp)
        simpa using this
      · refine LS.pure ⟨by simp, by rw [hf2, hf], ?_⟩
        rw [if_neg (by simpa using hbs)]
        intro x y hx hp
        have := hinv (c :: x) (c :: y) (.plain hbs h1 (fun h => h2 h.1) hx) (by rw [hr]; simpa using hp)
        simpa [hbs] using this

theorem LS_readTemplateLiteralHead {s : Cursor} {r : Str} (h : s.rest = '`' :: r) (regex : Bool) :
    LS readTemplateLiteralHead s (fun v w s' => Lexeme regex v w s'.rest ∧ s'.fol = s.fol) := by
  unfold readTemplateLiteralHead
  refine LS.bind (LS_consume_of h) ?_
  rintro _ _ s1 he1 ⟨rfl, rfl, h1, hf1⟩
  refine LS.bind LS_readTemplatePart ?_
  rintro ⟨v, sub⟩ _ s2 he2 ⟨⟨u, rfl, hb⟩, hf⟩
  cases sub with
  | true => exact LS.pure ⟨by simpa using Lexeme.templateHead hb, by rw [hf, hf1]⟩
  | false => exact LS.pure ⟨by simpa using Lexeme.template hb, by rw [hf, hf1]⟩

theorem LS_readTemplateLiteralMiddleOrTail {s : Cursor} :
    LS readTemplateLiteralMiddleOrTail s (fun t w s' => Continuation t.value w ∧ t.fol = false ∧
      t.span = ⟨s.pos, s'.pos⟩ ∧ s'.fol = s.fol) := by
  refine LS.withPos fun hp => ?_
  unfold readTemplateLiteralMiddleOrTail
  refine LS_position ?_
  refine LS.bind LS_consume ?_
  rintro c _ s1 he1 ⟨rfl, hf1⟩
  refine LS.ite ?_ fun hc => ?_
  · intro _
    have := he1.off_lt_pos (by simp)
    refine LS.throw fun hp1 => ⟨by simp [LexErr.syntax], by simp [LexErr.syntax], ?_⟩
    simp [LexErr.syntax]
    omega
  · have hc : c = '}' := by simpa using hc
    subst hc
    refine LS.bind LS_readTemplatePart ?_
    rintro ⟨v, sub⟩ _ s2 he2 ⟨⟨u, rfl, hb⟩, hf⟩
    refine LS_position ?_
    refine LS.pure ⟨?_, rfl, rfl, by rw [hf, hf1]⟩
    cases sub with
    | true => simpa using Continuation.middle hb
    | false => simpa using Continuation.tail hb

end Fajt
