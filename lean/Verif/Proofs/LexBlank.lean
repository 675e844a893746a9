import Verif.Proofs.LexTokens
/-!
# Consequences of the exactness of `read_all`: context of a token, and lexemes separated by blanks
-/
namespace Fajt
open Spec Lexer
set_option linter.unusedSectionVars false
variable [UnicodeID]

/-! ## The context of a token -/

theorem tokens_mem {html regex : Bool} {pre src : Str} {fol : Bool} {ts : List Token} (h : Tokens html regex pre fol src ts)
    {t : Token} (ht : t ∈ ts) : ∃ u w rest, pre ++ src = u ++ (w ++ rest) ∧ (∃ x, u = pre ++ x) ∧ w ≠ [] ∧
      Lexeme regex t.value w rest ∧ t.span = ⟨posAfter 0 0 u, posAfter 0 0 (u ++ w)⟩ ∧ NoTrivia t.fol (w ++ rest) := by
  induction h with
  | nil => cases ht
  | @cons pre tr w rest fol t' ts htr hfl hnt hw hlex hsp _ ih =>
    rcases List.mem_cons.1 ht with rfl | ht
    · exact ⟨pre ++ tr, w, rest, by simp, ⟨tr, rfl⟩, hw, hlex, hsp, hnt⟩
    · obtain ⟨u, w', rest', h1, ⟨x, hx⟩, h2⟩ := ih ht
      exact ⟨u, w', rest', by rw [← h1]; simp, ⟨tr ++ w ++ x, by rw [hx]; simp⟩, h2⟩

/-- Two consecutive tokens. -/
theorem tokens_window {html regex : Bool} {pre src : Str} {fol : Bool} {l r : List Token} {a b : Token}
    (h : Tokens html regex pre fol src (l ++ a :: b :: r)) :
    ∃ u w1 tr w2 rest, pre ++ src = u ++ (w1 ++ (tr ++ (w2 ++ rest))) ∧ Lexeme regex a.value w1 (tr ++ (w2 ++ rest)) ∧
      Lexeme regex b.value w2 rest ∧ Trivia html false tr (w2 ++ rest) b.fol ∧ b.fol = tr.any isLT ∧
      a.span = ⟨posAfter 0 0 u, posAfter 0 0 (u ++ w1)⟩ ∧
      b.span = ⟨posAfter 0 0 (u ++ w1 ++ tr), posAfter 0 0 (u ++ w1 ++ tr ++ w2)⟩ := by
  induction l generalizing pre src fol with
  | nil =>
    cases h with
    | @cons pre tr w rest fol t ts htr hfl hnt hw hlex hsp h' =>
      cases h' with
      | @cons _ tr2 w2 rest2 _ t ts htr2 hfl2 hnt2 hw2 hlex2 hsp2 h' =>
        exact ⟨pre ++ tr, w, tr2, w2, rest2, by simp, hlex, hlex2, htr2, by simpa using hfl2, hsp, hsp2⟩
  | cons x l ih =>
    cases h with
    | @cons pre tr w rest fol t ts htr hfl hnt hw hlex hsp h' =>
      obtain ⟨u, w1, tr', w2, rest', h1, h2⟩ := ih h'
      exact ⟨u, w1, tr', w2, rest', by rw [← h1]; simp, h2⟩

theorem tokens_head_fol {html regex : Bool} {pre src : Str} {ts : List Token} {t : Token}
    (h : Tokens html regex pre true src (t :: ts)) : t.fol = true := by
  cases h with
  | cons _ hfl => simpa using hfl

theorem tokens_bounds {html regex : Bool} {pre src : Str} {fol : Bool} {ts : List Token} (h : Tokens html regex pre fol src ts) :
    (∀ t ∈ ts, posAfter 0 0 pre ≤ t.span.start ∧ t.span.start < t.span.stop ∧ t.span.stop ≤ byteLen (pre ++ src)) ∧
    ts.Pairwise (fun a b => a.span.stop ≤ b.span.start) := by
  have hmono : ∀ u v : Str, posAfter 0 0 u ≤ posAfter 0 0 (u ++ v) := by
    intro u v
    rw [posAfter_append]
    exact le_posAfter _ _ _ (posAfter_le 0 0 u (Nat.le_refl 0))
  induction h with
  | nil => exact ⟨by simp, .nil⟩
  | @cons pre tr w rest fol t ts htr hfl hnt hw hlex hsp _ ih =>
    have h1 := hmono pre tr
    have h2 : posAfter 0 0 (pre ++ tr) < posAfter 0 0 (pre ++ tr ++ w) := by
      rw [posAfter_append (v := pre ++ tr)]
      have := lt_posAfter (0 + byteLen (pre ++ tr)) (posAfter 0 0 (pre ++ tr)) w hw
      have := posAfter_le 0 0 (pre ++ tr) (Nat.le_refl 0)
      omega
    have h3 := posAfter_le 0 0 (pre ++ tr ++ w) (Nat.le_refl 0)
    constructor
    · intro t' ht'
      rcases List.mem_cons.1 ht' with rfl | ht'
      · rw [hsp]
        refine ⟨h1, h2, ?_⟩
        simp only [byteLen_append] at h3 ⊢
        omega
      · obtain ⟨a, b, c⟩ := ih.1 t' ht'
        refine ⟨by omega, b, ?_⟩
        simpa [Nat.add_assoc] using c
    · refine .cons ?_ ih.2
      intro t' ht'
      rw [hsp]
      exact (ih.1 t' ht').1

/-! ## Lexemes in front of a blank -/

/-- White space or a line terminator. -/
def isBlank (c : Char) : Bool := isWS c || isLT c

theorem blank_facts {c : Char} (h : isBlank c = true) :
    isIdPart c = false ∧ isIdStart c = false ∧ c.isDigit = false ∧ isHex c = false ∧ isOct c = false ∧ isBin c = false ∧
    c ≠ '_' ∧ c ≠ '\\' ∧ c ≠ '.' ∧ c ≠ 'e' ∧ c ≠ 'E' ∧ c ∉ ['x', 'X', 'o', 'O', 'b', 'B'] ∧ c ≠ '/' ∧ c ≠ '*' ∧ c ≠ '!' ∧
      c ≠ '>' := by
  have hid := UnicodeID.blank c h
  have hst : UnicodeID.idStart c = false := by
    cases hh : UnicodeID.idStart c with
    | false => rfl
    | true => rw [UnicodeID.start_continue c hh] at hid; exact hid
  unfold isBlank isWS isLT at h
  simp only [Bool.or_eq_true, Bool.and_eq_true, beq_iff_eq, decide_eq_true_eq] at h
  have hn : c.toNat < 48 ∧ c.toNat ≠ 46 ∧ c.toNat ≠ 47 ∧ c.toNat ≠ 42 ∧ c.toNat ≠ 33 ∧ c.toNat ≠ 36 ∨ 122 < c.toNat := by omega
  have hzw : c.toNat ≠ 0x200C ∧ c.toNat ≠ 0x200D := by omega
  clear h
  have hne : ∀ d : Char, c.toNat ≠ d.toNat → c ≠ d := fun d h h' => h (by rw [h'])
  have hdig : c.isDigit = false := by
    simp only [Char.isDigit, Bool.and_eq_false_iff, decide_eq_false_iff_not, ge_iff_le, UInt32.le_iff_toNat_le]
    have e : c.toNat = c.val.toNat := rfl
    simp; omega
  have halp : c.isAlpha = false := by
    simp only [Char.isAlpha, Char.isUpper, Char.isLower, Bool.or_eq_false_iff,
      Bool.and_eq_false_iff, decide_eq_false_iff_not, ge_iff_le, UInt32.le_iff_toNat_le]
    have e : c.toNat = c.val.toNat := rfl
    constructor <;> (simp; omega)
  have hle : ∀ d : Char, c ≤ d ↔ c.toNat ≤ d.toNat := fun d => by
    rw [Char.le_def, UInt32.le_iff_toNat_le]; rfl
  have hge : ∀ d : Char, d ≤ c ↔ d.toNat ≤ c.toNat := fun d => by
    rw [Char.le_def, UInt32.le_iff_toNat_le]; rfl
  have v0 : '0'.toNat = 48 := rfl
  have v7 : '7'.toNat = 55 := rfl
  have va : 'a'.toNat = 97 := rfl
  have vf : 'f'.toNat = 102 := rfl
  have vA : 'A'.toNat = 65 := rfl
  have vF : 'F'.toNat = 70 := rfl
  have n1 : (c == '_') = false := by simpa using hne '_' (by show _ ≠ 95; omega)
  have n2 : (c == '$') = false := by simpa using hne '$' (by show _ ≠ 36; omega)
  refine ⟨?_, ?_, hdig, ?_, ?_, ?_, hne _ (by show _ ≠ 95; omega), hne _ (by show _ ≠ 92; omega), hne _ (by show _ ≠ 46; omega),
    hne _ (by show _ ≠ 101; omega), hne _ (by show _ ≠ 69; omega), ?_, hne _ (by show _ ≠ 47; omega),
    hne _ (by show _ ≠ 42; omega), hne _ (by show _ ≠ 33; omega), hne _ (by show _ ≠ 62; omega)⟩
  · simp only [isIdPart, hdig, halp, n1, n2, hid, Bool.or_false, Bool.false_or, Bool.or_eq_false_iff, beq_eq_false_iff_ne]
    exact hzw
  · simp only [isIdStart, halp, n1, n2, hst, Bool.or_false]
  · simp only [isHex, hdig, Bool.false_or, Bool.or_eq_false_iff, Bool.and_eq_false_iff, decide_eq_false_iff_not, hle, hge]
    omega
  · simp only [isOct, Bool.and_eq_false_iff, decide_eq_false_iff_not, hle, hge]
    omega
  · simp only [isBin, Bool.or_eq_false_iff, beq_eq_false_iff_ne]
    exact ⟨hne _ (by show _ ≠ 48; omega), hne _ (by show _ ≠ 49; omega)⟩
  · simp only [List.mem_cons, List.not_mem_nil, or_false, not_or]
    exact ⟨hne _ (by show _ ≠ 120; omega), hne _ (by show _ ≠ 88; omega), hne _ (by show _ ≠ 111; omega),
      hne _ (by show _ ≠ 79; omega), hne _ (by show _ ≠ 98; omega), hne _ (by show _ ≠ 66; omega)⟩

theorem punct_noBlank (p : Punct) : ∀ c ∈ p.asStr, c.toNat < 128 ∧ c ≠ ' ' ∧ isBlank c = false := by
  cases p <;> decide

/-- The text ends, or a blank follows. -/
def Stop (r : Str) : Prop := ∀ c ∈ r.head?, isBlank c = true

theorem stop_notHead {p : Char → Bool} {r : Str} (h : Stop r) (hp : ∀ c, isBlank c = true → p c = false) : NotHead p r :=
  fun c hc => hp c (h c hc)

theorem punctText_stop (p : Punct) {r : Str} (h : Stop r) : PunctText p r := by
  refine ⟨?_, ?_, ?_⟩
  · intro q hlen ⟨x, hx⟩
    exfalso
    cases r with
    | nil =>
      have := congrArg List.length hx
      simp at this
      omega
    | cons c r =>
      have hmem : c ∈ q.asStr := by
        have h1 : q.asStr = (p.asStr ++ c :: r).take q.asStr.length := by rw [← hx]; simp
        rw [h1, List.take_append]
        obtain ⟨k, hk⟩ : ∃ k, q.asStr.length - p.asStr.length = k + 1 := ⟨q.asStr.length - p.asStr.length - 1, by omega⟩
        rw [hk]
        simp
      have := (punct_noBlank q c hmem).2.2
      rw [h c (by simp)] at this; cases this
  · intro _; exact stop_notHead h fun c hc => (blank_facts hc).2.2.1
  · intro _
    exact stop_notHead h fun c hc => by simp [(blank_facts hc).2.2.1, (blank_facts hc).2.2.2.2.2.2.2.2.1]

theorem notHead_append {p : Char → Bool} {v r r' : Str} (h : NotHead p (v ++ r)) (h' : NotHead p r') : NotHead p (v ++ r') := by
  cases v with
  | nil => exact h'
  | cons a v => exact h

theorem notHead_cons {p : Char → Bool} {c : Char} {r : Str} (h : p c = false) : NotHead p (c :: r) := by
  intro d hd; simp at hd; rw [← hd]; exact h

theorem numberText_stop {w rest : Str} (hw : NumberText w rest) {r : Str} (h : Stop r) : NumberText w r := by
  cases hw with
  | hex a b d _ => exact .hex a b d (stop_notHead h fun c hc => by
      obtain ⟨hp, hs, hd, hh, ho, hb, hu, -, hdot, he, hE, hx, -⟩ := blank_facts hc; simp [hh, hu])
  | oct a b d _ => exact .oct a b d (stop_notHead h fun c hc => by
      obtain ⟨hp, hs, hd, hh, ho, hb, hu, -, hdot, he, hE, hx, -⟩ := blank_facts hc; simp [ho, hu])
  | bin a b d _ => exact .bin a b d (stop_notHead h fun c hc => by
      obtain ⟨hp, hs, hd, hh, ho, hb, hu, -, hdot, he, hE, hx, -⟩ := blank_facts hc; simp [hb, hu])
  | @dec i f e _ hi hn hf he' hst hz =>
    have hnd : NotHead (fun c => c.isDigit || c == '_') r := stop_notHead h fun c hc => by
      obtain ⟨hp, hs, hd, hh, ho, hb, hu, -⟩ := blank_facts hc; simp [hd, hu]
    refine .dec hi ?_ ?_ ?_ hst ?_
    · rw [← List.append_assoc] at hn ⊢
      exact notHead_append hn hnd
    · rcases hf with ⟨h1, h2⟩ | ⟨ds, h1, h2, h3⟩
      · exact .inl ⟨h1, notHead_append h2 (stop_notHead h fun c hc => by
          obtain ⟨hp, hs, hd, hh, ho, hb, hu, -, hdot, -⟩ := blank_facts hc; simpa using hdot)⟩
      · exact .inr ⟨ds, h1, h2, notHead_append h3 hnd⟩
    · rcases he' with ⟨h1, h2⟩ | ⟨x, sg, ds, h1, h2, h3, h4, h5, h6⟩
      · exact .inl ⟨h1, stop_notHead h fun c hc => by
          obtain ⟨hp, hs, hd, hh, ho, hb, hu, -, hdot, he, hE, hx, -⟩ := blank_facts hc; simp [he, hE]⟩
      · exact .inr ⟨x, sg, ds, h1, h2, h3, h4, h5, hnd⟩
    · intro d r' hdr
      rw [← List.append_assoc, ← List.append_assoc] at hdr
      rw [← List.append_assoc, ← List.append_assoc] at hz
      rcases hl : (i ++ f ++ e) with _ | ⟨a, _ | ⟨b, l⟩⟩
      · rcases hst with ⟨c, r, h1, -⟩ | ⟨c, r, h1, -⟩ <;> (rw [← List.append_assoc, hl] at h1; cases h1)
      · rw [hl] at hdr
        simp at hdr
        have hb := h d (by rw [hdr.2]; simp)
        obtain ⟨hp, hs, hd, hh, ho, hb, hu, -, hdot, he, hE, hx, -⟩ := blank_facts hb
        exact ⟨hd, hx⟩
      · rw [hl] at hdr hz
        simp at hdr
        exact hz d (l ++ rest) (by simp [hdr.1, hdr.2.1])

theorem lexeme_stop {regex : Bool} {v : TokVal} {w rest : Str} (hl : Lexeme regex v w rest) {r : Str}
    (h : Stop r) : Lexeme regex v w r := by
  have hname : ∀ {n}, NameText w n rest → NameText w n r := fun hn =>
    ⟨hn.spells, hn.valid, stop_notHead h fun c hc => by
      obtain ⟨hp, hs, -, -, -, -, -, hbs, -⟩ := blank_facts hc; simp [hp, hbs]⟩
  cases hl with
  | punct _ hre => exact .punct (punctText_stop _ h) hre
  | keyword hn => exact .keyword (hname hn)
  | ident hn hk => exact .ident (hname hn) hk
  | number hn _ => exact .number (numberText_stop hn h) (stop_notHead h fun c hc => (blank_facts hc).2.1)
  | string hq hb => exact .string hq hb
  | regexp a b d _ => exact .regexp a b d (stop_notHead h fun c hc => (blank_facts hc).1)
  | template hb => exact .template hb
  | templateHead hb => exact .templateHead hb

/-- The first character of a lexeme is not blank, and no comment starts at a lexeme that is followed by a blank. -/
theorem lexeme_noTrivia {v : TokVal} {w : Str} {r : Str} {fol : Bool}
    (h : Stop r) (hl : Lexeme false v w r) : NoTrivia fol (w ++ r) := by
  have key : ∀ (a : Char) (x : Str), w = a :: x → isBlank a = false → a ∉ ['/', '<', '-'] → NoTrivia fol (w ++ r) := by
    rintro a x rfl ha hm
    simp only [List.mem_cons, List.not_mem_nil, or_false, not_or] at hm
    refine ⟨notHead_cons ha, ?_, ?_, ?_, ?_⟩
    · intro r' hr; simp at hr; exact hm.1 hr.1
    · intro r' hr; simp at hr; exact hm.1 hr.1
    · intro r' hr; simp at hr; exact hm.2.1 hr.1
    · rintro ⟨-, r', hr⟩; simp at hr; exact hm.2.2 hr.1
  have hidb : ∀ {a}, isIdStart a = true → isBlank a = false ∧ a ∉ ['/', '<', '-'] := by
    intro a ha
    constructor
    · cases hb : isBlank a with
      | false => rfl
      | true => rw [(blank_facts hb).2.1] at ha; cases ha
    · intro hm
      have hs : ∀ d ∈ ['/', '<', '-'], d ∈ armChars := by decide
      exact (idStart_notArm ha).1 (hs a hm)
  have hdb : ∀ {a : Char}, a.isDigit = true → isBlank a = false ∧ a ∉ ['/', '<', '-'] := by
    intro a ha
    constructor
    · cases hb : isBlank a with
      | false => rfl
      | true => rw [(blank_facts hb).2.2.1] at ha; cases ha
    · intro hm
      have hs : ∀ d ∈ ['/', '<', '-'], d ∈ armChars := by decide
      exact digit_notArm ha (hs a hm)
  have hname : ∀ {n rest}, NameText w n rest → NoTrivia fol (w ++ r) := by
    rintro n rest ⟨hs, ⟨⟨a, x, rfl, ha⟩, -⟩, -⟩
    cases hs with
    | plain _ => exact key _ _ rfl (hidb ha).1 (hidb ha).2
    | @escape e _ w' _ he _ =>
      obtain ⟨r', hr'⟩ : ∃ r', e = '\\' :: r' := by cases he <;> exact ⟨_, rfl⟩
      subst hr'
      exact key _ _ rfl (by decide) (by decide)
  cases hl with
  | @punct p _ hp hre =>
    have : ∀ a x, p.asStr = a :: x → a ∉ ['/', '<', '-'] → NoTrivia fol (p.asStr ++ r) :=
      fun a x hx hm => key a x hx (punct_noBlank p a (by rw [hx]; simp)).2.2 hm
    cases p
    all_goals first
      | exact this _ _ rfl (by decide)
      | (refine ⟨notHead_cons (by decide), ?_, ?_, ?_, ?_⟩
         · intro r' hr
           simp [Punct.asStr] at hr
           try exact absurd (h '/' (by rw [hr]; rfl)) (by decide)
         · intro r' hr
           simp [Punct.asStr] at hr
           try exact absurd (h '*' (by rw [hr]; rfl)) (by decide)
         · intro r' hr
           simp [Punct.asStr] at hr
           try exact absurd (h '!' (by rw [hr]; rfl)) (by decide)
         · rintro ⟨-, r', hr⟩
           simp [Punct.asStr] at hr
           try first
             | exact absurd (h '>' (by rw [hr]; rfl)) (by decide)
             | exact absurd (h '-' (by rw [hr]; rfl)) (by decide))
  | keyword hn => exact hname hn
  | ident hn _ => exact hname hn
  | number hn _ =>
    cases hn with
    | hex => exact key _ _ rfl (by decide) (by decide)
    | oct => exact key _ _ rfl (by decide) (by decide)
    | bin => exact key _ _ rfl (by decide) (by decide)
    | dec _ _ _ _ hst =>
      rcases hst with ⟨d, x, hx, hd⟩ | ⟨d, x, hx, hd⟩
      · exact key _ _ hx (hdb hd).1 (hdb hd).2
      · exact key _ _ hx (by decide) (by decide)
  | @string q _ _ _ hq _ => rcases hq with rfl | rfl <;> exact key _ _ rfl (by decide) (by decide)
  | regexp hre => cases hre
  | template => exact key _ _ rfl (by decide) (by decide)
  | templateHead => exact key _ _ rfl (by decide) (by decide)

/-! ## Lexemes separated by filler -/

theorem filler_trivia {f : Str} (h : Filler f) (html fol : Bool) (rest : Str) :
    Trivia html fol f rest (fol || f.any isLT) := by
  induction h generalizing fol with
  | nil => simpa using Trivia.nil
  | @blank c w hc _ ih =>
    cases hlt : isLT c with
    | true => simpa [hlt] using Trivia.lt hlt (ih true)
    | false =>
      rw [hlt] at hc
      simpa [hlt] using Trivia.ws (by simpa using hc) (ih fol)
  | @comment body w hb _ ih =>
    have h1 : isLT '/' = false := by decide
    have h2 : isLT '*' = false := by decide
    have := Trivia.block hb (ih (fol || body.any isLT))
    simpa [h1, h2, Bool.or_assoc] using this

/-- The text of a list of items: value, lexeme and what follows the lexeme. -/
def itemsText (items : List (TokVal × Str × Str)) : Str := items.flatMap fun i => i.2.1 ++ i.2.2

/-- Items whose lexeme can be read somewhere, each followed by filler that starts with a blank; only the last may be followed
by nothing. -/
inductive Items : List (TokVal × Str × Str) → Prop where
  | nil : Items []
  | cons {v : TokVal} {w sep : Str} {l : List (TokVal × Str × Str)} : (∃ rest, Lexeme false v w rest) → Filler sep → Stop sep →
      (sep = [] → l = []) → Items l → Items ((v, w, sep) :: l)

theorem stop_append {sep r : Str} (h : Stop sep) (hr : sep = [] → r = []) : Stop (sep ++ r) := by
  cases sep with
  | nil => rw [hr rfl]; exact h
  | cons a s => exact h

theorem items_tokens {items : List (TokVal × Str × Str)} (h : Items items) (html : Bool) (pre tr : Str) (fol : Bool)
    (htr : Filler tr) : ∃ ts, Tokens html false pre fol (tr ++ itemsText items) ts ∧ ts.map Token.value = items.map Prod.fst := by
  induction h generalizing pre tr fol with
  | nil => exact ⟨[], .nil (by simpa [itemsText] using filler_trivia htr html fol []), rfl⟩
  | @cons v w sep l hlex hsep hstop hne _ ih =>
    obtain ⟨ts, hts, hval⟩ := ih (pre ++ tr ++ w) sep false hsep
    obtain ⟨rest, hlex⟩ := hlex
    have hs2 : Stop (sep ++ itemsText l) := stop_append hstop (fun h => by rw [hne h]; rfl)
    have hl2 := lexeme_stop hlex hs2
    refine ⟨⟨v, fol || tr.any isLT, ⟨posAfter 0 0 (pre ++ tr), posAfter 0 0 (pre ++ tr ++ w)⟩⟩ :: ts, ?_, by simp [hval]⟩
    have : tr ++ itemsText ((v, w, sep) :: l) = tr ++ (w ++ (sep ++ itemsText l)) := by simp [itemsText]
    rw [this]
    exact .cons (filler_trivia htr html fol _) rfl (lexeme_noTrivia hs2 hl2) hl2.ne_nil hl2 rfl hts

end Fajt
