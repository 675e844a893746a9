import Verif.Spec.FitsCheck
import Verif.Proofs.LexBlank
/-!
# The test `fits` is correct
-/
namespace Fajt.Print
open Fajt Spec
set_option linter.unusedSectionVars false
variable [UnicodeID]

theorem head_of {rest : Str} {h : Option Char} {p : Char → Bool} (hr : rest.head? = h) (hp : h.all (fun c => !p c) = true) :
    NotHead p rest := by
  intro c hc
  rw [hr] at hc
  obtain rfl : h = some c := hc
  simpa using hp

theorem isName_spec {n : Str} (h : isName n = true) : IdentName n := by
  unfold isName at h
  simp only [Bool.and_eq_true, List.all_eq_true] at h
  cases n with
  | nil => simp at h
  | cons c r => exact ⟨⟨c, r, rfl, by simpa using h.1⟩, h.2⟩

theorem keyword_name (k : Keyword) : IdentName k.asStr := by
  have key : ∀ c : Char, c.isAlpha = true → isIdStart c = true ∧ isIdPart c = true := by
    intro c h; simp [isIdStart, isIdPart, h]
  have all : ∀ k ∈ Keyword.all, k.asStr ≠ [] ∧ ∀ c ∈ k.asStr, c.isAlpha = true := by decide +kernel
  obtain ⟨h1, h2⟩ := all k (all_complete k)
  refine ⟨?_, fun c hc => (key c (h2 c hc)).2⟩
  match h : k.asStr, h1 with
  | c :: r, _ => exact ⟨c, r, rfl, (key c (h2 c (by rw [h]; simp))).1⟩

theorem spells_self (n : Str) : Spells n n := by
  induction n with
  | nil => exact .nil
  | cons c n ih => exact .plain ih

theorem name_text {n rest : Str} {h : Option Char} (hr : rest.head? = h) (hn : IdentName n) (hp : h.all nameStops = true) :
    NameText n n rest := by
  refine ⟨spells_self n, hn, ?_⟩
  apply head_of hr
  cases h with
  | none => rfl
  | some c =>
    simp only [Option.all_some, nameStops, Bool.and_eq_true, Bool.not_eq_true', bne_iff_ne] at hp ⊢
    simp [hp.1, hp.2]

theorem hasDouble_spec {w : Str} (h : hasDouble w = false) : ∀ u v, w ≠ u ++ '_' :: '_' :: v := by
  intro u v
  induction u generalizing w with
  | nil => rintro rfl; simp [hasDouble] at h
  | cons c u ih =>
    rintro rfl
    have : hasDouble (u ++ '_' :: '_' :: v) = false := by
      cases hh : hasDouble (u ++ '_' :: '_' :: v) with
      | false => rfl
      | true =>
        have : hasDouble (c :: (u ++ '_' :: '_' :: v)) = true := by
          unfold hasDouble
          split
          · rfl
          · rename_i h1; cases h1; exact hh
          · rename_i h1; cases h1
        rw [List.cons_append, this] at h; cases h
    exact ih this rfl

theorem isRun_spec {isD : Char → Bool} {w : Str} (h : isRun isD w = true) : DigitRun isD w := by
  unfold isRun at h
  simp only [Bool.and_eq_true, Bool.not_eq_true', List.all_eq_true, Bool.or_eq_true, beq_iff_eq, bne_iff_ne] at h
  exact ⟨h.1.1, hasDouble_spec h.1.2, h.2⟩

theorem based_spec {w rest : Str} (h : isBased w = true) (h1 : NotHead (fun c => isHex c || c == '_') rest)
    (h2 : NotHead (fun c => isOct c || c == '_') rest) (h3 : NotHead (fun c => isBin c || c == '_') rest) : NumberText w rest := by
  unfold isBased at h
  split at h
  · simp only [Bool.and_eq_true, Bool.or_eq_true, bne_iff_ne, beq_iff_eq] at h
    obtain ⟨h0, (⟨hx, hr⟩ | ⟨hx, hr⟩) | ⟨hx, hr⟩⟩ := h
    · exact .hex hx (isRun_spec hr) h0 h1
    · exact .oct hx (isRun_spec hr) h0 h2
    · exact .bin hx (isRun_spec hr) h0 h3
  · cases h

theorem split_spec (w : Str) : ∃ i f e, splitNumber w = (i, f, e) ∧ w = i ++ (f ++ e) ∧ (∀ c ∈ (f ++ e).head?, digitOr_ c = false) ∧
    (f = [] ∧ (∀ c ∈ e.head?, c ≠ '.') ∨ ∃ ds, f = '.' :: ds ∧ ∀ c ∈ e.head?, digitOr_ c = false) := by
  unfold splitNumber
  have h1 : w = w.takeWhile digitOr_ ++ w.dropWhile digitOr_ := List.takeWhile_append_dropWhile.symm
  have hd : ∀ (w : Str) c, c ∈ (w.dropWhile digitOr_).head? → digitOr_ c = false := by
    intro w c hc
    have := List.head?_dropWhile_not digitOr_ w
    rw [Option.mem_def.1 hc] at this
    simpa using this
  cases hr : w.dropWhile digitOr_ with
  | nil => exact ⟨_, _, _, rfl, by rw [hr] at h1; simpa using h1, by simp, .inl ⟨rfl, by simp⟩⟩
  | cons c r =>
    rw [hr] at h1
    by_cases hc : c = '.'
    · subst hc
      have h2 : r = r.takeWhile digitOr_ ++ r.dropWhile digitOr_ := List.takeWhile_append_dropWhile.symm
      refine ⟨_, _, _, rfl, ?_, by simp [digitOr_], .inr ⟨_, rfl, hd r⟩⟩
      simp only [List.cons_append, ← h2]; exact h1
    · refine ⟨w.takeWhile digitOr_, [], c :: r, ?_, by simpa using h1, ?_, .inl ⟨rfl, by simp [hc]⟩⟩
      · split
        · rename_i h; simp at h; exact absurd h.1 hc
        · rfl
      · intro d hd'
        exact hd w d (by rw [hr]; exact hd')

theorem exponent_spec {e : Str} (h : isExponent e = true) : e = [] ∨ ∃ x sign ds, e = x :: (sign ++ ds) ∧ (x = 'e' ∨ x = 'E') ∧
    (sign = [] ∨ sign = ['-'] ∨ sign = ['+']) ∧ DigitRun Char.isDigit ds ∧ ds ≠ [] := by
  cases e with
  | nil => exact .inl rfl
  | cons x r =>
    right
    simp only [isExponent, Bool.and_eq_true, Bool.or_eq_true, beq_iff_eq, bne_iff_ne] at h
    obtain ⟨hx, ⟨h1, h2⟩ | h1⟩ := h
    · exact ⟨x, [], r, rfl, hx, .inl rfl, isRun_spec h1, h2⟩
    · cases r with
      | nil => cases h1
      | cons s d =>
        simp only [Bool.and_eq_true, Bool.or_eq_true, beq_iff_eq, bne_iff_ne] at h1
        obtain ⟨⟨hs, h2⟩, h3⟩ := h1
        refine ⟨x, [s], d, rfl, hx, ?_, isRun_spec h2, h3⟩
        rcases hs with rfl | rfl
        · exact .inr (.inr rfl)
        · exact .inr (.inl rfl)

theorem numberStops_spec {w : Str} {c : Char} (h : numberStops w c = true) : c.isDigit = false ∧ c ≠ '_' ∧ isIdStart c = false ∧
    (c = '.' → isBased w = true ∨ (splitNumber w).2 ≠ ([], [])) := by
  unfold numberStops at h
  simp only [Bool.and_eq_true, Bool.not_eq_true', Bool.or_eq_true, bne_iff_ne] at h
  refine ⟨h.1.1.1, h.1.1.2, h.1.2, fun hc => ?_⟩
  rcases h.2 with (h2 | h2) | h2
  · exact absurd hc h2
  · exact .inl h2
  · exact .inr h2

theorem letter_of {c : Char} (h : isIdStart c = false) : c.isAlpha = false := by
  unfold isIdStart at h
  simp only [Bool.or_eq_false_iff] at h
  exact h.1.1.1

theorem decimal_spec {w rest : Str} (h : isDecimal w = true) (hb : isBased w = false) (hr : ∀ c ∈ rest.head?, numberStops w c = true) :
    NumberText w rest := by
  obtain ⟨i, f, e, hs, hw, h1, h2⟩ := split_spec w
  unfold isDecimal at h
  rw [hs] at h
  simp only [Bool.and_eq_true] at h
  obtain ⟨⟨⟨hi, hf⟩, he⟩, hst⟩ := h
  have rest_digit : NotHead (fun c => c.isDigit || c == '_') rest := fun c hc => by
    have := numberStops_spec (hr c hc); simp [this.1, this.2.1]
  have alpha : ∀ c ∈ rest.head?, c.isAlpha = false := fun c hc => letter_of (numberStops_spec (hr c hc)).2.2.1
  have app : ∀ {p : Char → Bool} {x : Str}, (∀ c ∈ x.head?, p c = false) → NotHead p rest → NotHead p (x ++ rest) := by
    intro p x h3 h4
    cases x with
    | nil => exact h4
    | cons d x => intro c hc; exact h3 c (by simpa using hc)
  have he' := exponent_spec he
  rw [hw]
  refine .dec (isRun_spec hi) ?_ ?_ ?_ ?_ ?_
  · rw [← List.append_assoc]; exact app h1 rest_digit
  · rcases h2 with ⟨rfl, h3⟩ | ⟨ds, rfl, h3⟩
    · refine .inl ⟨rfl, ?_⟩
      cases e with
      | cons d e => intro c hc; simp at hc; subst hc; simpa using h3
      | nil =>
        intro c hc
        have := (numberStops_spec (hr c hc)).2.2.2
        cases hcd : c == '.' with
        | false => exact hcd
        | true =>
          have := this (by simpa using hcd)
          rw [hb, hs] at this
          simp at this
    · exact .inr ⟨ds, rfl, isRun_spec (by simpa using hf), app h3 rest_digit⟩
  · rcases he' with rfl | ⟨x, sign, ds, rfl, hx, hsg, hds, hne⟩
    · refine .inl ⟨rfl, fun c hc => ?_⟩
      have := alpha c hc
      cases h5 : (c == 'e' || c == 'E') with
      | false => exact h5
      | true =>
        simp at h5
        rcases h5 with rfl | rfl <;> exact absurd this (by decide)
    · exact .inr ⟨x, sign, ds, rfl, hx, hsg, hds, hne, rest_digit⟩
  · rw [← hw]
    split at hst
    · exact .inr ⟨_, _, rfl, hst⟩
    · exact .inl ⟨_, _, rfl, by decide⟩
    · exact .inl ⟨_, _, rfl, hst⟩
    · cases hst
  · intro c r hcr
    have hcr : w ++ rest = '0' :: c :: r := by rw [hw]; simpa using hcr
    cases w with
    | nil => simp at hst
    | cons d w' =>
      simp only [List.cons_append, List.cons.injEq] at hcr
      obtain ⟨rfl, hcr⟩ := hcr
      cases w' with
      | nil =>
        have hc : c ∈ rest.head? := by simp only [List.nil_append] at hcr; rw [hcr]; rfl
        refine ⟨(numberStops_spec (hr c hc)).1, fun hm => ?_⟩
        have := alpha c hc
        have hall : ∀ d ∈ ['x', 'X', 'o', 'O', 'b', 'B'], d.isAlpha = true := by decide
        rw [hall c hm] at this
        cases this
      | cons d' w'' =>
        simp only [List.cons_append, List.cons.injEq] at hcr
        obtain ⟨rfl, -⟩ := hcr
        simp only [Bool.and_eq_true, Bool.not_eq_true', List.contains_eq_mem, decide_eq_false_iff_not] at hst
        exact hst

theorem number_spec {w rest : Str} (h : (isBased w || isDecimal w) = true) (hr : ∀ c ∈ rest.head?, numberStops w c = true) :
    NumberText w rest ∧ NotHead isIdStart rest := by
  refine ⟨?_, fun c hc => (numberStops_spec (hr c hc)).2.2.1⟩
  cases hb : isBased w with
  | false => rw [hb] at h; exact decimal_spec (by simpa using h) hb hr
  | true =>
    have hh : ∀ c : Char, c.isDigit = false → c.isAlpha = false → isHex c = false ∧ isOct c = false ∧ isBin c = false := by
      intro c h1 h2
      simp only [Char.isAlpha, Char.isUpper, Char.isLower, Char.isDigit, Bool.or_eq_false_iff, Bool.and_eq_false_iff,
        decide_eq_false_iff_not, isHex, isOct, isBin, Char.le_def, UInt32.le_iff_toNat_le, beq_eq_false_iff_ne] at h1 h2 ⊢
      have e : ∀ d : Char, c = d → c.val.toNat = d.val.toNat := fun d hd => by rw [hd]
      have e' : c.val.toNat = c.toNat := rfl
      have e0 := e '0'
      have e1 := e '1'
      simp only [show 'a'.val.toNat = 97 from rfl, show 'f'.val.toNat = 102 from rfl, show 'A'.val.toNat = 65 from rfl,
        show 'F'.val.toNat = 70 from rfl, show '0'.val.toNat = 48 from rfl, show '7'.val.toNat = 55 from rfl,
        show '1'.val.toNat = 49 from rfl] at *
      simp at h1 h2
      refine ⟨⟨⟨?_, ?_⟩, ?_⟩, ?_, ?_, ?_⟩
      · simp; omega
      · omega
      · omega
      · omega
      · intro hc; have := e0 hc; omega
      · intro hc; have := e1 hc; omega
    have hs := fun c hc => numberStops_spec (hr c hc)
    refine based_spec hb ?_ ?_ ?_ <;> intro c hc <;> have h1 := hs c hc <;> have h2 := hh c h1.1 (letter_of h1.2.2.1) <;>
      simp [h2, h1.2.1]

theorem plain_spec {q : Char} {w : Str} (h : isPlain q w = true) : StringBody q w w := by
  induction w with
  | nil => exact .nil
  | cons c w ih =>
    unfold isPlain at h
    simp only [List.all_cons, Bool.and_eq_true, bne_iff_ne] at h
    exact .plain h.1.1.1.1 h.1.1.1.2 h.1.1.2 h.1.2 (ih h.2)

theorem templatePlain_spec {w : Str} (h : isTemplatePlain w = true) : TemplateBody w w := by
  induction w with
  | nil => exact .nil
  | cons c w ih =>
    simp only [isTemplatePlain, Bool.and_eq_true, bne_iff_ne, Bool.not_eq_true', Bool.and_eq_false_iff] at h
    refine .plain h.1.1.1 h.1.1.2 ?_ (ih h.2)
    rintro ⟨rfl, h2⟩
    simp [h2] at h

theorem regexFlags_spec {w f : Str} {cls : Bool} (h : regexFlags cls w = some f) :
    if cls then ∃ u b, w = u ++ (b ++ f) ∧ ClassText u ∧ RegexpText b else ∃ b, w = b ++ f ∧ RegexpText b := by
  fun_induction regexFlags cls w with
  | case1 => cases h
  | case2 w ih =>
    obtain ⟨b, rfl, hb⟩ := ih h
    exact ⟨[']'], b, rfl, .close, hb⟩
  | case3 c w ih =>
    obtain ⟨u, b, rfl, hu, hb⟩ := ih h
    exact ⟨_, b, rfl, .escape hu, hb⟩
  | case4 => cases h
  | case5 c w h1 h2 h3 ih =>
    obtain ⟨u, b, rfl, hu, hb⟩ := ih h
    refine ⟨c :: u, b, rfl, .plain ?_ h3 hu, hb⟩
    rintro rfl; exact h1 rfl
  | case6 w => cases h; exact ⟨['/'], rfl, .close⟩
  | case7 w ih =>
    obtain ⟨u, b, rfl, hu, hb⟩ := ih h
    exact ⟨'[' :: (u ++ b), by simp, .cls hu hb⟩
  | case8 => cases h
  | case9 c w h1 ih =>
    obtain ⟨b, rfl, hb⟩ := ih h
    exact ⟨_, rfl, .escape h1 hb⟩
  | case10 => cases h
  | case11 c w h1 h2 h3 h4 ih =>
    obtain ⟨b, rfl, hb⟩ := ih h
    refine ⟨c :: b, rfl, .plain ?_ hb⟩
    simp only [not_or] at h4
    simp only [List.mem_cons, List.not_mem_nil, or_false, not_or]
    exact ⟨h4.1, h1, h4.2, h2⟩

/-- The first character of a lexeme is not blank, and no comment starts at it unless it is completed by the next character. -/
theorem lexeme_start {v : TokVal} {w r : Str} {fol : Bool}
    (h : ∀ p, v = .punct p → ∀ c ∈ r.head?, punctStops p c = true) (hl : Lexeme false v w r) : NoTrivia fol (w ++ r) := by
  have key : ∀ (a : Char) (x : Str), w = a :: x → isBlank a = false → a ∉ ['/', '<', '-'] → NoTrivia fol (w ++ r) := by
    rintro a x rfl ha hm
    simp only [List.mem_cons, List.not_mem_nil, or_false, not_or] at hm
    refine ⟨notHead_cons ha, ?_, ?_, ?_, ?_⟩
    · intro r' hr; simp at hr; exact hm.1 hr.1
    · intro r' hr; simp at hr; exact hm.1 hr.1
    · intro r' hr; simp at hr; exact hm.2.1 hr.1
    · rintro ⟨-, r', hr⟩; simp at hr; exact hm.2.2 hr.1
  have hidb : ∀ {a}, isIdStart a = true → isBlank a = false ∧ a ∉ ['/', '<', '-'] := by
    intro a ha
    constructor
    · cases hb : isBlank a with
      | false => rfl
      | true => rw [(blank_facts hb).2.1] at ha; cases ha
    · intro hm
      have hs : ∀ d ∈ ['/', '<', '-'], d ∈ armChars := by decide
      exact (idStart_notArm ha).1 (hs a hm)
  have hdb : ∀ {a : Char}, a.isDigit = true → isBlank a = false ∧ a ∉ ['/', '<', '-'] := by
    intro a ha
    constructor
    · cases hb : isBlank a with
      | false => rfl
      | true => rw [(blank_facts hb).2.2.1] at ha; cases ha
    · intro hm
      have hs : ∀ d ∈ ['/', '<', '-'], d ∈ armChars := by decide
      exact digit_notArm ha (hs a hm)
  have hname : ∀ {n rest}, NameText w n rest → NoTrivia fol (w ++ r) := by
    rintro n rest ⟨hs, ⟨⟨a, x, rfl, ha⟩, -⟩, -⟩
    cases hs with
    | plain _ => exact key _ _ rfl (hidb ha).1 (hidb ha).2
    | @escape e _ w' _ he _ =>
      obtain ⟨r', hr'⟩ : ∃ r', e = '\\' :: r' := by cases he <;> exact ⟨_, rfl⟩
      subst hr'
      exact key _ _ rfl (by decide) (by decide)
  cases hl with
  | @punct p _ hp hre =>
    have this : ∀ a x, p.asStr = a :: x → a ∉ ['/', '<', '-'] → NoTrivia fol (p.asStr ++ r) :=
      fun a x hx hm => key a x hx (punct_noBlank p a (by rw [hx]; simp)).2.2 hm
    replace h := h p rfl
    cases p
    all_goals first
      | exact this _ _ rfl (by decide)
      | (refine ⟨notHead_cons (by decide), ?_, ?_, ?_, ?_⟩
         · intro r' hr
           simp [Punct.asStr] at hr
           try exact absurd (h '/' (by rw [hr]; rfl)) (by decide +kernel)
         · intro r' hr
           simp [Punct.asStr] at hr
           try exact absurd (h '*' (by rw [hr]; rfl)) (by decide +kernel)
         · intro r' hr
           simp [Punct.asStr] at hr
           try exact absurd (h '!' (by rw [hr]; rfl)) (by decide +kernel)
         · rintro ⟨-, r', hr⟩
           simp [Punct.asStr] at hr
           try first
             | exact absurd (h '>' (by rw [hr]; rfl)) (by decide +kernel)
             | exact absurd (h '-' (by rw [hr]; rfl)) (by decide +kernel))
  | keyword hn => exact hname hn
  | ident hn _ => exact hname hn
  | number hn _ =>
    cases hn with
    | hex => exact key _ _ rfl (by decide) (by decide)
    | oct => exact key _ _ rfl (by decide) (by decide)
    | bin => exact key _ _ rfl (by decide) (by decide)
    | dec _ _ _ _ hst =>
      rcases hst with ⟨d, x, hx, hd⟩ | ⟨d, x, hx, hd⟩
      · exact key _ _ hx (hdb hd).1 (hdb hd).2
      · exact key _ _ hx (by decide) (by decide)
  | @string q _ _ _ hq _ => rcases hq with rfl | rfl <;> exact key _ _ rfl (by decide) (by decide)
  | regexp hre => cases hre
  | template => exact key _ _ rfl (by decide) (by decide)
  | templateHead => exact key _ _ rfl (by decide) (by decide)

theorem punct_spec {p : Punct} {rest : Str} (h : ∀ c ∈ rest.head?, punctStops p c = true) : PunctText p rest := by
  have hs : ∀ c ∈ rest.head?, (∀ q : Punct, (p.asStr ++ [c]).isPrefixOf q.asStr = false) ∧ (p = p!"." ∨ p = p!"?." → c.isDigit = false) := by
    intro c hc
    have := h c hc
    unfold punctStops at this
    simp only [Bool.and_eq_true, Bool.not_eq_true', List.any_eq_false, Bool.and_eq_false_iff, Bool.or_eq_false_iff,
      beq_eq_false_iff_ne, Bool.not_eq_true] at this
    obtain ⟨⟨⟨⟨h1, h2⟩, -⟩, -⟩, -⟩ := this
    refine ⟨fun q => h1 q q.all_complete, fun hp => ?_⟩
    rcases h2 with h2 | h2
    · rcases hp with hp | hp
      · exact absurd hp h2.1
      · exact absurd hp h2.2
    · exact h2
  refine ⟨fun q hl hq => ?_, fun hp c hc => (hs c hc).2 (.inr hp), fun hp c hc => ?_⟩
  · exfalso
    have hp : p.asStr <+: q.asStr := List.prefix_of_prefix_length_le (List.prefix_append p.asStr rest) hq (Nat.le_of_lt hl)
    obtain ⟨x, hx⟩ := hp
    rw [← hx] at hq hl
    rw [List.prefix_append_right_inj] at hq
    cases x with
    | nil => simp at hl
    | cons c x =>
      obtain ⟨z, rfl⟩ := hq
      have := (hs c (by simp)).1 q
      rw [← hx] at this
      have h2 : (p.asStr ++ [c]).isPrefixOf (p.asStr ++ c :: x) = true := by
        rw [List.isPrefixOf_iff_prefix]; exact ⟨x, by simp⟩
      rw [h2] at this; cases this
  · have h1 := (hs c hc).2 (.inl hp)
    subst hp
    have h2 := (hs c hc).1 p!"..."
    cases hcd : c == '.' with
    | false => simp [h1, hcd]
    | true =>
      rw [show c = '.' by simpa using hcd] at h2
      exact absurd h2 (by decide)

theorem all_head {p : Char → Bool} {h : Option Char} {rest : Str} (hr : rest.head? = h) (hp : h.all p = true) : ∀ c ∈ rest.head?, p c = true := by
  intro c hc
  rw [hr] at hc
  obtain rfl : h = some c := hc
  simpa using hp

theorem ok_spec {l : Lex} {h : Option Char} (hl : l.ok h = true) : l.Ok h := by
  intro rest hr
  obtain ⟨k, v, t⟩ := l
  have plain : ∀ {v t}, Lexeme false v t rest → (∀ p, v = .punct p → ∀ c ∈ rest.head?, punctStops p c = true) →
      (∀ f, NoTrivia f (t ++ rest)) ∧ Lexeme false v t rest := fun h1 h2 => ⟨fun _ => lexeme_start h2 h1, h1⟩
  unfold Lex.ok at hl
  split at hl
  case h_1 hk hv =>
    obtain rfl : k = _ := hk
    obtain rfl : v = _ := hv
    simp only [Bool.and_eq_true, beq_iff_eq] at hl
    obtain ⟨rfl, h1⟩ := hl
    have := all_head hr h1
    exact plain (.punct (punct_spec this) nofun) (fun p hp => by cases hp; exact this)
  case h_2 hk hv =>
    obtain rfl : k = _ := hk
    obtain rfl : v = _ := hv
    simp only [Bool.and_eq_true, beq_iff_eq] at hl
    obtain ⟨rfl, h1⟩ := hl
    exact plain (.keyword (name_text hr (keyword_name _) h1)) nofun
  case h_3 hk hv =>
    obtain rfl : k = _ := hk
    obtain rfl : v = _ := hv
    simp only [Bool.and_eq_true, beq_iff_eq] at hl
    obtain ⟨⟨⟨rfl, h1⟩, h2⟩, h3⟩ := hl
    exact plain (.ident (name_text hr (isName_spec h1) h3) (fromStr_none (by simpa using h2))) nofun
  case h_4 hk hv =>
    obtain rfl : k = _ := hk
    obtain rfl : v = _ := hv
    simp only [Bool.and_eq_true, beq_iff_eq] at hl
    obtain ⟨⟨rfl, h1⟩, h2⟩ := hl
    have := number_spec h1 (all_head hr h2)
    exact plain (.number this.1 this.2) nofun
  case h_5 s hk hv =>
    obtain rfl : k = _ := hk
    obtain rfl : v = _ := hv
    obtain ⟨sv, sd⟩ := s
    simp only [Bool.and_eq_true, beq_iff_eq, Bool.or_eq_true] at hl
    obtain ⟨⟨rfl, h1⟩, h2⟩ := hl
    exact plain (.string h1 (plain_spec h2)) nofun
  case h_6 hk hv =>
    obtain rfl : k = _ := hk
    obtain rfl : v = _ := hv
    simp only [Bool.and_eq_true, beq_iff_eq] at hl
    obtain ⟨rfl, h1⟩ := hl
    exact plain (.template (templatePlain_spec h1)) nofun
  case h_7 hk hv =>
    obtain rfl : k = _ := hk
    obtain rfl : v = _ := hv
    simp only [Bool.and_eq_true, beq_iff_eq] at hl
    obtain ⟨rfl, h1⟩ := hl
    exact plain (.templateHead (templatePlain_spec h1)) nofun
  case h_8 hk hv =>
    obtain rfl : k = _ := hk
    obtain rfl : v = _ := hv
    simp only [Bool.and_eq_true, beq_iff_eq] at hl
    obtain ⟨⟨rfl, h1⟩, h2⟩ := hl
    unfold isRegexp at h1
    split at h1
    · simp only [Bool.and_eq_true, bne_iff_ne, Option.any_eq_true] at h1
      obtain ⟨⟨h3, h4⟩, f, hf, h5⟩ := h1
      rename_i w
      obtain ⟨b, rfl, hb⟩ := regexFlags_spec (cls := false) hf
      obtain ⟨d, b', rfl⟩ : ∃ d b', b = d :: b' := by cases hb <;> exact ⟨_, _, rfl⟩
      refine ⟨fun _ => ⟨notHead_cons (by decide), ?_, ?_, ?_, ?_⟩, .regexp rfl hb (by simpa using h5) (head_of hr (by simpa using h2)), rfl⟩
      · intro r' hr'; simp at hr'; exact h3 (by simp [hr'.1])
      · intro r' hr'; simp at hr'; exact h4 (by simp [hr'.1])
      · intro r' hr'; simp at hr'
      · rintro ⟨-, r', hr'⟩; simp at hr'
    · cases h1
  case h_9 hk hv =>
    obtain rfl : k = _ := hk
    obtain rfl : v = _ := hv
    simp only [Bool.and_eq_true, beq_iff_eq] at hl
    obtain ⟨rfl, h1⟩ := hl
    exact .middle (templatePlain_spec h1)
  case h_10 hk hv =>
    obtain rfl : k = _ := hk
    obtain rfl : v = _ := hv
    simp only [Bool.and_eq_true, beq_iff_eq] at hl
    obtain ⟨rfl, h1⟩ := hl
    exact .tail (templatePlain_spec h1)
  case h_11 => cases hl

theorem wf_spec {l : Lex} (h : l.wf = true) : l.WF := by
  unfold Lex.wf at h
  simp only [Bool.and_eq_true, bne_iff_ne] at h
  obtain ⟨⟨⟨⟨h1, h2⟩, h3⟩, h4⟩, h5⟩ := h
  refine ⟨h1, ok_spec h2, ok_spec h3, ok_spec h4, fun c hc => ?_⟩
  rw [Option.mem_def.1 hc] at h5
  simpa using h5

theorem takes_spec {s : Lay} {i : Item} (h : s.takes i = true) : s.Takes i := by
  cases i with
  | tok l =>
    simp only [Lay.takes, Bool.and_eq_true, Bool.or_eq_true, bne_iff_ne, Bool.not_eq_true'] at h
    obtain ⟨⟨h1, h2⟩, h3⟩ := h
    refine ⟨wf_spec h1, fun hk => h2.resolve_left (fun h => h hk), fun k hk hg => ?_⟩
    rw [Option.mem_def.1 hk] at h3
    simp only [Option.all_some, Bool.or_eq_true, hg] at h3
    rcases h3 with (h3 | h3) | h3
    · cases h3
    · exact .inl h3
    · exact .inr (ok_spec h3)
  | «open» => simpa [Lay.takes, Lay.Takes, and_assoc] using h
  | nl | sep | still | single => simpa [Lay.takes, Lay.Takes] using h
  | _ => trivial

theorem writable_spec {s : Lay} {is : List Item} (h : writable s is = true) : Writable s is := by
  induction is generalizing s with
  | nil => trivial
  | cons i is ih =>
    simp only [writable, Bool.and_eq_true] at h
    exact ⟨takes_spec h.1, ih h.2⟩

theorem ahead_spec {f : Bool} {is : List Item} {i : Item} (h : aheadOk f is i = true) : AheadOk f is i := by
  cases i with
  | next q =>
    intro x hx v hv
    simp only [aheadOk, Option.mem_def.1 hx, Option.all_some, List.all_eq_true] at h
    exact h v hv
  | next2 q =>
    intro x hx y hy hk u hu
    simp only [aheadOk, Option.mem_def.1 hx, Option.mem_def.1 hy, Option.all_some, Bool.or_eq_true, bne_iff_ne, List.all_eq_true] at h
    exact (h.resolve_left fun h => h hk) u hu
  | more => exact h
  | demand => exact h
  | _ => trivial

theorem lookahead_spec {f : Bool} {is : List Item} (h : lookahead f is = true) : Lookahead f is := by
  induction is generalizing f with
  | nil => trivial
  | cons i is ih =>
    simp only [lookahead, Bool.and_eq_true] at h
    exact ⟨ahead_spec h.1, ih h.2⟩

/-- If the test succeeds, the items fit. -/
theorem fits_spec {mini : Bool} {is : List Item} (h : fits mini is = true) : Fits mini is := by
  simp only [fits, Bool.and_eq_true] at h
  exact ⟨writable_spec h.1, lookahead_spec h.2⟩

end Fajt.Print
