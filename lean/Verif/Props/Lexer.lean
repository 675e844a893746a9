import Verif.Proofs.LexBlank
import Verif.Proofs.Escape
import Verif.Proofs.Reader
import Verif.Spec.Ascii
/-!
# Properties of the lexer (C01 - C07, C09 - C17)

`start src st` is a lexer for the source `src` in the state `st`; `LexerS.new src` is `start src LexState.default`.  All
theorems hold for every table `UnicodeID` of identifier characters; the examples use `asciiID`.
-/
namespace Fajt.Props
open Fajt Spec
set_option linter.unusedSectionVars false

/-- The tokens of a successful `read_all`. -/
def tokensOf : Res LexerS LexErr (List Token) → Option (List Token)
  | .ok ts _ => some ts
  | _ => none

/-- The token values of a successful `read_all`. -/
def valuesOf (r : Res LexerS LexErr (List Token)) : Option (List TokVal) := (tokensOf r).map (·.map Token.value)

/-- The text of the span in a source: `&source[span.start..span.end]` for ASCII sources, where bytes are characters. -/
def slice (src : Str) (sp : Span) : Str := (src.drop sp.start).take (sp.stop - sp.start)

section
variable [UnicodeID]

/-- A lexer at the start of `src`, in the state `st` (`Lexer::new` with another state). -/
def start (src : Str) (st : LexState) : LexerS := ⟨src, st, ⟨src, 0, 0, true⟩⟩

theorem tokensOf_eq {r : Res LexerS LexErr (List Token)} {ts : List Token} : tokensOf r = some ts ↔ ∃ lx, r = .ok ts lx := by
  cases r <;> simp [tokensOf]

theorem tokensOf_iff (src : Str) (st : LexState) (ht : st.template = false) (ts : List Token) :
    tokensOf (LexerS.readAll (start src st)) = some ts ↔ Tokens st.html st.regex [] true src ts := by
  rw [tokensOf_eq]; exact readAll_iff src st ht ts

/-! ## C01 -/

/-- **C01** Reading all tokens of any source in any lexer state returns a list of tokens or an error with a well-formed span
within the source: no panic, no endless loop. -/
theorem C01_lexing_total (src : Str) (st : LexState) :
    (∃ ts lx, LexerS.readAll (start src st) = .ok ts lx) ∨
    (∃ e lx, LexerS.readAll (start src st) = .err e lx ∧ e.span.start ≤ e.span.stop ∧ e.span.stop ≤ byteLen src) := by
  cases ht : st.template with
  | false =>
    have := readAll_spec st ht _ [] (start src st) rfl ⟨rfl, rfl⟩ (Nat.lt_succ_self _) []
    rw [← readAll_eq] at this
    revert this
    cases LexerS.readAll (start src st) with
    | ok ts lx => intro _; exact .inl ⟨_, _, rfl⟩
    | err e lx => rintro ⟨-, h1, h2⟩; exact .inr ⟨_, _, rfl, h1, by simpa [start] using h2⟩
    | panic => exact False.elim
    | oof => exact False.elim
  | true =>
    have := readAll_template st ht _ (start src st) rfl (Nat.le_refl _) (Nat.lt_succ_self _) []
    rw [← readAll_eq] at this
    revert this
    cases LexerS.readAll (start src st) with
    | ok ts lx => exact False.elim
    | err e lx => rintro ⟨-, h1, h2⟩; exact .inr ⟨_, _, rfl, h1, by simpa [start] using h2⟩
    | panic => exact False.elim
    | oof => exact False.elim

/-- **C01** Reading one token never panics or loops, wherever the lexer stands and whatever its state. -/
theorem C01_read_total (st : LexState) (s : Cursor) (hp : s.pos ≤ s.off) :
    (∃ t s', Lexer.read st s = .ok t s') ∨ (∃ e s', Lexer.read st s = .err e s') := by
  cases ht : st.template with
  | false =>
    have := read_spec st ht s hp
    revert this
    cases Lexer.read st s with
    | ok t s' => intro _; exact .inl ⟨_, _, rfl⟩
    | err e s' => intro _; exact .inr ⟨_, _, rfl⟩
    | panic => exact False.elim
    | oof => exact False.elim
  | true =>
    rw [read_template st ht]
    rcases (LS_readTemplateLiteralMiddleOrTail (s := s)).run hp with ⟨t, w, c, hr, -⟩ | ⟨e, w, c, hr, -⟩
    · exact .inl ⟨_, _, hr⟩
    · exact .inr ⟨_, _, hr⟩

/-! ## C02 -/

/-- **C02** `read_all` succeeds with the tokens `ts` exactly when the source is trivia, lexeme, trivia, .., lexeme, trivia with
these tokens as lexemes (`Spec.Tokens`). -/
theorem C02_tokens_tile (src : Str) (st : LexState) (ht : st.template = false) (ts : List Token) :
    tokensOf (LexerS.readAll (start src st)) = some ts ↔ Tokens st.html st.regex [] true src ts :=
  tokensOf_iff src st ht ts

/-- **C02** A source tokenizes in at most one way. -/
theorem C02_tokens_unique (src : Str) (html regex : Bool) (ts ts' : List Token)
    (h : Tokens html regex [] true src ts) (h' : Tokens html regex [] true src ts') : ts = ts' := by
  have h1 := (tokensOf_iff src ⟨html, regex, false⟩ rfl ts).2 h
  have h2 := (tokensOf_iff src ⟨html, regex, false⟩ rfl ts').2 h'
  rw [h1] at h2
  exact Option.some.inj h2

/-! ## C03 -/

/-- **C03** Spans are non-empty, ordered, disjoint and in bounds. -/
theorem C03_spans_ordered (src : Str) (st : LexState) (ht : st.template = false) (ts : List Token)
    (h : tokensOf (LexerS.readAll (start src st)) = some ts) :
    (∀ t ∈ ts, t.span.start < t.span.stop ∧ t.span.stop ≤ byteLen src) ∧
    ts.Pairwise (fun a b => a.span.stop ≤ b.span.start) := by
  have := tokens_bounds ((tokensOf_iff src st ht ts).1 h)
  exact ⟨fun t ht => (this.1 t ht).2, this.2⟩

/-! ## C04 -/

theorem slice_ascii {u w rest : Str} (h : Ascii (u ++ (w ++ rest))) :
    slice (u ++ (w ++ rest)) ⟨posAfter 0 0 u, posAfter 0 0 (u ++ w)⟩ = w ∧
      (u ++ (w ++ rest)).drop (posAfter 0 0 (u ++ w)) = rest := by
  have hu : Ascii u := fun c hc => h c (by simp [hc])
  have huw : Ascii (u ++ w) := fun c hc => h c (by simp at hc ⊢; rcases hc with hc | hc <;> simp [hc])
  unfold slice
  rw [posAfter_ascii 0 hu, posAfter_ascii 0 huw, byteLen_ascii hu, byteLen_ascii huw]
  constructor
  · simp
  · rw [← List.append_assoc]
    simp

/-- **C04** For an ASCII source the span of every token selects a lexeme of that token. -/
theorem C04_span_slices_lexeme (src : Str) (hs : Ascii src) (st : LexState) (ht : st.template = false) (ts : List Token)
    (h : tokensOf (LexerS.readAll (start src st)) = some ts) (t : Token) (hm : t ∈ ts) :
    Lexeme st.regex t.value (slice src t.span) (src.drop t.span.stop) := by
  obtain ⟨u, w, rest, h1, -, -, hlex, hsp, -⟩ := tokens_mem ((tokensOf_iff src st ht ts).1 h) hm
  simp only [List.nil_append] at h1
  rw [h1] at hs ⊢
  have := slice_ascii hs
  rw [hsp, this.1, this.2]
  exact hlex

/-! ## C05 -/

/-- **C05** The first token of a source is marked as first on its line, and any other token is marked iff the text between it
and the token before it contains a line terminator. -/
theorem C05_first_on_line (src : Str) (st : LexState) (ht : st.template = false) (ts : List Token)
    (h : tokensOf (LexerS.readAll (start src st)) = some ts) :
    (∀ t r, ts = t :: r → t.fol = true) ∧
    (∀ l a b r, ts = l ++ a :: b :: r → ∃ u w1 tr w2 rest, src = u ++ (w1 ++ (tr ++ (w2 ++ rest))) ∧
      Lexeme st.regex a.value w1 (tr ++ (w2 ++ rest)) ∧ Lexeme st.regex b.value w2 rest ∧
      Trivia st.html false tr (w2 ++ rest) b.fol ∧ (b.fol = true ↔ ∃ c ∈ tr, isLT c = true)) := by
  have h := (tokensOf_iff src st ht ts).1 h
  constructor
  · rintro t r rfl; exact tokens_head_fol h
  · rintro l a b r rfl
    obtain ⟨u, w1, tr, w2, rest, h1, h2, h3, h4, h5, -⟩ := tokens_window h
    exact ⟨u, w1, tr, w2, rest, by simpa using h1, h2, h3, h4, by rw [h5]; simp⟩

/-- **C05** For ASCII sources, in terms of spans. -/
theorem C05_first_on_line_ascii (src : Str) (hs : Ascii src) (st : LexState) (ht : st.template = false)
    (l r : List Token) (a b : Token) (h : tokensOf (LexerS.readAll (start src st)) = some (l ++ a :: b :: r)) :
    b.fol = true ↔ ∃ c ∈ slice src ⟨a.span.stop, b.span.start⟩, c = '\n' ∨ c = '\r' := by
  obtain ⟨u, w1, tr, w2, rest, h1, h2, h3, h4, h5, h6, h7⟩ := tokens_window ((tokensOf_iff src st ht _).1 h)
  simp only [List.nil_append] at h1
  have e : slice src ⟨a.span.stop, b.span.start⟩ = tr := by
    rw [h6, h7]
    have := slice_ascii (u := u ++ w1) (w := tr) (rest := w2 ++ rest) (by rw [← List.append_assoc] at h1; rw [← h1]; exact hs)
    rw [← List.append_assoc] at h1
    rw [h1]
    exact this.1
  rw [e, h5, List.any_eq_true]
  have hlt : ∀ c ∈ tr, (isLT c = true ↔ c = '\n' ∨ c = '\r') := by
    intro c hc
    have ha : c.toNat < 128 := hs c (by rw [h1]; simp [hc])
    unfold isLT
    simp only [Bool.or_eq_true, beq_iff_eq]
    have e1 : c = '\n' ↔ c.toNat = 10 := ⟨fun h => by rw [h]; rfl, fun h => by rw [← Char.ofNat_toNat c, h]⟩
    have e2 : c = '\r' ↔ c.toNat = 13 := ⟨fun h => by rw [h]; rfl, fun h => by rw [← Char.ofNat_toNat c, h]⟩
    rw [e1, e2]; omega
  constructor
  · rintro ⟨c, hc, h⟩; exact ⟨c, hc, (hlt c hc).1 h⟩
  · rintro ⟨c, hc, h⟩; exact ⟨c, hc, (hlt c hc).2 h⟩

/-! ## C06 -/

/-- **C06** Lexemes that are followed by white space, line terminators and multi-line comments (starting with a blank, or
nothing after the last one) are read as the same token values, whatever the filler is. -/
theorem C06_filler_irrelevant (lead : Str) (hlead : Filler lead) (items : List (TokVal × Str × Str)) (h : Items items) :
    valuesOf (LexerS.readAll (LexerS.new (lead ++ itemsText items))) = some (items.map Prod.fst) := by
  obtain ⟨ts, hts, hv⟩ := items_tokens h true [] lead true hlead
  have := (tokensOf_iff (lead ++ itemsText items) LexState.default rfl ts).2 hts
  unfold valuesOf
  rw [show LexerS.new (lead ++ itemsText items) = start (lead ++ itemsText items) LexState.default from rfl, this]
  simp [hv]

/-! ## C07 -/

/-- **C07** Punctuators are matched longest first: no longer punctuator is a prefix of the text at a punctuator token, except
that `?` in front of a dot and a digit is not taken for `?.`. -/
theorem C07_longest_match (src : Str) (st : LexState) (ht : st.template = false) (ts : List Token)
    (h : tokensOf (LexerS.readAll (start src st)) = some ts) (t : Token) (hm : t ∈ ts) (p : Punct) (hp : t.value = .punct p) :
    ∃ u rest, src = u ++ (p.asStr ++ rest) ∧ t.span.start = posAfter 0 0 u ∧
      ∀ q : Punct, q.asStr <+: p.asStr ++ rest → q.asStr.length ≤ p.asStr.length ∨
        (p = p!"?" ∧ q = p!"?." ∧ ∃ c r, rest = '.' :: c :: r ∧ c.isDigit = true) := by
  obtain ⟨u, w, rest, h1, -, -, hlex, hsp, -⟩ := tokens_mem ((tokensOf_iff src st ht ts).1 h) hm
  rw [hp] at hlex
  cases hlex with
  | punct hpt _ =>
    refine ⟨u, rest, by simpa using h1, by rw [hsp], ?_⟩
    intro q hq
    by_cases hl : q.asStr.length ≤ p.asStr.length
    · exact .inl hl
    · exact .inr (hpt.longest q (by omega) hq)

/-! ## C09 - C12, C14: literals and names -/

/-- **C09** A number token's raw text is its lexeme and follows the numeric grammar (`Spec.NumberText`); it has no two
adjacent underscores, does not end with one and is not followed by an identifier start. -/
theorem C09_numbers (src : Str) (st : LexState) (ht : st.template = false) (ts : List Token)
    (h : tokensOf (LexerS.readAll (start src st)) = some ts) (t : Token) (hm : t ∈ ts) (n : Str)
    (hv : t.value = .lit (.number n)) :
    ∃ u rest, src = u ++ (n ++ rest) ∧ t.span = ⟨posAfter 0 0 u, posAfter 0 0 (u ++ n)⟩ ∧ NumberText n rest ∧
      (∀ a b, n ≠ a ++ '_' :: '_' :: b) ∧ n.getLast? ≠ some '_' ∧ (∀ c r, rest = c :: r → isIdStart c = false) := by
  obtain ⟨u, w, rest, h1, -, -, hlex, hsp, -⟩ := tokens_mem ((tokensOf_iff src st ht ts).1 h) hm
  rw [hv] at hlex
  cases hlex with
  | number hn hi =>
    have := numberText_seps hn
    exact ⟨u, rest, by simpa using h1, hsp, hn, this.single, this.last, fun c r hr => hi c (by rw [hr]; rfl)⟩

/-- **C10** A string token: the lexeme is quote, body, quote; the value is the body without the escaping backslashes; quotes and
line breaks in the body are escaped. -/
theorem C10_strings (src : Str) (st : LexState) (ht : st.template = false) (ts : List Token)
    (h : tokensOf (LexerS.readAll (start src st)) = some ts) (t : Token) (hm : t ∈ ts) (v : Str) (q : Char)
    (hv : t.value = .lit (.string ⟨v, q⟩)) :
    (q = '"' ∨ q = '\'') ∧ ∃ u body rest, src = u ++ (q :: body ++ q :: rest) ∧
      t.span = ⟨posAfter 0 0 u, posAfter 0 0 (u ++ (q :: body ++ [q]))⟩ ∧ v = unescape body ∧
      (∀ a c b, body = a ++ c :: b → c = q ∨ c = '\r' ∨ c = '\n' →
        Escaped a ∨ (c = '\n' ∧ ∃ a', a = a' ++ ['\r'] ∧ Escaped a')) := by
  obtain ⟨u, w, rest, h1, -, -, hlex, hsp, -⟩ := tokens_mem ((tokensOf_iff src st ht ts).1 h) hm
  rw [hv] at hlex
  cases hlex with
  | @string _ body _ _ hq hb =>
    refine ⟨hq, u, body, rest, by simpa using h1, hsp, stringBody_value hb, stringBody_escaped hb ?_⟩
    rcases hq with rfl | rfl <;> decide

/-- **C11** Regular expression tokens are read only where they are allowed; the value is the lexeme, of the form `/`, body, `/`,
flags (`Spec.RegexpText` includes the closing slash); the flags extend as far as possible; and the literal does not begin like
a comment. -/
theorem C11_regexps (src : Str) (st : LexState) (ht : st.template = false) (ts : List Token)
    (h : tokensOf (LexerS.readAll (start src st)) = some ts) (t : Token) (hm : t ∈ ts) (v : Str)
    (hv : t.value = .lit (.regexp v)) :
    st.regex = true ∧ ∃ u body flags rest, v = '/' :: body ++ flags ∧ src = u ++ (v ++ rest) ∧
      t.span = ⟨posAfter 0 0 u, posAfter 0 0 (u ++ v)⟩ ∧ RegexpText body ∧ (∀ c ∈ flags, isIdPart c = true) ∧
      (∀ c r, rest = c :: r → isIdPart c = false) ∧ (∀ r, v ≠ '/' :: '/' :: r) ∧ (∀ r, v ≠ '/' :: '*' :: r) := by
  obtain ⟨u, w, rest, h1, -, -, hlex, hsp, hnt⟩ := tokens_mem ((tokensOf_iff src st ht ts).1 h) hm
  rw [hv] at hlex
  cases hlex with
  | @regexp body flags _ hre hb hf hr =>
    refine ⟨hre, u, body, flags, rest, rfl, by simpa using h1, hsp, hb, hf, fun c r h => hr c (by rw [h]; rfl), ?_, ?_⟩
    · intro r h; exact hnt.2.1 (r ++ rest) (by rw [h]; rfl)
    · intro r h; exact hnt.2.2.1 (r ++ rest) (by rw [h]; rfl)

/-- The text of a template part: no unescaped backtick and no unescaped `${` inside, and the value is the text without the
escaping backslashes. -/
structure PartOK (body v : Str) : Prop where
  value : v = unescape body
  noEnd : ∀ a c b, body = a ++ c :: b → c = '`' ∨ (c = '$' ∧ b.head? = some '{') → Escaped a

/-- **C12** Template heads and templates without substitutions. -/
theorem C12_template_head (src : Str) (st : LexState) (ht : st.template = false) (ts : List Token)
    (h : tokensOf (LexerS.readAll (start src st)) = some ts) (t : Token) (hm : t ∈ ts) :
    (∀ v, t.value = .lit (.template v) → ∃ u body rest, src = u ++ ('`' :: body ++ '`' :: rest) ∧
      t.span = ⟨posAfter 0 0 u, posAfter 0 0 (u ++ ('`' :: body ++ ['`']))⟩ ∧ PartOK body v) ∧
    (∀ v, t.value = .templateHead v → ∃ u body rest, src = u ++ ('`' :: body ++ '$' :: '{' :: rest) ∧
      t.span = ⟨posAfter 0 0 u, posAfter 0 0 (u ++ ('`' :: body ++ ['$', '{']))⟩ ∧ PartOK body v) := by
  obtain ⟨u, w, rest, h1, -, -, hlex, hsp, hnt⟩ := tokens_mem ((tokensOf_iff src st ht ts).1 h) hm
  constructor
  · intro v hv
    rw [hv] at hlex
    cases hlex with
    | @template body _ _ hb =>
      exact ⟨u, body, rest, by simpa using h1, hsp, templateBody_value hb, templateBody_escaped hb⟩
  · intro v hv
    rw [hv] at hlex
    cases hlex with
    | @templateHead body _ _ hb =>
      exact ⟨u, body, rest, by simpa using h1, hsp, templateBody_value hb, templateBody_escaped hb⟩

/-- **C12** Template middles and tails, read in the state inside a template: the text begins with the closing brace, and ends
with a backtick (tail) or `${` (middle). -/
theorem C12_template_continuation (st : LexState) (ht : st.template = true) (s s' : Cursor) (hp : s.pos ≤ s.off) (t : Token)
    (h : Lexer.read st s = .ok t s') :
    ∃ body v, PartOK body v ∧ t.span = ⟨s.pos, s'.pos⟩ ∧
      ((t.value = .templateTail v ∧ s.rest = '}' :: body ++ '`' :: s'.rest) ∨
       (t.value = .templateMiddle v ∧ s.rest = '}' :: body ++ '$' :: '{' :: s'.rest)) := by
  rw [read_template st ht] at h
  rcases (LS_readTemplateLiteralMiddleOrTail (s := s)).run hp with ⟨t', w, c, hr, he, hc, -, hsp, -⟩ | ⟨e, w, c, hr, -⟩
  · rw [h] at hr
    cases hr
    have hrest := he.rest
    cases hcv : t.value with
    | templateMiddle v =>
      rw [hcv] at hc
      cases hc with
      | @middle body _ hb =>
        exact ⟨body, v, ⟨templateBody_value hb, templateBody_escaped hb⟩, hsp, .inr ⟨rfl, by rw [hrest]; simp⟩⟩
    | templateTail v =>
      rw [hcv] at hc
      cases hc with
      | @tail body _ hb =>
        exact ⟨body, v, ⟨templateBody_value hb, templateBody_escaped hb⟩, hsp, .inl ⟨rfl, by rw [hrest]; simp⟩⟩
    | _ => rw [hcv] at hc; cases hc
  · rw [h] at hr; cases hr

/-- **C14** An identifier token's name is an identifier name that is no keyword, spelled by its lexeme literally or with unicode
escapes. -/
theorem C14_identifiers (src : Str) (st : LexState) (ht : st.template = false) (ts : List Token)
    (h : tokensOf (LexerS.readAll (start src st)) = some ts) (t : Token) (hm : t ∈ ts) (n : Str) (hv : t.value = .ident n) :
    (∃ c r, n = c :: r ∧ isIdStart c = true) ∧ (∀ c ∈ n, isIdPart c = true) ∧ (∀ k : Keyword, k.asStr ≠ n) ∧
    ∃ u w rest, src = u ++ (w ++ rest) ∧ t.span = ⟨posAfter 0 0 u, posAfter 0 0 (u ++ w)⟩ ∧ Spells w n ∧
      (∀ c r, rest = c :: r → isIdPart c = false) := by
  obtain ⟨u, w, rest, h1, -, -, hlex, hsp, hnt⟩ := tokens_mem ((tokensOf_iff src st ht ts).1 h) hm
  rw [hv] at hlex
  cases hlex with
  | ident hn hk =>
    refine ⟨hn.valid.1, hn.valid.2, hk, u, w, rest, by simpa using h1, hsp, hn.spells, ?_⟩
    intro c r hr
    have := hn.maximal c (by rw [hr]; rfl)
    simp only [Bool.or_eq_false_iff] at this
    exact this.1

/-! ## C13: comments -/

/-- The cursor after the text `w`, with `rest` left. -/
def skipTo (s : Cursor) (w rest : Str) (fol : Bool) : Cursor := ⟨rest, s.off + byteLen w, posAfter s.off s.pos w, fol⟩

/-- **C13** A single line comment is skipped up to and including the next line terminator; the next token is first on its
line. -/
theorem C13_line_comment (st : LexState) (ht : st.template = false) (s : Cursor) (hp : s.pos ≤ s.off) (l r : Str) (c : Char)
    (hs : s.rest = '/' :: '/' :: l ++ c :: r) (hl : ∀ d ∈ l, isLT d = false) (hc : isLT c = true) :
    Lexer.read st s = Lexer.read st (skipTo s ('/' :: '/' :: l ++ [c]) r true) := by
  have := Trivia.line (html := st.html) (fol := s.fol) (w := []) (rest := r) (LineRest.eol (rest := [] ++ r) hl hc) .nil
  have := read_trivia st ht this s hp (by rw [hs]; simp) rfl
  simp only [List.append_nil] at this
  exact this

/-- **C13** A multi-line comment is skipped up to the first `*/`; it marks the next token as first on its line iff it contains
a line terminator (or the mark was already set). -/
theorem C13_block_comment (st : LexState) (ht : st.template = false) (s : Cursor) (hp : s.pos ≤ s.off) (body r : Str)
    (hs : s.rest = '/' :: '*' :: body ++ '*' :: '/' :: r) (hb : ∀ u v, body ≠ u ++ '*' :: '/' :: v) :
    Lexer.read st s = Lexer.read st (skipTo s ('/' :: '*' :: body ++ ['*', '/']) r (s.fol || body.any isLT)) := by
  have := Trivia.block (html := st.html) (fol := s.fol) (w := []) (rest := r) hb .nil
  exact read_trivia st ht this s hp (by rw [hs]; simp) rfl

theorem ml_loop_unterminated (st : Nat) {body : Str} (hb : ∀ u v, body ≠ u ++ '*' :: '/' :: v) (s : Cursor)
    (hs : s.rest = body) (n : Nat) (hn : body.length < n) :
    ∃ s', loop (mlBody st) n () s = .err (LexErr.syntax c!"Unterminated comment" st (st + 2)) s' := by
  induction body generalizing s n with
  | nil =>
    cases n with
    | zero => simp at hn
    | succ n =>
      refine ⟨s, ?_⟩
      rw [loop]
      refine M.seq_err ?_
      unfold mlBody
      rw [M.seq_ok (cur?_eq s), M.seq_ok (peek?_eq s), if_neg (by simp [hs]), M.seq_ok (cur?_eq s), if_pos (by simp [hs])]
      rfl
  | cons c body ih =>
    cases n with
    | zero => simp at hn
    | succ n =>
      obtain ⟨s', h'⟩ := ih (fun u v hu => hb (c :: u) v (by rw [hu]; rfl)) (s.afterF [c] body (s.fol || isLT c)) rfl n
        (by simp at hn; omega)
      refine ⟨s', Eq.trans (loop_step ?_) h'⟩
      unfold mlBody
      rw [M.seq_ok (cur?_eq s), M.seq_ok (peek?_eq s), if_neg (by
        rw [hs]
        rintro ⟨h1, h2⟩
        simp at h1 h2
        subst h1
        cases body with
        | nil => simp at h2
        | cons d b =>
          simp at h2
          subst h2
          exact hb [] b rfl), M.seq_ok (cur?_eq s), if_neg (by simp [hs])]
      show (Lexer.consume >>= _) s = _
      rw [M.seq_ok (consume_eq hs)]
      cases hlt : isLT c with
      | false => simp [Cursor.afterF]; rfl
      | true => simp [Cursor.afterF]; rfl

/-- **C13** A multi-line comment that is not closed is an error located at its start. -/
theorem C13_unterminated_comment (st : LexState) (ht : st.template = false) (s : Cursor) (body : Str)
    (hs : s.rest = '/' :: '*' :: body) (hb : ∀ u v, body ≠ u ++ '*' :: '/' :: v) :
    ∃ s', Lexer.read st s = .err ⟨⟨s.pos, s.pos + 2⟩, .syntaxError c!"Unterminated comment"⟩ s' := by
  obtain ⟨s', h'⟩ := ml_loop_unterminated s.pos hb ((s.after ['/'] ('*' :: body)).after ['*'] body) rfl (body.length + 1)
    (Nat.lt_succ_self _)
  refine ⟨s', ?_⟩
  unfold Lexer.read
  rw [readGo_step]
  unfold readStep
  rw [ht]
  simp only [Bool.false_eq_true, if_false]
  refine M.seq_err ?_
  rw [skip_eq]
  unfold skipN
  refine M.seq_err ?_
  rw [loop]
  refine M.seq_err ?_
  unfold skipBody
  rw [M.seq_ok (skipWhitespaces_none (by rw [hs]; intro d hd; simp at hd; subst hd; decide)), M.seq_ok (cur?_eq s),
    M.seq_ok (peek?_eq s), if_neg (by simp [hs]), if_neg (by simp [hs]), if_pos (by simp [hs])]
  refine M.seq_err ?_
  unfold Lexer.skipMultiLineComment
  rw [M.seq_ok (position_eq s), M.seq_ok (consume_eq hs), M.seq_ok (consume_eq (c := '*') (cs := body) (by rfl)),
    M.seq_ok (fuel_eq _)]
  exact h'

/-- **C13** Where html-like comments are not allowed, `<!` is an error. -/
theorem C13_html_comment_error (st : LexState) (ht : st.template = false) (hh : st.html = false) (s : Cursor) (r : Str)
    (hs : s.rest = '<' :: '!' :: r) :
    ∃ s', Lexer.read st s =
      .err ⟨⟨s.pos, s.pos + 2⟩, .syntaxError c!"HTML comments are not allowed in this context"⟩ s' := by
  refine ⟨s, ?_⟩
  unfold Lexer.read
  rw [readGo_step]
  unfold readStep
  rw [ht]
  simp only [Bool.false_eq_true, if_false]
  refine M.seq_err ?_
  rw [skip_eq]
  unfold skipN
  refine M.seq_err ?_
  rw [loop]
  refine M.seq_err ?_
  unfold skipBody
  rw [M.seq_ok (skipWhitespaces_none (by rw [hs]; intro d hd; simp at hd; subst hd; decide)), M.seq_ok (cur?_eq s),
    M.seq_ok (peek?_eq s), if_neg (by simp [hs]), if_pos (by simp [hs]), if_pos (by simp [hh])]
  rfl

/-- **C13** Where they are allowed, html-like comments are single line comments (fajt takes any `<!` for one). -/
theorem C13_html_comment (st : LexState) (ht : st.template = false) (hh : st.html = true) (s : Cursor) (hp : s.pos ≤ s.off)
    (l r : Str) (c : Char) (hl : ∀ d ∈ l, isLT d = false) (hc : isLT c = true) :
    (s.rest = '<' :: '!' :: l ++ c :: r →
      Lexer.read st s = Lexer.read st (skipTo s ('<' :: '!' :: l ++ [c]) r true)) ∧
    (s.rest = '-' :: '-' :: '>' :: l ++ c :: r → s.fol = true →
      Lexer.read st s = Lexer.read st (skipTo s ('-' :: '-' :: '>' :: l ++ [c]) r true)) := by
  constructor
  · intro hs
    have := Trivia.htmlOpen (fol := s.fol) (w := []) (rest := r) hh (LineRest.eol (rest := [] ++ r) hl hc) .nil
    have := read_trivia st ht this s hp (by rw [hs]; simp) rfl
    simp only [List.append_nil] at this
    exact this
  · intro hs hf
    have := Trivia.htmlClose (w := []) (rest := r) hh (LineRest.eol (rest := [] ++ r) hl hc) .nil
    have := read_trivia st ht this s hp (by rw [hs]; simp) hf
    simp only [List.append_nil] at this
    exact this

/-! ## C15: lexing inverts printing -/

/-- The value with a backslash in front of backslashes, line breaks and the quote. -/
def escapeStr (q : Char) (v : Str) : Str :=
  v.flatMap fun c => if c = '\\' ∨ c = q ∨ c = '\r' ∨ c = '\n' then ['\\', c] else [c]

/-- A spelling of punctuators, keywords, identifiers, numbers and strings. -/
def spell : TokVal → Str
  | .punct p => p.asStr
  | .keyword k => k.asStr
  | .ident n => n
  | .lit (.number n) => n
  | .lit (.string s) => s.delimiter :: escapeStr s.delimiter s.value ++ [s.delimiter]
  | _ => []

/-- Values of punctuators, keywords, identifiers, numbers and strings that a lexer can deliver. -/
def Printable : TokVal → Prop
  | .punct _ => True
  | .keyword _ => True
  | .ident n => IdentName n ∧ ∀ k : Keyword, k.asStr ≠ n
  | .lit (.number n) => ∃ rest, NumberText n rest
  | .lit (.string s) => s.delimiter = '"' ∨ s.delimiter = '\''
  | _ => False

theorem escapeStr_body {q : Char} (v : Str) : StringBody q (escapeStr q v) v := by
  induction v with
  | nil => exact .nil
  | cons c v ih =>
    by_cases hc : c = '\\' ∨ c = q ∨ c = '\r' ∨ c = '\n'
    · have : escapeStr q (c :: v) = '\\' :: c :: escapeStr q v := by simp [escapeStr, hc]
      rw [this]; exact .escape ih
    · have : escapeStr q (c :: v) = c :: escapeStr q v := by simp [escapeStr, hc]
      simp only [not_or] at hc
      rw [this]; exact .plain hc.1 hc.2.1 hc.2.2.1 hc.2.2.2 ih

theorem spells_self (n : Str) : Spells n n := by
  induction n with
  | nil => exact .nil
  | cons c n ih => exact .plain ih

theorem keyword_name (k : Keyword) : IdentName k.asStr := by
  have h : (∃ c r, k.asStr = c :: r ∧ c.isAlpha = true) ∧ ∀ c ∈ k.asStr, c.isAlpha = true := by
    cases k <;> exact ⟨⟨_, _, rfl, by decide⟩, by decide⟩
  obtain ⟨⟨c, r, h1, h2⟩, h3⟩ := h
  exact ⟨⟨c, r, h1, by simp [isIdStart, h2]⟩, fun d hd => by simp [isIdPart, h3 d hd]⟩

theorem printable_lexeme {v : TokVal} (h : Printable v) : ∃ rest, Lexeme false v (spell v) rest := by
  have hstop : Stop [] := by intro c hc; simp at hc
  refine ⟨[], ?_⟩
  match v, h with
  | .punct p, _ => exact .punct (punctText_stop p hstop) (by intro h; cases h)
  | .keyword k, _ => exact .keyword ⟨spells_self _, keyword_name k, by intro c hc; simp at hc⟩
  | .ident n, h => exact .ident ⟨spells_self _, h.1, by intro c hc; simp at hc⟩ h.2
  | .lit (.number n), ⟨rest, h⟩ => exact .number (numberText_stop h hstop) (by intro c hc; simp at hc)
  | .lit (.string ⟨v, q⟩), h =>
    exact .string h (escapeStr_body v)

/-- The values with their spellings, separated by one space. -/
def spaced : List TokVal → List (TokVal × Str × Str)
  | [] => []
  | [v] => [(v, spell v, [])]
  | v :: vs => (v, spell v, [' ']) :: spaced vs

theorem spaced_items (vs : List TokVal) (h : ∀ v ∈ vs, Printable v) : Items (spaced vs) := by
  induction vs with
  | nil => exact .nil
  | cons v vs ih =>
    cases vs with
    | nil => exact .cons (printable_lexeme (h v (by simp))) .nil (by intro c hc; simp at hc) (fun _ => rfl) .nil
    | cons v' vs =>
      refine .cons (printable_lexeme (h v (by simp))) (.blank (by decide) .nil) ?_ (by simp)
        (ih (fun x hx => h x (by simp at hx ⊢; exact .inr hx)))
      intro c hc; simp at hc; subst hc; decide

theorem spaced_text (vs : List TokVal) : itemsText (spaced vs) = [' '].intercalate (vs.map spell) := by
  induction vs with
  | nil => rfl
  | cons v vs ih =>
    cases vs with
    | nil => simp [spaced, itemsText, List.intercalate]
    | cons v' vs =>
      have : itemsText (spaced (v :: v' :: vs)) = spell v ++ ([' '] ++ itemsText (spaced (v' :: vs))) := by
        simp [spaced, itemsText]
      rw [this, ih]
      simp [List.intercalate]

theorem spaced_values (vs : List TokVal) : (spaced vs).map Prod.fst = vs := by
  induction vs with
  | nil => rfl
  | cons v vs ih =>
    cases vs with
    | nil => rfl
    | cons v' vs => simp only [spaced, List.map_cons, ih]

/-- **C15** Writing any list of punctuators, keywords, identifiers, numbers and strings with a space between consecutive tokens
and lexing the result gives the values back. -/
theorem C15_lex_print (vs : List TokVal) (h : ∀ v ∈ vs, Printable v) :
    valuesOf (LexerS.readAll (LexerS.new ([' '].intercalate (vs.map spell)))) = some vs := by
  have := C06_filler_irrelevant [] .nil (spaced vs) (spaced_items vs h)
  rw [List.nil_append, spaced_text, spaced_values] at this
  exact this

/-! ## C16: the peeking reader -/

/-- The operations of a peek reader. -/
inductive Op where
  | current
  | peek
  | consume

/-- What a sequence of operations on a peek reader returns. -/
def runOps {I ε T : Type} (nextI : I → Except ε (Nat × T) × I) : PeekReader I ε T → List Op → List (Except ε T)
  | _, [] => []
  | r, .current :: ops => r.cur :: runOps nextI r ops
  | r, .peek :: ops => r.peek :: runOps nextI r ops
  | r, .consume :: ops => (r.consume nextI).1 :: runOps nextI (r.consume nextI).2 ops

/-- What it should return, when `n` items have been consumed: `current` and `consume` the `n`-th item of the inner reader,
`peek` the one after it. -/
def itemOps {I ε T : Type} (nextI : I → Except ε (Nat × T) × I) (i : I) : Nat → List Op → List (Except ε T)
  | _, [] => []
  | n, .current :: ops => (PeekReader.item nextI i n).map Prod.snd :: itemOps nextI i n ops
  | n, .peek :: ops => (PeekReader.item nextI i (n + 1)).map Prod.snd :: itemOps nextI i n ops
  | n, .consume :: ops => (PeekReader.item nextI i n).map Prod.snd :: itemOps nextI i (n + 1) ops

/-- **C16** For any interleaving of `current`, `peek` and `consume` a peek reader returns the items of the inner reader in
order. -/
theorem C16_peek_reader {I ε T : Type} (nextI : I → Except ε (Nat × T) × I) (i : I) (offset : Nat) (ops : List Op) :
    runOps nextI (PeekReader.withOffset nextI i offset) ops = itemOps nextI i 0 ops := by
  suffices h : ∀ n, runOps nextI (PeekReader.after nextI i offset n) ops = itemOps nextI i n ops from h 0
  induction ops with
  | nil => intro n; rfl
  | cons op ops ih =>
    intro n
    cases op with
    | current =>
      simp only [runOps, itemOps, ih]
      rw [PeekReader.after_eq]; rfl
    | peek =>
      simp only [runOps, itemOps, ih]
      rw [PeekReader.after_eq]; rfl
    | consume =>
      simp only [runOps, itemOps]
      have := ih (n + 1)
      rw [PeekReader.after] at this
      rw [this]
      congr 1
      rw [PeekReader.after_eq]
      unfold PeekReader.consume
      simp only
      cases PeekReader.item nextI i n <;> rfl

/-- **C16** `position()` after `n` consumed items is the end position of the last of them that was not an error. -/
theorem C16_position {I ε T : Type} (nextI : I → Except ε (Nat × T) × I) (i : I) (offset n : Nat) :
    (PeekReader.after nextI i offset n).position = PeekReader.endPos nextI i offset n := by
  rw [PeekReader.after_eq]

/-- **C16** The `Cursor` on which the lexer model runs behaves as the peek reader over the characters: same `current`, `peek`,
`position` and `consume`, also after a seek (`base` is the offset the reader was created with). -/
theorem C16_cursor_refines_reader (base : Nat) (s : Cursor) (hb : base ≤ s.off) :
    (s.reader base).cur.toOption = s.cur ∧ (s.reader base).peek.toOption = s.peek ∧ (s.reader base).position = s.pos ∧
    PeekReader.consume CharIndices.nextItem (s.reader base) =
      (match s.rest with
      | [] => (.error (), s.reader base)
      | c :: cs => (.ok c, (s.advance c cs).reader base)) :=
  ⟨s.reader_cur base, s.reader_peek base, rfl, s.reader_consume base hb⟩

/-- **C16** The readers that `Lexer::new` and `seek` create are those of the cursors of the model. -/
theorem C16_new_reader (rest : Str) (off : Nat) (fol : Bool) :
    PeekReader.withOffset CharIndices.nextItem ⟨0, rest⟩ off = (Cursor.mk rest off off fol).reader off := by
  simp [PeekReader.withOffset, Cursor.reader]

/-! ## C17: rewinding -/

theorem dropBytes_append (u r : Str) : LexerS.dropBytes (u ++ r) (byteLen u) = some r := by
  induction u with
  | nil =>
    cases r <;> rfl
  | cons c u ih =>
    obtain ⟨k, hk⟩ : ∃ k, c.utf8Size = k + 1 := ⟨c.utf8Size - 1, by have := utf8Size_pos c; omega⟩
    have : byteLen (c :: u) = (k + byteLen u) + 1 := by simp [hk]; omega
    rw [this, List.cons_append, LexerS.dropBytes, if_pos (by omega)]
    rw [← ih]
    congr 1
    omega

theorem tokens_from {html regex : Bool} {pre src : Str} {fol : Bool} {l r : List Token} {t : Token}
    (h : Tokens html regex pre fol src (l ++ t :: r)) :
    ∃ u x, pre ++ src = u ++ x ∧ t.span.start = posAfter 0 0 u ∧ Tokens html regex u t.fol x (t :: r) := by
  induction l generalizing pre src fol with
  | nil =>
    cases h with
    | @cons _ tr w rest _ _ _ htr hfl hnt hw hlex hsp h' =>
      refine ⟨pre ++ tr, w ++ rest, by simp, by rw [hsp], ?_⟩
      have := Tokens.cons (pre := pre ++ tr) (tr := []) (fol := t.fol) (t := t) (.nil (html := html)) (by simp) hnt hw hlex
        (by simpa using hsp) (by simpa using h')
      exact this
  | cons a l ih =>
    cases h with
    | @cons _ tr w rest _ _ _ htr hfl hnt hw hlex hsp h' =>
      obtain ⟨u, x, h1, h2⟩ := ih h'
      exact ⟨u, x, by rw [← h1]; simp, h2⟩

/-- **C17** For an ASCII source: rewinding any lexer over that source to a token it delivered, wherever it now stands, and
reading on in the same state delivers the same token and the same tokens after it. -/
theorem C17_rewind (src : Str) (hs : Ascii src) (st : LexState) (ht : st.template = false) (l r : List Token) (t : Token)
    (h : tokensOf (LexerS.readAll (start src st)) = some (l ++ t :: r)) (c : Cursor) :
    ∃ lx, LexerS.rewindBefore t ⟨src, st, c⟩ = some lx ∧ tokensOf (LexerS.readAll lx) = some (t :: r) := by
  obtain ⟨u, x, h1, h2, h3⟩ := tokens_from ((tokensOf_iff src st ht _).1 h)
  simp only [List.nil_append] at h1
  have hu : Ascii u := fun d hd => hs d (by rw [h1]; simp [hd])
  have hpos : t.span.start = byteLen u := by rw [h2, posAfter_ascii 0 hu]; simp
  refine ⟨⟨src, st, ⟨x, t.span.start, t.span.start, t.fol⟩⟩, ?_, ?_⟩
  · unfold LexerS.rewindBefore
    simp only
    rw [hpos, h1, dropBytes_append]
  · obtain ⟨lx', h'⟩ := readAll_complete st ht h3 ⟨src, st, ⟨x, t.span.start, t.span.start, t.fol⟩⟩ rfl
      ⟨by rw [hpos], by rw [h2]⟩ rfl rfl _ (Nat.lt_succ_self _) []
    rw [tokensOf_eq]
    exact ⟨lx', by rw [readAll_eq, h']; rfl⟩

end

/-! ## Examples and counterexamples (computed with the ASCII table) -/

section
attribute [local instance] asciiID

/-- A source with comments, a string with an escaped quote, numbers and line breaks. -/
def sample : Str := c!"let x = 0x1_F; // c\n'a\\'b' + /* \n */ y.z <!-- h\n--> i\n\\u0061b"

/-- C01, C02, C03, C05, C07, C09, C10, C14: the sample is ASCII and is read in the default state, with these values. -/
example : Ascii sample ∧ LexState.default.template = false ∧ valuesOf (LexerS.readAll (start sample .default)) = some
    [.keyword .letK, .ident c!"x", .punct p!"=", .lit (.number c!"0x1_F"), .punct p!";", .lit (.string ⟨c!"a'b", '\''⟩),
     .punct p!"+", .ident c!"y", .punct p!".", .ident c!"z", .ident c!"ab"] := by
  refine ⟨?_, rfl, ?_⟩
  · unfold Ascii; decide +kernel
  · decide +kernel

/-- C03, C05: spans and flags of the sample. -/
example : (tokensOf (LexerS.readAll (start sample .default))).map (·.map fun t => (t.span.start, t.span.stop, t.fol)) = some
    [(0, 3, true), (4, 5, false), (6, 7, false), (8, 13, false), (13, 14, false), (20, 26, true), (27, 28, false),
     (37, 38, true), (38, 39, false), (39, 40, false), (54, 61, true)] := by decide +kernel

/-- C11: a regular expression, in the state in which it is allowed. -/
example : valuesOf (LexerS.readAll (start c!" /a[/\\]]\\/b/gi+1" .regexAllowed)) =
    some [.lit (.regexp c!"/a[/\\]]\\/b/gi"), .punct p!"+", .lit (.number c!"1")] := by decide +kernel

/-- C12: template tokens. -/
example : valuesOf (LexerS.readAll (start c!"`a\\`$b` `x${" .default)) =
    some [.lit (.template c!"a`$b"), .templateHead c!"x"] := by decide +kernel

example : (match Lexer.read .insideTemplate ⟨c!"} y ${ z", 5, 5, false⟩ with
    | .ok t s => some (t.value, s.rest)
    | _ => none) = some (.templateMiddle c!" y ", c!" z") := by decide +kernel

/-- C06: an item list with comments as filler. -/
example : Items [(.ident c!"a", c!"a", c!" /* x */\n"), (.punct p!"-", c!"-", c!"\t"), (.punct p!"-", c!"-", [])] := by
  have hstop : ∀ c r, isBlank c = true → Stop (c :: r) := by intro c r h d hd; simp at hd; subst hd; exact h
  have hnil : Stop [] := by intro c hc; simp at hc
  refine .cons (printable_lexeme (v := .ident c!"a") ⟨⟨⟨'a', [], rfl, by decide⟩, by decide⟩, ?_⟩)
    (.blank (by decide) (.comment (body := c!" x ") ?_ (.blank (by decide) .nil)))
    (hstop _ _ (by decide)) (by simp)
    (.cons (printable_lexeme (v := .punct p!"-") trivial) (.blank (by decide) .nil) (hstop _ _ (by decide)) (by simp)
      (.cons (printable_lexeme (v := .punct p!"-") trivial) .nil hnil (fun _ => rfl) .nil))
  · intro k; cases k <;> decide
  · intro u v h
    have : '*' ∈ c!" x " := by rw [h]; simp
    revert this; decide

/-- C15: a printable list with every kind of value. -/
example : ∀ v ∈ [.punct p!">>>=", .keyword .typeofK, .ident c!"a1", .lit (.number c!"1.5e-3"),
    .lit (.string ⟨c!"a\"b\\\n", '"'⟩)], Printable v := by
  intro v hv
  simp only [List.mem_cons, List.not_mem_nil, or_false] at hv
  rcases hv with rfl | rfl | rfl | rfl | rfl
  · trivial
  · trivial
  · exact ⟨⟨⟨'a', ['1'], rfl, by decide⟩, by decide⟩, by intro k; cases k <;> decide⟩
  · refine ⟨[], ?_⟩
    have : tokensOf (LexerS.readAll (start c!"1.5e-3" .default)) =
        some [⟨.lit (.number c!"1.5e-3"), true, ⟨0, 6⟩⟩] := by decide +kernel
    obtain ⟨u, rest, h1, -, h3, -⟩ := C09_numbers _ _ rfl _ this _ (.head _) _ rfl
    have hl := congrArg List.length h1
    simp at hl
    have : rest = [] := List.length_eq_zero_iff.1 (by omega)
    rw [this] at h3
    exact h3
  · exact .inl rfl

/-- C13: hypotheses of the comment theorems. -/
example : (∀ d ∈ c!" x", isLT d = false) ∧ isLT '\u2028' = true ∧ ∀ u v, c!"* x /" ≠ u ++ '*' :: '/' :: v := by
  refine ⟨by decide, by decide, ?_⟩
  intro u v h
  match u, h with
  | [], h => simp at h
  | [_], h => simp at h
  | [_, _], h => simp at h
  | [_, _, _], h => simp at h
  | [_, _, _, _], h => simp at h
  | [_, _, _, _, _], h => simp at h
  | _ :: _ :: _ :: _ :: _ :: _ :: _, h => simp at h

/-- **C04** is false for non-ASCII sources: in a no-break space (two bytes) followed by `a` the token starts at position 1, in
the middle of the space. -/
theorem C04_nonascii_counterexample : ∃ src ts, tokensOf (LexerS.readAll (start src .default)) = some ts ∧
    ∃ t ∈ ts, t.value = .ident c!"a" ∧ LexerS.dropBytes src 2 = some c!"a" ∧ t.span.start = 1 ∧
      LexerS.dropBytes src t.span.start = none :=
  ⟨['\u00a0', 'a'], [⟨.ident c!"a", true, ⟨1, 3⟩⟩], by decide +kernel, _, .head _, rfl, by decide, rfl, by decide⟩

/-- **C17** is false for non-ASCII sources: rewinding to that token panics. -/
theorem C17_nonascii_counterexample : ∃ src ts, tokensOf (LexerS.readAll (start src .default)) = some ts ∧
    ∃ t ∈ ts, LexerS.rewindBefore t (start src .default) = none :=
  ⟨['\u00a0', 'a'], [⟨.ident c!"a", true, ⟨1, 3⟩⟩], by decide +kernel, _, .head _, by decide +kernel⟩

/-- **C05** is false after a template continuation has been re-read: in "} ` b" (a brace that is first on its line) the token `b`
is on the line of the backtick, but is marked as first on its line. -/
theorem C05_template_counterexample :
    (match Lexer.read .insideTemplate ⟨c!"}` b", 0, 0, true⟩ with
    | .ok t s => match Lexer.read .default s with
      | .ok u _ => some (t.value, u.value, u.fol)
      | _ => none
    | _ => none) = some (.templateTail [], .ident c!"b", true) := by decide +kernel

/-- **C13** Deviation from ECMAScript: `a<!b` is the single token `a`, the rest of the line is taken for a comment. -/
theorem C13_html_deviation : valuesOf (LexerS.readAll (start c!"a<!b" .default)) = some [.ident c!"a"] := by decide +kernel

end
end Fajt.Props
