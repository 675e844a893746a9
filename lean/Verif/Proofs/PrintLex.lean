import Verif.Proofs.CompleteSeek
import Verif.Spec.Fits
/-!
# Reading printed tokens

The generated code is a sequence of token texts with blanks between them.  This file says when such a text is read as exactly
these tokens: each token must be recognized in front of the character that follows it.
-/
namespace Fajt.Print
open Fajt Spec Complete
set_option linter.unusedSectionVars false
variable [UnicodeID]

/-- Blanks as the generator writes them. -/
def Blanks (b : Str) : Prop := ∀ c ∈ b, c = ' ' ∨ c = '\n'

/-- Reading one token; `f`: it is the first on its line. -/
def Step (sty : SourceType) (a : Point) (l : Lex) (f : Bool) (b : Point) : Prop :=
  Seekable sty a ∧
  match l.kind with
  | .plain => ∃ t, Next sty a t b ∧ t.value = l.val ∧ t.fol = f
  | .regex => ∃ t, RegexAt sty l.text t a b ∧ t.fol = f ∧ l.val = .lit (.regexp l.text)
  | .cont => ∃ t, Spec.Continues sty a t b ∧ t.value = l.val ∧ ∃ u c, Next sty a u c ∧ u.value = .punct p!"}" ∧ u.fol = f

/-- Reading the tokens one after the other. -/
inductive Chain (sty : SourceType) : Point → List (Lex × Bool) → Point → Prop
  | nil {a : Point} : Chain sty a [] a
  | cons {a b c : Point} {l : Lex} {f : Bool} {ls : List (Lex × Bool)} : Step sty a l f b → Chain sty b ls c →
      Chain sty a ((l, f) :: ls) c

variable {sty : SourceType} {a b c : Point} {l : Lex} {f : Bool} {ls ms : List (Lex × Bool)}

theorem Chain.append (h : Chain sty a ls b) (h' : Chain sty b ms c) : Chain sty a (ls ++ ms) c := by
  induction h with
  | nil => exact h'
  | cons h1 _ ih => exact .cons h1 (ih h')

theorem Chain.snoc (h : Chain sty a ls b) (h' : Step sty b l f c) : Chain sty a (ls ++ [(l, f)]) c := h.append (.cons h' .nil)

/-- The text consists of the tokens with blanks in front of them. -/
inductive Laid : Str → List (Lex × Bool) → Prop
  | nil : Laid [] []
  | snoc {w b : Str} {ts : List (Lex × Bool)} {l : Lex} : Laid w ts → Blanks b → l.WF →
      (l.kind = .cont → b = [] ∧ ts ≠ []) → (∀ k ∈ ts.getLast?, k.1.Ok (b ++ l.text).head?) →
      Laid (w ++ (b ++ l.text)) (ts ++ [(l, ts.isEmpty || b.contains '\n')])

theorem Laid.ascii {w : Str} {ts : List (Lex × Bool)} (h : Laid w ts) : ∀ c ∈ w.getLast?, c.toNat < 128 ∧ c ≠ '\n' := by
  cases h with
  | nil => nofun
  | @snoc w b ts l h1 h2 h3 =>
    have : (w ++ (b ++ l.text)).getLast? = l.text.getLast? := by
      rw [← List.append_assoc, List.getLast?_append]
      obtain ⟨x, hx⟩ : ∃ x, l.text.getLast? = some x := by
        rw [← Option.isSome_iff_exists, List.getLast?_isSome]; exact h3.ne
      simp [hx]
    rw [this]
    exact h3.ascii

theorem Laid.ne {w : Str} {ts : List (Lex × Bool)} (h : Laid w ts) (hw : w = []) : ts = [] := by
  cases h with
  | nil => rfl
  | snoc h1 h2 h3 => simp [h3.ne] at hw

theorem Laid.nil_of {w : Str} (h : Laid w []) : w = [] := by
  generalize hts : ([] : List (Lex × Bool)) = ts at h
  cases h with
  | nil => rfl
  | snoc => simp at hts

theorem blank_trivia {html : Bool} {b : Str} (h : Blanks b) (f : Bool) (rest : Str) : Trivia html f b rest (f || b.contains '\n') := by
  induction b generalizing f with
  | nil => simpa using .nil
  | cons c b ih =>
    have hb : Blanks b := fun d hd => h d (by simp [hd])
    rcases h c (by simp) with rfl | rfl
    · have := ih hb f
      rw [show (f || (' ' :: b).contains '\n') = (f || b.contains '\n') by simp]
      exact .ws (by decide) this
    · have := ih hb true
      rw [show (f || ('\n' :: b).contains '\n') = (true || b.contains '\n') by simp]
      exact .lt (by decide) this

theorem pos_ascii {u : Str} (h : ∀ c ∈ u.getLast?, c.toNat < 128) : posAfter 0 0 u = byteLen u := by
  rcases List.eq_nil_or_concat u with rfl | ⟨v, c, rfl⟩
  · rfl
  · have hc : c.toNat < 128 := h c (by simp)
    rw [List.concat_eq_append, posAfter_snoc]
    have h1 : c.utf8Size = 1 := by
      have := posAfter_ascii (w := [c]) 0 (by intro d hd; simp at hd; subst hd; exact hc)
      simp [posAfter, lenUtf16, byteLen] at this
      have h2 : c.toNat < 65536 := by omega
      simp [h2] at this
      omega
    have h2 : lenUtf16 c = 1 := by simp [lenUtf16]; omega
    simp [byteLen, h1, h2]

theorem blanks_ascii {w b : Str} (h : Blanks b) (hw : ∀ c ∈ w.getLast?, c.toNat < 128) : ∀ c ∈ (w ++ b).getLast?, c.toNat < 128 := by
  intro c hc
  rw [List.getLast?_append] at hc
  cases hb : b.getLast? with
  | none => rw [hb] at hc; exact hw c (by simpa using hc)
  | some d =>
    rw [hb] at hc
    simp at hc
    subst hc
    rcases h d (List.mem_of_getLast? hb) with rfl | rfl <;> decide

theorem continuation_brace {v : TokVal} {w : Str} (h : Continuation v w) : ∃ r, w = '}' :: r := by
  cases h <;> exact ⟨_, rfl⟩

theorem step_of {w b rest : Str} {f : Bool} (hw : ∀ c ∈ w.getLast?, c.toNat < 128) (hb : Blanks b) (hl : l.Ok rest.head?)
    (hne : l.text ≠ []) (hk : l.kind = .cont → b = [] ∧ f = false) :
    Step sty ⟨w, b ++ (l.text ++ rest), f⟩ l (f || b.contains '\n') ⟨w ++ (b ++ l.text), rest, false⟩ := by
  have hp : posAfter 0 0 (w ++ b) = byteLen (w ++ b) := pos_ascii (blanks_ascii hb hw)
  have hok := hl rest rfl
  have ht : Trivia (decide (sty = .script)) f b (l.text ++ rest) (f || b.contains '\n') := blank_trivia hb f _
  have seek : ∀ {t c}, Next sty ⟨w, b ++ (l.text ++ rest), f⟩ t c → t.span.start = posAfter 0 0 (w ++ b) →
      Seekable sty ⟨w, b ++ (l.text ++ rest), f⟩ := fun {t c} hn hs =>
    (look_iff hn).2 ⟨w ++ b, l.text ++ rest, by simp, by rw [hs, hp]⟩
  unfold Step
  rw [← List.append_assoc w b l.text]
  match hkind : l.kind with
  | .plain =>
    simp only [hkind] at hok
    have hn : Next sty ⟨w, b ++ (l.text ++ rest), f⟩
        ⟨l.val, f || b.contains '\n', ⟨posAfter 0 0 (w ++ b), posAfter 0 0 (w ++ b ++ l.text)⟩⟩ ⟨w ++ b ++ l.text, rest, false⟩ :=
      .intro ht (hok.1 _) hne hok.2 rfl
    exact ⟨seek hn rfl, _, hn, rfl, rfl⟩
  | .regex =>
    simp only [hkind] at hok
    have hr : RegexAt sty l.text
        ⟨l.val, f || b.contains '\n', ⟨posAfter 0 0 (w ++ b), posAfter 0 0 (w ++ b ++ l.text)⟩⟩
        ⟨w, b ++ (l.text ++ rest), f⟩ ⟨w ++ b ++ l.text, rest, false⟩ :=
      ⟨.intro ht (hok.1 _) hne hok.2.1 rfl, hok.2.2⟩
    obtain ⟨t0, c, hn, h1, -⟩ := regex_slash hr
    exact ⟨seek hn h1, _, hr, rfl, hok.2.2⟩
  | .cont =>
    simp only [hkind] at hok
    obtain ⟨rfl, rfl⟩ := hk hkind
    have ht' : Trivia (decide (sty = .script)) false [] (l.text ++ rest) false := .nil
    have hc : Spec.Continues sty ⟨w, [] ++ (l.text ++ rest), false⟩
        ⟨l.val, false, ⟨posAfter 0 0 (w ++ []), posAfter 0 0 (w ++ [] ++ l.text)⟩⟩ ⟨w ++ [] ++ l.text, rest, false⟩ :=
      .intro ht' hok rfl rfl
    obtain ⟨r, hr⟩ := continuation_brace hok
    have hn : Next sty ⟨w, [] ++ (p!"}".asStr ++ (r ++ rest)), false⟩
        ⟨.punct p!"}", false, ⟨posAfter 0 0 (w ++ []), posAfter 0 0 (w ++ [] ++ p!"}".asStr)⟩⟩ ⟨w ++ [] ++ p!"}".asStr, r ++ rest, false⟩ :=
      .intro .nil noTrivia_brace (by simp [Punct.asStr]) (.punct punct_brace nofun) rfl
    have e : (⟨w, [] ++ (l.text ++ rest), false⟩ : Point) = ⟨w, [] ++ (p!"}".asStr ++ (r ++ rest)), false⟩ := by
      simp [hr, Punct.asStr]
    refine ⟨seek (e ▸ hn) rfl, _, hc, rfl, _, _, e ▸ hn, rfl, rfl⟩

/-- The text is read as its tokens. -/
theorem Laid.chain {w : Str} {ts : List (Lex × Bool)} (h : Laid w ts) (rest : Str) (hr : ∀ k ∈ ts.getLast?, k.1.Ok rest.head?) :
    Chain sty ⟨[], w ++ rest, true⟩ ts ⟨w, rest, ts.isEmpty⟩ := by
  induction h generalizing rest with
  | nil => exact .nil
  | @snoc w b ts l h1 h2 h3 h5 h6 ih =>
    have h7 : (b ++ l.text ++ rest).head? = (b ++ l.text).head? := by
      have hne : b ++ l.text ≠ [] := by simp [h3.ne]
      cases hh : b ++ l.text with
      | nil => exact absurd hh hne
      | cons => rfl
    have := ih (b ++ l.text ++ rest) (fun k hk => h7 ▸ h6 k hk)
    rw [show w ++ (b ++ l.text) ++ rest = w ++ (b ++ l.text ++ rest) by simp]
    refine this.snoc ?_
    have hs := step_of (sty := sty) (rest := rest) (f := ts.isEmpty) (fun c hc => (h1.ascii c hc).1) h2 (hr (l, ts.isEmpty || b.contains '\n') (by simp)) h3.ne
      (fun hk => ⟨(h5 hk).1, by simpa using (h5 hk).2⟩)
    have he : (ts ++ [(l, ts.isEmpty || b.contains '\n')]).isEmpty = false := by simp
    rw [he]
    simpa using hs

/-! ## Reading items -/

/-- The tokens of the items, with the flag telling which are the first on their line. -/
def flags (f : Bool) : List Item → List (Lex × Bool)
  | [] => []
  | .tok l :: is => (l, f) :: flags false is
  | i :: is => flags (lineAfter f i) is

/-- Reading items as they are written, from one point to another: the tokens follow each other and the restrictions hold. -/
def Run0 (sty : SourceType) (f : Bool) (a : Point) : List Item → Point → Prop
  | [], z => z = a
  | .tok l :: is, z => ∃ b, Step sty a l f b ∧ Run0 sty false b is z
  | .next q :: is, z => Look sty a (fun t => q t.value t.fol = true) ∧ Run0 sty f a is z
  | .next2 q :: is, z => (∀ t b u c, Next sty a t b → Next sty b u c → symbol t.value = none ∨ (∃ k, t.value = .keyword k) →
      q t.value u.value = true) ∧ Run0 sty f a is z
  | .more :: is, z => (∃ t b, Next sty a t b) ∧ Run0 sty f a is z
  | .lexed :: is, z => (AtEnd sty a ∨ ∃ t b, Next sty a t b) ∧ Run0 sty f a is z
  | .demand p :: is, z => p = true ∧ Run0 sty f a is z
  | i :: is, z => Run0 sty (lineAfter f i) a is z

theorem step_next (h : Step sty a l f b) : ∃ t c, Next sty a t c ∧ t.fol = f ∧ t.value ∈ l.seen ∧
    (l.kind = .plain → t.value = l.val ∧ c = b) := by
  unfold Step at h
  obtain ⟨-, h⟩ := h
  match hk : l.kind with
  | .plain =>
    simp only [hk] at h
    obtain ⟨t, h1, h2, h3⟩ := h
    exact ⟨t, b, h1, h3, by simp [Lex.seen, hk, h2], fun _ => ⟨h2, rfl⟩⟩
  | .regex =>
    simp only [hk] at h
    obtain ⟨t, h1, h2, -⟩ := h
    obtain ⟨t0, c, h3, h4, h5, h6⟩ := regex_slash h1
    exact ⟨t0, c, h3, h5.trans h2, by simpa [Lex.seen, hk] using h6, nofun⟩
  | .cont =>
    simp only [hk] at h
    obtain ⟨t, h1, h2, u, c, h3, h4, h5⟩ := h
    exact ⟨u, c, h3, h5, by simp [Lex.seen, hk, h4], nofun⟩

theorem chain_next {is : List Item} {z : Point} (h : Chain sty a (flags f is) z) (hz : ∀ t b, ¬ Next sty z t b) :
    match nextTok f is with
    | none => a = z ∧ ∀ t b, ¬ Next sty a t b
    | some (l, g, js) => ∃ b, Step sty a l g b ∧ Chain sty b (flags false js) z := by
  induction is generalizing f with
  | nil => cases h; exact ⟨rfl, hz⟩
  | cons i is ih =>
    cases i with
    | tok l =>
      cases h with
      | cons h1 h2 => exact ⟨_, h1, h2⟩
    | _ => exact ih h

theorem run_of {is : List Item} {z : Point} (h : Chain sty a (flags f is) z) (he : AtEnd sty z) (hz : ∀ t b, ¬ Next sty z t b)
    (hl : Lookahead f is) : Run0 sty f a is z := by
  induction is generalizing f a with
  | nil => cases h; rfl
  | cons i is ih =>
    obtain ⟨h1, h2⟩ := hl
    cases i with
    | tok l =>
      cases h with
      | cons h3 h4 => exact ⟨_, h3, ih h4 h2⟩
    | next q =>
      refine ⟨fun t b ht => ?_, ih h h2⟩
      have := chain_next (is := is) h hz
      simp only [AheadOk] at h1
      cases hn : nextTok f is with
      | none => simp only [lineAfter, hn] at this; exact absurd ht (this.2 t b)
      | some x =>
        obtain ⟨l, g, js⟩ := x
        simp only [lineAfter, hn] at this
        obtain ⟨c, hs, -⟩ := this
        obtain ⟨u, d, hu, h3, h4, -⟩ := step_next hs
        obtain ⟨rfl, rfl⟩ := next_unique ht hu
        have := h1 _ hn _ h4
        show q _ _ = true
        rw [h3]; exact this
    | next2 q =>
      refine ⟨fun t b u c ht hu hw => ?_, ih h h2⟩
      have := chain_next (is := is) h hz
      simp only [AheadOk] at h1
      cases hn : nextTok f is with
      | none => simp only [lineAfter, hn] at this; exact absurd ht (this.2 t b)
      | some x =>
        obtain ⟨l, g, js⟩ := x
        simp only [lineAfter, hn] at this
        obtain ⟨m, hs, hc⟩ := this
        obtain ⟨u', d, hu', h3, h4, h5⟩ := step_next hs
        obtain ⟨rfl, rfl⟩ := next_unique ht hu'
        cases hk : l.kind with
        | plain =>
          obtain ⟨h6, rfl⟩ := h5 hk
          have h8 := chain_next (is := js) hc hz
          cases hn2 : nextTok false js with
          | none => simp only [hn2] at h8; exact absurd hu (h8.2 u c)
          | some y =>
            obtain ⟨l2, g2, js2⟩ := y
            simp only [hn2] at h8
            obtain ⟨m2, hs2, -⟩ := h8
            obtain ⟨u2, d2, hu2, -, h9, -⟩ := step_next hs2
            obtain ⟨rfl, rfl⟩ := next_unique hu hu2
            rw [h6]
            exact h1 _ hn _ hn2 hk _ h9
        | regex =>
          simp only [Lex.seen, hk, List.mem_cons, List.not_mem_nil, or_false] at h4
          rcases h4 with h4 | h4 <;> rw [h4] at hw <;> simp [symbol] at hw
        | cont =>
          simp only [Lex.seen, hk, List.mem_cons, List.not_mem_nil, or_false] at h4
          rw [h4] at hw; simp [symbol] at hw
    | more =>
      refine ⟨?_, ih h h2⟩
      have := chain_next (is := is) h hz
      simp only [AheadOk] at h1
      cases hn : nextTok f is with
      | none => simp [hn] at h1
      | some x =>
        obtain ⟨l, g, js⟩ := x
        simp only [lineAfter, hn] at this
        obtain ⟨m, hs, hc⟩ := this
        obtain ⟨u', d, hu', -⟩ := step_next hs
        exact ⟨_, _, hu'⟩
    | lexed =>
      refine ⟨?_, ih h h2⟩
      have := chain_next (is := is) h hz
      cases hn : nextTok f is with
      | none => simp only [lineAfter, hn] at this; exact .inl (this.1 ▸ he)
      | some x =>
        obtain ⟨l, g, js⟩ := x
        simp only [lineAfter, hn] at this
        obtain ⟨m, hs, hc⟩ := this
        obtain ⟨u', d, hu', -⟩ := step_next hs
        exact .inr ⟨_, _, hu'⟩
    | demand p => exact ⟨h1, ih h h2⟩
    | gap | blank | semi | close | nl | «open» | sep | still | single => exact ih h h2

/-! ## Reading items in either form -/

/-- Whether a line is starting after the item, in pretty or minified code. -/
def after (mini f : Bool) : Item → Bool
  | .tok _ | .semi => false
  | .nl | .open => !mini || f
  | _ => f

/-- A semicolon, or nothing at the end of the text and in front of `}`. -/
def Semi (sty : SourceType) (f : Bool) (a b : Point) : Prop :=
  Step sty a ⟨.plain, .punct p!";", p!";".asStr⟩ f b ∨
  (b = a ∧ Look sty a (fun t => t.value = .punct p!"}") ∧ (AtEnd sty a ∨ ∃ t c, Next sty a t c))

/-- Reading the items from one point to another: the tokens follow each other and the restrictions hold. -/
def Run (sty : SourceType) (mini f : Bool) (a : Point) : List Item → Point → Prop
  | [], z => z = a
  | .tok l :: is, z => ∃ b, Step sty a l f b ∧ Run sty mini false b is z
  | .semi :: is, z => ∃ b, Semi sty f a b ∧ Run sty mini false b is z
  | .next q :: is, z => Look sty a (fun t => q t.value t.fol = true) ∧ Run sty mini f a is z
  | .next2 q :: is, z => (∀ t b u c, Next sty a t b → Next sty b u c → symbol t.value = none ∨ (∃ k, t.value = .keyword k) →
      q t.value u.value = true) ∧ Run sty mini f a is z
  | .more :: is, z => (∃ t b, Next sty a t b) ∧ Run sty mini f a is z
  | .lexed :: is, z => (AtEnd sty a ∨ ∃ t b, Next sty a t b) ∧ Run sty mini f a is z
  | .demand p :: is, z => p = true ∧ Run sty mini f a is z
  | i :: is, z => Run sty mini (after mini f i) a is z

variable {mini : Bool}

/-- The flag after the items. -/
def lineEnd (mini f : Bool) (is : List Item) : Bool := is.foldl (after mini) f

theorem run_append {is js : List Item} {z : Point} :
    Run sty mini f a (is ++ js) z ↔ ∃ m, Run sty mini f a is m ∧ Run sty mini (lineEnd mini f is) m js z := by
  induction is generalizing f a with
  | nil => simp [Run, lineEnd]
  | cons i is ih =>
    have hl : ∀ f, lineEnd mini f (i :: is) = lineEnd mini (after mini f i) is := fun _ => rfl
    cases i with
    | tok | semi =>
      simp only [List.cons_append, Run, ih, hl, after]
      constructor
      · rintro ⟨b, h1, m, h2, h3⟩; exact ⟨m, ⟨b, h1, h2⟩, h3⟩
      · rintro ⟨m, ⟨b, h1, h2⟩, h3⟩; exact ⟨b, h1, m, h2, h3⟩
    | next | next2 | more | lexed | demand =>
      simp only [List.cons_append, Run, ih, hl, after]
      constructor
      · rintro ⟨h1, m, h2, h3⟩; exact ⟨m, ⟨h1, h2⟩, h3⟩
      · rintro ⟨m, ⟨h1, h2⟩, h3⟩; exact ⟨h1, m, h2, h3⟩
    | _ => simp only [List.cons_append, Run, ih, hl, after]

theorem run_pretty {is : List Item} {z : Point} (h : Run0 sty f a (pretty is) z) : Run sty false f a is z := by
  induction is generalizing f a with
  | nil => exact h
  | cons i is ih =>
    cases i with
    | tok l =>
      obtain ⟨b, h1, h2⟩ := h
      exact ⟨b, h1, ih h2⟩
    | semi =>
      obtain ⟨b, h1, h2⟩ := h
      exact ⟨b, .inl h1, ih h2⟩
    | next | next2 | more | lexed | demand => exact ⟨h.1, ih h.2⟩
    | _ => exact ih h

theorem run_minified {is : List Item} {last : Option Lex} {z : Point} (hf : last.isSome = true → f = false)
    (h : Run0 sty f a (minified last is) z) : Run sty true f a is z := by
  induction is generalizing f a last with
  | nil => exact h
  | cons i is ih =>
    cases i with
    | tok l =>
      obtain ⟨-, b, h1, h2⟩ := h
      exact ⟨b, h1, ih (fun _ => rfl) h2⟩
    | semi =>
      unfold minified at h
      split at h
      · obtain ⟨h1, h2, h3, h4⟩ := h
        obtain rfl := hf (by cases last <;> simp_all)
        exact ⟨a, .inr ⟨rfl, fun t b ht => by simpa using h2 t b ht, h3⟩, ih hf h4⟩
      · obtain ⟨b, h1, h2⟩ := h
        exact ⟨b, .inl h1, ih (fun _ => rfl) h2⟩
    | next | next2 | more | lexed | demand => exact ⟨h.1, ih hf h.2⟩
    | blank => exact ih (last := none) (f := f) (by simp) h
    | nl | «open» => exact ih (f := f) hf h
    | _ => exact ih hf h

theorem run_written {is : List Item} {z : Point} (h : Run0 sty true a (written mini is) z) : Run sty mini true a is z := by
  cases mini with
  | false => exact run_pretty h
  | true => exact run_minified (last := none) (by simp) h

end Fajt.Print
