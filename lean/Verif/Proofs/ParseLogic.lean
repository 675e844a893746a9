import Verif.Proofs.ParseBase
import Verif.Spec.Source
/-!
# A program logic for the parser

`At src styp s p`: the parser state `s` stands behind the place `p`.  `Hist F c hs s p`: since the start of the function call
described by the frame `F` the tokens `hs` have been consumed.  `J F m s Q`: running `m` in `s` ends in a state with `Q`, or in
an error with a span in the source, or in a panic which has a cause (`PanicCause`), or runs out of fuel, which
is possible only if the fuel is less than a bound.
-/
namespace Fajt
open Spec
set_option linter.unusedSectionVars false
variable [UnicodeID]

/-- What a panic of the parser is blamed on.  Everything below is proved for a build of the parser in which panics have the causes
`blame`; these are at least those of a release build. -/
class Blame where
  blame : Str → SourceType → Prop
  panicCause : ∀ {src styp}, PanicCause src styp → blame src styp

/-- A release build. -/
instance (priority := low) releaseBlame : Blame := ⟨PanicCause, id⟩

variable [Blame]

theorem Passed.step {src : Str} {p p1 : Cursor} {t : Token} (h : Passed src p) (hs : Step p t p1) : Passed src p1 := by
  obtain ⟨ts, h⟩ := h
  exact ⟨_, h.trans (.one hs)⟩

/-- The next token of `s` is the one after `p1`. -/
def Ahead (src : Str) (p1 : Cursor) (s : PState) : Prop :=
  match s.nxt with
  | .ok u => Step p1 u s.lx.cursor
  | .error e => TokErr src p1 e ∧ Place src s.lx.cursor

/-- The current token of `s` is the one after `p`. -/
structure At (src : Str) (styp : SourceType) (s : PState) (p : Cursor) : Prop where
  data : s.lx.data = src
  styp : s.sourceType = styp
  place : Place src p
  reads : Passed src p
  cur : match s.cur with
    | .ok t => ∃ p1, Step p t p1 ∧ Ahead src p1 s
    | .error e => TokErr src p e ∧ Place src s.lx.cursor

/-- A call of a parse function: the source, the fuel, the rank of the function, the context that arrow functions at the start
of the call must have (if it matters), and the state and place at the start of the call. -/
structure Frame where
  src : Str
  styp : SourceType
  n : Nat
  K : Nat
  x : Option Ctx
  s0 : PState
  p0 : Cursor

/-- The first token since the start of a call. -/
def firstTok (hs : List Token) (s : PState) : Option Token := hs.head? <|> s.cur.toOption

/-- What happened since the start of the call: the tokens `hs` were consumed and the parser stands behind `p`.  `c` tells
whether the position of the parser is up to date; it is not after rewinding. -/
structure Hist (F : Frame) (c : Bool) (hs : List Token) (s : PState) (p : Cursor) : Prop where
  at0 : At F.src F.styp F.s0 F.p0
  at1 : At F.src F.styp s p
  chain : Chain F.p0 hs p
  first : ∀ t, firstTok hs s = some t → ∃ t0, F.s0.cur = .ok t0 ∧ Reread t0 t
  pos : c = true → s.pos = if hs = [] then F.s0.pos else Spec.lastEnd hs

/-- The source is never changed. -/
def Kept (F : Frame) (s : PState) : Prop := s.lx.data = F.src ∧ s.sourceType = F.styp

/-- Derivations from the grammar. -/
abbrev G (src : Str) (styp : SourceType) (ctx : Ctx) (g : GNode) (ts : List Token) : Prop := D (sourceEnv src styp) ctx g ts

/-- What is known after an error. -/
structure ErrPost (F : Frame) (e : PErr) (s : PState) : Prop where
  kept : Kept F s
  span : ErrorSpan F.src F.styp e
  arrow : ∀ a, e.kind = .arrowNotAllowed a → ∃ pre ts ctx p', Hist F true (pre ++ ts) s p' ∧ ts ≠ [] ∧
    (∀ t ∈ ts.head?, e.span.start = t.span.start) ∧ G F.src F.styp ctx (.expr 1 a) ts ∧
    (pre = [] → ∀ cx, F.x = some cx → ctx = cx)

/-- The outcomes. -/
def JPost {α : Type} (F : Frame) (Q : α → PState → Prop) : Res PState PErr α → Prop
  | .ok a s => Q a s
  | .err e s => ErrPost F e s
  | .panic _ => Blame.blame F.src F.styp
  | .oof => F.n < 8 * (byteLen F.src + 1 - F.p0.pos) + F.K

/-- Running `m` in `s` has one of the outcomes. -/
def J {α : Type} (F : Frame) (m : P α) (s : PState) (Q : α → PState → Prop) : Prop := JPost F Q (m s)

/-! ## Histories -/

theorem At.hist {src : Str} {styp : SourceType} {s : PState} {p : Cursor} (h : At src styp s p) {n K : Nat}
    {x : Option Ctx} {c : Bool} : Hist ⟨src, styp, n, K, x, s, p⟩ c [] s p := by
  refine ⟨h, h, .nil, ?_, fun _ => rfl⟩
  intro t ht
  simp only [firstTok, List.head?_nil, Option.orElse_eq_orElse, Option.orElse_eq_or, Option.none_or] at ht
  cases hc : s.cur with
  | ok t0 => rw [hc] at ht; cases ht; exact ⟨_, rfl, .refl _⟩
  | error e => rw [hc] at ht; cases ht

theorem Hist.trans {F : Frame} {n K : Nat} {x : Option Ctx} {c c' : Bool} {hs ts : List Token} {s s' : PState} {p p' : Cursor}
    (h : Hist F c hs s p) (h' : Hist ⟨F.src, F.styp, n, K, x, s, p⟩ c' ts s' p') :
    Hist F (c' && (c || !ts.isEmpty)) (hs ++ ts) s' p' := by
  refine ⟨h.at0, h'.at1, h.chain.trans h'.chain, ?_, ?_⟩
  · intro t ht
    cases hs with
    | cons a hs => exact h.first t (by simpa [firstTok] using ht)
    | nil =>
      have ht' : firstTok ts s' = some t := ht
      obtain ⟨t1, h1, h2⟩ := h'.first t ht'
      obtain ⟨t0, h3, h4⟩ := h.first t1 (by
        simp only [firstTok, List.head?_nil, Option.orElse_eq_orElse, Option.orElse_eq_or, Option.none_or]
        have h1' : s.cur = .ok t1 := h1
        rw [h1']; rfl)
      exact ⟨t0, h3, h4.trans h2⟩
  · intro hc
    rw [Bool.and_eq_true] at hc
    have e := h'.pos hc.1
    rw [e]
    cases ts with
    | nil =>
      have : c = true := by simpa using hc.2
      simp [h.pos this]
    | cons a ts =>
      obtain ⟨b, hb⟩ : ∃ b, (a :: ts).getLast? = some b := ⟨_, List.getLast?_eq_some_getLast (by simp)⟩
      simp [Spec.lastEnd, List.getLast?_append, hb]

theorem Hist.weaken {F : Frame} {c : Bool} {hs : List Token} {s : PState} {p : Cursor} (h : Hist F true hs s p) :
    Hist F c hs s p := ⟨h.at0, h.at1, h.chain, h.first, fun _ => h.pos rfl⟩

theorem Hist.place {F : Frame} {c : Bool} {hs : List Token} {s : PState} {p : Cursor} (h : Hist F c hs s p) :
    Place F.src p := h.at1.place

theorem Hist.kept {F : Frame} {c : Bool} {hs : List Token} {s : PState} {p : Cursor} (h : Hist F c hs s p) :
    Kept F s := ⟨h.at1.data, h.at1.styp⟩

theorem Hist.tokWF {F : Frame} {c : Bool} {hs : List Token} {s : PState} {p : Cursor} (h : Hist F c hs s p)
    {t : Token} (ht : t ∈ hs) : SpanWF F.src t.span := by
  have := h.chain.mem_span h.at0.place ht
  have := h.place.le
  exact ⟨by omega, by omega⟩

theorem At.curWF {src : Str} {styp : SourceType} {s : PState} {p : Cursor} (h : At src styp s p)
    {t : Token} (ht : s.cur = .ok t) : SpanWF src t.span := by
  have := h.cur
  rw [ht] at this
  obtain ⟨p1, h1, -⟩ := this
  exact h1.spanWF h.place

theorem Chain.length_le {src : Str} {p p' : Cursor} {ts : List Token} (h : Chain p ts p') (hp : Place src p) :
    ts.length + p.pos ≤ p'.pos := by
  induction h with
  | nil => simp
  | cons hs _ ih => have := ih (hs.place hp); have := hs.pos_lt hp; simp; omega

/-- The value of `position()`. -/
def posOf (s : PState) : Nat :=
  match s.cur with
  | .ok t => t.span.start
  | .error _ => s.pos

theorem getLast?_ne {α : Type} {l : List α} (h : l ≠ []) : ∃ b, l.getLast? = some b := by
  cases hl : l.getLast? with
  | none => exact absurd (List.getLast?_eq_none_iff.1 hl) h
  | some b => exact ⟨b, rfl⟩

theorem Hist.start {F : Frame} {c : Bool} {hs : List Token} {s : PState} {p : Cursor} (h : Hist F c hs s p)
    {t : Token} (ht : hs.head? = some t) : posOf F.s0 = t.span.start := by
  obtain ⟨t0, h1, h2⟩ := h.first t (by simp [firstTok, ht])
  rw [posOf, h1]
  exact h2.start.symm

theorem Hist.spans {F : Frame} {hs : List Token} {s : PState} {p : Cursor} (h : Hist F true hs s p)
    (hne : hs ≠ []) : Spans ⟨posOf F.s0, s.pos⟩ hs := by
  obtain ⟨b, hb⟩ := getLast?_ne hne
  cases hs with
  | nil => exact absurd rfl hne
  | cons a hs =>
    refine ⟨a, b, rfl, hb, ?_⟩
    rw [h.start rfl, h.pos rfl, if_neg hne, Spec.lastEnd, hb]
    rfl

theorem Spans.wf {src : Str} {p p' : Cursor} {ts : List Token} {sp : Span} (h : Spans sp ts) (hc : Chain p ts p')
    (hp : Place src p) : SpanWF src sp := by
  obtain ⟨a, b, h1, h2, rfl⟩ := h
  have ha := hc.mem_span hp (List.mem_of_head? h1)
  have hb := hc.mem_span hp (List.mem_of_getLast? h2)
  have := (hc.place hp).le
  refine ⟨?_, by show b.span.stop ≤ _; omega⟩
  show a.span.start ≤ b.span.stop
  cases ts with
  | nil => cases h1
  | cons t ts =>
    cases h1
    cases hc with
    | cons hs hc =>
      cases ts with
      | nil => cases h2; exact Nat.le_of_lt ha.2.1
      | cons u us =>
        rw [List.getLast?_cons_cons] at h2
        have hb' := hc.mem_span (hs.place hp) (List.mem_of_getLast? h2)
        have := hs.stop
        omega

/-- The spans of pieces of the history are well formed. -/
theorem Hist.spansWF {F : Frame} {c : Bool} {pre ts : List Token} {s : PState} {p : Cursor} {sp : Span}
    (h : Hist F c (pre ++ ts) s p) (hs : Spans sp ts) : SpanWF F.src sp := by
  obtain ⟨q, h1, h2⟩ := h.chain.split
  exact Spans.wf hs h2 (h1.place h.at0.place)

theorem Hist.spanWF {F : Frame} {hs : List Token} {s : PState} {p : Cursor} (h : Hist F true hs s p)
    (hne : hs ≠ []) : SpanWF F.src ⟨posOf F.s0, s.pos⟩ := by
  have h' : Hist F true ([] ++ hs) s p := h
  exact h'.spansWF (h.spans hne)

/-! ## Errors -/

theorem ErrPost.of {F : Frame} {e : PErr} {s : PState} (h1 : Kept F s) (h2 : SpanWF F.src e.span)
    (h3 : ∀ a, e.kind ≠ .arrowNotAllowed a) : ErrPost F e s :=
  ⟨h1, .inl h2, fun a h => absurd h (h3 a)⟩

theorem ErrPost.lexer {F : Frame} {p : Cursor} {e : LexErr} {s : PState} (h1 : Kept F s) (h2 : TokErr F.src p e) :
    ErrPost F (PErr.lexer e) s := by
  unfold PErr.lexer
  cases he : e.kind with
  | endOfStream => exact .of h1 ⟨Nat.le_refl _, Nat.zero_le _⟩ (fun _ => PErrKind.noConfusion)
  | _ => exact .of h1 h2.1 (fun _ => PErrKind.noConfusion)

/-- The errors of a call are errors of the caller. -/
theorem ErrPost.call {F : Frame} {n K : Nat} {x : Option Ctx} {c : Bool} {hs : List Token} {s s' : PState} {p : Cursor} {e : PErr}
    (h : Hist F c hs s p) (hx : hs = [] → F.x = none ∨ x = F.x) (he : ErrPost ⟨F.src, F.styp, n, K, x, s, p⟩ e s') :
    ErrPost F e s' := by
  refine ⟨he.kept, he.span, fun a ha => ?_⟩
  obtain ⟨pre, ts, ctx, p', h1, h2, h3, h4, h5⟩ := he.arrow a ha
  have h6 := h.trans h1
  have h7 : (true && (c || !(pre ++ ts).isEmpty)) = true := by cases c <;> simp [h2]
  rw [h7] at h6
  refine ⟨hs ++ pre, ts, ctx, p', by rw [List.append_assoc]; exact h6, h2, h3, h4, ?_⟩
  intro hp cx hcx
  obtain ⟨e1, e2⟩ := List.append_eq_nil_iff.1 hp
  rcases hx e1 with hn | hn
  · rw [hn] at hcx; cases hcx
  · exact h5 e2 cx (hn.trans hcx)

/-! ## Rules -/

section
variable {F : Frame} {α β : Type} {s : PState}

theorem J.pure {a : α} {Q : α → PState → Prop} (h : Q a s) : J F (Pure.pure a) s Q := h

theorem J.bind {m : P α} {f : α → P β} {Q : β → PState → Prop} (h : J F m s fun a s' => J F (f a) s' Q) :
    J F (m >>= f) s Q := by
  unfold J at h ⊢
  show JPost F Q (M.bind m f s)
  unfold M.bind
  cases hm : m s <;> rw [hm] at h <;> exact h

theorem J.mono {m : P α} {Q R : α → PState → Prop} (h : J F m s Q) (hQ : ∀ a s', Q a s' → R a s') : J F m s R := by
  unfold J at h ⊢
  cases hm : m s <;> rw [hm] at h
  · exact hQ _ _ h
  all_goals exact h

theorem J.throw {e : PErr} {Q : α → PState → Prop} (h : ErrPost F e s) : J F (M.throw e) s Q := h

theorem J.gets {f : PState → α} {Q : α → PState → Prop} (h : Q (f s) s) : J F (M.gets f) s Q := h

theorem J.attempt {m : P α} {f : α → P β} {g : PErr → P β} {Q : β → PState → Prop}
    (h : J F m s fun a s' => J F (f a) s' Q) (hg : ∀ e s', ErrPost F e s' → J F (g e) s' Q) :
    J F (M.attempt m f g) s Q := by
  unfold J at h ⊢
  show JPost F Q (M.attempt m f g s)
  unfold M.attempt
  cases hm : m s <;> rw [hm] at h
  · exact h
  · exact hg _ _ h
  all_goals exact h

theorem J.ite {c : Prop} [Decidable c] {m m' : P α} {Q : α → PState → Prop} (h : c → J F m s Q) (h' : ¬ c → J F m' s Q) :
    J F (if c then m else m') s Q := by
  split
  · exact h ‹_›
  · exact h' ‹_›

theorem J.position {Q : Nat → PState → Prop} (h : Q (posOf s) s) : J F Parser.position s Q := h

theorem J.spanFrom {a : Nat} {Q : Span → PState → Prop} (h : Q ⟨a, s.pos⟩ s) : J F (Parser.spanFrom a) s Q := h

/-- The value of the current token. -/
def valOf (s : PState) : Option TokVal := s.cur.toOption.map Token.value

/-- The value of the next token. -/
def peekOf (s : PState) : Option TokVal := s.nxt.toOption.map Token.value

theorem valOf_some {v : TokVal} (h : valOf s = some v) : ∃ t, s.cur = .ok t ∧ t.value = v := by
  unfold valOf at h
  cases hc : s.cur with
  | ok t => rw [hc] at h; exact ⟨t, rfl, by simpa [Except.toOption] using h⟩
  | error e => rw [hc] at h; simp [Except.toOption] at h

theorem valOf_ok {t : Token} (h : s.cur = .ok t) : valOf s = some t.value := by
  unfold valOf; rw [h]; rfl

theorem peekOf_ok {t : Token} (h : s.nxt = .ok t) : peekOf s = some t.value := by
  unfold peekOf; rw [h]; rfl

theorem J.curVal {Q : Option TokVal → PState → Prop} (h : Q (valOf s) s) : J F Parser.curVal? s Q := h

theorem J.curMatches {v : TokVal} {Q : Bool → PState → Prop} (h1 : valOf s = some v → Q true s)
    (h2 : valOf s ≠ some v → Q false s) : J F (Parser.curMatches v) s Q := by
  show Q (match s.cur with | .ok t => decide (t.value = v) | .error _ => false) s
  cases hc : s.cur with
  | ok t =>
    show Q (decide (t.value = v)) s
    by_cases hv : t.value = v
    · rw [decide_eq_true hv]; exact h1 (by rw [valOf_ok hc, hv])
    · rw [decide_eq_false hv]; exact h2 (by rw [valOf_ok hc]; simpa using hv)
  | error e => exact h2 (by simp [valOf, hc, Except.toOption])

theorem J.peekMatches {v : TokVal} {Q : Bool → PState → Prop} (h1 : peekOf s = some v → Q true s)
    (h2 : peekOf s ≠ some v → Q false s) : J F (Parser.peekMatches v) s Q := by
  show Q (match s.nxt with | .ok t => decide (t.value = v) | .error _ => false) s
  cases hc : s.nxt with
  | ok t =>
    show Q (decide (t.value = v)) s
    by_cases hv : t.value = v
    · rw [decide_eq_true hv]; exact h1 (by rw [peekOf_ok hc, hv])
    · rw [decide_eq_false hv]; exact h2 (by rw [peekOf_ok hc]; simpa using hv)
  | error e => exact h2 (by simp [peekOf, hc, Except.toOption])

theorem J.current {c : Bool} {hs : List Token} {p : Cursor} (h : Hist F c hs s p) {Q : Token → PState → Prop}
    (k : ∀ t, s.cur = .ok t → Q t s) : J F Parser.current s Q := by
  show JPost F Q (match s.cur with | .ok t => .ok t s | .error e => .err (PErr.lexer e) s)
  cases hc : s.cur with
  | ok t => exact k t hc
  | error e =>
    have := h.at1.cur
    rw [hc] at this
    exact ErrPost.lexer h.kept this.1

/-! ### Reading -/

theorem pull_at (lx : LexerS) (hp : Place lx.data lx.cursor) :
    (∃ t p', LexerS.pull lx = .ok (.ok t) { lx with cursor := p' } ∧ Step lx.cursor t p') ∨
    (∃ e p', LexerS.pull lx = .ok (.error e) { lx with cursor := p' } ∧ TokErr lx.data lx.cursor e ∧ Place lx.data p') := by
  unfold LexerS.pull M.attempt LexerS.next
  rcases read_at lx.data lx.st lx.cursor hp with ⟨t, p', h1, h2⟩ | ⟨e, p', h1, h2⟩
  · rw [h1]; exact .inl ⟨t, p', rfl, h2⟩
  · rw [h1]; exact .inr ⟨e, p', rfl, h2⟩

/-- The place of the lexer. -/
theorem At.lexPlace {src : Str} {styp : SourceType} {p : Cursor} (h : At src styp s p) : Place src s.lx.cursor := by
  have := h.cur
  cases hc : s.cur with
  | error e => rw [hc] at this; exact this.2
  | ok t =>
    rw [hc] at this
    obtain ⟨p1, h1, h2⟩ := this
    unfold Ahead at h2
    cases hn : s.nxt with
    | ok u => rw [hn] at h2; exact h2.place (h1.place h.place)
    | error e => rw [hn] at h2; exact h2.2

theorem J.consume {c : Bool} {hs : List Token} {p : Cursor} (h : Hist F c hs s p) {Q : Token → PState → Prop}
    (k : ∀ t s' p', s.cur = .ok t → s'.cur = s.nxt → Hist F true (hs ++ [t]) s' p' → Q t s') :
    J F Parser.consume s Q := by
  obtain ⟨data, hst, hp, hrd, hcur⟩ := h.at1
  have hlx := h.at1.lexPlace
  unfold J Parser.consume
  have main : ∃ n q, LexerS.pull s.lx = .ok n { s.lx with cursor := q } ∧ Place F.src q ∧
      (match n with
        | .ok u => Step s.lx.cursor u q
        | .error e => TokErr F.src s.lx.cursor e) := by
    rcases pull_at s.lx (by rw [data]; exact hlx) with ⟨t, q, h1, h2⟩ | ⟨e, q, h1, h2, h3⟩
    · exact ⟨_, _, h1, h2.place hlx, h2⟩
    · exact ⟨_, _, h1, by rw [← data]; exact h3, by rw [← data]; exact h2⟩
  obtain ⟨n, q, hpull, hq, hn⟩ := main
  have hl : liftLx LexerS.pull s = .ok n { s with lx := { s.lx with cursor := q } } := by
    unfold liftLx; rw [hpull]
  rw [M.seq_ok hl]
  show JPost F Q (M.bind _ _ _)
  cases hc : s.cur with
  | error e =>
    rw [hc] at hcur
    simp only [M.get, M.bind, M.set, Bind.bind]
    exact ErrPost.lexer ⟨data, hst⟩ hcur.1
  | ok t =>
    rw [hc] at hcur
    obtain ⟨p1, hs1, ha⟩ := hcur
    simp only [M.get, M.bind, M.set, Bind.bind]
    show Q t _
    refine k t _ p1 hc rfl ⟨h.at0, ⟨data, hst, hs1.place hp, hrd.step hs1, ?_⟩, h.chain.trans (.one hs1), ?_, ?_⟩
    · show (match s.nxt with | .ok t => _ | .error e => _)
      unfold Ahead at ha
      cases hnx : s.nxt with
      | error e => rw [hnx] at ha; exact ⟨ha.1, hq⟩
      | ok u =>
        rw [hnx] at ha
        refine ⟨s.lx.cursor, ha, ?_⟩
        unfold Ahead
        cases n with
        | ok v => exact hn
        | error e => exact ⟨hn, hq⟩
    · intro t' ht'
      cases hs with
      | cons a hs => exact h.first t' (by simpa [firstTok] using ht')
      | nil =>
        simp [firstTok] at ht'
        subst ht'
        exact h.first _ (by simp [firstTok, hc, Except.toOption])
    · intro _
      simp [Spec.lastEnd]

theorem J.consumeThrow {c : Bool} {hs : List Token} {p : Cursor} (h : Hist F c hs s p) {g : Token → PErr}
    (hg : ∀ t, (g t).span = t.span ∧ ∀ a, (g t).kind ≠ .arrowNotAllowed a) {Q : α → PState → Prop} :
    J F (do let token ← Parser.consume; M.throw (g token)) s Q := by
  refine J.bind (J.consume h ?_)
  intro t s' p' _ _ h'
  exact ErrPost.of h'.kept (by rw [(hg t).1]; exact h'.tokWF (by simp)) (hg t).2

theorem J.consumeAssert {c : Bool} {hs : List Token} {p : Cursor} (h : Hist F c hs s p) {v : TokVal}
    {Q : Token → PState → Prop}
    (k : ∀ t s' p', s.cur = .ok t → t.value = v → s'.cur = s.nxt → Hist F true (hs ++ [t]) s' p' → Q t s') :
    J F (Parser.consumeAssert v) s Q := by
  refine J.bind (J.consume h ?_)
  intro t s' p' h1 h2 h3
  refine J.ite (fun hv => ?_) (fun hv => ?_)
  · exact ErrPost.of h3.kept (h3.tokWF (by simp)) (fun _ => PErrKind.noConfusion)
  · exact k t s' p' h1 (Decidable.not_not.1 hv) h2 h3

theorem J.maybeConsume {hs : List Token} {p : Cursor} {c : Bool} (h : Hist F c hs s p) {v : TokVal}
    {Q : Bool → PState → Prop}
    (k1 : ∀ t s' p', s.cur = .ok t → t.value = v → s'.cur = s.nxt → Hist F true (hs ++ [t]) s' p' → Q true s')
    (k2 : valOf s ≠ some v → Q false s) : J F (Parser.maybeConsume v) s Q := by
  refine J.bind (J.curMatches (fun hv => ?_) (fun hv => ?_))
  · refine J.ite (fun _ => ?_) (fun hc => absurd rfl hc)
    refine J.bind (J.consume h ?_)
    intro t s' p' h1 h2 h3
    obtain ⟨t', h4, h5⟩ := valOf_some hv
    rw [h1] at h4
    cases h4
    exact k1 t s' p' h1 h5 h2 h3
  · refine J.ite (fun hc => by cases hc) (fun _ => ?_)
    exact k2 hv

theorem J.parseIdent {hs : List Token} {p : Cursor} {c : Bool} {ctx : Ctx} (h : Hist F c hs s p) {Q : Ident → PState → Prop}
    (k : ∀ t id s' p', s.cur = .ok t → IdentTok ctx t id → s'.cur = s.nxt → Hist F true (hs ++ [t]) s' p' → Q id s') :
    J F (Parser.parseIdent ctx) s Q := by
  refine J.bind (J.consume h ?_)
  intro t s' p' h1 h2 h3
  have hwf := h3.tokWF (t := t) (by simp)
  split
  · rename_i name hv
    exact k t _ s' p' h1 (.ident hv) h2 h3
  · rename_i kw hv
    refine J.ite (fun ha => ?_) (fun _ => ?_)
    · exact k t _ s' p' h1 (.keyword hv ha) h2 h3
    · exact ErrPost.of h3.kept hwf (fun _ => PErrKind.noConfusion)
  · exact ErrPost.of h3.kept hwf (fun _ => PErrKind.noConfusion)

theorem J.parseIdentName {hs : List Token} {p : Cursor} {c : Bool} (h : Hist F c hs s p) {Q : Ident → PState → Prop}
    (k : ∀ t id s' p', s.cur = .ok t → NameTok t id → s'.cur = s.nxt → Hist F true (hs ++ [t]) s' p' → Q id s') :
    J F Parser.parseIdentName s Q := by
  refine J.bind (J.consume h ?_)
  intro t s' p' h1 h2 h3
  have hwf := h3.tokWF (t := t) (by simp)
  split
  · rename_i name hv
    exact k t _ s' p' h1 (.ident hv) h2 h3
  · rename_i kw hv
    exact k t _ s' p' h1 (.keyword hv) h2 h3
  · exact ErrPost.of h3.kept hwf (fun _ => PErrKind.noConfusion)

theorem J.consumeListDelimiter {hs : List Token} {p : Cursor} {c : Bool} (h : Hist F c hs s p) {v : TokVal}
    {Q : Unit → PState → Prop}
    (k1 : ∀ t s' p', t.value = .punct p!"," → Hist F true (hs ++ [t]) s' p' → Q () s')
    (k2 : valOf s = some v → Q () s) : J F (Parser.consumeListDelimiter v) s Q := by
  refine J.bind (J.maybeConsume h ?_ ?_)
  · intro t s' p' h1 h2 h3 h4
    exact k1 t s' p' h2 h4
  · intro hn
    refine J.bind (J.curMatches (fun hv => k2 hv) (fun hv => ?_))
    exact J.consumeThrow h (fun t => ⟨rfl, fun _ => PErrKind.noConfusion⟩)

theorem J.thenTry {b : Bool} {m : P α} {Q : Option α → PState → Prop}
    (h1 : b = true → J F m s (fun a s' => Q (some a) s')) (h2 : b = false → Q none s) :
    J F (Parser.thenTry b m) s Q := by
  unfold Parser.thenTry
  refine J.ite (fun hb => J.bind ((h1 hb).mono fun a s' h => J.pure h)) (fun hb => h2 (by simpa using hb))

/-! ### Calls and loops -/

/-- The conditions on a call with the rank `K` and arrow context `x` after the tokens `hs`. -/
def CallOK (F : Frame) (hs : List Token) (K : Nat) (x : Option Ctx) : Prop :=
  hs = [] ∧ K ≤ F.K ∧ (F.x = none ∨ x = F.x) ∨ hs ≠ [] ∧ K ≤ F.K + 8

theorem J.call {K : Nat} {x : Option Ctx} {hs : List Token} {p : Cursor} {c : Bool} (h : Hist F c hs s p) {m : P α}
    {Q : α → List Token → PState → Prop} {R : α → PState → Prop} {c' : Bool}
    (hm : J ⟨F.src, F.styp, F.n, K, x, s, p⟩ m s fun a s' => ∃ ts p', Hist ⟨F.src, F.styp, F.n, K, x, s, p⟩ c' ts s' p' ∧ Q a ts s')
    (hc : CallOK F hs K x)
    (k : ∀ a ts s' p', Q a ts s' → Hist ⟨F.src, F.styp, F.n, K, x, s, p⟩ c' ts s' p' →
      Hist F (c' && (c || !ts.isEmpty)) (hs ++ ts) s' p' → R a s') : J F m s R := by
  unfold J at hm ⊢
  have hpos := h.chain.length_le h.at0.place
  have hle := h.place.le
  cases hr : m s <;> rw [hr] at hm
  · obtain ⟨ts, p', h1, h2⟩ := hm
    exact k _ ts _ p' h2 h1 (h.trans h1)
  · refine ErrPost.call h (fun hn => ?_) hm
    rcases hc with ⟨_, _, hx⟩ | ⟨hx, _⟩
    · exact hx
    · exact absurd hn hx
  · exact hm
  · have hm' : F.n < 8 * (byteLen F.src + 1 - p.pos) + K := hm
    show F.n < 8 * (byteLen F.src + 1 - F.p0.pos) + F.K
    rcases hc with ⟨_, hK, _⟩ | ⟨hne, hK⟩
    · omega
    · have : 0 < hs.length := List.length_pos_iff.2 hne
      omega

/-- What one round of a loop does. -/
def LoopPost (F : Frame) (hs : List Token) (Inv : β → List Token → PState → Prop) (Q : α → PState → Prop) :
    β ⊕ α → PState → Prop
  | .inl b, s => ∃ hs' p', Hist F true hs' s p' ∧ hs.length < hs'.length ∧ Inv b hs' s
  | .inr a, s => Q a s

theorem J.again {hs hs' : List Token} {Inv : β → List Token → PState → Prop} {Q : α → PState → Prop} {b : β} {p' : Cursor}
    (h : Hist F true hs' s p') (hl : hs.length < hs'.length) (hi : Inv b hs' s) :
    J F (Pure.pure (.inl b)) s (LoopPost F hs Inv Q) := ⟨hs', p', h, hl, hi⟩

theorem J.done {hs : List Token} {Inv : β → List Token → PState → Prop} {Q : α → PState → Prop} {a : α} (h : Q a s) :
    J F (Pure.pure (.inr a)) s (LoopPost F hs Inv Q) := h

theorem J.loop {body : β → P (β ⊕ α)} {fuel : Nat} {b : β} {Q : α → PState → Prop}
    (Inv : β → List Token → PState → Prop) {hs : List Token} {p : Cursor} (h : Hist F true hs s p) (hi : Inv b hs s)
    (hf : fuel = F.n)
    (hb : ∀ b hs s p, Hist F true hs s p → Inv b hs s → J F (body b) s (LoopPost F hs Inv Q)) :
    J F (Fajt.loop body fuel b) s Q := by
  have hf' : F.n ≤ fuel + hs.length := by omega
  clear hf
  induction fuel generalizing b hs s p with
  | zero =>
    have := h.chain.length_le h.at0.place
    have := h.place.le
    show F.n < 8 * (byteLen F.src + 1 - F.p0.pos) + F.K
    omega
  | succ n ih =>
    unfold Fajt.loop
    refine J.bind ((hb b hs s p h hi).mono ?_)
    intro res s' hres
    cases res with
    | inl b' =>
      obtain ⟨hs', p', h1, h2, h3⟩ := hres
      exact ih h1 h3 (by omega)
    | inr a => exact J.pure hres

/-! ### Rewinding -/

theorem pull_ok {s : PState} {n : Except LexErr Token} {lx : LexerS} (h : LexerS.pull s.lx = .ok n lx) :
    liftLx LexerS.pull s = .ok n { s with lx := lx } := by
  unfold liftLx; rw [h]

theorem pullWith_ok {s : PState} {st : LexState} {n : Except LexErr Token} {lx : LexerS}
    (h : M.attempt (LexerS.readWithState st) (fun t => pure (.ok t)) (fun e => pure (.error e)) s.lx = .ok n lx) :
    liftLx (M.attempt (LexerS.readWithState st) (fun t => pure (.ok t)) (fun e => pure (.error e))) s =
      .ok n { s with lx := lx } := by
  unfold liftLx; rw [h]

theorem rewindTo_eq {s : PState} {t : Token} {lx lx1 lx2 : LexerS} {c n : Except LexErr Token}
    (h : s.lx.rewindBefore t = some lx) (h1 : LexerS.pull lx = .ok c lx1) (h2 : LexerS.pull lx1 = .ok n lx2) :
    Parser.rewindTo t s = .ok () { s with lx := lx2, cur := c, nxt := n } := by
  unfold Parser.rewindTo
  rw [M.seq_ok (m := M.get) rfl, h]
  show ((M.set _ >>= fun _ => _) : P Unit) s = _
  rw [M.seq_ok (m := M.set _) rfl]
  rw [M.seq_ok (pull_ok (s := { s with lx := lx }) h1)]
  rw [M.seq_ok (m := M.modify _) rfl]
  rw [M.seq_ok (pull_ok (s := { s with lx := lx1, cur := c }) h2)]
  rfl

theorem rewindTo_none {s : PState} {t : Token} (h : s.lx.rewindBefore t = none) :
    ∃ w, Parser.rewindTo t s = .panic w := by
  unfold Parser.rewindTo
  rw [M.seq_ok (m := M.get) rfl, h]
  exact ⟨_, rfl⟩

theorem rereadWithState_eq {s : PState} {t : Token} {st : LexState} {lx lx1 lx2 : LexerS} {c n : Except LexErr Token}
    (h0 : s.cur = .ok t) (h : s.lx.rewindBefore t = some lx)
    (h1 : M.attempt (LexerS.readWithState st) (fun t => pure (.ok t)) (fun e => pure (.error e)) lx = .ok c lx1)
    (h2 : LexerS.pull lx1 = .ok n lx2) :
    Parser.rereadWithState st s = .ok () { s with lx := lx2, cur := c, nxt := n } := by
  obtain ⟨lx0, cur, nxt, pos, sty⟩ := s
  dsimp only at h0 h
  subst h0
  unfold Parser.rereadWithState
  rw [M.seq_ok (m := M.get) rfl]
  dsimp only
  rw [h]
  show ((M.set _ >>= fun _ => _) : P Unit) _ = _
  rw [M.seq_ok (m := M.set _) rfl]
  rw [M.seq_ok (pullWith_ok (s := ⟨lx, .ok t, nxt, pos, sty⟩) h1)]
  rw [M.seq_ok (m := M.modify _) rfl]
  rw [M.seq_ok (pull_ok (s := ⟨lx1, c, nxt, pos, sty⟩) h2)]
  rfl

theorem rereadWithState_none {s : PState} {t : Token} {st : LexState} (h0 : s.cur = .ok t)
    (h : s.lx.rewindBefore t = none) : ∃ w, Parser.rereadWithState st s = .panic w := by
  unfold Parser.rereadWithState
  rw [M.seq_ok (m := M.get) rfl, h0]
  dsimp only
  rw [h]
  exact ⟨_, rfl⟩

/-- The state after reading two tokens with the lexer in front of the place of `t`. -/
theorem Hist.reread {s0 s' : PState} {hs : List Token} {p q : Cursor} {c : Bool} (h : Hist F c hs s0 p) {t : Token}
    (ht : s0.cur = .ok t) (h1 : s'.lx.data = F.src) (h2 : s'.sourceType = F.styp)
    (hcv : (∃ t', s'.cur = .ok t' ∧ Step p t' q ∧ Reread t t') ∨ (∃ e, s'.cur = .error e ∧ TokErr F.src p e))
    (ha : Ahead F.src q s') (hl : Place F.src s'.lx.cursor) :
    Hist F false hs s' p ∧ ∀ t', s'.cur = .ok t' → Reread t t' := by
  have hre : ∀ t', s'.cur = .ok t' → Reread t t' := by
    intro t' ht'
    rcases hcv with ⟨t1, h3, h4, h5⟩ | ⟨e, h3, _⟩
    · rw [h3] at ht'; cases ht'; exact h5
    · rw [h3] at ht'; cases ht'
  refine ⟨⟨h.at0, ⟨h1, h2, h.place, h.at1.reads, ?_⟩, h.chain, ?_, fun hc => by cases hc⟩, hre⟩
  · rcases hcv with ⟨t1, h3, h4, h5⟩ | ⟨e, h3, h4⟩
    · rw [h3]; exact ⟨q, h4, ha⟩
    · rw [h3]; exact ⟨h4, hl⟩
  · intro t' ht'
    cases hs with
    | cons a hs => exact h.first t' (by simpa [firstTok] using ht')
    | nil =>
      simp only [firstTok, List.head?_nil, Option.orElse_eq_orElse, Option.orElse_eq_or, Option.none_or] at ht'
      rcases hcv with ⟨t1, h3, _, h4⟩ | ⟨e, h3, _⟩
      · rw [h3] at ht'
        cases ht'
        obtain ⟨t0, h5, h6⟩ := h.first t (by simp [firstTok, ht, Except.toOption])
        exact ⟨t0, h5, h6.trans h4⟩
      · rw [h3] at ht'
        cases ht'

theorem rewound {lx : LexerS} {t : Token} {src rest : Str} (h : LexerS.dropBytes src t.span.start = some rest)
    (hd : lx.data = src) : ∃ lx', lx.rewindBefore t = some lx' ∧ lx'.cursor = ⟨rest, t.span.start, t.span.start, t.fol⟩ ∧
      lx'.data = src := by
  unfold LexerS.rewindBefore
  rw [hd, h]
  exact ⟨_, rfl, rfl, rfl⟩

theorem J.rewindTo' {s0 : PState} {hs : List Token} {p : Cursor} {c : Bool} (h : Hist F c hs s0 p) {t : Token}
    (ht : s0.cur = .ok t) (hk : Kept F s) {Q : Unit → PState → Prop}
    (k : ∀ s', Hist F false hs s' p → (∀ t', s'.cur = .ok t' → Reread t t') →
      (∀ e, s'.cur = .error e → e.kind ≠ .endOfStream) → Q () s') :
    J F (Parser.rewindTo t) s Q := by
  have hcur := h.at1.cur
  rw [ht] at hcur
  obtain ⟨p1, hstep, -⟩ := hcur
  unfold J
  rcases read_again h.place h.at1.reads hstep with ⟨h1, h2⟩ | ⟨rest, h1, h2⟩
  · obtain ⟨w, hw⟩ := rewindTo_none (s := s) (t := t) (by unfold LexerS.rewindBefore; rw [hk.1, h1])
    rw [hw]
    exact Blame.panicCause (.inl h2)
  · obtain ⟨lx, hrw, hlc, hdata⟩ := rewound h1 hk.1
    have hp1 : ∃ cv q, LexerS.pull lx = .ok cv { lx with cursor := q } ∧ Place F.src q ∧
        ((∃ t', cv = .ok t' ∧ Step p t' q ∧ Reread t t') ∨ (∃ e, cv = .error e ∧ TokErr F.src p e)) ∧
        (∀ e, cv = .error e → e.kind ≠ .endOfStream) := by
      unfold LexerS.pull M.attempt LexerS.next
      rw [hlc]
      rcases h2 lx.st with ⟨t', q, e1, e2, e3⟩ | ⟨e, q, e1, e2, e3, e4⟩
      · rw [e1]; exact ⟨_, q, rfl, e2.place h.place, .inl ⟨t', rfl, e2, e3⟩, fun e he => by cases he⟩
      · rw [e1]; exact ⟨_, q, rfl, e4, .inr ⟨e, rfl, ⟨e2, fun hk => absurd hk e3⟩⟩, fun e' he => by cases he; exact e3⟩
    obtain ⟨cv, q, hpull, hq, hcv, heos⟩ := hp1
    have hpull2 := pull_at { lx with cursor := q } (by show Place lx.data q; rw [hdata]; exact hq)
    rcases hpull2 with ⟨u, q', h3, h4⟩ | ⟨e, q', h3, h4, h5⟩
    · rw [rewindTo_eq hrw hpull h3]
      have := h.reread (s' := ({ s with lx := { lx with cursor := q' }, cur := cv, nxt := .ok u } : PState))
        ht hdata hk.2 hcv h4 (h4.place hq)
      exact k _ this.1 this.2 heos
    · rw [rewindTo_eq hrw hpull h3]
      simp only [hdata] at h4 h5
      have := h.reread (s' := ({ s with lx := { lx with cursor := q' }, cur := cv, nxt := .error e } : PState))
        ht hdata hk.2 hcv ⟨h4, h5⟩ h5
      exact k _ this.1 this.2 heos

theorem J.rewindTo {s0 : PState} {hs : List Token} {p : Cursor} {c : Bool} (h : Hist F c hs s0 p) {t : Token}
    (ht : s0.cur = .ok t) (hk : Kept F s) {Q : Unit → PState → Prop}
    (k : ∀ s', Hist F false hs s' p → (∀ t', s'.cur = .ok t' → Reread t t') → Q () s') :
    J F (Parser.rewindTo t) s Q := J.rewindTo' h ht hk fun s' h1 h2 _ => k s' h1 h2

theorem J.reread' {hs : List Token} {p : Cursor} {c : Bool} (h : Hist F c hs s p) {st : LexState} {Q : Unit → PState → Prop}
    (k : ∀ s', Hist F false hs s' p → (∀ t t', s.cur = .ok t → s'.cur = .ok t' → Reread t t') → Q () s') :
    J F (Parser.rereadWithState st) s Q := by
  have hk := h.kept
  unfold J
  cases ht : s.cur with
  | error e =>
    have : Parser.rereadWithState st s = .ok () s := by
      unfold Parser.rereadWithState
      rw [M.seq_ok (m := M.get) rfl, ht]
      rfl
    rw [this]
    exact k s ⟨h.at0, h.at1, h.chain, h.first, fun hc => by cases hc⟩ fun t t' h1 => nomatch ht.symm.trans h1
  | ok t =>
  have hcur := h.at1.cur
  rw [ht] at hcur
  obtain ⟨p1, hstep, -⟩ := hcur
  rcases read_again h.place h.at1.reads hstep with ⟨h1, h2⟩ | ⟨rest, h1, h2⟩
  · obtain ⟨w, hw⟩ := rereadWithState_none (st := st) ht (by unfold LexerS.rewindBefore; rw [hk.1, h1])
    rw [hw]
    exact Blame.panicCause (.inl h2)
  · obtain ⟨lx, hrw, hlc, hdata⟩ := rewound h1 hk.1
    have hp1 : ∃ (cv : Except LexErr Token) (q : Cursor) (st' : LexState), M.attempt (LexerS.readWithState st) (fun t => Pure.pure (Except.ok t)) (fun e => Pure.pure (Except.error e)) lx =
          .ok cv { lx with cursor := q, st := st' } ∧ Place F.src q ∧
        ((∃ t', cv = .ok t' ∧ Step p t' q ∧ Reread t t') ∨ (∃ e, cv = .error e ∧ TokErr F.src p e)) := by
      unfold M.attempt LexerS.readWithState LexerS.next
      dsimp only
      rw [hlc]
      rcases h2 st with ⟨t', q, e1, e2, e3⟩ | ⟨e, q, e1, e2, e3, e4⟩
      · rw [e1]; exact ⟨_, q, _, rfl, e2.place h.place, .inl ⟨t', rfl, e2, e3⟩⟩
      · rw [e1]; exact ⟨_, q, _, rfl, e4, .inr ⟨e, rfl, ⟨e2, fun hk => absurd hk e3⟩⟩⟩
    obtain ⟨cv, q, st', hpull, hq, hcv⟩ := hp1
    have hpull2 := pull_at { lx with cursor := q, st := st' } (by show Place lx.data q; rw [hdata]; exact hq)
    rcases hpull2 with ⟨u, q', h3, h4⟩ | ⟨e, q', h3, h4, h5⟩
    · rw [rereadWithState_eq ht hrw hpull h3]
      have := h.reread (s' := ({ s with lx := { lx with cursor := q', st := st' }, cur := cv, nxt := .ok u } : PState))
        ht hdata hk.2 hcv h4 (h4.place hq)
      exact k _ this.1 fun t0 t' h1 h2 => by cases ht.symm.trans h1; exact this.2 t' h2
    · rw [rereadWithState_eq ht hrw hpull h3]
      simp only [hdata] at h4 h5
      have := h.reread (s' := ({ s with lx := { lx with cursor := q', st := st' }, cur := cv, nxt := .error e } : PState))
        ht hdata hk.2 hcv ⟨h4, h5⟩ h5
      exact k _ this.1 fun t0 t' h1 h2 => by cases ht.symm.trans h1; exact this.2 t' h2

theorem J.reread {hs : List Token} {p : Cursor} {c : Bool} (h : Hist F c hs s p) {st : LexState} {Q : Unit → PState → Prop}
    (k : ∀ s', Hist F false hs s' p → Q () s') : J F (Parser.rereadWithState st) s Q := J.reread' h fun s' h1 _ => k s' h1

end
end Fajt
