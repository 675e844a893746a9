import Verif.Proofs.LexTokens
import Verif.Model.Parser
import Verif.Spec.Grammar
import Verif.Spec.PanicCauses
/-!
# The parser's view of the source

`Place src p`: the cursor `p` is somewhere in the source.  `Step p t p'`: from the place `p` (the end of the previous token)
the next token is `t`, and `p'` is the place behind it.  `At src s p`: the parser state `s` stands behind `p`, that is, its
current token is the one following `p` and its next token the one following that.
-/
namespace Fajt
open Spec Lexer
set_option linter.unusedSectionVars false
variable [UnicodeID]

/-- `p` is a place in the source. -/
def Place (src : Str) (p : Cursor) : Prop := ∃ pre, src = pre ++ p.rest ∧ Behind pre p

theorem Place.pos_le {src : Str} {p : Cursor} (h : Place src p) : p.pos ≤ p.off := by
  obtain ⟨_, _, h⟩ := h; exact h.pos_le

theorem Place.total {src : Str} {p : Cursor} (h : Place src p) : p.off + byteLen p.rest = byteLen src := by
  obtain ⟨pre, rfl, h⟩ := h; rw [h.off, byteLen_append]

theorem Place.eats {src w : Str} {p q : Cursor} (h : Place src p) (he : Eats p w q) : Place src q := by
  obtain ⟨pre, h1, h2⟩ := h
  exact ⟨pre ++ w, by rw [h1, he.rest, List.append_assoc], h2.eats he⟩

theorem Place.fol {src : Str} {p : Cursor} (h : Place src p) (b : Bool) : Place src { p with fol := b } := by
  obtain ⟨pre, h1, h2⟩ := h
  exact ⟨pre, h1, ⟨h2.off, h2.pos⟩⟩

/-- The text after trivia at `c` is a token `t` ending at `p'`. -/
structure TokText (c : Cursor) (t : Token) (p' : Cursor) : Prop where
  text : ∃ w, Eats c w p' ∧ w ≠ [] ∧
    ((∃ regex, Lexeme regex t.value w p'.rest) ∧ p'.fol = false ∨ Continuation t.value w)
  span : t.span = ⟨c.pos, p'.pos⟩
  noTrivia : NoTrivia t.fol c.rest

/-- The token after the place `p` is `t`; `p'` is the place behind it. -/
def Step (p : Cursor) (t : Token) (p' : Cursor) : Prop :=
  ∃ html tr c, Eats p tr c ∧ Trivia html p.fol tr c.rest c.fol ∧ TokText c t p' ∧
    (t.fol = c.fol ∨ t.fol = false ∧ c.rest.head? = some '}')

theorem Step.eats {p p' : Cursor} {t : Token} (h : Step p t p') : ∃ w, Eats p w p' := by
  obtain ⟨_, tr, c, h1, _, ⟨⟨w, h2, _⟩, _, _⟩, _⟩ := h
  exact ⟨_, h1.trans h2⟩

theorem Step.place {src : Str} {p p' : Cursor} {t : Token} (h : Step p t p') (hp : Place src p) : Place src p' := by
  obtain ⟨w, h⟩ := h.eats; exact hp.eats h

theorem Step.stop {p p' : Cursor} {t : Token} (h : Step p t p') : t.span.stop = p'.pos := by
  obtain ⟨_, tr, c, h1, _, ⟨_, h2, _⟩, _⟩ := h
  rw [h2]

theorem Step.start_ge {src : Str} {p p' : Cursor} {t : Token} (h : Step p t p') (hp : Place src p) :
    p.pos ≤ t.span.start := by
  obtain ⟨_, tr, c, h1, _, ⟨_, h2, _⟩, _⟩ := h
  rw [h2]; exact h1.pos_mono hp.pos_le

theorem Step.start_lt {src : Str} {p p' : Cursor} {t : Token} (h : Step p t p') (hp : Place src p) :
    t.span.start < t.span.stop := by
  obtain ⟨_, tr, c, h1, _, ⟨⟨w, hw, hne, _⟩, h2, _⟩, _⟩ := h
  rw [h2]
  have := hw.off_lt_pos hne
  have := h1.pos_le hp.pos_le
  show c.pos < p'.pos
  omega

theorem Step.pos_lt {src : Str} {p p' : Cursor} {t : Token} (h : Step p t p') (hp : Place src p) : p.pos < p'.pos := by
  have h1 := h.start_ge hp
  have h2 := h.start_lt hp
  have h3 := h.stop
  omega

/-- A span that reporting can use. -/
def SpanWF (src : Str) (sp : Span) : Prop := sp.start ≤ sp.stop ∧ sp.stop ≤ byteLen src

theorem Place.le {src : Str} {p : Cursor} (h : Place src p) : p.pos ≤ byteLen src := by
  have := h.pos_le; have := h.total; omega

theorem Step.spanWF {src : Str} {p p' : Cursor} {t : Token} (h : Step p t p') (hp : Place src p) : SpanWF src t.span :=
  ⟨Nat.le_of_lt (h.start_lt hp), by rw [h.stop]; exact (h.place hp).le⟩

/-- The tokens `ts` follow the place `p` and lead to the place `p'`. -/
inductive Chain : Cursor → List Token → Cursor → Prop where
  | nil {p : Cursor} : Chain p [] p
  | cons {p p1 p2 : Cursor} {t : Token} {ts : List Token} : Step p t p1 → Chain p1 ts p2 → Chain p (t :: ts) p2

theorem Chain.trans {p p1 p2 : Cursor} {ts us : List Token} (h1 : Chain p ts p1) (h2 : Chain p1 us p2) :
    Chain p (ts ++ us) p2 := by
  induction h1 with
  | nil => exact h2
  | cons hs _ ih => exact .cons hs (ih h2)

theorem Chain.one {p p1 : Cursor} {t : Token} (h : Step p t p1) : Chain p [t] p1 := .cons h .nil

theorem Chain.place {src : Str} {p p' : Cursor} {ts : List Token} (h : Chain p ts p') (hp : Place src p) : Place src p' := by
  induction h with
  | nil => exact hp
  | cons hs _ ih => exact ih (hs.place hp)

theorem Chain.pos_le {src : Str} {p p' : Cursor} {ts : List Token} (h : Chain p ts p') (hp : Place src p) :
    p.pos ≤ p'.pos := by
  induction h with
  | nil => exact Nat.le_refl _
  | cons hs _ ih => have := ih (hs.place hp); have := hs.pos_lt hp; omega

theorem Chain.pos_lt {src : Str} {p p' : Cursor} {ts : List Token} (h : Chain p ts p') (hp : Place src p)
    (hne : ts ≠ []) : p.pos < p'.pos := by
  cases h with
  | nil => exact absurd rfl hne
  | cons hs hc => have := hc.pos_le (hs.place hp); have := hs.pos_lt hp; omega

theorem Chain.split {p p' : Cursor} {ts us : List Token} (h : Chain p (ts ++ us) p') :
    ∃ q, Chain p ts q ∧ Chain q us p' := by
  induction ts generalizing p with
  | nil => exact ⟨p, .nil, h⟩
  | cons t ts ih =>
    cases h with
    | cons hs hc => obtain ⟨q, h1, h2⟩ := ih hc; exact ⟨q, .cons hs h1, h2⟩

theorem Chain.lastEnd {p p' : Cursor} {ts : List Token} (h : Chain p ts p') (hne : ts ≠ []) : lastEnd ts = p'.pos := by
  induction h with
  | nil => exact absurd rfl hne
  | @cons p p1 p2 t ts hs hc ih =>
    cases ts with
    | nil => cases hc; simp [Spec.lastEnd, hs.stop]
    | cons u us =>
      rw [← ih (by simp)]
      simp [Spec.lastEnd]

theorem Chain.head_ge {src : Str} {p p' : Cursor} {t : Token} {ts : List Token} (h : Chain p (t :: ts) p')
    (hp : Place src p) : p.pos ≤ t.span.start := by
  cases h with
  | cons hs _ => exact hs.start_ge hp

theorem Chain.mem_span {src : Str} {p p' : Cursor} {t : Token} {ts : List Token} (h : Chain p ts p')
    (hp : Place src p) (ht : t ∈ ts) : p.pos ≤ t.span.start ∧ t.span.start < t.span.stop ∧ t.span.stop ≤ p'.pos := by
  induction h with
  | nil => cases ht
  | cons hs hc ih =>
    rcases List.mem_cons.1 ht with rfl | ht
    · exact ⟨hs.start_ge hp, hs.start_lt hp, by rw [hs.stop]; exact hc.pos_le (hs.place hp)⟩
    · have := ih (hs.place hp) ht
      have := hs.pos_lt hp
      omega

/-! ## Reading a token at a place -/

/-- An error the lexer may leave in place of a token after `p`. -/
def TokErr (src : Str) (p : Cursor) (e : LexErr) : Prop :=
  SpanWF src e.span ∧ (e.kind = .endOfStream → ∃ html f, Trivia html p.fol p.rest [] f)

theorem Spec.Continuation.brace {v : TokVal} {w : Str} (h : Continuation v w) : ∃ r, w = '}' :: r := by
  cases h <;> exact ⟨_, rfl⟩

theorem read_at (src : Str) (st : LexState) (p : Cursor) (hp : Place src p) :
    (∃ t p', Lexer.read st p = .ok t p' ∧ Step p t p') ∨
    (∃ e p', Lexer.read st p = .err e p' ∧ TokErr src p e ∧ Place src p') := by
  cases ht : st.template with
  | false =>
    have := read_spec st ht p hp.pos_le
    cases hr : Lexer.read st p with
    | ok t p' =>
      rw [hr] at this
      obtain ⟨tr, c, he, htr, htok⟩ := this
      refine .inl ⟨t, p', rfl, st.html, tr, c, he, htr, ⟨?_, htok.span, htok.noTrivia⟩, .inl htok.fol.symm⟩
      obtain ⟨w, h1, h2, h3⟩ := htok.lexeme
      exact ⟨w, h1, h2, .inl ⟨⟨_, h3⟩, htok.fol'⟩⟩
    | err e p' =>
      rw [hr] at this
      obtain ⟨⟨w, hw⟩, h⟩ := this
      refine .inr ⟨e, p', rfl, ?_, hp.eats hw⟩
      rcases h with ⟨rfl, h1, h2⟩ | h
      · exact ⟨⟨by simp [LexErr.endOfStream, Span.empty], by simp [LexErr.endOfStream, Span.empty]⟩, fun _ => ⟨_, _, h2⟩⟩
      · exact ⟨⟨h.le, by rw [← hp.total]; exact h.bound⟩, fun hk => absurd hk h.notEos⟩
    | panic w => rw [hr] at this; exact this.elim
    | oof => rw [hr] at this; exact this.elim
  | true =>
    rw [read_template st ht]
    rcases (LS_readTemplateLiteralMiddleOrTail (s := p)).run hp.pos_le with ⟨t, w, p', hr, he, hc, hf, hsp, hf'⟩ | ⟨e, w, p', hr, he, hok⟩
    · refine .inl ⟨t, p', hr, false, [], p, Eats.refl p, .nil, ⟨⟨w, he, hc.ne_nil, .inr hc⟩, hsp, ?_⟩, .inr ⟨hf, ?_⟩⟩
      · have hx : ∃ r, p.rest = '}' :: r := by obtain ⟨r, rfl⟩ := hc.brace; exact ⟨_, he.rest⟩
        obtain ⟨r, hx⟩ := hx
        rw [hx]
        refine ⟨?_, by simp, by simp, by simp, by simp⟩
        intro c hc; simp at hc; subst hc; decide
      · obtain ⟨r, rfl⟩ := hc.brace; rw [he.rest]; rfl
    · exact .inr ⟨e, p', hr, ⟨⟨hok.le, by rw [← hp.total]; exact hok.bound⟩, fun hk => absurd hk hok.notEos⟩, hp.eats he⟩

theorem trivia_nil {html f f' : Bool} {tr rest : Str} (h : Trivia html f tr rest f') (hn : NoTrivia f (tr ++ rest)) :
    tr = [] ∧ f' = f := by
  obtain ⟨h1, h2, h3, h4, h5⟩ := hn
  cases h with
  | nil => exact ⟨rfl, rfl⟩
  | ws hc => have := h1 _ (by simp; rfl); simp [hc] at this
  | lt hc => have := h1 _ (by simp; rfl); simp [hc] at this
  | line => exact absurd rfl (h2 _)
  | htmlOpen => exact absurd rfl (h4 _)
  | htmlClose => exact absurd ⟨rfl, _, rfl⟩ h5
  | block => exact absurd rfl (h3 _)

/-- Values of tokens that are read the same in every state of the lexer. -/
def TokVal.stable : TokVal → Bool
  | .punct p => p.asStr.head? != some '/' && p.asStr.head? != some '}'
  | .lit (.regexp _) => false
  | .templateMiddle _ => false
  | .templateTail _ => false
  | _ => true

/-- What is known when the token `t0` is read again as `t`. -/
structure Reread (t0 t : Token) : Prop where
  start : t.span.start = t0.span.start
  fol : t.fol = true → t0.fol = true
  same : t0.value.stable = true → t = t0
  same' : t.value.stable = true → t = t0

theorem Reread.refl (t : Token) : Reread t t := ⟨rfl, id, fun _ => rfl, fun _ => rfl⟩

theorem Reread.trans {a b c : Token} (h1 : Reread a b) (h2 : Reread b c) : Reread a c :=
  ⟨h2.start.trans h1.start, fun h => h1.fol (h2.fol h), fun h => by
    have := h1.same h; subst this; exact h2.same h, fun h => by
    have := h2.same' h; subst this; exact h1.same' h⟩

theorem Reread.of {t0 t : Token} (h1 : t.span.start = t0.span.start) (h2 : t.fol = true → t0.fol = true)
    (h3 : t0.value.stable = t.value.stable) (h4 : t0.value.stable = true → t = t0) : Reread t0 t :=
  ⟨h1, h2, h4, fun h => h4 (h3.trans h)⟩

theorem lexeme_slash {regex : Bool} {v : TokVal} {w rest : Str} (h : Lexeme regex v w rest) (hs : v.stable = true) :
    ∀ regex', Lexeme regex' v w rest := by
  intro regex'
  cases h with
  | punct hp hr =>
    refine .punct hp fun _ => ?_
    simp only [TokVal.stable, Bool.and_eq_true, bne_iff_ne] at hs
    exact hs.1
  | keyword hn => exact .keyword hn
  | ident hn hk => exact .ident hn hk
  | number hn hi => exact .number hn hi
  | string hq hb => exact .string hq hb
  | regexp => simp [TokVal.stable] at hs
  | template hb => exact .template hb
  | templateHead hb => exact .templateHead hb

theorem Spec.Spells.head {w n : Str} (h : Spells w n) (hn : n ≠ []) :
    (∃ c r m, w = c :: r ∧ n = c :: m) ∨ ∃ r, w = '\\' :: r := by
  cases h with
  | nil => exact absurd rfl hn
  | plain _ => exact .inl ⟨_, _, _, rfl, rfl⟩
  | escape he _ => refine .inr ?_; cases he <;> exact ⟨_, rfl⟩

theorem isIdStart_ne_brace : isIdStart '}' = false := by
  unfold isIdStart
  rw [UnicodeID.ascii_start _ (by decide)]
  decide

theorem isIdStart_ne_slash : isIdStart '/' = false := by
  unfold isIdStart
  rw [UnicodeID.ascii_start _ (by decide)]
  decide

theorem stable_head {regex : Bool} {v : TokVal} {w rest : Str} (h : Lexeme regex v w rest) (hs : v.stable = true) :
    w.head? ≠ some '}' ∧ w.head? ≠ some '/' := by
  have name : ∀ {w n rest : Str}, NameText w n rest → w.head? ≠ some '}' ∧ w.head? ≠ some '/' := by
    intro w n rest h
    obtain ⟨⟨c, r, rfl, hc⟩, -⟩ := h.valid
    rcases h.spells.head (by simp) with ⟨d, r', m, rfl, hm⟩ | ⟨r', rfl⟩
    · simp only [List.cons.injEq] at hm
      constructor <;> intro hd <;> simp only [List.head?_cons, Option.some.injEq] at hd
      · rw [hm.1, hd, isIdStart_ne_brace] at hc
        exact absurd hc (by decide)
      · rw [hm.1, hd, isIdStart_ne_slash] at hc
        exact absurd hc (by decide)
    · simp
  cases h with
  | punct hp hr =>
    simp only [TokVal.stable, Bool.and_eq_true, bne_iff_ne] at hs
    exact ⟨hs.2, hs.1⟩
  | keyword hn => exact name hn
  | ident hn hk => exact name hn
  | number hn hi =>
    cases hn with
    | hex => simp
    | oct => simp
    | bin => simp
    | dec _ _ _ _ h _ =>
      rcases h with ⟨c, r, h, hc⟩ | ⟨c, r, h, hc⟩
      · rw [h]; constructor <;> intro hd <;> simp at hd <;> subst hd <;> exact absurd hc (by decide)
      · rw [h]; simp
  | string hq hb => rcases hq with rfl | rfl <;> simp
  | regexp => simp [TokVal.stable] at hs
  | template hb => simp
  | templateHead hb => simp

theorem unstable_head {regex : Bool} {v : TokVal} {w rest : Str} (h : Lexeme regex v w rest) (hs : v.stable = false) :
    w.head? = some '}' ∨ w.head? = some '/' := by
  cases h with
  | punct hp hr =>
    simp only [TokVal.stable, Bool.and_eq_false_iff, bne_eq_false_iff_eq] at hs
    exact hs.symm
  | regexp => exact .inr rfl
  | _ => simp [TokVal.stable] at hs

/-- Tokens at the same place are both stable or both not. -/
theorem stable_iff {v v' : TokVal} {w w' rest rest' : Str} (hne : w ≠ []) (hne' : w' ≠ []) (he : w ++ rest = w' ++ rest')
    (h : (∃ regex, Lexeme regex v w rest) ∨ Continuation v w) (h' : (∃ regex, Lexeme regex v' w' rest') ∨ Continuation v' w') :
    v.stable = v'.stable := by
  have hh : w.head? = w'.head? := by
    cases w with
    | nil => exact absurd rfl hne
    | cons a w => cases w' with
      | nil => exact absurd rfl hne'
      | cons b w' => simp at he; simp [he.1]
  have key : ∀ {v : TokVal} {w rest : Str}, (∃ regex, Lexeme regex v w rest) ∨ Continuation v w →
      (v.stable = false ↔ (w.head? = some '}' ∨ w.head? = some '/')) := by
    intro v w rest h
    rcases h with ⟨_, h⟩ | h
    · refine ⟨unstable_head h, fun hx => ?_⟩
      cases hv : v.stable with
      | false => rfl
      | true => rcases hx with hx | hx
                · exact absurd hx (stable_head h hv).1
                · exact absurd hx (stable_head h hv).2
    · cases h <;> simp [TokVal.stable]
  have e1 := key h
  have e2 := key h'
  rw [hh, ← e2] at e1
  cases h1 : v.stable <;> cases h2 : v'.stable <;> simp_all

/-- The cursor the lexer is set to when it is rewound to `t`. -/
theorem dropBytes_append (u v : Str) : LexerS.dropBytes (u ++ v) (byteLen u) = some v := by
  induction u with
  | nil => cases v <;> rfl
  | cons c u ih =>
    have := utf8Size_pos c
    have e : byteLen (c :: u) = (c.utf8Size + byteLen u - 1) + 1 := by simp; omega
    rw [e]
    simp only [List.cons_append, LexerS.dropBytes]
    rw [if_pos (by omega)]
    rw [← ih]
    congr 1
    omega

theorem dropBytes_inside (u v : Str) (c : Char) (k : Nat) (h1 : 0 < k) (h2 : k < c.utf8Size) :
    LexerS.dropBytes (u ++ c :: v) (byteLen u + k) = none := by
  induction u with
  | nil =>
    obtain ⟨k, rfl⟩ : ∃ j, k = j + 1 := ⟨k - 1, by omega⟩
    simp only [byteLen_nil, Nat.zero_add, List.nil_append, LexerS.dropBytes]
    rw [if_neg (by omega)]
  | cons d u ih =>
    have := utf8Size_pos d
    have e : byteLen (d :: u) + k = (d.utf8Size + byteLen u + k - 1) + 1 := by simp; omega
    rw [e]
    simp only [List.cons_append, LexerS.dropBytes]
    rw [if_pos (by omega)]
    rw [← ih]
    congr 1
    omega

theorem posAfter_snoc (u : Str) (c : Char) : posAfter 0 0 (u ++ [c]) = byteLen u + lenUtf16 c := by
  rw [posAfter_append]; simp [posAfter]

/-- Rewinding lands exactly on the place, or inside of a character. -/
theorem dropBytes_place {src : Str} {c : Cursor} (h : Place src c) :
    LexerS.dropBytes src c.pos = some c.rest ∧ c.pos = c.off ∨ LexerS.dropBytes src c.pos = none ∧ ∃ u d, src = u ++ d :: c.rest ∧ 128 ≤ d.toNat := by
  obtain ⟨pre, rfl, h1, h2⟩ := h
  rcases List.eq_nil_or_concat pre with rfl | ⟨u, d, rfl⟩
  · have e1 : c.off = 0 := h1
    have e2 : c.pos = 0 := h2
    rw [e1, e2]
    exact .inl ⟨by simpa using dropBytes_append [] c.rest, rfl⟩
  · rw [List.concat_eq_append] at h1 h2 ⊢
    rw [posAfter_snoc] at h2
    by_cases hd : d.toNat < 128
    · have e1 := lenUtf16_ascii hd
      have e2 := utf8Size_ascii hd
      have e3 : c.pos = c.off := by rw [h1, h2]; simp [e1, e2]
      refine .inl ⟨?_, e3⟩
      rw [e3, h1]
      exact dropBytes_append _ _
    · refine .inr ⟨?_, u, d, by simp, Nat.le_of_not_lt hd⟩
      rw [h2, List.append_assoc]
      exact dropBytes_inside u c.rest d _ (lenUtf16_pos d) (lenUtf16_lt hd)

/-- The place `p` is behind some tokens. -/
def Passed (src : Str) (p : Cursor) : Prop := ∃ ts, Chain ⟨src, 0, 0, true⟩ ts p

theorem Chain.tokensTo {p p' : Cursor} {ts : List Token} (h : Chain p ts p') {pre : Str} (hb : Behind pre p) :
    TokensTo pre p.fol p.rest ts p'.rest p'.fol := by
  induction h generalizing pre with
  | nil => exact .nil
  | @cons p p1 p2 t ts hs _ ih =>
    obtain ⟨html, tr, c, h1, h2, ⟨⟨w, h3, h4, h5⟩, h6, -⟩, h7⟩ := hs
    have hb1 := hb.eats h1
    have hb2 := hb1.eats h3
    have ih' := ih hb2
    rw [h1.rest, h3.rest]
    have hh : (w ++ p1.rest).head? = w.head? := by cases w with
      | nil => exact absurd rfl h4
      | cons a w => rfl
    rw [h3.rest] at h2 h7
    refine .cons h2 ?_ h4 h5 (by rw [h6, hb1.pos, hb2.pos]) ih'
    rwa [hh] at h7

/-- The tokens of the source up to a place. -/
theorem Chain.fromStart {src : Str} {p : Cursor} {ts : List Token} (h : Chain ⟨src, 0, 0, true⟩ ts p) :
    TokensTo [] true src ts p.rest p.fol := h.tokensTo (pre := []) ⟨rfl, rfl⟩

/-- Reading at the place where the token `t` was read before. -/
theorem read_again {src : Str} {p p1 : Cursor} {t : Token} (hp : Place src p) (hrd : Passed src p) (h : Step p t p1) :
    (LexerS.dropBytes src t.span.start = none ∧ TokenBehindWide src) ∨
    ∃ rest, LexerS.dropBytes src t.span.start = some rest ∧ ∀ st,
      (∃ t' p', Lexer.read st ⟨rest, t.span.start, t.span.start, t.fol⟩ = .ok t' p' ∧ Step p t' p' ∧ Reread t t') ∨
      (∃ e p', Lexer.read st ⟨rest, t.span.start, t.span.start, t.fol⟩ = .err e p' ∧
        SpanWF src e.span ∧ e.kind ≠ .endOfStream ∧ Place src p') := by
  obtain ⟨html, tr, c, he, htr, ⟨⟨w, hw, hne, hlex⟩, hsp, hnt⟩, hfol⟩ := h
  have hc := hp.eats he
  have hst : t.span.start = c.pos := by rw [hsp]
  rw [hst]
  rcases dropBytes_place hc with ⟨h1, h2⟩ | ⟨h1, u, d, h2, h3⟩
  rotate_left
  · obtain ⟨ts, hch⟩ := hrd
    have h4 := hch.fromStart
    rw [he.rest, hw.rest] at h4
    rw [hw.rest] at h2 htr
    exact .inl ⟨h1, ts, tr, w, p1.rest, u, d, html, p.fol, c.fol, h4, htr, hne,
      hlex.imp (fun h => h.1.imp fun _ h => ⟨_, h⟩) (fun h => ⟨_, h⟩), h2, h3⟩
  refine .inr ⟨c.rest, h1, fun st => ?_⟩
  have hcur : (⟨c.rest, c.pos, c.pos, t.fol⟩ : Cursor) = { c with fol := t.fol } := by
    cases c; simp only at h2 ⊢; rw [h2]
  rw [hcur]
  generalize hd : ({ c with fol := t.fol } : Cursor) = d
  have hdp : Place src d := by rw [← hd]; exact hc.fol _
  have hdr : d.rest = c.rest := by rw [← hd]
  have hdf : d.fol = t.fol := by rw [← hd]
  have hdo : d.off = c.off := by rw [← hd]
  have hdpos : d.pos = c.pos := by rw [← hd]
  have cd : ∀ {w q}, Eats d w q → Eats c w q := fun h => ⟨by rw [← hdr]; exact h.rest, by rw [← hdo]; exact h.off,
    by rw [h.pos, hdo, hdpos]⟩
  cases ht : st.template with
  | false =>
    have hspec := read_spec st ht d hdp.pos_le
    cases hr : Lexer.read st d with
    | ok t' p' =>
      rw [hr] at hspec
      obtain ⟨tr', c', he', htr', htok⟩ := hspec
      have hx : NoTrivia d.fol (tr' ++ c'.rest) := by rw [← he'.rest, hdf, hdr]; exact hnt
      obtain ⟨rfl, hf'⟩ := trivia_nil htr' hx
      have hcc : c' = d := by
        cases c'; cases d
        have h1 := he'.rest; have h2 := he'.off; have h3 := he'.pos
        simp_all [posAfter]
      subst hcc
      have hf2 : t'.fol = t.fol := by rw [← htok.fol, hdf]
      obtain ⟨w', hw', hne', hlex'⟩ := htok.lexeme
      refine .inl ⟨t', p', rfl, ⟨html, tr, c, he, htr, ⟨⟨w', cd hw', hne', .inl ⟨⟨_, hlex'⟩, htok.fol'⟩⟩, ?_, ?_⟩, ?_⟩, .of ?_ ?_ ?_ ?_⟩
      · rw [htok.span, hdpos]
      · rw [← hdr]; exact htok.noTrivia
      · rw [hf2]; exact hfol
      · rw [htok.span, hsp]; exact hdpos
      · rw [hf2]; exact id
      · refine stable_iff hne hne' (hw.rest.symm.trans (cd hw').rest) ?_ (.inl ⟨_, hlex'⟩)
        exact hlex.imp And.left id
      · intro hs
        rcases hlex with ⟨⟨regex, hlex⟩, hfp⟩ | hcont
        · have h1 := readValue_complete (st := st) (s := c') (hdr.trans hw.rest) (lexeme_slash hlex hs _)
          have h2 := readValue_complete (st := st) (s := c') hw'.rest hlex'
          have h3 := h1.symm.trans h2
          simp only [Res.ok.injEq] at h3
          have hv := h3.1
          have hww : p1.rest = p'.rest := by simpa using congrArg Cursor.rest h3.2
          have hw2 : w' = w := by
            have e1 := (cd hw').rest
            have e2 := hw.rest
            rw [e2, hww] at e1
            exact (List.append_cancel_right e1).symm
          have hpos : p'.pos = p1.pos := by rw [(cd hw').pos, hw.pos, hw2]
          have h4 : t'.span = t.span := by rw [htok.span, hsp, hdpos, hpos]
          cases t; cases t'
          simp_all
        · cases hv : t.value <;> rw [hv] at hcont hs <;> cases hcont <;> simp [TokVal.stable] at hs
    | err e p' =>
      rw [hr] at hspec
      obtain ⟨⟨v, hv⟩, h⟩ := hspec
      refine .inr ⟨e, p', rfl, ?_⟩
      rcases h with ⟨rfl, h1, h2⟩ | h
      · have hx : NoTrivia d.fol (d.rest ++ []) := by rw [hdf, hdr]; simpa using hnt
        have := (trivia_nil h2 hx).1
        rw [hdr, hw.rest] at this
        exact absurd (List.append_eq_nil_iff.1 this).1 hne
      · exact ⟨⟨h.le, by rw [← hdp.total]; exact h.bound⟩, h.notEos, hdp.eats hv⟩
    | panic w => rw [hr] at hspec; exact hspec.elim
    | oof => rw [hr] at hspec; exact hspec.elim
  | true =>
    rw [read_template st ht]
    rcases (LS_readTemplateLiteralMiddleOrTail (s := d)).run hdp.pos_le with
      ⟨t', w', p', hr, he', hc', hf, hsp', hf'⟩ | ⟨e, w', p', hr, he', hok⟩
    · have hx : ∃ r, c.rest = '}' :: r := by obtain ⟨r, rfl⟩ := hc'.brace; exact ⟨_, hdr.symm.trans he'.rest⟩
      refine .inl ⟨t', p', hr, ⟨html, tr, c, he, htr, ⟨⟨w', cd he', hc'.ne_nil, .inr hc'⟩, by rw [hsp', hdpos], ?_⟩, ?_⟩, .of ?_ ?_ ?_ ?_⟩
      · obtain ⟨r, hx⟩ := hx
        rw [hx]
        refine ⟨?_, by simp, by simp, by simp, by simp⟩
        intro c hc; simp at hc; subst hc; decide
      · obtain ⟨r, hx⟩ := hx
        exact .inr ⟨hf, by rw [hx]; rfl⟩
      · rw [hsp', hsp]; exact hdpos
      · rw [hf]; intro h; cases h
      · exact stable_iff hne hc'.ne_nil (hw.rest.symm.trans (cd he').rest) (hlex.imp And.left id) (.inr hc')
      · intro hs
        obtain ⟨r, hx⟩ := hx
        rcases hlex with ⟨⟨regex, hlex⟩, hfp⟩ | hcont
        · have := (stable_head hlex hs).1
          have h3 := hw.rest
          rw [hx] at h3
          cases w with
          | nil => exact absurd rfl hne
          | cons a w => simp at h3; rw [← h3.1] at this; exact absurd rfl this
        · cases hv : t.value <;> rw [hv] at hcont hs <;> cases hcont <;> simp [TokVal.stable] at hs
    · exact .inr ⟨e, p', hr, ⟨hok.le, by rw [← hdp.total]; exact hok.bound⟩, hok.notEos, hdp.eats he'⟩

end Fajt
