import Verif.Proofs.CompletePrimary
import Verif.Proofs.ParseLogic
/-!
# Completeness: reading a token again

Regular expressions and the parts of a template after a substitution are read again, in another state of the lexer.
-/
namespace Fajt
open Spec
set_option linter.unusedSectionVars false
variable [UnicodeID]

namespace Complete
open Parser

section
variable {sty : SourceType} {a b c m o p : Point} {q q' n l : Nat} {t u : Token} {ctx : Ctx}

/-- The lexer is at the start of the token at `a`, after the trivia `tr`. -/
structure SeekAt (html regex : Bool) (a : Point) (t : Token) (c : Point) (tr w rest : Str) : Prop where
  text : a.rest = tr ++ (w ++ rest)
  trivia : Trivia html a.fol tr (w ++ rest) t.fol
  noTrivia : NoTrivia t.fol (w ++ rest)
  ne : w ≠ []
  lexeme : Lexeme regex t.value w rest
  span : t.span = ⟨posAfter 0 0 (a.pre ++ tr), posAfter 0 0 (a.pre ++ tr ++ w)⟩
  drop : LexerS.dropBytes (src a) t.span.start = some (w ++ rest)
  cursor : cursor ⟨a.pre ++ tr, w ++ rest, t.fol⟩ = ⟨w ++ rest, t.span.start, t.span.start, t.fol⟩
  next : c = ⟨a.pre ++ tr ++ w, rest, false⟩

theorem drop_at {pre tr rest : Str} {f : Bool}
    (hs : ∃ p r, pre ++ (tr ++ rest) = p ++ r ∧ byteLen p = posAfter 0 0 (pre ++ tr)) :
    LexerS.dropBytes (pre ++ (tr ++ rest)) (posAfter 0 0 (pre ++ tr)) = some rest ∧
    cursor ⟨pre ++ tr, rest, f⟩ = ⟨rest, posAfter 0 0 (pre ++ tr), posAfter 0 0 (pre ++ tr), f⟩ := by
  have hd := dropBytes_place (cursor_place ⟨pre ++ tr, rest, f⟩)
  have e : (pre ++ tr) ++ rest = pre ++ (tr ++ rest) := by simp
  simp only [Complete.cursor, Point.fin] at hd ⊢
  rw [e] at hd
  obtain ⟨p, r, e1, e2⟩ := hs
  rcases hd with ⟨hd, h6⟩ | ⟨hd, -⟩
  · exact ⟨hd, by rw [← h6]⟩
  · rw [← e2, e1, dropBytes_append] at hd; cases hd

/-- Where the lexer is when it is rewound to the token at `a`. -/
theorem seek_at {html regex : Bool} (h : Reads html regex a t c)
    (hs : ∃ p r, a.pre ++ a.rest = p ++ r ∧ byteLen p = t.span.start) :
    ∃ tr w rest, SeekAt html regex a t c tr w rest := by
  cases h with
  | @intro pre tr w rest fol _ h1 h2 h3 h4 h5 =>
    have hst : t.span.start = posAfter 0 0 (pre ++ tr) := by rw [h5]
    rw [hst] at hs
    have hd := drop_at (f := t.fol) hs
    rw [← hst] at hd
    exact ⟨tr, w, rest, rfl, h1, h2, h3, h4, h5, hd.1, hd.2, rfl⟩

theorem SeekAt.rewind {html regex : Bool} {tr w rest : Str} (h : SeekAt html regex a t c tr w rest) {x : Point}
    (hx : src x = src a) : (stateAt sty x q).lx.rewindBefore t =
      some ⟨src a, lexSt sty, Complete.cursor ⟨a.pre ++ tr, w ++ rest, t.fol⟩⟩ := by
  unfold LexerS.rewindBefore
  have e : (stateAt sty x q).lx.data = src a := hx
  rw [e, h.drop, h.cursor]
  simp only [stateAt]

/-- The state of the parser when the current token has been read again as `t`, at `b`. -/
def stateTok (sty : SourceType) (t : Token) (b : Point) (q : Nat) : PState :=
  { stateAt sty b q with
    lx := ⟨src b, lexSt sty, (lexAt sty (cursor b)).2⟩
    cur := .ok t
    nxt := (lexAt sty (cursor b)).1 }

theorem consume_stateTok : consume (stateTok sty t b q) = .ok t (stateAt sty b t.span.stop) := by
  unfold consume stateTok
  have hp := lexAt_place sty (cursor_place b)
  have e2 := pull_eq sty hp (src b)
  simp only [M.bind_def, M.bind, M.get, liftLx, e2, M.modify_def, M.set, M.pure_def]
  rfl

theorem SeekAt.reads {html regex : Bool} {tr w rest : Str} (h : SeekAt html regex a t c tr w rest) (html' : Bool) :
    Reads html' regex ⟨a.pre ++ tr, w ++ rest, t.fol⟩ t c := by
  have := Reads.intro (html := html') (pre := a.pre ++ tr) (tr := []) .nil h.noTrivia h.ne h.lexeme
    (by simpa using h.span)
  rw [h.next]
  simpa using this

/-- Rewinding to the token at `a` from any point. -/
theorem run_rewind {x : Point} (h : Next sty a t c) (hs : Seekable sty a) (hx : src x = src a) :
    Run sty (rewindTo t) x q () a q := by
  obtain ⟨tr, w, rest, hk⟩ := seek_at h (hs t c h)
  refine .inr ?_
  have e1 := pull_eq sty (cursor_place ⟨a.pre ++ tr, w ++ rest, t.fol⟩) (src a)
  have e2 := pull_eq sty (lexAt_place sty (cursor_place ⟨a.pre ++ tr, w ++ rest, t.fol⟩)) (src a)
  rw [rewindTo_eq (hk.rewind hx) e1 e2]
  have e3 := next_lexAt (sty := sty) (hk.reads _)
  have e4 := next_lexAt h
  unfold stateAt
  rw [e3, e4]
  rfl

theorem run_reread {st : LexState} {t0 t : Token} {k : Cursor} (h : Next sty a t0 c)
    (hrw : (stateAt sty a q).lx.rewindBefore t0 = some ⟨src a, lexSt sty, k⟩)
    (hr : Lexer.read st k = .ok t (Complete.cursor b)) (hb : src b = src a)
    {α : Type} {f : P α} {x : α} (hf : f (stateTok sty t b q) = .ok x (stateAt sty o q')) :
    Run sty (rereadWithState st >>= fun _ => f) a q x o q' := by
  have e1 : M.attempt (LexerS.readWithState st) (fun t => Pure.pure (Except.ok t)) (fun e => Pure.pure (Except.error e))
      ⟨src a, lexSt sty, k⟩ = .ok (.ok t : Except LexErr Token) ⟨src a, lexSt sty, Complete.cursor b⟩ := by
    unfold M.attempt LexerS.readWithState LexerS.next
    simp only [hr]
    rfl
  have e2 := pull_eq sty (cursor_place b) (src a)
  have e := rereadWithState_eq (s := stateAt sty a q) (stateAt_cur h q) hrw e1 e2
  have hst : ({ stateAt sty a q with lx := ⟨src a, lexSt sty, (lexAt sty (cursor b)).2⟩, cur := .ok t, nxt := (lexAt sty (cursor b)).1 } : PState)
      = stateTok sty t b q := by
    unfold stateTok; rw [hb]; rfl
  rw [hst] at e
  refine .inr ?_
  rw [M.seq_ok e]
  exact hf

/-! ## Regular expressions -/

theorem punct_slash {d : Char} {r : Str} (h : d ≠ '=') : PunctText p!"/" (d :: r) := by
  refine ⟨fun q hq hp => ?_, nofun, nofun⟩
  exfalso
  cases q <;> simp_all [Punct.asStr]
  exact h hp.symm

theorem punct_slashEq {r : Str} : PunctText p!"/=" r := by
  refine ⟨fun q hq hp => ?_, nofun, nofun⟩
  exfalso
  cases q <;> simp_all [Punct.asStr]

theorem punct_brace {r : Str} : PunctText p!"}" r := by
  refine ⟨fun q hq hp => ?_, nofun, nofun⟩
  exfalso
  cases q <;> simp_all [Punct.asStr]

/-- The slash that starts a regular expression, read outside of it. -/
theorem regex_slash {w : Str} (h : RegexAt sty w t a b) : ∃ t0 c, Next sty a t0 c ∧ t0.span.start = t.span.start ∧ t0.fol = t.fol ∧
    (t0.value = .punct p!"/" ∨ t0.value = .punct p!"/=") := by
  obtain ⟨h, hv⟩ := h
  cases h with
  | @intro pre tr w rest fol _ h1 h2 h3 h4 h5 =>
    rw [hv] at h4
    cases h4 with
    | @regexp w' flags _ _ h6 h7 h8 =>
      have hw : ∃ d r, w' ++ flags ++ rest = d :: r := by cases h6 <;> exact ⟨_, _, rfl⟩
      obtain ⟨d, r, hw⟩ := hw
      have e : '/' :: w' ++ flags ++ rest = '/' :: d :: r := by rw [← hw]; simp
      rw [e] at h1 h2 ⊢
      by_cases hd : d = '='
      · subst hd
        refine ⟨⟨.punct p!"/=", t.fol, ⟨posAfter 0 0 (pre ++ tr), _⟩⟩, _,
          .intro (w := p!"/=".asStr) (rest := r) h1 h2 (by simp [Punct.asStr]) (.punct punct_slashEq nofun) rfl, by rw [h5], rfl, .inr rfl⟩
      · refine ⟨⟨.punct p!"/", t.fol, ⟨posAfter 0 0 (pre ++ tr), _⟩⟩, _,
          .intro (w := p!"/".asStr) (rest := d :: r) h1 h2 (by simp [Punct.asStr]) (.punct (punct_slash hd) nofun) rfl, by rw [h5], rfl, .inl rfl⟩

theorem run_regex {w : Str} (h : RegexAt sty w t a b) (hs : Seekable sty a) :
    Run sty rereadRegexp a q (.literal t.span (.regexp w)) b b.fin := by
  obtain ⟨t0, c, hn, e1, e2, -⟩ := regex_slash h
  obtain ⟨h, hv⟩ := h
  have hs : ∃ p r, a.pre ++ a.rest = p ++ r ∧ byteLen p = t0.span.start := hs t0 c hn
  rw [e1] at hs
  obtain ⟨tr, w', rest, hk⟩ := seek_at h hs
  have hrw := hk.rewind (sty := sty) (q := q) (x := a) rfl
  have hrw' : (stateAt sty a q).lx.rewindBefore t0 = (stateAt sty a q).lx.rewindBefore t := by
    unfold LexerS.rewindBefore; rw [e1, e2]
  rw [← hrw'] at hrw
  refine run_reread hn hrw (reads_read (st := LexState.regexAllowed) rfl (hk.reads _)) (reads_src h) ?_
  unfold literal literalTok
  simp only [M.bind_def, M.bind, consume_stateTok, hv, M.pure_def]
  rw [reads_fin h]
  rfl

theorem regexE_ok {w : Str} (h : RegexAt sty w t a b) (hs : Seekable sty a) : ExprOK sty ctx 21 (.literal t.span (.regexp w)) a b := by
  obtain ⟨t0, c, hn, e1, e2, hv⟩ := regex_slash h
  have hsp : From sty a b t.span := ⟨t0, c, hn, by rw [e1, ← reads_fin h.1]⟩
  rcases hv with hv | hv
  · refine primary_ok hn hv rfl (punct_not_ident hv) hsp (by decide) fun _ n q => Run.bind (run_current hn) ?_
    simp only [hv]
    exact run_regex h hs
  · refine primary_ok hn hv rfl (punct_not_ident hv) hsp (by decide) fun _ n q => Run.bind (run_current hn) ?_
    simp only [hv]
    have := run_isIdent (q := q) hn {}
    rw [punct_not_ident hv] at this
    obtain ⟨w, hw⟩ : ∃ w, Run sty followedByNewLine a q w a q := ⟨_, Run.gets rfl⟩
    exact Run.bind hw (Run.iteF (by simp) (Run.ifF this (run_regex h hs)))

/-! ## Templates -/

theorem read_continuation {st : LexState} (hst : st.template = true) {k : Cursor} {v : TokVal} {w rest : Str} (h : Continuation v w)
    (hk : k.rest = w ++ rest) : Lexer.read st k = .ok ⟨v, false, ⟨k.pos, posAfter k.off k.pos w⟩⟩ (k.after w rest) := by
  rw [read_template st hst]
  unfold Lexer.readTemplateLiteralMiddleOrTail
  cases h with
  | middle hb =>
    rw [M.seq_ok (position_eq k), M.seq_ok (consume_eq hk), if_neg (by simp)]
    refine (M.seq_ok (readTemplatePart_eq (sub := true) (rest := rest) hb _ (by simp))).trans ?_
    refine (M.seq_ok (position_eq _)).trans ?_
    simp [Cursor.after_after]
    simp [Cursor.after]
  | tail hb =>
    rw [M.seq_ok (position_eq k), M.seq_ok (consume_eq hk), if_neg (by simp)]
    refine (M.seq_ok (readTemplatePart_eq (sub := false) (rest := rest) hb _ (by simp))).trans ?_
    refine (M.seq_ok (position_eq _)).trans ?_
    simp [Cursor.after_after]
    simp [Cursor.after]

theorem noTrivia_brace {f : Bool} {r : Str} : NoTrivia f ('}' :: r) := by
  refine ⟨?_, by simp, by simp, by simp, by simp⟩
  intro c hc; simp at hc; subst hc; decide

theorem continues_brace (h : Continues sty a t b) : ∃ c, Sym sty p!"}" a c := by
  cases h with
  | @intro pre tr w rest fol f _ h1 h2 h3 h4 =>
    obtain ⟨r, rfl⟩ := h2.brace
    exact ⟨_, ⟨.punct p!"}", f, ⟨posAfter 0 0 (pre ++ tr), _⟩⟩,
      .intro (w := p!"}".asStr) (rest := r ++ rest) h1 noTrivia_brace (by simp [Punct.asStr]) (.punct punct_brace nofun) rfl, rfl⟩

theorem run_continuation (h : Continues sty a t b) (hs : Seekable sty a) :
    Run sty consumeTemplateContinuation a q t b b.fin := by
  cases h with
  | @intro pre tr w rest fol f _ h1 h2 h3 h4 =>
    obtain ⟨r, hr⟩ := h2.brace
    have hn : Next sty ⟨pre, tr ++ (w ++ rest), fol⟩ ⟨.punct p!"}", f, ⟨posAfter 0 0 (pre ++ tr), posAfter 0 0 (pre ++ tr ++ p!"}".asStr)⟩⟩
        ⟨pre ++ tr ++ p!"}".asStr, r ++ rest, false⟩ := by
      subst hr
      exact .intro (w := p!"}".asStr) (rest := r ++ rest) h1 noTrivia_brace (by simp [Punct.asStr]) (.punct punct_brace nofun) rfl
    have hs := hs _ _ hn
    obtain ⟨hd, hc⟩ := drop_at (f := f) hs
    refine run_reread (t := t) (b := ⟨pre ++ tr ++ w, rest, f⟩) hn (k := cursor ⟨pre ++ tr, w ++ rest, f⟩) ?_ ?_ (by simp [src]) ?_
    · unfold LexerS.rewindBefore
      have e : (stateAt sty ⟨pre, tr ++ (w ++ rest), fol⟩ q).lx.data = pre ++ (tr ++ (w ++ rest)) := rfl
      rw [e, hd, hc]
      rfl
    · rw [read_continuation rfl h2 (k := cursor ⟨pre ++ tr, w ++ rest, f⟩) rfl]
      obtain ⟨v, f', sp⟩ := t
      simp only at h3 h4 ⊢
      subst h3 h4
      have e : posAfter (byteLen pre + byteLen tr) (posAfter 0 0 (pre ++ tr)) w = posAfter 0 0 (pre ++ (tr ++ w)) := by
        rw [← List.append_assoc, posAfter_append 0 0 (pre ++ tr), byteLen_append, Nat.zero_add]
      simp [Complete.cursor, Cursor.after, Point.fin, byteLen_append, e, Nat.add_assoc]
    · rw [consume_stateTok, h4]; rfl

/-- The loop of `templateLiteralParts`. -/
def tplBody (r : Rec) (ctx : Ctx) (acc : List TemplatePart) : P (List TemplatePart ⊕ List TemplatePart) := do
  let e ← expr r ctx
  let token ← consumeTemplateContinuation
  match token.value with
  | .templateMiddle s => pure (.inl (pushString (acc ++ [.expr e]) s))
  | .templateTail s => pure (.inr (pushString (acc ++ [.expr e]) s))
  | _ => M.throw (PErr.unexpectedToken token)

theorem pushString_eq (acc : List TemplatePart) (s : Str) : pushString acc s = acc ++ stringPart s := by
  unfold pushString stringPart
  cases s <;> simp

/-- The meaning of the parts of a template after a substitution has started. -/
def TemplateRestOK (sty : SourceType) (ctx : Ctx) (ps : List TemplatePart) (a b : Point) : Prop :=
  ∀ n k q acc, Run sty (loop (tplBody (mkRec n) ctx) k acc) a q (acc ++ ps) b b.fin

theorem templateHead_ok {s : Str} {ps : List TemplatePart} (h : Tok sty (.templateHead s) a m) (h2 : TemplateRestOK sty ctx ps m b) :
    TemplateOK sty ctx (stringPart s ++ ps) a b := by
  obtain ⟨t, h1, hv⟩ := h
  refine ⟨⟨t, m, h1, by rw [hv]; rfl⟩, fun t' c s' h1' hv' => ?_, fun n q => ?_⟩
  · obtain ⟨rfl, rfl⟩ := next_unique h1 h1'
    rw [hv] at hv'; cases hv'
  · refine Run.bind (run_current h1) (Run.iteF (by rw [hv]; nofun) (Run.bind (x := s) (b := m) (q1 := m.fin) (Run.bind (run_consume h1) ?_) ?_))
    · simp only [hv]; exact Run.pure _
    · have := h2 n (mkRec n).fuel m.fin (pushString [] s)
      rw [pushString_eq] at this ⊢
      exact this

theorem ends_brace {k : Nat} (h : Sym sty p!"}" a b) : Ends sty ctx k a := tok_look h fun t ht l hl => by
  unfold contLevel at hl; rw [ht] at hl; simp at hl

theorem templateMiddle_ok {e : Expr} {s : Str} {ps : List TemplatePart} (h1 : ExprOK sty ctx 0 e a m) (hs : Seekable sty m)
    (h2 : Continues sty m t o) (hv : t.value = .templateMiddle s) (h3 : TemplateRestOK sty ctx ps o b) :
    TemplateRestOK sty ctx (.expr e :: (stringPart s ++ ps)) a b := fun n k q acc => by
  obtain ⟨c, hc⟩ := continues_brace h2
  have e1 : Run sty (tplBody (mkRec n) ctx acc) a q (.inl (acc ++ [.expr e] ++ stringPart s)) o o.fin := by
    refine Run.bind (h1.parse (ends_brace hc) n q) (Run.bind (run_continuation h2 hs) ?_)
    simp only [hv]
    rw [pushString_eq]
    exact Run.pure _
  have e2 : acc ++ .expr e :: (stringPart s ++ ps) = acc ++ [.expr e] ++ stringPart s ++ ps := by simp
  rw [e2]
  exact Run.loop_step e1 (fun k => h3 n k _ _) k

theorem templateTail_ok {e : Expr} {s : Str} (h1 : ExprOK sty ctx 0 e a m) (hs : Seekable sty m)
    (h2 : Continues sty m t b) (hv : t.value = .templateTail s) : TemplateRestOK sty ctx (.expr e :: stringPart s) a b := fun n k q acc => by
  obtain ⟨c, hc⟩ := continues_brace h2
  have e1 : Run sty (tplBody (mkRec n) ctx acc) a q (.inr (acc ++ [.expr e] ++ stringPart s)) b b.fin := by
    refine Run.bind (h1.parse (ends_brace hc) n q) (Run.bind (run_continuation h2 hs) ?_)
    simp only [hv]
    rw [pushString_eq]
    exact Run.pure _
  have e2 : acc ++ .expr e :: stringPart s = acc ++ [.expr e] ++ stringPart s := by simp
  rw [e2]
  exact Run.loop_end e1 k

end
end Complete
end Fajt
