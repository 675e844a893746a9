import Verif.Spec.Core
import Verif.Proofs.ParseBase
import Verif.Model.Parser
/-!
# Completeness: parser states at points of the source

`stateAt sty a q` is the state of the parser at the point `a`, when the last consumed token ends at `q`.  `Run m a q x b q'`:
the parser function `m` leads from the one state to the other with the result `x`, unless the fuel runs out.
-/
namespace Fajt
open Spec
set_option linter.unusedSectionVars false
variable [UnicodeID]

namespace Complete

/-- The state of the lexer outside of templates. -/
def lexSt (sty : SourceType) : LexState := ⟨decide (sty = .script), false, false⟩

/-- The cursor at a point. -/
def cursor (a : Point) : Cursor := ⟨a.rest, byteLen a.pre, a.fin, a.fol⟩

/-- The result of lexing as a value. -/
def lexVal : Res Cursor LexErr Token → Except LexErr Token × Cursor
  | .ok t c => (.ok t, c)
  | .err e c => (.error e, c)
  | _ => (.error LexErr.endOfStream, default)

/-- Lexing at a cursor. -/
def lexAt (sty : SourceType) (c : Cursor) : Except LexErr Token × Cursor := lexVal (Lexer.read (lexSt sty) c)

/-- The state of the parser at a point. -/
def stateAt (sty : SourceType) (a : Point) (q : Nat) : PState :=
  { lx := ⟨a.pre ++ a.rest, lexSt sty, (lexAt sty (lexAt sty (cursor a)).2).2⟩
    cur := (lexAt sty (cursor a)).1
    nxt := (lexAt sty (lexAt sty (cursor a)).2).1
    pos := q
    sourceType := sty }

theorem cursor_place (a : Point) : Place (a.pre ++ a.rest) (cursor a) := ⟨a.pre, rfl, rfl, rfl⟩

/-- The source. -/
def src (a : Point) : Str := a.pre ++ a.rest

theorem lexAt_place {s : Str} {c : Cursor} (sty : SourceType) (h : Place s c) : Place s (lexAt sty c).2 := by
  unfold lexAt
  rcases read_at s (lexSt sty) c h with ⟨t, c', h1, h2⟩ | ⟨e, c', h1, -, h3⟩
  · rw [h1]; exact h2.place h
  · rw [h1]; exact h3

/-- `pull` at a place. -/
theorem pull_eq {s : Str} (sty : SourceType) {c : Cursor} (h : Place s c) (d : Str) :
    LexerS.pull ⟨d, lexSt sty, c⟩ = .ok (lexAt sty c).1 ⟨d, lexSt sty, (lexAt sty c).2⟩ := by
  unfold LexerS.pull M.attempt LexerS.next lexAt
  rcases read_at s (lexSt sty) c h with ⟨t, c', h1, h2⟩ | ⟨e, c', h1, -, h3⟩
  · simp only [h1]; rfl
  · simp only [h1]; rfl

theorem reads_src {html regex : Bool} {a b : Point} {t : Token} (h : Reads html regex a t b) : src b = src a := by
  cases h; simp [src]

theorem next_src {sty : SourceType} {a b : Point} {t : Token} (h : Next sty a t b) : src b = src a := reads_src h

theorem reads_fin {html regex : Bool} {a b : Point} {t : Token} (h : Reads html regex a t b) : t.span.stop = b.fin := by
  cases h with
  | intro _ _ _ _ hs => rw [hs]; rfl

theorem next_fin {sty : SourceType} {a b : Point} {t : Token} (h : Next sty a t b) : t.span.stop = b.fin := reads_fin h

/-- Reading a token, in any state outside of templates. -/
theorem reads_read {st : LexState} (ht : st.template = false) {a b : Point} {t : Token}
    (h : Reads st.html st.regex a t b) : Lexer.read st (cursor a) = .ok t (cursor b) := by
  cases h with
  | @intro pre tr w rest fol _ h1 h2 h3 h4 h5 =>
    have hpre : Behind pre (cursor ⟨pre, tr ++ (w ++ rest), fol⟩) := ⟨rfl, rfl⟩
    refine (read_ok_iff st ht _ hpre.pos_le _ _).2
      ⟨tr, cursor ⟨pre ++ tr, w ++ rest, t.fol⟩, ⟨rfl, ?_, ?_⟩, h1, ⟨h2, ⟨w, ⟨rfl, ?_, ?_⟩, h3, h4⟩, ?_, rfl, rfl⟩⟩
    · simp [cursor, byteLen_append]
    · show posAfter 0 0 _ = _
      rw [posAfter_append]; simp [cursor, Point.fin]
    · simp [cursor, byteLen_append, Nat.add_assoc]
    · show posAfter 0 0 _ = _
      rw [posAfter_append 0 0 (pre ++ tr)]
      simp [cursor, Point.fin]
    · rw [h5]; rfl

theorem next_read {sty : SourceType} {a b : Point} {t : Token} (h : Next sty a t b) :
    Lexer.read (lexSt sty) (cursor a) = .ok t (cursor b) := reads_read (st := lexSt sty) rfl h

theorem next_lexAt {sty : SourceType} {a b : Point} {t : Token} (h : Next sty a t b) :
    lexAt sty (cursor a) = (.ok t, cursor b) := by unfold lexAt; rw [next_read h]; rfl

theorem cursor_inj {a b : Point} (hs : src a = src b) (h : cursor a = cursor b) : a = b := by
  cases a; cases b
  simp only [cursor, Cursor.mk.injEq] at h
  obtain ⟨h1, -, -, h4⟩ := h
  subst h1; subst h4
  have : _ = _ := List.append_cancel_right hs
  simp only at this
  rw [this]

/-- The next token is unique. -/
theorem next_unique {sty : SourceType} {a b c : Point} {t u : Token} (h1 : Next sty a t b) (h2 : Next sty a u c) :
    u = t ∧ c = b := by
  have e := (next_read h1).symm.trans (next_read h2)
  injection e with e1 e2
  exact ⟨e1.symm, (cursor_inj (by rw [next_src h1, next_src h2]) e2).symm⟩

theorem look_iff {sty : SourceType} {a b : Point} {t : Token} {p : Token → Prop} (h : Next sty a t b) :
    Look sty a p ↔ p t := by
  constructor
  · intro hl; exact hl t b h
  · intro hp u c hu; rw [(next_unique h hu).1]; exact hp

/-- What the parser sees at a point. -/
theorem next_or_none (sty : SourceType) (a : Point) :
    (∃ t b, Next sty a t b) ∨ (∀ t b, ¬ Next sty a t b) ∧ ∃ e, (lexAt sty (cursor a)).1 = .error e := by
  have hb : Behind a.pre (cursor a) := ⟨rfl, rfl⟩
  rcases read_at (src a) (lexSt sty) (cursor a) (cursor_place a) with ⟨t, c', h1, h2⟩ | ⟨e, c', h1, -, h3⟩
  · left
    obtain ⟨tr, c, he, htr, htok⟩ := (read_ok_iff (lexSt sty) rfl _ hb.pos_le t c').1 h1
    obtain ⟨w, hw, hne, hlex⟩ := htok.lexeme
    refine ⟨t, ⟨a.pre ++ tr ++ w, c'.rest, false⟩, ?_⟩
    have e1 : a.rest = tr ++ (w ++ c'.rest) := by rw [show a.rest = (cursor a).rest from rfl, he.rest, hw.rest]
    have : a = ⟨a.pre, tr ++ (w ++ c'.rest), a.fol⟩ := by cases a; simp only [Point.mk.injEq, true_and, and_true]; exact e1
    rw [this]
    have h1' := htr
    have h2' := htok.noTrivia
    rw [hw.rest] at h1' h2'
    rw [htok.fol] at h1'
    have hb1 := hb.eats he
    have hb2 := hb1.eats hw
    exact .intro h1' h2' hne hlex (by rw [htok.span, hb1.pos, hb2.pos])
  · right
    refine ⟨fun t b h => ?_, e, ?_⟩
    · rw [next_read h] at h1; cases h1
    · unfold lexAt; rw [h1]; rfl

theorem stateAt_cur {sty : SourceType} {a b : Point} {t : Token} (h : Next sty a t b) (q : Nat) :
    (stateAt sty a q).cur = .ok t := by unfold stateAt; rw [next_lexAt h]

theorem stateAt_nxt {sty : SourceType} {a b : Point} {t : Token} (h : Next sty a t b) (q : Nat) :
    (stateAt sty a q).nxt = (stateAt sty b q).cur := by unfold stateAt; rw [next_lexAt h]

theorem stateAt_none {sty : SourceType} {a : Point} (h : ∀ t b, ¬ Next sty a t b) (q : Nat) :
    ∃ e, (stateAt sty a q).cur = .error e := by
  rcases next_or_none sty a with ⟨t, b, hn⟩ | ⟨-, h⟩
  · exact absurd hn (h t b)
  · exact h

theorem atEnd_cur {sty : SourceType} {a : Point} (q : Nat) :
    AtEnd sty a ↔ (stateAt sty a q).cur = .error LexErr.endOfStream := by
  have hb : Behind a.pre (cursor a) := ⟨rfl, rfl⟩
  have := read_eos_iff (lexSt sty) rfl (cursor a) hb.pos_le
  unfold AtEnd stateAt
  show (∃ f, Trivia (lexSt sty).html (cursor a).fol (cursor a).rest [] f) ↔ (lexAt sty (cursor a)).1 = _
  rw [← this]
  unfold lexAt
  rcases read_at (src a) (lexSt sty) (cursor a) (cursor_place a) with ⟨t, c', h1, h2⟩ | ⟨e, c', h1, -, h3⟩
  · rw [h1]; constructor
    · rintro ⟨_, h⟩; cases h
    · intro h; cases h
  · rw [h1]
    constructor
    · rintro ⟨_, h⟩; injection h with h; rw [h]; rfl
    · intro h; injection h with h; rw [h]; exact ⟨_, rfl⟩

/-! ## Running parser functions -/

/-- `m` leads from `a` to `b` with the result `x`, or the fuel runs out.  `q` and `q'` are the ends of the last consumed
tokens. -/
def Run (sty : SourceType) {α : Type} (m : P α) (a : Point) (q : Nat) (x : α) (b : Point) (q' : Nat) : Prop :=
  m (stateAt sty a q) = .oof ∨ m (stateAt sty a q) = .ok x (stateAt sty b q')

/-- `m` fails at `a` with the error `e`, in the state at `b`, or the fuel runs out. -/
def Fails (sty : SourceType) {α : Type} (m : P α) (a : Point) (q : Nat) (e : PErr) (b : Point) (q' : Nat) : Prop :=
  m (stateAt sty a q) = .oof ∨ m (stateAt sty a q) = .err e (stateAt sty b q')

section
variable {sty : SourceType} {α β : Type} {a b c : Point} {q q1 q2 : Nat}

theorem Run.oof {x : α} : Run sty (M.oof : P α) a q x b q1 := .inl rfl

theorem Run.pure (x : α) : Run sty (Pure.pure x : P α) a q x a q := .inr rfl

theorem Run.bind {m : P α} {f : α → P β} {x : α} {y : β} (h1 : Run sty m a q x b q1) (h2 : Run sty (f x) b q1 y c q2) :
    Run sty (m >>= f) a q y c q2 := by
  unfold Run at *
  simp only [M.bind_def, M.bind]
  rcases h1 with h1 | h1
  · exact .inl (by rw [h1])
  · rw [h1]; exact h2

theorem Run.ifT {m : P Bool} {A B : P β} {y : β} (h1 : Run sty m a q true b q1) (h2 : Run sty A b q1 y c q2) :
    Run sty (m >>= fun v => if v = true then A else B) a q y c q2 := Run.bind h1 (by rw [if_pos rfl]; exact h2)

theorem Run.ifF {m : P Bool} {A B : P β} {y : β} (h1 : Run sty m a q false b q1) (h2 : Run sty B b q1 y c q2) :
    Run sty (m >>= fun v => if v = true then A else B) a q y c q2 :=
  Run.bind h1 (by rw [if_neg (by decide)]; exact h2)

theorem Run.iteT {p : Prop} [Decidable p] {A B : P β} {y : β} (hp : p) (h : Run sty A a q y c q2) :
    Run sty (if p then A else B) a q y c q2 := by rw [if_pos hp]; exact h

theorem Run.iteF {p : Prop} [Decidable p] {A B : P β} {y : β} (hp : ¬ p) (h : Run sty B a q y c q2) :
    Run sty (if p then A else B) a q y c q2 := by rw [if_neg hp]; exact h

theorem Run.attempt {m : P α} {f : α → P β} {g : PErr → P β} {x : α} {y : β} (h1 : Run sty m a q x b q1)
    (h2 : Run sty (f x) b q1 y c q2) : Run sty (M.attempt m f g) a q y c q2 := by
  unfold Run at *
  simp only [M.attempt]
  rcases h1 with h1 | h1
  · exact .inl (by rw [h1])
  · rw [h1]; exact h2

theorem Run.attemptErr {m : P α} {f : α → P β} {g : PErr → P β} {e : PErr} {y : β} (h1 : Fails sty m a q e b q1)
    (h2 : Run sty (g e) b q1 y c q2) : Run sty (M.attempt m f g) a q y c q2 := by
  unfold Run Fails at *
  simp only [M.attempt]
  rcases h1 with h1 | h1
  · exact .inl (by rw [h1])
  · rw [h1]; exact h2

theorem Fails.bind {m : P α} {f : α → P β} {e : PErr} (h1 : Fails sty m a q e b q1) : Fails sty (m >>= f) a q e b q1 := by
  unfold Fails at *
  simp only [M.bind_def, M.bind]
  rcases h1 with h1 | h1
  · exact .inl (by rw [h1])
  · rw [h1]; exact .inr rfl

theorem Fails.seq {m : P α} {f : α → P β} {x : α} {e : PErr} (h1 : Run sty m a q x b q1) (h2 : Fails sty (f x) b q1 e c q2) :
    Fails sty (m >>= f) a q e c q2 := by
  unfold Run Fails at *
  simp only [M.bind_def, M.bind]
  rcases h1 with h1 | h1
  · exact .inl (by rw [h1])
  · rw [h1]; exact h2

theorem Run.loop_step {body : β → P (β ⊕ α)} {v v' : β} {x : α} (h1 : Run sty (body v) a q (.inl v') b q1)
    (h2 : ∀ n, Run sty (loop body n v') b q1 x c q2) (n : Nat) : Run sty (loop body n v) a q x c q2 := by
  cases n with
  | zero => exact .inl rfl
  | succ n => exact Run.bind h1 (h2 n)

theorem Run.loop_end {body : β → P (β ⊕ α)} {v : β} {x : α} (h1 : Run sty (body v) a q (.inr x) b q1) (n : Nat) :
    Run sty (loop body n v) a q x b q1 := by
  cases n with
  | zero => exact .inl rfl
  | succ n => exact Run.bind h1 (Run.pure x)

/-- A function that only looks at the state. -/
theorem Run.gets {f : PState → α} {x : α} (h : f (stateAt sty a q) = x) : Run sty (M.gets f : P α) a q x a q :=
  .inr (by rw [M.gets_def, h])

theorem Run.ofExcept : Run sty (M.ofExcept (.ok ()) : P Unit) a q () a q := .inr rfl
end

/-! ## Primitive functions -/

open Parser
section
variable {sty : SourceType} {a b c : Point} {q : Nat} {t u : Token} {v : TokVal}

theorem pull_state (sty : SourceType) (a : Point) (q : Nat) :
    liftLx LexerS.pull (stateAt sty a q) =
      .ok (lexAt sty (lexAt sty (lexAt sty (cursor a)).2).2).1
        { stateAt sty a q with lx := ⟨src a, lexSt sty, (lexAt sty (lexAt sty (lexAt sty (cursor a)).2).2).2⟩ } := by
  unfold liftLx
  have : LexerS.pull (stateAt sty a q).lx = _ :=
    pull_eq (s := src a) sty (lexAt_place sty (lexAt_place sty (cursor_place a))) (src a)
  rw [this]

theorem run_consume (h : Next sty a t b) : Run sty consume a q t b b.fin := by
  refine .inr ?_
  unfold consume
  simp only [M.bind_def, M.bind, pull_state, M.get, M.set]
  rw [stateAt_cur h]
  simp only [M.bind_def, M.bind, M.modify_def, M.pure_def]
  congr 1
  unfold stateAt
  simp only [next_lexAt h]
  rw [next_fin h]
  congr 2
  exact (next_src h).symm

theorem run_current (h : Next sty a t b) : Run sty current a q t a q := by
  refine .inr ?_
  unfold current
  rw [stateAt_cur h]

theorem run_position (h : Next sty a t b) : Run sty position a q t.span.start a q :=
  Run.gets (by rw [stateAt_cur h])

theorem run_spanFrom (n : Nat) : Run sty (spanFrom n) a q ⟨n, q⟩ a q := Run.gets rfl

theorem run_curVal (h : Next sty a t b) : Run sty curVal? a q (some t.value) a q :=
  Run.gets (by rw [stateAt_cur h]; rfl)

theorem run_curVal_none (h : ∀ t b, ¬ Next sty a t b) : Run sty curVal? a q none a q :=
  Run.gets (by obtain ⟨e, he⟩ := stateAt_none h q; rw [he]; rfl)

theorem run_cur (h : Next sty a t b) : Run sty cur? a q (some t) a q :=
  Run.gets (by rw [stateAt_cur h]; rfl)

theorem run_cur_none (h : ∀ t b, ¬ Next sty a t b) : Run sty cur? a q none a q :=
  Run.gets (by obtain ⟨e, he⟩ := stateAt_none h q; rw [he]; rfl)

theorem run_peek (h : Next sty a t b) (h' : Next sty b u c) : Run sty peek? a q (some u) a q :=
  Run.gets (by rw [stateAt_nxt h, stateAt_cur h']; rfl)

theorem run_peek_none (h : Next sty a t b) (h' : ∀ u c, ¬ Next sty b u c) : Run sty peek? a q none a q :=
  Run.gets (by obtain ⟨e, he⟩ := stateAt_none h' q; rw [stateAt_nxt h, he]; rfl)

theorem run_curMatches (h : Next sty a t b) (v : TokVal) : Run sty (curMatches v) a q (decide (t.value = v)) a q :=
  Run.gets (by rw [stateAt_cur h])

theorem run_curT (h : Tok sty v a b) : Run sty (curMatches v) a q true a q := by
  obtain ⟨t, h1, h2⟩ := h
  have := run_curMatches (q := q) h1 v
  rwa [decide_eq_true h2] at this

theorem run_curF (h : Look sty a (fun t => t.value ≠ v)) : Run sty (curMatches v) a q false a q := by
  rcases next_or_none sty a with ⟨t, b, hn⟩ | ⟨hn, -⟩
  · have := run_curMatches (q := q) hn v
    rwa [decide_eq_false (h t b hn)] at this
  · exact Run.gets (by obtain ⟨e, he⟩ := stateAt_none hn q; rw [he])

theorem run_peekT (h : Next sty a t b) (h' : Tok sty v b c) : Run sty (peekMatches v) a q true a q := by
  obtain ⟨u, h1, h2⟩ := h'
  exact Run.gets (by rw [stateAt_nxt h, stateAt_cur h1]; simp [h2])

theorem run_peekF (h : Next sty a t b) (h' : Look sty b (fun t => t.value ≠ v)) : Run sty (peekMatches v) a q false a q := by
  rcases next_or_none sty b with ⟨u, c, hn⟩ | ⟨hn, -⟩
  · exact Run.gets (by rw [stateAt_nxt h, stateAt_cur hn]; simp [h' u c hn])
  · exact Run.gets (by obtain ⟨e, he⟩ := stateAt_none hn q; rw [stateAt_nxt h, he])

theorem run_consumeTok (h : Tok sty v a b) : ∃ t, t.value = v ∧ Next sty a t b ∧ Run sty consume a q t b b.fin := by
  obtain ⟨t, h1, h2⟩ := h
  exact ⟨t, h2, h1, run_consume h1⟩

theorem run_assert (h : Next sty a t b) : Run sty (consumeAssert t.value) a q t b b.fin :=
  Run.bind (run_consume h) (Run.iteF (by simp) (Run.pure _))

theorem run_assertTok (h : Tok sty v a b) : ∃ t, t.value = v ∧ Next sty a t b ∧ Run sty (consumeAssert v) a q t b b.fin := by
  obtain ⟨t, h1, h2⟩ := h
  exact ⟨t, h2, h1, h2 ▸ run_assert h1⟩

/-- `let _ ← consumeAssert v; m`. -/
theorem Run.assert {β : Type} {m : P β} {x : β} {q2 : Nat} (h : Tok sty v a b) (h2 : Run sty m b b.fin x c q2) :
    Run sty (consumeAssert v >>= fun _ => m) a q x c q2 := by
  obtain ⟨t, -, -, h⟩ := run_assertTok (q := q) h
  exact Run.bind h h2

/-- `let _ ← consume; m`. -/
theorem Run.skip {β : Type} {m : P β} {x : β} {q2 : Nat} (h : Tok sty v a b) (h2 : Run sty m b b.fin x c q2) :
    Run sty (consume >>= fun _ => m) a q x c q2 := by
  obtain ⟨t, -, -, h⟩ := run_consumeTok (q := q) h
  exact Run.bind h h2

theorem run_maybeT (h : Tok sty v a b) : Run sty (maybeConsume v) a q true b b.fin :=
  Run.ifT (run_curT h) (Run.skip h (Run.pure _))

theorem run_maybeF (h : Look sty a (fun t => t.value ≠ v)) : Run sty (maybeConsume v) a q false a q :=
  Run.ifF (run_curF h) (Run.pure _)

theorem run_isIdent (h : Next sty a t b) (ctx : Ctx) : Run sty (isIdent ctx) a q (isIdentTok (.ok t) ctx.kw) a q :=
  Run.gets (by rw [stateAt_cur h])

theorem isIdentTok_of {ctx : Ctx} {id : Ident} (h : IdentTok ctx t id) : isIdentTok (.ok t) ctx.kw = true := by
  obtain ⟨v, f, s⟩ := t
  cases h with
  | ident h => cases h; rfl
  | keyword h hk => cases h; exact hk

theorem run_parseIdent (h : Next sty a t b) {ctx : Ctx} {id : Ident} (hi : IdentTok ctx t id) :
    Run sty (parseIdent ctx) a q id b b.fin := by
  refine Run.bind (run_consume h) ?_
  cases hi with
  | ident h => simp only [h]; exact Run.pure _
  | keyword h hk => simp only [h, hk, if_true]; exact Run.pure _

theorem run_parseIdentName (h : Next sty a t b) {id : Ident} (hi : NameTok t id) :
    Run sty parseIdentName a q id b b.fin := by
  refine Run.bind (run_consume h) ?_
  cases hi with
  | ident h => simp only [h]; exact Run.pure _
  | keyword h => simp only [h]; exact Run.pure _

theorem run_isIdentName (h : Next sty a t b) {id : Ident} (hi : NameTok t id) : Run sty isIdentName a q true a q := by
  refine Run.gets ?_
  rw [stateAt_cur h]
  obtain ⟨v, f, s⟩ := t
  cases hi with
  | ident h => cases h; rfl
  | keyword h => cases h; rfl

theorem run_peekIsIdent (h : Next sty a t b) (h' : Next sty b u c) (ctx : Ctx) :
    Run sty (peekIsIdent ctx) a q (isIdentTok (.ok u) ctx.kw) a q :=
  Run.gets (by rw [stateAt_nxt h, stateAt_cur h'])

theorem run_followedByNewLine (h : Next sty a t b) (h' : Next sty b u c) : Run sty followedByNewLine a q u.fol a q :=
  Run.gets (by rw [stateAt_nxt h, stateAt_cur h'])

theorem run_firstOnLine (h : Next sty a t b) : Run sty firstOnLine a q t.fol a q :=
  Run.gets (by rw [stateAt_cur h])

theorem run_firstOnLine_none (h : ∀ t b, ¬ Next sty a t b) : Run sty firstOnLine a q false a q :=
  Run.gets (by obtain ⟨e, he⟩ := stateAt_none h q; rw [he])

theorem run_isEndF (h : Next sty a t b) : Run sty isEnd a q false a q :=
  Run.gets (by rw [stateAt_cur h])

theorem run_isEndT (h : AtEnd sty a) : Run sty isEnd a q true a q :=
  Run.gets (by rw [(atEnd_cur q).1 h]; simp [LexErr.endOfStream])

theorem run_delimComma {v : TokVal} (h : Sym sty p!"," a b) : Run sty (consumeListDelimiter v) a q () b b.fin :=
  Run.ifT (run_maybeT h) (Run.pure _)

theorem run_delimEnd {v : TokVal} (h : Tok sty v a b) (hv : v ≠ .punct p!",") :
    Run sty (consumeListDelimiter v) a q () a q := by
  obtain ⟨t, h1, h2⟩ := h
  exact Run.ifF (run_maybeF ((look_iff h1).2 (by rw [h2]; exact hv))) (Run.ifT (run_curT ⟨t, h1, h2⟩) (Run.pure _))

theorem run_optOpSome {α : Type} {f : TokVal → Option α} {op : α} (h : Next sty a t b) (hf : f t.value = some op) :
    Run sty (optionalOperator f) a q (some op) b b.fin := by
  refine Run.bind (run_curVal h) ?_
  simp only [Option.bind_some, hf]
  exact Run.bind (Run.attempt (run_consume h) (Run.pure ())) (Run.pure _)

theorem run_optOpNone {α : Type} {f : TokVal → Option α} (h : Look sty a (fun t => f t.value = none)) :
    Run sty (optionalOperator f) a q none a q := by
  rcases next_or_none sty a with ⟨t, b, hn⟩ | ⟨hn, -⟩
  · refine Run.bind (run_curVal hn) ?_
    simp only [Option.bind_some, h t b hn]
    exact Run.pure _
  · exact Run.bind (run_curVal_none hn) (Run.pure _)

theorem Look.mono {p p' : Token → Prop} (h : Look sty a p) (hp : ∀ t, p t → p' t) : Look sty a p' :=
  fun t b ht => hp t (h t b ht)

theorem tok_look (h : Tok sty v a b) {p : Token → Prop} (hp : ∀ t : Token, t.value = v → p t) : Look sty a p := by
  obtain ⟨t, h1, h2⟩ := h
  exact (look_iff h1).2 (hp t h2)

theorem tok_ne (h : Tok sty v a b) {v' : TokVal} (hv : v ≠ v') : Look sty a (fun t => t.value ≠ v') :=
  tok_look h fun t ht => by rw [ht]; exact hv

theorem From.eq {sp : Span} (h : From sty a b sp) (h' : Next sty a t c) : sp = ⟨t.span.start, b.fin⟩ := by
  obtain ⟨u, d, h1, h2⟩ := h
  obtain ⟨rfl, -⟩ := next_unique h' h1
  exact h2
end

end Complete
end Fajt
