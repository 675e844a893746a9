import Verif.Proofs.KindLex
import Verif.Model.Parser
import Lean.Elab.Tactic.ElabTerm
/-!
# Scripts and modules are parsed alike

Two runs of the parser on the same plain source (`PlainSource`), as sources of the kinds `a` and `b`, end alike.  One theorem per function of
`Verif.Model.Parser`; written by `tools/genkind.py`.
-/
namespace Fajt.Kind
open Lean Elab Tactic Meta Fajt.Spec
set_option linter.unusedSectionVars false
set_option linter.unusedVariables false
variable [UnicodeID]

/-- Lexers of two runs. -/
structure LexR (l l' : LexerS) : Prop where
  data : l'.data = l.data
  cursor : l'.cursor = l.cursor
  regex : l'.st.regex = l.st.regex
  template : l'.st.template = l.st.template
  plain : PlainSource l.data
  here : PlainAt l.cursor

/-- States of two runs, for sources of the kinds `a` and `b`. -/
structure StR (a b : SourceType) (s s' : PState) : Prop where
  lx : LexR s.lx s'.lx
  cur : s'.cur = s.cur
  nxt : s'.nxt = s.nxt
  pos : s'.pos = s.pos
  fst : s.sourceType = a
  snd : s'.sourceType = b
  curUsual : ∀ t, s.cur = .ok t → Usual t
  nxtUsual : ∀ t, s.nxt = .ok t → Usual t

/-- Outcomes of two runs. -/
def ResR {σ ε α : Type} (R : σ → σ → Prop) (Q : α → Prop) : Res σ ε α → Res σ ε α → Prop
  | .ok x t, .ok y t' => x = y ∧ Q x ∧ R t t'
  | .err e t, .err e' t' => e = e' ∧ R t t'
  | .panic w, .panic w' => w = w'
  | .oof, .oof => True
  | _, _ => False

theorem next_agree {l l' : LexerS} (h : LexR l l') : ResR LexR Usual (LexerS.next l) (LexerS.next l') := by
  unfold LexerS.next
  have h1 := read_same (st := l'.st) (st' := l.st) h.regex h.template h.here
  have h2 := read_usual l.st h.here
  rw [h.cursor, h1]
  revert h2
  cases Lexer.read l.st l.cursor with
  | ok t c => rintro ⟨h2, h3⟩; exact ⟨rfl, h2, h.data, rfl, h.regex, h.template, h.plain, h3⟩
  | err e c => intro h3; exact ⟨rfl, h.data, rfl, h.regex, h.template, h.plain, h3⟩
  | panic w => intro; rfl
  | oof => intro; trivial

/-- What is pulled is a token that is neither `import` nor `export`, or an error. -/
def UsualItem (x : Except LexErr Token) : Prop := ∀ t, x = .ok t → Usual t

theorem pull_agree {l l' : LexerS} (h : LexR l l') : ResR LexR UsualItem (LexerS.pull l) (LexerS.pull l') := by
  unfold LexerS.pull M.attempt
  have := next_agree h
  revert this
  cases LexerS.next l <;> cases LexerS.next l' <;> intro this <;> try exact this.elim
  · obtain ⟨rfl, h1, h2⟩ := this; exact ⟨rfl, fun t ht => by cases ht; exact h1, h2⟩
  · obtain ⟨rfl, h2⟩ := this; exact ⟨rfl, fun t ht => (nomatch ht), h2⟩
  · exact this
  · trivial

theorem readWithState_agree (st : LexState) {l l' : LexerS} (h : LexR l l') :
    ResR LexR Usual (LexerS.readWithState st l) (LexerS.readWithState st l') := by
  unfold LexerS.readWithState
  have := next_agree (l := { l with st := st }) (l' := { l' with st := st }) ⟨h.data, h.cursor, rfl, rfl, h.plain, h.here⟩
  revert this
  cases LexerS.next { l with st := st } <;> cases LexerS.next { l' with st := st } <;> intro this <;> try exact this.elim
  · obtain ⟨rfl, h1, h2⟩ := this; exact ⟨rfl, h1, h2.data, h2.cursor, h.regex, h.template, h2.plain, h2.here⟩
  · exact this
  · exact this
  · trivial

theorem dropBytes_suffix {u v : Str} {n : Nat} (h : LexerS.dropBytes u n = some v) : v <:+: u := by
  induction u generalizing n with
  | nil => cases n <;> cases h; exact List.infix_rfl
  | cons c u ih =>
    cases n with
    | zero => cases h; exact List.infix_rfl
    | succ n =>
      unfold LexerS.dropBytes at h
      split at h
      · exact (ih h).trans ⟨[c], [], by simp⟩
      · cases h

theorem rewindBefore_agree (t : Token) {l l' : LexerS} (h : LexR l l') :
    (l.rewindBefore t = none ∧ l'.rewindBefore t = none) ∨
    ∃ m m', l.rewindBefore t = some m ∧ l'.rewindBefore t = some m' ∧ LexR m m' := by
  unfold LexerS.rewindBefore
  rw [h.data]
  cases hd : LexerS.dropBytes l.data t.span.start with
  | none => exact .inl ⟨rfl, rfl⟩
  | some v =>
    exact .inr ⟨_, _, rfl, rfl, rfl, rfl, h.regex, h.template, h.plain, h.plain.mono (dropBytes_suffix hd), Nat.le_refl _⟩

/-- The two computations end alike. -/
def Agree (a b : SourceType) {α : Type} (m m' : P α) : Prop :=
  ∀ s s', StR a b s s' → ResR (StR a b) (fun _ => True) (m s) (m' s')

section
variable {a b : SourceType} {α β : Type}

theorem Agree.pure (x : α) : Agree a b (Pure.pure x) (Pure.pure x) := fun _ _ h => ⟨rfl, trivial, h⟩
theorem Agree.throw (e : PErr) : Agree a b (M.throw e : P α) (M.throw e) := fun _ _ h => ⟨rfl, h⟩
theorem Agree.panic (w : Str) : Agree a b (M.panic w : P α) (M.panic w) := fun _ _ _ => rfl
theorem Agree.oof : Agree a b (M.oof : P α) M.oof := fun _ _ _ => trivial
theorem Agree.ofExcept (x : Except PErr α) : Agree a b (M.ofExcept x : P α) (M.ofExcept x) := by
  cases x
  · exact Agree.throw _
  · exact Agree.pure _

theorem Agree.gets {f f' : PState → α} (h : ∀ s s', StR a b s s' → f s = f' s') : Agree a b (M.gets f) (M.gets f') :=
  fun s s' hs => ⟨h s s' hs, trivial, hs⟩

theorem Agree.bind {m m' : P α} {f f' : α → P β} (h1 : Agree a b m m') (h2 : ∀ x, Agree a b (f x) (f' x)) :
    Agree a b (m >>= f) (m' >>= f') := by
  intro s s' hs
  show ResR _ _ (M.bind m f s) (M.bind m' f' s')
  unfold M.bind
  have := h1 s s' hs
  revert this
  cases m s <;> cases m' s' <;> intro this <;> try exact this.elim
  · obtain ⟨rfl, -, h⟩ := this; exact h2 _ _ _ h
  · exact this
  · exact this
  · trivial

theorem Agree.attempt {m m' : P α} {f f' : α → P β} {g g' : PErr → P β} (h1 : Agree a b m m') (h2 : ∀ x, Agree a b (f x) (f' x))
    (h3 : ∀ e, Agree a b (g e) (g' e)) : Agree a b (M.attempt m f g) (M.attempt m' f' g') := by
  intro s s' hs
  unfold M.attempt
  have := h1 s s' hs
  revert this
  cases m s <;> cases m' s' <;> intro this <;> try exact this.elim
  · obtain ⟨rfl, -, h⟩ := this; exact h2 _ _ _ h
  · obtain ⟨rfl, h⟩ := this; exact h3 _ _ _ h
  · exact this
  · trivial

theorem Agree.ite {p : Prop} [Decidable p] {x x' y y' : P α} (h1 : Agree a b x x') (h2 : Agree a b y y') :
    Agree a b (if p then x else y) (if p then x' else y') := by split <;> assumption

theorem Agree.loop {f f' : β → P (β ⊕ α)} (h : ∀ x, Agree a b (f x) (f' x)) {n n' : Nat} (hn : n' = n) {x : β} :
    Agree a b (Fajt.loop f n x) (Fajt.loop f' n' x) := by
  subst hn
  induction n' generalizing x with
  | zero => exact Agree.oof
  | succ n ih =>
    refine Agree.bind (h x) fun y => ?_
    cases y
    · exact ih
    · exact Agree.pure _

theorem Agree.thenTry {c : Bool} {m m' : P α} (h : Agree a b m m') : Agree a b (Parser.thenTry c m) (Parser.thenTry c m') := by
  unfold Parser.thenTry
  exact Agree.ite (Agree.bind h fun _ => Agree.pure _) (Agree.pure _)
end

/-- The entry points of the two records end alike. -/
structure Agrees (a b : SourceType) (r r' : Rec) : Prop where
  fuel : r'.fuel = r.fuel
  assignExpr : ∀ ctx, Agree a b (r.assignExpr ctx) (r'.assignExpr ctx)
  unary : ∀ ctx, Agree a b (r.unary ctx) (r'.unary ctx)
  newOrMember : ∀ ctx, Agree a b (r.newOrMember ctx) (r'.newOrMember ctx)
  bindingPattern : ∀ ctx, Agree a b (r.bindingPattern ctx) (r'.bindingPattern ctx)
  assignPattern : ∀ ctx, Agree a b (r.assignPattern ctx) (r'.assignPattern ctx)
  stmt : ∀ ctx, Agree a b (r.stmt ctx) (r'.stmt ctx)
  declOrStmt : ∀ ctx, Agree a b (r.declOrStmt ctx) (r'.declOrStmt ctx)
  declaration : ∀ ctx, Agree a b (r.declaration ctx) (r'.declaration ctx)

/-- Use the theorem about the function at the head of the goal. -/
elab "ag_known" : tactic => withMainContext do
  let g ← getMainGoal
  let t ← whnfR (← instantiateMVars (← g.getType))
  unless t.isAppOf ``Agree do throwError "not an Agree"
  let args := t.getAppArgs
  let .const n _ := (args[args.size - 2]!.headBeta).getAppFn | throwError "no head"
  let .str p b := n | throwError "no name"
  let lem := if p == `Fajt.Rec then `Fajt.Kind.Agrees ++ Name.mkSimple b else `Fajt.Kind ++ Name.mkSimple (b ++ "_agree")
  let c ← mkConstWithFreshMVarLevels lem
  let gs ← withReducible (g.apply c)
  replaceMainGoal gs

/-- Name the result of the first of two computations. -/
elab "ag_intro" : tactic => withMainContext do
  let t ← whnfR (← instantiateMVars (← (← getMainGoal).getType))
  unless t.isForall do throwError "no quantifier"
  let (_, g) ← (← getMainGoal).intro1
  replaceMainGoal [g]

/-- One step. -/
macro "ag_step" : tactic => `(tactic| first
  | with_reducible exact Agree.pure _
  | with_reducible exact Agree.throw _
  | with_reducible exact Agree.panic _
  | with_reducible exact Agree.oof
  | with_reducible exact Agree.ofExcept _
  | (ag_known <;> assumption)
  | ag_intro
  | with_reducible (refine Agree.bind ?_ ?_)
  | with_reducible (refine Agree.attempt ?_ ?_ ?_)
  | with_reducible (refine Agree.loop ?_ (Agrees.fuel ‹_›))
  | with_reducible (refine Agree.loop ?_ rfl)
  | with_reducible (refine Agree.thenTry ?_)
  | with_reducible (refine Agree.ite ?_ ?_)
  | split)

/-- Prove that two computations end alike. -/
macro "ag" : tactic => `(tactic| repeat' ag_step)

section
open Parser
variable {a b : SourceType} {r r' : Rec}

/-! ## Tokens -/

theorem current_agree : Agree a b current current := by
  intro s s' h
  unfold current
  rw [h.cur]
  cases s.cur with
  | ok t => exact ⟨rfl, trivial, h⟩
  | error e => exact ⟨rfl, h⟩

theorem currentUnwrapStart_agree : Agree a b currentUnwrapStart currentUnwrapStart := by
  intro s s' h
  unfold currentUnwrapStart
  rw [h.cur]
  cases s.cur with
  | ok t => exact ⟨rfl, trivial, h⟩
  | error e => exact rfl

theorem liftLx_agree {α : Type} {m : M LexerS LexErr α} {Q : α → Prop} {s s' : PState}
    (hm : ResR LexR Q (m s.lx) (m s'.lx)) (h : StR a b s s') :
    ResR (fun t t' => StR a b t t' ∧ t.cur = s.cur ∧ t.nxt = s.nxt ∧ t.pos = s.pos) Q (liftLx m s) (liftLx m s') := by
  unfold liftLx
  revert hm
  cases m s.lx <;> cases m s'.lx <;> intro hm <;> try exact hm.elim
  · obtain ⟨rfl, h1, h2⟩ := hm; exact ⟨rfl, h1, ⟨h2, h.cur, h.nxt, h.pos, h.fst, h.snd, h.curUsual, h.nxtUsual⟩, rfl, rfl, rfl⟩
  · obtain ⟨rfl, h2⟩ := hm; exact ⟨rfl, ⟨h2, h.cur, h.nxt, h.pos, h.fst, h.snd, h.curUsual, h.nxtUsual⟩, rfl, rfl, rfl⟩
  · exact hm
  · trivial

/-- Pulling a token, with what is known of it. -/
theorem liftPull_agree {α : Type} {f f' : Except LexErr Token → P α}
    (hf : ∀ x, UsualItem x → Agree a b (f x) (f' x)) : Agree a b (liftLx LexerS.pull >>= f) (liftLx LexerS.pull >>= f') := by
  intro s s' h
  show ResR _ _ (M.bind _ f s) (M.bind _ f' s')
  unfold M.bind
  have := liftLx_agree (pull_agree h.lx) h
  revert this
  cases liftLx LexerS.pull s <;> cases liftLx LexerS.pull s' <;> intro this <;> try exact this.elim
  · obtain ⟨rfl, h1, h2, -⟩ := this; exact hf _ h1 _ _ h2
  · exact ⟨this.1, this.2.1⟩
  · exact this
  · trivial

theorem consume_agree : Agree a b consume consume := by
  unfold consume
  refine liftPull_agree fun x hx => ?_
  intro s s' h
  simp only [M.bind_def, M.bind, M.get, M.set, h.cur]
  have h1 : StR a b { s with cur := s.nxt, nxt := x } { s' with cur := s'.nxt, nxt := x } :=
    ⟨h.lx, h.nxt, rfl, h.pos, h.fst, h.snd, h.nxtUsual, hx⟩
  cases s.cur with
  | ok t => exact ⟨rfl, trivial, h1.lx, h1.cur, h1.nxt, rfl, h1.fst, h1.snd, h1.curUsual, h1.nxtUsual⟩
  | error e => exact ⟨rfl, h1⟩

theorem setCur_agree {x : Except LexErr Token} (hx : UsualItem x) :
    Agree a b (M.modify fun s => { s with cur := x } : P Unit) (M.modify fun s => { s with cur := x }) :=
  fun s s' h => ⟨rfl, trivial, h.lx, rfl, h.nxt, h.pos, h.fst, h.snd, hx, h.nxtUsual⟩

theorem setNxt_agree {x : Except LexErr Token} (hx : UsualItem x) :
    Agree a b (M.modify fun s => { s with nxt := x } : P Unit) (M.modify fun s => { s with nxt := x }) :=
  fun s s' h => ⟨rfl, trivial, h.lx, h.cur, rfl, h.pos, h.fst, h.snd, h.curUsual, hx⟩

theorem rewindTo_agree {t : Token} : Agree a b (rewindTo t) (rewindTo t) := by
  intro s s' h
  unfold rewindTo
  simp only [M.bind_def, M.bind, M.get]
  rcases rewindBefore_agree t h.lx with ⟨h1, h2⟩ | ⟨m, m', h1, h2, h3⟩
  · rw [h1, h2]; exact rfl
  · rw [h1, h2]
    have h4 : StR a b { s with lx := m } { s' with lx := m' } := ⟨h3, h.cur, h.nxt, h.pos, h.fst, h.snd, h.curUsual, h.nxtUsual⟩
    exact liftPull_agree (fun x hx => Agree.bind (setCur_agree hx) fun _ => liftPull_agree fun y hy => setNxt_agree hy) _ _ h4

theorem rereadWithState_agree {st : LexState} : Agree a b (rereadWithState st) (rereadWithState st) := by
  intro s s' h
  unfold rereadWithState
  simp only [M.bind_def, M.bind, M.get, h.cur]
  cases hc : s.cur with
  | error e => exact ⟨rfl, trivial, h⟩
  | ok t =>
    dsimp only
    rcases rewindBefore_agree t h.lx with ⟨h1, h2⟩ | ⟨m, m', h1, h2, h3⟩
    · rw [h1, h2]; exact rfl
    · rw [h1, h2]
      have h4 : StR a b { s with lx := m, cur := .ok t } { s' with lx := m', cur := .ok t } :=
        ⟨h3, rfl, h.nxt, h.pos, h.fst, h.snd, fun u hu => h.curUsual u (hc.trans hu), h.nxtUsual⟩
      have h5 : ResR LexR UsualItem
          ((M.attempt (LexerS.readWithState st) (fun t => pure (.ok t)) (fun e => pure (.error e)) : M LexerS LexErr (Except LexErr Token)) m)
          ((M.attempt (LexerS.readWithState st) (fun t => pure (.ok t)) (fun e => pure (.error e)) : M LexerS LexErr (Except LexErr Token)) m') := by
        unfold M.attempt
        have := readWithState_agree st h3
        revert this
        cases LexerS.readWithState st m <;> cases LexerS.readWithState st m' <;> intro this <;> try exact this.elim
        · obtain ⟨rfl, h1, h2⟩ := this; exact ⟨rfl, fun t ht => by cases ht; exact h1, h2⟩
        · obtain ⟨rfl, h2⟩ := this; exact ⟨rfl, fun t ht => (nomatch ht), h2⟩
        · exact this
        · trivial
      have h6 := liftLx_agree h5 h4
      simp only [M.bind_def, M.bind, M.set]
      revert h6
      generalize (liftLx _ { s with lx := m, cur := .ok t } : Res PState PErr (Except LexErr Token)) = x
      generalize (liftLx _ { s' with lx := m', cur := .ok t } : Res PState PErr (Except LexErr Token)) = y
      cases x <;> cases y <;> intro h6 <;> try exact h6.elim
      · obtain ⟨rfl, h7, h8, -⟩ := h6
        exact Agree.bind (setCur_agree h7) (fun _ => liftPull_agree fun y hy => setNxt_agree hy) _ _ h8
      · exact ⟨h6.1, h6.2.1⟩
      · exact h6
      · trivial

theorem isEnd_agree : Agree a b (isEnd) (isEnd) :=
  Agree.gets fun s s' h => by simp only [h.cur, h.nxt, h.pos]

theorem position_agree : Agree a b (position) (position) :=
  Agree.gets fun s s' h => by simp only [h.cur, h.nxt, h.pos]

theorem cur?_agree : Agree a b (cur?) (cur?) :=
  Agree.gets fun s s' h => by simp only [h.cur, h.nxt, h.pos]

theorem peek?_agree : Agree a b (peek?) (peek?) :=
  Agree.gets fun s s' h => by simp only [h.cur, h.nxt, h.pos]

theorem curVal?_agree : Agree a b (curVal?) (curVal?) :=
  Agree.gets fun s s' h => by simp only [h.cur, h.nxt, h.pos]

theorem spanFrom_agree {n : Nat} : Agree a b (spanFrom n) (spanFrom n) :=
  Agree.gets fun s s' h => by simp only [h.cur, h.nxt, h.pos]

theorem curMatches_agree {v : TokVal} : Agree a b (curMatches v) (curMatches v) :=
  Agree.gets fun s s' h => by simp only [h.cur, h.nxt, h.pos]

theorem curMatchesString_agree : Agree a b (curMatchesString) (curMatchesString) :=
  Agree.gets fun s s' h => by simp only [h.cur, h.nxt, h.pos]

theorem curMatchesIdentOrLiteral_agree {v : Str} : Agree a b (curMatchesIdentOrLiteral v) (curMatchesIdentOrLiteral v) :=
  Agree.gets fun s s' h => by simp only [h.cur, h.nxt, h.pos]

theorem peekMatches_agree {v : TokVal} : Agree a b (peekMatches v) (peekMatches v) :=
  Agree.gets fun s s' h => by simp only [h.cur, h.nxt, h.pos]

theorem followedByNewLine_agree : Agree a b (followedByNewLine) (followedByNewLine) :=
  Agree.gets fun s s' h => by simp only [h.cur, h.nxt, h.pos]

theorem firstOnLine_agree : Agree a b (firstOnLine) (firstOnLine) :=
  Agree.gets fun s s' h => by simp only [h.cur, h.nxt, h.pos]

theorem peekIsIdent_agree {ctx : Ctx} : Agree a b (peekIsIdent ctx) (peekIsIdent ctx) :=
  Agree.gets fun s s' h => by simp only [h.cur, h.nxt, h.pos]

theorem isIdent_agree {ctx : Ctx} : Agree a b (isIdent ctx) (isIdent ctx) :=
  Agree.gets fun s s' h => by simp only [h.cur, h.nxt, h.pos]

theorem isIdentName_agree : Agree a b (isIdentName) (isIdentName) :=
  Agree.gets fun s s' h => by simp only [h.cur, h.nxt, h.pos]

theorem consumeAssert_agree {v : TokVal} : Agree a b (consumeAssert v) (consumeAssert v) := by
  unfold Parser.consumeAssert
  ag

theorem maybeConsume_agree {v : TokVal} : Agree a b (maybeConsume v) (maybeConsume v) := by
  unfold Parser.maybeConsume
  ag

theorem parseIdent_agree {ctx : Ctx} : Agree a b (parseIdent ctx) (parseIdent ctx) := by
  unfold Parser.parseIdent
  ag

theorem parseIdentName_agree : Agree a b (parseIdentName) (parseIdentName) := by
  unfold Parser.parseIdentName
  ag

theorem consumeListDelimiter_agree {v : TokVal} : Agree a b (consumeListDelimiter v) (consumeListDelimiter v) := by
  unfold Parser.consumeListDelimiter
  ag

theorem canInsertSemicolon_agree : Agree a b (canInsertSemicolon) (canInsertSemicolon) := by
  unfold Parser.canInsertSemicolon
  ag

theorem stmtEnded_agree : Agree a b (stmtEnded) (stmtEnded) := by
  unfold Parser.stmtEnded
  ag

theorem consumeOptionalSemicolon_agree : Agree a b (consumeOptionalSemicolon) (consumeOptionalSemicolon) := by
  unfold Parser.consumeOptionalSemicolon
  ag

/-! ## The functions of the parser -/

theorem exprSequence_agree (hr : Agrees a b r r') {ctx : Ctx} {spanStart : Nat} {initial : Expr} : Agree a b (exprSequence r ctx spanStart initial) (exprSequence r' ctx spanStart initial) := by
  unfold Parser.exprSequence
  ag

theorem expr_agree (hr : Agrees a b r r') {ctx : Ctx} : Agree a b (expr r ctx) (expr r' ctx) := by
  unfold Parser.expr
  ag

theorem initializer_agree (hr : Agrees a b r r') {ctx : Ctx} : Agree a b (initializer r ctx) (initializer r' ctx) := by
  unfold Parser.initializer
  ag

theorem propertyName_agree (hr : Agrees a b r r') {ctx : Ctx} : Agree a b (propertyName r ctx) (propertyName r' ctx) := by
  unfold Parser.propertyName
  ag

theorem argument_agree (hr : Agrees a b r r') {ctx : Ctx} : Agree a b (argument r ctx) (argument r' ctx) := by
  unfold Parser.argument
  ag

theorem arguments_agree (hr : Agrees a b r r') {ctx : Ctx} : Agree a b (arguments r ctx) (arguments r' ctx) := by
  unfold Parser.arguments
  ag

theorem optionalArguments_agree (hr : Agrees a b r r') {ctx : Ctx} : Agree a b (optionalArguments r ctx) (optionalArguments r' ctx) := by
  unfold Parser.optionalArguments
  ag

theorem callExpr_agree (hr : Agrees a b r r') {ctx : Ctx} {spanStart : Nat} {callee : Expr} : Agree a b (callExpr r ctx spanStart callee) (callExpr r' ctx spanStart callee) := by
  unfold Parser.callExpr
  ag

theorem singleNameBinding_agree (hr : Agrees a b r r') {ctx : Ctx} : Agree a b (singleNameBinding r ctx) (singleNameBinding r' ctx) := by
  unfold Parser.singleNameBinding
  ag

theorem bindingElement_agree (hr : Agrees a b r r') {ctx : Ctx} : Agree a b (bindingElement r ctx) (bindingElement r' ctx) := by
  unfold Parser.bindingElement
  ag

theorem namedBinding_agree (hr : Agrees a b r r') {ctx : Ctx} : Agree a b (namedBinding r ctx) (namedBinding r' ctx) := by
  unfold Parser.namedBinding
  ag

theorem bindingRestElement_agree (hr : Agrees a b r r') {ctx : Ctx} : Agree a b (bindingRestElement r ctx) (bindingRestElement r' ctx) := by
  unfold Parser.bindingRestElement
  ag

theorem restBindingIdent_agree (hr : Agrees a b r r') {ctx : Ctx} {expectedEnd : Punct} : Agree a b (restBindingIdent r ctx expectedEnd) (restBindingIdent r' ctx expectedEnd) := by
  unfold Parser.restBindingIdent
  ag

theorem objectBindingPattern_agree (hr : Agrees a b r r') {ctx : Ctx} : Agree a b (objectBindingPattern r ctx) (objectBindingPattern r' ctx) := by
  unfold Parser.objectBindingPattern
  ag

theorem isBindingElement_agree {ctx : Ctx} : Agree a b (isBindingElement ctx) (isBindingElement ctx) := by
  unfold Parser.isBindingElement
  ag

theorem arrayBindingPattern_agree (hr : Agrees a b r r') {ctx : Ctx} : Agree a b (arrayBindingPattern r ctx) (arrayBindingPattern r' ctx) := by
  unfold Parser.arrayBindingPattern
  ag

theorem bindingPattern_agree (hr : Agrees a b r r') {ctx : Ctx} : Agree a b (bindingPattern r ctx) (bindingPattern r' ctx) := by
  unfold Parser.bindingPattern
  ag

theorem formalParameters_agree (hr : Agrees a b r r') {ctx : Ctx} : Agree a b (formalParameters r ctx) (formalParameters r' ctx) := by
  unfold Parser.formalParameters
  ag

theorem directivePrologue_agree (hr : Agrees a b r r') {ctx : Ctx} : Agree a b (directivePrologue r ctx) (directivePrologue r' ctx) := by
  unfold Parser.directivePrologue
  ag

theorem functionBodyStmtList_agree (hr : Agrees a b r r') {ctx : Ctx} : Agree a b (functionBodyStmtList r ctx) (functionBodyStmtList r' ctx) := by
  unfold Parser.functionBodyStmtList
  ag

theorem functionBody_agree (hr : Agrees a b r r') {ctx : Ctx} : Agree a b (functionBody r ctx) (functionBody r' ctx) := by
  unfold Parser.functionBody
  ag

theorem conciseBody_agree (hr : Agrees a b r r') {ctx : Ctx} : Agree a b (conciseBody r ctx) (conciseBody r' ctx) := by
  unfold Parser.conciseBody
  ag

theorem arrowIdentifierArgument_agree {ctx : Ctx} : Agree a b (arrowIdentifierArgument ctx) (arrowIdentifierArgument ctx) := by
  unfold Parser.arrowIdentifierArgument
  ag

theorem arrowFunctionParameters_agree (hr : Agrees a b r r') {ctx : Ctx} : Agree a b (arrowFunctionParameters r ctx) (arrowFunctionParameters r' ctx) := by
  unfold Parser.arrowFunctionParameters
  ag

theorem arrowFunction_agree (hr : Agrees a b r r') {ctx : Ctx} {spanStart : Nat} {asynchronous : Bool} : Agree a b (arrowFunction r ctx spanStart asynchronous) (arrowFunction r' ctx spanStart asynchronous) := by
  unfold Parser.arrowFunction
  ag

theorem arrowFunctionExpr_agree (hr : Agrees a b r r') {ctx : Ctx} : Agree a b (arrowFunctionExpr r ctx) (arrowFunctionExpr r' ctx) := by
  unfold Parser.arrowFunctionExpr
  ag

theorem asyncArrowFunctionExpr_agree (hr : Agrees a b r r') {ctx : Ctx} : Agree a b (asyncArrowFunctionExpr r ctx) (asyncArrowFunctionExpr r' ctx) := by
  unfold Parser.asyncArrowFunctionExpr
  ag

theorem functionExprContent_agree (hr : Agrees a b r r') {ctx : Ctx} {spanStart : Nat} : Agree a b (functionExprContent r ctx spanStart) (functionExprContent r' ctx spanStart) := by
  unfold Parser.functionExprContent
  ag

theorem functionExpr_agree (hr : Agrees a b r r') {ctx : Ctx} : Agree a b (functionExpr r ctx) (functionExpr r' ctx) := by
  unfold Parser.functionExpr
  ag

theorem asyncFunctionExpr_agree (hr : Agrees a b r r') {ctx : Ctx} : Agree a b (asyncFunctionExpr r ctx) (asyncFunctionExpr r' ctx) := by
  unfold Parser.asyncFunctionExpr
  ag

theorem functionDeclContent_agree (hr : Agrees a b r r') {ctx : Ctx} {spanStart : Nat} {id : Ident} : Agree a b (functionDeclContent r ctx spanStart id) (functionDeclContent r' ctx spanStart id) := by
  unfold Parser.functionDeclContent
  ag

theorem functionIdentifier_agree {ctx : Ctx} : Agree a b (functionIdentifier ctx) (functionIdentifier ctx) := by
  unfold Parser.functionIdentifier
  ag

theorem functionDeclaration_agree (hr : Agrees a b r r') {ctx : Ctx} : Agree a b (functionDeclaration r ctx) (functionDeclaration r' ctx) := by
  unfold Parser.functionDeclaration
  ag

theorem asyncFunctionDeclaration_agree (hr : Agrees a b r r') {ctx : Ctx} : Agree a b (asyncFunctionDeclaration r ctx) (asyncFunctionDeclaration r' ctx) := by
  unfold Parser.asyncFunctionDeclaration
  ag

theorem method_agree (hr : Agrees a b r r') {ctx : Ctx} {spanStart : Nat} {isStatic : Bool} {name : PropName} {kind : MethodKind} : Agree a b (method r ctx spanStart isStatic name kind) (method r' ctx spanStart isStatic name kind) := by
  unfold Parser.method
  ag

theorem generatorMethod_agree (hr : Agrees a b r r') {ctx : Ctx} {isStatic : Bool} : Agree a b (generatorMethod r ctx isStatic) (generatorMethod r' ctx isStatic) := by
  unfold Parser.generatorMethod
  ag

theorem getterOrSetter_agree (hr : Agrees a b r r') {ctx : Ctx} {isStatic : Bool} {kind : MethodKind} : Agree a b (getterOrSetter r ctx isStatic kind) (getterOrSetter r' ctx isStatic kind) := by
  unfold Parser.getterOrSetter
  ag

theorem asyncMethod_agree (hr : Agrees a b r r') {ctx : Ctx} {isStatic : Bool} : Agree a b (asyncMethod r ctx isStatic) (asyncMethod r' ctx isStatic) := by
  unfold Parser.asyncMethod
  ag

theorem methodDefinitionRest_agree (hr : Agrees a b r r') {ctx : Ctx} {isStatic : Bool} : Agree a b (methodDefinitionRest r ctx isStatic) (methodDefinitionRest r' ctx isStatic) := by
  unfold Parser.methodDefinitionRest
  ag

theorem methodDefinition_agree (hr : Agrees a b r r') {ctx : Ctx} : Agree a b (methodDefinition r ctx) (methodDefinition r' ctx) := by
  unfold Parser.methodDefinition
  ag

theorem consumeLiteral_agree {l : Literal} : Agree a b (consumeLiteral l) (consumeLiteral l) := by
  unfold Parser.consumeLiteral
  ag

theorem literalTok_agree : Agree a b (literalTok) (literalTok) := by
  unfold Parser.literalTok
  ag

theorem literal_agree : Agree a b (literal) (literal) := by
  unfold Parser.literal
  ag

theorem consumeTemplateContinuation_agree : Agree a b (consumeTemplateContinuation) (consumeTemplateContinuation) := by
  unfold Parser.consumeTemplateContinuation
  ag

theorem templateLiteralParts_agree (hr : Agrees a b r r') {ctx : Ctx} {parts : List TemplatePart} : Agree a b (templateLiteralParts r ctx parts) (templateLiteralParts r' ctx parts) := by
  unfold Parser.templateLiteralParts
  ag

theorem nonSubstitutionTemplate_agree : Agree a b (nonSubstitutionTemplate) (nonSubstitutionTemplate) := by
  unfold Parser.nonSubstitutionTemplate
  ag

theorem templateHeadString_agree : Agree a b (templateHeadString) (templateHeadString) := by
  unfold Parser.templateHeadString
  ag

theorem templateLiteral_agree (hr : Agrees a b r r') {ctx : Ctx} : Agree a b (templateLiteral r ctx) (templateLiteral r' ctx) := by
  unfold Parser.templateLiteral
  ag

theorem templateLiteralExpr_agree (hr : Agrees a b r r') {ctx : Ctx} : Agree a b (templateLiteralExpr r ctx) (templateLiteralExpr r' ctx) := by
  unfold Parser.templateLiteralExpr
  ag

theorem arrayElement_agree (hr : Agrees a b r r') {ctx : Ctx} : Agree a b (arrayElement r ctx) (arrayElement r' ctx) := by
  unfold Parser.arrayElement
  ag

theorem arrayLiteral_agree (hr : Agrees a b r r') {ctx : Ctx} : Agree a b (arrayLiteral r ctx) (arrayLiteral r' ctx) := by
  unfold Parser.arrayLiteral
  ag

theorem namedPropertyDefinition_agree (hr : Agrees a b r r') {ctx : Ctx} {spanStart : Nat} {name : PropName} : Agree a b (namedPropertyDefinition r ctx spanStart name) (namedPropertyDefinition r' ctx spanStart name) := by
  unfold Parser.namedPropertyDefinition
  ag

theorem propertyDefinitionWithComputedName_agree (hr : Agrees a b r r') {ctx : Ctx} : Agree a b (propertyDefinitionWithComputedName r ctx) (propertyDefinitionWithComputedName r' ctx) := by
  unfold Parser.propertyDefinitionWithComputedName
  ag

theorem isObjectMethodDefinition_agree : Agree a b (isObjectMethodDefinition) (isObjectMethodDefinition) := by
  unfold Parser.isObjectMethodDefinition
  ag

theorem propertyDefinition_agree (hr : Agrees a b r r') {ctx : Ctx} : Agree a b (propertyDefinition r ctx) (propertyDefinition r' ctx) := by
  unfold Parser.propertyDefinition
  ag

theorem objectLiteral_agree (hr : Agrees a b r r') {ctx : Ctx} : Agree a b (objectLiteral r ctx) (objectLiteral r' ctx) := by
  unfold Parser.objectLiteral
  ag

theorem computedProperty_agree (hr : Agrees a b r r') {ctx : Ctx} : Agree a b (computedProperty r ctx) (computedProperty r' ctx) := by
  unfold Parser.computedProperty
  ag

theorem memberProperty_agree (hr : Agrees a b r r') {ctx : Ctx} : Agree a b (memberProperty r ctx) (memberProperty r' ctx) := by
  unfold Parser.memberProperty
  ag

theorem memberExprRightSide_agree (hr : Agrees a b r r') {ctx : Ctx} {spanStart : Nat} {left : MemberObject} : Agree a b (memberExprRightSide r ctx spanStart left) (memberExprRightSide r' ctx spanStart left) := by
  unfold Parser.memberExprRightSide
  ag

theorem validateNoTemplate_agree {t : Token} : Agree a b (validateNoTemplate t) (validateNoTemplate t) := by
  unfold Parser.validateNoTemplate
  ag

theorem optionalCallExpr_agree (hr : Agrees a b r r') {ctx : Ctx} {spanStart : Nat} {callee : Expr} : Agree a b (optionalCallExpr r ctx spanStart callee) (optionalCallExpr r' ctx spanStart callee) := by
  unfold Parser.optionalCallExpr
  ag

theorem optionalMemberProperty_agree (hr : Agrees a b r r') {ctx : Ctx} : Agree a b (optionalMemberProperty r ctx) (optionalMemberProperty r' ctx) := by
  unfold Parser.optionalMemberProperty
  ag

theorem optionalMemberExpr_agree (hr : Agrees a b r r') {ctx : Ctx} {spanStart : Nat} {object : Expr} : Agree a b (optionalMemberExpr r ctx spanStart object) (optionalMemberExpr r' ctx spanStart object) := by
  unfold Parser.optionalMemberExpr
  ag

theorem optionalExpr_agree (hr : Agrees a b r r') {ctx : Ctx} {spanStart : Nat} {left : Expr} : Agree a b (optionalExpr r ctx spanStart left) (optionalExpr r' ctx spanStart left) := by
  unfold Parser.optionalExpr
  ag

theorem thisExpr_agree : Agree a b (thisExpr) (thisExpr) := by
  unfold Parser.thisExpr
  ag

theorem parenthesizedExpr_agree (hr : Agrees a b r r') {ctx : Ctx} : Agree a b (parenthesizedExpr r ctx) (parenthesizedExpr r' ctx) := by
  unfold Parser.parenthesizedExpr
  ag

theorem throwArrow_agree (hr : Agrees a b r r') {ctx : Ctx} : Agree a b (throwArrow r ctx) (throwArrow r' ctx) := by
  unfold Parser.throwArrow
  ag

theorem coverParenthesizedAndArrowParameters_agree (hr : Agrees a b r r') {ctx : Ctx} : Agree a b (coverParenthesizedAndArrowParameters r ctx) (coverParenthesizedAndArrowParameters r' ctx) := by
  unfold Parser.coverParenthesizedAndArrowParameters
  ag

theorem coveredCallExpression_agree (hr : Agrees a b r r') {ctx : Ctx} : Agree a b (coveredCallExpression r ctx) (coveredCallExpression r' ctx) := by
  unfold Parser.coveredCallExpression
  ag

theorem coverCallOrAsyncArrowHead_agree (hr : Agrees a b r r') {ctx : Ctx} : Agree a b (coverCallOrAsyncArrowHead r ctx) (coverCallOrAsyncArrowHead r' ctx) := by
  unfold Parser.coverCallOrAsyncArrowHead
  ag

theorem classElement_agree (hr : Agrees a b r r') {ctx : Ctx} {hasSuper : Bool} : Agree a b (classElement r ctx hasSuper) (classElement r' ctx hasSuper) := by
  unfold Parser.classElement
  ag

theorem classBody_agree (hr : Agrees a b r r') {ctx : Ctx} {hasSuper : Bool} : Agree a b (classBody r ctx hasSuper) (classBody r' ctx hasSuper) := by
  unfold Parser.classBody
  ag

theorem taggedTemplate_agree (hr : Agrees a b r r') {ctx : Ctx} {spanStart : Nat} {callee : Expr} : Agree a b (taggedTemplate r ctx spanStart callee) (taggedTemplate r' ctx spanStart callee) := by
  unfold Parser.taggedTemplate
  ag

theorem recursiveCallExpression_agree (hr : Agrees a b r r') {ctx : Ctx} {spanStart : Nat} {previous : Expr} : Agree a b (recursiveCallExpression r ctx spanStart previous) (recursiveCallExpression r' ctx spanStart previous) := by
  unfold Parser.recursiveCallExpression
  ag

theorem superCallExpr_agree (hr : Agrees a b r r') {ctx : Ctx} : Agree a b (superCallExpr r ctx) (superCallExpr r' ctx) := by
  unfold Parser.superCallExpr
  ag

theorem importArgument_agree (hr : Agrees a b r r') {ctx : Ctx} : Agree a b (importArgument r ctx) (importArgument r' ctx) := by
  unfold Parser.importArgument
  ag

theorem importCallExpr_agree (hr : Agrees a b r r') {ctx : Ctx} : Agree a b (importCallExpr r ctx) (importCallExpr r' ctx) := by
  unfold Parser.importCallExpr
  ag

theorem callOrMemberExpr_agree (hr : Agrees a b r r') {ctx : Ctx} : Agree a b (callOrMemberExpr r ctx) (callOrMemberExpr r' ctx) := by
  unfold Parser.callOrMemberExpr
  ag

theorem leftHandSideExpr_agree (hr : Agrees a b r r') {ctx : Ctx} : Agree a b (leftHandSideExpr r ctx) (leftHandSideExpr r' ctx) := by
  unfold Parser.leftHandSideExpr
  ag

theorem classTail_agree (hr : Agrees a b r r') {ctx : Ctx} : Agree a b (classTail r ctx) (classTail r' ctx) := by
  unfold Parser.classTail
  ag

theorem optionalIdentUnwrap_agree {ctx : Ctx} : Agree a b (optionalIdentUnwrap ctx) (optionalIdentUnwrap ctx) := by
  unfold Parser.optionalIdentUnwrap
  ag

theorem classExpr_agree (hr : Agrees a b r r') {ctx : Ctx} : Agree a b (classExpr r ctx) (classExpr r' ctx) := by
  unfold Parser.classExpr
  ag

theorem optionalClassIdentifier_agree {ctx : Ctx} : Agree a b (optionalClassIdentifier ctx) (optionalClassIdentifier ctx) := by
  unfold Parser.optionalClassIdentifier
  ag

theorem classDecl_agree (hr : Agrees a b r r') {ctx : Ctx} : Agree a b (classDecl r ctx) (classDecl r' ctx) := by
  unfold Parser.classDecl
  ag

theorem rereadRegexp_agree : Agree a b (rereadRegexp) (rereadRegexp) := by
  unfold Parser.rereadRegexp
  ag

theorem primaryExpr_agree (hr : Agrees a b r r') {ctx : Ctx} : Agree a b (primaryExpr r ctx) (primaryExpr r' ctx) := by
  unfold Parser.primaryExpr
  ag

theorem superProperty_agree (hr : Agrees a b r r') {ctx : Ctx} : Agree a b (superProperty r ctx) (superProperty r' ctx) := by
  unfold Parser.superProperty
  ag

theorem metaProperty_agree {ctx : Ctx} {object property : Str} : Agree a b (metaProperty ctx object property) (metaProperty ctx object property) := by
  unfold Parser.metaProperty
  ag

theorem newExpr_agree (hr : Agrees a b r r') {ctx : Ctx} : Agree a b (newExpr r ctx) (newExpr r' ctx) := by
  unfold Parser.newExpr
  ag

theorem memberExprFromTerminal_agree (hr : Agrees a b r r') {ctx : Ctx} : Agree a b (memberExprFromTerminal r ctx) (memberExprFromTerminal r' ctx) := by
  unfold Parser.memberExprFromTerminal
  ag

theorem newOrMember_agree (hr : Agrees a b r r') {ctx : Ctx} : Agree a b (newOrMember r ctx) (newOrMember r' ctx) := by
  unfold Parser.newOrMember
  ag

theorem consumeUnwrap_agree : Agree a b (consumeUnwrap) (consumeUnwrap) := by
  unfold Parser.consumeUnwrap
  ag

theorem optionalOperator_agree {α : Type} {f : TokVal → Option α} : Agree a b (optionalOperator f) (optionalOperator f) := by
  unfold Parser.optionalOperator
  ag

theorem prefixUpdateExpr_agree (hr : Agrees a b r r') {ctx : Ctx} {spanStart : Nat} {op : UpdateOp} : Agree a b (prefixUpdateExpr r ctx spanStart op) (prefixUpdateExpr r' ctx spanStart op) := by
  unfold Parser.prefixUpdateExpr
  ag

theorem postfixUpdateExpr_agree {ctx : Ctx} {argument : Expr} {op : UpdateOp} : Agree a b (postfixUpdateExpr ctx argument op) (postfixUpdateExpr ctx argument op) := by
  unfold Parser.postfixUpdateExpr
  ag

theorem updateExpr_agree (hr : Agrees a b r r') {ctx : Ctx} : Agree a b (updateExpr r ctx) (updateExpr r' ctx) := by
  unfold Parser.updateExpr
  ag

theorem unaryExprWithOperator_agree (hr : Agrees a b r r') {ctx : Ctx} {spanStart : Nat} {op : UnaryOp} : Agree a b (unaryExprWithOperator r ctx spanStart op) (unaryExprWithOperator r' ctx spanStart op) := by
  unfold Parser.unaryExprWithOperator
  ag

theorem awaitExpr_agree (hr : Agrees a b r r') {ctx : Ctx} : Agree a b (awaitExpr r ctx) (awaitExpr r' ctx) := by
  unfold Parser.awaitExpr
  ag

theorem awaitOrUpdateExpr_agree (hr : Agrees a b r r') {ctx : Ctx} : Agree a b (awaitOrUpdateExpr r ctx) (awaitOrUpdateExpr r' ctx) := by
  unfold Parser.awaitOrUpdateExpr
  ag

theorem unary_agree (hr : Agrees a b r r') {ctx : Ctx} : Agree a b (unary r ctx) (unary r' ctx) := by
  unfold Parser.unary
  ag

theorem recursiveBinaryExpr_agree (hr : Agrees a b r r') {α : Type} {next next' : P Expr} (hn : Agree a b next next') {mapOp : TokVal → Option α}
    {create : Span → Expr → Expr → α → Expr} : Agree a b (recursiveBinaryExpr r next mapOp create) (recursiveBinaryExpr r' next' mapOp create) := by
  unfold recursiveBinaryExpr
  repeat' (first | exact hn | ag_step)

theorem binaryExpr_agree (hr : Agrees a b r r') {next next' : P Expr} (hn : Agree a b next next') {mapOp : TokVal → Option BinaryOp} :
    Agree a b (binaryExpr r next mapOp) (binaryExpr r' next' mapOp) := by
  unfold binaryExpr
  exact recursiveBinaryExpr_agree hr hn

theorem logicalExpr_agree (hr : Agrees a b r r') {next next' : P Expr} (hn : Agree a b next next') {mapOp : TokVal → Option LogicalOp} :
    Agree a b (logicalExpr r next mapOp) (logicalExpr r' next' mapOp) := by
  unfold logicalExpr
  exact recursiveBinaryExpr_agree hr hn

theorem exponentiationExpr_agree (hr : Agrees a b r r') {ctx : Ctx} : Agree a b (exponentiationExpr r ctx) (exponentiationExpr r' ctx) := by
  unfold Parser.exponentiationExpr
  exact binaryExpr_agree hr (hr.unary _)

theorem multiplicativeExpr_agree (hr : Agrees a b r r') {ctx : Ctx} : Agree a b (multiplicativeExpr r ctx) (multiplicativeExpr r' ctx) := by
  unfold Parser.multiplicativeExpr
  exact binaryExpr_agree hr (exponentiationExpr_agree hr)

theorem additiveExpr_agree (hr : Agrees a b r r') {ctx : Ctx} : Agree a b (additiveExpr r ctx) (additiveExpr r' ctx) := by
  unfold Parser.additiveExpr
  exact binaryExpr_agree hr (multiplicativeExpr_agree hr)

theorem shiftExpr_agree (hr : Agrees a b r r') {ctx : Ctx} : Agree a b (shiftExpr r ctx) (shiftExpr r' ctx) := by
  unfold Parser.shiftExpr
  exact binaryExpr_agree hr (additiveExpr_agree hr)

theorem relationalExpr_agree (hr : Agrees a b r r') {ctx : Ctx} : Agree a b (relationalExpr r ctx) (relationalExpr r' ctx) := by
  unfold Parser.relationalExpr
  exact binaryExpr_agree hr (shiftExpr_agree hr)

theorem equalityExpr_agree (hr : Agrees a b r r') {ctx : Ctx} : Agree a b (equalityExpr r ctx) (equalityExpr r' ctx) := by
  unfold Parser.equalityExpr
  exact binaryExpr_agree hr (relationalExpr_agree hr)

theorem bitwiseAndExpr_agree (hr : Agrees a b r r') {ctx : Ctx} : Agree a b (bitwiseAndExpr r ctx) (bitwiseAndExpr r' ctx) := by
  unfold Parser.bitwiseAndExpr
  exact binaryExpr_agree hr (equalityExpr_agree hr)

theorem bitwiseXorExpr_agree (hr : Agrees a b r r') {ctx : Ctx} : Agree a b (bitwiseXorExpr r ctx) (bitwiseXorExpr r' ctx) := by
  unfold Parser.bitwiseXorExpr
  exact binaryExpr_agree hr (bitwiseAndExpr_agree hr)

theorem bitwiseOrExpr_agree (hr : Agrees a b r r') {ctx : Ctx} : Agree a b (bitwiseOrExpr r ctx) (bitwiseOrExpr r' ctx) := by
  unfold Parser.bitwiseOrExpr
  exact binaryExpr_agree hr (bitwiseXorExpr_agree hr)

theorem logicalAndExpr_agree (hr : Agrees a b r r') {ctx : Ctx} : Agree a b (logicalAndExpr r ctx) (logicalAndExpr r' ctx) := by
  unfold Parser.logicalAndExpr
  exact logicalExpr_agree hr (bitwiseOrExpr_agree hr)

theorem logicalOrExpr_agree (hr : Agrees a b r r') {ctx : Ctx} : Agree a b (logicalOrExpr r ctx) (logicalOrExpr r' ctx) := by
  unfold Parser.logicalOrExpr
  exact logicalExpr_agree hr (logicalAndExpr_agree hr)

theorem shortCircuitExpr_agree (hr : Agrees a b r r') {ctx : Ctx} : Agree a b (shortCircuitExpr r ctx) (shortCircuitExpr r' ctx) := by
  unfold Parser.shortCircuitExpr
  exact logicalExpr_agree hr (logicalOrExpr_agree hr)

theorem conditionalExpr_agree (hr : Agrees a b r r') {ctx : Ctx} : Agree a b (conditionalExpr r ctx) (conditionalExpr r' ctx) := by
  unfold Parser.conditionalExpr
  ag

theorem conditionalExprOrArrowFunction_agree (hr : Agrees a b r r') {ctx : Ctx} : Agree a b (conditionalExprOrArrowFunction r ctx) (conditionalExprOrArrowFunction r' ctx) := by
  unfold Parser.conditionalExprOrArrowFunction
  ag

theorem exprEnded_agree : Agree a b (exprEnded) (exprEnded) := by
  unfold Parser.exprEnded
  ag

theorem yieldExpr_agree (hr : Agrees a b r r') {ctx : Ctx} : Agree a b (yieldExpr r ctx) (yieldExpr r' ctx) := by
  unfold Parser.yieldExpr
  ag

theorem assignmentExprAsync_agree (hr : Agrees a b r r') {ctx : Ctx} : Agree a b (assignmentExprAsync r ctx) (assignmentExprAsync r' ctx) := by
  unfold Parser.assignmentExprAsync
  ag

theorem assignment_agree (hr : Agrees a b r r') {ctx : Ctx} {spanStart : Nat} {left : PatternOrExpr} {op : AssignOp} : Agree a b (assignment r ctx spanStart left op) (assignment r' ctx spanStart left op) := by
  unfold Parser.assignment
  ag

theorem normalizeLeftSideAssignment_agree (hr : Agrees a b r r') {ctx : Ctx} {startToken : Token} {e : Expr} : Agree a b (normalizeLeftSideAssignment r ctx startToken e) (normalizeLeftSideAssignment r' ctx startToken e) := by
  unfold Parser.normalizeLeftSideAssignment
  ag

theorem assignmentAfterExpr_agree (hr : Agrees a b r r') {ctx : Ctx} {spanStart : Nat} {startToken : Token} {e : Expr} : Agree a b (assignmentAfterExpr r ctx spanStart startToken e) (assignmentAfterExpr r' ctx spanStart startToken e) := by
  unfold Parser.assignmentAfterExpr
  ag

theorem assignmentAfterPattern_agree (hr : Agrees a b r r') {ctx : Ctx} {spanStart : Nat} {p : AssignPattern} {err : PErr} : Agree a b (assignmentAfterPattern r ctx spanStart p err) (assignmentAfterPattern r' ctx spanStart p err) := by
  unfold Parser.assignmentAfterPattern
  ag

theorem assignmentExprGeneral_agree (hr : Agrees a b r r') {ctx : Ctx} : Agree a b (assignmentExprGeneral r ctx) (assignmentExprGeneral r' ctx) := by
  unfold Parser.assignmentExprGeneral
  ag

theorem assignExpr_agree (hr : Agrees a b r r') {ctx : Ctx} : Agree a b (assignExpr r ctx) (assignExpr r' ctx) := by
  unfold Parser.assignExpr
  ag

theorem destructuringAssignmentTarget_agree (hr : Agrees a b r r') {ctx : Ctx} : Agree a b (destructuringAssignmentTarget r ctx) (destructuringAssignmentTarget r' ctx) := by
  unfold Parser.destructuringAssignmentTarget
  ag

theorem assignmentElement_agree (hr : Agrees a b r r') {ctx : Ctx} : Agree a b (assignmentElement r ctx) (assignmentElement r' ctx) := by
  unfold Parser.assignmentElement
  ag

theorem assignmentRest_agree (hr : Agrees a b r r') {ctx : Ctx} {close : Punct} : Agree a b (assignmentRest r ctx close) (assignmentRest r' ctx close) := by
  unfold Parser.assignmentRest
  ag

theorem arrayAssignmentPattern_agree (hr : Agrees a b r r') {ctx : Ctx} : Agree a b (arrayAssignmentPattern r ctx) (arrayAssignmentPattern r' ctx) := by
  unfold Parser.arrayAssignmentPattern
  ag

theorem namedAssignmentProp_agree (hr : Agrees a b r r') {ctx : Ctx} : Agree a b (namedAssignmentProp r ctx) (namedAssignmentProp r' ctx) := by
  unfold Parser.namedAssignmentProp
  ag

theorem singleNameAssignmentProp_agree (hr : Agrees a b r r') {ctx : Ctx} : Agree a b (singleNameAssignmentProp r ctx) (singleNameAssignmentProp r' ctx) := by
  unfold Parser.singleNameAssignmentProp
  ag

theorem objectAssignmentPattern_agree (hr : Agrees a b r r') {ctx : Ctx} : Agree a b (objectAssignmentPattern r ctx) (objectAssignmentPattern r' ctx) := by
  unfold Parser.objectAssignmentPattern
  ag

theorem assignPattern_agree (hr : Agrees a b r r') {ctx : Ctx} : Agree a b (assignPattern r ctx) (assignPattern r' ctx) := by
  unfold Parser.assignPattern
  ag

theorem peekMatchesLexicalBinding_agree {ctx : Ctx} : Agree a b (peekMatchesLexicalBinding ctx) (peekMatchesLexicalBinding ctx) := by
  unfold Parser.peekMatchesLexicalBinding
  ag

theorem variableDeclaration_agree (hr : Agrees a b r r') {ctx : Ctx} : Agree a b (variableDeclaration r ctx) (variableDeclaration r' ctx) := by
  unfold Parser.variableDeclaration
  ag

theorem variableDeclarations_agree (hr : Agrees a b r r') {ctx : Ctx} : Agree a b (variableDeclarations r ctx) (variableDeclarations r' ctx) := by
  unfold Parser.variableDeclarations
  ag

theorem variableStmt_agree (hr : Agrees a b r r') {ctx : Ctx} {kind : VarKind} : Agree a b (variableStmt r ctx kind) (variableStmt r' ctx kind) := by
  unfold Parser.variableStmt
  ag

theorem block_agree (hr : Agrees a b r r') {ctx : Ctx} : Agree a b (block r ctx) (block r' ctx) := by
  unfold Parser.block
  ag

theorem isExprStmt_agree : Agree a b (isExprStmt) (isExprStmt) := by
  unfold Parser.isExprStmt
  ag

theorem exprStmt_agree (hr : Agrees a b r r') {ctx : Ctx} : Agree a b (exprStmt r ctx) (exprStmt r' ctx) := by
  unfold Parser.exprStmt
  ag

theorem labeledStmt_agree (hr : Agrees a b r r') {ctx : Ctx} : Agree a b (labeledStmt r ctx) (labeledStmt r' ctx) := by
  unfold Parser.labeledStmt
  ag

theorem emptyStmt_agree : Agree a b (emptyStmt) (emptyStmt) := by
  unfold Parser.emptyStmt
  ag

theorem breakStmt_agree {ctx : Ctx} : Agree a b (breakStmt ctx) (breakStmt ctx) := by
  unfold Parser.breakStmt
  ag

theorem continueStmt_agree {ctx : Ctx} : Agree a b (continueStmt ctx) (continueStmt ctx) := by
  unfold Parser.continueStmt
  ag

theorem returnStmt_agree (hr : Agrees a b r r') {ctx : Ctx} : Agree a b (returnStmt r ctx) (returnStmt r' ctx) := by
  unfold Parser.returnStmt
  ag

theorem throwCheck_agree {throwSpan : Span} : Agree a b (throwCheck throwSpan) (throwCheck throwSpan) := by
  unfold Parser.throwCheck
  ag

theorem throwStmt_agree (hr : Agrees a b r r') {ctx : Ctx} : Agree a b (throwStmt r ctx) (throwStmt r' ctx) := by
  unfold Parser.throwStmt
  ag

theorem debuggerStmt_agree : Agree a b (debuggerStmt) (debuggerStmt) := by
  unfold Parser.debuggerStmt
  ag

theorem ifStmt_agree (hr : Agrees a b r r') {ctx : Ctx} : Agree a b (ifStmt r ctx) (ifStmt r' ctx) := by
  unfold Parser.ifStmt
  ag

theorem withStmt_agree (hr : Agrees a b r r') {ctx : Ctx} : Agree a b (withStmt r ctx) (withStmt r' ctx) := by
  unfold Parser.withStmt
  ag

theorem catchParameter_agree (hr : Agrees a b r r') {ctx : Ctx} : Agree a b (catchParameter r ctx) (catchParameter r' ctx) := by
  unfold Parser.catchParameter
  ag

theorem catchClause_agree (hr : Agrees a b r r') {ctx : Ctx} : Agree a b (catchClause r ctx) (catchClause r' ctx) := by
  unfold Parser.catchClause
  ag

theorem tryStmt_agree (hr : Agrees a b r r') {ctx : Ctx} : Agree a b (tryStmt r ctx) (tryStmt r' ctx) := by
  unfold Parser.tryStmt
  ag

theorem switchCaseStmtList_agree (hr : Agrees a b r r') {ctx : Ctx} : Agree a b (switchCaseStmtList r ctx) (switchCaseStmtList r' ctx) := by
  unfold Parser.switchCaseStmtList
  ag

theorem caseHead_agree (hr : Agrees a b r r') {ctx : Ctx} : Agree a b (caseHead r ctx) (caseHead r' ctx) := by
  unfold Parser.caseHead
  ag

theorem caseClause_agree (hr : Agrees a b r r') {ctx : Ctx} : Agree a b (caseClause r ctx) (caseClause r' ctx) := by
  unfold Parser.caseClause
  ag

theorem caseBlock_agree (hr : Agrees a b r r') {ctx : Ctx} : Agree a b (caseBlock r ctx) (caseBlock r' ctx) := by
  unfold Parser.caseBlock
  ag

theorem switchStmt_agree (hr : Agrees a b r r') {ctx : Ctx} : Agree a b (switchStmt r ctx) (switchStmt r' ctx) := by
  unfold Parser.switchStmt
  ag

theorem doWhileStmt_agree (hr : Agrees a b r r') {ctx : Ctx} : Agree a b (doWhileStmt r ctx) (doWhileStmt r' ctx) := by
  unfold Parser.doWhileStmt
  ag

theorem whileStmt_agree (hr : Agrees a b r r') {ctx : Ctx} : Agree a b (whileStmt r ctx) (whileStmt r' ctx) := by
  unfold Parser.whileStmt
  ag

theorem optionalVariableKind_agree {ctx : Ctx} : Agree a b (optionalVariableKind ctx) (optionalVariableKind ctx) := by
  unfold Parser.optionalVariableKind
  ag

theorem forInitVariableDeclaration_agree (hr : Agrees a b r r') {ctx : Ctx} {spanStart : Nat} {kind : VarKind} : Agree a b (forInitVariableDeclaration r ctx spanStart kind) (forInitVariableDeclaration r' ctx spanStart kind) := by
  unfold Parser.forInitVariableDeclaration
  ag

theorem forInit_agree (hr : Agrees a b r r') {ctx : Ctx} : Agree a b (forInit r ctx) (forInit r' ctx) := by
  unfold Parser.forInit
  ag

theorem optionalForInit_agree (hr : Agrees a b r r') {ctx : Ctx} : Agree a b (optionalForInit r ctx) (optionalForInit r' ctx) := by
  unfold Parser.optionalForInit
  ag

theorem forRest_agree (hr : Agrees a b r r') {ctx : Ctx} {spanStart : Nat} {init : Option ForInit} : Agree a b (forRest r ctx spanStart init) (forRest r' ctx spanStart init) := by
  unfold Parser.forRest
  ag

theorem tryFor_agree (hr : Agrees a b r r') {ctx : Ctx} {spanStart : Nat} {asynchronous : Bool} : Agree a b (tryFor r ctx spanStart asynchronous) (tryFor r' ctx spanStart asynchronous) := by
  unfold Parser.tryFor
  ag

theorem forDeclaration_agree (hr : Agrees a b r r') {ctx : Ctx} : Agree a b (forDeclaration r ctx) (forDeclaration r' ctx) := by
  unfold Parser.forDeclaration
  ag

theorem forIn_agree (hr : Agrees a b r r') {ctx : Ctx} {spanStart : Nat} {left : ForDecl} : Agree a b (forIn r ctx spanStart left) (forIn r' ctx spanStart left) := by
  unfold Parser.forIn
  ag

theorem forOf_agree (hr : Agrees a b r r') {ctx : Ctx} {spanStart : Nat} {left : ForDecl} {asynchronous : Bool} : Agree a b (forOf r ctx spanStart left asynchronous) (forOf r' ctx spanStart left asynchronous) := by
  unfold Parser.forOf
  ag

theorem forInOf_agree (hr : Agrees a b r r') {ctx : Ctx} {spanStart : Nat} {asynchronous : Bool} : Agree a b (forInOf r ctx spanStart asynchronous) (forInOf r' ctx spanStart asynchronous) := by
  unfold Parser.forInOf
  ag

theorem forAfterParen_agree (hr : Agrees a b r r') {ctx : Ctx} {spanStart : Nat} {asynchronous : Bool} : Agree a b (forAfterParen r ctx spanStart asynchronous) (forAfterParen r' ctx spanStart asynchronous) := by
  unfold Parser.forAfterParen
  ag

theorem forStmt_agree (hr : Agrees a b r r') {ctx : Ctx} : Agree a b (forStmt r ctx) (forStmt r' ctx) := by
  unfold Parser.forStmt
  ag

theorem stmt_agree (hr : Agrees a b r r') {ctx : Ctx} : Agree a b (stmt r ctx) (stmt r' ctx) := by
  unfold Parser.stmt
  ag

theorem moduleSpecifier_agree : Agree a b (moduleSpecifier) (moduleSpecifier) := by
  unfold Parser.moduleSpecifier
  ag

theorem namespaceImport_agree {ctx : Ctx} : Agree a b (namespaceImport ctx) (namespaceImport ctx) := by
  unfold Parser.namespaceImport
  ag

theorem importSpecifier_agree {ctx : Ctx} : Agree a b (importSpecifier ctx) (importSpecifier ctx) := by
  unfold Parser.importSpecifier
  ag

theorem namedImports_agree (hr : Agrees a b r r') {ctx : Ctx} : Agree a b (namedImports r ctx) (namedImports r' ctx) := by
  unfold Parser.namedImports
  ag

theorem exportSpecifier_agree : Agree a b (exportSpecifier) (exportSpecifier) := by
  unfold Parser.exportSpecifier
  ag

theorem namedExports_agree (hr : Agrees a b r r') : Agree a b (namedExports r) (namedExports r') := by
  unfold Parser.namedExports
  ag

theorem importClauseRest_agree (hr : Agrees a b r r') {ctx : Ctx} : Agree a b (importClauseRest r ctx) (importClauseRest r' ctx) := by
  unfold Parser.importClauseRest
  ag

theorem importClause_agree (hr : Agrees a b r r') {ctx : Ctx} : Agree a b (importClause r ctx) (importClause r' ctx) := by
  unfold Parser.importClause
  ag

theorem moduleImport_agree {spanStart : Nat} : Agree a b (moduleImport spanStart) (moduleImport spanStart) := by
  unfold Parser.moduleImport
  ag

theorem importDeclaration_agree (hr : Agrees a b r r') {ctx : Ctx} : Agree a b (importDeclaration r ctx) (importDeclaration r' ctx) := by
  unfold Parser.importDeclaration
  ag

theorem namedExport_agree (hr : Agrees a b r r') {spanStart : Nat} : Agree a b (namedExport r spanStart) (namedExport r' spanStart) := by
  unfold Parser.namedExport
  ag

theorem namespaceExport_agree {spanStart : Nat} : Agree a b (namespaceExport spanStart) (namespaceExport spanStart) := by
  unfold Parser.namespaceExport
  ag

theorem requiredDeclaration_agree (hr : Agrees a b r r') {ctx : Ctx} : Agree a b (requiredDeclaration r ctx) (requiredDeclaration r' ctx) := by
  unfold Parser.requiredDeclaration
  ag

theorem declarationExport_agree (hr : Agrees a b r r') {ctx : Ctx} {spanStart : Nat} : Agree a b (declarationExport r ctx spanStart) (declarationExport r' ctx spanStart) := by
  unfold Parser.declarationExport
  ag

theorem declarationDefaultExport_agree (hr : Agrees a b r r') {ctx : Ctx} {spanStart : Nat} : Agree a b (declarationDefaultExport r ctx spanStart) (declarationDefaultExport r' ctx spanStart) := by
  unfold Parser.declarationDefaultExport
  ag

theorem variableStatementExport_agree (hr : Agrees a b r r') {ctx : Ctx} {spanStart : Nat} : Agree a b (variableStatementExport r ctx spanStart) (variableStatementExport r' ctx spanStart) := by
  unfold Parser.variableStatementExport
  ag

theorem defaultExport_agree (hr : Agrees a b r r') {ctx : Ctx} {spanStart : Nat} : Agree a b (defaultExport r ctx spanStart) (defaultExport r' ctx spanStart) := by
  unfold Parser.defaultExport
  ag

theorem exportDeclaration_agree (hr : Agrees a b r r') {ctx : Ctx} : Agree a b (exportDeclaration r ctx) (exportDeclaration r' ctx) := by
  unfold Parser.exportDeclaration
  ag

theorem declaration_agree (hr : Agrees a b r r') {ctx : Ctx} : Agree a b (declaration r ctx) (declaration r' ctx) := by
  intro s s' h
  unfold Parser.declaration
  cases hc : s.cur with
  | error e =>
    have e1 : current s = .err (PErr.lexer e) s := by unfold current; rw [hc]
    have e2 : current s' = .err (PErr.lexer e) s' := by unfold current; rw [h.cur, hc]
    rw [M.seq_err e1, M.seq_err e2]
    exact ⟨rfl, h⟩
  | ok t =>
    have e1 : current s = .ok t s := by unfold current; rw [hc]
    have e2 : current s' = .ok t s' := by unfold current; rw [h.cur, hc]
    rw [M.seq_ok e1, M.seq_ok e2]
    have ht := h.curUsual t hc
    refine (?_ : Agree a b _ _) s s' h
    simp only [if_neg ht.1, if_neg ht.2]
    ag

theorem declOrStmt_agree (hr : Agrees a b r r') {ctx : Ctx} : Agree a b (declOrStmt r ctx) (declOrStmt r' ctx) := by
  unfold Parser.declOrStmt
  ag

theorem allStmts_agree (hr : Agrees a b r r') {ctx : Ctx} : Agree a b (allStmts r ctx) (allStmts r' ctx) := by
  unfold Parser.allStmts
  ag

theorem mkRec_agree (n : Nat) : Agrees a b (mkRec n) (mkRec n) := by
  induction n with
  | zero =>
    exact ⟨rfl, fun _ => Agree.oof, fun _ => Agree.oof, fun _ => Agree.oof, fun _ => Agree.oof, fun _ => Agree.oof, fun _ => Agree.oof,
      fun _ => Agree.oof, fun _ => Agree.oof⟩
  | succ n ih =>
    rw [mkRec]
    generalize mkRec n = r at ih ⊢
    exact ⟨rfl, fun _ => assignExpr_agree ih, fun _ => unary_agree ih, fun _ => newOrMember_agree ih, fun _ => bindingPattern_agree ih,
      fun _ => assignPattern_agree ih, fun _ => stmt_agree ih, fun _ => declOrStmt_agree ih, fun _ => declaration_agree ih⟩

theorem start_agree {src : Str} (h : PlainSource src) (a b : SourceType) :
    ResR (StR a b) (fun _ => True) (start src a) (start src b) := by
  unfold start
  have h0 : StR a b ⟨{ LexerS.new src with st := { LexState.default with html := a = .script } }, .error LexErr.endOfStream,
      .error LexErr.endOfStream, 0, a⟩ ⟨{ LexerS.new src with st := { LexState.default with html := b = .script } }, .error LexErr.endOfStream,
      .error LexErr.endOfStream, 0, b⟩ :=
    ⟨⟨rfl, rfl, rfl, rfl, h, h, Nat.le_refl _⟩, rfl, rfl, rfl, rfl, rfl, fun t ht => (nomatch ht), fun t ht => (nomatch ht)⟩
  refine liftPull_agree (fun x hx => liftPull_agree fun y hy => ?_) _ _ h0
  exact fun s s' h => ⟨rfl, trivial, h.lx, rfl, rfl, h.pos, h.fst, h.snd, hx, hy⟩

/-- Parsing a plain source as sources of two kinds ends alike. -/
theorem parse_agree {α : Type} {m : Rec → P α} (hm : ∀ {r r'}, Agrees a b r r' → Agree a b (m r) (m r')) {src : Str} (h : PlainSource src) :
    ResR (StR a b) (fun _ => True) (parse m src a) (parse m src b) := by
  unfold parse
  have := start_agree h a b
  revert this
  cases start src a <;> cases start src b <;> intro this <;> try exact this.elim
  · exact hm (mkRec_agree _) _ _ this.2.2
  · exact this
  · exact this
  · trivial

/-- The parts of a program: its span, directives and statements. -/
def parts (r : Rec) : P (Span × List LitString × List Stmt) := do
  let spanStart ← position
  let directives ← directivePrologue r {}
  let body ← allStmts r { strict := containsStrict directives }
  let span ← spanFrom spanStart
  pure (span, directives, body)

theorem parts_agree (hr : Agrees a b r r') : Agree a b (parts r) (parts r') := by
  unfold parts
  ag

theorem program_parts (r : Rec) (s : PState) : program r s = match parts r s with
    | .ok (x, y, z) t => .ok ⟨t.sourceType, x, y, z⟩ t
    | .err e t => .err e t
    | .panic w => .panic w
    | .oof => .oof := by
  unfold program parts
  simp only [M.bind_def, M.bind]
  cases position s with
  | ok n s =>
    dsimp only
    cases directivePrologue r {} s with
    | ok ds s =>
      dsimp only
      cases allStmts r { strict := containsStrict ds } s with
      | ok body s =>
        dsimp only
        cases spanFrom n s <;> rfl
      | _ => rfl
    | _ => rfl
  | _ => rfl

/-- What two runs for a whole program have in common: programs that differ in the kind of the source only, or the same error. -/
def SamePrograms (a b : SourceType) : Res PState PErr Program → Res PState PErr Program → Prop
  | .ok p _, .ok q _ => p.sourceType = a ∧ q = { p with sourceType := b }
  | .err e _, .err e' _ => e = e'
  | .panic w, .panic w' => w = w'
  | .oof, .oof => True
  | _, _ => False

theorem program_same {src : Str} (h : PlainSource src) (a b : SourceType) : SamePrograms a b (parse program src a) (parse program src b) := by
  have key := parse_agree (a := a) (b := b) (m := parts) parts_agree h
  have e : ∀ c, parse program src c = match parse parts src c with
      | .ok (x, y, z) t => .ok ⟨t.sourceType, x, y, z⟩ t
      | .err e t => .err e t
      | .panic w => .panic w
      | .oof => .oof := by
    intro c
    unfold parse
    cases start src c with
    | ok u s => exact program_parts _ _
    | _ => rfl
  rw [e, e]
  revert key
  cases parse parts src a <;> cases parse parts src b <;> intro key <;> try exact key.elim
  · obtain ⟨rfl, -, h⟩ := key
    exact ⟨h.fst, by rw [h.snd]⟩
  · exact key.1
  · exact key
  · trivial

end

end Fajt.Kind
