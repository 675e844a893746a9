import Verif.Proofs.TablesLex
import Verif.Model.Parser
import Lean.Elab.Tactic.ElabTerm
/-!
# The tables of identifier characters: parser

Two runs of the parser on the same source, with two tables that agree on it (`SameChars`), do the same.  One theorem per function of
`Verif.Model.Parser`; written by `tools/gentables2.py`.
-/
namespace Fajt.Tables
open Lean Elab Tactic Meta Fajt.Spec
set_option linter.unusedSectionVars false
set_option linter.unusedVariables false

/-- The tables agree on the source, and on what is left of it. -/
structure LexG (i j : UnicodeID) (l : LexerS) : Prop where
  src : SameChars i j l.data
  here : SameChars i j l.cursor.rest

/-- The two runs end alike, in a state that satisfies `G`. -/
def ResS {σ ε α : Type} (G : σ → Prop) : Res σ ε α → Res σ ε α → Prop
  | .ok x t, .ok y t' => x = y ∧ t = t' ∧ G t
  | .err e t, .err e' t' => e = e' ∧ t = t' ∧ G t
  | .panic w, .panic w' => w = w'
  | .oof, .oof => True
  | _, _ => False

/-- The two computations do the same, from states that satisfy `G`. -/
def SameOn {σ ε α : Type} (G : σ → Prop) (m m' : M σ ε α) : Prop := ∀ s, G s → ResS G (m s) (m' s)

section
variable {i j : UnicodeID} {α β : Type}

theorem next_agree : SameOn (LexG i j) (letI := i; LexerS.next) (letI := j; LexerS.next) := by
  intro l h
  unfold LexerS.next
  have := read_tw (i := i) (j := j) (st := l.st) l.cursor h.here
  revert this
  cases @Lexer.read i l.st l.cursor <;> cases @Lexer.read j l.st l.cursor <;> intro this <;> try exact this.elim
  · obtain ⟨rfl, rfl, h2⟩ := this; exact ⟨rfl, rfl, h.src, h2⟩
  · obtain ⟨rfl, rfl, h2⟩ := this; exact ⟨rfl, rfl, h.src, h2⟩
  · exact this
  · trivial

theorem attempt_same {σ ε : Type} {G : σ → Prop} {γ : Type} {m m' : M σ ε γ} {f f' : γ → M σ ε β} {g g' : ε → M σ ε β} (h1 : SameOn G m m')
    (h2 : ∀ x, SameOn G (f x) (f' x)) (h3 : ∀ e, SameOn G (g e) (g' e)) : SameOn G (M.attempt m f g) (M.attempt m' f' g') := by
  intro s hs
  unfold M.attempt
  have := h1 s hs
  revert this
  cases m s <;> cases m' s <;> intro this <;> try exact this.elim
  · obtain ⟨rfl, rfl, h⟩ := this; exact h2 _ _ h
  · obtain ⟨rfl, rfl, h⟩ := this; exact h3 _ _ h
  · exact this
  · trivial

theorem bind_same {σ ε : Type} {G : σ → Prop} {γ : Type} {m m' : M σ ε γ} {f f' : γ → M σ ε β} (h1 : SameOn G m m')
    (h2 : ∀ x, SameOn G (f x) (f' x)) : SameOn G (m >>= f) (m' >>= f') := by
  intro s hs
  show ResS _ (M.bind m f s) (M.bind m' f' s)
  unfold M.bind
  have := h1 s hs
  revert this
  cases m s <;> cases m' s <;> intro this <;> try exact this.elim
  · obtain ⟨rfl, rfl, h⟩ := this; exact h2 _ _ h
  · exact this
  · exact this
  · trivial

theorem pull_agree : SameOn (LexG i j) (letI := i; LexerS.pull) (letI := j; LexerS.pull) :=
  attempt_same next_agree (fun _ _ h => ⟨rfl, rfl, h⟩) (fun _ _ h => ⟨rfl, rfl, h⟩)

theorem readWithState_agree (st : LexState) : SameOn (LexG i j) (letI := i; LexerS.readWithState st) (letI := j; LexerS.readWithState st) := by
  intro l h
  unfold LexerS.readWithState
  have := next_agree (i := i) (j := j) { l with st := st } ⟨h.src, h.here⟩
  revert this
  cases @LexerS.next i { l with st := st } <;> cases @LexerS.next j { l with st := st } <;> intro this <;> try exact this.elim
  · obtain ⟨rfl, rfl, h2⟩ := this; exact ⟨rfl, rfl, h2.src, h2.here⟩
  · obtain ⟨rfl, rfl, h2⟩ := this; exact ⟨rfl, rfl, h2.src, h2.here⟩
  · exact this
  · trivial

theorem dropBytes_suffix {u v : Str} {n : Nat} (h : LexerS.dropBytes u n = some v) : v <:+: u := by
  induction u generalizing n with
  | nil => cases n <;> cases h; exact List.infix_rfl
  | cons c u ih =>
    cases n with
    | zero => cases h; exact List.infix_rfl
    | succ n =>
      unfold LexerS.dropBytes at h
      split at h
      · exact (ih h).trans ⟨[c], [], by simp⟩
      · cases h

theorem rewindBefore_same (t : Token) {l : LexerS} (h : LexG i j l) : ∀ m, l.rewindBefore t = some m → LexG i j m := by
  intro m
  unfold LexerS.rewindBefore
  cases hd : LexerS.dropBytes l.data t.span.start with
  | none => intro hm; cases hm
  | some v => intro hm; cases hm; exact ⟨h.src, h.src.mono (dropBytes_suffix hd)⟩

/-- The two computations of the parser do the same. -/
def Agree (i j : UnicodeID) {α : Type} (m m' : P α) : Prop := SameOn (fun s : PState => LexG i j s.lx) m m'

theorem Agree.pure (x : α) : Agree i j (Pure.pure x) (Pure.pure x) := fun _ h => ⟨rfl, rfl, h⟩
theorem Agree.throw (e : PErr) : Agree i j (M.throw e : P α) (M.throw e) := fun _ h => ⟨rfl, rfl, h⟩
theorem Agree.panic (w : Str) : Agree i j (M.panic w : P α) (M.panic w) := fun _ _ => rfl
theorem Agree.oof : Agree i j (M.oof : P α) M.oof := fun _ _ => trivial
theorem Agree.ofExcept (x : Except PErr α) : Agree i j (M.ofExcept x : P α) (M.ofExcept x) := by
  cases x
  · exact Agree.throw _
  · exact Agree.pure _

theorem Agree.gets (f : PState → α) : Agree i j (M.gets f) (M.gets f) := fun _ hs => ⟨rfl, rfl, hs⟩

theorem Agree.bind {m m' : P α} {f f' : α → P β} (h1 : Agree i j m m') (h2 : ∀ x, Agree i j (f x) (f' x)) :
    Agree i j (m >>= f) (m' >>= f') := bind_same h1 h2

theorem Agree.attempt {m m' : P α} {f f' : α → P β} {g g' : PErr → P β} (h1 : Agree i j m m') (h2 : ∀ x, Agree i j (f x) (f' x))
    (h3 : ∀ e, Agree i j (g e) (g' e)) : Agree i j (M.attempt m f g) (M.attempt m' f' g') := attempt_same h1 h2 h3

theorem Agree.ite {p : Prop} [Decidable p] {x x' y y' : P α} (h1 : Agree i j x x') (h2 : Agree i j y y') :
    Agree i j (if p then x else y) (if p then x' else y') := by split <;> assumption

theorem Agree.loop {f f' : β → P (β ⊕ α)} (h : ∀ x, Agree i j (f x) (f' x)) {n n' : Nat} (hn : n' = n) {x : β} :
    Agree i j (Fajt.loop f n x) (Fajt.loop f' n' x) := by
  subst hn
  induction n' generalizing x with
  | zero => exact Agree.oof
  | succ n ih =>
    refine Agree.bind (h x) fun y => ?_
    cases y
    · exact ih
    · exact Agree.pure _

theorem Agree.thenTry {c : Bool} {m m' : P α} (h : Agree i j m m') : Agree i j (Parser.thenTry c m) (Parser.thenTry c m') := by
  unfold Parser.thenTry
  exact Agree.ite (Agree.bind h fun _ => Agree.pure _) (Agree.pure _)
end

/-- The entry points of the two records do the same. -/
structure Agrees (i j : UnicodeID) (r r' : Rec) : Prop where
  fuel : r'.fuel = r.fuel
  assignExpr : ∀ ctx, Agree i j (r.assignExpr ctx) (r'.assignExpr ctx)
  unary : ∀ ctx, Agree i j (r.unary ctx) (r'.unary ctx)
  newOrMember : ∀ ctx, Agree i j (r.newOrMember ctx) (r'.newOrMember ctx)
  bindingPattern : ∀ ctx, Agree i j (r.bindingPattern ctx) (r'.bindingPattern ctx)
  assignPattern : ∀ ctx, Agree i j (r.assignPattern ctx) (r'.assignPattern ctx)
  stmt : ∀ ctx, Agree i j (r.stmt ctx) (r'.stmt ctx)
  declOrStmt : ∀ ctx, Agree i j (r.declOrStmt ctx) (r'.declOrStmt ctx)
  declaration : ∀ ctx, Agree i j (r.declaration ctx) (r'.declaration ctx)

/-- Use the theorem about the function at the head of the goal. -/
elab "ag_known" : tactic => withMainContext do
  let g ← getMainGoal
  let t ← whnfR (← instantiateMVars (← g.getType))
  unless t.isAppOf ``Agree do throwError "not an Agree"
  let args := t.getAppArgs
  let .const n _ := (args[args.size - 2]!.headBeta).getAppFn | throwError "no head"
  let .str p b := n | throwError "no name"
  let lem := if p == `Fajt.Rec then `Fajt.Tables.Agrees ++ Name.mkSimple b else `Fajt.Tables ++ Name.mkSimple (b ++ "_agree")
  let c ← mkConstWithFreshMVarLevels lem
  let gs ← withReducible (g.apply c)
  replaceMainGoal gs

/-- Name the result of the first of two computations. -/
elab "ag_intro" : tactic => withMainContext do
  let t ← whnfR (← instantiateMVars (← (← getMainGoal).getType))
  unless t.isForall do throwError "no quantifier"
  let (_, g) ← (← getMainGoal).intro1
  replaceMainGoal [g]

/-- One step. -/
macro "ag_step" : tactic => `(tactic| first
  | with_reducible exact Agree.pure _
  | with_reducible exact Agree.throw _
  | with_reducible exact Agree.panic _
  | with_reducible exact Agree.oof
  | with_reducible exact Agree.ofExcept _
  | with_reducible exact Agree.gets _
  | (ag_known <;> assumption)
  | ag_intro
  | with_reducible (refine Agree.bind ?_ ?_)
  | with_reducible (refine Agree.attempt ?_ ?_ ?_)
  | with_reducible (refine Agree.loop ?_ (Agrees.fuel ‹_›))
  | with_reducible (refine Agree.loop ?_ rfl)
  | with_reducible (refine Agree.thenTry ?_)
  | with_reducible (refine Agree.ite ?_ ?_)
  | split)

/-- Prove that two computations end alike. -/
macro "ag" : tactic => `(tactic| repeat' ag_step)

section
open Parser
variable {i j : UnicodeID} {r r' : Rec}

/-! ## Tokens -/

theorem current_agree : Agree i j current current := by
  intro s h
  unfold current
  cases s.cur with
  | ok t => exact ⟨rfl, rfl, h⟩
  | error e => exact ⟨rfl, rfl, h⟩

theorem currentUnwrapStart_agree : Agree i j currentUnwrapStart currentUnwrapStart := by
  intro s h
  unfold currentUnwrapStart
  cases s.cur with
  | ok t => exact ⟨rfl, rfl, h⟩
  | error e => exact rfl

theorem liftLx_agree {α : Type} {m m' : M LexerS LexErr α} (hm : SameOn (LexG i j) m m') : Agree i j (liftLx m) (liftLx m') := by
  intro s h
  unfold liftLx
  have := hm s.lx h
  revert this
  cases m s.lx <;> cases m' s.lx <;> intro hm <;> try exact hm.elim
  · obtain ⟨rfl, rfl, h2⟩ := hm; exact ⟨rfl, rfl, h2⟩
  · obtain ⟨rfl, rfl, h2⟩ := hm; exact ⟨rfl, rfl, h2⟩
  · exact hm
  · trivial

theorem setCur_agree {x : Except LexErr Token} :
    Agree i j (M.modify fun s => { s with cur := x } : P Unit) (M.modify fun s => { s with cur := x }) := fun _ h => ⟨rfl, rfl, h⟩

theorem setNxt_agree {x : Except LexErr Token} :
    Agree i j (M.modify fun s => { s with nxt := x } : P Unit) (M.modify fun s => { s with nxt := x }) := fun _ h => ⟨rfl, rfl, h⟩

theorem modify_agree {x y : Except LexErr Token} :
    Agree i j (M.modify fun s => { s with cur := x, nxt := y } : P Unit) (M.modify fun s => { s with cur := x, nxt := y }) :=
  fun _ h => ⟨rfl, rfl, h⟩

theorem consume_agree : Agree i j (letI := i; consume) (letI := j; consume) := by
  unfold consume
  refine Agree.bind (liftLx_agree pull_agree) fun x => ?_
  intro s h
  simp only [M.bind_def, M.bind, M.get, M.set]
  cases s.cur with
  | ok t => exact ⟨rfl, rfl, h⟩
  | error e => exact ⟨rfl, rfl, h⟩

theorem rewindTo_agree {t : Token} : Agree i j (letI := i; rewindTo t) (letI := j; rewindTo t) := by
  intro s h
  unfold rewindTo
  simp only [M.bind_def, M.bind, M.get]
  have hm := rewindBefore_same t h
  cases hr : s.lx.rewindBefore t with
  | none => exact rfl
  | some m =>
    exact Agree.bind (liftLx_agree pull_agree) (fun x => Agree.bind setCur_agree fun _ => Agree.bind (liftLx_agree pull_agree) fun y => setNxt_agree)
      { s with lx := m } (hm m hr)

theorem rereadWithState_agree {st : LexState} : Agree i j (letI := i; rereadWithState st) (letI := j; rereadWithState st) := by
  intro s h
  unfold rereadWithState
  simp only [M.bind_def, M.bind, M.get]
  cases hc : s.cur with
  | error e => exact ⟨rfl, rfl, h⟩
  | ok t =>
    dsimp only
    have hm := rewindBefore_same t h
    cases hr : s.lx.rewindBefore t with
    | none => exact rfl
    | some m =>
      have h5 : SameOn (LexG i j)
          (M.attempt (@LexerS.readWithState i st) (fun t => pure (.ok t)) (fun e => pure (.error e)) : M LexerS LexErr (Except LexErr Token))
          (M.attempt (@LexerS.readWithState j st) (fun t => pure (.ok t)) (fun e => pure (.error e)) : M LexerS LexErr (Except LexErr Token)) :=
        attempt_same (readWithState_agree st) (fun _ _ h => ⟨rfl, rfl, h⟩) (fun _ _ h => ⟨rfl, rfl, h⟩)
      exact Agree.bind (liftLx_agree h5) (fun x => Agree.bind setCur_agree fun _ => Agree.bind (liftLx_agree pull_agree) fun y => setNxt_agree)
        { s with lx := m, cur := .ok t } (hm m hr)

theorem isEnd_agree : Agree i j (letI := i; isEnd) (letI := j; isEnd) :=
  Agree.gets _

theorem position_agree : Agree i j (letI := i; position) (letI := j; position) :=
  Agree.gets _

theorem cur?_agree : Agree i j (letI := i; cur?) (letI := j; cur?) :=
  Agree.gets _

theorem peek?_agree : Agree i j (letI := i; peek?) (letI := j; peek?) :=
  Agree.gets _

theorem curVal?_agree : Agree i j (letI := i; curVal?) (letI := j; curVal?) :=
  Agree.gets _

theorem spanFrom_agree {n : Nat} : Agree i j (letI := i; spanFrom n) (letI := j; spanFrom n) :=
  Agree.gets _

theorem curMatches_agree {v : TokVal} : Agree i j (letI := i; curMatches v) (letI := j; curMatches v) :=
  Agree.gets _

theorem curMatchesString_agree : Agree i j (letI := i; curMatchesString) (letI := j; curMatchesString) :=
  Agree.gets _

theorem curMatchesIdentOrLiteral_agree {v : Str} : Agree i j (letI := i; curMatchesIdentOrLiteral v) (letI := j; curMatchesIdentOrLiteral v) :=
  Agree.gets _

theorem peekMatches_agree {v : TokVal} : Agree i j (letI := i; peekMatches v) (letI := j; peekMatches v) :=
  Agree.gets _

theorem followedByNewLine_agree : Agree i j (letI := i; followedByNewLine) (letI := j; followedByNewLine) :=
  Agree.gets _

theorem firstOnLine_agree : Agree i j (letI := i; firstOnLine) (letI := j; firstOnLine) :=
  Agree.gets _

theorem peekIsIdent_agree {ctx : Ctx} : Agree i j (letI := i; peekIsIdent ctx) (letI := j; peekIsIdent ctx) :=
  Agree.gets _

theorem isIdent_agree {ctx : Ctx} : Agree i j (letI := i; isIdent ctx) (letI := j; isIdent ctx) :=
  Agree.gets _

theorem isIdentName_agree : Agree i j (letI := i; isIdentName) (letI := j; isIdentName) :=
  Agree.gets _

theorem consumeAssert_agree {v : TokVal} : Agree i j (letI := i; consumeAssert v) (letI := j; consumeAssert v) := by
  unfold Parser.consumeAssert
  ag

theorem maybeConsume_agree {v : TokVal} : Agree i j (letI := i; maybeConsume v) (letI := j; maybeConsume v) := by
  unfold Parser.maybeConsume
  ag

theorem parseIdent_agree {ctx : Ctx} : Agree i j (letI := i; parseIdent ctx) (letI := j; parseIdent ctx) := by
  unfold Parser.parseIdent
  ag

theorem parseIdentName_agree : Agree i j (letI := i; parseIdentName) (letI := j; parseIdentName) := by
  unfold Parser.parseIdentName
  ag

theorem consumeListDelimiter_agree {v : TokVal} : Agree i j (letI := i; consumeListDelimiter v) (letI := j; consumeListDelimiter v) := by
  unfold Parser.consumeListDelimiter
  ag

theorem canInsertSemicolon_agree : Agree i j (letI := i; canInsertSemicolon) (letI := j; canInsertSemicolon) := by
  unfold Parser.canInsertSemicolon
  ag

theorem stmtEnded_agree : Agree i j (letI := i; stmtEnded) (letI := j; stmtEnded) := by
  unfold Parser.stmtEnded
  ag

theorem consumeOptionalSemicolon_agree : Agree i j (letI := i; consumeOptionalSemicolon) (letI := j; consumeOptionalSemicolon) := by
  unfold Parser.consumeOptionalSemicolon
  ag

/-! ## The functions of the parser -/

theorem exprSequence_agree (hr : Agrees i j r r') {ctx : Ctx} {spanStart : Nat} {initial : Expr} : Agree i j (letI := i; exprSequence r ctx spanStart initial) (letI := j; exprSequence r' ctx spanStart initial) := by
  unfold Parser.exprSequence
  ag

theorem expr_agree (hr : Agrees i j r r') {ctx : Ctx} : Agree i j (letI := i; expr r ctx) (letI := j; expr r' ctx) := by
  unfold Parser.expr
  ag

theorem initializer_agree (hr : Agrees i j r r') {ctx : Ctx} : Agree i j (letI := i; initializer r ctx) (letI := j; initializer r' ctx) := by
  unfold Parser.initializer
  ag

theorem propertyName_agree (hr : Agrees i j r r') {ctx : Ctx} : Agree i j (letI := i; propertyName r ctx) (letI := j; propertyName r' ctx) := by
  unfold Parser.propertyName
  ag

theorem argument_agree (hr : Agrees i j r r') {ctx : Ctx} : Agree i j (letI := i; argument r ctx) (letI := j; argument r' ctx) := by
  unfold Parser.argument
  ag

theorem arguments_agree (hr : Agrees i j r r') {ctx : Ctx} : Agree i j (letI := i; arguments r ctx) (letI := j; arguments r' ctx) := by
  unfold Parser.arguments
  ag

theorem optionalArguments_agree (hr : Agrees i j r r') {ctx : Ctx} : Agree i j (letI := i; optionalArguments r ctx) (letI := j; optionalArguments r' ctx) := by
  unfold Parser.optionalArguments
  ag

theorem callExpr_agree (hr : Agrees i j r r') {ctx : Ctx} {spanStart : Nat} {callee : Expr} : Agree i j (letI := i; callExpr r ctx spanStart callee) (letI := j; callExpr r' ctx spanStart callee) := by
  unfold Parser.callExpr
  ag

theorem singleNameBinding_agree (hr : Agrees i j r r') {ctx : Ctx} : Agree i j (letI := i; singleNameBinding r ctx) (letI := j; singleNameBinding r' ctx) := by
  unfold Parser.singleNameBinding
  ag

theorem bindingElement_agree (hr : Agrees i j r r') {ctx : Ctx} : Agree i j (letI := i; bindingElement r ctx) (letI := j; bindingElement r' ctx) := by
  unfold Parser.bindingElement
  ag

theorem namedBinding_agree (hr : Agrees i j r r') {ctx : Ctx} : Agree i j (letI := i; namedBinding r ctx) (letI := j; namedBinding r' ctx) := by
  unfold Parser.namedBinding
  ag

theorem bindingRestElement_agree (hr : Agrees i j r r') {ctx : Ctx} : Agree i j (letI := i; bindingRestElement r ctx) (letI := j; bindingRestElement r' ctx) := by
  unfold Parser.bindingRestElement
  ag

theorem restBindingIdent_agree (hr : Agrees i j r r') {ctx : Ctx} {expectedEnd : Punct} : Agree i j (letI := i; restBindingIdent r ctx expectedEnd) (letI := j; restBindingIdent r' ctx expectedEnd) := by
  unfold Parser.restBindingIdent
  ag

theorem objectBindingPattern_agree (hr : Agrees i j r r') {ctx : Ctx} : Agree i j (letI := i; objectBindingPattern r ctx) (letI := j; objectBindingPattern r' ctx) := by
  unfold Parser.objectBindingPattern
  ag

theorem isBindingElement_agree {ctx : Ctx} : Agree i j (letI := i; isBindingElement ctx) (letI := j; isBindingElement ctx) := by
  unfold Parser.isBindingElement
  ag

theorem arrayBindingPattern_agree (hr : Agrees i j r r') {ctx : Ctx} : Agree i j (letI := i; arrayBindingPattern r ctx) (letI := j; arrayBindingPattern r' ctx) := by
  unfold Parser.arrayBindingPattern
  ag

theorem bindingPattern_agree (hr : Agrees i j r r') {ctx : Ctx} : Agree i j (letI := i; bindingPattern r ctx) (letI := j; bindingPattern r' ctx) := by
  unfold Parser.bindingPattern
  ag

theorem formalParameters_agree (hr : Agrees i j r r') {ctx : Ctx} : Agree i j (letI := i; formalParameters r ctx) (letI := j; formalParameters r' ctx) := by
  unfold Parser.formalParameters
  ag

theorem directivePrologue_agree (hr : Agrees i j r r') {ctx : Ctx} : Agree i j (letI := i; directivePrologue r ctx) (letI := j; directivePrologue r' ctx) := by
  unfold Parser.directivePrologue
  ag

theorem functionBodyStmtList_agree (hr : Agrees i j r r') {ctx : Ctx} : Agree i j (letI := i; functionBodyStmtList r ctx) (letI := j; functionBodyStmtList r' ctx) := by
  unfold Parser.functionBodyStmtList
  ag

theorem functionBody_agree (hr : Agrees i j r r') {ctx : Ctx} : Agree i j (letI := i; functionBody r ctx) (letI := j; functionBody r' ctx) := by
  unfold Parser.functionBody
  ag

theorem conciseBody_agree (hr : Agrees i j r r') {ctx : Ctx} : Agree i j (letI := i; conciseBody r ctx) (letI := j; conciseBody r' ctx) := by
  unfold Parser.conciseBody
  ag

theorem arrowIdentifierArgument_agree {ctx : Ctx} : Agree i j (letI := i; arrowIdentifierArgument ctx) (letI := j; arrowIdentifierArgument ctx) := by
  unfold Parser.arrowIdentifierArgument
  ag

theorem arrowFunctionParameters_agree (hr : Agrees i j r r') {ctx : Ctx} : Agree i j (letI := i; arrowFunctionParameters r ctx) (letI := j; arrowFunctionParameters r' ctx) := by
  unfold Parser.arrowFunctionParameters
  ag

theorem arrowFunction_agree (hr : Agrees i j r r') {ctx : Ctx} {spanStart : Nat} {asynchronous : Bool} : Agree i j (letI := i; arrowFunction r ctx spanStart asynchronous) (letI := j; arrowFunction r' ctx spanStart asynchronous) := by
  unfold Parser.arrowFunction
  ag

theorem arrowFunctionExpr_agree (hr : Agrees i j r r') {ctx : Ctx} : Agree i j (letI := i; arrowFunctionExpr r ctx) (letI := j; arrowFunctionExpr r' ctx) := by
  unfold Parser.arrowFunctionExpr
  ag

theorem asyncArrowFunctionExpr_agree (hr : Agrees i j r r') {ctx : Ctx} : Agree i j (letI := i; asyncArrowFunctionExpr r ctx) (letI := j; asyncArrowFunctionExpr r' ctx) := by
  unfold Parser.asyncArrowFunctionExpr
  ag

theorem functionExprContent_agree (hr : Agrees i j r r') {ctx : Ctx} {spanStart : Nat} : Agree i j (letI := i; functionExprContent r ctx spanStart) (letI := j; functionExprContent r' ctx spanStart) := by
  unfold Parser.functionExprContent
  ag

theorem functionExpr_agree (hr : Agrees i j r r') {ctx : Ctx} : Agree i j (letI := i; functionExpr r ctx) (letI := j; functionExpr r' ctx) := by
  unfold Parser.functionExpr
  ag

theorem asyncFunctionExpr_agree (hr : Agrees i j r r') {ctx : Ctx} : Agree i j (letI := i; asyncFunctionExpr r ctx) (letI := j; asyncFunctionExpr r' ctx) := by
  unfold Parser.asyncFunctionExpr
  ag

theorem functionDeclContent_agree (hr : Agrees i j r r') {ctx : Ctx} {spanStart : Nat} {id : Ident} : Agree i j (letI := i; functionDeclContent r ctx spanStart id) (letI := j; functionDeclContent r' ctx spanStart id) := by
  unfold Parser.functionDeclContent
  ag

theorem functionIdentifier_agree {ctx : Ctx} : Agree i j (letI := i; functionIdentifier ctx) (letI := j; functionIdentifier ctx) := by
  unfold Parser.functionIdentifier
  ag

theorem functionDeclaration_agree (hr : Agrees i j r r') {ctx : Ctx} : Agree i j (letI := i; functionDeclaration r ctx) (letI := j; functionDeclaration r' ctx) := by
  unfold Parser.functionDeclaration
  ag

theorem asyncFunctionDeclaration_agree (hr : Agrees i j r r') {ctx : Ctx} : Agree i j (letI := i; asyncFunctionDeclaration r ctx) (letI := j; asyncFunctionDeclaration r' ctx) := by
  unfold Parser.asyncFunctionDeclaration
  ag

theorem method_agree (hr : Agrees i j r r') {ctx : Ctx} {spanStart : Nat} {isStatic : Bool} {name : PropName} {kind : MethodKind} : Agree i j (letI := i; method r ctx spanStart isStatic name kind) (letI := j; method r' ctx spanStart isStatic name kind) := by
  unfold Parser.method
  ag

theorem generatorMethod_agree (hr : Agrees i j r r') {ctx : Ctx} {isStatic : Bool} : Agree i j (letI := i; generatorMethod r ctx isStatic) (letI := j; generatorMethod r' ctx isStatic) := by
  unfold Parser.generatorMethod
  ag

theorem getterOrSetter_agree (hr : Agrees i j r r') {ctx : Ctx} {isStatic : Bool} {kind : MethodKind} : Agree i j (letI := i; getterOrSetter r ctx isStatic kind) (letI := j; getterOrSetter r' ctx isStatic kind) := by
  unfold Parser.getterOrSetter
  ag

theorem asyncMethod_agree (hr : Agrees i j r r') {ctx : Ctx} {isStatic : Bool} : Agree i j (letI := i; asyncMethod r ctx isStatic) (letI := j; asyncMethod r' ctx isStatic) := by
  unfold Parser.asyncMethod
  ag

theorem methodDefinitionRest_agree (hr : Agrees i j r r') {ctx : Ctx} {isStatic : Bool} : Agree i j (letI := i; methodDefinitionRest r ctx isStatic) (letI := j; methodDefinitionRest r' ctx isStatic) := by
  unfold Parser.methodDefinitionRest
  ag

theorem methodDefinition_agree (hr : Agrees i j r r') {ctx : Ctx} : Agree i j (letI := i; methodDefinition r ctx) (letI := j; methodDefinition r' ctx) := by
  unfold Parser.methodDefinition
  ag

theorem consumeLiteral_agree {l : Literal} : Agree i j (letI := i; consumeLiteral l) (letI := j; consumeLiteral l) := by
  unfold Parser.consumeLiteral
  ag

theorem literalTok_agree : Agree i j (letI := i; literalTok) (letI := j; literalTok) := by
  unfold Parser.literalTok
  ag

theorem literal_agree : Agree i j (letI := i; literal) (letI := j; literal) := by
  unfold Parser.literal
  ag

theorem consumeTemplateContinuation_agree : Agree i j (letI := i; consumeTemplateContinuation) (letI := j; consumeTemplateContinuation) := by
  unfold Parser.consumeTemplateContinuation
  ag

theorem templateLiteralParts_agree (hr : Agrees i j r r') {ctx : Ctx} {parts : List TemplatePart} : Agree i j (letI := i; templateLiteralParts r ctx parts) (letI := j; templateLiteralParts r' ctx parts) := by
  unfold Parser.templateLiteralParts
  ag

theorem nonSubstitutionTemplate_agree : Agree i j (letI := i; nonSubstitutionTemplate) (letI := j; nonSubstitutionTemplate) := by
  unfold Parser.nonSubstitutionTemplate
  ag

theorem templateHeadString_agree : Agree i j (letI := i; templateHeadString) (letI := j; templateHeadString) := by
  unfold Parser.templateHeadString
  ag

theorem templateLiteral_agree (hr : Agrees i j r r') {ctx : Ctx} : Agree i j (letI := i; templateLiteral r ctx) (letI := j; templateLiteral r' ctx) := by
  unfold Parser.templateLiteral
  ag

theorem templateLiteralExpr_agree (hr : Agrees i j r r') {ctx : Ctx} : Agree i j (letI := i; templateLiteralExpr r ctx) (letI := j; templateLiteralExpr r' ctx) := by
  unfold Parser.templateLiteralExpr
  ag

theorem arrayElement_agree (hr : Agrees i j r r') {ctx : Ctx} : Agree i j (letI := i; arrayElement r ctx) (letI := j; arrayElement r' ctx) := by
  unfold Parser.arrayElement
  ag

theorem arrayLiteral_agree (hr : Agrees i j r r') {ctx : Ctx} : Agree i j (letI := i; arrayLiteral r ctx) (letI := j; arrayLiteral r' ctx) := by
  unfold Parser.arrayLiteral
  ag

theorem namedPropertyDefinition_agree (hr : Agrees i j r r') {ctx : Ctx} {spanStart : Nat} {name : PropName} : Agree i j (letI := i; namedPropertyDefinition r ctx spanStart name) (letI := j; namedPropertyDefinition r' ctx spanStart name) := by
  unfold Parser.namedPropertyDefinition
  ag

theorem propertyDefinitionWithComputedName_agree (hr : Agrees i j r r') {ctx : Ctx} : Agree i j (letI := i; propertyDefinitionWithComputedName r ctx) (letI := j; propertyDefinitionWithComputedName r' ctx) := by
  unfold Parser.propertyDefinitionWithComputedName
  ag

theorem isObjectMethodDefinition_agree : Agree i j (letI := i; isObjectMethodDefinition) (letI := j; isObjectMethodDefinition) := by
  unfold Parser.isObjectMethodDefinition
  ag

theorem propertyDefinition_agree (hr : Agrees i j r r') {ctx : Ctx} : Agree i j (letI := i; propertyDefinition r ctx) (letI := j; propertyDefinition r' ctx) := by
  unfold Parser.propertyDefinition
  ag

theorem objectLiteral_agree (hr : Agrees i j r r') {ctx : Ctx} : Agree i j (letI := i; objectLiteral r ctx) (letI := j; objectLiteral r' ctx) := by
  unfold Parser.objectLiteral
  ag

theorem computedProperty_agree (hr : Agrees i j r r') {ctx : Ctx} : Agree i j (letI := i; computedProperty r ctx) (letI := j; computedProperty r' ctx) := by
  unfold Parser.computedProperty
  ag

theorem memberProperty_agree (hr : Agrees i j r r') {ctx : Ctx} : Agree i j (letI := i; memberProperty r ctx) (letI := j; memberProperty r' ctx) := by
  unfold Parser.memberProperty
  ag

theorem memberExprRightSide_agree (hr : Agrees i j r r') {ctx : Ctx} {spanStart : Nat} {left : MemberObject} : Agree i j (letI := i; memberExprRightSide r ctx spanStart left) (letI := j; memberExprRightSide r' ctx spanStart left) := by
  unfold Parser.memberExprRightSide
  ag

theorem validateNoTemplate_agree {t : Token} : Agree i j (letI := i; validateNoTemplate t) (letI := j; validateNoTemplate t) := by
  unfold Parser.validateNoTemplate
  ag

theorem optionalCallExpr_agree (hr : Agrees i j r r') {ctx : Ctx} {spanStart : Nat} {callee : Expr} : Agree i j (letI := i; optionalCallExpr r ctx spanStart callee) (letI := j; optionalCallExpr r' ctx spanStart callee) := by
  unfold Parser.optionalCallExpr
  ag

theorem optionalMemberProperty_agree (hr : Agrees i j r r') {ctx : Ctx} : Agree i j (letI := i; optionalMemberProperty r ctx) (letI := j; optionalMemberProperty r' ctx) := by
  unfold Parser.optionalMemberProperty
  ag

theorem optionalMemberExpr_agree (hr : Agrees i j r r') {ctx : Ctx} {spanStart : Nat} {object : Expr} : Agree i j (letI := i; optionalMemberExpr r ctx spanStart object) (letI := j; optionalMemberExpr r' ctx spanStart object) := by
  unfold Parser.optionalMemberExpr
  ag

theorem optionalExpr_agree (hr : Agrees i j r r') {ctx : Ctx} {spanStart : Nat} {left : Expr} : Agree i j (letI := i; optionalExpr r ctx spanStart left) (letI := j; optionalExpr r' ctx spanStart left) := by
  unfold Parser.optionalExpr
  ag

theorem thisExpr_agree : Agree i j (letI := i; thisExpr) (letI := j; thisExpr) := by
  unfold Parser.thisExpr
  ag

theorem parenthesizedExpr_agree (hr : Agrees i j r r') {ctx : Ctx} : Agree i j (letI := i; parenthesizedExpr r ctx) (letI := j; parenthesizedExpr r' ctx) := by
  unfold Parser.parenthesizedExpr
  ag

theorem throwArrow_agree (hr : Agrees i j r r') {ctx : Ctx} : Agree i j (letI := i; throwArrow r ctx) (letI := j; throwArrow r' ctx) := by
  unfold Parser.throwArrow
  ag

theorem coverParenthesizedAndArrowParameters_agree (hr : Agrees i j r r') {ctx : Ctx} : Agree i j (letI := i; coverParenthesizedAndArrowParameters r ctx) (letI := j; coverParenthesizedAndArrowParameters r' ctx) := by
  unfold Parser.coverParenthesizedAndArrowParameters
  ag

theorem coveredCallExpression_agree (hr : Agrees i j r r') {ctx : Ctx} : Agree i j (letI := i; coveredCallExpression r ctx) (letI := j; coveredCallExpression r' ctx) := by
  unfold Parser.coveredCallExpression
  ag

theorem coverCallOrAsyncArrowHead_agree (hr : Agrees i j r r') {ctx : Ctx} : Agree i j (letI := i; coverCallOrAsyncArrowHead r ctx) (letI := j; coverCallOrAsyncArrowHead r' ctx) := by
  unfold Parser.coverCallOrAsyncArrowHead
  ag

theorem classElement_agree (hr : Agrees i j r r') {ctx : Ctx} {hasSuper : Bool} : Agree i j (letI := i; classElement r ctx hasSuper) (letI := j; classElement r' ctx hasSuper) := by
  unfold Parser.classElement
  ag

theorem classBody_agree (hr : Agrees i j r r') {ctx : Ctx} {hasSuper : Bool} : Agree i j (letI := i; classBody r ctx hasSuper) (letI := j; classBody r' ctx hasSuper) := by
  unfold Parser.classBody
  ag

theorem taggedTemplate_agree (hr : Agrees i j r r') {ctx : Ctx} {spanStart : Nat} {callee : Expr} : Agree i j (letI := i; taggedTemplate r ctx spanStart callee) (letI := j; taggedTemplate r' ctx spanStart callee) := by
  unfold Parser.taggedTemplate
  ag

theorem recursiveCallExpression_agree (hr : Agrees i j r r') {ctx : Ctx} {spanStart : Nat} {previous : Expr} : Agree i j (letI := i; recursiveCallExpression r ctx spanStart previous) (letI := j; recursiveCallExpression r' ctx spanStart previous) := by
  unfold Parser.recursiveCallExpression
  ag

theorem superCallExpr_agree (hr : Agrees i j r r') {ctx : Ctx} : Agree i j (letI := i; superCallExpr r ctx) (letI := j; superCallExpr r' ctx) := by
  unfold Parser.superCallExpr
  ag

theorem importArgument_agree (hr : Agrees i j r r') {ctx : Ctx} : Agree i j (letI := i; importArgument r ctx) (letI := j; importArgument r' ctx) := by
  unfold Parser.importArgument
  ag

theorem importCallExpr_agree (hr : Agrees i j r r') {ctx : Ctx} : Agree i j (letI := i; importCallExpr r ctx) (letI := j; importCallExpr r' ctx) := by
  unfold Parser.importCallExpr
  ag

theorem callOrMemberExpr_agree (hr : Agrees i j r r') {ctx : Ctx} : Agree i j (letI := i; callOrMemberExpr r ctx) (letI := j; callOrMemberExpr r' ctx) := by
  unfold Parser.callOrMemberExpr
  ag

theorem leftHandSideExpr_agree (hr : Agrees i j r r') {ctx : Ctx} : Agree i j (letI := i; leftHandSideExpr r ctx) (letI := j; leftHandSideExpr r' ctx) := by
  unfold Parser.leftHandSideExpr
  ag

theorem classTail_agree (hr : Agrees i j r r') {ctx : Ctx} : Agree i j (letI := i; classTail r ctx) (letI := j; classTail r' ctx) := by
  unfold Parser.classTail
  ag

theorem optionalIdentUnwrap_agree {ctx : Ctx} : Agree i j (letI := i; optionalIdentUnwrap ctx) (letI := j; optionalIdentUnwrap ctx) := by
  unfold Parser.optionalIdentUnwrap
  ag

theorem classExpr_agree (hr : Agrees i j r r') {ctx : Ctx} : Agree i j (letI := i; classExpr r ctx) (letI := j; classExpr r' ctx) := by
  unfold Parser.classExpr
  ag

theorem optionalClassIdentifier_agree {ctx : Ctx} : Agree i j (letI := i; optionalClassIdentifier ctx) (letI := j; optionalClassIdentifier ctx) := by
  unfold Parser.optionalClassIdentifier
  ag

theorem classDecl_agree (hr : Agrees i j r r') {ctx : Ctx} : Agree i j (letI := i; classDecl r ctx) (letI := j; classDecl r' ctx) := by
  unfold Parser.classDecl
  ag

theorem rereadRegexp_agree : Agree i j (letI := i; rereadRegexp) (letI := j; rereadRegexp) := by
  unfold Parser.rereadRegexp
  ag

theorem primaryExpr_agree (hr : Agrees i j r r') {ctx : Ctx} : Agree i j (letI := i; primaryExpr r ctx) (letI := j; primaryExpr r' ctx) := by
  unfold Parser.primaryExpr
  ag

theorem superProperty_agree (hr : Agrees i j r r') {ctx : Ctx} : Agree i j (letI := i; superProperty r ctx) (letI := j; superProperty r' ctx) := by
  unfold Parser.superProperty
  ag

theorem metaProperty_agree {ctx : Ctx} {object property : Str} : Agree i j (letI := i; metaProperty ctx object property) (letI := j; metaProperty ctx object property) := by
  unfold Parser.metaProperty
  ag

theorem newExpr_agree (hr : Agrees i j r r') {ctx : Ctx} : Agree i j (letI := i; newExpr r ctx) (letI := j; newExpr r' ctx) := by
  unfold Parser.newExpr
  ag

theorem memberExprFromTerminal_agree (hr : Agrees i j r r') {ctx : Ctx} : Agree i j (letI := i; memberExprFromTerminal r ctx) (letI := j; memberExprFromTerminal r' ctx) := by
  unfold Parser.memberExprFromTerminal
  ag

theorem newOrMember_agree (hr : Agrees i j r r') {ctx : Ctx} : Agree i j (letI := i; newOrMember r ctx) (letI := j; newOrMember r' ctx) := by
  unfold Parser.newOrMember
  ag

theorem consumeUnwrap_agree : Agree i j (letI := i; consumeUnwrap) (letI := j; consumeUnwrap) := by
  unfold Parser.consumeUnwrap
  ag

theorem optionalOperator_agree {α : Type} {f : TokVal → Option α} : Agree i j (letI := i; optionalOperator f) (letI := j; optionalOperator f) := by
  unfold Parser.optionalOperator
  ag

theorem prefixUpdateExpr_agree (hr : Agrees i j r r') {ctx : Ctx} {spanStart : Nat} {op : UpdateOp} : Agree i j (letI := i; prefixUpdateExpr r ctx spanStart op) (letI := j; prefixUpdateExpr r' ctx spanStart op) := by
  unfold Parser.prefixUpdateExpr
  ag

theorem postfixUpdateExpr_agree {ctx : Ctx} {argument : Expr} {op : UpdateOp} : Agree i j (letI := i; postfixUpdateExpr ctx argument op) (letI := j; postfixUpdateExpr ctx argument op) := by
  unfold Parser.postfixUpdateExpr
  ag

theorem updateExpr_agree (hr : Agrees i j r r') {ctx : Ctx} : Agree i j (letI := i; updateExpr r ctx) (letI := j; updateExpr r' ctx) := by
  unfold Parser.updateExpr
  ag

theorem unaryExprWithOperator_agree (hr : Agrees i j r r') {ctx : Ctx} {spanStart : Nat} {op : UnaryOp} : Agree i j (letI := i; unaryExprWithOperator r ctx spanStart op) (letI := j; unaryExprWithOperator r' ctx spanStart op) := by
  unfold Parser.unaryExprWithOperator
  ag

theorem awaitExpr_agree (hr : Agrees i j r r') {ctx : Ctx} : Agree i j (letI := i; awaitExpr r ctx) (letI := j; awaitExpr r' ctx) := by
  unfold Parser.awaitExpr
  ag

theorem awaitOrUpdateExpr_agree (hr : Agrees i j r r') {ctx : Ctx} : Agree i j (letI := i; awaitOrUpdateExpr r ctx) (letI := j; awaitOrUpdateExpr r' ctx) := by
  unfold Parser.awaitOrUpdateExpr
  ag

theorem unary_agree (hr : Agrees i j r r') {ctx : Ctx} : Agree i j (letI := i; unary r ctx) (letI := j; unary r' ctx) := by
  unfold Parser.unary
  ag

theorem recursiveBinaryExpr_agree (hr : Agrees i j r r') {α : Type} {next next' : P Expr} (hn : Agree i j next next') {mapOp : TokVal → Option α}
    {create : Span → Expr → Expr → α → Expr} : Agree i j (letI := i; recursiveBinaryExpr r next mapOp create) (letI := j; recursiveBinaryExpr r' next' mapOp create) := by
  unfold recursiveBinaryExpr
  repeat' (first | exact hn | ag_step)

theorem binaryExpr_agree (hr : Agrees i j r r') {next next' : P Expr} (hn : Agree i j next next') {mapOp : TokVal → Option BinaryOp} :
    Agree i j (letI := i; binaryExpr r next mapOp) (letI := j; binaryExpr r' next' mapOp) := by
  unfold binaryExpr
  exact recursiveBinaryExpr_agree hr hn

theorem logicalExpr_agree (hr : Agrees i j r r') {next next' : P Expr} (hn : Agree i j next next') {mapOp : TokVal → Option LogicalOp} :
    Agree i j (letI := i; logicalExpr r next mapOp) (letI := j; logicalExpr r' next' mapOp) := by
  unfold logicalExpr
  exact recursiveBinaryExpr_agree hr hn

theorem exponentiationExpr_agree (hr : Agrees i j r r') {ctx : Ctx} : Agree i j (letI := i; exponentiationExpr r ctx) (letI := j; exponentiationExpr r' ctx) := by
  unfold Parser.exponentiationExpr
  exact binaryExpr_agree hr (hr.unary _)

theorem multiplicativeExpr_agree (hr : Agrees i j r r') {ctx : Ctx} : Agree i j (letI := i; multiplicativeExpr r ctx) (letI := j; multiplicativeExpr r' ctx) := by
  unfold Parser.multiplicativeExpr
  exact binaryExpr_agree hr (exponentiationExpr_agree hr)

theorem additiveExpr_agree (hr : Agrees i j r r') {ctx : Ctx} : Agree i j (letI := i; additiveExpr r ctx) (letI := j; additiveExpr r' ctx) := by
  unfold Parser.additiveExpr
  exact binaryExpr_agree hr (multiplicativeExpr_agree hr)

theorem shiftExpr_agree (hr : Agrees i j r r') {ctx : Ctx} : Agree i j (letI := i; shiftExpr r ctx) (letI := j; shiftExpr r' ctx) := by
  unfold Parser.shiftExpr
  exact binaryExpr_agree hr (additiveExpr_agree hr)

theorem relationalExpr_agree (hr : Agrees i j r r') {ctx : Ctx} : Agree i j (letI := i; relationalExpr r ctx) (letI := j; relationalExpr r' ctx) := by
  unfold Parser.relationalExpr
  exact binaryExpr_agree hr (shiftExpr_agree hr)

theorem equalityExpr_agree (hr : Agrees i j r r') {ctx : Ctx} : Agree i j (letI := i; equalityExpr r ctx) (letI := j; equalityExpr r' ctx) := by
  unfold Parser.equalityExpr
  exact binaryExpr_agree hr (relationalExpr_agree hr)

theorem bitwiseAndExpr_agree (hr : Agrees i j r r') {ctx : Ctx} : Agree i j (letI := i; bitwiseAndExpr r ctx) (letI := j; bitwiseAndExpr r' ctx) := by
  unfold Parser.bitwiseAndExpr
  exact binaryExpr_agree hr (equalityExpr_agree hr)

theorem bitwiseXorExpr_agree (hr : Agrees i j r r') {ctx : Ctx} : Agree i j (letI := i; bitwiseXorExpr r ctx) (letI := j; bitwiseXorExpr r' ctx) := by
  unfold Parser.bitwiseXorExpr
  exact binaryExpr_agree hr (bitwiseAndExpr_agree hr)

theorem bitwiseOrExpr_agree (hr : Agrees i j r r') {ctx : Ctx} : Agree i j (letI := i; bitwiseOrExpr r ctx) (letI := j; bitwiseOrExpr r' ctx) := by
  unfold Parser.bitwiseOrExpr
  exact binaryExpr_agree hr (bitwiseXorExpr_agree hr)

theorem logicalAndExpr_agree (hr : Agrees i j r r') {ctx : Ctx} : Agree i j (letI := i; logicalAndExpr r ctx) (letI := j; logicalAndExpr r' ctx) := by
  unfold Parser.logicalAndExpr
  exact logicalExpr_agree hr (bitwiseOrExpr_agree hr)

theorem logicalOrExpr_agree (hr : Agrees i j r r') {ctx : Ctx} : Agree i j (letI := i; logicalOrExpr r ctx) (letI := j; logicalOrExpr r' ctx) := by
  unfold Parser.logicalOrExpr
  exact logicalExpr_agree hr (logicalAndExpr_agree hr)

theorem shortCircuitExpr_agree (hr : Agrees i j r r') {ctx : Ctx} : Agree i j (letI := i; shortCircuitExpr r ctx) (letI := j; shortCircuitExpr r' ctx) := by
  unfold Parser.shortCircuitExpr
  exact logicalExpr_agree hr (logicalOrExpr_agree hr)

theorem conditionalExpr_agree (hr : Agrees i j r r') {ctx : Ctx} : Agree i j (letI := i; conditionalExpr r ctx) (letI := j; conditionalExpr r' ctx) := by
  unfold Parser.conditionalExpr
  ag

theorem conditionalExprOrArrowFunction_agree (hr : Agrees i j r r') {ctx : Ctx} : Agree i j (letI := i; conditionalExprOrArrowFunction r ctx) (letI := j; conditionalExprOrArrowFunction r' ctx) := by
  unfold Parser.conditionalExprOrArrowFunction
  ag

theorem exprEnded_agree : Agree i j (letI := i; exprEnded) (letI := j; exprEnded) := by
  unfold Parser.exprEnded
  ag

theorem yieldExpr_agree (hr : Agrees i j r r') {ctx : Ctx} : Agree i j (letI := i; yieldExpr r ctx) (letI := j; yieldExpr r' ctx) := by
  unfold Parser.yieldExpr
  ag

theorem assignmentExprAsync_agree (hr : Agrees i j r r') {ctx : Ctx} : Agree i j (letI := i; assignmentExprAsync r ctx) (letI := j; assignmentExprAsync r' ctx) := by
  unfold Parser.assignmentExprAsync
  ag

theorem assignment_agree (hr : Agrees i j r r') {ctx : Ctx} {spanStart : Nat} {left : PatternOrExpr} {op : AssignOp} : Agree i j (letI := i; assignment r ctx spanStart left op) (letI := j; assignment r' ctx spanStart left op) := by
  unfold Parser.assignment
  ag

theorem normalizeLeftSideAssignment_agree (hr : Agrees i j r r') {ctx : Ctx} {startToken : Token} {e : Expr} : Agree i j (letI := i; normalizeLeftSideAssignment r ctx startToken e) (letI := j; normalizeLeftSideAssignment r' ctx startToken e) := by
  unfold Parser.normalizeLeftSideAssignment
  ag

theorem assignmentAfterExpr_agree (hr : Agrees i j r r') {ctx : Ctx} {spanStart : Nat} {startToken : Token} {e : Expr} : Agree i j (letI := i; assignmentAfterExpr r ctx spanStart startToken e) (letI := j; assignmentAfterExpr r' ctx spanStart startToken e) := by
  unfold Parser.assignmentAfterExpr
  ag

theorem assignmentAfterPattern_agree (hr : Agrees i j r r') {ctx : Ctx} {spanStart : Nat} {p : AssignPattern} {err : PErr} : Agree i j (letI := i; assignmentAfterPattern r ctx spanStart p err) (letI := j; assignmentAfterPattern r' ctx spanStart p err) := by
  unfold Parser.assignmentAfterPattern
  ag

theorem assignmentExprGeneral_agree (hr : Agrees i j r r') {ctx : Ctx} : Agree i j (letI := i; assignmentExprGeneral r ctx) (letI := j; assignmentExprGeneral r' ctx) := by
  unfold Parser.assignmentExprGeneral
  ag

theorem assignExpr_agree (hr : Agrees i j r r') {ctx : Ctx} : Agree i j (letI := i; assignExpr r ctx) (letI := j; assignExpr r' ctx) := by
  unfold Parser.assignExpr
  ag

theorem destructuringAssignmentTarget_agree (hr : Agrees i j r r') {ctx : Ctx} : Agree i j (letI := i; destructuringAssignmentTarget r ctx) (letI := j; destructuringAssignmentTarget r' ctx) := by
  unfold Parser.destructuringAssignmentTarget
  ag

theorem assignmentElement_agree (hr : Agrees i j r r') {ctx : Ctx} : Agree i j (letI := i; assignmentElement r ctx) (letI := j; assignmentElement r' ctx) := by
  unfold Parser.assignmentElement
  ag

theorem assignmentRest_agree (hr : Agrees i j r r') {ctx : Ctx} {close : Punct} : Agree i j (letI := i; assignmentRest r ctx close) (letI := j; assignmentRest r' ctx close) := by
  unfold Parser.assignmentRest
  ag

theorem arrayAssignmentPattern_agree (hr : Agrees i j r r') {ctx : Ctx} : Agree i j (letI := i; arrayAssignmentPattern r ctx) (letI := j; arrayAssignmentPattern r' ctx) := by
  unfold Parser.arrayAssignmentPattern
  ag

theorem namedAssignmentProp_agree (hr : Agrees i j r r') {ctx : Ctx} : Agree i j (letI := i; namedAssignmentProp r ctx) (letI := j; namedAssignmentProp r' ctx) := by
  unfold Parser.namedAssignmentProp
  ag

theorem singleNameAssignmentProp_agree (hr : Agrees i j r r') {ctx : Ctx} : Agree i j (letI := i; singleNameAssignmentProp r ctx) (letI := j; singleNameAssignmentProp r' ctx) := by
  unfold Parser.singleNameAssignmentProp
  ag

theorem objectAssignmentPattern_agree (hr : Agrees i j r r') {ctx : Ctx} : Agree i j (letI := i; objectAssignmentPattern r ctx) (letI := j; objectAssignmentPattern r' ctx) := by
  unfold Parser.objectAssignmentPattern
  ag

theorem assignPattern_agree (hr : Agrees i j r r') {ctx : Ctx} : Agree i j (letI := i; assignPattern r ctx) (letI := j; assignPattern r' ctx) := by
  unfold Parser.assignPattern
  ag

theorem peekMatchesLexicalBinding_agree {ctx : Ctx} : Agree i j (letI := i; peekMatchesLexicalBinding ctx) (letI := j; peekMatchesLexicalBinding ctx) := by
  unfold Parser.peekMatchesLexicalBinding
  ag

theorem variableDeclaration_agree (hr : Agrees i j r r') {ctx : Ctx} : Agree i j (letI := i; variableDeclaration r ctx) (letI := j; variableDeclaration r' ctx) := by
  unfold Parser.variableDeclaration
  ag

theorem variableDeclarations_agree (hr : Agrees i j r r') {ctx : Ctx} : Agree i j (letI := i; variableDeclarations r ctx) (letI := j; variableDeclarations r' ctx) := by
  unfold Parser.variableDeclarations
  ag

theorem variableStmt_agree (hr : Agrees i j r r') {ctx : Ctx} {kind : VarKind} : Agree i j (letI := i; variableStmt r ctx kind) (letI := j; variableStmt r' ctx kind) := by
  unfold Parser.variableStmt
  ag

theorem block_agree (hr : Agrees i j r r') {ctx : Ctx} : Agree i j (letI := i; block r ctx) (letI := j; block r' ctx) := by
  unfold Parser.block
  ag

theorem isExprStmt_agree : Agree i j (letI := i; isExprStmt) (letI := j; isExprStmt) := by
  unfold Parser.isExprStmt
  ag

theorem exprStmt_agree (hr : Agrees i j r r') {ctx : Ctx} : Agree i j (letI := i; exprStmt r ctx) (letI := j; exprStmt r' ctx) := by
  unfold Parser.exprStmt
  ag

theorem labeledStmt_agree (hr : Agrees i j r r') {ctx : Ctx} : Agree i j (letI := i; labeledStmt r ctx) (letI := j; labeledStmt r' ctx) := by
  unfold Parser.labeledStmt
  ag

theorem emptyStmt_agree : Agree i j (letI := i; emptyStmt) (letI := j; emptyStmt) := by
  unfold Parser.emptyStmt
  ag

theorem breakStmt_agree {ctx : Ctx} : Agree i j (letI := i; breakStmt ctx) (letI := j; breakStmt ctx) := by
  unfold Parser.breakStmt
  ag

theorem continueStmt_agree {ctx : Ctx} : Agree i j (letI := i; continueStmt ctx) (letI := j; continueStmt ctx) := by
  unfold Parser.continueStmt
  ag

theorem returnStmt_agree (hr : Agrees i j r r') {ctx : Ctx} : Agree i j (letI := i; returnStmt r ctx) (letI := j; returnStmt r' ctx) := by
  unfold Parser.returnStmt
  ag

theorem throwCheck_agree {throwSpan : Span} : Agree i j (letI := i; throwCheck throwSpan) (letI := j; throwCheck throwSpan) := by
  unfold Parser.throwCheck
  ag

theorem throwStmt_agree (hr : Agrees i j r r') {ctx : Ctx} : Agree i j (letI := i; throwStmt r ctx) (letI := j; throwStmt r' ctx) := by
  unfold Parser.throwStmt
  ag

theorem debuggerStmt_agree : Agree i j (letI := i; debuggerStmt) (letI := j; debuggerStmt) := by
  unfold Parser.debuggerStmt
  ag

theorem ifStmt_agree (hr : Agrees i j r r') {ctx : Ctx} : Agree i j (letI := i; ifStmt r ctx) (letI := j; ifStmt r' ctx) := by
  unfold Parser.ifStmt
  ag

theorem withStmt_agree (hr : Agrees i j r r') {ctx : Ctx} : Agree i j (letI := i; withStmt r ctx) (letI := j; withStmt r' ctx) := by
  unfold Parser.withStmt
  ag

theorem catchParameter_agree (hr : Agrees i j r r') {ctx : Ctx} : Agree i j (letI := i; catchParameter r ctx) (letI := j; catchParameter r' ctx) := by
  unfold Parser.catchParameter
  ag

theorem catchClause_agree (hr : Agrees i j r r') {ctx : Ctx} : Agree i j (letI := i; catchClause r ctx) (letI := j; catchClause r' ctx) := by
  unfold Parser.catchClause
  ag

theorem tryStmt_agree (hr : Agrees i j r r') {ctx : Ctx} : Agree i j (letI := i; tryStmt r ctx) (letI := j; tryStmt r' ctx) := by
  unfold Parser.tryStmt
  ag

theorem switchCaseStmtList_agree (hr : Agrees i j r r') {ctx : Ctx} : Agree i j (letI := i; switchCaseStmtList r ctx) (letI := j; switchCaseStmtList r' ctx) := by
  unfold Parser.switchCaseStmtList
  ag

theorem caseHead_agree (hr : Agrees i j r r') {ctx : Ctx} : Agree i j (letI := i; caseHead r ctx) (letI := j; caseHead r' ctx) := by
  unfold Parser.caseHead
  ag

theorem caseClause_agree (hr : Agrees i j r r') {ctx : Ctx} : Agree i j (letI := i; caseClause r ctx) (letI := j; caseClause r' ctx) := by
  unfold Parser.caseClause
  ag

theorem caseBlock_agree (hr : Agrees i j r r') {ctx : Ctx} : Agree i j (letI := i; caseBlock r ctx) (letI := j; caseBlock r' ctx) := by
  unfold Parser.caseBlock
  ag

theorem switchStmt_agree (hr : Agrees i j r r') {ctx : Ctx} : Agree i j (letI := i; switchStmt r ctx) (letI := j; switchStmt r' ctx) := by
  unfold Parser.switchStmt
  ag

theorem doWhileStmt_agree (hr : Agrees i j r r') {ctx : Ctx} : Agree i j (letI := i; doWhileStmt r ctx) (letI := j; doWhileStmt r' ctx) := by
  unfold Parser.doWhileStmt
  ag

theorem whileStmt_agree (hr : Agrees i j r r') {ctx : Ctx} : Agree i j (letI := i; whileStmt r ctx) (letI := j; whileStmt r' ctx) := by
  unfold Parser.whileStmt
  ag

theorem optionalVariableKind_agree {ctx : Ctx} : Agree i j (letI := i; optionalVariableKind ctx) (letI := j; optionalVariableKind ctx) := by
  unfold Parser.optionalVariableKind
  ag

theorem forInitVariableDeclaration_agree (hr : Agrees i j r r') {ctx : Ctx} {spanStart : Nat} {kind : VarKind} : Agree i j (letI := i; forInitVariableDeclaration r ctx spanStart kind) (letI := j; forInitVariableDeclaration r' ctx spanStart kind) := by
  unfold Parser.forInitVariableDeclaration
  ag

theorem forInit_agree (hr : Agrees i j r r') {ctx : Ctx} : Agree i j (letI := i; forInit r ctx) (letI := j; forInit r' ctx) := by
  unfold Parser.forInit
  ag

theorem optionalForInit_agree (hr : Agrees i j r r') {ctx : Ctx} : Agree i j (letI := i; optionalForInit r ctx) (letI := j; optionalForInit r' ctx) := by
  unfold Parser.optionalForInit
  ag

theorem forRest_agree (hr : Agrees i j r r') {ctx : Ctx} {spanStart : Nat} {init : Option ForInit} : Agree i j (letI := i; forRest r ctx spanStart init) (letI := j; forRest r' ctx spanStart init) := by
  unfold Parser.forRest
  ag

theorem tryFor_agree (hr : Agrees i j r r') {ctx : Ctx} {spanStart : Nat} {asynchronous : Bool} : Agree i j (letI := i; tryFor r ctx spanStart asynchronous) (letI := j; tryFor r' ctx spanStart asynchronous) := by
  unfold Parser.tryFor
  ag

theorem forDeclaration_agree (hr : Agrees i j r r') {ctx : Ctx} : Agree i j (letI := i; forDeclaration r ctx) (letI := j; forDeclaration r' ctx) := by
  unfold Parser.forDeclaration
  ag

theorem forIn_agree (hr : Agrees i j r r') {ctx : Ctx} {spanStart : Nat} {left : ForDecl} : Agree i j (letI := i; forIn r ctx spanStart left) (letI := j; forIn r' ctx spanStart left) := by
  unfold Parser.forIn
  ag

theorem forOf_agree (hr : Agrees i j r r') {ctx : Ctx} {spanStart : Nat} {left : ForDecl} {asynchronous : Bool} : Agree i j (letI := i; forOf r ctx spanStart left asynchronous) (letI := j; forOf r' ctx spanStart left asynchronous) := by
  unfold Parser.forOf
  ag

theorem forInOf_agree (hr : Agrees i j r r') {ctx : Ctx} {spanStart : Nat} {asynchronous : Bool} : Agree i j (letI := i; forInOf r ctx spanStart asynchronous) (letI := j; forInOf r' ctx spanStart asynchronous) := by
  unfold Parser.forInOf
  ag

theorem forAfterParen_agree (hr : Agrees i j r r') {ctx : Ctx} {spanStart : Nat} {asynchronous : Bool} : Agree i j (letI := i; forAfterParen r ctx spanStart asynchronous) (letI := j; forAfterParen r' ctx spanStart asynchronous) := by
  unfold Parser.forAfterParen
  ag

theorem forStmt_agree (hr : Agrees i j r r') {ctx : Ctx} : Agree i j (letI := i; forStmt r ctx) (letI := j; forStmt r' ctx) := by
  unfold Parser.forStmt
  ag

theorem stmt_agree (hr : Agrees i j r r') {ctx : Ctx} : Agree i j (letI := i; stmt r ctx) (letI := j; stmt r' ctx) := by
  unfold Parser.stmt
  ag

theorem moduleSpecifier_agree : Agree i j (letI := i; moduleSpecifier) (letI := j; moduleSpecifier) := by
  unfold Parser.moduleSpecifier
  ag

theorem namespaceImport_agree {ctx : Ctx} : Agree i j (letI := i; namespaceImport ctx) (letI := j; namespaceImport ctx) := by
  unfold Parser.namespaceImport
  ag

theorem importSpecifier_agree {ctx : Ctx} : Agree i j (letI := i; importSpecifier ctx) (letI := j; importSpecifier ctx) := by
  unfold Parser.importSpecifier
  ag

theorem namedImports_agree (hr : Agrees i j r r') {ctx : Ctx} : Agree i j (letI := i; namedImports r ctx) (letI := j; namedImports r' ctx) := by
  unfold Parser.namedImports
  ag

theorem exportSpecifier_agree : Agree i j (letI := i; exportSpecifier) (letI := j; exportSpecifier) := by
  unfold Parser.exportSpecifier
  ag

theorem namedExports_agree (hr : Agrees i j r r') : Agree i j (letI := i; namedExports r) (letI := j; namedExports r') := by
  unfold Parser.namedExports
  ag

theorem importClauseRest_agree (hr : Agrees i j r r') {ctx : Ctx} : Agree i j (letI := i; importClauseRest r ctx) (letI := j; importClauseRest r' ctx) := by
  unfold Parser.importClauseRest
  ag

theorem importClause_agree (hr : Agrees i j r r') {ctx : Ctx} : Agree i j (letI := i; importClause r ctx) (letI := j; importClause r' ctx) := by
  unfold Parser.importClause
  ag

theorem moduleImport_agree {spanStart : Nat} : Agree i j (letI := i; moduleImport spanStart) (letI := j; moduleImport spanStart) := by
  unfold Parser.moduleImport
  ag

theorem importDeclaration_agree (hr : Agrees i j r r') {ctx : Ctx} : Agree i j (letI := i; importDeclaration r ctx) (letI := j; importDeclaration r' ctx) := by
  unfold Parser.importDeclaration
  ag

theorem namedExport_agree (hr : Agrees i j r r') {spanStart : Nat} : Agree i j (letI := i; namedExport r spanStart) (letI := j; namedExport r' spanStart) := by
  unfold Parser.namedExport
  ag

theorem namespaceExport_agree {spanStart : Nat} : Agree i j (letI := i; namespaceExport spanStart) (letI := j; namespaceExport spanStart) := by
  unfold Parser.namespaceExport
  ag

theorem requiredDeclaration_agree (hr : Agrees i j r r') {ctx : Ctx} : Agree i j (letI := i; requiredDeclaration r ctx) (letI := j; requiredDeclaration r' ctx) := by
  unfold Parser.requiredDeclaration
  ag

theorem declarationExport_agree (hr : Agrees i j r r') {ctx : Ctx} {spanStart : Nat} : Agree i j (letI := i; declarationExport r ctx spanStart) (letI := j; declarationExport r' ctx spanStart) := by
  unfold Parser.declarationExport
  ag

theorem declarationDefaultExport_agree (hr : Agrees i j r r') {ctx : Ctx} {spanStart : Nat} : Agree i j (letI := i; declarationDefaultExport r ctx spanStart) (letI := j; declarationDefaultExport r' ctx spanStart) := by
  unfold Parser.declarationDefaultExport
  ag

theorem variableStatementExport_agree (hr : Agrees i j r r') {ctx : Ctx} {spanStart : Nat} : Agree i j (letI := i; variableStatementExport r ctx spanStart) (letI := j; variableStatementExport r' ctx spanStart) := by
  unfold Parser.variableStatementExport
  ag

theorem defaultExport_agree (hr : Agrees i j r r') {ctx : Ctx} {spanStart : Nat} : Agree i j (letI := i; defaultExport r ctx spanStart) (letI := j; defaultExport r' ctx spanStart) := by
  unfold Parser.defaultExport
  ag

theorem exportDeclaration_agree (hr : Agrees i j r r') {ctx : Ctx} : Agree i j (letI := i; exportDeclaration r ctx) (letI := j; exportDeclaration r' ctx) := by
  unfold Parser.exportDeclaration
  ag

theorem isScript_agree : Agree i j (letI := i; isScript) (letI := j; isScript) := by
  unfold Parser.isScript
  ag

theorem declaration_agree (hr : Agrees i j r r') {ctx : Ctx} : Agree i j (letI := i; declaration r ctx) (letI := j; declaration r' ctx) := by
  unfold Parser.declaration
  ag

theorem declOrStmt_agree (hr : Agrees i j r r') {ctx : Ctx} : Agree i j (letI := i; declOrStmt r ctx) (letI := j; declOrStmt r' ctx) := by
  unfold Parser.declOrStmt
  ag

theorem allStmts_agree (hr : Agrees i j r r') {ctx : Ctx} : Agree i j (letI := i; allStmts r ctx) (letI := j; allStmts r' ctx) := by
  unfold Parser.allStmts
  ag

theorem program_agree (hr : Agrees i j r r') : Agree i j (letI := i; program r) (letI := j; program r') := by
  unfold Parser.program
  ag

theorem mkRec_agree (n : Nat) : Agrees i j (letI := i; mkRec n) (letI := j; mkRec n) := by
  induction n with
  | zero =>
    exact ⟨rfl, fun _ => Agree.oof, fun _ => Agree.oof, fun _ => Agree.oof, fun _ => Agree.oof, fun _ => Agree.oof, fun _ => Agree.oof,
      fun _ => Agree.oof, fun _ => Agree.oof⟩
  | succ n ih =>
    simp only [mkRec]
    generalize @mkRec i n = r at ih ⊢
    generalize @mkRec j n = r' at ih ⊢
    exact ⟨rfl, fun _ => assignExpr_agree ih, fun _ => unary_agree ih, fun _ => newOrMember_agree ih, fun _ => bindingPattern_agree ih,
      fun _ => assignPattern_agree ih, fun _ => stmt_agree ih, fun _ => declOrStmt_agree ih, fun _ => declaration_agree ih⟩

theorem start_agree {src : Str} (h : SameChars i j src) (st : SourceType) :
    ResS (fun s : PState => LexG i j s.lx) (letI := i; start src st) (letI := j; start src st) := by
  unfold start
  exact Agree.bind (liftLx_agree pull_agree) (fun x => Agree.bind (liftLx_agree pull_agree) fun y => modify_agree) _ ⟨h, h⟩

/-- Parsing does the same with the two tables. -/
theorem parse_agree {α : Type} {m m' : Rec → P α} (hm : ∀ {r r'}, Agrees i j r r' → Agree i j (m r) (m' r')) {src : Str}
    (h : SameChars i j src) (st : SourceType) : (letI := i; parse m src st) = (letI := j; parse m' src st) := by
  have key : ResS (fun s : PState => LexG i j s.lx) (letI := i; parse m src st) (letI := j; parse m' src st) := by
    unfold parse
    have := start_agree h st
    revert this
    cases @start i src st <;> cases @start j src st <;> intro this <;> try exact this.elim
    · obtain ⟨rfl, rfl, h⟩ := this; exact hm (mkRec_agree _) _ h
    · exact this
    · exact this
    · trivial
  revert key
  cases @parse i α m src st <;> cases @parse j α m' src st <;> intro key <;> try exact key.elim
  · obtain ⟨rfl, rfl, -⟩ := key; rfl
  · obtain ⟨rfl, rfl, -⟩ := key; rfl
  · cases key; rfl
  · rfl

end

end Fajt.Tables
