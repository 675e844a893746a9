import re
out=[]
for f in ['StaticSemantics','Parser']:
    src=open(f'/verif/lean/Verif/Model/{f}.lean').read()
    parts=re.split(r'(?m)^(?=def |/--|namespace|end |open |variable|@\[|/-!)',src)
    for p in parts:
        m=re.match(r'def (\S+)((?:\s*[\(\{][^:=]*?:[^=]*?[\)\}])*)\s*:\s*P (.*?):=(.*)',p,re.S)
        if not m:
            if re.match(r'def [^\n]*: P ',p): print('skipped',p.split('\n')[0])
            continue
        name,args,ty,body=m.groups()
        if name.startswith('_root_'): continue
        out.append((name,args.strip(),body,bool(re.search(r'(?<![\w.«])r\b(?!\w)',body)),f))
if __name__=='__main__':
    for o in out: print(o[0],'|',o[1],'|',o[3],o[4])
HDR='''import Verif.Proofs.KindLex
import Verif.Model.Parser
import Lean.Elab.Tactic.ElabTerm
/-!
# Scripts and modules are parsed alike

Two runs of the parser on the same plain source (`PlainSource`), as sources of the kinds `a` and `b`, end alike.  One theorem per function of
`Verif.Model.Parser`; written by `tools/genkind.py`.
-/
namespace Fajt.Kind
open Lean Elab Tactic Meta Fajt.Spec
set_option linter.unusedSectionVars false
set_option linter.unusedVariables false
variable [UnicodeID]

/-- Lexers of two runs. -/
structure LexR (l l' : LexerS) : Prop where
  data : l'.data = l.data
  cursor : l'.cursor = l.cursor
  regex : l'.st.regex = l.st.regex
  template : l'.st.template = l.st.template
  plain : PlainSource l.data
  here : PlainAt l.cursor

/-- States of two runs, for sources of the kinds `a` and `b`. -/
structure StR (a b : SourceType) (s s' : PState) : Prop where
  lx : LexR s.lx s'.lx
  cur : s'.cur = s.cur
  nxt : s'.nxt = s.nxt
  pos : s'.pos = s.pos
  fst : s.sourceType = a
  snd : s'.sourceType = b
  curUsual : ∀ t, s.cur = .ok t → Usual t
  nxtUsual : ∀ t, s.nxt = .ok t → Usual t

/-- Outcomes of two runs. -/
def ResR {σ ε α : Type} (R : σ → σ → Prop) (Q : α → Prop) : Res σ ε α → Res σ ε α → Prop
  | .ok x t, .ok y t' => x = y ∧ Q x ∧ R t t'
  | .err e t, .err e' t' => e = e' ∧ R t t'
  | .panic w, .panic w' => w = w'
  | .oof, .oof => True
  | _, _ => False

theorem next_agree {l l' : LexerS} (h : LexR l l') : ResR LexR Usual (LexerS.next l) (LexerS.next l') := by
  unfold LexerS.next
  have h1 := read_same (st := l'.st) (st' := l.st) h.regex h.template h.here
  have h2 := read_usual l.st h.here
  rw [h.cursor, h1]
  revert h2
  cases Lexer.read l.st l.cursor with
  | ok t c => rintro ⟨h2, h3⟩; exact ⟨rfl, h2, h.data, rfl, h.regex, h.template, h.plain, h3⟩
  | err e c => intro h3; exact ⟨rfl, h.data, rfl, h.regex, h.template, h.plain, h3⟩
  | panic w => intro; rfl
  | oof => intro; trivial

/-- What is pulled is a token that is neither `import` nor `export`, or an error. -/
def UsualItem (x : Except LexErr Token) : Prop := ∀ t, x = .ok t → Usual t

theorem pull_agree {l l' : LexerS} (h : LexR l l') : ResR LexR UsualItem (LexerS.pull l) (LexerS.pull l') := by
  unfold LexerS.pull M.attempt
  have := next_agree h
  revert this
  cases LexerS.next l <;> cases LexerS.next l' <;> intro this <;> try exact this.elim
  · obtain ⟨rfl, h1, h2⟩ := this; exact ⟨rfl, fun t ht => by cases ht; exact h1, h2⟩
  · obtain ⟨rfl, h2⟩ := this; exact ⟨rfl, fun t ht => (nomatch ht), h2⟩
  · exact this
  · trivial

theorem readWithState_agree (st : LexState) {l l' : LexerS} (h : LexR l l') :
    ResR LexR Usual (LexerS.readWithState st l) (LexerS.readWithState st l') := by
  unfold LexerS.readWithState
  have := next_agree (l := { l with st := st }) (l' := { l' with st := st }) ⟨h.data, h.cursor, rfl, rfl, h.plain, h.here⟩
  revert this
  cases LexerS.next { l with st := st } <;> cases LexerS.next { l' with st := st } <;> intro this <;> try exact this.elim
  · obtain ⟨rfl, h1, h2⟩ := this; exact ⟨rfl, h1, h2.data, h2.cursor, h.regex, h.template, h2.plain, h2.here⟩
  · exact this
  · exact this
  · trivial

theorem dropBytes_suffix {u v : Str} {n : Nat} (h : LexerS.dropBytes u n = some v) : v <:+: u := by
  induction u generalizing n with
  | nil => cases n <;> cases h; exact List.infix_rfl
  | cons c u ih =>
    cases n with
    | zero => cases h; exact List.infix_rfl
    | succ n =>
      unfold LexerS.dropBytes at h
      split at h
      · exact (ih h).trans ⟨[c], [], by simp⟩
      · cases h

theorem rewindBefore_agree (t : Token) {l l' : LexerS} (h : LexR l l') :
    (l.rewindBefore t = none ∧ l'.rewindBefore t = none) ∨
    ∃ m m', l.rewindBefore t = some m ∧ l'.rewindBefore t = some m' ∧ LexR m m' := by
  unfold LexerS.rewindBefore
  rw [h.data]
  cases hd : LexerS.dropBytes l.data t.span.start with
  | none => exact .inl ⟨rfl, rfl⟩
  | some v =>
    exact .inr ⟨_, _, rfl, rfl, rfl, rfl, h.regex, h.template, h.plain, h.plain.mono (dropBytes_suffix hd), Nat.le_refl _⟩

/-- The two computations end alike. -/
def Agree (a b : SourceType) {α : Type} (m m' : P α) : Prop :=
  ∀ s s', StR a b s s' → ResR (StR a b) (fun _ => True) (m s) (m' s')

section
variable {a b : SourceType} {α β : Type}

theorem Agree.pure (x : α) : Agree a b (Pure.pure x) (Pure.pure x) := fun _ _ h => ⟨rfl, trivial, h⟩
theorem Agree.throw (e : PErr) : Agree a b (M.throw e : P α) (M.throw e) := fun _ _ h => ⟨rfl, h⟩
theorem Agree.panic (w : Str) : Agree a b (M.panic w : P α) (M.panic w) := fun _ _ _ => rfl
theorem Agree.oof : Agree a b (M.oof : P α) M.oof := fun _ _ _ => trivial
theorem Agree.ofExcept (x : Except PErr α) : Agree a b (M.ofExcept x : P α) (M.ofExcept x) := by
  cases x
  · exact Agree.throw _
  · exact Agree.pure _

theorem Agree.gets {f f' : PState → α} (h : ∀ s s', StR a b s s' → f s = f' s') : Agree a b (M.gets f) (M.gets f') :=
  fun s s' hs => ⟨h s s' hs, trivial, hs⟩

theorem Agree.bind {m m' : P α} {f f' : α → P β} (h1 : Agree a b m m') (h2 : ∀ x, Agree a b (f x) (f' x)) :
    Agree a b (m >>= f) (m' >>= f') := by
  intro s s' hs
  show ResR _ _ (M.bind m f s) (M.bind m' f' s')
  unfold M.bind
  have := h1 s s' hs
  revert this
  cases m s <;> cases m' s' <;> intro this <;> try exact this.elim
  · obtain ⟨rfl, -, h⟩ := this; exact h2 _ _ _ h
  · exact this
  · exact this
  · trivial

theorem Agree.attempt {m m' : P α} {f f' : α → P β} {g g' : PErr → P β} (h1 : Agree a b m m') (h2 : ∀ x, Agree a b (f x) (f' x))
    (h3 : ∀ e, Agree a b (g e) (g' e)) : Agree a b (M.attempt m f g) (M.attempt m' f' g') := by
  intro s s' hs
  unfold M.attempt
  have := h1 s s' hs
  revert this
  cases m s <;> cases m' s' <;> intro this <;> try exact this.elim
  · obtain ⟨rfl, -, h⟩ := this; exact h2 _ _ _ h
  · obtain ⟨rfl, h⟩ := this; exact h3 _ _ _ h
  · exact this
  · trivial

theorem Agree.ite {p : Prop} [Decidable p] {x x' y y' : P α} (h1 : Agree a b x x') (h2 : Agree a b y y') :
    Agree a b (if p then x else y) (if p then x' else y') := by split <;> assumption

theorem Agree.loop {f f' : β → P (β ⊕ α)} (h : ∀ x, Agree a b (f x) (f' x)) {n n' : Nat} (hn : n' = n) {x : β} :
    Agree a b (Fajt.loop f n x) (Fajt.loop f' n' x) := by
  subst hn
  induction n' generalizing x with
  | zero => exact Agree.oof
  | succ n ih =>
    refine Agree.bind (h x) fun y => ?_
    cases y
    · exact ih
    · exact Agree.pure _

theorem Agree.thenTry {c : Bool} {m m' : P α} (h : Agree a b m m') : Agree a b (Parser.thenTry c m) (Parser.thenTry c m') := by
  unfold Parser.thenTry
  exact Agree.ite (Agree.bind h fun _ => Agree.pure _) (Agree.pure _)
end

/-- The entry points of the two records end alike. -/
structure Agrees (a b : SourceType) (r r' : Rec) : Prop where
  fuel : r'.fuel = r.fuel
  assignExpr : ∀ ctx, Agree a b (r.assignExpr ctx) (r'.assignExpr ctx)
  unary : ∀ ctx, Agree a b (r.unary ctx) (r'.unary ctx)
  newOrMember : ∀ ctx, Agree a b (r.newOrMember ctx) (r'.newOrMember ctx)
  bindingPattern : ∀ ctx, Agree a b (r.bindingPattern ctx) (r'.bindingPattern ctx)
  assignPattern : ∀ ctx, Agree a b (r.assignPattern ctx) (r'.assignPattern ctx)
  stmt : ∀ ctx, Agree a b (r.stmt ctx) (r'.stmt ctx)
  declOrStmt : ∀ ctx, Agree a b (r.declOrStmt ctx) (r'.declOrStmt ctx)
  declaration : ∀ ctx, Agree a b (r.declaration ctx) (r'.declaration ctx)

/-- Use the theorem about the function at the head of the goal. -/
elab "ag_known" : tactic => withMainContext do
  let g ← getMainGoal
  let t ← whnfR (← instantiateMVars (← g.getType))
  unless t.isAppOf ``Agree do throwError "not an Agree"
  let args := t.getAppArgs
  let .const n _ := (args[args.size - 2]!.headBeta).getAppFn | throwError "no head"
  let .str p b := n | throwError "no name"
  let lem := if p == `Fajt.Rec then `Fajt.Kind.Agrees ++ Name.mkSimple b else `Fajt.Kind ++ Name.mkSimple (b ++ "_agree")
  let c ← mkConstWithFreshMVarLevels lem
  let gs ← withReducible (g.apply c)
  replaceMainGoal gs

/-- Name the result of the first of two computations. -/
elab "ag_intro" : tactic => withMainContext do
  let t ← whnfR (← instantiateMVars (← (← getMainGoal).getType))
  unless t.isForall do throwError "no quantifier"
  let (_, g) ← (← getMainGoal).intro1
  replaceMainGoal [g]

/-- One step. -/
macro "ag_step" : tactic => `(tactic| first
  | with_reducible exact Agree.pure _
  | with_reducible exact Agree.throw _
  | with_reducible exact Agree.panic _
  | with_reducible exact Agree.oof
  | with_reducible exact Agree.ofExcept _
  | (ag_known <;> assumption)
  | ag_intro
  | with_reducible (refine Agree.bind ?_ ?_)
  | with_reducible (refine Agree.attempt ?_ ?_ ?_)
  | with_reducible (refine Agree.loop ?_ (Agrees.fuel ‹_›))
  | with_reducible (refine Agree.loop ?_ rfl)
  | with_reducible (refine Agree.thenTry ?_)
  | with_reducible (refine Agree.ite ?_ ?_)
  | split)

/-- Prove that two computations end alike. -/
macro "ag" : tactic => `(tactic| repeat' ag_step)

section
open Parser
variable {a b : SourceType} {r r' : Rec}

/-! ## Tokens -/

theorem current_agree : Agree a b current current := by
  intro s s' h
  unfold current
  rw [h.cur]
  cases s.cur with
  | ok t => exact ⟨rfl, trivial, h⟩
  | error e => exact ⟨rfl, h⟩

theorem currentUnwrapStart_agree : Agree a b currentUnwrapStart currentUnwrapStart := by
  intro s s' h
  unfold currentUnwrapStart
  rw [h.cur]
  cases s.cur with
  | ok t => exact ⟨rfl, trivial, h⟩
  | error e => exact rfl

theorem liftLx_agree {α : Type} {m : M LexerS LexErr α} {Q : α → Prop} {s s' : PState}
    (hm : ResR LexR Q (m s.lx) (m s'.lx)) (h : StR a b s s') :
    ResR (fun t t' => StR a b t t' ∧ t.cur = s.cur ∧ t.nxt = s.nxt ∧ t.pos = s.pos) Q (liftLx m s) (liftLx m s') := by
  unfold liftLx
  revert hm
  cases m s.lx <;> cases m s'.lx <;> intro hm <;> try exact hm.elim
  · obtain ⟨rfl, h1, h2⟩ := hm; exact ⟨rfl, h1, ⟨h2, h.cur, h.nxt, h.pos, h.fst, h.snd, h.curUsual, h.nxtUsual⟩, rfl, rfl, rfl⟩
  · obtain ⟨rfl, h2⟩ := hm; exact ⟨rfl, ⟨h2, h.cur, h.nxt, h.pos, h.fst, h.snd, h.curUsual, h.nxtUsual⟩, rfl, rfl, rfl⟩
  · exact hm
  · trivial

/-- Pulling a token, with what is known of it. -/
theorem liftPull_agree {α : Type} {f f' : Except LexErr Token → P α}
    (hf : ∀ x, UsualItem x → Agree a b (f x) (f' x)) : Agree a b (liftLx LexerS.pull >>= f) (liftLx LexerS.pull >>= f') := by
  intro s s' h
  show ResR _ _ (M.bind _ f s) (M.bind _ f' s')
  unfold M.bind
  have := liftLx_agree (pull_agree h.lx) h
  revert this
  cases liftLx LexerS.pull s <;> cases liftLx LexerS.pull s' <;> intro this <;> try exact this.elim
  · obtain ⟨rfl, h1, h2, -⟩ := this; exact hf _ h1 _ _ h2
  · exact ⟨this.1, this.2.1⟩
  · exact this
  · trivial

theorem consume_agree : Agree a b consume consume := by
  unfold consume
  refine liftPull_agree fun x hx => ?_
  intro s s' h
  simp only [M.bind_def, M.bind, M.get, M.set, h.cur]
  have h1 : StR a b { s with cur := s.nxt, nxt := x } { s' with cur := s'.nxt, nxt := x } :=
    ⟨h.lx, h.nxt, rfl, h.pos, h.fst, h.snd, h.nxtUsual, hx⟩
  cases s.cur with
  | ok t => exact ⟨rfl, trivial, h1.lx, h1.cur, h1.nxt, rfl, h1.fst, h1.snd, h1.curUsual, h1.nxtUsual⟩
  | error e => exact ⟨rfl, h1⟩

theorem setCur_agree {x : Except LexErr Token} (hx : UsualItem x) :
    Agree a b (M.modify fun s => { s with cur := x } : P Unit) (M.modify fun s => { s with cur := x }) :=
  fun s s' h => ⟨rfl, trivial, h.lx, rfl, h.nxt, h.pos, h.fst, h.snd, hx, h.nxtUsual⟩

theorem setNxt_agree {x : Except LexErr Token} (hx : UsualItem x) :
    Agree a b (M.modify fun s => { s with nxt := x } : P Unit) (M.modify fun s => { s with nxt := x }) :=
  fun s s' h => ⟨rfl, trivial, h.lx, h.cur, rfl, h.pos, h.fst, h.snd, h.curUsual, hx⟩

theorem rewindTo_agree {t : Token} : Agree a b (rewindTo t) (rewindTo t) := by
  intro s s' h
  unfold rewindTo
  simp only [M.bind_def, M.bind, M.get]
  rcases rewindBefore_agree t h.lx with ⟨h1, h2⟩ | ⟨m, m', h1, h2, h3⟩
  · rw [h1, h2]; exact rfl
  · rw [h1, h2]
    have h4 : StR a b { s with lx := m } { s' with lx := m' } := ⟨h3, h.cur, h.nxt, h.pos, h.fst, h.snd, h.curUsual, h.nxtUsual⟩
    exact liftPull_agree (fun x hx => Agree.bind (setCur_agree hx) fun _ => liftPull_agree fun y hy => setNxt_agree hy) _ _ h4

theorem rereadWithState_agree {st : LexState} : Agree a b (rereadWithState st) (rereadWithState st) := by
  intro s s' h
  unfold rereadWithState
  simp only [M.bind_def, M.bind, M.get, h.cur]
  cases hc : s.cur with
  | error e => exact ⟨rfl, trivial, h⟩
  | ok t =>
    dsimp only
    rcases rewindBefore_agree t h.lx with ⟨h1, h2⟩ | ⟨m, m', h1, h2, h3⟩
    · rw [h1, h2]; exact rfl
    · rw [h1, h2]
      have h4 : StR a b { s with lx := m, cur := .ok t } { s' with lx := m', cur := .ok t } :=
        ⟨h3, rfl, h.nxt, h.pos, h.fst, h.snd, fun u hu => h.curUsual u (hc.trans hu), h.nxtUsual⟩
      have h5 : ResR LexR UsualItem
          ((M.attempt (LexerS.readWithState st) (fun t => pure (.ok t)) (fun e => pure (.error e)) : M LexerS LexErr (Except LexErr Token)) m)
          ((M.attempt (LexerS.readWithState st) (fun t => pure (.ok t)) (fun e => pure (.error e)) : M LexerS LexErr (Except LexErr Token)) m') := by
        unfold M.attempt
        have := readWithState_agree st h3
        revert this
        cases LexerS.readWithState st m <;> cases LexerS.readWithState st m' <;> intro this <;> try exact this.elim
        · obtain ⟨rfl, h1, h2⟩ := this; exact ⟨rfl, fun t ht => by cases ht; exact h1, h2⟩
        · obtain ⟨rfl, h2⟩ := this; exact ⟨rfl, fun t ht => (nomatch ht), h2⟩
        · exact this
        · trivial
      have h6 := liftLx_agree h5 h4
      simp only [M.bind_def, M.bind, M.set]
      revert h6
      generalize (liftLx _ { s with lx := m, cur := .ok t } : Res PState PErr (Except LexErr Token)) = x
      generalize (liftLx _ { s' with lx := m', cur := .ok t } : Res PState PErr (Except LexErr Token)) = y
      cases x <;> cases y <;> intro h6 <;> try exact h6.elim
      · obtain ⟨rfl, h7, h8, -⟩ := h6
        exact Agree.bind (setCur_agree h7) (fun _ => liftPull_agree fun y hy => setNxt_agree hy) _ _ h8
      · exact ⟨h6.1, h6.2.1⟩
      · exact h6
      · trivial

'''
prims=[('isEnd',''),('position',''),('cur?',''),('peek?',''),('curVal?',''),('spanFrom','{n : Nat}'),('curMatches','{v : TokVal}'),('curMatchesString',''),
('curMatchesIdentOrLiteral','{v : Str}'),('peekMatches','{v : TokVal}'),('followedByNewLine',''),('firstOnLine',''),('peekIsIdent','{ctx : Ctx}'),
('isIdent','{ctx : Ctx}'),('isIdentName','')]
comp=[('consumeAssert','{v : TokVal}'),('maybeConsume','{v : TokVal}'),('parseIdent','{ctx : Ctx}'),('parseIdentName',''),('consumeListDelimiter','{v : TokVal}'),
('canInsertSemicolon',''),('stmtEnded',''),('consumeOptionalSemicolon','')]
def nm(n): return n if '?' not in n else n
body=''
def names(i): return ' '.join(re.findall(r'\{(\w+) :',i))
for n,i in prims:
    body+=f"theorem {n}_agree {i} : Agree a b ({n} {names(i)}) ({n} {names(i)}) :=\n  Agree.gets fun s s' h => by simp only [h.cur, h.nxt, h.pos]\n\n".replace(' )',')').replace('  :',' :')
for n,i in comp:
    body+=f"theorem {n}_agree {i} : Agree a b ({n} {names(i)}) ({n} {names(i)}) := by\n  unfold Parser.{n}\n  ag\n\n".replace(' )',')').replace('  :',' :')
body+="/-! ## The functions of the parser -/\n\n"
def argnames(a):
    res=[]
    for br,g in re.findall(r'([\(\{])([^:\)\}]*):',a):
        for n in g.split():
            if br=='(' : res.append(n)
    return res
special={'isScript','declaration','program','currentUnwrapStart'}
DECL='''theorem declaration_agree (hr : Agrees a b r r') {ctx : Ctx} : Agree a b (declaration r ctx) (declaration r' ctx) := by
  intro s s' h
  unfold Parser.declaration
  cases hc : s.cur with
  | error e =>
    have e1 : current s = .err (PErr.lexer e) s := by unfold current; rw [hc]
    have e2 : current s' = .err (PErr.lexer e) s' := by unfold current; rw [h.cur, hc]
    rw [M.seq_err e1, M.seq_err e2]
    exact ⟨rfl, h⟩
  | ok t =>
    have e1 : current s = .ok t s := by unfold current; rw [hc]
    have e2 : current s' = .ok t s' := by unfold current; rw [h.cur, hc]
    rw [M.seq_ok e1, M.seq_ok e2]
    have ht := h.curUsual t hc
    refine (?_ : Agree a b _ _) s s' h
    simp only [if_neg ht.1, if_neg ht.2]
    ag

'''
for name,args,bd,usesr,f in out:
    if name in special:
        if name=='declaration': body+=DECL
        continue
    an=argnames(args)
    iargs=args.replace('(','{').replace(')','}')
    if name in ('recursiveBinaryExpr','binaryExpr','logicalExpr'):
        if name=='recursiveBinaryExpr':
            body+='''theorem recursiveBinaryExpr_agree (hr : Agrees a b r r') {α : Type} {next next' : P Expr} (hn : Agree a b next next') {mapOp : TokVal → Option α}
    {create : Span → Expr → Expr → α → Expr} : Agree a b (recursiveBinaryExpr r next mapOp create) (recursiveBinaryExpr r' next' mapOp create) := by
  unfold recursiveBinaryExpr
  repeat' (first | exact hn | ag_step)

'''
        else:
            ot='BinaryOp' if name=='binaryExpr' else 'LogicalOp'
            body+=f'''theorem {name}_agree (hr : Agrees a b r r') {{next next' : P Expr}} (hn : Agree a b next next') {{mapOp : TokVal → Option {ot}}} :
    Agree a b ({name} r next mapOp) ({name} r' next' mapOp) := by
  unfold {name}
  exact recursiveBinaryExpr_agree hr hn

'''
        continue
    if name=='optionalOperator': iargs='{α : Type} {f : TokVal → Option α}'
    call=(lambda r: f"{name} {r} "+' '.join(an)) if usesr else (lambda r: f"{name} "+' '.join(an))
    hr="(hr : Agrees a b r r') " if usesr else ''
    body+=f"theorem {name}_agree {hr}{iargs} : Agree a b ({call('r').strip()}) ({call(chr(114)+chr(39)).strip()}) := by\n  unfold Parser.{name}\n".replace('  :',' :')
    mm=re.match(r'\s*(binaryExpr|logicalExpr) r \((\S+) r ctx\)|\s*binaryExpr r \(r.unary ctx\)',bd)
    if mm:
        if mm.group(1): body+=f"  exact {mm.group(1)}_agree hr ({mm.group(2)}_agree hr)\n"
        else: body+=f"  exact binaryExpr_agree hr (hr.unary _)\n"
    else: body+="  ag\n"
    body+="\n"
TAIL=open('/verif/tools/genkind_tail.txt').read() if __import__('os').path.exists('/verif/tools/genkind_tail.txt') else "end\n\nend Fajt.Kind\n"
open('/verif/lean/Verif/Proofs/KindSim.lean','w').write(HDR+body+TAIL)
