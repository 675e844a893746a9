"""Writes lean/Verif/Proofs/TablesSim.lean (one theorem per function of Verif.Model.Parser)."""
import re
out=[]
for f in ['StaticSemantics','Parser']:
    src=open(f'/verif/lean/Verif/Model/{f}.lean').read()
    parts=re.split(r'(?m)^(?=def |/--|namespace|end |open |variable|@\[|/-!)',src)
    for p in parts:
        m=re.match(r'def (\S+)((?:\s*[\(\{][^:=]*?:[^=]*?[\)\}])*)\s*:\s*P (.*?):=(.*)',p,re.S)
        if not m:
            if re.match(r'def [^\n]*: P ',p): print('skipped',p.split('\n')[0])
            continue
        name,args,ty,body=m.groups()
        if name.startswith('_root_'): continue
        out.append((name,args.strip(),body,bool(re.search(r'(?<![\w.«])r\b(?!\w)',body)),f))
HDR='''import Verif.Proofs.TablesLex
import Verif.Model.Parser
import Lean.Elab.Tactic.ElabTerm
/-!
# The tables of identifier characters: parser

Two runs of the parser on the same source, with two tables that agree on it (`SameChars`), do the same.  One theorem per function of
`Verif.Model.Parser`; written by `tools/gentables2.py`.
-/
namespace Fajt.Tables
open Lean Elab Tactic Meta Fajt.Spec
set_option linter.unusedSectionVars false
set_option linter.unusedVariables false

/-- The tables agree on the source, and on what is left of it. -/
structure LexG (i j : UnicodeID) (l : LexerS) : Prop where
  src : SameChars i j l.data
  here : SameChars i j l.cursor.rest

/-- The two runs end alike, in a state that satisfies `G`. -/
def ResS {σ ε α : Type} (G : σ → Prop) : Res σ ε α → Res σ ε α → Prop
  | .ok x t, .ok y t' => x = y ∧ t = t' ∧ G t
  | .err e t, .err e' t' => e = e' ∧ t = t' ∧ G t
  | .panic w, .panic w' => w = w'
  | .oof, .oof => True
  | _, _ => False

/-- The two computations do the same, from states that satisfy `G`. -/
def SameOn {σ ε α : Type} (G : σ → Prop) (m m' : M σ ε α) : Prop := ∀ s, G s → ResS G (m s) (m' s)

section
variable {i j : UnicodeID} {α β : Type}

theorem next_agree : SameOn (LexG i j) (letI := i; LexerS.next) (letI := j; LexerS.next) := by
  intro l h
  unfold LexerS.next
  have := read_tw (i := i) (j := j) (st := l.st) l.cursor h.here
  revert this
  cases @Lexer.read i l.st l.cursor <;> cases @Lexer.read j l.st l.cursor <;> intro this <;> try exact this.elim
  · obtain ⟨rfl, rfl, h2⟩ := this; exact ⟨rfl, rfl, h.src, h2⟩
  · obtain ⟨rfl, rfl, h2⟩ := this; exact ⟨rfl, rfl, h.src, h2⟩
  · exact this
  · trivial

theorem attempt_same {σ ε : Type} {G : σ → Prop} {γ : Type} {m m' : M σ ε γ} {f f' : γ → M σ ε β} {g g' : ε → M σ ε β} (h1 : SameOn G m m')
    (h2 : ∀ x, SameOn G (f x) (f' x)) (h3 : ∀ e, SameOn G (g e) (g' e)) : SameOn G (M.attempt m f g) (M.attempt m' f' g') := by
  intro s hs
  unfold M.attempt
  have := h1 s hs
  revert this
  cases m s <;> cases m' s <;> intro this <;> try exact this.elim
  · obtain ⟨rfl, rfl, h⟩ := this; exact h2 _ _ h
  · obtain ⟨rfl, rfl, h⟩ := this; exact h3 _ _ h
  · exact this
  · trivial

theorem bind_same {σ ε : Type} {G : σ → Prop} {γ : Type} {m m' : M σ ε γ} {f f' : γ → M σ ε β} (h1 : SameOn G m m')
    (h2 : ∀ x, SameOn G (f x) (f' x)) : SameOn G (m >>= f) (m' >>= f') := by
  intro s hs
  show ResS _ (M.bind m f s) (M.bind m' f' s)
  unfold M.bind
  have := h1 s hs
  revert this
  cases m s <;> cases m' s <;> intro this <;> try exact this.elim
  · obtain ⟨rfl, rfl, h⟩ := this; exact h2 _ _ h
  · exact this
  · exact this
  · trivial

theorem pull_agree : SameOn (LexG i j) (letI := i; LexerS.pull) (letI := j; LexerS.pull) :=
  attempt_same next_agree (fun _ _ h => ⟨rfl, rfl, h⟩) (fun _ _ h => ⟨rfl, rfl, h⟩)

theorem readWithState_agree (st : LexState) : SameOn (LexG i j) (letI := i; LexerS.readWithState st) (letI := j; LexerS.readWithState st) := by
  intro l h
  unfold LexerS.readWithState
  have := next_agree (i := i) (j := j) { l with st := st } ⟨h.src, h.here⟩
  revert this
  cases @LexerS.next i { l with st := st } <;> cases @LexerS.next j { l with st := st } <;> intro this <;> try exact this.elim
  · obtain ⟨rfl, rfl, h2⟩ := this; exact ⟨rfl, rfl, h2.src, h2.here⟩
  · obtain ⟨rfl, rfl, h2⟩ := this; exact ⟨rfl, rfl, h2.src, h2.here⟩
  · exact this
  · trivial

theorem dropBytes_suffix {u v : Str} {n : Nat} (h : LexerS.dropBytes u n = some v) : v <:+: u := by
  induction u generalizing n with
  | nil => cases n <;> cases h; exact List.infix_rfl
  | cons c u ih =>
    cases n with
    | zero => cases h; exact List.infix_rfl
    | succ n =>
      unfold LexerS.dropBytes at h
      split at h
      · exact (ih h).trans ⟨[c], [], by simp⟩
      · cases h

theorem rewindBefore_same (t : Token) {l : LexerS} (h : LexG i j l) : ∀ m, l.rewindBefore t = some m → LexG i j m := by
  intro m
  unfold LexerS.rewindBefore
  cases hd : LexerS.dropBytes l.data t.span.start with
  | none => intro hm; cases hm
  | some v => intro hm; cases hm; exact ⟨h.src, h.src.mono (dropBytes_suffix hd)⟩

/-- The two computations of the parser do the same. -/
def Agree (i j : UnicodeID) {α : Type} (m m' : P α) : Prop := SameOn (fun s : PState => LexG i j s.lx) m m'

theorem Agree.pure (x : α) : Agree i j (Pure.pure x) (Pure.pure x) := fun _ h => ⟨rfl, rfl, h⟩
theorem Agree.throw (e : PErr) : Agree i j (M.throw e : P α) (M.throw e) := fun _ h => ⟨rfl, rfl, h⟩
theorem Agree.panic (w : Str) : Agree i j (M.panic w : P α) (M.panic w) := fun _ _ => rfl
theorem Agree.oof : Agree i j (M.oof : P α) M.oof := fun _ _ => trivial
theorem Agree.ofExcept (x : Except PErr α) : Agree i j (M.ofExcept x : P α) (M.ofExcept x) := by
  cases x
  · exact Agree.throw _
  · exact Agree.pure _

theorem Agree.gets (f : PState → α) : Agree i j (M.gets f) (M.gets f) := fun _ hs => ⟨rfl, rfl, hs⟩

theorem Agree.bind {m m' : P α} {f f' : α → P β} (h1 : Agree i j m m') (h2 : ∀ x, Agree i j (f x) (f' x)) :
    Agree i j (m >>= f) (m' >>= f') := bind_same h1 h2

theorem Agree.attempt {m m' : P α} {f f' : α → P β} {g g' : PErr → P β} (h1 : Agree i j m m') (h2 : ∀ x, Agree i j (f x) (f' x))
    (h3 : ∀ e, Agree i j (g e) (g' e)) : Agree i j (M.attempt m f g) (M.attempt m' f' g') := attempt_same h1 h2 h3

theorem Agree.ite {p : Prop} [Decidable p] {x x' y y' : P α} (h1 : Agree i j x x') (h2 : Agree i j y y') :
    Agree i j (if p then x else y) (if p then x' else y') := by split <;> assumption

theorem Agree.loop {f f' : β → P (β ⊕ α)} (h : ∀ x, Agree i j (f x) (f' x)) {n n' : Nat} (hn : n' = n) {x : β} :
    Agree i j (Fajt.loop f n x) (Fajt.loop f' n' x) := by
  subst hn
  induction n' generalizing x with
  | zero => exact Agree.oof
  | succ n ih =>
    refine Agree.bind (h x) fun y => ?_
    cases y
    · exact ih
    · exact Agree.pure _

theorem Agree.thenTry {c : Bool} {m m' : P α} (h : Agree i j m m') : Agree i j (Parser.thenTry c m) (Parser.thenTry c m') := by
  unfold Parser.thenTry
  exact Agree.ite (Agree.bind h fun _ => Agree.pure _) (Agree.pure _)
end

/-- The entry points of the two records do the same. -/
structure Agrees (i j : UnicodeID) (r r' : Rec) : Prop where
  fuel : r'.fuel = r.fuel
  assignExpr : ∀ ctx, Agree i j (r.assignExpr ctx) (r'.assignExpr ctx)
  unary : ∀ ctx, Agree i j (r.unary ctx) (r'.unary ctx)
  newOrMember : ∀ ctx, Agree i j (r.newOrMember ctx) (r'.newOrMember ctx)
  bindingPattern : ∀ ctx, Agree i j (r.bindingPattern ctx) (r'.bindingPattern ctx)
  assignPattern : ∀ ctx, Agree i j (r.assignPattern ctx) (r'.assignPattern ctx)
  stmt : ∀ ctx, Agree i j (r.stmt ctx) (r'.stmt ctx)
  declOrStmt : ∀ ctx, Agree i j (r.declOrStmt ctx) (r'.declOrStmt ctx)
  declaration : ∀ ctx, Agree i j (r.declaration ctx) (r'.declaration ctx)

/-- Use the theorem about the function at the head of the goal. -/
elab "ag_known" : tactic => withMainContext do
  let g ← getMainGoal
  let t ← whnfR (← instantiateMVars (← g.getType))
  unless t.isAppOf ``Agree do throwError "not an Agree"
  let args := t.getAppArgs
  let .const n _ := (args[args.size - 2]!.headBeta).getAppFn | throwError "no head"
  let .str p b := n | throwError "no name"
  let lem := if p == `Fajt.Rec then `Fajt.Tables.Agrees ++ Name.mkSimple b else `Fajt.Tables ++ Name.mkSimple (b ++ "_agree")
  let c ← mkConstWithFreshMVarLevels lem
  let gs ← withReducible (g.apply c)
  replaceMainGoal gs

/-- Name the result of the first of two computations. -/
elab "ag_intro" : tactic => withMainContext do
  let t ← whnfR (← instantiateMVars (← (← getMainGoal).getType))
  unless t.isForall do throwError "no quantifier"
  let (_, g) ← (← getMainGoal).intro1
  replaceMainGoal [g]

/-- One step. -/
macro "ag_step" : tactic => `(tactic| first
  | with_reducible exact Agree.pure _
  | with_reducible exact Agree.throw _
  | with_reducible exact Agree.panic _
  | with_reducible exact Agree.oof
  | with_reducible exact Agree.ofExcept _
  | with_reducible exact Agree.gets _
  | (ag_known <;> assumption)
  | ag_intro
  | with_reducible (refine Agree.bind ?_ ?_)
  | with_reducible (refine Agree.attempt ?_ ?_ ?_)
  | with_reducible (refine Agree.loop ?_ (Agrees.fuel ‹_›))
  | with_reducible (refine Agree.loop ?_ rfl)
  | with_reducible (refine Agree.thenTry ?_)
  | with_reducible (refine Agree.ite ?_ ?_)
  | split)

/-- Prove that two computations end alike. -/
macro "ag" : tactic => `(tactic| repeat' ag_step)

section
open Parser
variable {i j : UnicodeID} {r r' : Rec}

/-! ## Tokens -/

theorem current_agree : Agree i j current current := by
  intro s h
  unfold current
  cases s.cur with
  | ok t => exact ⟨rfl, rfl, h⟩
  | error e => exact ⟨rfl, rfl, h⟩

theorem currentUnwrapStart_agree : Agree i j currentUnwrapStart currentUnwrapStart := by
  intro s h
  unfold currentUnwrapStart
  cases s.cur with
  | ok t => exact ⟨rfl, rfl, h⟩
  | error e => exact rfl

theorem liftLx_agree {α : Type} {m m' : M LexerS LexErr α} (hm : SameOn (LexG i j) m m') : Agree i j (liftLx m) (liftLx m') := by
  intro s h
  unfold liftLx
  have := hm s.lx h
  revert this
  cases m s.lx <;> cases m' s.lx <;> intro hm <;> try exact hm.elim
  · obtain ⟨rfl, rfl, h2⟩ := hm; exact ⟨rfl, rfl, h2⟩
  · obtain ⟨rfl, rfl, h2⟩ := hm; exact ⟨rfl, rfl, h2⟩
  · exact hm
  · trivial

theorem setCur_agree {x : Except LexErr Token} :
    Agree i j (M.modify fun s => { s with cur := x } : P Unit) (M.modify fun s => { s with cur := x }) := fun _ h => ⟨rfl, rfl, h⟩

theorem setNxt_agree {x : Except LexErr Token} :
    Agree i j (M.modify fun s => { s with nxt := x } : P Unit) (M.modify fun s => { s with nxt := x }) := fun _ h => ⟨rfl, rfl, h⟩

theorem modify_agree {x y : Except LexErr Token} :
    Agree i j (M.modify fun s => { s with cur := x, nxt := y } : P Unit) (M.modify fun s => { s with cur := x, nxt := y }) :=
  fun _ h => ⟨rfl, rfl, h⟩

theorem consume_agree : Agree i j (letI := i; consume) (letI := j; consume) := by
  unfold consume
  refine Agree.bind (liftLx_agree pull_agree) fun x => ?_
  intro s h
  simp only [M.bind_def, M.bind, M.get, M.set]
  cases s.cur with
  | ok t => exact ⟨rfl, rfl, h⟩
  | error e => exact ⟨rfl, rfl, h⟩

theorem rewindTo_agree {t : Token} : Agree i j (letI := i; rewindTo t) (letI := j; rewindTo t) := by
  intro s h
  unfold rewindTo
  simp only [M.bind_def, M.bind, M.get]
  have hm := rewindBefore_same t h
  cases hr : s.lx.rewindBefore t with
  | none => exact rfl
  | some m =>
    exact Agree.bind (liftLx_agree pull_agree) (fun x => Agree.bind setCur_agree fun _ => Agree.bind (liftLx_agree pull_agree) fun y => setNxt_agree)
      { s with lx := m } (hm m hr)

theorem rereadWithState_agree {st : LexState} : Agree i j (letI := i; rereadWithState st) (letI := j; rereadWithState st) := by
  intro s h
  unfold rereadWithState
  simp only [M.bind_def, M.bind, M.get]
  cases hc : s.cur with
  | error e => exact ⟨rfl, rfl, h⟩
  | ok t =>
    dsimp only
    have hm := rewindBefore_same t h
    cases hr : s.lx.rewindBefore t with
    | none => exact rfl
    | some m =>
      have h5 : SameOn (LexG i j)
          (M.attempt (@LexerS.readWithState i st) (fun t => pure (.ok t)) (fun e => pure (.error e)) : M LexerS LexErr (Except LexErr Token))
          (M.attempt (@LexerS.readWithState j st) (fun t => pure (.ok t)) (fun e => pure (.error e)) : M LexerS LexErr (Except LexErr Token)) :=
        attempt_same (readWithState_agree st) (fun _ _ h => ⟨rfl, rfl, h⟩) (fun _ _ h => ⟨rfl, rfl, h⟩)
      exact Agree.bind (liftLx_agree h5) (fun x => Agree.bind setCur_agree fun _ => Agree.bind (liftLx_agree pull_agree) fun y => setNxt_agree)
        { s with lx := m, cur := .ok t } (hm m hr)

'''
prims=[('isEnd',''),('position',''),('cur?',''),('peek?',''),('curVal?',''),('spanFrom','{n : Nat}'),('curMatches','{v : TokVal}'),('curMatchesString',''),
('curMatchesIdentOrLiteral','{v : Str}'),('peekMatches','{v : TokVal}'),('followedByNewLine',''),('firstOnLine',''),('peekIsIdent','{ctx : Ctx}'),
('isIdent','{ctx : Ctx}'),('isIdentName','')]
comp=[('consumeAssert','{v : TokVal}'),('maybeConsume','{v : TokVal}'),('parseIdent','{ctx : Ctx}'),('parseIdentName',''),('consumeListDelimiter','{v : TokVal}'),
('canInsertSemicolon',''),('stmtEnded',''),('consumeOptionalSemicolon','')]
def nm(n): return n if '?' not in n else n
body=''
def names(i): return ' '.join(re.findall(r'\{(\w+) :',i))
for n,i in prims:
    body+=f"theorem {n}_agree {i} : Agree i j (letI := i; {n} {names(i)}) (letI := j; {n} {names(i)}) :=\n  Agree.gets _\n\n".replace(' )',')').replace('  :',' :')
for n,i in comp:
    body+=f"theorem {n}_agree {i} : Agree i j (letI := i; {n} {names(i)}) (letI := j; {n} {names(i)}) := by\n  unfold Parser.{n}\n  ag\n\n".replace(' )',')').replace('  :',' :')
body+="/-! ## The functions of the parser -/\n\n"
def argnames(a):
    res=[]
    for br,g in re.findall(r'([\(\{])([^:\)\}]*):',a):
        for n in g.split():
            if br=='(' : res.append(n)
    return res
special={'currentUnwrapStart'}
for name,args,bd,usesr,f in out:
    if name in special:
        continue
    an=argnames(args)
    iargs=args.replace('(','{').replace(')','}')
    if name in ('recursiveBinaryExpr','binaryExpr','logicalExpr'):
        if name=='recursiveBinaryExpr':
            body+='''theorem recursiveBinaryExpr_agree (hr : Agrees i j r r') {α : Type} {next next' : P Expr} (hn : Agree i j next next') {mapOp : TokVal → Option α}
    {create : Span → Expr → Expr → α → Expr} : Agree i j (letI := i; recursiveBinaryExpr r next mapOp create) (letI := j; recursiveBinaryExpr r' next' mapOp create) := by
  unfold recursiveBinaryExpr
  repeat' (first | exact hn | ag_step)

'''
        else:
            ot='BinaryOp' if name=='binaryExpr' else 'LogicalOp'
            body+=f'''theorem {name}_agree (hr : Agrees i j r r') {{next next' : P Expr}} (hn : Agree i j next next') {{mapOp : TokVal → Option {ot}}} :
    Agree i j (letI := i; {name} r next mapOp) (letI := j; {name} r' next' mapOp) := by
  unfold {name}
  exact recursiveBinaryExpr_agree hr hn

'''
        continue
    if name=='optionalOperator': iargs='{α : Type} {f : TokVal → Option α}'
    call=(lambda r: f"{name} {r} "+' '.join(an)) if usesr else (lambda r: f"{name} "+' '.join(an))
    hr="(hr : Agrees i j r r') " if usesr else ''
    body+=f"theorem {name}_agree {hr}{iargs} : Agree i j (letI := i; {call('r').strip()}) (letI := j; {call(chr(114)+chr(39)).strip()}) := by\n  unfold Parser.{name}\n".replace('  :',' :')
    mm=re.match(r'\s*(binaryExpr|logicalExpr) r \((\S+) r ctx\)|\s*binaryExpr r \(r.unary ctx\)',bd)
    if mm:
        if mm.group(1): body+=f"  exact {mm.group(1)}_agree hr ({mm.group(2)}_agree hr)\n"
        else: body+=f"  exact binaryExpr_agree hr (hr.unary _)\n"
    else: body+="  ag\n"
    body+="\n"
TAIL='''theorem mkRec_agree (n : Nat) : Agrees i j (letI := i; mkRec n) (letI := j; mkRec n) := by
  induction n with
  | zero =>
    exact ⟨rfl, fun _ => Agree.oof, fun _ => Agree.oof, fun _ => Agree.oof, fun _ => Agree.oof, fun _ => Agree.oof, fun _ => Agree.oof,
      fun _ => Agree.oof, fun _ => Agree.oof⟩
  | succ n ih =>
    simp only [mkRec]
    generalize @mkRec i n = r at ih ⊢
    generalize @mkRec j n = r' at ih ⊢
    exact ⟨rfl, fun _ => assignExpr_agree ih, fun _ => unary_agree ih, fun _ => newOrMember_agree ih, fun _ => bindingPattern_agree ih,
      fun _ => assignPattern_agree ih, fun _ => stmt_agree ih, fun _ => declOrStmt_agree ih, fun _ => declaration_agree ih⟩

theorem start_agree {src : Str} (h : SameChars i j src) (st : SourceType) :
    ResS (fun s : PState => LexG i j s.lx) (letI := i; start src st) (letI := j; start src st) := by
  unfold start
  exact Agree.bind (liftLx_agree pull_agree) (fun x => Agree.bind (liftLx_agree pull_agree) fun y => modify_agree) _ ⟨h, h⟩

/-- Parsing does the same with the two tables. -/
theorem parse_agree {α : Type} {m m' : Rec → P α} (hm : ∀ {r r'}, Agrees i j r r' → Agree i j (m r) (m' r')) {src : Str}
    (h : SameChars i j src) (st : SourceType) : (letI := i; parse m src st) = (letI := j; parse m' src st) := by
  have key : ResS (fun s : PState => LexG i j s.lx) (letI := i; parse m src st) (letI := j; parse m' src st) := by
    unfold parse
    have := start_agree h st
    revert this
    cases @start i src st <;> cases @start j src st <;> intro this <;> try exact this.elim
    · obtain ⟨rfl, rfl, h⟩ := this; exact hm (mkRec_agree _) _ h
    · exact this
    · exact this
    · trivial
  revert key
  cases @parse i α m src st <;> cases @parse j α m' src st <;> intro key <;> try exact key.elim
  · obtain ⟨rfl, rfl, -⟩ := key; rfl
  · obtain ⟨rfl, rfl, -⟩ := key; rfl
  · cases key; rfl
  · rfl

end

end Fajt.Tables
'''
open('/verif/lean/Verif/Proofs/TablesSim.lean','w').write(HDR+body+TAIL)
