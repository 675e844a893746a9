import re
src=open('/verif/lean/Verif/Model/Parser.lean').read()
# split into defs
parts=re.split(r'(?m)^(?=def |/--|namespace|end |open |variable|@\[|/-!)',src)
out=[]
for p in parts:
    m=re.match(r'def (\S+)((?:\s*[\(\{][^:=]*?:[^=]*?[\)\}])*)\s*:\s*P (.*?):=(.*)',p,re.S)
    if not m: continue
    name,args,ty,body=m.groups()
    if name.startswith('_root_'): continue
    if not re.search(r'(?<![\w.«])r\b(?!\w)',body): continue
    out.append((name,args.strip(),body))
hdr='''import Verif.Proofs.Debug
import Lean.Elab.Tactic.ElabTerm
/-!
# A debug build does the same or panics

`Sim m m'`: `m'` has the outcome of `m`, or panics.  Each function of the parser of a debug build is in this relation with the function
of a release build; one theorem per function of `Verif.Model.Parser` that calls another entry point.  Written by `tools/gensim.py`.
-/
namespace Fajt.Debug
open Lean Elab Tactic Meta
set_option linter.unusedSectionVars false
set_option linter.unusedVariables false
variable [UnicodeID]

/-- The second computation has the outcome of the first, or panics. -/
def Sim {α : Type} (m m' : P α) : Prop := ∀ s, m' s = m s ∨ ∃ w, m' s = .panic w

section
variable {α β : Type}

theorem Sim.refl (m : P α) : Sim m m := fun _ => .inl rfl

theorem Sim.bind {m m' : P α} {f f' : α → P β} (h1 : Sim m m') (h2 : ∀ x, Sim (f x) (f' x)) : Sim (m >>= f) (m' >>= f') := by
  intro s
  show M.bind m' f' s = M.bind m f s ∨ ∃ w, M.bind m' f' s = .panic w
  unfold M.bind
  rcases h1 s with h | ⟨w, h⟩
  · rw [h]
    cases m s
    · exact h2 _ _
    all_goals exact .inl rfl
  · rw [h]; exact .inr ⟨w, rfl⟩

theorem Sim.attempt {m m' : P α} {f f' : α → P β} {g g' : PErr → P β} (h1 : Sim m m') (h2 : ∀ x, Sim (f x) (f' x))
    (h3 : ∀ e, Sim (g e) (g' e)) : Sim (M.attempt m f g) (M.attempt m' f' g') := by
  intro s
  unfold M.attempt
  rcases h1 s with h | ⟨w, h⟩
  · rw [h]
    cases m s
    · exact h2 _ _
    · exact h3 _ _
    all_goals exact .inl rfl
  · rw [h]; exact .inr ⟨w, rfl⟩

theorem Sim.ite {p : Prop} [Decidable p] {a a' b b' : P α} (h1 : Sim a a') (h2 : Sim b b') :
    Sim (if p then a else b) (if p then a' else b') := by split <;> assumption

theorem Sim.loop {f f' : β → P (β ⊕ α)} (h : ∀ b, Sim (f b) (f' b)) {n n' : Nat} (hn : n' = n) {b : β} :
    Sim (Fajt.loop f n b) (Fajt.loop f' n' b) := by
  subst hn
  induction n' generalizing b with
  | zero => exact Sim.refl _
  | succ n ih =>
    refine Sim.bind (h b) fun x => ?_
    cases x
    · exact ih
    · exact Sim.refl _

theorem Sim.thenTry {b : Bool} {m m' : P α} (h : Sim m m') : Sim (Parser.thenTry b m) (Parser.thenTry b m') := by
  unfold Parser.thenTry
  exact Sim.ite (Sim.bind h fun _ => Sim.refl _) (Sim.refl _)

theorem Sim.assert {c : Bool} {m m' : P α} (h : Sim m m') : Sim m (debugAssert c >>= fun _ => m') := by
  intro s
  cases c
  · exact .inr ⟨_, rfl⟩
  · exact h s
end

/-- The entry points of the second record do what those of the first do, or panic. -/
structure Sims (r r' : Rec) : Prop where
  fuel : r'.fuel = r.fuel
  assignExpr : ∀ ctx, Sim (r.assignExpr ctx) (r'.assignExpr ctx)
  unary : ∀ ctx, Sim (r.unary ctx) (r'.unary ctx)
  newOrMember : ∀ ctx, Sim (r.newOrMember ctx) (r'.newOrMember ctx)
  bindingPattern : ∀ ctx, Sim (r.bindingPattern ctx) (r'.bindingPattern ctx)
  assignPattern : ∀ ctx, Sim (r.assignPattern ctx) (r'.assignPattern ctx)
  stmt : ∀ ctx, Sim (r.stmt ctx) (r'.stmt ctx)
  declOrStmt : ∀ ctx, Sim (r.declOrStmt ctx) (r'.declOrStmt ctx)
  declaration : ∀ ctx, Sim (r.declaration ctx) (r'.declaration ctx)

/-- Use the theorem about the function at the head of the goal. -/
elab "sm_known" : tactic => withMainContext do
  let g ← getMainGoal
  let t ← whnfR (← instantiateMVars (← g.getType))
  unless t.isAppOf ``Sim do throwError "not a Sim"
  let args := t.getAppArgs
  let .const n _ := (args[args.size - 2]!.headBeta).getAppFn | throwError "no head"
  let .str p b := n | throwError "no name"
  let lem := if p == `Fajt.Rec then `Fajt.Debug.Sims ++ Name.mkSimple b else `Fajt.Debug ++ Name.mkSimple (b ++ "_sim")
  let c ← mkConstWithFreshMVarLevels lem
  let gs ← withReducible (g.apply c)

  replaceMainGoal gs

/-- Name the result of the first of two computations. -/
elab "sm_intro" : tactic => withMainContext do
  let t ← whnfR (← instantiateMVars (← (← getMainGoal).getType))
  unless t.isForall do throwError "no quantifier"
  let (_, g) ← (← getMainGoal).intro1
  replaceMainGoal [g]

/-- One step. -/
macro "sm_step" : tactic => `(tactic| first
  | with_reducible exact Sim.refl _
  | (sm_known <;> assumption)
  | sm_intro
  | with_reducible (refine Sim.bind ?_ ?_)
  | with_reducible (refine Sim.attempt ?_ ?_ ?_)
  | with_reducible (refine Sim.loop ?_ (Sims.fuel ‹_›))
  | with_reducible (refine Sim.thenTry ?_)
  | with_reducible (refine Sim.ite ?_ ?_)
  | split)

/-- Prove that a computation has the outcome of another one or panics. -/
macro "sm" : tactic => `(tactic| repeat' sm_step)

section
open Parser
variable {r r' : Rec}

'''
tail='''/-! ## The functions with assertions -/

theorem asyncFunctionExpr_debug (hr : Sims r r') {ctx : Ctx} : Sim (asyncFunctionExpr r ctx) (DebugParser.asyncFunctionExpr r' ctx) := by
  unfold Parser.asyncFunctionExpr DebugParser.asyncFunctionExpr
  refine Sim.bind (Sim.refl _) fun _ => Sim.bind (Sim.refl _) fun _ => Sim.bind (Sim.refl _) fun _ => Sim.assert ?_
  sm

theorem asyncFunctionDeclaration_debug (hr : Sims r r') {ctx : Ctx} :
    Sim (asyncFunctionDeclaration r ctx) (DebugParser.asyncFunctionDeclaration r' ctx) := by
  unfold Parser.asyncFunctionDeclaration DebugParser.asyncFunctionDeclaration
  refine Sim.bind (Sim.refl _) fun _ => Sim.bind (Sim.refl _) fun _ => Sim.bind (Sim.refl _) fun _ => Sim.assert ?_
  sm

theorem rereadRegexp_debug : Sim rereadRegexp DebugParser.rereadRegexp := by
  unfold Parser.rereadRegexp DebugParser.rereadRegexp
  refine Sim.bind (Sim.refl _) fun _ => ?_
  intro s
  show M.bind _ _ s = _ ∨ ∃ w, M.bind _ _ s = _
  unfold M.bind
  cases literal s with
  | ok e s' => exact Sim.assert (c := _) (Sim.refl (Pure.pure e)) s'
  | _ => exact .inl rfl

theorem primaryExpr_debug (hr : Sims r r') {ctx : Ctx} : Sim (primaryExpr r ctx) (DebugParser.primaryExpr r' ctx) := by
  unfold Parser.primaryExpr DebugParser.primaryExpr
  refine Sim.bind (Sim.refl _) fun t => ?_
  generalize t.value = v
  split
  case h_13 h1 h2 h3 h4 h5 h6 h7 h8 h9 h10 h11 h12 =>
    split
    case h_13 => repeat' (first | with_reducible exact asyncFunctionExpr_debug hr | exact rereadRegexp_debug | sm_step)
    case h_5 => exact absurd rfl (h5 _)
    case h_11 => exact absurd rfl (h11 _)
    all_goals contradiction
  all_goals
    dsimp only
    first
    | exact rereadRegexp_debug
    | sm

theorem memberExprFromTerminal_debug (hr : Sims r r') {ctx : Ctx} :
    Sim (memberExprFromTerminal r ctx) (DebugParser.memberExprFromTerminal r' ctx) := by
  unfold Parser.memberExprFromTerminal DebugParser.memberExprFromTerminal
  repeat' (first | with_reducible exact primaryExpr_debug hr | sm_step)

theorem newOrMember_debug (hr : Sims r r') {ctx : Ctx} : Sim (newOrMember r ctx) (DebugParser.newOrMember r' ctx) := by
  unfold Parser.newOrMember DebugParser.newOrMember
  repeat' (first | with_reducible exact memberExprFromTerminal_debug hr | sm_step)
  all_goals (exfalso; simp_all; done)

theorem declaration_debug (hr : Sims r r') {ctx : Ctx} : Sim (declaration r ctx) (DebugParser.declaration r' ctx) := by
  unfold Parser.declaration DebugParser.declaration
  repeat' (first | with_reducible exact asyncFunctionDeclaration_debug hr | sm_step)

theorem mkRec_sim (n : Nat) : Sims (mkRec n) (DebugParser.mkRecD n) := by
  induction n with
  | zero =>
    rw [show DebugParser.mkRecD 0 = mkRec 0 from rfl]
    exact ⟨rfl, fun _ => Sim.refl _, fun _ => Sim.refl _, fun _ => Sim.refl _, fun _ => Sim.refl _, fun _ => Sim.refl _,
      fun _ => Sim.refl _, fun _ => Sim.refl _, fun _ => Sim.refl _⟩
  | succ n ih =>
    rw [mkRec, DebugParser.mkRecD]
    generalize mkRec n = r at ih ⊢
    generalize DebugParser.mkRecD n = r' at ih ⊢
    exact ⟨rfl, fun _ => assignExpr_sim ih, fun _ => unary_sim ih, fun _ => newOrMember_debug ih, fun _ => bindingPattern_sim ih,
      fun _ => assignPattern_sim ih, fun _ => stmt_sim ih, fun _ => declOrStmt_sim ih, fun _ => declaration_debug ih⟩

/-- Parsing in a debug build ends as in a release build, or panics. -/
theorem parse_sim {α : Type} {m : Rec → P α} (hm : ∀ r r', Sims r r' → Sim (m r) (m r')) (src : Str) (styp : SourceType) :
    DebugParser.parse m src styp = Parser.parse m src styp ∨ ∃ w, DebugParser.parse m src styp = .panic w := by
  unfold DebugParser.parse Parser.parse
  have h := mkRec_sim (enoughFuel src)
  generalize mkRec (enoughFuel src) = r at h ⊢
  generalize DebugParser.mkRecD (enoughFuel src) = r' at h ⊢
  cases start src styp with
  | ok u s => exact hm _ _ h _
  | _ => exact .inl rfl

end

end Fajt.Debug
'''
body=''
def argnames(a):
    res=[]; imp=[]
    for br,g in re.findall(r'([\(\{])([^:\)\}]*):',a):
        for n in g.split():
            if br=='(' : res.append(n)
    return res
for name,args,b in out:
    an=argnames(args)
    iargs=args.replace('(','{').replace(')','}') if not 'Option α' in args and not 'P Expr' in args else None
    if name in ('recursiveBinaryExpr','binaryExpr','logicalExpr'):
        continue_special=True
        if name=='recursiveBinaryExpr':
            body+='''theorem recursiveBinaryExpr_sim (hr : Sims r r') {α : Type} {next next' : P Expr} (hn : Sim next next') {mapOp : TokVal → Option α}
    {create : Span → Expr → Expr → α → Expr} : Sim (recursiveBinaryExpr r next mapOp create) (recursiveBinaryExpr r' next' mapOp create) := by
  unfold recursiveBinaryExpr
  repeat' (first | exact hn | sm_step)

'''
        else:
            ot='BinaryOp' if name=='binaryExpr' else 'LogicalOp'
            body+=f'''theorem {name}_sim (hr : Sims r r') {{next next' : P Expr}} (hn : Sim next next') {{mapOp : TokVal → Option {ot}}} :
    Sim ({name} r next mapOp) ({name} r' next' mapOp) := by
  unfold {name}
  exact recursiveBinaryExpr_sim hr hn

'''
        continue
    call=lambda r: f"{name} {r} "+' '.join(an)
    body+=f"theorem {name}_sim (hr : Sims r r') {iargs} : Sim ({call('r').strip()}) ({call(chr(114)+chr(39)).strip()}) := by\n  unfold Parser.{name}\n"
    mm=re.match(r'\s*(binaryExpr|logicalExpr) r \((\S+) r ctx\)|\s*binaryExpr r \(r.unary ctx\)',b)
    if mm:
        if mm.group(1): body+=f"  exact {mm.group(1)}_sim hr ({mm.group(2)}_sim hr)\n"
        else: body+=f"  exact binaryExpr_sim hr (hr.unary _)\n"
    else: body+="  sm\n"
    body+="\n"
open('/verif/lean/Verif/Proofs/DebugSim.lean','w').write(hdr+body+tail)
print(len(out),[o[0] for o in out][-8:])
