import Verif.Proofs.MutateRead
import Verif.Proofs.MutateRewrite
/-!
# C54: visitors that change the tree

`MVisitor.traverse n` is the traversal with recursion no deeper than `n`; `none` means that the recursion is deeper.
-/
namespace Fajt.Props

/-- A call of a hook, with the node it is given. -/
inductive Hook where
  | enter (k : Kind) (a : k.Val)
  | exit (k : Kind) (a : k.Val)

/-- Record the calls made to a visitor. -/
def mrecording {σ : Type} (v : MVisitor σ) : MVisitor (σ × List Hook) where
  enter k a s := ((v.enter k a s.1).1, (v.enter k a s.1).2.1, (v.enter k a s.1).2.2, s.2 ++ [.enter k a])
  exit k a s := ((v.exit k a s.1).1, (v.exit k a s.1).2, s.2 ++ [.exit k a])

/-- Well-nested sequences of calls: every enter is followed by a well-nested sequence and the exit of a node of the same type. -/
inductive WellNested : List Hook → Prop
  | nil : WellNested []
  | node (k : Kind) (a b : k.Val) {w w' : List Hook} : WellNested w → WellNested w' →
      WellNested (.enter k a :: w ++ .exit k b :: w')

theorem WellNested.append {w w' : List Hook} (h : WellNested w) (h' : WellNested w') : WellNested (w ++ w') := by
  induction h with
  | nil => exact h'
  | node k a b h1 _ _ ih =>
    have := WellNested.node k a b h1 ih
    simpa using this

/-- The calls of a plan. -/
theorem run_recorded {σ α : Type} {tr : (k : Kind) → k.Val → σ → Option (k.Val × σ)}
    {tr' : (k : Kind) → k.Val → σ × List Hook → Option (k.Val × σ × List Hook)}
    (h : ∀ k x s y s' l, tr k x s = some (y, s') → ∃ w, tr' k x (s, l) = some (y, s', l ++ w) ∧ WellNested w)
    (p : Plan α) (s : σ) (b : α) (s' : σ) (l : List Hook) (hr : p.run tr s = some (b, s')) :
    ∃ w, p.run tr' (s, l) = some (b, s', l ++ w) ∧ WellNested w := by
  induction p generalizing s l with
  | ret a =>
    cases hr
    exact ⟨[], by simp [Plan.run], .nil⟩
  | visit k x c ih =>
    simp only [Plan.run] at hr
    cases hx : tr k x s with
    | none => rw [hx] at hr; cases hr
    | some y =>
      rw [hx] at hr
      obtain ⟨w, h1, h2⟩ := h k x s _ _ l hx
      obtain ⟨w', h3, h4⟩ := ih y.1 y.2 (l ++ w) hr
      exact ⟨w ++ w', by simp only [Plan.run, h1, h3, List.append_assoc], h2.append h4⟩

theorem traverse_recorded {σ : Type} (v : MVisitor σ) : ∀ (n : Nat) (k : Kind) (a : k.Val) (s : σ) (a' : k.Val) (s' : σ)
    (l : List Hook), v.traverse n k a s = some (a', s') → ∃ w b s'', (mrecording v).traverse n k a (s, l) =
      some (a', s', l ++ .enter k a :: (w ++ [.exit k b])) ∧ WellNested w ∧ v.exit k b s'' = (a', s')
  | 0, _, _, _, _, _, _, h => by cases h
  | n + 1, k, a, s, a', s', l, h => by
    rw [MVisitor.traverse_succ] at h ⊢
    rcases he : v.enter k a s with ⟨d, a1, s1⟩
    rw [he] at h
    have he' : (mrecording v).enter k a (s, l) = (d, a1, s1, l ++ [.enter k a]) := by simp [mrecording, he]
    rw [he']
    cases d with
    | false =>
      simp only [Option.some.injEq] at h
      exact ⟨[], a1, s1, by simp [mrecording, h], .nil, h⟩
    | true =>
      simp only at h ⊢
      cases hr : (plan k a1).run (v.traverse n) s1 with
      | none => rw [hr] at h; cases h
      | some r =>
        rw [hr] at h
        simp only [Option.some.injEq] at h
        obtain ⟨w, h1, h2⟩ := run_recorded (tr' := (mrecording v).traverse n)
          (fun k x s y s' l hx => by
            obtain ⟨w, b, _, h3, h4, _⟩ := traverse_recorded v n k x s y s' l hx
            exact ⟨_, h3, by simpa using WellNested.node k x b h4 .nil⟩) _ s1 r.1 r.2 (l ++ [.enter k a]) hr
        rw [h1]
        exact ⟨w, r.1, r.2, by simp [mrecording, h], h2, h⟩

/-- **C54**. Whatever the hooks do to the nodes, their calls are well-nested: the enter hook of the node, a well-nested sequence, and
the exit hook of the same type; what the last exit hook returns is what becomes of the node.  Recording the calls changes nothing. -/
theorem C54_balanced {σ : Type} (v : MVisitor σ) (n : Nat) (k : Kind) (a a' : k.Val) (s s' : σ)
    (h : v.traverse n k a s = some (a', s')) :
    ∃ w b s'', (mrecording v).traverse n k a (s, []) = some (a', s', .enter k a :: (w ++ [.exit k b])) ∧ WellNested w ∧
      v.exit k b s'' = (a', s') := by
  simpa using traverse_recorded v n k a s a' s' [] h

/-- **C54**: an enter hook that returns `false` keeps the traversal out of the node: only the two hooks of the node are called, and
the node becomes what they make of it. -/
theorem C54_skip {σ : Type} (v : MVisitor σ) (n : Nat) (k : Kind) (a : k.Val) (s : σ) (h : (v.enter k a s).1 = false) :
    (mrecording v).traverse (n + 1) k a (s, []) =
      some ((v.exit k (v.enter k a s).2.1 (v.enter k a s).2.2).1, (v.exit k (v.enter k a s).2.1 (v.enter k a s).2.2).2,
        [.enter k a, .exit k (v.enter k a s).2.1]) := by
  rw [MVisitor.traverse_succ]
  rcases he : v.enter k a s with ⟨d, a1, s1⟩
  rw [he] at h
  simp only at h
  subst h
  simp [mrecording, he]

/-- **C54**: the traversal goes on with the node as the enter hook left it: two nodes of which the enter hook makes the same are
traversed alike. -/
theorem C54_replacement {σ : Type} (v : MVisitor σ) (n : Nat) (k : Kind) (a b : k.Val) (s t : σ) (h : v.enter k a s = v.enter k b t) :
    v.traverse n k a s = v.traverse n k b t := by
  cases n with
  | zero => rfl
  | succ n => rw [MVisitor.traverse_succ, MVisitor.traverse_succ, h]

/-- **C54**: the bound on the depth does not matter once it is large enough. -/
theorem C54_bound {σ : Type} (v : MVisitor σ) {n m : Nat} (hnm : n ≤ m) (k : Kind) (a : k.Val) (s : σ) (r : k.Val × σ)
    (h : v.traverse n k a s = some r) : v.traverse m k a s = some r := v.traverse_mono hnm h

/-- **C54**: if no hook makes a node larger, the traversal of any tree ends, and the tree does not become larger. -/
theorem C54_terminates {σ : Type} (v : MVisitor σ)
    (h : ∀ (k : Kind) (a : k.Val) (s : σ), k.size (v.enter k a s).2.1 ≤ k.size a ∧ k.size (v.exit k a s).1 ≤ k.size a)
    (k : Kind) (a : k.Val) (s : σ) :
    ∃ a' s', k.size a' ≤ k.size a ∧ ∀ n, k.size a < n → v.traverse n k a s = some (a', s') := by
  have H : ∀ n, k.size a < n → ∃ a' s', v.traverse n k a s = some (a', s') ∧ k.size a' ≤ k.size a := fun n hn =>
    v.traverse_total (fun _ _ => True) (fun k a => k.size a) (fun k a b => k.size b ≤ k.size a)
      (fun k a s _ b a1 s1 he => by
        have he1 : a1 = (v.enter k a s).2.1 := by rw [he]
        have h1 := (h k a s).1
        rw [← he1] at h1
        refine ⟨fun _ => Nat.le_trans (h k a1 s1).2 h1, fun _ => ?_⟩
        refine Plan.wp_mono (plan_shrinks k a1) (fun j x hx => ⟨trivial, Nat.lt_of_lt_of_le hx h1⟩) (fun _ _ _ h => h) ?_
        intro a2 h2 s2
        exact Nat.le_trans (h k a2 s2).2 (Nat.le_trans h2 h1)) n k a s trivial hn
  obtain ⟨a', s', h1, h2⟩ := H _ (Nat.lt_succ_self _)
  exact ⟨a', s', h2, fun n hn => v.traverse_mono hn h1⟩

/-- **C54**: a visitor that does not change nodes leaves any tree as it is, and its hooks are called as described by C41 and C42: its
state after the traversal is that after the traversal of `Verif.Model.Traverse`. -/
theorem C54_read_only {σ : Type} (v : Visitor σ) (p : Program) (s : σ) (n : Nat) (h : Kind.size .program p < n) :
    v.reading.traverse n .program p s = some (p, p.ttree.traverse v s) := by
  obtain ⟨a', s', _, h2⟩ := C54_terminates v.reading (fun k a s => ⟨Nat.le_refl _, Nat.le_refl _⟩) .program p s
  have h3 := h2 n h
  have := traverse_reading v n .program p s _ h3
  rw [h3, this]
  rfl

/-- **C54**: bottom-up rewriting.  If the enter hooks change nothing, then the traversal of a tree without the constructs of C42
ends, whatever the exit hooks do. -/
theorem C54_bottom_up {σ : Type} (v : MVisitor σ) (h : ∀ (k : Kind) (a : k.Val) (s : σ), (v.enter k a s).2.1 = a)
    (k : Kind) (a : k.Val) (hp : k.Plain a) (s : σ) :
    ∃ a' s', ∀ n, k.size a < n → v.traverse n k a s = some (a', s') := by
  have H : ∀ n, k.size a < n → ∃ a' s', v.traverse n k a s = some (a', s') ∧ True := fun n hn =>
    v.traverse_total (fun k a => k.Plain a) (fun k a => k.size a) (fun _ _ _ => True)
      (fun k a s hV b a1 s1 he => by
        have he1 := h k a s
        rw [he] at he1
        simp only at he1
        subst he1
        exact ⟨fun _ => trivial, fun _ => Plan.wp_mono (plan_plain k _ hV) (fun _ _ h => h) (fun _ _ _ h => h)
          (fun _ _ _ => trivial)⟩) n k a s hp hn
  obtain ⟨a', s', h1, _⟩ := H _ (Nat.lt_succ_self _)
  exact ⟨a', s', fun n hn => v.traverse_mono hn h1⟩

theorem leaf_size (k : Kind) (h : k.isLeaf = true) (a b : k.Val) : k.size a = k.size b := by
  cases k <;> first | rfl | cases h

theorem leaf_plan (k : Kind) (h : k.isLeaf = true) (a : k.Val) : plan k a = .ret a := by
  cases k <;> first | rfl | cases h

theorem leaf_reached (m : LeafMap) (k : Kind) (h : k.isLeaf = true) (a : k.Val) : k.mapReached m a = k.mapLeaves m a := by
  cases k <;> first | rfl | cases h

/-- **C54**: a visitor that changes leaves only (identifiers, strings, numbers, operators) changes exactly those leaves of the tree
that are reached, as often as they are reached: the conditions of conditional expressions and named imports twice; alternates of
conditional expressions, namespace imports, assignment patterns and declarations of for-in and for-of statements never. -/
theorem C54_leaves_reached {σ : Type} (v : MVisitor σ) (m : LeafMap) (h : Rewrites v m) (k : Kind) (a : k.Val) (s : σ) :
    ∃ s', ∀ n, k.size a < n → v.traverse n k a s = some (k.mapReached m a, s') := by
  have H : ∀ n, k.size a < n → ∃ a' s', v.traverse n k a s = some (a', s') ∧ k.size a' ≤ k.size a := fun n hn =>
    v.traverse_total (fun _ _ => True) (fun k a => k.size a) (fun k a b => k.size b ≤ k.size a)
      (fun k a s _ b a1 s1 he => by
        have hr := h k a s
        rw [he] at hr
        cases hl : k.isLeaf with
        | true =>
          refine ⟨fun _ => Nat.le_of_eq (leaf_size k hl _ _), fun _ => ?_⟩
          rw [leaf_plan k hl]
          exact fun _ => Nat.le_of_eq (leaf_size k hl _ _)
        | false =>
          have h1 := (hr.2.2 hl).1
          simp only at h1
          subst h1
          refine ⟨fun _ => Nat.le_of_eq (congrArg _ ((h k _ s1).2.2 hl).2), fun _ => ?_⟩
          refine Plan.wp_mono (plan_shrinks k _) (fun j x hx => ⟨trivial, hx⟩) (fun _ _ _ h => h) ?_
          intro a2 h2 s2
          rw [((h k a2 s2).2.2 hl).2]
          exact h2) n k a s trivial hn
  have HR : ∀ n a' s', v.traverse n k a s = some (a', s') → a' = k.mapReached m a := fun n a' s' ht =>
    v.traverse_rel (fun _ _ => True) (fun k a b => b = k.mapReached m a)
      (fun k a s _ b a1 s1 he => by
        have hr := h k a s
        rw [he] at hr
        refine ⟨fun hb => ?_, fun _ => ?_⟩
        · subst hb
          exact Bool.noConfusion hr.1
        · cases hl : k.isLeaf with
          | true =>
            rw [leaf_plan k hl]
            intro s2
            rw [leaf_reached m k hl]
            exact hr.2.1 hl s2
          | false =>
            have h1 := (hr.2.2 hl).1
            simp only at h1
            subst h1
            refine Plan.wp_mono (plan_reaches m k _ hl) (fun _ _ h => h) (fun _ _ _ h => h) ?_
            intro a2 h2 s2
            rw [((h k a2 s2).2.2 hl).2]
            exact h2) n k a s a' s' trivial ht
  obtain ⟨a', s', h1, _⟩ := H _ (Nat.lt_succ_self _)
  have := HR _ _ _ h1
  subst this
  exact ⟨s', fun n hn => v.traverse_mono hn h1⟩

set_option linter.unusedSimpArgs false in
theorem kind_reach_plain (m : LeafMap) (k : Kind) (a : k.Val) (h : k.Plain a) : k.mapReached m a = k.mapLeaves m a := by
  cases k <;> first
    | rfl
    | (simp only [Kind.Val] at a
       simp only [Kind.Plain] at h
       simp only [Kind.mapReached, Kind.mapLeaves]
       simp [*, Expr.reach_plain, Literal.reach_plain, TemplatePart.reach_plain, ArrayElement.reach_plain, PropDef.reach_plain, PropName.reach_plain, MethodDef.reach_plain, FormalParams.reach_plain, Body.reach_plain, ArrowBody.reach_plain, MemberObject.reach_plain, MemberProp.reach_plain, Argument.reach_plain, Callee.reach_plain, BindingPattern.reach_plain, BindingProp.reach_plain, BindingElement.reach_plain, PatternOrExpr.reach_plain, Stmt.reach_plain, Block.reach_plain, VarStmt.reach_plain, VarDecl.reach_plain, CatchClause.reach_plain, SwitchCase.reach_plain, ForInit.reach_plain, ForDecl.reach_plain, ExportDecl.reach_plain, reach_plainExprs, reach_plainArguments, reach_plainArrayElements, reach_plainBindingElements, reach_plainBindingProps, reach_plainMethodDefs, reach_plainPropDefs, reach_plainStmts, reach_plainSwitchCases, reach_plainTemplateParts, reach_plainVarDecls, reach_plainOptBindingElement, reach_plainOptBindingPattern, reach_plainOptBlock, reach_plainOptCatchClause, reach_plainOptExpr, reach_plainOptForInit, reach_plainOptStmt, reach_plainOptBindingElements])
    | exact h.elim

/-- **C54**: in a tree without the constructs of C42 (conditional expressions, imports of names, assignment patterns, for-in and
for-of declarations) a visitor that changes leaves only changes every leaf, exactly once, and nothing else. -/
theorem C54_leaves {σ : Type} (v : MVisitor σ) (m : LeafMap) (h : Rewrites v m) (k : Kind) (a : k.Val) (hp : k.Plain a) (s : σ) :
    ∃ s', ∀ n, k.size a < n → v.traverse n k a s = some (k.mapLeaves m a, s') := by
  rw [← kind_reach_plain m k a hp]
  exact C54_leaves_reached v m h k a s

/-- A visitor that changes leaves in its exit hooks meets the hypothesis of `C54_leaves` and `C54_leaves_reached`. -/
theorem rewrites_visitor (m : LeafMap) : Rewrites m.visitor m := by
  intro k a s
  refine ⟨rfl, fun h s' => ?_, fun h => ⟨rfl, ?_⟩⟩ <;> simp [LeafMap.visitor, h]

/-- So does one that changes them in its enter hooks. -/
theorem rewrites_enter (m : LeafMap) : Rewrites (σ := Unit)
    { enter := fun k a s => (true, if k.isLeaf then k.mapLeaves m a else a, s), exit := fun _ a s => (a, s) } m := by
  intro k a s
  refine ⟨rfl, fun h s' => ?_, fun h => ⟨?_, rfl⟩⟩ <;> simp [h]

/-! ## Examples -/

/-- An identifier of one letter. -/
def idExpr (c : Char) : Expr := .ident ⟨⟨0, 1⟩, [c]⟩

/-- Append a letter to names. -/
def primed : LeafMap := { ident := fun i => ⟨i.span, i.name ++ ['_']⟩ }

/-- `a(b);` -/
def plainProgram : Program := ⟨.script, ⟨0, 5⟩, [], [.expr ⟨0, 5⟩ (.call ⟨0, 4⟩ (.expr (idExpr 'a')) ⟨1, 4⟩ [.expr (idExpr 'b')])]⟩

example : Kind.Plain .program plainProgram := by
  simp [Kind.Plain, plainProgram, plainStmts, Stmt.Plain, Expr.Plain, Callee.Plain, plainArguments, Argument.Plain, idExpr]

/-- Both names of `a(b);` are changed, once. -/
example : primed.visitor.traverse 100 .program plainProgram () = some (⟨.script, ⟨0, 5⟩, [], [.expr ⟨0, 5⟩ (.call ⟨0, 4⟩
    (.expr (.ident ⟨⟨0, 1⟩, ['a', '_']⟩)) ⟨1, 4⟩ [.expr (.ident ⟨⟨0, 1⟩, ['b', '_']⟩)])]⟩, ()) := rfl

/-- The hooks of `reading` visitors, and of visitors that change leaves, make no node larger. -/
example (m : LeafMap) (k : Kind) (a : k.Val) (s : Unit) :
    k.size (m.visitor.enter k a s).2.1 ≤ k.size a ∧ k.size (m.visitor.exit k a s).1 ≤ k.size a := by
  refine ⟨Nat.le_refl _, ?_⟩
  cases h : k.isLeaf with
  | true => exact Nat.le_of_eq (leaf_size k h _ _)
  | false => simp [LeafMap.visitor, h]

/-- **C54**, a deviation: renaming changes the name in the condition of `a ? b : c` twice, that of the alternate never. -/
theorem C54_conditional_witness :
    primed.visitor.traverse 100 .expr (.conditional ⟨0, 9⟩ (idExpr 'a') (idExpr 'b') (idExpr 'c')) () =
      some (.conditional ⟨0, 9⟩ (.ident ⟨⟨0, 1⟩, ['a', '_', '_']⟩) (.ident ⟨⟨0, 1⟩, ['b', '_']⟩) (idExpr 'c'), ()) := rfl

/-- Put every expression in parentheses on entering it. -/
def wrapping : MVisitor Unit where
  enter k := match k with
    | .expr => fun e s => (true, .paren ⟨0, 0⟩ e, s)
    | _ => fun a s => (true, a, s)
  exit _ a s := (a, s)

/-- **C54**, why a bound is needed: a visitor that wraps expressions on entering them never comes to an end, on any expression. -/
theorem C54_divergence_witness (n : Nat) (e : Expr) : wrapping.traverse n .expr e () = none := by
  induction n using Nat.strongRecOn generalizing e with
  | _ n ih =>
    match n with
    | 0 => rfl
    | 1 => rfl
    | n + 2 =>
      have := ih n (by omega) e
      simp only [MVisitor.traverse, wrapping, plan, Plan.run] at this ⊢
      rw [this]

/-- Replace every identifier `a` by `a ? a : a` on leaving it. -/
def tripling : MVisitor Unit where
  enter _ a s := (true, a, s)
  exit k := match k with
    | .expr => fun e s => match e with
      | .ident i => (.conditional ⟨0, 0⟩ (.ident i) (.ident i) (.ident i), s)
      | e => (e, s)
    | _ => fun a s => (a, s)

/-- **C54**, a deviation: because the condition of a conditional expression is traversed twice, a visitor that rewrites in exit hooks
only, and thus ends on every tree without the constructs of C42, need not end on a conditional expression. -/
theorem C54_bottom_up_witness (n : Nat) (sp : Span) (i : Ident) (c d : Expr) :
    tripling.traverse n .expr (.conditional sp (.ident i) c d) () = none := by
  induction n using Nat.strongRecOn generalizing sp c d with
  | _ n ih =>
    match n with
    | 0 => rfl
    | 1 => rfl
    | 2 => rfl
    | 3 => rfl
    | n + 4 =>
      have := ih (n + 2) (by omega) ⟨0, 0⟩ (.ident i) (.ident i)
      have h1 : tripling.traverse (n + 2) .expr (.ident i) () =
        some (.conditional ⟨0, 0⟩ (.ident i) (.ident i) (.ident i), ()) := rfl
      have h2 : tripling.traverse (n + 3) .exprConditional (sp, .ident i, c, d) () = none := by
        have he : tripling.enter .exprConditional (sp, .ident i, c, d) () = (true, (sp, .ident i, c, d), ()) := rfl
        rw [MVisitor.traverse_succ, he]
        simp only [plan, Plan.run, h1]
        cases tripling.traverse (n + 2) .expr c () with
        | none => rfl
        | some r => simp only [this]
      have he : tripling.enter .expr (.conditional sp (.ident i) c d) () = (true, .conditional sp (.ident i) c d, ()) := rfl
      rw [MVisitor.traverse_succ, he]
      simp only [plan, Plan.run, h2]

/-- `tripling` meets the hypothesis of `C54_bottom_up`; on the expression `a` it ends. -/
example (k : Kind) (a : k.Val) (s : Unit) : (tripling.enter k a s).2.1 = a := rfl
example : tripling.traverse 10 .expr (idExpr 'a') () =
  some (.conditional ⟨0, 0⟩ (idExpr 'a') (idExpr 'a') (idExpr 'a'), ()) := rfl

end Fajt.Props
