import Lean
import Verif.Proofs.NodeKids
import Verif.Spec.AllSpans
/-!
# All spans of a derived tree

Every span of a tree derived from tokens goes from the start of one of them to the end of another, or is the empty one of a
missing name.
-/
namespace Fajt
open Spec
set_option linter.unusedSectionVars false

/-- Every span of the tree of a grammar symbol. -/
def Spec.GNode.AllSpans (P : Span → Prop) : GNode → Prop
  | .expr _ e => e.AllSpans P
  | .newE e => e.AllSpans P
  | .chain e => e.AllSpans P
  | .args sp as => P sp ∧ allArguments P as
  | .arg a => a.AllSpans P
  | .template ps => allTemplateParts P ps
  | .templateRest ps => allTemplateParts P ps
  | .memberProp p => p.AllSpans P
  | .optProp _ p => p.AllSpans P
  | .propName n => n.AllSpans P
  | .element a => a.AllSpans P
  | .propDef p => p.AllSpans P
  | .classElement m => m.AllSpans P
  | .method m => m.AllSpans P
  | .params p => p.AllSpans P
  | .body b => b.AllSpans P
  | .arrowParams _ p => p.AllSpans P
  | .arrowBody b => b.AllSpans P
  | .classTail sup ms => allOptExpr P sup ∧ allMethodDefs P ms
  | .binding p => p.AllSpans P
  | .bindingProp p => p.AllSpans P
  | .bindingElement e => e.AllSpans P
  | .initializer e => allOptExpr P e
  | .assignPattern p => p.AllSpans P
  | .target t => t.AllSpans P
  | .assignElement e => e.AllSpans P
  | .assignProp p => p.AllSpans P
  | .varDecl v => v.AllSpans P
  | .varDecls vs => allVarDecls P vs
  | .optExpr e => allOptExpr P e
  | .stmt s => s.AllSpans P
  | .decl s => s.AllSpans P
  | .item s => s.AllSpans P
  | .block b => b.AllSpans P
  | .catchClause c => c.AllSpans P
  | .case c => c.AllSpans P
  | .forInit f => f.AllSpans P
  | .forDecl f => f.AllSpans P

section
variable {P : Span → Prop}

theorem allArguments_of {l : List Argument} (h : ∀ x ∈ l, x.AllSpans P) : allArguments P l := by
  induction l with
  | nil => trivial
  | cons a l ih => exact ⟨h a (by simp), ih fun x hx => h x (by simp [hx])⟩

theorem allArrayElements_of {l : List ArrayElement} (h : ∀ x ∈ l, x.AllSpans P) : allArrayElements P l := by
  induction l with
  | nil => trivial
  | cons a l ih => exact ⟨h a (by simp), ih fun x hx => h x (by simp [hx])⟩

theorem allAssignProps_of {l : List AssignProp} (h : ∀ x ∈ l, x.AllSpans P) : allAssignProps P l := by
  induction l with
  | nil => trivial
  | cons a l ih => exact ⟨h a (by simp), ih fun x hx => h x (by simp [hx])⟩

theorem allBindingElements_of {l : List BindingElement} (h : ∀ x ∈ l, x.AllSpans P) : allBindingElements P l := by
  induction l with
  | nil => trivial
  | cons a l ih => exact ⟨h a (by simp), ih fun x hx => h x (by simp [hx])⟩

theorem allBindingProps_of {l : List BindingProp} (h : ∀ x ∈ l, x.AllSpans P) : allBindingProps P l := by
  induction l with
  | nil => trivial
  | cons a l ih => exact ⟨h a (by simp), ih fun x hx => h x (by simp [hx])⟩

theorem allExprs_of {l : List Expr} (h : ∀ x ∈ l, x.AllSpans P) : allExprs P l := by
  induction l with
  | nil => trivial
  | cons a l ih => exact ⟨h a (by simp), ih fun x hx => h x (by simp [hx])⟩

theorem allMethodDefs_of {l : List MethodDef} (h : ∀ x ∈ l, x.AllSpans P) : allMethodDefs P l := by
  induction l with
  | nil => trivial
  | cons a l ih => exact ⟨h a (by simp), ih fun x hx => h x (by simp [hx])⟩

theorem allPropDefs_of {l : List PropDef} (h : ∀ x ∈ l, x.AllSpans P) : allPropDefs P l := by
  induction l with
  | nil => trivial
  | cons a l ih => exact ⟨h a (by simp), ih fun x hx => h x (by simp [hx])⟩

theorem allStmts_of {l : List Stmt} (h : ∀ x ∈ l, x.AllSpans P) : allStmts P l := by
  induction l with
  | nil => trivial
  | cons a l ih => exact ⟨h a (by simp), ih fun x hx => h x (by simp [hx])⟩

theorem allSwitchCases_of {l : List SwitchCase} (h : ∀ x ∈ l, x.AllSpans P) : allSwitchCases P l := by
  induction l with
  | nil => trivial
  | cons a l ih => exact ⟨h a (by simp), ih fun x hx => h x (by simp [hx])⟩

theorem allVarDecls_of {l : List VarDecl} (h : ∀ x ∈ l, x.AllSpans P) : allVarDecls P l := by
  induction l with
  | nil => trivial
  | cons a l ih => exact ⟨h a (by simp), ih fun x hx => h x (by simp [hx])⟩

theorem allOptBindingElements_of {l : List (Option BindingElement)} (h : ∀ x, some x ∈ l → x.AllSpans P) : allOptBindingElements P l := by
  induction l with
  | nil => trivial
  | cons a l ih =>
    refine ⟨?_, ih fun x hx => h x (by simp [hx])⟩
    cases a with
    | none => trivial
    | some a => exact h a (by simp)

theorem allOptAssignElements_of {l : List (Option AssignElement)} (h : ∀ x, some x ∈ l → x.AllSpans P) : allOptAssignElements P l := by
  induction l with
  | nil => trivial
  | cons a l ih =>
    refine ⟨?_, ih fun x hx => h x (by simp [hx])⟩
    cases a with
    | none => trivial
    | some a => exact h a (by simp)

theorem allTemplateParts_append {a b : List TemplatePart} (ha : allTemplateParts P a) (hb : allTemplateParts P b) :
    allTemplateParts P (a ++ b) := by
  induction a with
  | nil => exact hb
  | cons x a ih => exact ⟨ha.1, ih ha.2⟩

theorem allTemplateParts_strPart (s : Str) : allTemplateParts P (strPart s) := by
  unfold strPart
  split
  · trivial
  · exact ⟨trivial, trivial⟩

variable {T ts us : List Token}

/-- The spans of tokens, and the empty ones in front of tokens. -/
structure Covering (P : Span → Prop) (T : List Token) : Prop where
  spans : ∀ sp us, us <:+: T → Spans sp us → P sp
  empty : ∀ t ∈ T, P ⟨t.span.start, t.span.start⟩

theorem Covering.tok {t : Token} (h : Covering P T) (ht : t ∈ T) : P t.span := by
  refine h.spans _ [t] ?_ ⟨t, t, rfl, rfl, rfl⟩
  obtain ⟨l, r, rfl⟩ := List.append_of_mem ht
  exact infix_right (⟨[], r, by simp⟩)

theorem Covering.name {t : Token} {id : Ident} (h : Covering P T) (hn : NameTok t id) (ht : t ∈ T) : id.AllSpans P := by
  cases hn <;> exact h.tok ht

theorem Covering.ident {ctx : Ctx} {t : Token} {id : Ident} (h : Covering P T) (hn : IdentTok ctx t id) (ht : t ∈ T) : id.AllSpans P := by
  cases hn <;> exact h.tok ht

theorem Covering.sub (h : Covering P T) (hi : us <:+: T) : Covering P us :=
  ⟨fun sp vs hv hs => h.spans sp vs (hv.trans hi) hs, fun t ht => h.empty t (hi.subset ht)⟩

theorem Covering.optName {ctx : Ctx} {id : Option Ident} {nm : List Token} (h : Covering P T)
    (hn : match id with | some id => ∃ t, IdentTok ctx t id ∧ nm = [t] | none => nm = []) (hs : nm <:+: T) : ∀ y ∈ id, y.AllSpans P := by
  cases id with
  | none => intro y hy; cases hy
  | some id =>
    obtain ⟨t, ht, rfl⟩ := hn
    intro y hy
    cases hy
    exact h.ident ht (hs.subset (by simp))

theorem Covering.declName {ctx : Ctx} {id : Ident} {nm us : List Token} {start : Nat} (h : Covering P T)
    (hn : DeclName ctx start id nm) (hs : nm <:+: T) (hst : ∀ t ∈ us.head?, start = t.span.start) (hu : us ≠ []) (hs' : us <:+: T) :
    id.AllSpans P := by
  cases hn with
  | ident ht => exact h.ident ht (hs.subset (by simp))
  | none =>
    cases us with
    | nil => exact absurd rfl hu
    | cons u us =>
      have := hst u rfl
      subst this
      exact h.empty u (hs'.subset (by simp))

theorem Covering.importSpec {ctx : Ctx} {x : NamedImport} (h : Covering P T) (hx : ImportSpec ctx x us) (hi : us <:+: T) : x.AllSpans P := by
  cases hx with
  | plain h1 h2 => exact ⟨h.spans _ _ hi h2, h.name h1 (hi.subset (by simp)), fun y hy => by cases hy⟩
  | renamed h1 h2 h3 h4 =>
    exact ⟨h.spans _ _ hi h4, h.name h1 (hi.subset (by simp)), fun y hy => by cases hy; exact h.ident h3 (hi.subset (by simp))⟩

theorem Covering.exportSpec {x : NamedExport} (h : Covering P T) (hx : ExportSpec x us) (hi : us <:+: T) : x.AllSpans P := by
  cases hx with
  | plain h1 h2 => exact ⟨h.spans _ _ hi h2, h.name h1 (hi.subset (by simp)), fun y hy => by cases hy⟩
  | renamed h1 h2 h3 h4 =>
    exact ⟨h.spans _ _ hi h4, h.name h3 (hi.subset (by simp)), fun y hy => by cases hy; exact h.name h1 (hi.subset (by simp))⟩

theorem Covering.namedImports {ctx : Ctx} {l : List NamedImport} (h : Covering P T) (hx : NamedImports ctx l us) (hi : us <:+: T) :
    ∀ x ∈ l, x.AllSpans P := by
  cases hx with
  | intro h1 h2 h3 h4 =>
    intro x hm
    obtain ⟨vs, hv⟩ := mem_trees hm
    exact h.importSpec (h2 _ hv) (List.IsInfix.trans (by infx) hi)

theorem Covering.namedExports {l : List NamedExport} (h : Covering P T) (hx : NamedExports l us) (hi : us <:+: T) :
    ∀ x ∈ l, x.AllSpans P := by
  cases hx with
  | intro h1 h2 h3 h4 =>
    intro x hm
    obtain ⟨vs, hv⟩ := mem_trees hm
    exact h.exportSpec (h2 _ hv) (List.IsInfix.trans (by infx) hi)

theorem Covering.importRest {ctx : Ctx} {ns : Option Ident} {is : Option (List NamedImport)} (h : Covering P T)
    (hx : ImportRest ctx ns is us) (hi : us <:+: T) : (∀ y ∈ ns, y.AllSpans P) ∧ ∀ y ∈ is, ∀ z ∈ y, z.AllSpans P := by
  cases hx with
  | «namespace» h1 h2 h3 =>
    refine ⟨?_, ?_⟩ <;> intro y hy <;> cases hy
    exact h.ident h3 (hi.subset (by simp))
  | named h1 =>
    refine ⟨?_, ?_⟩ <;> intro y hy <;> cases hy
    exact h.namedImports h1 hi

theorem Covering.importClause {ctx : Ctx} {d ns : Option Ident} {is : Option (List NamedImport)} (h : Covering P T)
    (hx : ImportClause ctx d ns is us) (hi : us <:+: T) :
    (∀ y ∈ d, y.AllSpans P) ∧ (∀ y ∈ ns, y.AllSpans P) ∧ ∀ y ∈ is, ∀ z ∈ y, z.AllSpans P := by
  cases hx with
  | default h1 =>
    refine ⟨?_, ?_, ?_⟩ <;> intro y hy <;> cases hy
    exact h.ident h1 (hi.subset (by simp))
  | both h1 h2 h3 =>
    refine ⟨?_, h.importRest h3 (List.IsInfix.trans (by infx) hi)⟩
    intro y hy
    cases hy
    exact h.ident h1 (hi.subset (by simp))
  | rest h1 => exact ⟨fun y hy => (by cases hy), h.importRest h1 hi⟩

/-- The trees of a list of parts. -/
theorem of_trees {α : Type} {Q : α → Prop} {ps : List (α × List Token)} (h : ∀ p ∈ ps, Q p.1) : ∀ x ∈ trees ps, Q x := by
  intro x hx
  obtain ⟨us, hu⟩ := mem_trees hx
  exact h _ hu

theorem params_ne_nil {E : GEnv} {ctx : Ctx} {p : FormalParams} (h : D E ctx (.params p) ts) : ts ≠ [] := by
  cases h <;> simp

theorem classTail_ne_nil {E : GEnv} {ctx : Ctx} {sup : Option Expr} {ms : List MethodDef} (h : D E ctx (.classTail sup ms) ts) : ts ≠ [] := by
  cases h <;> simp

end

open Lean Elab Tactic Meta in
/-- Tries all induction hypotheses. -/
elab "anyih" : tactic => withMainContext do withoutRecover do
  let mut done := false
  for d in ← getLCtx do
    if !done && !d.isImplementationDetail then
      let t ← instantiateMVars d.type
      if t.isForall then
        if t.bindingDomain!.isAppOf ``Covering then
          let s ← saveState
          try
            let stx ← Term.exprToSyntax d.toExpr
            evalTactic (← `(tactic| (first
              | refine $stx (Covering.sub (by assumption) ?_)
              | refine ($stx (Covering.sub (by assumption) ?_)).1
              | refine ($stx (Covering.sub (by assumption) ?_)).2); infx))
            done := true
          catch _ => s.restore
  unless done do throwError "no premise fits"

open Lean Elab Tactic Meta in
/-- The spans of a node. -/
elab "spn" : tactic => do
  let mut work := true
  let mut rest : Array MVarId := #[]
  let mut goals := [← getMainGoal]
  let others := (← getGoals).drop 1
  while work do
    match goals with
    | [] => work := false
    | g :: gs =>
      goals := gs
      setGoals [g]
      let tac ← g.withContext do
        let t ← whnf (← g.getType)
        if t.isAppOf ``And then `(tactic| first | anyih | constructor)
        else if t.isAppOf ``True then `(tactic| trivial)
        else if t.getAppFn.isFVar then
          `(tactic| first
            | exact Covering.tok ‹_› (by simp)
            | exact Covering.name ‹_› ‹_› (by simp)
            | exact Covering.ident ‹_› ‹_› (by simp)
            | (refine Covering.spans ‹_› _ _ ?_ ‹Spans _ _›; infx)
            | anyih
            | skip)
        else if t.isForall then
          `(tactic| first
            | (intro y hy; cases hy; done)
            | (intro y hy; cases hy; first
                | exact Covering.name ‹_› ‹_› (by simp)
                | exact Covering.ident ‹_› ‹_› (by simp)
                | (refine Covering.spans ‹_› _ _ ?_ ‹Spans _ _›; infx)
                | anyih)
            | skip)
        else `(tactic| first | anyih | skip)
      evalTactic tac
      let new ← getGoals
      if new == [g] then rest := rest.push g else goals := new ++ goals
  setGoals (rest.toList ++ others)

open Lean Elab Tactic Meta in
/-- Tries all induction hypotheses for parts of lists. -/
elab "partih" hp:term : tactic => withMainContext do withoutRecover do
  let mut done := false
  for d in ← getLCtx do
    if !done && !d.isImplementationDetail then
      let t ← instantiateMVars d.type
      if t.isForall then
        let s ← saveState
        try
          let stx ← Term.exprToSyntax d.toExpr
          evalTactic (← `(tactic| (first
            | refine $stx _ $hp (Covering.sub (by assumption) ?_)
            | refine $stx _ _ $hp (Covering.sub (by assumption) ?_)); infx))
          done := true
        catch _ => s.restore
  unless done do throwError "no premise fits"

/-- Parts of a list, from the induction hypothesis. -/
macro "lst" f:term : tactic => `(tactic| (refine $f (of_trees fun p hp => ?_); partih hp))

/-- Methods of a class. -/
macro "methods" : tactic => `(tactic| (
  refine allMethodDefs_of ?_
  intro m hm
  rw [List.mem_filterMap] at hm
  obtain ⟨o, ho, he⟩ := hm
  obtain ⟨us, hu⟩ := mem_trees ho
  cases (show o = some m from he)
  have hu' := toks_infix hu
  simp only at hu'
  partih hu))

set_option maxHeartbeats 4000000 in
theorem Spec.D.allSpans {P : Span → Prop} {E : GEnv} {ctx : Ctx} {g : GNode} {ts : List Token} (h : D E ctx g ts) (hc : Covering P ts) :
    g.AllSpans P := by
  induction h
  all_goals try spn
  case array =>
    refine allArrayElements_of ?_
    intro x hx
    obtain ⟨o, ho, rfl⟩ := List.mem_map.1 hx
    cases o with
    | none => trivial
    | some q => partih ho
  case object => lst allPropDefs_of
  case function => exact hc.optName ‹_› (by infx)
  case asyncFunction => exact hc.optName ‹_› (by infx)
  case classE => exact hc.optName ‹_› (by infx)
  case templateHead => exact allTemplateParts_append (allTemplateParts_strPart _) (by anyih)
  case templateMiddle => exact allTemplateParts_append (allTemplateParts_strPart _) (by anyih)
  case templateTail => exact allTemplateParts_strPart _
  case args => lst allArguments_of
  case comma => lst allExprs_of
  case params => lst allBindingElements_of
  case paramsRest => lst allBindingElements_of
  case body => lst allStmts_of
  case classTail => methods
  case classHeritage => methods
  case bindingObject => lst allBindingProps_of
  case bindingObjectRest => lst allBindingProps_of
  case bindingArray =>
    refine allOptBindingElements_of fun x hx => ?_
    obtain ⟨o, ho, he⟩ := List.mem_map.1 hx
    cases o with
    | none => cases he
    | some q => cases he; partih ho
  case bindingArrayRest =>
    refine allOptBindingElements_of fun x hx => ?_
    obtain ⟨o, ho, he⟩ := List.mem_map.1 hx
    cases o with
    | none => cases he
    | some q => cases he; partih ho
  case assignObject => lst allAssignProps_of
  case assignObjectRest => lst allAssignProps_of
  case assignArray =>
    refine allOptAssignElements_of fun x hx => ?_
    obtain ⟨us, hu⟩ := mem_trees hx
    have hu' := toks_infix hu
    simp only at hu'
    partih hu
  case assignArrayRest =>
    refine allOptAssignElements_of fun x hx => ?_
    obtain ⟨us, hu⟩ := mem_trees hx
    have hu' := toks_infix hu
    simp only at hu'
    partih hu
  case varDecls => lst allVarDecls_of
  case block => lst allStmts_of
  case switch => lst allSwitchCases_of
  case case => lst allStmts_of
  case default => lst allStmts_of
  case functionDecl =>
    refine hc.declName ‹_› ?_ ‹_› (params_ne_nil ‹_›) ?_ <;> infx
  case asyncFunctionDecl =>
    refine hc.declName ‹_› ?_ ‹_› (params_ne_nil ‹_›) ?_ <;> infx
  case classDecl =>
    refine hc.declName ‹_› ?_ ‹_› (classTail_ne_nil ‹_›) ?_ <;> infx
  case importFrom => exact (hc.importClause ‹_› (by infx)).1
  case importFrom => exact (hc.importClause ‹_› (by infx)).2.1
  case importFrom => exact (hc.importClause ‹_› (by infx)).2.2
  case exportNamed => exact hc.namedExports ‹_› (by infx)
  case exportFrom => exact hc.namedExports ‹_› (by infx)

end Fajt
