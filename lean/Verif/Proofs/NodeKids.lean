import Lean
import Verif.Spec.Nodes
/-!
# From the derivation of a node to the derivations of its children
-/
namespace Fajt
open Spec
set_option linter.unusedSectionVars false

/-- The nodes directly below a grammar symbol. -/
def Spec.GNode.kids : GNode → List Node
  | .arg a => [argNode a]
  | .template ps => ps.filterMap partNode
  | .templateRest ps => ps.filterMap partNode
  | .memberProp p => memberNode p
  | .optProp _ p => memberNode p
  | .element a => (elementNode a).toList
  | .classElement m => [.method m]
  | .arrowBody b => [arrowBodyNode b]
  | .classTail sup ms => optNode sup ++ ms.map .method
  | .initializer i => optNode i
  | .target t => [targetNode t]
  | .varDecls vs => vs.map .varDecl
  | .optExpr e => optNode e
  | g => g.top.toList.flatMap Node.children

/-- The contexts agree in what matters for a node. -/
structure Same (ctx ctx' : Ctx) : Prop where
  strict : ctx'.strict = ctx.strict
  yield : ctx'.yield = ctx.yield
  await : ctx'.await = ctx.await
  return_ : ctx'.return_ = ctx.return_
  inMethod : ctx'.inMethod = ctx.inMethod
  superCall : ctx'.superCall = ctx.superCall

/-- How the context changes from a node to a child. -/
structure Edge (N c : Node) (ctx ctx' : Ctx) : Prop where
  strict : ctx'.strict = strictEdge N c ctx.strict
  yield : ctx'.yield = yieldEdge N c ctx.yield
  await : ctx'.await = awaitEdge N c ctx.await
  return_ : ctx'.return_ = returnEdge N c ctx.return_
  inMethod : ctx'.inMethod = true → methodEdge N c (ctx.inMethod = true)
  superCall : ctx'.superCall = true → superEdge N c (ctx.superCall = true)

/-- The same for grammar symbols. -/
def GEdge (g : GNode) (c : Node) (ctx ctx' : Ctx) : Prop :=
  match g.top with
  | some N => Edge N c ctx ctx'
  | none => match g, c with
    | .classTail sup _, .method m => ctx'.strict = ctx.strict ∧ ctx'.yield = ctx.yield ∧ ctx'.await = ctx.await ∧
        ctx'.return_ = ctx.return_ ∧ (ctx'.superCall = true → sup.isSome ∧ isConstructor m)
    | _, _ => Same ctx ctx'

/-- The child `c` of the symbol `g` is derived from some of the tokens. -/
def Kid (E : GEnv) (ctx : Ctx) (g : GNode) (ts : List Token) (c : Node) : Prop :=
  ∃ ctx' g' us, g'.top = some c ∧ D E ctx' g' us ∧ us <:+: ts ∧ GEdge g c ctx ctx'

theorem Same.refl (ctx : Ctx) : Same ctx ctx := ⟨rfl, rfl, rfl, rfl, rfl, rfl⟩
theorem Same.trans {a b c : Ctx} (h : Same a b) (h' : Same b c) : Same a c :=
  ⟨h'.strict.trans h.strict, h'.yield.trans h.yield, h'.await.trans h.await, h'.return_.trans h.return_,
    h'.inMethod.trans h.inMethod, h'.superCall.trans h.superCall⟩

section
variable {E : GEnv} {ctx ctx1 : Ctx} {g g1 g' : GNode} {ts us : List Token} {c : Node}

theorem Kid.here (h : D E ctx1 g' us) (ht : g'.top = some c) (hi : us <:+: ts) (he : GEdge g c ctx ctx1) : Kid E ctx g ts c :=
  ⟨ctx1, g', us, ht, h, hi, he⟩

theorem Kid.via (h : Kid E ctx1 g1 us c) (hi : us <:+: ts) (he : ∀ ctx', GEdge g1 c ctx1 ctx' → GEdge g c ctx ctx') :
    Kid E ctx g ts c := by
  obtain ⟨ctx', g', us', h1, h2, h3, h4⟩ := h
  exact ⟨ctx', g', us', h1, h2, h3.trans hi, he _ h4⟩

end

theorem infix_cons {α : Type} {a b : List α} {x : α} (h : a <:+: b) : a <:+: x :: b := h.trans (List.suffix_cons x b).isInfix
theorem infix_left {α : Type} {a b c : List α} (h : a <:+: b) : a <:+: b ++ c := h.trans (List.prefix_append b c).isInfix
theorem infix_right {α : Type} {a b c : List α} (h : a <:+: c) : a <:+: b ++ c := h.trans (List.suffix_append b c).isInfix

theorem Sep.infix {α : Type} {b : Bool} {ps : List (α × List Token)} {ts : List Token} (h : Sep b ps ts) {p : α × List Token} (hp : p ∈ ps) :
    p.2 <:+: ts := by
  induction h with
  | nil => cases hp
  | item h ih =>
    rcases List.mem_append.1 hp with hp | hp
    · exact infix_left (ih hp)
    · simp at hp; subst hp; exact infix_right List.infix_rfl
  | comma h _ ih => exact infix_left (ih hp)

theorem SepHoles.infix {α : Type} {b : Bool} {ps : List (Option (α × List Token))} {ts : List Token} (h : SepHoles b ps ts)
    {p : α × List Token} (hp : some p ∈ ps) : p.2 <:+: ts := by
  induction h with
  | nil => cases hp
  | item h ih =>
    rcases List.mem_append.1 hp with hp | hp
    · exact infix_left (ih hp)
    · simp at hp; subst hp; exact infix_right List.infix_rfl
  | comma h _ ih => exact infix_left (ih hp)
  | hole h _ ih =>
    rcases List.mem_append.1 hp with hp | hp
    · exact infix_left (ih hp)
    · simp at hp

theorem toks_infix {α : Type} {ps : List (α × List Token)} {p : α × List Token} (hp : p ∈ ps) : p.2 <:+: toks ps := by
  unfold toks
  obtain ⟨l, r, rfl⟩ := List.append_of_mem hp
  rw [List.map_append, List.flatten_append, List.map_cons, List.flatten_cons]
  exact infix_right (infix_left List.infix_rfl)

/-- Searches the tokens of a part among those of the whole. -/
syntax "infx" : tactic
macro_rules
  | `(tactic| infx) => `(tactic| first
      | exact List.infix_rfl
      | exact Sep.infix ‹_› ‹_›
      | exact SepHoles.infix ‹_› ‹_›
      | exact toks_infix ‹_›
      | (apply infix_cons; infx)
      | (apply infix_left; infx)
      | (apply infix_right; infx))

/-- Proves an edge between concrete nodes. -/
syntax "edge" : tactic
macro_rules
  | `(tactic| edge) => `(tactic| first
      | exact ⟨rfl, rfl, rfl, rfl, rfl, rfl⟩
      | exact ⟨rfl, rfl, rfl, rfl, id, id⟩
      | exact ⟨rfl, rfl, rfl, rfl, fun h => by cases h, fun h => by cases h⟩)

/-- A child with a premise of its own. -/
macro "kid" h:term : tactic => `(tactic| (refine Kid.here $h ?_ ?_ ?_; (focus exact rfl); (focus infx); (focus edge)))

/-- Passes on the edges of a part. -/
syntax "edges" : tactic
macro_rules
  | `(tactic| edges) => `(tactic| first
      | exact fun _ h => ⟨h.strict, h.yield, h.await, h.return_, h.inMethod, h.superCall⟩
      | exact fun _ h => ⟨h.strict, h.yield, h.await, h.return_, fun x => h.inMethod ▸ x, fun x => h.superCall ▸ x⟩)

/-- A child of a part. -/
macro "kin" h:term : tactic => `(tactic| (refine Kid.via ($h _ ?_) ?_ ?_; (focus simp [Spec.GNode.kids, optNode, *]; done); (focus infx); (focus edges)))

open Lean Elab Tactic Meta in
/-- Tries all premises. -/
elab "anykid" : tactic => withMainContext do withoutRecover do
  let mut done := false
  for d in ← getLCtx do
    if !done && !d.isImplementationDetail then
      let t ← instantiateMVars d.type
      if t.isAppOf ``Spec.D then
        let s ← saveState
        try
          let stx ← Term.exprToSyntax d.toExpr
          evalTactic (← `(tactic| kid $stx))
          done := true
        catch _ => s.restore
      else if t.isForall then
        let s ← saveState
        try
          let stx ← Term.exprToSyntax d.toExpr
          evalTactic (← `(tactic| kin $stx))
          done := true
        catch _ => s.restore
  unless done do throwError "no premise fits"

theorem mem_trees {α : Type} {ps : List (α × List Token)} {a : α} (h : a ∈ trees ps) : ∃ us, (a, us) ∈ ps := by
  unfold trees at h
  obtain ⟨p, hp, rfl⟩ := List.mem_map.1 h
  exact ⟨p.2, hp⟩

theorem strPart_node {s : Str} {a : TemplatePart} {c : Node} (ha : a ∈ strPart s) (h : partNode a = some c) : False := by
  unfold strPart at ha
  split at ha
  · cases ha
  · simp at ha; subst ha; cases h

/-- A child from a list of parts. -/
macro "listkid" h:term : tactic => `(tactic| (
  obtain ⟨a, ha, hn⟩ := ‹∃ a, a ∈ trees _ ∧ _›
  subst hn
  obtain ⟨us, hu⟩ := mem_trees ha
  refine Kid.here ($h _ hu) ?_ ?_ ?_
  (focus exact rfl); (focus infx); (focus edge)))

/-- Parameters and body of a function. -/
macro "fkid" h:term : tactic => `(tactic| (
  refine Kid.here $h ?_ ?_ ?_
  (focus exact rfl); (focus infx)
  (focus exact ⟨rfl, rfl, rfl, rfl, fun h => absurd h Bool.false_ne_true, fun h => absurd h Bool.false_ne_true⟩)))

theorem head_any_append {f : Token → Bool} {a b : List Token} (h : ((a ++ b).head?).any f = true) (ha : a ≠ []) : a.head?.any f = true := by
  cases a with
  | nil => exact absurd rfl ha
  | cons x a => exact h

theorem name_ne_nil {E : GEnv} {ctx : Ctx} {n : PropName} {ts : List Token} (h : D E ctx (.propName n) ts) : ts ≠ [] := by
  cases h <;> simp

theorem name_ctor {E : GEnv} {ctx : Ctx} {n : PropName} {ts : List Token} (h : D E ctx (.propName n) ts) (hc : ts.head?.any ctorTok = true) :
    (∃ sp, n = .ident ⟨sp, c!"constructor"⟩) ∨ ∃ d, n = .string ⟨c!"constructor", d⟩ := by
  cases h with
  | nameIdent h =>
    cases h with
    | ident h => simp [ctorTok, h] at hc; subst hc; exact .inl ⟨_, rfl⟩
    | keyword h => simp [ctorTok, h] at hc
  | nameString h =>
    rename_i s
    cases s
    simp [ctorTok, h] at hc; subst hc; exact .inr ⟨_, rfl⟩
  | nameNumber h => simp [ctorTok, h] at hc
  | nameComputed h => simp [ctorTok, h] at hc

theorem method_ctor {E : GEnv} {ctx : Ctx} {sp : Span} {n : PropName} {k : MethodKind} {ps : FormalParams} {b : Body} {g a st : Bool}
    {ts : List Token} (h : D E ctx (.method (.mk sp n k ps b g a st)) ts) (hc : ts.head?.any ctorTok = true) :
    k = .method ∧ ((∃ sp, n = .ident ⟨sp, c!"constructor"⟩) ∨ ∃ d, n = .string ⟨c!"constructor", d⟩) := by
  cases h
  case method =>
    have hn := ‹D E ctx (.propName n) _›
    rw [List.append_assoc] at hc
    exact ⟨rfl, name_ctor hn (head_any_append hc (name_ne_nil hn))⟩
  case generatorMethod h _ _ _ _ _ _ => simp [ctorTok, h] at hc
  case asyncMethod h _ _ _ _ _ _ _ _ => simp [ctorTok, h] at hc
  case getter h _ _ _ _ _ _ => simp [ctorTok, h] at hc
  case setter h _ _ _ _ _ _ => simp [ctorTok, h] at hc

theorem element_ctor {E : GEnv} {ctx : Ctx} {m : MethodDef} {ts : List Token} (h : D E ctx (.classElement m) ts)
    (hc : ts.head?.any ctorTok = true) : isConstructor m := by
  cases h with
  | elementPlain h => exact ⟨rfl, method_ctor h hc⟩
  | elementStatic _ h _ => simp [ctorTok, h] at hc

set_option maxHeartbeats 4000000 in
theorem Spec.D.kids {E : GEnv} {ctx : Ctx} {g : GNode} {ts : List Token} (h : D E ctx g ts) : ∀ c ∈ g.kids, Kid E ctx g ts c := by
  induction h
  case weaken ih =>  exact fun c hc => Kid.via (ih c hc) List.infix_rfl fun _ h => h
  case newMember ih =>  exact fun c hc => Kid.via (ih c hc) List.infix_rfl fun _ h => h
  case newLhs ih =>  exact fun c hc => Kid.via (ih c hc) List.infix_rfl fun _ h => h
  case chainExpr ih =>  exact fun c hc => Kid.via (ih c hc) List.infix_rfl fun _ h => h
  case itemStmt ih =>  exact fun c hc => Kid.via (ih c hc) List.infix_rfl fun _ h => h
  case itemDecl ih =>  exact fun c hc => Kid.via (ih c hc) List.infix_rfl fun _ h => h
  case arrowList ih =>  exact fun c hc => Kid.via (ih c hc) List.infix_rfl fun _ h => h
  all_goals
    intro c hc
    simp only [GNode.kids, GNode.top, Node.children, exprChildren, stmtChildren, optNode, declNodes, objectNode, memberNode,
      Option.toList, List.flatMap_cons, List.flatMap_nil, List.append_nil, List.nil_append, List.cons_append, List.map_cons, List.map_nil,
      List.filterMap_map, List.mem_append, List.mem_cons, List.not_mem_nil, or_false, List.mem_map, List.mem_filterMap,
      List.filterMap_cons, List.filterMap_nil, List.filterMap_append] at hc
  all_goals try (exact hc.elim)
  all_goals try (subst hc; anykid)
  all_goals try (rcases hc with rfl | rfl <;> anykid)
  all_goals try (rcases hc with rfl | rfl | rfl <;> anykid)
  all_goals try (rcases hc with rfl | hc <;> anykid)
  all_goals try (rcases hc with rfl | rfl | hc <;> anykid)
  all_goals try anykid
  case array _ hs _ _ ih =>
    obtain ⟨a, ha, h⟩ := hc
    cases a with
    | none => cases h
    | some p => exact Kid.via (ih p ha c (by simpa [GNode.kids] using h)) (by infx) (by edges)
  case object hp hs _ _ _ => listkid hp
  case comma hp hs _ _ _ => listkid hp
  case params hp hs _ _ _ => listkid hp
  case paramsRest hp _ _ hr _ _ _ _ =>
    rcases hc with hc | rfl
    · listkid hp
    · kid hr
  case body hp _ _ _ _ _ => listkid hp
  case bindingObject hp hs _ _ _ => listkid hp
  case bindingObjectRest hp _ _ hr _ _ _ _ =>
    rcases hc with hc | rfl
    · listkid hp
    · kid hr
  case assignObject hp hs _ _ _ => listkid hp
  case assignObjectRest hp _ _ _ _ _ _ ih =>
    rcases hc with hc | rfl
    · listkid hp
    · kin ih
  case varDecls hp hs _ =>
    obtain ⟨a, ha, rfl⟩ := hc
    obtain ⟨us, hu⟩ := mem_trees ha
    exact Kid.here (hp _ hu) rfl (by infx) (Same.refl _)
  case block hp _ _ _ => listkid hp
  case switch he _ _ hp _ _ _ _ =>
    rcases hc with rfl | hc
    · kid he
    · listkid hp
  case case he _ hp _ _ _ =>
    rcases hc with rfl | hc
    · kid he
    · listkid hp
  case default hp _ _ => listkid hp
  case elementExpr he _ =>
    simp [elementNode] at hc; subst hc; kid he
  case elementSpread he _ =>
    simp [elementNode] at hc; subst hc; kid he
  case propMethod ih =>
    subst hc
    refine Kid.via (ih _ (by simp [GNode.kids])) List.infix_rfl fun _ h => ?_
    exact ⟨h.strict, h.yield, h.await, h.return_, fun _ => trivial, fun x => absurd (h.superCall.symm.trans x) Bool.false_ne_true⟩
  case propComputedMethod hm _ =>
    subst hc
    exact Kid.here hm rfl List.infix_rfl ⟨rfl, rfl, rfl, rfl, fun _ => trivial, fun x => ⟨⟨_, rfl⟩, x⟩⟩
  case function hp hb _ _ _ =>
    rcases hc with rfl | rfl
    · fkid hp
    · fkid hb
  case asyncFunction hp hb _ _ _ =>
    rcases hc with rfl | rfl
    · fkid hp
    · fkid hb
  case functionDecl hp hb _ _ _ =>
    rcases hc with rfl | rfl
    · fkid hp
    · fkid hb
  case asyncFunctionDecl hp hb _ _ _ =>
    rcases hc with rfl | rfl
    · fkid hp
    · fkid hb
  case templateHead ih =>
    rcases hc with ⟨a, ha, h⟩ | ⟨a, ha, h⟩
    · cases strPart_node ha h
    · exact Kid.via (ih c (by simp only [GNode.kids, List.mem_filterMap]; exact ⟨a, ha, h⟩)) (by infx) (by edges)
  case templateMiddle he _ _ _ ih =>
    simp only [partNode, List.mem_cons, List.mem_append, List.mem_filterMap] at hc
    rcases hc with rfl | ⟨a, ha, h⟩ | ⟨a, ha, h⟩
    · kid he
    · cases strPart_node ha h
    · exact Kid.via (ih c (by simp only [GNode.kids, List.mem_filterMap]; exact ⟨a, ha, h⟩)) (by infx) (by edges)
  case templateTail he _ _ =>
    simp only [partNode, List.mem_cons, List.mem_filterMap] at hc
    rcases hc with rfl | ⟨a, ha, h⟩
    · kid he
    · cases strPart_node ha h
  case member he _ _ _ ih =>
    rcases hc with rfl | hc
    · kid he
    · exact Kid.via (ih c hc) (by infx) (by edges)
  case superMember ih => exact Kid.via (ih c hc) (by infx) (by edges)
  case chainFirstMember he _ _ _ _ ih =>
    rcases hc with rfl | hc
    · kid he
    · exact Kid.via (ih c hc) (by infx) (by edges)
  case chainMember he _ _ _ ih =>
    rcases hc with rfl | hc
    · kid he
    · exact Kid.via (ih c hc) (by infx) (by edges)
  case args hs _ _ ih =>
    obtain ⟨a, ha, rfl⟩ := hc
    obtain ⟨us, hu⟩ := mem_trees ha
    exact Kid.via (ih _ hu _ (List.mem_cons_self ..)) (by infx) (by edges)
  case arrow _ _ b _ _ _ hp _ _ _ _ _ ih =>
    rcases hc with rfl | rfl
    · kid hp
    · cases b <;> exact Kid.via (ih _ (List.mem_cons_self ..)) (by infx) (by edges)
  case asyncArrow _ _ b _ _ _ _ hp _ _ _ _ _ ih =>
    rcases hc with rfl | rfl
    · kid hp
    · cases b <;> exact Kid.via (ih _ (List.mem_cons_self ..)) (by infx) (by edges)
  case arrowIdent hi hs =>
    subst hc
    have := D.bindingElement (E := E) (D.bindingIdent hi) D.noInitializer hs
    exact Kid.here this rfl (by simp) (by edge)
  case bindingArray hp hs _ _ _ =>
    obtain ⟨a, ha, h⟩ := hc
    cases a with
    | none => cases h
    | some p => cases h; exact Kid.here (hp p ha) rfl (by infx) (by edge)
  case bindingArrayRest hp hs _ hr _ _ _ _ =>
    rcases hc with ⟨a, ha, h⟩ | rfl
    · cases a with
      | none => cases h
      | some p => cases h; exact Kid.here (hp p ha) rfl (by infx) (by edge)
    · kid hr
  case assignArray hp _ _ _ _ =>
    obtain ⟨a, ha, h⟩ := hc
    cases a with
    | none => cases h
    | some p =>
      cases h
      obtain ⟨us, hu⟩ := mem_trees ha
      exact Kid.here (hp p us hu) rfl (infix_left (infix_cons (toks_infix hu))) (by edge)
  case assignArrayRest hp _ _ _ _ _ _ ih =>
    rcases hc with ⟨a, ha, h⟩ | rfl
    · cases a with
      | none => cases h
      | some p =>
        cases h
        obtain ⟨us, hu⟩ := mem_trees ha
        exact Kid.here (hp p us hu) rfl (infix_left (infix_left (infix_cons (toks_infix hu)))) (by edge)
    · kin ih
  case forNone hs _ iha ihb _ =>
    rcases hc with (hc | hc) | rfl
    · exact Kid.via (iha c hc) (by infx) (by edges)
    · exact Kid.via (ihb c hc) (by infx) (by edges)
    · kid hs
  case «for» hi _ _ _ _ _ hs _ _ iha ihb _ =>
    rcases hc with rfl | (hc | hc) | rfl
    · kid hi
    · exact Kid.via (iha c hc) (by infx) (by edges)
    · exact Kid.via (ihb c hc) (by infx) (by edges)
    · kid hs
  case classTail hp _ _ ih =>
    obtain ⟨m, ⟨x, hx, hm⟩, rfl⟩ := hc
    cases hm
    obtain ⟨us, hu⟩ := mem_trees hx
    refine Kid.via (ih m us hu _ (List.mem_cons_self ..)) (infix_left (infix_cons (toks_infix hu))) fun _ h => ?_
    exact ⟨h.strict, h.yield, h.await, h.return_, fun x => absurd (h.superCall ▸ x) (by simp [elementCtx])⟩
  case classHeritage he _ hp _ _ _ ih =>
    rcases hc with rfl | ⟨m, ⟨x, hx, hm⟩, rfl⟩
    · kid he
    cases hm
    obtain ⟨us, hu⟩ := mem_trees hx
    refine Kid.via (ih m us hu _ (List.mem_cons_self ..)) (infix_left (infix_right (infix_cons (toks_infix hu)))) fun _ h => ?_
    refine ⟨h.strict, h.yield, h.await, h.return_, fun x => ⟨rfl, ?_⟩⟩
    have h1 := h.superCall
    rw [x] at h1
    exact element_ctor (hp m us hu) (by simpa [elementCtx] using h1.symm)
  case classE ih =>
    rcases hc with hc | ⟨m, hm, rfl⟩
    · split at hc
      · cases hc
      · simp only [List.mem_cons, List.not_mem_nil, or_false] at hc
        subst hc
        refine Kid.via (ih _ (List.mem_append_left _ (List.mem_cons_self ..))) (by infx) fun _ h => ?_
        exact ⟨h.strict, h.yield, h.await, h.return_, fun x => h.inMethod ▸ x, fun x => h.superCall ▸ x⟩
    · refine Kid.via (ih _ (List.mem_append_right _ (List.mem_map_of_mem hm))) (by infx) fun _ h => ?_
      exact ⟨h.1, h.2.1, h.2.2.1, h.2.2.2.1, fun _ => trivial, h.2.2.2.2⟩
  case classDecl ih =>
    rcases hc with hc | ⟨m, hm, rfl⟩
    · split at hc
      · cases hc
      · simp only [List.mem_cons, List.not_mem_nil, or_false] at hc
        subst hc
        refine Kid.via (ih _ (List.mem_append_left _ (List.mem_cons_self ..))) (by infx) fun _ h => ?_
        exact ⟨h.strict, h.yield, h.await, h.return_, fun x => h.inMethod ▸ x, fun x => h.superCall ▸ x⟩
    · refine Kid.via (ih _ (List.mem_append_right _ (List.mem_map_of_mem hm))) (by infx) fun _ h => ?_
      exact ⟨h.1, h.2.1, h.2.2.1, h.2.2.2.1, fun _ => trivial, h.2.2.2.2⟩

end Fajt
