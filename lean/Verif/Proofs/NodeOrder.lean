import Verif.Proofs.NodeText
/-!
# The children of a node stand in order
-/
set_option linter.unusedSectionVars false
namespace Fajt
open Spec

/-- The nodes are derived from disjoint parts of the tokens, in this order. -/
inductive Segs (E : GEnv) : List Node → List Token → Prop
  | nil (us : List Token) : Segs E [] us
  | node {n : Node} {ns : List Node} {us vs : List Token} {ctx : Ctx} : Derived E ctx n us → Segs E ns vs → Segs E (n :: ns) (us ++ vs)
  | skip {t : Token} {ns : List Node} {us : List Token} : Segs E ns us → Segs E ns (t :: us)

section
variable {E : GEnv} {ns ms ks : List Node} {us vs : List Token}

theorem Segs.skips (h : Segs E ns vs) : Segs E ns (us ++ vs) := by
  induction us with
  | nil => exact h
  | cons t us ih => exact .skip ih

theorem Segs.append (h : Segs E ns us) (h' : Segs E ms vs) : Segs E (ns ++ ms) (us ++ vs) := by
  induction h with
  | nil us => exact h'.skips
  | node hd _ ih => rw [List.append_assoc]; exact .node hd ih
  | skip _ ih => exact .skip ih

theorem Segs.split (h : Segs E ns us) (h' : Segs E ms vs) (e : ks = ns ++ ms) : Segs E ks (us ++ vs) := e ▸ h.append h'

theorem Segs.of {ctx : Ctx} {g : GNode} {n : Node} (h : D E ctx g us) (hg : g.top = some n) : Segs E [n] us := by
  have := Segs.node ⟨g, hg, h⟩ (Segs.nil [])
  simpa using this

theorem Segs.cast (h : Segs E ns us) (e : ks = ns) : Segs E ks us := e ▸ h

theorem Segs.sep {α : Type} {b : Bool} {ps : List (α × List Token)} {k : α → List Node} (hs : Sep b ps us)
    (h : ∀ p ∈ ps, Segs E (k p.1) p.2) : Segs E ((trees ps).flatMap k) us := by
  induction hs with
  | nil => exact .nil _
  | item hs ih =>
    rw [trees, List.map_append, List.flatMap_append]
    exact (ih fun p hp => h p (by simp [hp])).append (by simpa using h (_, _) (by simp))
  | @comma _ _ t hs _ ih =>
    have := (ih h).append (.nil (E := E) [t])
    simpa using this

theorem Segs.sepHoles {α : Type} {b : Bool} {ps : List (Option (α × List Token))} {k : α → List Node} (hs : SepHoles b ps us)
    (h : ∀ p, some p ∈ ps → Segs E (k p.1) p.2) : Segs E (ps.flatMap fun | none => [] | some p => k p.1) us := by
  induction hs with
  | nil => exact .nil _
  | item hs ih =>
    rw [List.flatMap_append]
    exact (ih fun p hp => h p (by simp [hp])).append (by simpa using h (_, _) (by simp))
  | @comma _ _ t hs _ ih =>
    have := (ih h).append (.nil (E := E) [t])
    simpa using this
  | @hole _ _ t hs _ ih =>
    have := (ih fun p hp => h p (by simp [hp])).append (.nil (E := E) [t])
    simpa using this

theorem Segs.toksFlat {α : Type} {ps : List (α × List Token)} {k : α → List Node} 
    (h : ∀ p ∈ ps, Segs E (k p.1) p.2) : Segs E ((trees ps).flatMap k) (toks ps) := by
  induction ps with
  | nil => exact .nil _
  | cons p ps ih =>
    simp only [trees, List.map_cons, List.flatMap_cons, Spec.toks, List.flatten_cons]
    exact (h p (by simp)).append (ih fun q hq => h q (by simp [hq]))

theorem flatMap_single {α β : Type} (k : α → β) (l : List α) : l.flatMap (fun a => [k a]) = l.map k := by
  induction l <;> simp_all

theorem Segs.sepMap {α : Type} {b : Bool} {ctx : Ctx} {ps : List (α × List Token)} {f : α → GNode} {k : α → Node} (hs : Sep b ps us)
    (h : ∀ p ∈ ps, D E ctx (f p.1) p.2) (hk : ∀ a, (f a).top = some (k a)) : Segs E ((trees ps).map k) us := by
  rw [← flatMap_single]
  exact Segs.sep hs fun p hp => Segs.of (h p hp) (hk _)

theorem Segs.toksMap {α : Type} {ctx : Ctx} {ps : List (α × List Token)} {f : α → GNode} {k : α → Node}
    (h : ∀ p ∈ ps, D E ctx (f p.1) p.2) (hk : ∀ a, (f a).top = some (k a)) : Segs E ((trees ps).map k) (toks ps) := by
  rw [← flatMap_single]
  exact Segs.toksFlat fun p hp => Segs.of (h p hp) (hk _)

theorem Segs.toksOpt {α : Type} {ps : List (Option α × List Token)} {k : α → Node}
    (h : ∀ m us, (some m, us) ∈ ps → Segs E [k m] us) : Segs E ((trees ps).filterMap (Option.map k)) (toks ps) := by
  induction ps with
  | nil => exact .nil _
  | cons p ps ih =>
    obtain ⟨m, us⟩ := p
    have h2 := ih fun m us hm => h m us (by simp [hm])
    cases m with
    | none => exact h2.skips
    | some m => exact (h m us (by simp)).append h2

theorem Segs.holesMap {α : Type} {b : Bool} {ctx : Ctx} {ps : List (Option (α × List Token))} {f : α → GNode} {k : α → Node} (hs : SepHoles b ps us)
    (h : ∀ p, some p ∈ ps → D E ctx (f p.1) p.2) (hk : ∀ a, (f a).top = some (k a)) :
    Segs E ((ps.map (Option.map (·.1))).filterMap (Option.map k)) us := by
  refine (Segs.sepHoles (k := fun a => [k a]) hs fun p hp => Segs.of (h p hp) (hk _)).cast ?_
  clear hs h
  induction ps with
  | nil => rfl
  | cons p ps ih => cases p <;> simp_all

theorem elements_nodes {f : Option (ArrayElement × List Token) → ArrayElement} {k : Option (ArrayElement × List Token) → List Node}
    (h1 : f none = .elision) (h2 : ∀ p, f (some p) = p.1) (h3 : k none = []) (h4 : ∀ p, k (some p) = (elementNode p.1).toList)
    (ps : List (Option (ArrayElement × List Token))) : (ps.map f).filterMap elementNode = ps.flatMap k := by
  induction ps with
  | nil => rfl
  | cons p ps ih =>
    simp only [List.map_cons, List.flatMap_cons, ← ih]
    cases p with
    | none => rw [h1, h3]; rfl
    | some p => rw [h2, h4]; obtain ⟨a, _⟩ := p; cases a <;> rfl

theorem strPart_nodes (s : Str) : (strPart s).filterMap partNode = [] := by
  unfold strPart
  split <;> rfl

end

/-- Finds the children in the tokens. -/
syntax "segs" : tactic
macro_rules
  | `(tactic| segs) => `(tactic| first
      | (apply Segs.of; (focus assumption); (focus exact rfl))
      | (focus assumption)
      | (apply Segs.skip; segs)
      | (apply Segs.split; (focus segs); (focus segs); (focus first | exact rfl | (simp [GNode.kids]; done)))
      | exact Segs.nil _)
set_option maxHeartbeats 4000000 in
theorem Spec.D.segs {E : GEnv} {ctx : Ctx} {g : GNode} {ts : List Token} (h : D E ctx g ts) : Segs E g.kids ts := by
  induction h
  case weaken ih => exact ih
  case newMember ih => exact ih
  case newLhs ih => exact ih
  case chainExpr ih => exact ih
  case itemStmt ih => exact ih
  case itemDecl ih => exact ih
  case arrowList ih => exact ih
  all_goals
    simp only [GNode.kids, GNode.top, Node.children, exprChildren, stmtChildren, optNode, declNodes, objectNode, memberNode, argNode,
      elementNode, partNode, arrowBodyNode,
      Option.toList, List.flatMap_cons, List.flatMap_nil, List.append_nil, List.nil_append, List.cons_append, List.map_cons, List.map_nil,
      List.filterMap_cons, List.filterMap_nil, List.filterMap_append]
  all_goals try segs
  case array hs _ _ ih =>
    have := Segs.sepHoles (k := fun a => (elementNode a).toList) hs ih
    apply Segs.skip
    refine Segs.split this (.nil _) ?_
    rw [List.append_nil]
    exact elements_nodes rfl (fun _ => rfl) rfl (fun _ => rfl) _
  case object hp hs _ _ _ => have := Segs.sepMap hs hp (fun _ => rfl); segs
  case templateHead => rw [strPart_nodes]; segs
  case templateMiddle => rw [strPart_nodes]; segs
  case templateTail => rw [strPart_nodes]; segs
  case args hs _ _ ih =>
    have := Segs.sep (k := fun a => [argNode a]) hs ih
    rw [flatMap_single] at this
    segs
  case arrowIdent hi hs => exact Segs.of (D.bindingElement (E := E) (D.bindingIdent hi) D.noInitializer hs) rfl
  case comma hp hs _ _ _ => exact Segs.sepMap hs hp (fun _ => rfl)
  case params hp hs _ _ _ => have := Segs.sepMap hs hp (fun _ => rfl); segs
  case paramsRest hp hs _ _ _ _ _ _ => have := Segs.sepMap hs hp (fun _ => rfl); segs
  case bindingObject hp hs _ _ _ => have := Segs.sepMap hs hp (fun _ => rfl); segs
  case bindingObjectRest hp hs _ _ _ _ _ _ => have := Segs.sepMap hs hp (fun _ => rfl); segs
  case assignObject hp hs _ _ _ => have := Segs.sepMap hs hp (fun _ => rfl); segs
  case assignObjectRest hp hs _ _ _ _ _ _ => have := Segs.sepMap hs hp (fun _ => rfl); segs
  case varDecls hp hs _ => exact Segs.sepMap hs hp (fun _ => rfl)
  case bindingArray hp hs _ _ _ => have := Segs.holesMap hs hp (fun _ => rfl); segs
  case bindingArrayRest hp hs _ _ _ _ _ _ => have := Segs.holesMap hs hp (fun _ => rfl); segs
  case assignArray hp _ _ _ _ => have := Segs.toksOpt fun m us hm => Segs.of (hp m us hm) rfl; segs
  case assignArrayRest hp _ _ _ _ _ _ _ => have := Segs.toksOpt fun m us hm => Segs.of (hp m us hm) rfl; segs
  case body hq _ _ _ _ _ =>
    have := Segs.toksMap hq (fun _ => rfl)
    apply Segs.skip
    exact Segs.split this.skips (.nil _) (by simp)
  case block hp _ _ _ => have := Segs.toksMap hp (fun _ => rfl); segs
  case switch hp _ _ _ _ => have := Segs.toksMap hp (fun _ => rfl); segs
  case case hp _ _ _ => have := Segs.toksMap hp (fun _ => rfl); segs
  case default hp _ _ => have := Segs.toksMap hp (fun _ => rfl); segs
  case classTail ih =>
    have := Segs.toksOpt (k := Node.method) ih
    refine Segs.skip (Segs.split this (.nil _) ?_)
    rw [List.map_filterMap, List.append_nil]
    rfl
  case classHeritage ih =>
    have := Segs.toksOpt (k := Node.method) ih
    rw [List.map_filterMap]
    segs

/-- Two children of a node, the first one before the second one. -/
theorem Segs.two {E : GEnv} {xs ys : List Node} {c d : Node} {us : List Token} (h : Segs E (xs ++ c :: ys) us) (hd : d ∈ ys) :
    ∃ cctx dctx ps cs qs ds rs, us = ps ++ (cs ++ (qs ++ (ds ++ rs))) ∧ Derived E cctx c cs ∧ Derived E dctx d ds := by
  have one : ∀ {ns us}, Segs E ns us → d ∈ ns → ∃ dctx qs ds rs, us = qs ++ (ds ++ rs) ∧ Derived E dctx d ds := by
    intro ns us h
    induction h with
    | nil => intro h; cases h
    | @node n ns us vs ctx h _ ih =>
      intro hd
      rcases List.mem_cons.1 hd with rfl | hd
      · exact ⟨ctx, [], us, vs, rfl, h⟩
      · obtain ⟨dctx, qs, ds, rs, rfl, h'⟩ := ih hd
        exact ⟨dctx, us ++ qs, ds, rs, by simp, h'⟩
    | skip _ ih =>
      intro hd
      obtain ⟨dctx, qs, ds, rs, rfl, h'⟩ := ih hd
      exact ⟨dctx, _ :: qs, ds, rs, rfl, h'⟩
  generalize he : xs ++ c :: ys = ns at h
  induction h generalizing xs with
  | nil => simp at he
  | @node n ns us vs ctx h h2 ih =>
    cases xs with
    | nil =>
      simp only [List.nil_append, List.cons.injEq] at he
      obtain ⟨rfl, rfl⟩ := he
      obtain ⟨dctx, qs, ds, rs, rfl, h'⟩ := one h2 hd
      exact ⟨ctx, dctx, [], us, qs, ds, rs, rfl, h, h'⟩
    | cons x xs =>
      simp only [List.cons_append, List.cons.injEq] at he
      obtain ⟨cctx, dctx, ps, cs, qs, ds, rs, rfl, h1, h2⟩ := ih he.2
      exact ⟨cctx, dctx, us ++ ps, cs, qs, ds, rs, by simp, h1, h2⟩
  | skip _ ih =>
    obtain ⟨cctx, dctx, ps, cs, qs, ds, rs, rfl, h1, h2⟩ := ih he
    exact ⟨cctx, dctx, _ :: ps, cs, qs, ds, rs, rfl, h1, h2⟩

variable [UnicodeID]

theorem posAfter_mono (u v : Str) : posAfter 0 0 u ≤ posAfter 0 0 (u ++ v) := by
  rw [posAfter_append]
  exact le_posAfter _ _ _ (by have := posAfter_le 0 0 u (Nat.le_refl _); omega)

theorem posAfter_lt (u : Str) {v : Str} (hv : v ≠ []) : posAfter 0 0 u < posAfter 0 0 (u ++ v) := by
  rw [posAfter_append]
  have := posAfter_le 0 0 u (Nat.le_refl _)
  have := lt_posAfter (0 + byteLen u) (posAfter 0 0 u) v hv
  omega

/-- Tokens of the source are in order and not empty. -/
theorem Spec.SourceTokens.lt {src : Str} {ts : List Token} {t : Token} (h : SourceTokens [] true src ts) (ht : t ∈ ts) :
    t.span.start < t.span.stop := by
  obtain ⟨p, w, rest, h⟩ := h.mem ht
  rw [h.2.2.2]
  exact posAfter_lt _ h.2.1

theorem Spec.SourceTokens.before {src : Str} {xs ys : List Token} {a b : Token} (h : SourceTokens [] true src (xs ++ a :: ys)) (hb : b ∈ ys) :
    a.span.stop ≤ b.span.start := by
  obtain ⟨pa, wa, mid, wb, rest, h1, h2, h3⟩ := h.ordered hb
  rw [h2.2.2.2, h3.2.2.2]
  exact posAfter_mono _ _

theorem spans_before {src : Str} {ts as bs : List Token} {sa sb : Span} (h : SourceTokens [] true src ts) (hi : as ++ bs <:+: ts)
    (ha : Spans sa as) (hb : Spans sb bs) : sa.stop ≤ sb.start := by
  obtain ⟨x, y, ha1, ha2, rfl⟩ := ha
  obtain ⟨z, w, hb1, hb2, rfl⟩ := hb
  obtain ⟨l, r, rfl⟩ := hi
  obtain ⟨as', rfl⟩ : ∃ as', as = as' ++ [y] := by
    obtain ⟨as', e⟩ := List.getLast?_eq_some_iff.1 ha2
    exact ⟨as', e⟩
  have hz : z ∈ bs ++ r := List.mem_append_left _ (List.mem_of_mem_head? hb1)
  rw [show l ++ (as' ++ [y] ++ bs) ++ r = (l ++ as') ++ y :: (bs ++ r) by simp] at h
  exact h.before hz

theorem spans_start {src : Str} {ts as bs cs : List Token} {sa sb : Span} (h : SourceTokens [] true src ts) (hi : as ++ (bs ++ cs) <:+: ts)
    (ha : Spans sa (as ++ (bs ++ cs))) (hb : Spans sb bs) : sa.start ≤ sb.start ∧ sb.stop ≤ sa.stop := by
  obtain ⟨x, y, ha1, ha2, rfl⟩ := ha
  obtain ⟨z, w, hb1, hb2, rfl⟩ := hb
  obtain ⟨l, r, rfl⟩ := hi
  cases bs with
  | nil => cases hb1
  | cons b bs =>
    simp only [List.head?_cons, Option.some.injEq] at hb1
    subst hb1
    constructor
    · cases as with
      | nil => simp at ha1; subst ha1; exact Nat.le_refl _
      | cons a as =>
        simp at ha1; subst ha1
        have h1 : SourceTokens [] true src (l ++ a :: (as ++ (b :: bs ++ cs) ++ r)) := by simpa using h
        have h2 := h1.before (b := b) (by simp)
        have h3 := h1.lt (t := a) (by simp)
        show a.span.start ≤ b.span.start
        omega
    · rcases List.eq_nil_or_concat cs with rfl | ⟨cs', c, rfl⟩
      · rw [List.append_nil] at ha2
        rw [List.getLast?_append, hb2] at ha2
        cases ha2
        exact Nat.le_refl _
      · rw [List.concat_eq_append] at h ha2
        have e : y = c := by
          rw [show as ++ (b :: bs ++ (cs' ++ [c])) = (as ++ (b :: bs ++ cs')) ++ [c] by simp, List.getLast?_concat] at ha2
          simpa using ha2.symm
        subst e
        obtain ⟨bs', e⟩ := List.getLast?_eq_some_iff.1 hb2
        rw [e] at h
        have h1 : SourceTokens [] true src ((l ++ as ++ bs') ++ w :: (cs' ++ [y] ++ r)) := by simpa using h
        have h2 := h1.before (b := y) (by simp)
        have h3 := h1.lt (t := y) (by simp)
        show w.span.stop ≤ y.span.stop
        omega

end Fajt
