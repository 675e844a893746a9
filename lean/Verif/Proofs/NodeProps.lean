import Verif.Proofs.NodeOrder
import Verif.Spec.Accepts
import Verif.Props.Tables
/-!
# Facts about the nodes of accepted trees
-/
set_option linter.unusedSectionVars false
namespace Fajt
open Spec
variable [UnicodeID]

theorem Accepts.sound {styp : SourceType} {src : Str} {p : Program} (h : Accepts styp src p) :
    ∃ ts, SourceTokens [] true src ts ∧ IsProgram (sourceEnv src styp) p ts := by
  cases h with
  | script h =>
    have := parse_program src .script
    rw [show Parser.parse Parser.program src .script = .ok p _ from h] at this
    exact this.2
  | module h =>
    have := parse_program src .module
    rw [show Parser.parse Parser.program src .module = .ok p _ from h] at this
    exact this.2

/-- The tree of an accepted source knows what the source was. -/
theorem Accepts.sourceType {styp : SourceType} {src : Str} {p : Program} (h : Accepts styp src p) : p.sourceType = styp := by
  cases h with
  | script h =>
    have := parse_program src .script
    rw [show Parser.parse Parser.program src .script = .ok p _ from h] at this
    exact this.1
  | module h =>
    have := parse_program src .module
    rw [show Parser.parse Parser.program src .module = .ok p _ from h] at this
    exact this.1

/-- The node at the start of a path, its tokens and its context. -/
theorem Accepts.at {styp : SourceType} {src : Str} {p : Program} (h : Accepts styp src p) {n : Node} {ms : List Node}
    (hp : Path p (n :: ms)) :
    ∃ ts ctx us g, SourceTokens [] true src ts ∧ us <:+: ts ∧ GNode.top g = some n ∧ D (sourceEnv src styp) ctx g us ∧
      AtPath p (n :: ms) ctx := by
  obtain ⟨ts, h1, h2⟩ := h.sound
  obtain ⟨n', ms', e, ctx, us, ⟨g, h3, h4⟩, h5, h6⟩ := place h2 hp
  cases e
  exact ⟨ts, ctx, us, g, h1, h5, h3, h4, h6⟩

/-! ## Places -/

theorem return_place {p : Program} {ns : List Node} (hp : Path p ns) (h : along returnEdge false ns = true) :
    ∃ b, .body b ∈ ns.tail := by
  induction hp with
  | root => cases h
  | @step N c ns hp hc ih =>
    simp only [along] at h
    simp only [List.tail_cons] at ih ⊢
    have go : along returnEdge false (N :: ns) = true → ∃ b, .body b ∈ N :: ns := fun h => by
      obtain ⟨b, hb⟩ := ih h; exact ⟨b, List.mem_cons_of_mem _ hb⟩
    unfold returnEdge at h
    split at h
    · exact ⟨_, List.mem_cons_self ..⟩
    · exact go h
    · cases h
    · exact go h

theorem isFunction_cases {N : Node} (h : isFunction N) :
    (∃ a b c d e f, N = .expr (.function a b c d e f)) ∨ ∃ a b c d e f, N = .stmt (.functionDecl a b c d e f) := by
  unfold isFunction at h
  split at h
  · left; exact ⟨_, _, _, _, _, _, rfl⟩
  · right; exact ⟨_, _, _, _, _, _, rfl⟩
  · cases h

theorem methodEdge_function {N c : Node} {o : Prop} (h : isFunction N) : ¬ methodEdge N c o := by
  rcases isFunction_cases h with ⟨_, _, _, _, _, _, rfl⟩ | ⟨_, _, _, _, _, _, rfl⟩ <;> exact fun h => h

theorem superEdge_function {N c : Node} {o : Prop} (h : isFunction N) : ¬ superEdge N c o := by
  rcases isFunction_cases h with ⟨_, _, _, _, _, _, rfl⟩ | ⟨_, _, _, _, _, _, rfl⟩ <;> exact fun h => h

theorem method_place {p : Program} {ns : List Node} (hp : Path p ns) (h : along methodEdge False ns) :
    ∃ as m bs, ns = as ++ .method m :: bs ∧ ∀ n ∈ as.tail, ¬ isFunction n := by
  induction hp with
  | root => cases h
  | @step N c ns hp hc ih =>
    simp only [along] at h
    have go : ¬ isFunction N → along methodEdge False (N :: ns) →
        ∃ as m bs, c :: N :: ns = as ++ .method m :: bs ∧ ∀ n ∈ as.tail, ¬ isFunction n := fun hf h => by
      obtain ⟨as, m, bs, h1, h2⟩ := ih h
      refine ⟨c :: as, m, bs, by rw [h1]; rfl, ?_⟩
      intro n hn
      cases as with
      | nil => cases hn
      | cons a as =>
        simp only [List.cons_append, List.cons.injEq] at h1
        rcases List.mem_cons.1 hn with rfl | hn
        · rw [← h1.1]; exact hf
        · exact h2 n hn
    have hf : ¬ isFunction N := fun hf => methodEdge_function hf h
    unfold methodEdge at h
    split at h
    · exact ⟨[], _, _, rfl, by simp⟩
    · exact ⟨[], _, _, rfl, by simp⟩
    · exact ⟨[], _, _, rfl, by simp⟩
    · cases h
    · cases h
    · exact go hf h

theorem argNode_ne (a : Argument) (m : MethodDef) : argNode a ≠ .method m := by cases a <;> simp [argNode]
theorem partNode_ne (a : TemplatePart) (m : MethodDef) : partNode a ≠ some (.method m) := by cases a <;> simp [partNode]
theorem elementNode_ne (a : ArrayElement) (m : MethodDef) : elementNode a ≠ some (.method m) := by cases a <;> simp [elementNode]
theorem targetNode_ne (a : PatternOrExpr) (m : MethodDef) : targetNode a ≠ .method m := by cases a <;> simp [targetNode]
theorem targetNode_ne' (a : PatternOrExpr) (m : MethodDef) : .method m ≠ targetNode a := fun h => targetNode_ne a m h.symm
theorem arrowBodyNode_ne (a : ArrowBody) (m : MethodDef) : .method m ≠ arrowBodyNode a := by cases a <;> simp [arrowBodyNode]
theorem memberNode_ne (a : MemberProp) (m : MethodDef) : .method m ∉ memberNode a := by cases a <;> simp [memberNode]
theorem objectNode_ne (a : MemberObject) (m : MethodDef) : .method m ∉ objectNode a := by cases a <;> simp [objectNode]
theorem optNode_ne (a : Option Expr) (m : MethodDef) : .method m ∉ optNode a := by cases a <;> simp [optNode]
theorem declNodes_ne (a : VarStmt) (m : MethodDef) : .method m ∉ declNodes a := by cases a; simp [declNodes]

theorem method_parent {N : Node} {m : MethodDef} (h : .method m ∈ N.children) :
    (∃ d, N = .propDef d) ∨ (∃ a b c d, N = .expr (.classE a b c d)) ∨ ∃ a b c d, N = .stmt (.classDecl a b c d) := by
  unfold Node.children at h
  split at h
  · unfold exprChildren at h
    split at h <;> simp [argNode_ne, partNode_ne, elementNode_ne, targetNode_ne', arrowBodyNode_ne, memberNode_ne, objectNode_ne, optNode_ne] at h <;> simp
  · unfold stmtChildren at h
    split at h <;> simp [optNode_ne, declNodes_ne] at h <;> simp
  all_goals first
    | (left; exact ⟨_, rfl⟩)
    | (exfalso; simp [argNode_ne, targetNode_ne, targetNode_ne', optNode_ne, declNodes_ne] at h; done)
    | (exfalso; simp [argNode_ne, targetNode_ne, targetNode_ne', optNode_ne, declNodes_ne] at h; obtain ⟨a, ha, h⟩ := h; cases a <;> simp at h)

theorem super_place {p : Program} {ns : List Node} (hp : Path p ns) (h : along superEdge False ns) :
    ∃ as m N bs, ns = as ++ .method m :: N :: bs ∧ isConstructor m ∧ extendsClass N ∧
      (∀ n ∈ as.tail, ¬ isFunction n) ∧ ∀ m', .method m' ∈ as → hasComputedName m' := by
  induction hp with
  | root => cases h
  | @step N c ns hp hc ih =>
    simp only [along] at h
    have go : ¬ isFunction N → (∀ m', c = .method m' → hasComputedName m') → along superEdge False (N :: ns) →
        ∃ as m N' bs, c :: N :: ns = as ++ .method m :: N' :: bs ∧ isConstructor m ∧ extendsClass N' ∧
          (∀ n ∈ as.tail, ¬ isFunction n) ∧ ∀ m', .method m' ∈ as → hasComputedName m' := fun hf hm h => by
      obtain ⟨as, m, N', bs, h1, h2, h3, h4, h5⟩ := ih h
      refine ⟨c :: as, m, N', bs, by rw [h1]; rfl, h2, h3, ?_, ?_⟩
      · intro n hn
        cases as with
        | nil => cases hn
        | cons a as =>
          simp only [List.cons_append, List.cons.injEq] at h1
          rcases List.mem_cons.1 hn with rfl | hn
          · rw [← h1.1]; exact hf
          · exact h4 n hn
      · intro m' hm'
        rcases List.mem_cons.1 hm' with hm' | hm'
        · exact hm m' hm'.symm
        · exact h5 m' hm'
    have hf : ¬ isFunction N := fun hf => superEdge_function hf h
    by_cases hm : ∃ m, c = .method m
    · obtain ⟨m, rfl⟩ := hm
      rcases method_parent hc with ⟨d, rfl⟩ | ⟨_, _, _, _, rfl⟩ | ⟨_, _, _, _, rfl⟩
      · refine go (fun h => h) ?_ h.2
        rintro m' ⟨⟩
        exact h.1
      · exact ⟨[], _, _, _, rfl, h.2, h.1, by simp, by simp⟩
      · exact ⟨[], _, _, _, rfl, h.2, h.1, by simp, by simp⟩
    · refine go hf (fun m' e => (hm ⟨m', e⟩).elim) ?_
      unfold superEdge at h
      split at h
      · exact (hm ⟨_, rfl⟩).elim
      · exact (hm ⟨_, rfl⟩).elim
      · exact (hm ⟨_, rfl⟩).elim
      · cases h
      · cases h
      · exact h

theorem yield_place {p : Program} {ns : List Node} (hp : Path p ns) (h : along yieldEdge false ns = true) :
    ∃ as N bs, ns = as ++ N :: bs ∧ as ≠ [] ∧ isGenerator N ∧ ∀ n ∈ as.tail, ¬ isFunction n := by
  induction hp with
  | root => cases h
  | @step N c ns hp hc ih =>
    simp only [along] at h
    have go : ¬ isFunction N → along yieldEdge false (N :: ns) = true →
        ∃ as N' bs, c :: N :: ns = as ++ N' :: bs ∧ as ≠ [] ∧ isGenerator N' ∧ ∀ n ∈ as.tail, ¬ isFunction n := fun hf h => by
      obtain ⟨as, m, bs, h1, h0, h3, h2⟩ := ih h
      refine ⟨c :: as, m, bs, by rw [h1]; rfl, by simp, h3, ?_⟩
      intro n hn
      cases as with
      | nil => cases hn
      | cons a as =>
        simp only [List.cons_append, List.cons.injEq] at h1
        rcases List.mem_cons.1 hn with rfl | hn
        · rw [← h1.1]; exact hf
        · exact h2 n hn
    by_cases hf : isFunction N
    · rcases isFunction_cases hf with ⟨_, _, _, _, _, _, rfl⟩ | ⟨_, _, _, _, _, _, rfl⟩ <;>
        exact ⟨[c], _, _, rfl, by simp, h, by simp⟩
    · unfold yieldEdge at h
      split at h
      · exact (hf trivial).elim
      · exact (hf trivial).elim
      · cases h
      · exact ⟨[_], _, _, rfl, by simp, h, by simp⟩
      · exact go hf h
      · cases h
      · exact go hf h

theorem await_place {p : Program} {ns : List Node} (hp : Path p ns) (h : along awaitEdge false ns = true) :
    ∃ as N bs, ns = as ++ N :: bs ∧ as ≠ [] ∧ isAsync N ∧ ∀ n ∈ as.tail, ¬ isFunction n := by
  induction hp with
  | root => cases h
  | @step N c ns hp hc ih =>
    simp only [along] at h
    have go : ¬ isFunction N → along awaitEdge false (N :: ns) = true →
        ∃ as N' bs, c :: N :: ns = as ++ N' :: bs ∧ as ≠ [] ∧ isAsync N' ∧ ∀ n ∈ as.tail, ¬ isFunction n := fun hf h => by
      obtain ⟨as, m, bs, h1, h0, h3, h2⟩ := ih h
      refine ⟨c :: as, m, bs, by rw [h1]; rfl, by simp, h3, ?_⟩
      intro n hn
      cases as with
      | nil => cases hn
      | cons a as =>
        simp only [List.cons_append, List.cons.injEq] at h1
        rcases List.mem_cons.1 hn with rfl | hn
        · rw [← h1.1]; exact hf
        · exact h2 n hn
    by_cases hf : isFunction N
    · rcases isFunction_cases hf with ⟨_, _, _, _, _, _, rfl⟩ | ⟨_, _, _, _, _, _, rfl⟩ <;>
        exact ⟨[c], _, _, rfl, by simp, h, by simp⟩
    · unfold awaitEdge at h
      split at h
      · exact (hf trivial).elim
      · exact (hf trivial).elim
      · exact ⟨[_], _, _, rfl, by simp, h, by simp⟩
      · exact ⟨[_], _, _, rfl, by simp, h, by simp⟩
      · exact go hf h
      · exact ⟨[_], _, _, rfl, by simp, h, by simp⟩
      · exact go hf h

end Fajt
