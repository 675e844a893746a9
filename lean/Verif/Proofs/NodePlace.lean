import Verif.Proofs.NodeKids
import Verif.Proofs.ParseProgram
/-!
# Every node of an accepted tree is derived in the context of its place
-/
namespace Fajt
open Spec
set_option linter.unusedSectionVars false

theorem GNode.kids_top {g : GNode} {N : Node} (h : g.top = some N) : g.kids = N.children := by
  cases g <;> cases h <;> simp [Spec.GNode.kids, Spec.GNode.top]

theorem Spec.Derived.child {E : GEnv} {ctx : Ctx} {N c : Node} {us : List Token} (h : Derived E ctx N us) (hc : c ∈ N.children) :
    ∃ ctx' us', Derived E ctx' c us' ∧ us' <:+: us ∧ Edge N c ctx ctx' := by
  obtain ⟨g, hg, hd⟩ := h
  obtain ⟨ctx', g', us', h1, h2, h3, h4⟩ := hd.kids c (by rw [GNode.kids_top hg]; exact hc)
  refine ⟨ctx', us', ⟨g', h1, h2⟩, h3, ?_⟩
  unfold GEdge at h4
  rw [hg] at h4
  exact h4

theorem methodEdge_mono {N c : Node} {a b : Prop} (h : a → b) : methodEdge N c a → methodEdge N c b := by
  unfold methodEdge
  split <;> first | exact id | exact h

theorem superEdge_mono {N c : Node} {a b : Prop} (h : a → b) : superEdge N c a → superEdge N c b := by
  unfold superEdge
  split <;> first | exact id | exact h | exact fun x => ⟨x.1, h x.2⟩

/-- What the path of a node says of its context. -/
structure AtPath (p : Program) (ns : List Node) (ctx : Ctx) : Prop where
  strict : ctx.strict = along strictEdge (useStrict p.directives) ns
  yield : ctx.yield = along yieldEdge false ns
  await : ctx.await = along awaitEdge false ns
  return_ : ctx.return_ = along returnEdge false ns
  inMethod : ctx.inMethod = true → along methodEdge False ns
  superCall : ctx.superCall = true → along superEdge False ns

theorem place {E : GEnv} {p : Program} {ts : List Token} (h : IsProgram E p ts) {ns : List Node} (hp : Path p ns) :
    ∃ n ms, ns = n :: ms ∧ ∃ ctx us, Derived E ctx n us ∧ us <:+: ts ∧ AtPath p ns ctx := by
  induction hp with
  | root hs =>
    obtain ⟨ps, qs, rfl, h1, h2, h3, h4, -⟩ := h.parts
    rw [h4] at hs
    obtain ⟨us, hu⟩ := mem_trees hs
    refine ⟨_, _, rfl, _, us, ⟨_, rfl, h3 _ hu⟩, infix_right (toks_infix hu), ?_⟩
    constructor
    · simp [afterDirectives, along, useStrict]
    · rfl
    · rfl
    · rfl
    · intro h; cases h
    · intro h; cases h
  | step hp hc ih =>
    obtain ⟨n, ms, he, ctx, us, h1, h2, h3⟩ := ih
    cases he
    obtain ⟨ctx', us', h4, h5, h6⟩ := h1.child hc
    refine ⟨_, _, rfl, ctx', us', h4, h5.trans h2, ?_⟩
    constructor
    · rw [h6.strict, h3.strict]; rfl
    · rw [h6.yield, h3.yield]; rfl
    · rw [h6.await, h3.await]; rfl
    · rw [h6.return_, h3.return_]; rfl
    · exact fun h => methodEdge_mono h3.inMethod (h6.inMethod h)
    · exact fun h => superEdge_mono h3.superCall (h6.superCall h)

end Fajt
