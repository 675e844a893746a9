import Verif.Proofs.ParseLiteral
/-!
# Member accesses, optional chains, primary expressions, classes
-/
namespace Fajt
open Spec
set_option linter.unusedSectionVars false
variable [UnicodeID] [Blame]

theorem At.nxtWF {src : Str} {styp : SourceType} {s : PState} {p : Cursor} (h : At src styp s p) {t u : Token}
    (ht : s.cur = .ok t) (hu : s.nxt = .ok u) : SpanWF src u.span := by
  have := h.cur
  rw [ht] at this
  obtain ⟨p1, h1, h2⟩ := this
  unfold Ahead at h2
  rw [hu] at h2
  exact h2.spanWF (h1.place h.place)

/-- A call of a function with a condition on the state. -/
theorem J.callPost {F : Frame} {α : Type} {s : PState} {K : Nat} {x : Option Ctx} {hs : List Token} {p : Cursor} {c : Bool} {m : P α}
    {Q : α → List Token → PState → Prop} {R : α → PState → Prop}
    (hm : J ⟨F.src, F.styp, F.n, K, x, s, p⟩ m s (Post ⟨F.src, F.styp, F.n, K, x, s, p⟩ Q)) (h : Hist F c hs s p) (hc : CallOK F hs K x)
    (k : ∀ a ts s' p', Q a ts s' → ts ≠ [] → Begins s ts → Hist F true (hs ++ ts) s' p' → R a s') : J F m s R := by
  refine J.call (Q := fun a ts s' => ts ≠ [] ∧ Q a ts s') (c' := true) h ?_ hc ?_
  · refine hm.mono ?_
    rintro a s' ⟨ts, p', h1, h2, h3⟩
    exact ⟨ts, p', h2, h1, h3⟩
  · rintro a ts s' p' ⟨h1, h2⟩ h3 h4
    refine k a ts s' p' h2 h1 ?_ ?_
    · intro t ht
      exact h3.first t (by simp [firstTok, ht])
    · have : (true && (c || !ts.isEmpty)) = true := by cases c <;> simp [h1]
      rwa [this] at h4

theorem valOf_eq {s : PState} {t : Token} {v : TokVal} (h : s.cur = .ok t) (hv : valOf s = some v) : t.value = v := by
  rw [valOf_ok h] at hv; simpa using hv

section
variable {src : Str} {styp : SourceType} {n : Nat} {r : Rec} (hr : RecOK src styp n r) (ctx : Ctx) (x : Option Ctx)
include hr

theorem computedProperty_D : Does src styp n 0 x (Parser.computedProperty r ctx) fun e ts _ =>
    ∃ lb us rb, ts = lb :: us ++ [rb] ∧ lb.value = .punct p!"[" ∧ G src styp ctx (.expr 0 e) us ∧ rb.value = .punct p!"]" := by
  intro s p hp
  unfold Parser.computedProperty
  jb J.consumeAssert hp.start with lb s1 p1 - hlb - h1
  jd (expr_P hr ctx) at h1 with e ts s2 p2 he hts - h2
  jb J.consumeAssert h2 with rb s3 p3 - hrb - h3
  exact J.pure ⟨_, _, by simp, h3, _, _, _, by simp, hlb, he, hrb⟩

theorem memberProperty_D : ∀ s p, At src styp s p → (valOf s = some (.punct p!".") ∨ valOf s = some (.punct p!"[")) →
    J ⟨src, styp, n, 0, x, s, p⟩ (Parser.memberProperty r ctx) s
      (Post ⟨src, styp, n, 0, x, s, p⟩ fun a ts _ => G src styp ctx (.memberProp a) ts) := by
  intro s p hp hv
  unfold Parser.memberProperty
  refine J.bind (J.curVal ?_)
  rcases hv with hv | hv
  · rw [hv]
    jb J.consume hp.start with d s1 p1 hd - h1
    jb J.parseIdentName h1 with t id s2 p2 - hid - h2
    exact J.pure ⟨_, _, by simp, h2, D.memberName (valOf_eq hd hv) hid⟩
  · rw [hv]
    jd (computedProperty_D hr { ctx with in_ := true } x) at hp.start with e ts s1 p1 ⟨lb, us, rb, e1, h2, h3, h4⟩ hts - h1
    subst e1
    exact J.pure ⟨_, _, by simp, h1, D.memberComputed h2 h3 h4⟩

theorem memberExprRightSide_J {F : Frame} (hF : F.src = src ∧ F.styp = styp ∧ F.n = n) {s : PState} {hs : List Token} {p : Cursor}
    {left : MemberObject} (h : Hist F true hs s p) (hne : hs ≠ [])
    (hv : valOf s = some (.punct p!".") ∨ valOf s = some (.punct p!"[")) {Q : Expr → PState → Prop}
    (k : ∀ m us s' p', us ≠ [] → G src styp ctx (.memberProp m) us → Hist F true (hs ++ us) s' p' →
      Spans ⟨posOf F.s0, s'.pos⟩ (hs ++ us) → Q (.member ⟨posOf F.s0, s'.pos⟩ left m) s') :
    J F (Parser.memberExprRightSide r ctx (posOf F.s0) left) s Q := by
  obtain ⟨rfl, rfl, rfl⟩ := hF
  unfold Parser.memberExprRightSide
  refine J.bind (J.callPost (memberProperty_D hr ctx none s p h.at1 hv) h (by jc) ?_)
  intro m us s1 p1 hm hus _ h1
  jp
  exact J.pure (k m us s1 p1 hus hm h1 (h1.spans (by simp [hne])))

theorem callExpr_J {F : Frame} (hF : F.src = src ∧ F.styp = styp ∧ F.n = n) {s : PState} {hs : List Token} {p : Cursor}
    {callee : Expr} (h : Hist F true hs s p) (hne : hs ≠ []) {Q : Expr → PState → Prop}
    (k : ∀ asp as us s' p', us ≠ [] → G src styp ctx (.args asp as) us → Hist F true (hs ++ us) s' p' →
      Spans ⟨posOf F.s0, s'.pos⟩ (hs ++ us) → Q (.call ⟨posOf F.s0, s'.pos⟩ (.expr callee) asp as) s') :
    J F (Parser.callExpr r ctx (posOf F.s0) callee) s Q := by
  obtain ⟨rfl, rfl, rfl⟩ := hF
  unfold Parser.callExpr
  jd (arguments_D hr ctx none) at h with ⟨asp, as⟩ us s1 p1 ha hus - h1
  jp
  exact J.pure (k asp as us s1 p1 hus ha h1 (h1.spans (by simp [hne])))

theorem taggedTemplate_J {F : Frame} (hF : F.src = src ∧ F.styp = styp ∧ F.n = n) {s : PState} {hs : List Token} {p : Cursor}
    {callee : Expr} (h : Hist F true hs s p) (hne : hs ≠ []) {Q : Expr → PState → Prop}
    (k : ∀ ps us s' p', us ≠ [] → G src styp ctx (.template ps) us → Begins s us → Hist F true (hs ++ us) s' p' →
      Spans ⟨posOf F.s0, s'.pos⟩ (hs ++ us) → Q (.tagged ⟨posOf F.s0, s'.pos⟩ callee ps) s') :
    J F (Parser.taggedTemplate r ctx (posOf F.s0) callee) s Q := by
  obtain ⟨rfl, rfl, rfl⟩ := hF
  unfold Parser.taggedTemplate
  jd (templateLiteral_P hr ctx none) at h with ps us s1 p1 ha hus hbg h1
  jp
  exact J.pure (k ps us s1 p1 hus ha hbg h1 (h1.spans (by simp [hne])))

theorem J.validateNoTemplate {F : Frame} {s : PState} {t : Token} {Q : Unit → PState → Prop} (hk : Kept F s) (ht : SpanWF F.src t.span)
    (k : Q () s) : J F (Parser.validateNoTemplate t) s Q := by
  unfold Parser.validateNoTemplate
  split
  · exact ErrPost.of hk ht (fun _ => PErrKind.noConfusion)
  · exact ErrPost.of hk ht (fun _ => PErrKind.noConfusion)
  · exact k

theorem optionalMemberProperty_D : ∀ s p, At src styp s p →
    (valOf s = some (.punct p!"?.") ∨ valOf s = some (.punct p!".") ∨ valOf s = some (.punct p!"[")) →
    J ⟨src, styp, n, 0, x, s, p⟩ (Parser.optionalMemberProperty r ctx) s
      (Post ⟨src, styp, n, 0, x, s, p⟩ fun a ts _ => G src styp ctx (.optProp (decide (valOf s = some (.punct p!"?."))) a) ts) := by
  intro s p hp hv
  unfold Parser.optionalMemberProperty
  refine J.bind (J.any fun b => J.bind (J.curVal ?_))
  rcases hv with hv | hv | hv
  · rw [hv]
    refine J.ite (fun _ => ?_) (fun _ => ?_)
    · jb J.consume hp.start with q s1 p1 hq - h1
      jd (computedProperty_D hr ctx none) at h1 with e ts s2 p2 ⟨lb, us, rb, e1, h2, h3, h4⟩ hts - h5
      subst e1
      exact J.pure ⟨_, _, by simp, h5, (D.optComputed (valOf_eq hq hv) h2 h3 h4).cast (by simp)⟩
    · jb J.consume hp.start with q s1 p1 hq - h1
      jb J.parseIdent h1 with t id s2 p2 - hid - h2
      exact J.pure ⟨_, _, by simp, h2, (D.optName (valOf_eq hq hv) hid).cast (by simp)⟩
  · rw [hv]
    jb J.consume hp.start with q s1 p1 hq - h1
    jb J.parseIdent h1 with t id s2 p2 - hid - h2
    exact J.pure ⟨_, _, by simp, h2, (D.optDotName (valOf_eq hq hv) hid).cast (by simp)⟩
  · rw [hv]
    jd (computedProperty_D hr ctx x) at hp.start with e ts s2 p2 ⟨lb, us, rb, e1, h2, h3, h4⟩ hts - h5
    subst e1
    exact J.pure ⟨_, _, by simp, h5, (D.optIndex h2 h3 h4).cast (by simp)⟩

theorem optionalExpr_J {F : Frame} (hF : F.src = src ∧ F.styp = styp ∧ F.n = n) {s : PState} {hs : List Token} {p : Cursor}
    {left : Expr} (h : Hist F true hs s p) (hne : hs ≠ []) (hl : G src styp ctx (.expr 18 left) hs) (hn : nestedNew left = false)
    (hv : valOf s = some (.punct p!"?.")) :
    J F (Parser.optionalExpr r ctx (posOf F.s0) left) s (Post F fun e ts _ => G src styp ctx (.expr 17 e) ts) := by
  obtain ⟨rfl, rfl, rfl⟩ := hF
  unfold Parser.optionalExpr
  refine J.loop (fun e hs' s' => hs' ≠ [] ∧ ((G F.src F.styp ctx (.expr 18 e) hs' ∧ nestedNew e = false ∧ valOf s' = some (.punct p!"?.")) ∨
    G F.src F.styp ctx (.chain e) hs')) h ⟨hne, .inl ⟨hl, hn, hv⟩⟩ hr.fuel ?_
  clear h hne hl hn hv
  rintro e hs s p h ⟨hne, hi⟩
  have call : ∀ o, o = decide (valOf s = some (.punct p!"?.")) →
      J F (Parser.optionalCallExpr r ctx (posOf F.s0) e >>= fun e => Pure.pure (.inl e)) s
      (LoopPost F hs (fun e hs' s' => hs' ≠ [] ∧ ((G F.src F.styp ctx (.expr 18 e) hs' ∧ nestedNew e = false ∧ valOf s' = some (.punct p!"?.")) ∨
        G F.src F.styp ctx (.chain e) hs')) (Post F fun e ts _ => G F.src F.styp ctx (.expr 17 e) ts)) := by
    intro o ho
    unfold Parser.optionalCallExpr
    refine J.bind (J.bind (J.maybeConsume h ?_ ?_))
    · intro q s1 p1 _ hq _ h1
      jd (arguments_D hr ctx none) at h1 with ⟨asp, as⟩ us s2 p2 ha hus - h2
      jp
      refine J.pure ?_
      refine J.againSnoc h2.assoc (by simp) ⟨by simp, .inr ?_⟩
      have hsp : Spans ⟨posOf F.s0, s2.pos⟩ (hs ++ q :: us) := by simpa using h2.spans (by simp)
      rcases hi with ⟨h3, h4, -⟩ | h3
      · exact (D.chainFirstCall h3 h4 hq ha hsp).cast (by simp)
      · exact (D.chainOptCall h3 hq ha hsp).cast (by simp)
    · intro hq
      jd (arguments_D hr ctx none) at h with ⟨asp, as⟩ us s2 p2 ha hus - h2
      jp
      refine J.pure ?_
      refine J.againSnoc h2 hus ⟨by simp [hne], .inr ?_⟩
      rcases hi with ⟨h3, h4, h5⟩ | h3
      · exact absurd h5 hq
      · exact D.chainCall h3 ha (h2.spans (by simp [hne]))
  have member : (valOf s = some (.punct p!"?.") ∨ valOf s = some (.punct p!".") ∨ valOf s = some (.punct p!"[")) →
      J F (Parser.optionalMemberExpr r ctx (posOf F.s0) e >>= fun e => Pure.pure (.inl e)) s
      (LoopPost F hs (fun e hs' s' => hs' ≠ [] ∧ ((G F.src F.styp ctx (.expr 18 e) hs' ∧ nestedNew e = false ∧ valOf s' = some (.punct p!"?.")) ∨
        G F.src F.styp ctx (.chain e) hs')) (Post F fun e ts _ => G F.src F.styp ctx (.expr 17 e) ts)) := by
    intro hv
    unfold Parser.optionalMemberExpr
    refine J.bind (J.bind (J.mono (Q := fun b s' => b = decide (valOf s = some (.punct p!"?.")) ∧ s' = s) 
      (J.curMatches (fun h => ⟨by simp [h], rfl⟩) (fun h => ⟨by simp [h], rfl⟩)) ?_))
    rintro b s' ⟨rfl, rfl⟩
    refine J.bind (J.callPost (optionalMemberProperty_D hr ctx none s' p h.at1 hv) h (by jc) ?_)
    intro m us s1 p1 hm hus _ h1
    jp
    refine J.pure ?_
    refine J.againSnoc h1 hus ⟨by simp [hne], .inr ?_⟩
    have hsp : Spans ⟨posOf F.s0, s1.pos⟩ (hs ++ us) := h1.spans (by simp [hne])
    rcases hi with ⟨h3, h4, h5⟩ | h3
    · rw [decide_eq_true h5] at hm ⊢
      exact D.chainFirstMember h3 h4 hm hsp
    · exact D.chainMember h3 hm hsp
  have finish : valOf s ≠ some (.punct p!"?.") → Post F (fun e ts _ => G F.src F.styp ctx (.expr 17 e) ts) e s := by
    intro hv
    rcases hi with ⟨_, _, h5⟩ | h3
    · exact absurd h5 hv
    · exact ⟨_, _, hne, h, .chainExpr h3⟩
  refine J.bind (J.any fun b => J.bind (J.cur? ?_))
  cases ht : s.cur with
  | error er =>
    exact J.done (finish (by simp [valOf, ht, Except.toOption]))
  | ok t =>
    show J F (if t.value = .punct p!"?." then _ else _) s _
    have hvt := valOf_ok ht
    refine J.ite (fun hv => ?_) (fun hv => ?_)
    · have hv' : valOf s = some (.punct p!"?.") := by rw [hvt, hv]
      refine J.ite (fun _ => call _ rfl) (fun _ => ?_)
      refine J.bind (J.peek? ?_)
      cases hu : s.nxt with
      | error er =>
        show J F _ s _
        exact member (.inl hv')
      | ok u =>
        show J F (Parser.validateNoTemplate u >>= _) s _
        refine J.bind (J.validateNoTemplate hr h.kept (h.at1.nxtWF ht hu) ?_)
        exact member (.inl hv')
    refine J.ite (fun hv2 => ?_) (fun hv2 => ?_)
    · exact member (by rcases hv2 with hv2 | hv2 <;> simp [hvt, hv2])
    refine J.ite (fun hv3 => call _ rfl) (fun hv3 => ?_)
    refine J.bind (J.validateNoTemplate hr h.kept (h.at1.curWF ht) ?_)
    exact J.done (finish (by rw [hvt]; simpa using hv))


/-! ## Parentheses and arrow functions -/

theorem thisExpr_P : Parses src styp n 0 x Parser.thisExpr ctx (.expr 21) := by
  intro s p hp
  unfold Parser.thisExpr
  jb J.consumeAssert hp.start with t s1 p1 - ht - h1
  exact J.pure ⟨_, _, by simp, h1, .this ht⟩

theorem parenthesizedExpr_P : Parses src styp n 0 x (Parser.parenthesizedExpr r ctx) ctx (.expr 21) := by
  intro s p hp
  unfold Parser.parenthesizedExpr
  jp
  jb J.consumeAssert hp.start with lp s1 p1 - hlp - h1
  jd (expr_P hr { ctx with in_ := true }) at h1 with e ts s2 p2 he hts - h2
  jb J.consumeAssert h2 with rp s3 p3 - hrp - h3
  jp
  exact J.pure ⟨_, _, by simp, h3, (D.paren hlp he hrp (by simpa using h3.spans (by simp))).cast (by simp)⟩

/-- The error with an arrow function. -/
theorem throwArrow_J {s0 s : PState} {p : Cursor} {c : Bool} (h : Hist ⟨src, styp, n, 0, some ctx, s0, p⟩ c [] s p)
    {Q : Expr → PState → Prop} : J ⟨src, styp, n, 0, some ctx, s0, p⟩ (Parser.throwArrow r ctx) s Q := by
  unfold Parser.throwArrow
  jd (arrowFunctionExpr_P hr ctx (some ctx)) at h with e ts s1 p1 he hts - h1
  have hsp := he.nodeSpan _ rfl
  refine ⟨h1.kept, .inl (h1.spansWF hsp), fun a ha => ?_⟩
  cases ha
  obtain ⟨u, v, e1, e2, e3⟩ := hsp
  refine ⟨[], ts, ctx, p1, h1, hts, ?_, he, fun _ cx hcx => by cases hcx; rfl⟩
  intro t ht
  rw [e1] at ht
  cases ht
  show e.span.start = _
  rw [e3]

theorem coverParenthesizedAndArrowParameters_P :
    Parses src styp n 0 (some ctx) (Parser.coverParenthesizedAndArrowParameters r ctx) ctx (.expr 21) := by
  intro s p hp
  unfold Parser.coverParenthesizedAndArrowParameters
  jb J.current hp.start with t ht
  refine J.ifPeek (fun _ => ?_) (fun _ => ?_)
  · exact throwArrow_J hr ctx hp.start
  refine J.attempt ?_ ?_
  · je (parenthesizedExpr_P hr ctx (some ctx)) at hp.start with e ts s1 p1 he hts - h1
    refine J.ifCur (fun _ => ?_) (fun _ => ?_)
    · refine J.bind (J.rewindTo hp.start ht h1.kept ?_)
      intro s2 h2 _
      exact throwArrow_J hr ctx h2
    · exact J.pure ⟨_, _, hts, h1, he⟩
  · intro e s1 he
    refine J.ite (fun _ => ?_) (fun _ => ?_)
    · refine J.bind (J.rewindTo hp.start ht he.kept ?_)
      intro s2 h2 _
      exact throwArrow_J hr ctx h2
    · exact J.throw he

theorem coveredCallExpression_P : Parses src styp n 0 x (Parser.coveredCallExpression r ctx) ctx (.expr 19) := by
  intro s p hp
  unfold Parser.coveredCallExpression
  jp
  jb J.parseIdent hp.start with t id s1 p1 - hid - h1
  refine callExpr_J hr ctx (F := ⟨src, styp, n, 0, x, s, p⟩) ⟨rfl, rfl, rfl⟩ h1 (by simp) ?_
  intro asp as us s2 p2 hus ha h2 hsp
  exact ⟨_, _, by simp, h2, D.call ((D.identRef hid).weaken (by omega)) ha hsp⟩

theorem coverCallOrAsyncArrowHead_P : Parses src styp n 0 x (Parser.coverCallOrAsyncArrowHead r ctx) ctx (.expr 1) := by
  intro s p hp
  unfold Parser.coverCallOrAsyncArrowHead
  jb J.current hp.start with t ht
  jd (coveredCallExpression_P hr ctx x) at hp.start with e ts s1 p1 he hts - h1
  refine J.ifCur (fun _ => ?_) (fun _ => ?_)
  · refine J.bind (J.rewindTo hp.start ht h1.kept ?_)
    intro s2 h2 _
    je (asyncArrowFunctionExpr_P hr ctx x) at h2 with e ts s1 p1 he hts - h1
    exact ⟨_, _, hts, h1, he⟩
  · exact J.pure ⟨_, _, hts, h1, he.weaken (by omega)⟩

/-! ## Classes -/

theorem classElement_D (hasSuper : Bool) : Does src styp n 0 x (Parser.classElement r ctx hasSuper) fun m ts _ =>
    G src styp (elementCtx ctx hasSuper ts) (.classElement m) ts := by
  intro s p hp
  unfold Parser.classElement
  refine J.bind ?_
  show J _ (Parser.methodDefinition r _) s _
  je (methodDefinition_P hr _ x) at hp.start with m ts s1 p1 hm hts hb h1
  refine ⟨_, _, hts, h1, ?_⟩
  have hc : (match s.cur with
      | .ok { value := .ident name, .. } => decide (c!"constructor" = name)
      | .ok { value := .lit (.string l), .. } => decide (c!"constructor" = l.value)
      | _ => false) = ts.head?.any ctorTok := by
    cases ts with
    | nil => exact absurd rfl hts
    | cons t ts =>
      obtain ⟨t0, h0, h1⟩ := hb t rfl
      rw [h0]
      have e1 : ∀ t : Token, (match (Except.ok t : Except LexErr Token) with
        | .ok { value := .ident name, .. } => decide (c!"constructor" = name)
        | .ok { value := .lit (.string l), .. } => decide (c!"constructor" = l.value)
        | _ => false) = ctorTok t := by
        rintro ⟨v, fol, sp⟩
        unfold ctorTok
        cases v with
        | lit l => cases l <;> rfl
        | _ => rfl
      have e2 : ∀ t : Token, t.value.stable = false → ctorTok t = false := by
        rintro ⟨v, fol, sp⟩ h
        unfold ctorTok
        cases v with
        | lit l => cases l <;> first | rfl | (cases h; done)
        | ident => cases h
        | _ => rfl
      rw [e1]
      show ctorTok t0 = ctorTok t
      by_cases hs0 : t0.value.stable = true
      · rw [h1.same hs0]
      · by_cases hs1 : t.value.stable = true
        · rw [h1.same' hs1]
        · rw [e2 t0 (by simpa using hs0), e2 t (by simpa using hs1)]
  show G src styp (elementCtx ctx hasSuper ts) (.classElement m) ts
  unfold elementCtx
  rw [← hc]
  exact hm

/-- The elements of a class body, after `pre`. -/
def ClassInv (src : Str) (styp : SourceType) (ctx : Ctx) (hasSuper : Bool) (pre : List Token) (acc : List MethodDef) (hs : List Token)
    (_ : PState) : Prop :=
  ∃ ps : List (Option MethodDef × List Token), hs = pre ++ toks ps ∧ acc = (trees ps).filterMap id ∧
    (∀ m us, (some m, us) ∈ ps → G src styp (elementCtx ctx hasSuper us) (.classElement m) us) ∧
    (∀ us, (none, us) ∈ ps → ∃ t : Token, t.value = .punct p!";" ∧ us = [t])

theorem classBody_D (hasSuper : Bool) : Does src styp n 0 x (Parser.classBody r ctx hasSuper) fun ms ts _ =>
    ∃ (lb rb : Token) (ps : List (Option MethodDef × List Token)), ts = lb :: toks ps ++ [rb] ∧ ms = (trees ps).filterMap id ∧
    lb.value = .punct p!"{" ∧ (∀ m us, (some m, us) ∈ ps → G src styp (elementCtx ctx hasSuper us) (.classElement m) us) ∧
    (∀ us, (none, us) ∈ ps → ∃ t : Token, t.value = .punct p!";" ∧ us = [t]) ∧ rb.value = .punct p!"}" := by
  intro s p hp
  unfold Parser.classBody
  jb J.consumeAssert hp.start with lb s1 p1 - hlb - h1
  refine J.loop (ClassInv src styp ctx hasSuper [lb]) h1 ⟨[], by simp [toks], rfl, by simp, by simp⟩ hr.fuel ?_
  rintro acc hs s2 p2 h2 ⟨ps, e1, e2, e3, e4⟩
  refine J.ifMaybe h2 ?_ ?_
  · intro rb s3 p3 _ hrb _ h3
    subst e1 e2
    exact J.done ⟨_, _, by simp, h3, lb, rb, ps, by simp, rfl, hlb, e3, e4, hrb⟩
  intro _
  refine J.ifMaybe h2 ?_ ?_
  · intro sc s3 p3 _ hsc _ h3
    refine J.againSnoc h3 (by simp) ⟨ps ++ [(none, [sc])], ?_, ?_, ?_, ?_⟩
    · rw [e1, toks_snoc]; simp
    · rw [e2, trees_snoc]; simp
    · intro m us hm
      rcases List.mem_append.1 hm with hm | hm
      · exact e3 m us hm
      · simp at hm
    · intro us hm
      rcases List.mem_append.1 hm with hm | hm
      · exact e4 us hm
      · simp at hm; exact ⟨sc, hsc, hm⟩
  · intro _
    jd (classElement_D hr ctx none hasSuper) at h2 with m ts s3 p3 hm hts - h3
    refine J.againSnoc h3 hts ⟨ps ++ [(some m, ts)], ?_, ?_, ?_, ?_⟩
    · rw [e1, toks_snoc]; simp
    · rw [e2, trees_snoc]; simp
    · intro m' us hm'
      rcases List.mem_append.1 hm' with hm' | hm'
      · exact e3 m' us hm'
      · simp at hm'; obtain ⟨rfl, rfl⟩ := hm'; exact hm
    · intro us hm
      rcases List.mem_append.1 hm with hm | hm
      · exact e4 us hm
      · simp at hm


/-! ## Calls -/

omit hr in
theorem Spec.D.plainTemplate {E : GEnv} {ctx : Ctx} {ps : List TemplatePart} {us : List Token} (h : D E ctx (.template ps) us)
    (hh : ∀ t ∈ us.head?, ∃ v, t.value = .lit (.template v)) : ∃ t v, us = [t] ∧ t.value = .lit (.template v) ∧ ps = [.string v] := by
  cases h with
  | templatePlain h => exact ⟨_, _, rfl, h, rfl⟩
  | templateHead h _ => obtain ⟨v, hv⟩ := hh _ rfl; rw [h] at hv; cases hv

theorem recursiveCallExpression_J {F : Frame} (hF : F.src = src ∧ F.styp = styp ∧ F.n = n) {s : PState} {hs : List Token} {p : Cursor}
    {e : Expr} (h : Hist F true hs s p) (hne : hs ≠ [])
    (hi : (G src styp ctx (.expr 20 e) hs ∨ G src styp ctx (.newE e) hs ∧ valOf s ≠ some (.punct p!"(")) ∧ NoMember s) :
    J F (Parser.recursiveCallExpression r ctx (posOf F.s0) e) s (Post F fun e ts _ => G src styp ctx (.expr 18 e) ts) := by
  obtain ⟨rfl, rfl, rfl⟩ := hF
  unfold Parser.recursiveCallExpression
  refine J.loop (fun e hs' s' => hs' ≠ [] ∧ (G F.src F.styp ctx (.expr 19 e) hs' ∨
    ((G F.src F.styp ctx (.expr 20 e) hs' ∨ G F.src F.styp ctx (.newE e) hs' ∧ valOf s' ≠ some (.punct p!"(")) ∧ NoMember s'))) h
    ⟨hne, .inr hi⟩ hr.fuel ?_
  clear h hne hi
  rintro e hs s p h ⟨hne, hi⟩
  refine J.bind (J.curVal ?_)
  have mem : (valOf s = some (.punct p!".") ∨ valOf s = some (.punct p!"[")) →
      J F (Parser.memberExprRightSide r ctx (posOf F.s0) (.expr e) >>= fun e => Pure.pure (.inl e)) s
      (LoopPost F hs (fun e hs' s' => hs' ≠ [] ∧ (G F.src F.styp ctx (.expr 19 e) hs' ∨
    ((G F.src F.styp ctx (.expr 20 e) hs' ∨ G F.src F.styp ctx (.newE e) hs' ∧ valOf s' ≠ some (.punct p!"(")) ∧ NoMember s')))
      (Post F fun e ts _ => G F.src F.styp ctx (.expr 18 e) ts)) := by
    intro hv
    refine J.bind (memberExprRightSide_J hr ctx (F := F) ⟨rfl, rfl, rfl⟩ h hne hv ?_)
    intro m us s1 p1 hus hm h1 hsp
    refine J.againSnoc h1 hus ⟨by simp [hne], .inl ?_⟩
    rcases hi with hi | ⟨_, hi⟩
    · exact D.member (.inl rfl) hi hm hsp
    · rcases hv with hv | hv
      · exact absurd hv hi.1
      · exact absurd hv hi.2.1
  split
  · next hv =>
    refine J.bind (callExpr_J hr ctx (F := F) ⟨rfl, rfl, rfl⟩ h hne ?_)
    intro asp as us s1 p1 hus ha h1 hsp
    refine J.againSnoc h1 hus ⟨by simp [hne], .inl ?_⟩
    rcases hi with hi | ⟨hi | ⟨_, hi⟩, _⟩
    · exact D.call hi ha hsp
    · exact D.call (hi.weaken (by omega)) ha hsp
    · exact absurd hv hi
  · next hv => exact mem (.inl hv)
  · next hv => exact mem (.inr hv)
  · next v hv =>
    refine J.bind (taggedTemplate_J hr ctx (F := F) ⟨rfl, rfl, rfl⟩ h hne ?_)
    intro ps us s1 p1 hus hps hbg h1 hsp
    refine J.againSnoc h1 hus ⟨by simp [hne], .inl ?_⟩
    obtain ⟨t, w, rfl, hw, rfl⟩ := hps.plainTemplate (by
      intro t ht
      obtain ⟨t0, h0, h1⟩ := hbg t ht
      have := valOf_eq h0 hv
      exact ⟨v, by rw [h1.same (by rw [this]; rfl), this]⟩)
    rcases hi with hi | ⟨_, hi⟩
    · exact D.taggedCall hi hw hsp
    · exact absurd hv (hi.2.2.2 v)
  · refine J.done ⟨_, _, hne, h, ?_⟩
    rcases hi with hi | ⟨hi | ⟨hi, _⟩, _⟩
    · exact hi.weaken (by omega)
    · exact hi.weaken (by omega)
    · exact .newLhs hi

theorem superCallExpr_P : Parses src styp n 0 x (Parser.superCallExpr r ctx) ctx (.expr 18) := by
  intro s p hp
  unfold Parser.superCallExpr
  jp
  jb J.consumeAssert hp.start with t s1 p1 - ht - h1
  jd (arguments_D hr ctx none) at h1 with ⟨asp, as⟩ us s2 p2 ha hus - h2
  jp
  have hsp := h2.spans (by simp)
  refine J.ite (fun hc => ?_) (fun hc => ?_)
  · exact ErrPost.of h2.kept (h2.spanWF (by simp)) (fun _ => PErrKind.noConfusion)
  · exact J.pure ⟨_, _, by simp, h2, (D.superCall (by simpa using hc) ht ha (by simpa using hsp)).cast (by simp)⟩

theorem importCallExpr_P : ∀ s p, At src styp s p → valOf s = some (.keyword k!"import") →
    J ⟨src, styp, n, 0, x, s, p⟩ (Parser.importCallExpr r ctx) s
      (Post ⟨src, styp, n, 0, x, s, p⟩ fun e ts _ => G src styp ctx (.expr 18 e) ts) := by
  intro s p hp hv
  have imp : Does src styp n 0 none (Parser.importArgument r ctx) fun a ts _ => ∃ lp us rp e, ts = lp :: us ++ [rp] ∧
      lp.value = .punct p!"(" ∧ G src styp ctx (.expr 1 e) us ∧ rp.value = .punct p!")" ∧ Spans a.1 ts ∧ a.2 = [.expr e] := by
    intro s p hp
    unfold Parser.importArgument
    jp
    jb J.consumeAssert hp.start with lp s1 p1 - hlp - h1
    jd (hr.assignExpr ctx) at h1 with e us s2 p2 he hus - h2
    jb J.consumeAssert h2 with rp s3 p3 - hrp - h3
    jp
    exact J.pure ⟨_, _, by simp, h3, lp, us, rp, e, by simp, hlp, he, hrp, h3.spans (by simp), rfl⟩
  unfold Parser.importCallExpr
  jp
  jb J.consume hp.start with t s1 p1 ht - h1
  jd imp at h1 with ⟨asp, as⟩ ts s2 p2 ⟨lp, us, rp, e, e1, e2, e3, e4, e5, e6⟩ - - h2
  dsimp only at e5 e6
  subst e1 e6
  jp
  exact J.pure ⟨_, _, by simp, h2, (D.importCall (valOf_eq ht hv) e2 e3 e4 e5 (by simpa using h2.spans (by simp))).cast (by simp)⟩

theorem callOrMemberExpr_P : Parses src styp n 2 (some ctx) (Parser.callOrMemberExpr r ctx) ctx (.expr 18) := by
  intro s p hp
  unfold Parser.callOrMemberExpr
  refine J.bind (J.any fun b => J.bind (J.curVal ?_))
  refine J.ite (fun _ => ?_) (fun _ => ?_)
  · je (superCallExpr_P hr ctx (some ctx)) at hp.start with e ts s1 p1 he hts - h1
    exact ⟨_, _, hts, h1, he⟩
  refine J.ite (fun hv => ?_) (fun _ => ?_)
  · refine J.callPost (importCallExpr_P hr ctx (some ctx) s p hp hv.1) hp.start (by jc) ?_
    rintro e ts s1 p1 he hts - h1
    exact ⟨_, _, hts, h1, he⟩
  · jp
    jd (hr.newOrMember ctx) at hp.start with e ts s1 p1 he hts - h1
    exact recursiveCallExpression_J hr ctx (F := ⟨src, styp, n, 2, some ctx, s, p⟩) ⟨rfl, rfl, rfl⟩ h1 hts he

theorem leftHandSideExpr_P : Parses src styp n 2 (some ctx) (Parser.leftHandSideExpr r ctx) ctx (.expr 17) := by
  intro s p hp
  unfold Parser.leftHandSideExpr
  jp
  jd (callOrMemberExpr_P hr ctx) at hp.start with e ts s1 p1 he hts - h1
  refine J.ifCur (fun hv => ?_) (fun _ => ?_)
  · refine J.ite (fun _ => ?_) (fun hn => ?_)
    · exact J.consumeThrow h1 (fun t => ⟨rfl, fun _ => PErrKind.noConfusion⟩)
    · exact optionalExpr_J hr ctx (F := ⟨src, styp, n, 2, some ctx, s, p⟩) ⟨rfl, rfl, rfl⟩ h1 hts he
        (by rw [← isNestedNew_eq]; simpa using hn) hv
  · exact J.pure ⟨_, _, hts, h1, he.weaken (by omega)⟩

theorem classTail_D : Does src styp n 0 x (Parser.classTail r ctx) fun a ts _ => G src styp ctx (.classTail a.1 a.2) ts := by
  intro s p hp
  unfold Parser.classTail
  refine J.bind (J.maybeConsume hp.start ?_ ?_)
  · intro t s1 p1 _ ht _ h1
    refine J.bind (J.thenTry (fun _ => ?_) (fun h => (nomatch h)))
    je (leftHandSideExpr_P hr ctx) at h1 with e us s2 p2 he hus - h2
    jd (classBody_D hr ctx none (some e).isSome) at h2 with ms ts s3 p3 ⟨lb, rb, ps, e1, e2, e3, e4, e5, e6⟩ hts - h3
    subst e1 e2
    exact J.pure ⟨_, _, by simp, h3, (D.classHeritage ht he e3 e4 e5 e6).cast (by simp)⟩
  · intro _
    refine J.bind (J.thenTry (fun h => (nomatch h)) (fun _ => ?_))
    jd (classBody_D hr ctx x (none : Option Expr).isSome) at hp.start with ms ts s3 p3 ⟨lb, rb, ps, e1, e2, e3, e4, e5, e6⟩ hts - h3
    subst e1 e2
    exact J.pure ⟨_, _, by simp, h3, (D.classTail e3 e4 e5 e6).cast (by simp)⟩

end
end Fajt
