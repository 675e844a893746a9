import Verif.Proofs.ParsePrimary
/-!
# Operators, assignment
-/
namespace Fajt
open Spec
set_option linter.unusedSectionVars false
variable [UnicodeID] [Blame]

/-! ## Operator tables -/

theorem updateOpOf_symbol {v : TokVal} {op : UpdateOp} (h : Parser.updateOpOf v = some op) : symbol v = some op.asStr := by
  unfold Parser.updateOpOf at h
  split at h <;> cases h <;> rfl

theorem unaryOpOf_symbol {v : TokVal} {op : UnaryOp} (h : Parser.unaryOpOf v = some op) : symbol v = some op.asStr := by
  unfold Parser.unaryOpOf at h
  split at h <;> cases h <;> rfl

theorem assignOpOf_symbol {v : TokVal} {op : AssignOp} (h : Parser.assignOpOf v = some op) : symbol v = some op.asStr := by
  unfold Parser.assignOpOf at h
  split at h <;> cases h <;> rfl

/-- A check of an assignment target. -/
theorem J.checkTarget {F : Frame} {s : PState} {ctx : Ctx} {msg : Str} {e : Expr} {pre ts : List Token} {p : Cursor} {l : Nat} {c : Bool}
    (h : Hist F c (pre ++ ts) s p) (he : G F.src F.styp ctx (.expr l e) ts) {Q : Unit → PState → Prop}
    {s' : PState} (hk : Kept F s')
    (k : TargetOK ctx.strict e → Q () s') : J F (M.ofExcept (e.earlyErrorsTarget ctx msg)) s' Q := by
  refine J.ofExcept ?_ ?_
  · intro _ hok
    exact k ((Props.C31_target_check ctx msg e).1 hok)
  · intro er hok
    obtain ⟨h1, h2⟩ := earlyErrorsTarget_err hok
    refine ErrPost.of hk ?_ h2
    rcases h1 with h1 | ⟨id, h1, h3⟩
    · rw [h1]; exact h.spansWF (he.nodeSpan _ rfl)
    · obtain ⟨t, ht, e1⟩ := he.names _ rfl _ h1
      rw [h3, e1]
      exact h.tokWF (List.mem_append_right _ ht)

section
variable {src : Str} {styp : SourceType} {n : Nat} {r : Rec} (hr : RecOK src styp n r) (ctx : Ctx) (x : Option Ctx)
include hr

theorem updateExpr_P : Parses src styp n 2 (some ctx) (Parser.updateExpr r ctx) ctx (.expr 16) := by
  intro s p hp
  unfold Parser.updateExpr
  jp
  refine J.bind (J.optionalOperator hp.start ?_ ?_)
  · intro t op s1 p1 _ hop h1
    show J _ (Parser.prefixUpdateExpr r ctx _ op) s1 _
    unfold Parser.prefixUpdateExpr
    jd (hr.unary ctx) at h1 with e ts s2 p2 he hts - h2
    refine J.bind (J.checkTarget (F := ⟨src, styp, n, 2, some ctx, s, p⟩) h2 he h2.kept ?_)
    intro hok
    jp
    exact J.pure ⟨_, _, by simp, h2, (D.prefixUpdate (updateOpOf_symbol hop) he hok (by simpa using h2.spans (by simp))).cast (by simp)⟩
  · show J _ (Parser.leftHandSideExpr r ctx >>= _) s _
    jd (leftHandSideExpr_P hr ctx) at hp.start with e ts s1 p1 he hts - h1
    rw [List.nil_append] at h1
    refine J.bind (J.firstOnLine ?_)
    refine J.ite (fun _ => J.pure ⟨_, _, hts, h1, D.weaken he (by omega)⟩) (fun hf => ?_)
    refine J.bind (J.optionalOperator h1 ?_ ?_)
    · intro t op s2 p2 ht hop h2
      show J _ (Parser.postfixUpdateExpr ctx e op) s2 _
      unfold Parser.postfixUpdateExpr
      refine J.bind (J.checkTarget (F := ⟨src, styp, n, 2, some ctx, s, p⟩) (pre := []) h1 he h2.kept ?_)
      intro hok
      jp
      have hst : e.span.start = posOf s := by
        obtain ⟨a, b, e1, e2, e3⟩ := he.nodeSpan _ rfl
        rw [e3]; exact (h1.start e1).symm
      rw [hst]
      have hfol : t.fol = false := by
        unfold folOf at hf; rw [ht] at hf; simpa using hf
      exact J.pure ⟨_, _, by simp, h2, D.postfixUpdate he hok (updateOpOf_symbol hop) hfol (h2.spans (by simp))⟩
    · exact J.pure ⟨_, _, hts, h1, D.weaken he (by omega)⟩

theorem unary_P : Parses src styp n 2 (some ctx) (Parser.unary r ctx) ctx (.expr 15) := by
  intro s p hp
  unfold Parser.unary
  jp
  refine J.bind (J.optionalOperator hp.start ?_ ?_)
  · intro t op s1 p1 _ hop h1
    show J _ (Parser.unaryExprWithOperator r ctx _ op) s1 _
    unfold Parser.unaryExprWithOperator
    jd (hr.unary ctx) at h1 with e ts s2 p2 he hts - h2
    refine J.bind (J.ofExcept ?_ ?_)
    · intro _ hok
      jp
      refine J.pure ⟨_, _, by simp, h2, (D.unary (unaryOpOf_symbol hop) he ?_ (by simpa using h2.spans (by simp))).cast (by simp)⟩
      intro hd
      rw [if_pos hd] at hok
      exact (Props.C32_delete_check ctx e).1.1 hok
    · intro er hok
      split at hok
      · obtain ⟨⟨id, h3, h4⟩, h5⟩ := earlyErrorsDelete_err hok
        obtain ⟨t', ht', e1⟩ := he.names _ rfl _ h3
        refine ErrPost.of h2.kept ?_ h5
        rw [h4, e1]
        exact h2.tokWF (List.mem_append_right _ ht')
      · cases hok
  · show J _ (Parser.awaitOrUpdateExpr r ctx) s _
    unfold Parser.awaitOrUpdateExpr
    have upd : J ⟨src, styp, n, 2, some ctx, s, p⟩ (Parser.updateExpr r ctx) s
        (Post ⟨src, styp, n, 2, some ctx, s, p⟩ fun e ts _ => G src styp ctx (.expr 15 e) ts) := by
      refine (updateExpr_P hr ctx s p hp).mono ?_
      rintro e s1 ⟨ts, p1, h1, h2, h3⟩
      exact ⟨ts, p1, h1, h2, D.weaken h3 (by omega)⟩
    refine J.ite (fun ha => ?_) (fun _ => upd)
    jb J.current hp.start with t ht
    refine J.ite (fun hv => ?_) (fun _ => upd)
    unfold Parser.awaitExpr
    jp
    jb J.consumeAssert hp.start with t' s1 p1 - ht' - h1
    jd (hr.unary ctx) at h1 with e ts s2 p2 he hts - h2
    jp
    exact J.pure ⟨_, _, by simp, h2, (D.await ha ht' he (by simpa using h2.spans (by simp))).cast (by simp)⟩

theorem recursiveBinaryExpr_P {α : Type} {K l : Nat} {next : P Expr} {mapOp : TokVal → Option α} {create : Span → Expr → Expr → α → Expr}
    (hnext : Parses src styp n K (some ctx) next ctx (.expr (l + 1))) (hK : K ≤ 8)
    (hop : ∀ (t : Token) op sp a b ts us, mapOp t.value = some op → G src styp ctx (.expr l a) ts → G src styp ctx (.expr (l + 1) b) us →
      Spans sp (ts ++ t :: us) → G src styp ctx (.expr l (create sp a b op)) (ts ++ t :: us)) :
    Parses src styp n K (some ctx) (Parser.recursiveBinaryExpr r next mapOp create) ctx (.expr l) := by
  intro s p hp
  unfold Parser.recursiveBinaryExpr
  jp
  jd hnext at hp.start with e ts s1 p1 he hts - h1
  refine J.loop (fun e hs s => hs ≠ [] ∧ G src styp ctx (.expr l e) hs) h1 ⟨hts, D.weaken he (by omega)⟩ hr.fuel ?_
  clear he hts h1
  rintro e hs s1 p1 h1 ⟨hne, hi⟩
  refine J.bind (J.curVal ?_)
  split
  · next op hop' =>
    jb J.consume h1 with t s2 p2 ht - h2
    jd hnext at h2 with b us s3 p3 hb hus - h3
    jp
    refine J.againSnoc h3.assoc (by simp) ⟨by simp, ?_⟩
    rw [valOf_ok ht] at hop'
    have := hop t op _ e b hs us hop' hi hb (by simpa using h3.spans (by simp))
    simpa using this
  · exact J.done ⟨_, _, hne, h1, hi⟩

theorem binaryExpr_P {K l : Nat} {next : P Expr} {mapOp : TokVal → Option BinaryOp}
    (hnext : Parses src styp n K (some ctx) next ctx (.expr (l + 1))) (hK : K ≤ 8)
    (hop : ∀ v op, mapOp v = some op → symbol v = some op.asStr ∧ binaryLevel op = l ∧ (op = .in_ → ctx.in_ = true)) :
    Parses src styp n K (some ctx) (Parser.binaryExpr r next mapOp) ctx (.expr l) := by
  refine recursiveBinaryExpr_P hr ctx hnext hK ?_
  intro t op sp a b ts us ho ha hb hsp
  obtain ⟨h1, rfl, h3⟩ := hop _ _ ho
  exact D.binary ha h1 h3 hb hsp

theorem logicalExpr_P {K l : Nat} {next : P Expr} {mapOp : TokVal → Option LogicalOp}
    (hnext : Parses src styp n K (some ctx) next ctx (.expr (l + 1))) (hK : K ≤ 8)
    (hop : ∀ v op, mapOp v = some op → symbol v = some op.asStr ∧ logicalLevel op = l) :
    Parses src styp n K (some ctx) (Parser.logicalExpr r next mapOp) ctx (.expr l) := by
  refine recursiveBinaryExpr_P hr ctx hnext hK ?_
  intro t op sp a b ts us ho ha hb hsp
  obtain ⟨h1, rfl⟩ := hop _ _ ho
  exact D.logical ha h1 hb hsp

theorem shortCircuitExpr_P : Parses src styp n 3 (some ctx) (Parser.shortCircuitExpr r ctx) ctx (.expr 3) := by
  unfold Parser.shortCircuitExpr Parser.logicalOrExpr Parser.logicalAndExpr Parser.bitwiseOrExpr Parser.bitwiseXorExpr
    Parser.bitwiseAndExpr Parser.equalityExpr Parser.relationalExpr Parser.shiftExpr Parser.additiveExpr Parser.multiplicativeExpr
    Parser.exponentiationExpr
  refine logicalExpr_P hr ctx (logicalExpr_P hr ctx (logicalExpr_P hr ctx (binaryExpr_P hr ctx (binaryExpr_P hr ctx
    (binaryExpr_P hr ctx (binaryExpr_P hr ctx (binaryExpr_P hr ctx (binaryExpr_P hr ctx (binaryExpr_P hr ctx (binaryExpr_P hr ctx
    (binaryExpr_P hr ctx (hr.unary ctx) (by omega) ?_) (by omega) ?_) (by omega) ?_) (by omega) ?_) (by omega) ?_) (by omega) ?_)
    (by omega) ?_) (by omega) ?_) (by omega) ?_) (by omega) ?_) (by omega) ?_) (by omega) ?_
  all_goals
    intro v op h
    first
      | (unfold Parser.expOpOf at h; split at h <;> cases h <;> exact ⟨rfl, rfl, by simp⟩)
      | (unfold Parser.mulOpOf at h; split at h <;> cases h <;> exact ⟨rfl, rfl, by simp⟩)
      | (unfold Parser.addOpOf at h; split at h <;> cases h <;> exact ⟨rfl, rfl, by simp⟩)
      | (unfold Parser.shiftOpOf at h; split at h <;> cases h <;> exact ⟨rfl, rfl, by simp⟩)
      | (unfold Parser.eqOpOf at h; split at h <;> cases h <;> exact ⟨rfl, rfl, by simp⟩)
      | (unfold Parser.bitAndOpOf at h; split at h <;> cases h <;> exact ⟨rfl, rfl, by simp⟩)
      | (unfold Parser.bitXorOpOf at h; split at h <;> cases h <;> exact ⟨rfl, rfl, by simp⟩)
      | (unfold Parser.bitOrOpOf at h; split at h <;> cases h <;> exact ⟨rfl, rfl, by simp⟩)
      | (unfold Parser.andOpOf at h; split at h <;> cases h <;> exact ⟨rfl, rfl⟩)
      | (unfold Parser.orOpOf at h; split at h <;> cases h <;> exact ⟨rfl, rfl⟩)
      | (unfold Parser.coalesceOpOf at h; split at h <;> cases h <;> exact ⟨rfl, rfl⟩)
      | skip
  · unfold Parser.relOpOf at h
    split at h
    all_goals first
      | (cases h; exact ⟨rfl, rfl, by simp⟩)
      | skip
    · split at h
      · next hin => cases h; exact ⟨rfl, rfl, fun _ => hin⟩
      · cases h
    · cases h

theorem conditionalExpr_P : Parses src styp n 3 (some ctx) (Parser.conditionalExpr r ctx) ctx (.expr 2) := by
  intro s p hp
  unfold Parser.conditionalExpr
  jp
  jd (shortCircuitExpr_P hr ctx) at hp.start with a ts s1 p1 ha hts - h1
  refine J.ifCur (fun hv => ?_) (fun _ => ?_)
  · jb J.consume h1 with q s2 p2 hq - h2
    jd (hr.assignExpr ctx) at h2 with b us s3 p3 hb hus - h3
    jb J.consumeAssert h3 with c s4 p4 - hc - h4
    jd (hr.assignExpr ctx) at h4 with d vs s5 p5 hd hvs - h5
    jp
    exact J.pure ⟨_, _, by simp, h5, (D.conditional ha (valOf_eq hq hv) hb hc hd (by simpa using h5.spans (by simp))).cast (by simp)⟩
  · exact J.pure ⟨_, _, hts, h1, D.weaken ha (by omega)⟩

theorem conditionalExprOrArrowFunction_P :
    Parses src styp n 3 (some ctx) (Parser.conditionalExprOrArrowFunction r ctx) ctx (.expr 1) := by
  intro s p hp
  unfold Parser.conditionalExprOrArrowFunction
  jp
  refine J.attempt ?_ ?_
  · refine (conditionalExpr_P hr ctx s p hp).mono ?_
    rintro e s1 ⟨ts, p1, h1, h2, h3⟩
    exact J.pure ⟨ts, p1, h1, h2, D.weaken h3 (by omega)⟩
  · intro err s1 he
    refine J.ite (fun hst => ?_) (fun _ => J.throw he)
    split
    · next e hk =>
      obtain ⟨pre, ts, cx, p1, h1, h2, h3, h4, h5⟩ := he.arrow e hk
      have hpre : pre = [] := by
        cases pre with
        | nil => rfl
        | cons a pre =>
          exfalso
          cases ts with
          | nil => exact h2 rfl
          | cons t ts =>
            have e1 := h3 t rfl
            have e2 : posOf s = a.span.start := h1.start rfl
            have hc := h1.chain
            cases hc with
            | cons hs hc =>
              have := hs.stop
              have hm := hc.mem_span (hs.place h1.at0.place) (t := t) (by simp)
              have hm2 := h1.chain.mem_span h1.at0.place (t := a) (by simp)
              omega
      subst hpre
      have := h5 rfl ctx rfl
      subst this
      exact J.pure ⟨ts, p1, h2, h1, h4⟩
    · exact J.throw he

theorem yieldExpr_P (hy : ctx.yield = true) : Parses src styp n 0 x (Parser.yieldExpr r ctx) ctx (.expr 1) := by
  intro s p hp
  unfold Parser.yieldExpr Parser.exprEnded
  jp
  jb J.consumeAssert hp.start with t s1 p1 - ht - h1
  have none : J ⟨src, styp, n, 0, x, s, p⟩ (Parser.spanFrom (posOf s) >>= fun span => Pure.pure (.yield span none false)) s1
      (Post ⟨src, styp, n, 0, x, s, p⟩ fun e ts _ => G src styp ctx (.expr 1 e) ts) := by
    jp
    exact J.pure ⟨_, _, by simp, h1, D.yieldNone hy ht (h1.spans (by simp))⟩
  refine J.bind (J.mono (Q := fun _ s' => s' = s1) (J.isEnd (fun _ _ _ => rfl) (fun _ => rfl)) ?_)
  rintro b1 s1' rfl
  refine J.bind (J.bind (J.stmtEnded ?_ ?_))
  · refine J.bind (J.any fun b2 => J.bind (J.any fun b3 => J.pure ?_))
    simp only [Bool.true_or, Bool.or_true, if_true]
    exact none
  · intro u hu hfol _ _
    refine J.bind (J.any fun b2 => J.bind (J.any fun b3 => J.pure ?_))
    refine J.ite (fun _ => none) (fun _ => ?_)
    refine J.bind (J.maybeConsume h1 ?_ ?_)
    · intro st s2 p2 hst hv _ h2
      rw [hu] at hst; cases hst
      jd (hr.assignExpr ctx) at h2 with e ts s3 p3 he hts - h3
      jp
      exact J.pure ⟨_, _, by simp, h3, (D.yieldStar hy ht hv hfol he (by simpa using h3.spans (by simp))).cast (by simp)⟩
    · intro _
      jd (hr.assignExpr ctx) at h1 with e ts s3 p3 he hts hbg h3
      jp
      exact J.pure ⟨_, _, by simp, h3, (D.yield hy ht he (hbg.fol hu hfol) (by simpa using h3.spans (by simp))).cast (by simp)⟩

end
end Fajt
