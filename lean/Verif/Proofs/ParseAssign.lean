import Verif.Proofs.ParseExpr
/-!
# Assignments and assignment patterns
-/
namespace Fajt
open Spec
set_option linter.unusedSectionVars false
variable [UnicodeID] [Blame]

section
variable {src : Str} {styp : SourceType} {n : Nat} {r : Rec} (hr : RecOK src styp n r) (ctx : Ctx) (x : Option Ctx)
include hr

theorem assignmentExprAsync_P : Parses src styp n 3 none (Parser.assignmentExprAsync r ctx) ctx (.expr 1) := by
  intro s p hp
  unfold Parser.assignmentExprAsync
  refine J.ifPeek (fun _ => ?_) (fun _ => ?_)
  · je (arrowFunctionExpr_P hr ctx none) at hp.start with e ts s1 p1 he hts - h1
    exact ⟨_, _, hts, h1, he⟩
  refine J.ifPeek (fun _ => ?_) (fun _ => ?_)
  · je (coverCallOrAsyncArrowHead_P hr ctx none) at hp.start with e ts s1 p1 he hts - h1
    exact ⟨_, _, hts, h1, he⟩
  refine J.bind (J.peekIsIdent ?_)
  refine J.ite (fun _ => ?_) (fun _ => ?_)
  · je (asyncArrowFunctionExpr_P hr ctx none) at hp.start with e ts s1 p1 he hts - h1
    exact ⟨_, _, hts, h1, he⟩
  · je (conditionalExpr_P hr ctx) at hp.start with e ts s1 p1 he hts - h1
    exact ⟨_, _, hts, h1, D.weaken he (by omega)⟩

/-- The right side of an assignment with a simple target. -/
theorem assignment_J {s0 s : PState} {p0 p : Cursor} {K : Nat} {e : Expr} {op : AssignOp} {ts : List Token} {t : Token}
    (h : Hist ⟨src, styp, n, K, none, s0, p0⟩ true (ts ++ [t]) s p) (he : G src styp ctx (.expr 17 e) ts)
    (hok : TargetOK ctx.strict e) (hop : symbol t.value = some op.asStr) :
    J ⟨src, styp, n, K, none, s0, p0⟩ (Parser.assignment r ctx (posOf s0) (.expr e) op) s
      (Post ⟨src, styp, n, K, none, s0, p0⟩ fun e ts _ => G src styp ctx (.expr 1 e) ts) := by
  unfold Parser.assignment
  jd (hr.assignExpr ctx) at h with b us s1 p1 hb hus - h1
  jp
  exact J.pure ⟨_, _, by simp, h1, (D.assign he hok hop hb (by simpa using h1.spans (by simp))).cast (by simp)⟩

/-- The right side of an assignment to a pattern. -/
theorem assignmentPattern_J {s0 s : PState} {p0 p : Cursor} {K : Nat} {a : AssignPattern} {ts : List Token} {t : Token}
    (h : Hist ⟨src, styp, n, K, none, s0, p0⟩ true (ts ++ [t]) s p) (he : G src styp ctx (.assignPattern a) ts)
    (hv : t.value = .punct p!"=") :
    J ⟨src, styp, n, K, none, s0, p0⟩ (Parser.assignment r ctx (posOf s0) (.pattern a) .assign) s
      (Post ⟨src, styp, n, K, none, s0, p0⟩ fun e ts _ => G src styp ctx (.expr 1 e) ts) := by
  unfold Parser.assignment
  jd (hr.assignExpr ctx) at h with b us s1 p1 hb hus - h1
  jp
  exact J.pure ⟨_, _, by simp, h1, (D.assignPattern he hv hb (by simpa using h1.spans (by simp))).cast (by simp)⟩

omit hr in
theorem assignOpOf_assign {v : TokVal} (h : Parser.assignOpOf v = some .assign) : v = .punct p!"=" := by
  unfold Parser.assignOpOf at h
  split at h <;> first | rfl | cases h

omit hr in
/-- After rewinding to a token that is `[` or `{` a pattern starts. -/
theorem startsPattern {t : Token} {s : PState} (h : ∀ t', s.cur = .ok t' → Reread t t')
    (hv : t.value = .punct p!"[" ∨ t.value = .punct p!"{") : StartsPattern s := by
  intro t' ht'
  have := (h t' ht').same (by rcases hv with hv | hv <;> rw [hv] <;> rfl)
  rw [this]; exact hv

theorem assignmentAfterExpr_J {s0 s : PState} {p0 p : Cursor} {e : Expr} {ts : List Token} {t : Token}
    (ht : s0.cur = .ok t) (h : Hist ⟨src, styp, n, 3, none, s0, p0⟩ true ts s p) (hts : ts ≠ [])
    (he : G src styp ctx (.expr 1 e) ts) :
    J ⟨src, styp, n, 3, none, s0, p0⟩ (Parser.assignmentAfterExpr r ctx (posOf s0) t e) s
      (Post ⟨src, styp, n, 3, none, s0, p0⟩ fun e ts _ => G src styp ctx (.expr 1 e) ts) := by
  unfold Parser.assignmentAfterExpr
  refine J.bind (J.optionalOperator h ?_ ?_)
  · intro u op s1 p1 _ hop h1
    have simple : ∀ {Q : Unit → PState → Prop}, (TargetOK ctx.strict e → Q () s1) →
        J ⟨src, styp, n, 3, none, s0, p0⟩ (M.ofExcept (e.earlyErrorsLhs ctx)) s1 Q := fun hQ =>
      J.checkTarget (F := ⟨src, styp, n, 3, none, s0, p0⟩) (pre := []) h he h1.kept hQ
    have hTar : TargetOK ctx.strict e → G src styp ctx (.expr 17 e) ts := fun hok => he.target' hok.1
    by_cases hop' : op = .assign
    · subst hop'
      show J _ (Parser.normalizeLeftSideAssignment r ctx t e >>= _) s1 _
      have pat : (∃ sp l, e = .literal sp l ∧ ((∃ es, l = .array es) ∨ ∃ ps, l = .object ps)) →
          J ⟨src, styp, n, 3, none, s0, p0⟩ (do
            Parser.rewindTo t
            let pattern ← r.assignPattern ctx
            let _ ← Parser.consumeAssert (.punct p!"=")
            pure (.pattern pattern)) s1 (fun left s' => J ⟨src, styp, n, 3, none, s0, p0⟩ (Parser.assignment r ctx (posOf s0) left .assign) s'
              (Post ⟨src, styp, n, 3, none, s0, p0⟩ fun e ts _ => G src styp ctx (.expr 1 e) ts)) := by
        rintro ⟨sp, l, rfl, hl⟩
        obtain ⟨t1, ht1, hv1⟩ := he.literalHead sp l rfl hl
        have hv : t.value = .punct p!"[" ∨ t.value = .punct p!"{" := by
          obtain ⟨t0, e0, hre⟩ := h.first t1 (by simp [firstTok, ht1])
          have e0 : s0.cur = .ok t0 := e0
          rw [ht] at e0; cases e0
          have := hre.same' (by rcases hv1 with hv1 | hv1 <;> rw [hv1] <;> rfl)
          rw [← this]; exact hv1
        refine J.bind (J.rewindTo (h.at0.start (n := n) (K := 3) (x := none)) ht h1.kept ?_)
        intro s2 h2 hre
        refine J.bind (J.callPost (hr.assignPattern ctx none s2 p0 h2.at1 (startsPattern hre hv)) h2 (by jc) ?_)
        intro a us s3 p3 ha hus _ h3
        jb J.consumeAssert h3 with q s4 p4 - hq - h4
        refine J.pure ?_
        exact assignmentPattern_J hr ctx h4 ha hq
      refine J.bind ?_
      unfold Parser.normalizeLeftSideAssignment
      split
      · exact pat ⟨_, _, rfl, .inr ⟨_, rfl⟩⟩
      · exact pat ⟨_, _, rfl, .inl ⟨_, rfl⟩⟩
      · refine J.bind (simple fun hok => ?_)
        exact J.pure (assignment_J hr ctx h1 (hTar hok) hok (assignOpOf_symbol hop))
    · have : J ⟨src, styp, n, 3, none, s0, p0⟩ (M.ofExcept (e.earlyErrorsLhs ctx) >>= fun _ => Parser.assignment r ctx (posOf s0) (.expr e) op) s1
          (Post ⟨src, styp, n, 3, none, s0, p0⟩ fun e ts _ => G src styp ctx (.expr 1 e) ts) := by
        refine J.bind (simple fun hok => ?_)
        exact assignment_J hr ctx h1 (hTar hok) hok (assignOpOf_symbol hop)
      cases op <;> first | exact this | exact absurd rfl hop'
  · exact J.pure ⟨_, _, hts, h, he⟩

theorem assignmentExprGeneral_P : Parses src styp n 3 none (Parser.assignmentExprGeneral r ctx) ctx (.expr 1) := by
  intro s p hp
  unfold Parser.assignmentExprGeneral
  jp
  jb J.current hp.start with t ht
  refine J.attempt ?_ ?_
  · je (conditionalExprOrArrowFunction_P hr ctx) at hp.start with e ts s1 p1 he hts - h1
    exact assignmentAfterExpr_J hr ctx ht h1 hts he
  · intro err s1 he
    refine J.ite (fun hk => ?_) (fun _ => J.throw he)
    have again : ∀ s', Kept ⟨src, styp, n, 3, none, s, p⟩ s' → ErrPost ⟨src, styp, n, 3, none, s, p⟩ err s' := by
      intro s' hk'
      refine ⟨hk', he.span, fun a ha => ?_⟩
      rw [ha] at hk; cases hk
    refine J.bind (J.rewindTo hp.start ht he.kept ?_)
    intro s2 h2 hre
    have goon : StartsPattern s2 → J ⟨src, styp, n, 3, none, s, p⟩ (r.assignPattern ctx >>= fun a => Parser.assignmentAfterPattern r ctx (posOf s) a err) s2
        (Post ⟨src, styp, n, 3, none, s, p⟩ fun e ts _ => G src styp ctx (.expr 1 e) ts) := by
      intro hsp
      refine J.bind (J.callPost (hr.assignPattern ctx none s2 p h2.at1 hsp) h2 (by jc) ?_)
      intro a us s3 p3 ha hus _ h3
      unfold Parser.assignmentAfterPattern
      refine J.bind (J.optionalOperator h3 ?_ ?_)
      · intro u op s4 p4 _ hop h4
        by_cases hop' : op = .assign
        · subst hop'
          exact assignmentPattern_J hr ctx h4 ha (assignOpOf_assign hop)
        · have : J ⟨src, styp, n, 3, none, s, p⟩ (M.throw err) s4
            (Post ⟨src, styp, n, 3, none, s, p⟩ fun e ts _ => G src styp ctx (.expr 1 e) ts) := J.throw (again _ h4.kept)
          cases op <;> first | exact this | exact absurd rfl hop'
      · exact J.throw (again _ h3.kept)
    refine J.bind (J.curMatches (fun hv => ?_) (fun hv => ?_))
    · refine J.bind (J.curMatches (fun hv' => ?_) (fun hv' => ?_)) <;>
        exact goon (fun t' ht' => by rw [valOf_ok ht'] at hv; right; simpa using hv)
    · refine J.bind (J.curMatches (fun hv' => ?_) (fun hv' => ?_))
      · exact goon (fun t' ht' => by rw [valOf_ok ht'] at hv'; left; simpa using hv')
      · exact J.throw (again _ h2.kept)

theorem assignExpr_P : Parses src styp n 3 none (Parser.assignExpr r ctx) ctx (.expr 1) := by
  intro s p hp
  unfold Parser.assignExpr
  refine J.bind (J.curVal ?_)
  refine J.ite (fun hv => ?_) (fun _ => ?_)
  · je (yieldExpr_P hr ctx none hv.2) at hp.start with e ts s1 p1 he hts - h1
    exact ⟨_, _, hts, h1, he⟩
  refine J.ite (fun _ => assignmentExprAsync_P hr ctx s p hp) (fun _ => ?_)
  refine J.bind (J.isIdent ?_)
  refine J.bind (J.peekMatches (fun _ => ?_) (fun _ => ?_)) <;>
    refine J.ite (fun _ => ?_) (fun _ => assignmentExprGeneral_P hr ctx s p hp) <;>
  · je (arrowFunctionExpr_P hr ctx none) at hp.start with e ts s1 p1 he hts - h1
    exact ⟨_, _, hts, h1, he⟩

/-! ## Assignment patterns -/

theorem destructuringAssignmentTarget_P : Parses src styp n 2 (some ctx) (Parser.destructuringAssignmentTarget r ctx) ctx .target := by
  intro s p hp
  unfold Parser.destructuringAssignmentTarget
  jb J.current hp.start with t ht
  refine J.ite (fun hv => ?_) (fun _ => ?_)
  · refine J.bind (J.callPost (hr.assignPattern ctx (some ctx) s p hp ?_) hp.start (by jc) ?_)
    · intro t' ht'; rw [ht] at ht'; cases ht'; exact hv.symm
    · intro a us s3 p3 ha hus _ h3
      exact J.pure ⟨_, _, hus, h3, .targetPattern ha⟩
  · jd (leftHandSideExpr_P hr ctx) at hp.start with e ts s1 p1 he hts - h1
    refine J.bind (J.checkTarget (F := ⟨src, styp, n, 2, some ctx, s, p⟩) (pre := []) h1 he h1.kept ?_)
    intro hok
    exact J.pure ⟨_, _, hts, h1, .targetExpr he hok⟩

theorem assignmentElement_D : Does src styp n 2 (some ctx) (Parser.assignmentElement r ctx) (fun e ts _ =>
    ∃ sp t i us vs, e = .mk sp t i ∧ ts = us ++ vs ∧ us ≠ [] ∧ G src styp ctx (.target t) us ∧
      G src styp { ctx with in_ := true } (.initializer i) vs ∧ Spans sp ts) := by
  intro s p hp
  unfold Parser.assignmentElement
  jp
  jd (destructuringAssignmentTarget_P hr ctx) at hp.start with a ts s1 p1 ha hts - h1
  refine J.initOpt hr h1 (by simpa using hts) ?_
  intro i us s2 p2 hi h2
  jp
  exact J.pure ⟨_, _, by simp [hts], h2, _, _, _, _, _, rfl, by simp, hts, ha, hi, h2.spans (by simp [hts])⟩

theorem assignmentRest_D (close : Punct) : Does src styp n 0 none (Parser.assignmentRest r ctx close) fun a ts _ =>
    ∃ (d : Token) (us : List Token) (rb : Token), ts = d :: us ++ [rb] ∧ G src styp ctx (.target a) us ∧ rb.value = .punct close := by
  intro s p hp
  unfold Parser.assignmentRest
  jb J.consume hp.start with d s1 p1 hd - h1
  jd (destructuringAssignmentTarget_P hr ctx) at h1 with a ts s2 p2 ha hts - h2
  refine J.ifMaybe h2 ?_ ?_
  · intro rb s3 p3 _ hrb _ h3
    exact J.pure ⟨_, _, by simp, h3, d, ts, rb, by simp, ha, hrb⟩
  · intro _
    exact J.throw (ErrPost.of h2.kept (h2.spansWF (ha.nodeSpan _ rfl)) (fun _ => PErrKind.noConfusion))

/-- The elements of an array pattern after `pre`. -/
def AssignArrayInv (src : Str) (styp : SourceType) (ctx : Ctx) (pre : List Token) (acc : List (Option AssignElement)) (hs : List Token)
    (_ : PState) : Prop :=
  ∃ ps : List (Option AssignElement × List Token), hs = pre ++ toks ps ∧ acc = trees ps ∧
    (∀ e us, (some e, us) ∈ ps → G src styp ctx (.assignElement e) us) ∧
    (∀ us, (none, us) ∈ ps → ∃ t : Token, t.value = .punct p!"," ∧ us = [t])

theorem arrayAssignmentPattern_P : Parses src styp n 0 x (Parser.arrayAssignmentPattern r ctx) ctx .assignPattern := by
  intro s p hp
  unfold Parser.arrayAssignmentPattern
  jp
  jb J.consumeAssert hp.start with lb s1 p1 - hlb - h1
  refine J.bind (J.loop (AssignArrayInv src styp ctx [lb]) h1 ⟨[], by simp [toks], rfl, by simp, by simp⟩ hr.fuel ?_)
  rintro acc hs s2 p2 h2 ⟨ps, e1, e2, e3, e4⟩
  jb J.current h2 with t ht
  refine J.ite (fun hv => ?_) (fun hv => ?_)
  · jb J.consume h2 with rb s3 p3 hrb - h3
    rw [ht] at hrb; cases hrb
    refine J.done ?_
    dsimp only
    jp
    subst e1 e2
    exact J.pure ⟨_, _, by simp, h3, (D.assignArray hlb e3 e4 hv (by simpa using h3.spans (by simp))).cast (by simp)⟩
  refine J.ite (fun hd => ?_) (fun hd => ?_)
  · have hs2 := e1
    subst e1
    jd (assignmentRest_D hr ctx p!"]") at h2 with rest vs s3 p3 ⟨d, us, rb, e5, hus, hrb⟩ - hbg h3
    have hdv : d.value = .punct p!"..." := by
      have := hbg d (by rw [e5]; rfl)
      obtain ⟨t0, h0, hre⟩ := this
      rw [ht] at h0; cases h0
      rw [hre.same (by rw [hd]; rfl)]; exact hd
    refine J.done ?_
    dsimp only
    jp
    subst e2 e5
    exact J.pure ⟨_, _, by simp, h3, (D.assignArrayRest hlb e3 e4 hdv hus hrb (by simpa using h3.spans (by simp))).cast (by simp)⟩
  refine J.ite (fun hc => ?_) (fun hc => ?_)
  · jb J.consume h2 with c s3 p3 hc' - h3
    rw [ht] at hc'; cases hc'
    refine J.againSnoc h3 (by simp) ⟨ps ++ [(none, [t])], ?_, ?_, ?_, ?_⟩
    · rw [e1, toks_snoc]; simp
    · rw [e2, trees_snoc]
    · intro e us hm
      rcases List.mem_append.1 hm with hm | hm
      · exact e3 e us hm
      · simp at hm
    · intro us hm
      rcases List.mem_append.1 hm with hm | hm
      · exact e4 us hm
      · simp at hm; exact ⟨t, hc, hm⟩
  · subst e1
    jd (assignmentElement_D hr ctx) at h2 with a ts s3 p3 ⟨sp, tg, i, us, vs, e5, e6, -, htg, hi, hsp⟩ hts - h3
    refine J.againSnoc h3 hts ⟨ps ++ [(some a, ts)], ?_, ?_, ?_, ?_⟩
    · rw [toks_snoc]; simp
    · rw [e2, trees_snoc]
    · intro e us' hm
      rcases List.mem_append.1 hm with hm | hm
      · exact e3 e us' hm
      · simp at hm
        obtain ⟨rfl, rfl⟩ := hm
        subst e5 e6
        exact .assignElement htg hi hsp
    · intro us hm
      rcases List.mem_append.1 hm with hm | hm
      · exact e4 us hm
      · simp at hm

theorem namedAssignmentProp_P : Parses src styp n 0 x (Parser.namedAssignmentProp r ctx) ctx .assignProp := by
  intro s p hp
  unfold Parser.namedAssignmentProp
  jp
  jd (propertyName_P hr ctx x) at hp.start with nm ts s1 p1 hnm hts - h1
  jb J.consumeAssert h1 with c s2 p2 - hc - h2
  jd (assignmentElement_D hr ctx) at h2 with a ts' s3 p3 ⟨sp, tg, i, us, vs, e5, e6, -, htg, hi, hsp⟩ hts' - h3
  subst e5 e6
  dsimp only
  jp
  exact J.pure ⟨_, _, by simp, h3, (D.assignNamed hnm hc htg hi (by simpa using h3.spans (by simp))).cast (by simp)⟩

theorem singleNameAssignmentProp_P : Parses src styp n 0 x (Parser.singleNameAssignmentProp r ctx) ctx .assignProp := by
  intro s p hp
  unfold Parser.singleNameAssignmentProp
  jp
  jb J.parseIdent hp.start with t id s1 p1 - hid - h1
  refine J.initOpt hr h1 (by simp) ?_
  intro i us s2 p2 hi h2
  jp
  exact J.pure ⟨_, _, by simp, h2, (D.assignSingle hid hi (by simpa using h2.spans (by simp))).cast (by simp)⟩

theorem objectAssignmentPattern_P : Parses src styp n 0 x (Parser.objectAssignmentPattern r ctx) ctx .assignPattern := by
  intro s p hp
  unfold Parser.objectAssignmentPattern
  jp
  jb J.consumeAssert hp.start with lb s1 p1 - hlb - h1
  refine J.bind (J.loop (SepInv (fun a ts => G src styp ctx (.assignProp a) ts) (.punct p!"}") [lb]) h1 SepInv.nil hr.fuel ?_)
  rintro acc hs s2 p2 h2 hi
  obtain ⟨_, _, us, e1, _⟩ := id hi
  jb J.current h2 with t ht
  refine J.ite (fun hv => ?_) (fun hv => ?_)
  · jb J.consume h2 with rb s3 p3 hrb - h3
    rw [ht] at hrb; cases hrb
    refine J.done ?_
    dsimp only
    jp
    obtain ⟨b, ps, us, e1, e2, e3, e4, -⟩ := hi
    subst e1 e2
    exact J.pure ⟨_, _, by simp, h3, (D.assignObject hlb e3 e4 hv (by simpa using h3.spans (by simp))).cast (by simp)⟩
  · refine J.ite (fun hd => ?_) (fun hd => ?_)
    · jd (assignmentRest_D hr ctx p!"}") at h2 with rest vs s3 p3 ⟨d, us', rb, e5, hus, hrb⟩ - hbg h3
      have hdv : d.value = .punct p!"..." := by
        have := hbg d (by rw [e5]; rfl)
        obtain ⟨t0, h0, hre⟩ := this
        rw [ht] at h0; cases h0
        rw [hre.same (by rw [hd]; rfl)]; exact hd
      refine J.done ?_
      dsimp only
      jp
      obtain ⟨ps, us, e1, e2, e3, e4⟩ := hi.open (valOf_ne ht hv)
      subst e1 e2 e5
      exact J.pure ⟨_, _, by simp, h3, (D.assignObjectRest hlb e3 e4 hdv hus hrb (by simpa using h3.spans (by simp))).cast (by simp)⟩
    · refine J.bind (J.peekMatches (fun _ => ?_) (fun _ => ?_))
      all_goals
      refine J.ite (fun _ => ?_) (fun _ => ?_)
      · jd (namedAssignmentProp_P hr ctx none) at h2 with a ts s3 p3 ha hts - h3
        exact J.listItem hi (valOf_ne ht hv) h3 hts ha
      · jd (singleNameAssignmentProp_P hr ctx none) at h2 with a ts s3 p3 ha hts - h3
        exact J.listItem hi (valOf_ne ht hv) h3 hts ha

theorem assignPattern_D (s : PState) (p : Cursor) (hp : At src styp s p) (hsp : StartsPattern s) :
    J ⟨src, styp, n, 0, x, s, p⟩ (Parser.assignPattern r ctx) s
      (Post ⟨src, styp, n, 0, x, s, p⟩ fun a ts _ => G src styp ctx (.assignPattern a) ts) := by
  unfold Parser.assignPattern
  jb J.current hp.start with t ht
  refine J.ite (fun _ => arrayAssignmentPattern_P hr ctx x s p hp) (fun h1 => ?_)
  refine J.ite (fun _ => objectAssignmentPattern_P hr ctx x s p hp) (fun h2 => ?_)
  rcases hsp t ht with h | h
  · exact absurd h h1
  · exact absurd h h2

end
end Fajt
