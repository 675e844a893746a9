import Verif.Proofs.ParseStmt
/-!
# Loops and statements
-/
namespace Fajt
open Spec
set_option linter.unusedSectionVars false
variable [UnicodeID] [Blame]

theorem J.optionalVariableKind {F : Frame} {s : PState} {ctx : Ctx} {c : Bool} {hs : List Token} {p : Cursor} (h : Hist F c hs s p)
    {Q : Option VarKind → PState → Prop}
    (k1 : ∀ t kind s' p', s.cur = .ok t → symbol t.value = some kind.asStr → Hist F true (hs ++ [t]) s' p' → Q (some kind) s')
    (k2 : Q none s) : J F (Parser.optionalVariableKind ctx) s Q := by
  unfold Parser.optionalVariableKind Parser.peekMatchesLexicalBinding
  jb J.current h with t ht
  refine J.bind (J.bind (J.any fun b1 => J.bind (J.any fun b2 => J.bind (J.any fun b3 => J.pure ?_))))
  refine J.ite (fun hv => ?_) (fun _ => ?_)
  · jb J.consume h with t' s1 p1 ht' - h1
    exact J.pure (k1 t' .var s1 p1 ht' (by rw [ht] at ht'; cases ht'; rw [hv]; rfl) h1)
  refine J.ite (fun hv => ?_) (fun _ => ?_)
  · jb J.consume h with t' s1 p1 ht' - h1
    exact J.pure (k1 t' .let_ s1 p1 ht' (by rw [ht] at ht'; cases ht'; rw [hv.1]; rfl) h1)
  refine J.ite (fun hv => ?_) (fun _ => ?_)
  · jb J.consume h with t' s1 p1 ht' - h1
    exact J.pure (k1 t' .const s1 p1 ht' (by rw [ht] at ht'; cases ht'; rw [hv]; rfl) h1)
  · exact J.pure k2

section
variable {src : Str} {styp : SourceType} {n : Nat} {r : Rec} (hr : RecOK src styp n r) (ctx : Ctx) (x : Option Ctx)
include hr

theorem doWhileStmt_P : Parses src styp n 0 x (Parser.doWhileStmt r ctx) ctx .stmt := by
  intro s p hp
  unfold Parser.doWhileStmt
  jp
  jb J.consumeAssert hp.start with t s1 p1 - ht - h1
  jd (hr.stmt ctx) at h1 with a ts s2 p2 ha hts - h2
  jb J.consumeAssert h2 with w s3 p3 - hw - h3
  jb J.consumeAssert h3 with lp s4 p4 - hlp - h4
  jd (expr_P hr { ctx with in_ := true }) at h4 with e us s5 p5 he hus - h5
  jb J.consumeAssert h5 with rp s6 p6 - hrp - h6
  refine J.bind (J.optSemi h6 ?_)
  intro _ vs s7 p7 hvs h7
  jp
  exact J.pure ⟨_, _, by simp, h7, (D.doWhile ht ha hw hlp he hrp hvs (by simpa using h7.spans (by simp))).cast (by simp)⟩

theorem whileStmt_P : Parses src styp n 0 x (Parser.whileStmt r ctx) ctx .stmt := by
  intro s p hp
  unfold Parser.whileStmt
  jp
  jb J.consumeAssert hp.start with t s1 p1 - ht - h1
  jb J.consumeAssert h1 with lp s4 p4 - hlp - h4
  jd (expr_P hr { ctx with in_ := true }) at h4 with e us s5 p5 he hus - h5
  jb J.consumeAssert h5 with rp s6 p6 - hrp - h6
  jd (hr.stmt ctx) at h6 with a ts s2 p2 ha hts - h2
  jp
  exact J.pure ⟨_, _, by simp, h2, (D.while ht hlp he hrp ha (by simpa using h2.spans (by simp))).cast (by simp)⟩

theorem forInit_P : Parses src styp n 4 none (Parser.forInit r ctx) { ctx with in_ := false } .forInit := by
  intro s p hp
  unfold Parser.forInit
  jp
  refine J.bind (J.optionalVariableKind hp.start ?_ ?_)
  · intro t kind s1 p1 _ hk h1
    show J _ (Parser.forInitVariableDeclaration r ctx _ kind) s1 _
    unfold Parser.forInitVariableDeclaration
    jd (variableDeclarations_P hr { ctx with in_ := false } none) at h1 with ds us s2 p2 hds hus - h2
    jp
    exact J.pure ⟨_, _, by simp, h2, (D.forInitDecl hk hds (by simpa using h2.spans (by simp))).cast (by simp)⟩
  · show J _ (Parser.expr r _ >>= _) s _
    jd (expr_P hr { ctx with in_ := false }) at hp.start with e ts s1 p1 he hts - h1
    exact J.pure ⟨_, _, hts, h1, .forInitExpr he⟩

theorem forDeclaration_P : Parses src styp n 2 none (Parser.forDeclaration r ctx) ctx .forDecl := by
  intro s p hp
  unfold Parser.forDeclaration
  jp
  refine J.bind (J.optionalVariableKind hp.start ?_ ?_)
  · intro t kind s1 p1 _ hk h1
    show J _ (r.bindingPattern ctx >>= _) s1 _
    jd (hr.bindingPattern ctx none) at h1 with b us s2 p2 hb hus - h2
    jp
    exact J.pure ⟨_, _, by simp, h2, (D.forDeclVar hk hb (by simpa using h2.spans (by simp))).cast (by simp)⟩
  · show J _ (Parser.current >>= _) s _
    jb J.current hp.start with t ht
    refine J.ite (fun hv => ?_) (fun _ => ?_)
    · refine J.bind (J.callPost (hr.assignPattern ctx none s p hp ?_) hp.start (by jc) ?_)
      · intro t' ht'; rw [ht] at ht'; cases ht'; exact hv
      · intro a us s3 p3 ha hus _ h3
        exact J.pure ⟨_, _, hus, h3, .forDeclPattern ha⟩
    · jd (leftHandSideExpr_P hr ctx) at hp.start with e ts s1 p1 he hts - h1
      refine J.bind (J.checkTarget (F := ⟨src, styp, n, 2, none, s, p⟩) (pre := []) h1 he h1.kept ?_)
      intro hok
      exact J.pure ⟨_, _, hts, h1, .forDeclExpr he hok⟩

theorem optExpr_J {F : Frame} {s : PState} {p : Cursor} {hs : List Token} {β : Type} {v : TokVal} {f : Option Expr → P β}
    {Q : β → PState → Prop} (e1 : F.src = src) (e2 : F.styp = styp) (e3 : F.n = n) (hne : hs ≠ []) (h : Hist F true hs s p)
    (k : ∀ e us s' p', G src styp ctx (.optExpr e) us → Hist F true (hs ++ us) s' p' → J F (f e) s' Q) :
    J F (Parser.curMatches v >>= fun b => Parser.thenTry (!b) (Parser.expr r ctx) >>= f) s Q := by
  obtain ⟨src', styp', n', K', x', s0, p0⟩ := F
  dsimp only at e1 e2 e3
  subst e1 e2 e3
  have some : J ⟨src', styp', n', K', x', s0, p0⟩ (Parser.expr r ctx) s (fun e s' => J ⟨src', styp', n', K', x', s0, p0⟩ (f (some e)) s' Q) := by
    je (expr_P hr ctx) at h with e us s2 p2 he hus - h2
    exact k _ _ _ _ (.someExpr he) h2
  refine J.bind (J.curMatches (fun hv => ?_) (fun hv => ?_))
  · exact J.bind (J.thenTry (fun hb => (nomatch hb)) (fun _ => k none [] s p .noExpr (by simpa using h)))
  · exact J.bind (J.thenTry (fun _ => some) (fun hb => (nomatch hb)))

/-- `for (init; test; update) body` after the first `;`. -/
theorem forRest_J {s0 s : PState} {p0 p : Cursor} {hs : List Token} {init : Option ForInit}
    (h : Hist ⟨src, styp, n, 0, x, s0, p0⟩ true hs s p) (hne : hs ≠ [])
    (k : ∀ test update st s2 rp sp ts us vs, G src styp { ctx with in_ := true } (.optExpr test) ts → s2.value = .punct p!";" →
      G src styp { ctx with in_ := true } (.optExpr update) us → rp.value = .punct p!")" → G src styp ctx (.stmt st) vs →
      Spans sp (hs ++ ts ++ s2 :: us ++ rp :: vs) →
      G src styp ctx (.stmt (.for sp init test update st)) (hs ++ ts ++ s2 :: us ++ rp :: vs)) :
    J ⟨src, styp, n, 0, x, s0, p0⟩ (Parser.forRest r ctx (posOf s0) init) s
      (Post ⟨src, styp, n, 0, x, s0, p0⟩ fun st ts _ => G src styp ctx (.stmt st) ts) := by
  unfold Parser.forRest
  refine optExpr_J hr { ctx with in_ := true } rfl rfl rfl hne h ?_
  intro test ts s1 p1 htest h1
  jb J.consumeAssert h1 with c s2 p2 - hc - h2
  refine optExpr_J hr { ctx with in_ := true } rfl rfl rfl (by simp) h2 ?_
  intro update us s3 p3 hupd h3
  jb J.consumeAssert h3 with rp s4 p4 - hrp - h4
  jd (hr.stmt ctx) at h4 with st vs s5 p5 hst hvs - h5
  jp
  exact J.pure ⟨_, _, by simp, h5, (k _ _ _ _ _ _ _ _ _ htest hc hupd hrp hst (by simpa using h5.spans (by simp))).cast (by simp)⟩

theorem forStmt_P : Parses src styp n 0 x (Parser.forStmt r ctx) ctx .stmt := by
  intro s p hp
  unfold Parser.forStmt
  jp
  jb J.consumeAssert hp.start with t s1 p1 - ht - h1
  -- the part after `for (` or `for await (`
  have rest : ∀ (asy : Bool) (hs : List Token) (s3 : PState) (p3 : Cursor) (lp : Token), lp.value = .punct p!"(" →
      (if asy = true then ∃ w : Token, w.value = .keyword k!"await" ∧ ctx.await = true ∧ hs = [t, w, lp] else hs = [t, lp]) →
      Hist ⟨src, styp, n, 0, x, s, p⟩ true hs s3 p3 →
      J ⟨src, styp, n, 0, x, s, p⟩ (Parser.forAfterParen r ctx (posOf s) asy) s3
        (Post ⟨src, styp, n, 0, x, s, p⟩ fun st ts _ => G src styp ctx (.stmt st) ts) := by
    intro asy hs s3 p3 lp hlp hhs h3
    have hne : hs ≠ [] := by
      cases asy
      · rw [show hs = [t, lp] from hhs]; simp
      · obtain ⟨w, -, -, rfl⟩ := hhs; simp
    unfold Parser.forAfterParen
    jb J.current h3 with st0 hst0
    -- the first attempt
    have first : J ⟨src, styp, n, 0, x, s, p⟩ (Parser.tryFor r ctx (posOf s) asy) s3 (fun o s' => match o with
        | some st => Post ⟨src, styp, n, 0, x, s, p⟩ (fun st ts _ => G src styp ctx (.stmt st) ts) st s'
        | none => Kept ⟨src, styp, n, 0, x, s, p⟩ s') := by
      unfold Parser.tryFor
      refine J.attempt ?_ (fun e s' he => J.pure he.kept)
      unfold Parser.optionalForInit
      refine J.ifCur (fun hv => ?_) (fun _ => ?_)
      · refine J.pure ?_
        refine J.ifMaybe h3 ?_ (fun hn => absurd hv hn)
        intro c s4 p4 _ hc _ h4
        cases asy with
        | true =>
          refine J.ite (fun _ => ?_) (fun h => absurd rfl h)
          jp
          exact J.throw (ErrPost.of h4.kept (h4.spanWF (by simp)) (fun _ => PErrKind.noConfusion))
        | false =>
          refine J.ite (fun h => (nomatch h)) (fun _ => ?_)
          have hhs' : hs = [t, lp] := hhs
          subst hhs'
          refine J.bind ((forRest_J hr ctx x h4 (by simp) ?_).mono fun a s' h => J.pure h)
          intro test update st c2 rp sp ts us vs a1 a2 a3 a4 a5 a6
          exact (D.forNone ht hlp hc a1 a2 a3 a4 a5 (by simpa using a6)).cast (by simp)
      · jd (forInit_P hr ctx) at h3 with i is s4 p4 hi his - h4
        refine J.pure ?_
        refine J.ifMaybe h4 ?_ (fun _ => J.pure h4.kept)
        intro c s5 p5 _ hc _ h5
        cases asy with
        | true =>
          refine J.ite (fun _ => ?_) (fun h => absurd rfl h)
          jp
          exact J.throw (ErrPost.of h5.kept (h5.spanWF (by simp)) (fun _ => PErrKind.noConfusion))
        | false =>
          refine J.ite (fun h => (nomatch h)) (fun _ => ?_)
          have hhs' : hs = [t, lp] := hhs
          subst hhs'
          refine J.bind ((forRest_J hr ctx x h5 (by simp) ?_).mono fun a s' h => J.pure h)
          intro test update st c2 rp sp ts us vs a1 a2 a3 a4 a5 a6
          exact (D.for ht hlp hi hc a1 a2 a3 a4 a5 (by simpa using a6)).cast (by simp)
    refine J.bind (first.mono ?_)
    intro o s4 ho
    cases o with
    | some st => exact J.pure ho
    | none =>
      show J _ (Parser.rewindTo st0 >>= _) s4 _
      refine J.bind (J.rewindTo h3 hst0 ho ?_)
      intro s5 h5 _
      unfold Parser.forInOf
      jd (forDeclaration_P hr ctx) at h5 with d ts s6 p6 hd hts - h6
      jb J.current h6 with u hu
      refine J.ite (fun hv => ?_) (fun _ => ?_)
      · unfold Parser.forOf
        jb J.consumeAssert h6 with i s7 p7 - hi - h7
        jd (expr_P hr { ctx with in_ := true }) at h7 with e us s8 p8 he hus - h8
        jb J.consumeAssert h8 with rp s9 p9 - hrp - h9
        jd (hr.stmt ctx) at h9 with st vs s10 p10 hst hvs - h10
        jp
        cases asy with
        | true =>
          obtain ⟨w, hw, haw, rfl⟩ := hhs
          exact J.pure ⟨_, _, by simp, h10, (D.forAwait ht haw hw hlp hd hi he hrp hst (by simpa using h10.spans (by simp))).cast (by simp)⟩
        | false =>
          have hhs' : hs = [t, lp] := hhs
          subst hhs'
          exact J.pure ⟨_, _, by simp, h10, (D.forOf ht hlp hd hi he hrp hst (by simpa using h10.spans (by simp))).cast (by simp)⟩
      refine J.ite (fun hv => ?_) (fun _ => ?_)
      · refine J.ite (fun _ => ?_) (fun ha => ?_)
        · jp
          exact J.throw (ErrPost.of h6.kept (h6.spanWF (by simp [hne])) (fun _ => PErrKind.noConfusion))
        · unfold Parser.forIn
          jb J.consumeAssert h6 with i s7 p7 - hi - h7
          jd (expr_P hr { ctx with in_ := true }) at h7 with e us s8 p8 he hus - h8
          jb J.consumeAssert h8 with rp s9 p9 - hrp - h9
          jd (hr.stmt ctx) at h9 with st vs s10 p10 hst hvs - h10
          jp
          have : asy = false := by simpa using ha
          subst this
          have hhs' : hs = [t, lp] := hhs
          subst hhs'
          exact J.pure ⟨_, _, by simp, h10, (D.forIn ht hlp hd hi he hrp hst (by simpa using h10.spans (by simp))).cast (by simp)⟩
      · exact J.consumeThrow h6 (fun t => ⟨rfl, fun _ => PErrKind.noConfusion⟩)
  dsimp only
  refine J.ite (fun ha => J.bind ?_) (fun _ => ?_)
  · refine J.maybeConsume h1 ?_ ?_
    · intro w s2 p2 _ hw _ h2
      jb J.consumeAssert h2 with lp s3 p3 - hlp - h3
      exact rest true _ s3 p3 lp hlp ⟨w, hw, ha, by simp⟩ h3
    · intro _
      jb J.consumeAssert h1 with lp s3 p3 - hlp - h3
      exact rest false _ s3 p3 lp hlp (by simp) h3
  · refine J.bind (J.pure ?_)
    jb J.consumeAssert h1 with lp s3 p3 - hlp - h3
    exact rest false _ s3 p3 lp hlp (by simp) h3

omit hr in
theorem J.isExprStmt {F : Frame} {s : PState} {hs : List Token} {p : Cursor} {c : Bool} (h : Hist F c hs s p) {t : Token}
    (ht : s.cur = .ok t) {Q : Bool → PState → Prop}
    (k1 : t.value ≠ .punct p!"{" ∧ t.value ≠ .keyword k!"function" ∧ t.value ≠ .keyword k!"class" → Q true s) (k2 : Q false s) :
    J F Parser.isExprStmt s Q := by
  unfold Parser.isExprStmt
  jb J.current h with t' ht'
  rw [ht] at ht'; cases ht'
  refine J.ite (fun _ => J.pure k2) (fun hv => ?_)
  have k1 := k1 (by simpa using hv)
  refine J.bind (J.peekMatches (fun _ => ?_) (fun _ => ?_)) <;>
  · refine J.ite (fun _ => J.pure k2) (fun _ => ?_)
    refine J.bind (J.any fun b => ?_)
    refine J.ite (fun _ => J.followedByNewLine ?_) (fun _ => J.pure k1)
    cases nextFol s <;> assumption

theorem stmt_P : Parses src styp n 4 none (Parser.stmt r ctx) ctx .stmt := by
  intro s p hp
  unfold Parser.stmt
  jb J.current hp.start with t ht
  have up : ∀ {m : P Stmt}, Parses src styp n 0 none m ctx .stmt → J ⟨src, styp, n, 4, none, s, p⟩ m s
      (Post ⟨src, styp, n, 4, none, s, p⟩ fun st ts _ => G src styp ctx (.stmt st) ts) := by
    intro m hm
    je hm at hp.start with st ts s1 p1 hst hts - h1
    exact ⟨_, _, hts, h1, hst⟩
  have other : J ⟨src, styp, n, 4, none, s, p⟩ (do
      if (← Parser.isIdent ctx) && (← Parser.peekMatches (.punct p!":")) then Parser.labeledStmt r ctx
      else if ← Parser.isExprStmt then Parser.exprStmt r { ctx with in_ := true }
      else M.throw (PErr.unexpectedToken t)) s
      (Post ⟨src, styp, n, 4, none, s, p⟩ fun st ts _ => G src styp ctx (.stmt st) ts) := by
    refine J.bind (J.isIdent ?_)
    refine J.bind (J.any fun b => ?_)
    refine J.ite (fun _ => up (labeledStmt_P hr ctx none)) (fun _ => ?_)
    refine J.bind (J.isExprStmt hp.start ht (fun hv => ?_) ?_)
    · have := exprStmt_J hr ctx s p hp ht hv
      exact this
    · exact J.throw (ErrPost.of hp.start.kept (hp.curWF ht) (fun _ => PErrKind.noConfusion))
  split
  · exact up (emptyStmt_P ctx none)
  · jd (block_P hr ctx none) at hp.start with b ts s1 p1 hb hts - h1
    exact J.pure ⟨_, _, hts, h1, .blockS hb⟩
  · next hv =>
    refine J.callPost (variableStmt_P hr ctx none .var s p hp ht hv rfl) hp.start (by jc) ?_
    rintro st ts s1 p1 ⟨-, h⟩ hts - h1
    exact ⟨_, _, hts, h1, h⟩
  · exact up (ifStmt_P hr ctx none)
  · exact up (breakStmt_P ctx none)
  · exact up (continueStmt_P ctx none)
  · exact up (returnStmt_P hr ctx none)
  · exact up (withStmt_P hr ctx none)
  · exact up (throwStmt_P hr ctx none)
  · exact up (tryStmt_P hr ctx none)
  · exact up (debuggerStmt_P ctx none)
  · exact up (doWhileStmt_P hr ctx none)
  · exact up (whileStmt_P hr ctx none)
  · exact up (forStmt_P hr ctx none)
  · exact up (switchStmt_P hr ctx none)
  · exact other

end
end Fajt
