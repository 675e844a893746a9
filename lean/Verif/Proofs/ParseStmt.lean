import Verif.Proofs.ParseAssign
/-!
# Variables and statements
-/
namespace Fajt
open Spec
set_option linter.unusedSectionVars false
variable [UnicodeID] [Blame]

section
variable {src : Str} {styp : SourceType} {n : Nat} {r : Rec} (hr : RecOK src styp n r) (ctx : Ctx) (x : Option Ctx)
include hr

theorem variableDeclaration_P : Parses src styp n 1 x (Parser.variableDeclaration r ctx) ctx .varDecl := by
  intro s p hp
  unfold Parser.variableDeclaration
  jp
  jd (hr.bindingPattern ctx x) at hp.start with b ts s1 p1 hb hts - h1
  rw [List.nil_append] at h1
  refine J.bind (J.curMatches (fun hv => ?_) (fun hv => ?_))
  · refine J.ite (fun hc => ?_) (fun hc => ?_)
    · simp at hc
    · refine J.bind (J.thenTry (fun _ => ?_) (fun hb => (nomatch hb)))
      je (initializer_D hr ctx none) at h1 with e us s2 p2 he hus - h2
      jp
      exact J.pure ⟨_, _, by simp [hts], h2, .varDecl hb he (fun h => (nomatch h)) (h2.spans (by simp [hts]))⟩
  · refine J.ite (fun hc => ?_) (fun hc => ?_)
    · jp
      exact J.throw (ErrPost.of h1.kept (h1.spanWF hts) (fun _ => PErrKind.noConfusion))
    · refine J.bind (J.thenTry (fun hb => (nomatch hb)) (fun _ => ?_))
      jp
      refine J.pure ⟨_, _, hts, h1, (D.varDecl (us := []) hb .noInitializer (fun _ => ?_) (by simpa using h1.spans hts)).cast (by simp)⟩
      cases b <;> first | exact ⟨_, rfl⟩ | (exact absurd rfl hc)

theorem variableDeclarations_P : Parses src styp n 1 x (Parser.variableDeclarations r ctx) ctx .varDecls := by
  intro s p hp
  unfold Parser.variableDeclarations
  jd (variableDeclaration_P hr ctx x) at hp.start with d ts s1 p1 hd hts - h1
  rw [List.nil_append] at h1
  refine J.loop (fun acc hs _ => ∃ ps, hs ≠ [] ∧ acc = trees ps ∧ (∀ p ∈ ps, G src styp ctx (.varDecl p.1) p.2) ∧ Sep false ps hs) h1
    ⟨[(d, ts)], hts, rfl, by simpa using hd, by simpa using Sep.item (a := d) (us := ts) .nil⟩ hr.fuel ?_
  rintro acc hs s2 p2 h2 ⟨ps, hne, rfl, e2, e3⟩
  refine J.ifMaybe h2 ?_ ?_
  · intro c s3 p3 _ hc _ h3
    jd (variableDeclaration_P hr ctx x) at h3 with d us s4 p4 hd hus - h4
    refine J.again h4 (by simp) ⟨ps ++ [(d, us)], by simp, by rw [trees_snoc], all_snoc (P := fun a ts => G src styp ctx (.varDecl a) ts) e2 hd, .item (.comma e3 hc)⟩
  · intro _
    exact J.done ⟨_, _, hne, h2, .varDecls e2 e3⟩

/-- A variable statement after its keyword. -/
theorem variableStmt_D (kind : VarKind) : Does src styp n 0 x (Parser.variableStmt r ctx kind) fun st ts _ =>
    ∃ sp ds t us vs, st = .variable (.mk sp kind ds) ∧ ts = t :: us ++ vs ∧
      G src styp (if kind = .var then { ctx with in_ := true } else ctx) (.varDecls ds) us ∧ OptSemi vs ∧ Spans sp ts := by
  intro s p hp
  unfold Parser.variableStmt
  jb J.consume hp.start with t s1 p1 ht - h1
  jd (variableDeclarations_P hr _ x) at h1 with ds us s2 p2 hds hus - h2
  refine J.bind (J.optSemi h2 ?_)
  intro _ vs s3 p3 hvs h3
  jp
  refine J.pure ⟨_, _, by simp, h3, _, ds, t, us, vs, rfl, by simp, hds, hvs, ?_⟩
  have : t.span.start = posOf s := by rw [posOf, ht]
  rw [this]; exact h3.spans (by simp)

/-- The keyword of a variable statement. -/
theorem variableStmt_P (kind : VarKind) (s : PState) (p : Cursor) (hp : At src styp s p) {k : Keyword} {t : Token}
    (ht : s.cur = .ok t) (hk : t.value = .keyword k) (hs : symbol (.keyword k) = some kind.asStr) :
    J ⟨src, styp, n, 0, x, s, p⟩ (Parser.variableStmt r ctx kind) s
      (Post ⟨src, styp, n, 0, x, s, p⟩ fun st ts _ => (∃ v, st = .variable v) ∧
        if kind = .var then G src styp ctx (.stmt st) ts else G src styp ctx (.decl st) ts) := by
  je (variableStmt_D hr ctx x kind) at hp.start with st ts s1 p1 ⟨sp, ds, t', us, vs, e1, e2, hds, hvs, hsp⟩ hts hbg h1
  obtain ⟨t0, h0, hre⟩ := hbg t' (by rw [e2]; rfl)
  rw [ht] at h0; cases h0
  have hv' : t'.value = .keyword k := by rw [hre.same (by rw [hk]; rfl)]; exact hk
  rw [← hv'] at hs
  subst e1 e2
  refine ⟨_, _, hts, h1, ⟨_, rfl⟩, ?_⟩
  cases kind with
  | var =>
    rw [hv'] at hs
    refine D.var ?_ hds hvs hsp
    rw [hv']
    revert hs
    cases k <;> first | (intro _; rfl) | (intro h; exact absurd h (by decide))
  | let_ => exact .lexical (by simp) hs hds hvs hsp
  | const => exact .lexical (by simp) hs hds hvs hsp

theorem block_P : Parses src styp n 0 x (Parser.block r ctx) ctx .block := by
  intro s p hp
  unfold Parser.block
  jp
  jb J.consumeAssert hp.start with lb s1 p1 - hlb - h1
  refine J.bind (J.loop (ManyInv (fun a ts => G src styp ctx (.item a) ts) [lb]) h1 ManyInv.nil hr.fuel ?_)
  rintro acc hs s2 p2 h2 hi
  refine J.ifMaybe h2 ?_ ?_
  · intro rb s3 p3 _ hrb _ h3
    refine J.done ?_
    jp
    obtain ⟨ps, rfl, rfl, e3⟩ := hi
    exact J.pure ⟨_, _, by simp, h3, (D.block hlb e3 hrb (by simpa using h3.spans (by simp))).cast (by simp)⟩
  · intro _
    have hne : hs ≠ [] := by obtain ⟨ps, rfl, -⟩ := hi; simp
    jd (hr.declOrStmt ctx) at h2 with st us s3 p3 hst hus - h3
    exact J.againSnoc h3 hus (hi.snoc hst)

theorem exprStmt_J (s : PState) (p : Cursor) (hp : At src styp s p) {t : Token} (ht : s.cur = .ok t)
    (hv : t.value ≠ .punct p!"{" ∧ t.value ≠ .keyword k!"function" ∧ t.value ≠ .keyword k!"class") :
    J ⟨src, styp, n, 4, none, s, p⟩ (Parser.exprStmt r ctx) s
      (Post ⟨src, styp, n, 4, none, s, p⟩ fun st ts _ => G src styp ctx (.stmt st) ts) := by
  unfold Parser.exprStmt
  jp
  jd (expr_P hr { ctx with in_ := true }) at hp.start with e ts s1 p1 he hts hbg h1
  rw [List.nil_append] at h1
  refine J.bind (J.consumeOptionalSemicolon h1 hts ?_)
  intro us s2 p2 hus h2
  jp
  exact J.pure ⟨_, _, by simp [hts], h2, .exprStmt he hus
    (fun u hu => ⟨hbg.val ht rfl hv.1 u hu, hbg.val ht rfl hv.2.1 u hu, hbg.val ht rfl hv.2.2 u hu⟩) (h2.spans (by simp [hts]))⟩

theorem labeledStmt_P : Parses src styp n 0 x (Parser.labeledStmt r ctx) ctx .stmt := by
  intro s p hp
  unfold Parser.labeledStmt
  jp
  jb J.parseIdent hp.start with t id s1 p1 - hid - h1
  jb J.consumeAssert h1 with c s2 p2 - hc - h2
  jd (hr.stmt ctx) at h2 with st ts s3 p3 hst hts - h3
  jp
  exact J.pure ⟨_, _, by simp, h3, (D.labeled hid hc hst (by simpa using h3.spans (by simp))).cast (by simp)⟩

omit hr in
theorem emptyStmt_P : Parses src styp n 0 x Parser.emptyStmt ctx .stmt := by
  intro s p hp
  unfold Parser.emptyStmt
  jb J.consumeAssert hp.start with t s1 p1 - ht - h1
  exact J.pure ⟨_, _, by simp, h1, .empty ht⟩

omit hr in
theorem breakStmt_P : Parses src styp n 0 x (Parser.breakStmt ctx) ctx .stmt := by
  intro s p hp
  unfold Parser.breakStmt
  jp
  jb J.consumeAssert hp.start with t s1 p1 - ht - h1
  refine J.bind (J.stmtEnded ?_ ?_)
  · refine J.bind (J.thenTry (fun hb => (nomatch hb)) (fun _ => ?_))
    refine J.bind (J.optSemi h1 ?_)
    intro _ vs s3 p3 hvs h3
    jp
    exact J.pure ⟨_, _, by simp, h3, .break ht hvs (h3.spans (by simp))⟩
  · intro u hu hfol _ _
    refine J.bind (J.thenTry (fun _ => ?_) (fun hb => (nomatch hb)))
    refine J.parseIdent h1 ?_
    intro l id s2 p2 hl hid _ h2
    rw [hu] at hl; cases hl
    refine J.bind (J.optSemi h2 ?_)
    intro _ vs s3 p3 hvs h3
    jp
    exact J.pure ⟨_, _, by simp, h3, (D.breakLabel ht hid hfol hvs (by simpa using h3.spans (by simp))).cast (by simp)⟩

omit hr in
theorem continueStmt_P : Parses src styp n 0 x (Parser.continueStmt ctx) ctx .stmt := by
  intro s p hp
  unfold Parser.continueStmt
  jp
  jb J.consumeAssert hp.start with t s1 p1 - ht - h1
  refine J.bind (J.stmtEnded ?_ ?_)
  · refine J.bind (J.thenTry (fun hb => (nomatch hb)) (fun _ => ?_))
    refine J.bind (J.optSemi h1 ?_)
    intro _ vs s3 p3 hvs h3
    jp
    exact J.pure ⟨_, _, by simp, h3, .continue ht hvs (h3.spans (by simp))⟩
  · intro u hu hfol _ _
    refine J.bind (J.thenTry (fun _ => ?_) (fun hb => (nomatch hb)))
    refine J.parseIdent h1 ?_
    intro l id s2 p2 hl hid _ h2
    rw [hu] at hl; cases hl
    refine J.bind (J.optSemi h2 ?_)
    intro _ vs s3 p3 hvs h3
    jp
    exact J.pure ⟨_, _, by simp, h3, (D.continueLabel ht hid hfol hvs (by simpa using h3.spans (by simp))).cast (by simp)⟩

theorem returnStmt_P : Parses src styp n 0 x (Parser.returnStmt r ctx) ctx .stmt := by
  intro s p hp
  unfold Parser.returnStmt
  jp
  jb J.consumeAssert hp.start with t s1 p1 - ht - h1
  refine J.ite (fun _ => ?_) (fun hc => ?_)
  · jp
    exact J.throw (ErrPost.of h1.kept (h1.spanWF (by simp)) (fun _ => PErrKind.noConfusion))
  have hret : ctx.return_ = true := by simpa using hc
  refine J.bind (J.stmtEnded ?_ ?_)
  · refine J.bind (J.thenTry (fun hb => (nomatch hb)) (fun _ => ?_))
    refine J.bind (J.optSemi h1 ?_)
    intro _ vs s3 p3 hvs h3
    jp
    exact J.pure ⟨_, _, by simp, h3, .return hret ht hvs (h3.spans (by simp))⟩
  · intro u hu hfol _ _
    refine J.bind (J.thenTry (fun _ => ?_) (fun hb => (nomatch hb)))
    je (expr_P hr { ctx with in_ := true }) at h1 with e ts s2 p2 he hts hbg h2
    refine J.bind (J.optSemi h2 ?_)
    intro _ vs s3 p3 hvs h3
    jp
    exact J.pure ⟨_, _, by simp, h3, (D.returnExpr hret ht he (hbg.fol hu hfol) hvs (by simpa using h3.spans (by simp))).cast (by simp)⟩

theorem throwStmt_P : Parses src styp n 0 x (Parser.throwStmt r ctx) ctx .stmt := by
  intro s p hp
  unfold Parser.throwStmt Parser.throwCheck
  jp
  jb J.consumeAssert hp.start with t s1 p1 - ht - h1
  refine J.bind (J.bind (J.cur? ?_))
  cases hc : s1.cur with
  | error e => exact J.consumeThrow h1 (fun t => ⟨rfl, fun _ => PErrKind.noConfusion⟩)
  | ok u =>
    show J _ (if u.value = .punct p!";" then _ else _) s1 _
    refine J.ite (fun _ => J.consumeThrow h1 (fun t => ⟨rfl, fun _ => PErrKind.noConfusion⟩)) (fun _ => ?_)
    refine J.ite (fun _ => J.throw (ErrPost.of h1.kept (h1.tokWF (by simp)) (fun _ => PErrKind.noConfusion))) (fun hfol => ?_)
    refine J.pure ?_
    jd (expr_P hr { ctx with in_ := true }) at h1 with e ts s2 p2 he hts hbg h2
    refine J.bind (J.optSemi h2 ?_)
    intro _ vs s3 p3 hvs h3
    jp
    exact J.pure ⟨_, _, by simp, h3, (D.throw ht he (hbg.fol hc (by simpa using hfol)) hvs (by simpa using h3.spans (by simp))).cast (by simp)⟩

omit hr in
theorem debuggerStmt_P : Parses src styp n 0 x Parser.debuggerStmt ctx .stmt := by
  intro s p hp
  unfold Parser.debuggerStmt
  jp
  jb J.consumeAssert hp.start with t s1 p1 - ht - h1
  refine J.bind (J.optSemi h1 ?_)
  intro _ vs s3 p3 hvs h3
  jp
  exact J.pure ⟨_, _, by simp, h3, .debugger ht hvs (h3.spans (by simp))⟩

theorem ifStmt_P : Parses src styp n 0 x (Parser.ifStmt r ctx) ctx .stmt := by
  intro s p hp
  unfold Parser.ifStmt
  jp
  jb J.consumeAssert hp.start with t s1 p1 - ht - h1
  jb J.consumeAssert h1 with lp s2 p2 - hlp - h2
  jd (expr_P hr { ctx with in_ := true }) at h2 with e ts s3 p3 he hts - h3
  jb J.consumeAssert h3 with rp s4 p4 - hrp - h4
  jd (hr.stmt ctx) at h4 with a us s5 p5 ha hus - h5
  refine J.bind (J.maybeConsume h5 ?_ ?_)
  · intro el s6 p6 _ hel _ h6
    refine J.bind (J.thenTry (fun _ => ?_) (fun hb => (nomatch hb)))
    je (hr.stmt ctx) at h6 with b vs s7 p7 hb hvs - h7
    jp
    exact J.pure ⟨_, _, by simp, h7, (D.ifElse ht hlp he hrp ha hel hb (by simpa using h7.spans (by simp))).cast (by simp)⟩
  · intro _
    refine J.bind (J.thenTry (fun hb => (nomatch hb)) (fun _ => ?_))
    jp
    exact J.pure ⟨_, _, by simp, h5, (D.if ht hlp he hrp ha (by simpa using h5.spans (by simp))).cast (by simp)⟩

theorem withStmt_P : Parses src styp n 0 x (Parser.withStmt r ctx) ctx .stmt := by
  intro s p hp
  unfold Parser.withStmt
  jp
  jb J.consumeAssert hp.start with t s1 p1 - ht - h1
  jb J.consumeAssert h1 with lp s2 p2 - hlp - h2
  jd (expr_P hr ctx) at h2 with e ts s3 p3 he hts - h3
  jb J.consumeAssert h3 with rp s4 p4 - hrp - h4
  jd (hr.stmt ctx) at h4 with a us s5 p5 ha hus - h5
  jp
  exact J.pure ⟨_, _, by simp, h5, (D.with ht hlp he hrp ha (by simpa using h5.spans (by simp))).cast (by simp)⟩

theorem catchClause_P : Parses src styp n 0 x (Parser.catchClause r ctx) ctx .catchClause := by
  intro s p hp
  unfold Parser.catchClause Parser.catchParameter
  jp
  jb J.consumeAssert hp.start with t s1 p1 - ht - h1
  refine J.bind (J.ifMaybe h1 ?_ ?_)
  · intro lp s2 p2 _ hlp _ h2
    jd (hr.bindingPattern ctx none) at h2 with b ts s3 p3 hb hts - h3
    jb J.consumeAssert h3 with rp s4 p4 - hrp - h4
    refine J.pure ?_
    jd (block_P hr ctx none) at h4 with bl us s5 p5 hbl hus - h5
    jp
    exact J.pure ⟨_, _, by simp, h5, (D.catchParam ht hlp hb hrp hbl (by simpa using h5.spans (by simp))).cast (by simp)⟩
  · intro _
    refine J.pure ?_
    jd (block_P hr ctx none) at h1 with bl us s5 p5 hbl hus - h5
    jp
    exact J.pure ⟨_, _, by simp, h5, (D.catch ht hbl (by simpa using h5.spans (by simp))).cast (by simp)⟩

theorem tryStmt_P : Parses src styp n 0 x (Parser.tryStmt r ctx) ctx .stmt := by
  intro s p hp
  unfold Parser.tryStmt
  jp
  jb J.consumeAssert hp.start with t s1 p1 - ht - h1
  jd (block_P hr ctx none) at h1 with b ts s2 p2 hb hts - h2
  refine J.bind (J.curMatches (fun hv => ?_) (fun hv => ?_))
  · refine J.bind (J.thenTry (fun _ => ?_) (fun hb => (nomatch hb)))
    je (catchClause_P hr ctx none) at h2 with c us s3 p3 hc hus - h3
    refine J.bind (J.maybeConsume h3 ?_ ?_)
    · intro f s4 p4 _ hf _ h4
      refine J.bind (J.thenTry (fun _ => ?_) (fun hb => (nomatch hb)))
      je (block_P hr ctx none) at h4 with d vs s5 p5 hd hvs - h5
      jp
      exact J.pure ⟨_, _, by simp, h5, (D.tryBoth ht hb hc hf hd (by simpa using h5.spans (by simp))).cast (by simp)⟩
    · intro _
      refine J.bind (J.thenTry (fun hb => (nomatch hb)) (fun _ => ?_))
      jp
      exact J.pure ⟨_, _, by simp, h3, (D.tryCatch ht hb hc (by simpa using h3.spans (by simp))).cast (by simp)⟩
  · refine J.bind (J.thenTry (fun hb => (nomatch hb)) (fun _ => ?_))
    refine J.bind (J.maybeConsume h2 ?_ ?_)
    · intro f s4 p4 _ hf _ h4
      refine J.bind (J.thenTry (fun _ => ?_) (fun hb => (nomatch hb)))
      je (block_P hr ctx none) at h4 with d vs s5 p5 hd hvs - h5
      jp
      exact J.pure ⟨_, _, by simp, h5, (D.tryFinally ht hb hf hd (by simpa using h5.spans (by simp))).cast (by simp)⟩
    · intro _
      refine J.bind (J.thenTry (fun hb => (nomatch hb)) (fun _ => ?_))
      jp
      exact J.throw (ErrPost.of h2.kept (h2.spanWF (by simp)) (fun _ => PErrKind.noConfusion))

theorem caseClause_P : Parses src styp n 0 x (Parser.caseClause r ctx) ctx .case := by
  intro s p hp
  unfold Parser.caseClause Parser.caseHead
  jp
  have list : ∀ {hs : List Token} {s' : PState} {p' : Cursor} {β : Type} {f : List Stmt → P β} {Q : β → PState → Prop}, hs ≠ [] →
      Hist ⟨src, styp, n, 0, x, s, p⟩ true hs s' p' →
      (∀ ps s'' p'', (∀ p ∈ ps, G src styp ctx (.item p.1) p.2) → Hist ⟨src, styp, n, 0, x, s, p⟩ true (hs ++ toks ps) s'' p'' →
        J ⟨src, styp, n, 0, x, s, p⟩ (f (trees ps)) s'' Q) →
      J ⟨src, styp, n, 0, x, s, p⟩ (Parser.switchCaseStmtList r ctx >>= f) s' Q := by
    intro hs s' p' β f Q hne h k
    unfold Parser.switchCaseStmtList
    refine J.bind (J.loop (ManyInv (fun a ts => G src styp ctx (.item a) ts) hs) h ManyInv.nil hr.fuel ?_)
    rintro acc hs' s2 p2 h2 hi
    refine J.bind (J.curVal ?_)
    refine J.ite (fun _ => ?_) (fun _ => ?_)
    · obtain ⟨ps, rfl, rfl, e3⟩ := hi
      exact J.done (k ps s2 p2 e3 h2)
    · have hne' : hs' ≠ [] := by obtain ⟨ps, rfl, -⟩ := hi; simp [hne]
      jd (hr.declOrStmt ctx) at h2 with st us s3 p3 hst hus - h3
      exact J.againSnoc h3 hus (hi.snoc hst)
  refine J.bind (J.ifMaybe hp.start ?_ ?_)
  · intro t s1 p1 _ ht _ h1
    jd (expr_P hr { ctx with in_ := true }) at h1 with e ts s2 p2 he hts - h2
    jb J.consumeAssert h2 with c s3 p3 - hc - h3
    refine J.pure (list (by simp) h3 ?_)
    intro ps s4 p4 hps h4
    jp
    exact J.pure ⟨_, _, by simp, h4, (D.case ht he hc hps (by simpa using h4.spans (by simp))).cast (by simp)⟩
  · intro _
    jb J.consumeAssert hp.start with t s1 p1 - ht - h1
    jb J.consumeAssert h1 with c s3 p3 - hc - h3
    refine J.pure (list (by simp) h3 ?_)
    intro ps s4 p4 hps h4
    jp
    exact J.pure ⟨_, _, by simp, h4, (D.default ht hc hps (by simpa using h4.spans (by simp))).cast (by simp)⟩

theorem switchStmt_P : Parses src styp n 0 x (Parser.switchStmt r ctx) ctx .stmt := by
  intro s p hp
  unfold Parser.switchStmt Parser.caseBlock
  jp
  jb J.consumeAssert hp.start with t s1 p1 - ht - h1
  jb J.consumeAssert h1 with lp s2 p2 - hlp - h2
  jd (expr_P hr { ctx with in_ := true }) at h2 with e ts s3 p3 he hts - h3
  jb J.consumeAssert h3 with rp s4 p4 - hrp - h4
  refine J.bind ?_
  jb J.consumeAssert h4 with lb s5 p5 - hlb - h5
  refine J.bind (J.loop (ManyInv (fun a ts => G src styp ctx (.case a) ts) _) h5 ManyInv.nil hr.fuel ?_)
  rintro acc hs' s6 p6 h6 hi
  have hne' : hs' ≠ [] := by obtain ⟨ps, rfl, -⟩ := hi; simp
  refine J.ifCur (fun _ => ?_) (fun _ => ?_)
  · refine J.done ?_
    obtain ⟨ps, rfl, rfl, e3⟩ := hi
    jb J.consumeAssert h6 with rb s7 p7 - hrb - h7
    refine J.pure ?_
    jp
    exact J.pure ⟨_, _, by simp, h7, (D.switch ht hlp he hrp hlb e3 hrb (by simpa using h7.spans (by simp))).cast (by simp)⟩
  · jd (caseClause_P hr ctx none) at h6 with c us s7 p7 hc hus - h7
    exact J.againSnoc h7 hus (hi.snoc hc)

end
end Fajt
