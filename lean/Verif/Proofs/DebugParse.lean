import Verif.Proofs.ParseProgram
import Verif.Model.Debug
import Verif.Spec.Debug
/-!
# Panics of a debug build

The parser of a debug build, with the assertions, in the program logic of `Verif.Proofs.ParseLogic`: a failed assertion has the cause
`AsyncBreak`.  The theorems are those of `ParsePrimary`, `ParseFunction`, `ParseModule`, `ParseAll` and `ParseProgram` for the functions
that differ.
-/
namespace Fajt.Debug
open Spec
set_option linter.unusedSectionVars false
variable [UnicodeID]

/-- A debug build. -/
local instance debugBlame : Blame := ⟨DebugCause, .inl⟩

theorem J.assert {F : Frame} {s : PState} {b : Bool} {Q : Unit → PState → Prop} (hb : b = true) (k : Q () s) :
    J F (debugAssert b) s Q := by
  subst hb; exact k

theorem J.assertOr {F : Frame} {s : PState} {b : Bool} {Q : Unit → PState → Prop} (h : b = false → DebugCause F.src F.styp)
    (k : b = true → Q () s) : J F (debugAssert b) s Q := by
  cases b
  · exact h rfl
  · exact k rfl

section
variable {src : Str} {styp : SourceType} {n : Nat} {r : Rec} (hr : RecOK src styp n r) (ctx : Ctx) (x : Option Ctx)
include hr

theorem asyncFunctionExpr_D : ∀ s p, At src styp s p → (∀ t, s.nxt = .ok t → t.fol = false) →
    J ⟨src, styp, n, 0, x, s, p⟩ (DebugParser.asyncFunctionExpr r ctx) s
      (Post ⟨src, styp, n, 0, x, s, p⟩ fun e ts _ => G src styp ctx (.expr 21 e) ts) := by
  intro s p hp hfol
  unfold DebugParser.asyncFunctionExpr Parser.functionExprContent
  jp
  jb J.consumeAssert hp.start with a s0 p0 - ha hn h0
  jb J.consumeAssert h0 with f s1 p1 hf0 hf - h1
  refine J.bind (J.assert (by rw [hfol f (hn ▸ hf0)]; rfl) ?_)
  refine J.star hr h1 rfl ?_
  intro g star s2 p2 hstar _ _ h2
  refine J.identOpt hr h2 ?_
  intro id nm s3 p3 hid h3
  jd (formalParameters_P hr _ none) at h3 with ps ts s4 p4 hps - - h4
  jd (functionBody_P hr _ none) at h4 with b us s5 p5 hb - - h5
  jp
  exact J.pure ⟨_, _, by simp, h5, (D.asyncFunction ha hf (hfol f (hn ▸ hf0)) hstar hid hps hb (by simpa using h5.spans (by simp))).cast (by simp)⟩

theorem asyncFunctionDeclaration_P : Parses src styp n 0 x (DebugParser.asyncFunctionDeclaration r ctx) ctx .decl := by
  intro s p hp
  unfold DebugParser.asyncFunctionDeclaration Parser.functionDeclContent
  jp
  jb J.consumeAssert hp.start with a s0 p0 - ha hn h0
  jb J.consumeAssert h0 with f s1 p1 hf0 hf - h1
  refine J.bind (J.assertOr (fun hfol => ?_) fun _ => ?_)
  · refine .inr ?_
    obtain ⟨ts, hts⟩ := h1.at0.reads
    refine ⟨ts, a, f, p1.rest, p1.fol, ?_, ha, hf, by simpa using hfol⟩
    simpa using (hts.trans h1.chain).fromStart
  refine J.star hr h1 rfl ?_
  intro g star s2 p2 hstar _ _ h2
  refine J.bind (J.functionIdentifier hr h2 ?_)
  intro id nm start s3 p3 hid hst h3
  jd (formalParameters_P hr _ none) at h3 with ps ts s4 p4 hps - hbg h4
  jd (functionBody_P hr _ none) at h4 with b us s5 p5 hb - - h5
  jp
  exact J.pure ⟨_, _, by simp, h5, (D.asyncFunctionDecl ha hf hstar hid (hst _ hbg) hps hb (by simpa using h5.spans (by simp))).cast (by simp)⟩

theorem rereadRegexp_D : ∀ s p, At src styp s p → (∃ t, s.cur = .ok t ∧ ∀ l, t.value ≠ .lit l) →
    J ⟨src, styp, n, 0, x, s, p⟩ DebugParser.rereadRegexp s
      (Post ⟨src, styp, n, 0, x, s, p⟩ fun e ts _ => G src styp ctx (.expr 21 e) ts) := by
  rintro s p hp ⟨t0, hc, hv⟩
  unfold DebugParser.rereadRegexp Parser.literal Parser.literalTok
  refine J.bind (J.reread' hp.start ?_)
  intro s1 h1 hre
  refine J.bind ?_
  refine J.bind ?_
  jb J.consume h1 with t s2 p2 ht - h2
  split
  · next l hl =>
    refine J.pure (J.pure ?_)
    cases l with
    | regexp v =>
      refine J.bind (J.assert rfl (J.pure ?_))
      exact ⟨_, _, by simp, h2, .regexp hl⟩
    | _ =>
      have := (hre t0 t hc ht).same' (by rw [hl]; rfl)
      subst this
      exact absurd hl (hv _)
  · exact ErrPost.of h2.kept (h2.tokWF (by simp)) (fun _ => PErrKind.noConfusion)

theorem primaryExpr_P : Parses src styp n 0 (some ctx) (DebugParser.primaryExpr r ctx) ctx (.expr 21) := by
  intro s p hp
  unfold DebugParser.primaryExpr
  jb J.current hp.start with t ht
  split
  · exact thisExpr_P hr ctx _ s p hp
  · next hv =>
    unfold Parser.consumeLiteral
    jb J.consume hp.start with t' s1 p1 ht' - h1
    rw [ht] at ht'; cases ht'
    exact J.pure ⟨_, _, by simp, h1, .null hv⟩
  · next hv =>
    unfold Parser.consumeLiteral
    jb J.consume hp.start with t' s1 p1 ht' - h1
    rw [ht] at ht'; cases ht'
    exact J.pure ⟨_, _, by simp, h1, .true hv⟩
  · next hv =>
    unfold Parser.consumeLiteral
    jb J.consume hp.start with t' s1 p1 ht' - h1
    rw [ht] at ht'; cases ht'
    exact J.pure ⟨_, _, by simp, h1, .false hv⟩
  · exact literal_P hr ctx _ s p hp
  · exact arrayLiteral_P hr ctx _ s p hp
  · exact objectLiteral_P hr ctx _ s p hp
  · exact functionExpr_P hr ctx _ s p hp
  · exact classExpr_P hr ctx _ s p hp
  · next hv =>
    refine rereadRegexp_D hr ctx _ s p hp ⟨t, ht, fun l hl => ?_⟩
    rw [hv] at hl; cases hl
  · exact templateLiteralExpr_P hr ctx _ s p hp
  · exact coverParenthesizedAndArrowParameters_P hr ctx s p hp
  · refine J.bind (J.followedByNewLine ?_)
    refine J.ite (fun hv => ?_) (fun _ => ?_)
    · refine asyncFunctionExpr_D hr ctx _ s p hp ?_
      intro u hu
      have := hv.2
      unfold nextFol at this
      rw [hu] at this
      simpa using this
    · refine J.bind (J.isIdent ?_)
      refine J.ite (fun _ => ?_) (fun _ => ?_)
      · jb J.parseIdent hp.start with t' id s1 p1 - hid - h1
        exact J.pure ⟨_, _, by simp, h1, .identRef hid⟩
      · exact rereadRegexp_D hr ctx _ s p hp ⟨t, ht, fun l hl => by simp_all⟩

theorem memberExprFromTerminal_D : Does src styp n 0 (some ctx) (DebugParser.memberExprFromTerminal r ctx) (NewInv src styp ctx) := by
  intro s p hp
  unfold DebugParser.memberExprFromTerminal
  jb J.current hp.start with t ht
  have hvt := valOf_ok ht
  refine J.bind (J.mono (Q := fun b s' => (b = true → peekOf s = some (.punct p!".")) ∧ s' = s)
      (J.peekMatches (fun h => ⟨fun _ => h, rfl⟩) (fun _ => ⟨fun h => (nomatch h), rfl⟩)) ?_)
  rintro b s' ⟨hb, rfl⟩
  refine J.ite (fun hv => ?_) (fun _ => ?_)
  · refine (superProperty_P hr ctx _ s' p hp (by rw [hvt, hv])).mono ?_
    rintro a s1 ⟨ts, p1, h1, h2, h3⟩
    exact ⟨ts, p1, h1, h2, .inl h3⟩
  refine J.ite (fun hv => ?_) (fun _ => ?_)
  · refine J.ite (fun hd => ?_) (fun _ => ?_)
    · refine (metaProperty_D hr ctx _ _ _ (.keyword k!"new") s' p hp (by rw [hvt, hv]) (hb hd)).mono ?_
      rintro e s1 ⟨ts, p1, h1, h2, a, b, c, id, sp, e1, e2, e3, e4, e5, e6, e7⟩
      subst e1 e7
      exact ⟨_, p1, h1, h2, .inl (.newTarget e2 e3 e4 e5 e6)⟩
    · exact newExpr_D hr ctx _ s' p hp (by rw [hvt, hv])
  refine J.ite (fun hv => ?_) (fun _ => ?_)
  · refine (metaProperty_D hr ctx _ _ _ (.keyword k!"import") s' p hp (by rw [hvt, hv.1]) (hb hv.2)).mono ?_
    rintro e s1 ⟨ts, p1, h1, h2, a, b, c, id, sp, e1, e2, e3, e4, e5, e6, e7⟩
    subst e1 e7
    exact ⟨_, p1, h1, h2, .inl (.importMeta e2 e3 e4 e5 e6)⟩
  · refine (primaryExpr_P hr ctx s' p hp).mono ?_
    rintro a s1 ⟨ts, p1, h1, h2, h3⟩
    exact ⟨ts, p1, h1, h2, .inl (D.weaken h3 (by omega))⟩

theorem newOrMember_D : Does src styp n 0 (some ctx) (DebugParser.newOrMember r ctx) fun e ts s' =>
    (G src styp ctx (.expr 20 e) ts ∨ G src styp ctx (.newE e) ts ∧ valOf s' ≠ some (.punct p!"(")) ∧ NoMember s' := by
  intro s p hp
  unfold DebugParser.newOrMember
  jp
  jd (memberExprFromTerminal_D hr ctx) at hp.start with e ts s1 p1 he hts - h1
  refine J.loop (fun e hs s => hs ≠ [] ∧ NewInv src styp ctx e hs s) h1 ⟨hts, he⟩ hr.fuel ?_
  clear he hts h1
  rintro e hs s1 p1 h1 ⟨hne, hi⟩
  refine J.bind (J.curVal ?_)
  have mem : (valOf s1 = some (.punct p!".") ∨ valOf s1 = some (.punct p!"[")) →
      J ⟨src, styp, n, 0, some ctx, s, p⟩ (Parser.memberExprRightSide r ctx (posOf s) (.expr e) >>= fun e => Pure.pure (.inl e)) s1
      (LoopPost ⟨src, styp, n, 0, some ctx, s, p⟩ hs (fun e hs s => hs ≠ [] ∧ NewInv src styp ctx e hs s)
      (Post ⟨src, styp, n, 0, some ctx, s, p⟩ fun e ts s' =>
    (G src styp ctx (.expr 20 e) ts ∨ G src styp ctx (.newE e) ts ∧ valOf s' ≠ some (.punct p!"(")) ∧ NoMember s')) := by
    intro hv
    refine J.bind (memberExprRightSide_J hr ctx (F := ⟨src, styp, n, 0, some ctx, s, p⟩) ⟨rfl, rfl, rfl⟩ h1 hne hv ?_)
    intro m us s2 p2 hus hm h2 hsp
    refine J.againSnoc h2 hus ⟨by simp [hne], .inl ?_⟩
    rcases hi with hi | ⟨_, _, hi⟩
    · exact D.member (.inr rfl) hi hm hsp
    · rcases hv with hv | hv
      · exact absurd hv hi.1
      · exact absurd hv hi.2.1
  have tmpl : (¬ NoMember s1) →
      J ⟨src, styp, n, 0, some ctx, s, p⟩ (Parser.taggedTemplate r ctx (posOf s) e >>= fun e => Pure.pure (.inl e)) s1
      (LoopPost ⟨src, styp, n, 0, some ctx, s, p⟩ hs (fun e hs s => hs ≠ [] ∧ NewInv src styp ctx e hs s)
      (Post ⟨src, styp, n, 0, some ctx, s, p⟩ fun e ts s' =>
    (G src styp ctx (.expr 20 e) ts ∨ G src styp ctx (.newE e) ts ∧ valOf s' ≠ some (.punct p!"(")) ∧ NoMember s')) := by
    intro hv
    refine J.bind (taggedTemplate_J hr ctx (F := ⟨src, styp, n, 0, some ctx, s, p⟩) ⟨rfl, rfl, rfl⟩ h1 hne ?_)
    intro ps us s2 p2 hus hps hbg h2 hsp
    refine J.againSnoc h2 hus ⟨by simp [hne], .inl ?_⟩
    rcases hi with hi | ⟨_, _, hi⟩
    · exact D.tagged hi hps hsp
    · exact absurd hi hv
  split
  · next hv => exact mem (.inl hv)
  · next hv => exact mem (.inr hv)
  · next v hv => exact tmpl (fun h => h.2.2.1 _ hv)
  · next v hv => exact tmpl (fun h => h.2.2.2 _ hv)
  · next n1 n2 n3 n4 =>
    refine J.done ⟨_, _, hne, h1, ?_, n1, n2, fun v hv => n3 _ hv, fun v hv => n4 _ hv⟩
    rcases hi with hi | hi
    · exact .inl hi
    · exact .inr ⟨hi.1, hi.2.1⟩

end

section
variable {src : Str} {styp : SourceType} {n : Nat} {r : Rec} (hr : RecOK src styp n r) (ctx : Ctx) (x : Option Ctx)
include hr

theorem declaration_D (s : PState) (p : Cursor) (hp : At src styp s p) :
    J ⟨src, styp, n, 0, x, s, p⟩ (DebugParser.declaration r ctx) s fun a s' => match a with
      | none => s' = s
      | some d => Post ⟨src, styp, n, 0, x, s, p⟩ (fun d ts _ => G src styp ctx (.decl d) ts) d s' := by
  unfold DebugParser.declaration Parser.peekMatchesLexicalBinding
  jb J.current hp.start with t ht
  refine J.bind (J.any fun pf => ?_)
  refine J.bind (J.bind (J.any fun b1 => J.bind (J.any fun b2 => J.bind (J.any fun b3 => J.pure ?_))))
  have up : ∀ {m : P Stmt}, Parses src styp n 0 x m ctx .decl → J ⟨src, styp, n, 0, x, s, p⟩ (m >>= fun st => Pure.pure (some st)) s
      (fun a s' => match a with
      | none => s' = s
      | some d => Post ⟨src, styp, n, 0, x, s, p⟩ (fun d ts _ => G src styp ctx (.decl d) ts) d s') := by
    intro m hm
    exact J.bind ((hm s p hp).mono fun a s' h => J.pure h)
  refine J.ite (fun _ => up (functionDeclaration_P hr ctx x)) (fun _ => ?_)
  refine J.ite (fun _ => up (asyncFunctionDeclaration_P hr ctx x)) (fun _ => ?_)
  refine J.ite (fun _ => up (classDecl_P hr ctx x)) (fun _ => ?_)
  have hsty : styp ≠ .script → styp = .module := by cases styp <;> simp
  have mod : ∀ {msg : Str} {m : P Stmt}, (styp = .module → Parses src styp n 0 x m ctx .decl) →
      J ⟨src, styp, n, 0, x, s, p⟩ (do
        if ← Parser.isScript then M.throw (PErr.syn msg t.span)
        else do
          let st ← m
          Pure.pure (some st)) s (fun a s' => match a with
      | none => s' = s
      | some d => Post ⟨src, styp, n, 0, x, s, p⟩ (fun d ts _ => G src styp ctx (.decl d) ts) d s') := by
    intro msg m hm
    refine J.bind (J.gets ?_)
    refine J.ite (fun _ => ?_) (fun h => ?_)
    · exact J.throw (ErrPost.of hp.start.kept (hp.curWF ht) (fun _ => PErrKind.noConfusion))
    · exact up (hm (hsty (by rw [← hp.styp]; simpa using h)))
  refine J.ite (fun _ => mod (importDeclaration_P hr ctx x)) (fun _ => ?_)
  refine J.ite (fun _ => mod (exportDeclaration_P hr ctx x)) (fun _ => ?_)
  refine J.ite (fun hv => ?_) (fun _ => ?_)
  · refine J.bind ((variableStmt_P hr ctx x .const s p hp ht hv rfl).mono ?_)
    rintro st s1 ⟨ts, p1, hts, h1, -, h⟩
    exact J.pure ⟨_, _, hts, h1, h⟩
  refine J.ite (fun hv => ?_) (fun _ => ?_)
  · refine J.bind ((variableStmt_P hr ctx x .let_ s p hp ht hv.1 rfl).mono ?_)
    rintro st s1 ⟨ts, p1, hts, h1, -, h⟩
    exact J.pure ⟨_, _, hts, h1, h⟩
  · exact J.pure rfl

end

/-- Every entry point of the parser of a debug build does what is expected of it. -/
theorem mkRecD_ok (src : Str) (styp : SourceType) (n : Nat) : RecOK src styp n (DebugParser.mkRecD n) := by
  induction n with
  | zero =>
    rw [show DebugParser.mkRecD 0 = mkRec 0 from rfl]
    refine ⟨rfl, fun _ _ => Does.oof (by omega), ?_, ?_, fun _ => Does.oof (by omega), fun _ => Does.oof (by omega), fun _ => Does.oof (by omega),
      fun _ => Does.oof (by omega), fun _ => Does.oof (by omega)⟩ <;>
    · intros
      show 0 < 8 * (byteLen src + 1 - _) + 1
      omega
  | succ n ih =>
    rw [DebugParser.mkRecD]
    refine ⟨rfl, fun ctx x => Does.lift (bindingPattern_P ih ctx x) (by omega), ?_, ?_, fun ctx => Does.lift (newOrMember_D ih ctx) (by omega),
      fun ctx => Does.lift (unary_P ih ctx) (by omega), fun ctx => Does.lift (assignExpr_P ih ctx) (by omega),
      fun ctx => Does.lift (stmt_P ih ctx) (by omega), fun ctx => Does.lift (declOrStmt_P ih ctx) (by omega)⟩
    · intro ctx x s p hp hsp
      exact (assignPattern_D ih ctx x s p hp hsp).lift (by omega) fun _ _ h => h.refuel
    · intro ctx x s p hp
      refine (declaration_D ih ctx x s p hp).lift (by omega) ?_
      intro a s' h
      cases a with
      | none => exact h
      | some d => exact Post.refuel h

theorem parse_with {α : Type} (src : Str) (styp : SourceType) {n K : Nat} (hn : 8 * (byteLen src + 1) + K ≤ n) (m : Rec → P α) {Q : α → Prop}
    (h : ∀ s p, At src styp s p → s.pos = 0 → p = ⟨src, 0, 0, true⟩ →
      J ⟨src, styp, n, K, none, s, p⟩ (m (DebugParser.mkRecD n)) s fun a _ => Q a) {s : PState} (hs : Parser.start src styp = .ok () s) :
    Outcome src styp Q (m (DebugParser.mkRecD n) s) := by
  obtain ⟨s', h1, h2, h3⟩ := start_at src styp
  rw [hs] at h1
  cases h1
  have hj := h s _ h2 h3 rfl
  unfold J at hj
  cases hr : m (DebugParser.mkRecD n) s <;> rw [hr] at hj
  · exact hj
  · exact hj.span
  · exact hj
  · have hj' : n < 8 * (byteLen src + 1 - 0) + K := hj
    show False
    omega

theorem parse_outcome {α : Type} (src : Str) (styp : SourceType) {K : Nat} (hK : K ≤ 24) (m : Rec → P α) {Q : α → Prop}
    (h : ∀ n r, RecOK src styp n r → ∀ s p, At src styp s p → s.pos = 0 → p = ⟨src, 0, 0, true⟩ →
      J ⟨src, styp, n, K, none, s, p⟩ (m r) s fun a _ => Q a) : Outcome src styp Q (DebugParser.parse m src styp) := by
  obtain ⟨s, h1, -⟩ := start_at src styp
  unfold DebugParser.parse
  rw [h1]
  exact parse_with src styp (by unfold Parser.enoughFuel; omega) m (h _ _ (mkRecD_ok src styp _)) h1

theorem parse_program (src : Str) (styp : SourceType) : Outcome src styp (fun a : Program => a.sourceType = styp ∧
    ∃ ts, SourceTokens [] true src ts ∧ IsProgram (sourceEnv src styp) a ts) (DebugParser.parse Parser.program src styp) := by
  refine parse_outcome src styp (K := 6) (by omega) _ ?_
  intro n r hr s p hp h0 he
  refine J.mono (program_J src styp hr hp h0) ?_
  rintro a s' ⟨ts, p', h1, h2, h3, h4⟩
  refine ⟨h4, ts, ?_, h3⟩
  subst he
  exact h1.chain.sourceTokens (p := ⟨src, 0, 0, true⟩) ⟨rfl, rfl⟩ (h2.trivia h1.at1)

theorem parse_expr (src : Str) (styp : SourceType) : Outcome src styp (fun a : Expr =>
    ∃ ts p', Chain ⟨src, 0, 0, true⟩ ts p' ∧ G src styp { in_ := true } (.expr 0 a) ts) (DebugParser.parseExpr src styp) := by
  refine parse_outcome src styp (K := 4) (by omega) _ ?_
  intro n r hr s p hp h0 he
  refine J.mono (expr_P hr { in_ := true } s p hp) ?_
  rintro a s' ⟨ts, p', h1, h2, h3⟩
  subst he
  exact ⟨ts, p', h2.chain, h3⟩

theorem parse_stmt (src : Str) (styp : SourceType) : Outcome src styp (fun a : Stmt =>
    ∃ ts p', Chain ⟨src, 0, 0, true⟩ ts p' ∧ G src styp {} (.item a) ts) (DebugParser.parseStmt src styp) := by
  refine parse_outcome src styp (K := 5) (by omega) _ ?_
  intro n r hr s p hp h0 he
  refine J.mono (declOrStmt_P hr {} s p hp) ?_
  rintro a s' ⟨ts, p', h1, h2, h3⟩
  subst he
  exact ⟨ts, p', h2.chain, h3⟩


end Fajt.Debug
