import Verif.Proofs.ParseIteration
/-!
# Import, export, declarations
-/
namespace Fajt
open Spec
set_option linter.unusedSectionVars false
variable [UnicodeID] [Blame]

theorem J.moduleSpecifier {F : Frame} {s : PState} {hs : List Token} {p : Cursor} {c : Bool} (h : Hist F c hs s p)
    (hm : F.styp = .module) (hq : (∃ hs' f, hs = hs' ++ [f] ∧ f.value = .keyword k!"from") ∨
      ∃ u l, s.cur = .ok u ∧ u.value = .lit (.string l)) {Q : LitString → PState → Prop}
    (k : ∀ u l s' p', s.cur = .ok u → u.value = .lit (.string l) → Hist F true (hs ++ [u]) s' p' → Q l s') :
    J F Parser.moduleSpecifier s Q := by
  unfold Parser.moduleSpecifier Parser.literalTok
  refine J.bind ?_
  jb J.consume h with t s1 p1 ht - h1
  split
  · next l hl =>
    refine J.pure ?_
    cases l with
    | string l => exact J.pure (k _ _ _ _ ht hl h1)
    | _ =>
      refine Blame.panicCause (.inr ⟨hm, ?_⟩)
      rcases hq with ⟨hs', f, rfl, hf⟩ | ⟨u, l, hu, hl'⟩
      · obtain ⟨ts, hts⟩ := h1.at0.reads
        refine ⟨ts ++ hs', f, t, _, p1.rest, p1.fol, ?_, hf, hl, fun _ h => by cases h⟩
        simpa using (hts.trans h1.chain).fromStart
      · rw [ht] at hu
        cases hu
        rw [hl] at hl'
        cases hl'
  · exact ErrPost.of h1.kept (h1.tokWF (by simp)) (fun _ => PErrKind.noConfusion)

/-- The position of the parser is the end of the last token. -/
theorem Hist.pos_last {F : Frame} {hs : List Token} {t : Token} {s : PState} {p : Cursor} (h : Hist F true (hs ++ [t]) s p) :
    s.pos = t.span.stop := by
  rw [h.pos rfl, if_neg (by simp)]
  simp [Spec.lastEnd]

/-- The position of the parser is that of the last token. -/
theorem Hist.pos_le {F : Frame} {hs : List Token} {t : Token} {s : PState} {p : Cursor} (h : Hist F true (hs ++ [t]) s p) :
    s.pos ≤ p.pos := by
  rw [h.pos rfl, if_neg (by simp)]
  have := h.chain.mem_span h.at0.place (t := t) (by simp)
  simp only [Spec.lastEnd, List.getLast?_append, List.getLast?_singleton]
  exact this.2.2

section
variable {src : Str} {styp : SourceType} {n : Nat} {r : Rec} (hr : RecOK src styp n r) (ctx : Ctx) (x : Option Ctx)
include hr

omit hr in
theorem importSpecifier_D : Does src styp n 0 x (Parser.importSpecifier ctx) fun i ts _ => ImportSpec ctx i ts := by
  intro s p hp
  unfold Parser.importSpecifier
  jp
  jb J.parseIdentName hp.start with t id s1 p1 - hid - h1
  refine J.bind (J.maybeConsume h1 ?_ ?_)
  · intro a s2 p2 _ ha _ h2
    refine J.bind (J.thenTry (fun _ => ?_) (fun hb => (nomatch hb)))
    refine J.parseIdent h2 ?_
    intro u id' s3 p3 _ hid' _ h3
    jp
    exact J.pure ⟨_, _, by simp, h3, .renamed hid ha hid' (h3.spans (by simp))⟩
  · intro _
    refine J.bind (J.thenTry (fun hb => (nomatch hb)) (fun _ => ?_))
    jp
    exact J.pure ⟨_, _, by simp, h1, .plain hid (h1.spans (by simp))⟩

omit hr in
theorem exportSpecifier_D : Does src styp n 0 x Parser.exportSpecifier fun i ts _ => ExportSpec i ts := by
  intro s p hp
  unfold Parser.exportSpecifier
  jp
  jb J.parseIdentName hp.start with t id s1 p1 - hid - h1
  refine J.bind (J.maybeConsume h1 ?_ ?_)
  · intro a s2 p2 _ ha _ h2
    refine J.bind (J.thenTry (fun _ => ?_) (fun hb => (nomatch hb)))
    refine J.parseIdentName h2 ?_
    intro u id' s3 p3 _ hid' _ h3
    jp
    exact J.pure ⟨_, _, by simp, h3, .renamed hid ha hid' (h3.spans (by simp))⟩
  · intro _
    refine J.bind (J.thenTry (fun hb => (nomatch hb)) (fun _ => ?_))
    jp
    exact J.pure ⟨_, _, by simp, h1, .plain hid (h1.spans (by simp))⟩

theorem namedImports_D : Does src styp n 0 x (Parser.namedImports r ctx) fun is ts _ => NamedImports ctx is ts := by
  intro s p hp
  unfold Parser.namedImports
  jb J.consumeAssert hp.start with lb s1 p1 - hlb - h1
  refine J.loop (SepInv (fun a ts => ImportSpec ctx a ts) (.punct p!"}") [lb]) h1 SepInv.nil hr.fuel ?_
  rintro acc hs s2 p2 h2 hi
  obtain ⟨_, _, us, e1, _⟩ := id hi
  refine J.ifMaybe h2 ?_ ?_
  · intro rb s3 p3 _ hrb _ h3
    obtain ⟨b, ps, us, e1, e2, e3, e4, -⟩ := hi
    subst e1 e2
    exact J.done ⟨_, _, by simp, h3, .intro hlb e3 e4 hrb⟩
  · intro hv
    jd (importSpecifier_D ctx none) at h2 with a ts s3 p3 ha hts - h3
    exact J.listItem hi hv h3 hts ha

theorem namedExports_D : Does src styp n 0 x (Parser.namedExports r) fun is ts _ => NamedExports is ts := by
  intro s p hp
  unfold Parser.namedExports
  jb J.consumeAssert hp.start with lb s1 p1 - hlb - h1
  refine J.loop (SepInv (fun a ts => ExportSpec a ts) (.punct p!"}") [lb]) h1 SepInv.nil hr.fuel ?_
  rintro acc hs s2 p2 h2 hi
  obtain ⟨_, _, us, e1, _⟩ := id hi
  refine J.ifMaybe h2 ?_ ?_
  · intro rb s3 p3 _ hrb _ h3
    obtain ⟨b, ps, us, e1, e2, e3, e4, -⟩ := hi
    subst e1 e2
    exact J.done ⟨_, _, by simp, h3, .intro hlb e3 e4 hrb⟩
  · intro hv
    jd (exportSpecifier_D none) at h2 with a ts s3 p3 ha hts - h3
    exact J.listItem hi hv h3 hts ha

theorem importClauseRest_D : Does src styp n 0 x (Parser.importClauseRest r ctx) fun c ts _ => ImportRest ctx c.1 c.2 ts := by
  intro s p hp
  unfold Parser.importClauseRest
  refine J.bind (J.curVal ?_)
  split
  · unfold Parser.namespaceImport
    refine J.bind ?_
    jb J.consumeAssert hp.start with st s1 p1 - hst - h1
    jb J.consumeAssert h1 with a s2 p2 - ha - h2
    refine J.parseIdent h2 ?_
    intro u id s3 p3 _ hid _ h3
    exact J.pure ⟨_, _, by simp, h3, .namespace hst ha hid⟩
  · jd (namedImports_D hr ctx x) at hp.start with is ts s1 p1 his hts - h1
    exact J.pure ⟨_, _, hts, h1, .named his⟩
  · exact J.consumeThrow hp.start (fun t => ⟨rfl, fun _ => PErrKind.noConfusion⟩)

theorem importClause_D : Does src styp n 0 x (Parser.importClause r ctx) fun c ts _ => ImportClause ctx c.1 c.2.1 c.2.2 ts := by
  intro s p hp
  unfold Parser.importClause
  refine J.bind (J.isIdent ?_)
  refine J.bind (J.thenTry (fun _ => ?_) (fun _ => ?_))
  · refine J.parseIdent hp.start ?_
    intro t id s1 p1 _ hid _ h1
    refine J.ite (fun h => (nomatch h)) (fun _ => ?_)
    refine J.ifMaybe h1 ?_ ?_
    · intro c s2 p2 _ hc _ h2
      jd (importClauseRest_D hr ctx none) at h2 with is ts s3 p3 his hts - h3
      exact J.pure ⟨_, _, by simp, h3, by simpa using ImportClause.both hid hc his⟩
    · intro _
      exact J.pure ⟨_, _, by simp, h1, .default hid⟩
  · refine J.ite (fun _ => ?_) (fun h => absurd rfl h)
    jd (importClauseRest_D hr ctx x) at hp.start with is ts s3 p3 his hts - h3
    exact J.pure ⟨_, _, hts, h3, .rest his⟩

theorem importDeclaration_P (hm : styp = .module) : Parses src styp n 0 x (Parser.importDeclaration r ctx) ctx .decl := by
  intro s p hp
  unfold Parser.importDeclaration
  jp
  jb J.consumeAssert hp.start with t s1 p1 - ht - h1
  refine J.bind (J.curMatchesString (fun u0 l0 hu0 hl0 => ?_) ?_)
  · show J _ (Parser.moduleImport _) _ _
    unfold Parser.moduleImport
    refine J.bind (J.moduleSpecifier h1 hm (.inr ⟨_, _, hu0, hl0⟩) ?_)
    intro u l s2 p2 _ hu h2
    refine J.bind (J.consumeOptionalSemicolon h2 (by simp) ?_)
    intro us s3 p3 hus h3
    jp
    exact J.pure ⟨_, _, by simp, h3, (D.importModule hm ht hu (by simpa using hus) (by simpa using h3.spans (by simp))).cast (by simp)⟩
  · show J _ (Parser.importClause r ctx >>= _) _ _
    jd (importClause_D hr ctx none) at h1 with c ts s2 p2 hc hts - h2
    obtain ⟨d, ns, is⟩ := c
    dsimp only
    jb J.consumeAssert h2 with f s3 p3 - hf - h3
    refine J.bind (J.moduleSpecifier h3 hm (.inl ⟨_, _, rfl, hf⟩) ?_)
    intro u l s4 p4 _ hu h4
    refine J.bind (J.consumeOptionalSemicolon h4 (by simp) ?_)
    intro us s5 p5 hus h5
    jp
    exact J.pure ⟨_, _, by simp, h5, (D.importFrom hm ht hc hf hu (by simpa using hus) (by simpa using h5.spans (by simp))).cast (by simp)⟩

/-- A declaration that must be there. -/
theorem requiredDeclaration_D (hm : styp = .module) (s : PState) (p : Cursor) (hp : At src styp s p) {hs : List Token} {t : Token}
    (hch : Chain ⟨src, 0, 0, true⟩ (hs ++ [t]) p) (hsp : s.pos = t.span.stop)
    (hk : t.value = .keyword k!"export" ∨
      t.value = .keyword k!"default" ∧ ∃ ts' x, hs = ts' ++ [x] ∧ x.value = .keyword k!"export") (hpos : s.pos ≤ p.pos) :
    J ⟨src, styp, n, 1, x, s, p⟩ (Parser.requiredDeclaration r ctx) s
      (Post ⟨src, styp, n, 1, x, s, p⟩ fun d ts _ => G src styp ctx (.decl d) ts) := by
  unfold Parser.requiredDeclaration
  refine J.bind ((hr.declaration ctx x s p hp).mono ?_)
  intro o s1 ho
  cases o with
  | some d => exact J.pure ho
  | none =>
    have : s1 = s := ho
    subst this
    show J _ (Parser.position >>= _) _ _
    jp
    refine J.throw ⟨hp.start.kept, ?_, fun a h => (nomatch h)⟩
    have hcur := hp.cur
    have hle := hp.place.le
    cases hc : s1.cur with
    | error e =>
      refine .inl ?_
      show posOf s1 ≤ s1.pos ∧ s1.pos ≤ byteLen src
      have : posOf s1 = s1.pos := by rw [posOf, hc]
      omega
    | ok u =>
      rw [hc] at hcur
      obtain ⟨p1, hs1, -⟩ := hcur
      have h1 := hs1.start_ge hp.place
      have h2 := hs1.spanWF hp.place
      refine .inr ⟨hm, rfl, ⟨hs, t, u, p1.rest, p1.fol, ?_, hk, ?_⟩, ?_, ?_⟩
      · have := (hch.trans (.cons hs1 .nil)).fromStart
        simpa using this
      · show (⟨posOf s1, s1.pos⟩ : Span) = _
        rw [hsp, posOf, hc]
      · show s1.pos ≤ posOf s1
        have : posOf s1 = u.span.start := by rw [posOf, hc]
        omega
      · show posOf s1 ≤ byteLen src
        have : posOf s1 = u.span.start := by rw [posOf, hc]
        have := h2.1
        have := h2.2
        omega

theorem exportDeclaration_P (hm : styp = .module) : Parses src styp n 0 x (Parser.exportDeclaration r ctx) ctx .decl := by
  intro s p hp
  unfold Parser.exportDeclaration
  jp
  jb J.consumeAssert hp.start with t s1 p1 - ht - h1
  refine J.bind (J.any fun pf => ?_)
  refine J.bind (J.curVal ?_)
  have decl : J ⟨src, styp, n, 0, x, s, p⟩ (Parser.declarationExport r ctx (posOf s)) s1
      (Post ⟨src, styp, n, 0, x, s, p⟩ fun d ts _ => G src styp ctx (.decl d) ts) := by
    unfold Parser.declarationExport
    obtain ⟨rd, hrd⟩ := hp.reads
    refine J.bind (J.callPost (requiredDeclaration_D hr ctx none hm s1 p1 h1.at1 (hs := rd) (t := t) (by simpa using hrd.trans h1.chain)
      (h1.pos_last (hs := [])) (.inl ht) (h1.pos_le (hs := []))) h1 (by jc) ?_)
    rintro d ts s2 p2 hd hts - h2
    jp
    exact J.pure ⟨_, _, by simp, h2, (D.exportDecl hm ht hd (by simpa using h2.spans (by simp))).cast (by simp)⟩
  refine J.ite (fun _ => ?_) (fun _ => ?_)
  · unfold Parser.namedExport
    jd (namedExports_D hr none) at h1 with es ts s2 p2 hes hts - h2
    refine J.bind (J.maybeConsume h2 ?_ ?_)
    · intro f s3 p3 _ hf _ h3
      refine J.bind (J.thenTry (fun _ => ?_) (fun hb => (nomatch hb)))
      refine J.moduleSpecifier h3 hm (.inl ⟨_, _, rfl, hf⟩) ?_
      intro u l s4 p4 _ hu h4
      refine J.bind (J.consumeOptionalSemicolon h4 (by simp) ?_)
      intro us s5 p5 hus h5
      jp
      exact J.pure ⟨_, _, by simp, h5, (D.exportFrom hm ht hes hf hu (by simpa using hus) (by simpa using h5.spans (by simp))).cast (by simp)⟩
    · intro _
      refine J.bind (J.thenTry (fun hb => (nomatch hb)) (fun _ => ?_))
      refine J.bind (J.consumeOptionalSemicolon h2 (by simp) ?_)
      intro us s5 p5 hus h5
      jp
      exact J.pure ⟨_, _, by simp, h5, (D.exportNamed hm ht hes (by simpa using hus) (by simpa using h5.spans (by simp))).cast (by simp)⟩
  refine J.ite (fun _ => ?_) (fun _ => ?_)
  · unfold Parser.namespaceExport
    jb J.consumeAssert h1 with st s2 p2 - hst - h2
    refine J.bind (J.maybeConsume h2 ?_ ?_)
    · intro a s3 p3 _ ha _ h3
      refine J.bind (J.thenTry (fun _ => ?_) (fun hb => (nomatch hb)))
      refine J.parseIdentName h3 ?_
      intro nm id s4 p4 _ hid _ h4
      jb J.consumeAssert h4 with f s5 p5 - hf - h5
      refine J.bind (J.moduleSpecifier h5 hm (.inl ⟨_, _, rfl, hf⟩) ?_)
      intro u l s6 p6 _ hu h6
      refine J.bind (J.consumeOptionalSemicolon h6 (by simp) ?_)
      intro us s7 p7 hus h7
      jp
      exact J.pure ⟨_, _, by simp, h7, (D.exportAllAs hm ht hst ha hid hf hu (by simpa using hus) (by simpa using h7.spans (by simp))).cast (by simp)⟩
    · intro _
      refine J.bind (J.thenTry (fun hb => (nomatch hb)) (fun _ => ?_))
      jb J.consumeAssert h2 with f s5 p5 - hf - h5
      refine J.bind (J.moduleSpecifier h5 hm (.inl ⟨_, _, rfl, hf⟩) ?_)
      intro u l s6 p6 _ hu h6
      refine J.bind (J.consumeOptionalSemicolon h6 (by simp) ?_)
      intro us s7 p7 hus h7
      jp
      exact J.pure ⟨_, _, by simp, h7, (D.exportAll hm ht hst hf hu (by simpa using hus) (by simpa using h7.spans (by simp))).cast (by simp)⟩
  refine J.ite (fun hv => ?_) (fun _ => ?_)
  · unfold Parser.variableStatementExport
    obtain ⟨u, hu, hvu⟩ := valOf_some hv
    refine J.bind (J.callPost (variableStmt_P hr ctx none .var s1 p1 h1.at1 hu hvu rfl) h1 (by jc) ?_)
    rintro st ts s2 p2 ⟨⟨v, rfl⟩, h⟩ hts - h2
    jp
    exact J.pure ⟨_, _, by simp, h2, (D.exportVar hm ht h (by simpa using h2.spans (by simp))).cast (by simp)⟩
  refine J.ite (fun _ => decl) (fun _ => ?_)
  refine J.ite (fun _ => decl) (fun _ => ?_)
  refine J.ite (fun _ => ?_) (fun _ => ?_)
  · unfold Parser.defaultExport
    jb J.consumeAssert h1 with y s2 p2 - hy - h2
    jb J.current h2 with u hu
    refine J.bind (J.any fun pf' => ?_)
    refine J.ite (fun _ => ?_) (fun _ => ?_)
    · unfold Parser.declarationDefaultExport
      obtain ⟨rd, hrd⟩ := hp.reads
      refine J.bind (J.callPost (requiredDeclaration_D hr { ctx with default := true } none hm s2 p2 h2.at1 (hs := rd ++ [t]) (t := y)
        (by simpa using hrd.trans h2.chain) h2.pos_last (.inr ⟨hy, rd, t, rfl, ht⟩) h2.pos_le) h2 (by jc) ?_)
      rintro d ts s3 p3 hd hts - h3
      jp
      exact J.pure ⟨_, _, by simp, h3, (D.exportDefaultDecl hm ht hy hd (by simpa using h3.spans (by simp))).cast (by simp)⟩
    · jd (hr.assignExpr { ctx with in_ := true }) at h2 with e ts s3 p3 he hts - h3
      refine J.bind (J.consumeOptionalSemicolon h3 (by simp) ?_)
      intro us s4 p4 hus h4
      jp
      exact J.pure ⟨_, _, by simp, h4, (D.exportDefaultExpr hm ht hy he (by simpa using hus) (by simpa using h4.spans (by simp))).cast (by simp)⟩
  · exact J.consumeThrow h1 (fun t => ⟨rfl, fun _ => PErrKind.noConfusion⟩)

theorem declaration_D (s : PState) (p : Cursor) (hp : At src styp s p) :
    J ⟨src, styp, n, 0, x, s, p⟩ (Parser.declaration r ctx) s fun a s' => match a with
      | none => s' = s
      | some d => Post ⟨src, styp, n, 0, x, s, p⟩ (fun d ts _ => G src styp ctx (.decl d) ts) d s' := by
  unfold Parser.declaration Parser.peekMatchesLexicalBinding
  jb J.current hp.start with t ht
  refine J.bind (J.any fun pf => ?_)
  refine J.bind (J.bind (J.any fun b1 => J.bind (J.any fun b2 => J.bind (J.any fun b3 => J.pure ?_))))
  have up : ∀ {m : P Stmt}, Parses src styp n 0 x m ctx .decl → J ⟨src, styp, n, 0, x, s, p⟩ (m >>= fun st => Pure.pure (some st)) s
      (fun a s' => match a with
      | none => s' = s
      | some d => Post ⟨src, styp, n, 0, x, s, p⟩ (fun d ts _ => G src styp ctx (.decl d) ts) d s') := by
    intro m hm
    exact J.bind ((hm s p hp).mono fun a s' h => J.pure h)
  refine J.ite (fun _ => up (functionDeclaration_P hr ctx x)) (fun _ => ?_)
  refine J.ite (fun _ => up (asyncFunctionDeclaration_P hr ctx x)) (fun _ => ?_)
  refine J.ite (fun _ => up (classDecl_P hr ctx x)) (fun _ => ?_)
  have hsty : styp ≠ .script → styp = .module := by cases styp <;> simp
  have mod : ∀ {msg : Str} {m : P Stmt}, (styp = .module → Parses src styp n 0 x m ctx .decl) →
      J ⟨src, styp, n, 0, x, s, p⟩ (do
        if ← Parser.isScript then M.throw (PErr.syn msg t.span)
        else do
          let st ← m
          Pure.pure (some st)) s (fun a s' => match a with
      | none => s' = s
      | some d => Post ⟨src, styp, n, 0, x, s, p⟩ (fun d ts _ => G src styp ctx (.decl d) ts) d s') := by
    intro msg m hm
    refine J.bind (J.gets ?_)
    refine J.ite (fun _ => ?_) (fun h => ?_)
    · exact J.throw (ErrPost.of hp.start.kept (hp.curWF ht) (fun _ => PErrKind.noConfusion))
    · exact up (hm (hsty (by rw [← hp.styp]; simpa using h)))
  refine J.ite (fun _ => mod (importDeclaration_P hr ctx x)) (fun _ => ?_)
  refine J.ite (fun _ => mod (exportDeclaration_P hr ctx x)) (fun _ => ?_)
  refine J.ite (fun hv => ?_) (fun _ => ?_)
  · refine J.bind ((variableStmt_P hr ctx x .const s p hp ht hv rfl).mono ?_)
    rintro st s1 ⟨ts, p1, hts, h1, -, h⟩
    exact J.pure ⟨_, _, hts, h1, h⟩
  refine J.ite (fun hv => ?_) (fun _ => ?_)
  · refine J.bind ((variableStmt_P hr ctx x .let_ s p hp ht hv.1 rfl).mono ?_)
    rintro st s1 ⟨ts, p1, hts, h1, -, h⟩
    exact J.pure ⟨_, _, hts, h1, h⟩
  · exact J.pure rfl

theorem declOrStmt_P : Parses src styp n 5 none (Parser.declOrStmt r ctx) ctx .item := by
  intro s p hp
  unfold Parser.declOrStmt
  refine J.bind (J.call (K := 1) (x := none) (c' := true) (Q := fun a ts s' => match a with
      | none => s' = s ∧ ts = []
      | some d => ts ≠ [] ∧ G src styp ctx (.decl d) ts) hp.start (m := r.declaration ctx) ?_ (by jc) ?_)
  · refine (hr.declaration ctx none s p hp).mono ?_
    intro o s1 ho
    cases o with
    | some d =>
      obtain ⟨ts, p1, h1, h2, h3⟩ := ho
      exact ⟨ts, p1, h2, h1, h3⟩
    | none =>
      have : s1 = s := ho
      subst this
      exact ⟨[], p, hp.start, rfl, rfl⟩
  · intro o ts s1 p1 ho _ h1
    cases o with
    | some d =>
      obtain ⟨hne, hd⟩ := ho
      simp only [Bool.true_or, Bool.and_self, List.nil_append] at h1
      exact J.pure ⟨_, _, hne, h1, .itemDecl hd⟩
    | none =>
      obtain ⟨rfl, rfl⟩ := ho
      je (hr.stmt ctx) at hp.start with st ts s1 p1 hst hts - h1
      exact ⟨_, _, hts, h1, .itemStmt hst⟩

end
end Fajt
