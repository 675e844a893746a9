import Verif.Proofs.ParseBinding
import Verif.Proofs.GrammarMono
/-!
# Functions, methods
-/
namespace Fajt
open Spec
set_option linter.unusedSectionVars false
variable [UnicodeID] [Blame]

theorem directiveOf_some {st : Stmt} {d : LitString} (h : Parser.directiveOf st = some d) : IsDirective st d := by
  unfold Parser.directiveOf at h
  split at h
  · cases h; exact .intro
  · cases h

theorem directiveOf_none {st : Stmt} (h : Parser.directiveOf st = none) (d : LitString) : ¬ IsDirective st d := by
  rintro ⟨⟩
  cases h

/-- A chain of tokens is a part of the source. -/
theorem Chain.sourcePart {p p' : Cursor} {ts : List Token} (h : Chain p ts p') {pre : Str} (hb : Behind pre p) :
    SourcePart pre p.fol p.rest ts := by
  induction h generalizing pre with
  | nil => exact .nil
  | @cons p p1 p2 t ts hs _ ih =>
    obtain ⟨html, tr, c, h1, h2, ⟨⟨w, h3, h4, h5⟩, h6, -⟩, h7⟩ := hs
    have hb1 := hb.eats h1
    have hb2 := hb1.eats h3
    have ih' := ih hb2
    rw [h1.rest, h3.rest]
    have hh : (w ++ p1.rest).head? = w.head? := by cases w with
      | nil => exact absurd rfl h4
      | cons a w => rfl
    rw [h3.rest] at h2 h7
    refine .cons h2 ?_ h4 h5 (by rw [h6, hb1.pos, hb2.pos]) ih'
    rwa [hh] at h7

/-- The parser stands at a string only where another statement was read. -/
def Stopped (src : Str) (styp : SourceType) (s : PState) : Prop :=
  ∀ t l, s.cur = .ok t → t.value = .lit (.string l) → OtherStatement src styp t.span.start

theorem Stopped.behind {src : Str} {styp : SourceType} {s : PState} (h : Stopped src styp s) {ts : List Token}
    (hb : ∀ t, ts.head? = some t → ∃ t0, s.cur = .ok t0 ∧ Reread t0 t) : BehindDirectives (sourceEnv src styp) ts := by
  intro t ht l hl
  obtain ⟨t0, h1, h2⟩ := hb t ht
  have := h2.same' (by rw [hl]; rfl)
  subst this
  exact h _ _ h1 hl

theorem other_of {F : Frame} {c : Bool} {hs ts : List Token} {s s' : PState} {p' : Cursor} {ctx : Ctx} {st : Stmt} {t : Token} {l : LitString}
    (h : Hist F c (hs ++ ts) s' p') (ht : s.cur = .ok t) (hl : t.value = .lit (.string l))
    (hb : ∀ u, ts.head? = some u → ∃ t0, s.cur = .ok t0 ∧ Reread t0 u) (hne : ts ≠ [])
    (hg : G F.src F.styp ctx (.item st) ts) (hd : Parser.directiveOf st = none) : OtherStatement F.src F.styp t.span.start := by
  cases ts with
  | nil => exact absurd rfl hne
  | cons u us =>
    obtain ⟨t0, h1, h2⟩ := hb u rfl
    rw [ht] at h1; cases h1
    have := h2.same (by rw [hl]; rfl)
    subst this
    obtain ⟨p, hc1, hc⟩ := h.chain.split
    obtain ⟨pre, e, hb⟩ := hc1.place h.at0.place
    exact ⟨pre, p.rest, p.fol, _, l, us, ctx, st, e, hc.sourcePart hb, hl, rfl, D.mono (E := sourceEnv F.src F.styp) (E' := freeEnv F.src F.styp) (fun _ h => h) (fun h => h) (fun _ _ => trivial) hg,
      directiveOf_none hd⟩

theorem directivePrologue_J' {F : Frame} {r : Rec} (hr : RecOK F.src F.styp F.n r) {ctx : Ctx} {s : PState} {pre : List Token}
    {p : Cursor} (h : Hist F true pre s p) (hne : CallOK F pre 6 none) :
    J F (Parser.directivePrologue r ctx) s fun ds s' => ∃ ps p' c, Hist F c (pre ++ toks ps) s' p' ∧
      Directives (trees ps) ds ∧ (∀ p ∈ ps, G F.src F.styp ctx (.item p.1) p.2) ∧
      (c = true ∧ (toks ps = [] → s' = s) ∨ ∀ e, s'.cur = .error e → e.kind ≠ .endOfStream) ∧ Stopped F.src F.styp s' := by
  unfold Parser.directivePrologue
  refine J.loop (fun acc hs s1 => (hs = pre → s1 = s) ∧ ∃ ps, hs = pre ++ toks ps ∧ Directives (trees ps) acc ∧
    ∀ p ∈ ps, G F.src F.styp ctx (.item p.1) p.2) h ⟨fun _ => rfl, [], by simp [toks], .nil, by simp⟩ hr.fuel ?_
  rintro acc hs s1 p1 h1 ⟨e0, ps, e1, e2, e3⟩
  have hne' : CallOK F hs 6 none := by
    rcases hne with ⟨a, b, c⟩ | ⟨a, b⟩
    · by_cases he : hs = []
      · exact .inl ⟨he, b, c⟩
      · exact .inr ⟨he, by omega⟩
    · exact .inr ⟨by simp [e1, a], b⟩
  refine J.bind (J.curMatchesString' ?_ ?_)
  · intro t l ht hl
    refine J.ite (fun _ => ?_) (fun h => absurd rfl h)
    jb J.current h1 with t' ht'
    rw [ht] at ht'; cases ht'
    refine J.bind (Does.call (hr.declOrStmt ctx) h1 hne' ?_)
    rintro st ts s2 p2 hst hts hbg h2
    split
    · next d hd =>
      refine J.againSnoc h2 hts ⟨fun h => ?_, ps ++ [(st, ts)], by rw [e1, toks_snoc]; simp, ?_, ?_⟩
      · rw [e1] at h
        simp at h
        exact absurd h.2 hts
      · rw [trees_snoc]; exact .snoc e2 (directiveOf_some hd)
      · exact all_snoc (P := fun a ts => G F.src F.styp ctx (.item a) ts) e3 hst
    · next hd =>
      refine J.bind (J.rewindTo' h1 ht h2.kept ?_)
      intro s3 h3 h5 h4
      refine J.done ⟨ps, _, _, e1 ▸ h3, e2, e3, .inr h4, fun u k hu hk => ?_⟩
      have := (h5 u hu).same' (by rw [hk]; rfl)
      subst this
      exact other_of h2 ht hk hbg hts hst hd
  · intro hno
    refine J.ite (fun h => (nomatch h)) (fun _ => J.done ⟨ps, _, _, e1 ▸ h1, e2, e3, .inl ⟨rfl, fun h => e0 (by rw [e1, h]; simp)⟩, fun t l ht hl => absurd hl (hno t l ht)⟩)

theorem directivePrologue_J {F : Frame} {r : Rec} (hr : RecOK F.src F.styp F.n r) {ctx : Ctx} {s : PState} {pre : List Token}
    {p : Cursor} (h : Hist F true pre s p) (hne : CallOK F pre 6 none) :
    J F (Parser.directivePrologue r ctx) s fun ds s' => ∃ ps p', Hist F false (pre ++ toks ps) s' p' ∧
      Directives (trees ps) ds ∧ (∀ p ∈ ps, G F.src F.styp ctx (.item p.1) p.2) ∧ Stopped F.src F.styp s' := by
  refine J.mono (directivePrologue_J' hr h hne) ?_
  rintro ds s' ⟨ps, p', c, h1, h2, h3, -, h4⟩
  exact ⟨ps, p', ⟨h1.at0, h1.at1, h1.chain, h1.first, fun hc => by cases hc⟩, h2, h3, h4⟩

section
variable {src : Str} {styp : SourceType} {n : Nat} {r : Rec} (hr : RecOK src styp n r) (ctx : Ctx) (x : Option Ctx)
include hr

theorem functionBodyStmtList_D : Does src styp n 6 none (Parser.functionBodyStmtList r ctx) fun ss ts _ =>
    ∃ qs rb, ts = toks qs ++ [rb] ∧ ss = trees qs ∧ (∀ q ∈ qs, G src styp ctx (.item q.1) q.2) ∧ rb.value = .punct p!"}" := by
  intro s p hp
  unfold Parser.functionBodyStmtList
  refine J.loop (ManyInv (fun a ts => G src styp ctx (.item a) ts) []) hp.start ManyInv.nil hr.fuel ?_
  rintro acc hs s1 p1 h1 hi
  refine J.ifMaybe h1 ?_ ?_
  · intro rb s2 p2 _ hrb _ h2
    obtain ⟨ps, e1, e2, e3⟩ := hi
    exact J.done ⟨_, _, by simp, h2, ps, rb, by rw [e1]; simp, e2, e3, hrb⟩
  · intro _
    refine J.bind (Does.call (hr.declOrStmt ctx) h1 ?_ ?_)
    · by_cases he : hs = []
      · exact .inl ⟨he, by simp, .inl rfl⟩
      · exact .inr ⟨he, by simp⟩
    rintro st ts s2 p2 hst hts - h2
    exact J.againSnoc h2 hts (hi.snoc hst)

theorem functionBody_P : Parses src styp n 0 x (Parser.functionBody r ctx) ctx .body := by
  intro s p hp
  unfold Parser.functionBody
  jp
  jb J.consumeAssert hp.start with lb s1 p1 - hlb - h1
  refine J.bind (J.mono (directivePrologue_J hr h1 (by jc)) ?_)
  rintro ds s2 ⟨ps, p2, h2, hds, hps, hst⟩
  jd (functionBodyStmtList_D hr { ctx with strict := ctx.strict || containsStrict ds, return_ := true }) at h2
    with ss ts s3 p3 ⟨qs, rb, e1, e2, e3, hrb⟩ - hbg h3
  jp
  subst e1 e2
  have hbd := hst.behind (ts := toks qs) (fun t ht => hbg t (by cases hq : toks qs with
    | nil => rw [hq] at ht; cases ht
    | cons a as => rw [hq] at ht; exact ht))
  exact J.pure ⟨_, _, by simp, h3, (D.body hlb hps hds e3 hbd hrb (by simpa using h3.spans (by simp))).cast (by simp)⟩

theorem conciseBody_P : Parses src styp n 4 none (Parser.conciseBody r ctx) ctx .arrowBody := by
  intro s p hp
  unfold Parser.conciseBody
  refine J.ifCur (fun hv => ?_) (fun hv => ?_)
  · jd (functionBody_P hr ctx none) at hp.start with b ts s1 p1 hb hts - h1
    exact J.pure ⟨_, _, hts, h1, .arrowBlock hb⟩
  · jd (hr.assignExpr ctx) at hp.start with e ts s1 p1 he hts hbg h1
    refine J.pure ⟨_, _, hts, h1, .arrowExpr he ?_⟩
    intro t ht hv'
    obtain ⟨t0, h0, h2⟩ := hbg t ht
    have := h2.same' (by rw [hv']; rfl)
    subst this
    exact hv (by rw [valOf_ok h0, hv'])

theorem arrowFunctionParameters_D : Does src styp n 0 x (Parser.arrowFunctionParameters r ctx) fun a ts _ =>
    G src styp ctx (.arrowParams a.1 a.2) ts := by
  intro s p hp
  unfold Parser.arrowFunctionParameters
  refine J.bind (J.isIdent ?_)
  refine J.ite (fun _ => ?_) (fun _ => ?_)
  · unfold Parser.arrowIdentifierArgument
    refine J.bind ?_
    jp
    jb J.parseIdent hp.start with t id s1 p1 - hid - h1
    jp
    exact J.pure (J.pure ⟨_, _, by simp, h1, .arrowIdent hid (h1.spans (by simp))⟩)
  · jd (formalParameters_P hr ctx x) at hp.start with ps ts s1 p1 hps hts - h1
    exact J.pure ⟨_, _, hts, h1, .arrowList hps⟩

/-- What follows `async`, or a whole arrow function. -/
theorem arrowFunction_D (async : Bool) {F : Frame} (hF : F.src = src ∧ F.styp = styp ∧ F.n = n) {s : PState}
    {pre : List Token} {p : Cursor}
    (h : Hist F true pre s p) (hpre : if async then ∃ a, a.value = .keyword k!"async" ∧ pre = [a] else pre = []) :
    J F (Parser.arrowFunction r ctx (posOf F.s0) async) s fun e s' => ∃ ts p', ts ≠ [] ∧ Hist F true ts s' p' ∧
      G F.src F.styp ctx (.expr 1 e) ts := by
  obtain ⟨rfl, rfl, rfl⟩ := hF
  unfold Parser.arrowFunction
  refine J.bind (Does.call (arrowFunctionParameters_D hr ctx F.x) h ?_ ?_)
  · by_cases he : pre = []
    · exact .inl ⟨he, by simp, .inr rfl⟩
    · exact .inr ⟨he, by simp⟩
  rintro ⟨bp, ps⟩ ts s1 p1 hps hts - h1
  dsimp only at hps ⊢
  jb J.consumeAssert h1 with t s2 p2 - ht - h2
  refine J.ite (fun hf => ?_) (fun hf => ?_)
  · exact ErrPost.of h2.kept (h2.tokWF (by simp)) (fun _ => PErrKind.noConfusion)
  · jd (conciseBody_P hr { ctx.reset with in_ := ctx.in_, await := async }) at h2 with b us s3 p3 hb hus - h3
    jp
    have hb' : G F.src F.styp (insideArrow ctx async) (.arrowBody b) us := hb
    cases async with
    | true =>
      obtain ⟨a, ha, rfl⟩ := hpre
      exact J.pure ⟨_, _, by simp, h3, (D.asyncArrow ha hps ht (by simpa using hf) hb' (by simpa using h3.spans (by simp))).cast (by simp)⟩
    | false =>
      subst hpre
      exact J.pure ⟨_, _, by simp, h3, (D.arrow hps ht (by simpa using hf) hb' (by simpa using h3.spans (by simp))).cast (by simp)⟩

theorem arrowFunctionExpr_P : Parses src styp n 0 x (Parser.arrowFunctionExpr r ctx) ctx (.expr 1) := by
  intro s p hp
  unfold Parser.arrowFunctionExpr
  jp
  exact arrowFunction_D hr ctx false (F := ⟨src, styp, n, 0, x, s, p⟩) ⟨rfl, rfl, rfl⟩ hp.start rfl

theorem asyncArrowFunctionExpr_P : Parses src styp n 0 x (Parser.asyncArrowFunctionExpr r ctx) ctx (.expr 1) := by
  intro s p hp
  unfold Parser.asyncArrowFunctionExpr
  jp
  jb J.consumeAssert hp.start with a s1 p1 - ha - h1
  exact arrowFunction_D hr ctx true (F := ⟨src, styp, n, 0, x, s, p⟩) ⟨rfl, rfl, rfl⟩ h1 ⟨a, ha, rfl⟩

/-! ## Function expressions and declarations -/

/-- An optional `*`. -/
theorem J.star {F : Frame} {hs : List Token} {p : Cursor} {c : Bool} {s : PState} (h : Hist F c hs s p)
    {β : Type} {f : Bool → P β} {Q : β → PState → Prop} (hc : c = true)
    (k : ∀ g star s' p', (if g = true then ∃ s : Token, s.value = .punct p!"*" ∧ star = [s] else star = []) → (star = [] → s' = s) →
      (∀ u ∈ star.head?, s.cur = .ok u) → Hist F true (hs ++ star) s' p' → J F (f g) s' Q) :
    J F (Parser.maybeConsume (.punct p!"*") >>= f) s Q := by
  subst hc
  refine J.bind (J.maybeConsume h ?_ ?_)
  · intro t s' p' ht hv _ h'
    refine k true [t] s' p' ⟨t, hv, rfl⟩ (fun h => nomatch h) ?_ h'
    intro u hu
    cases hu; exact ht
  · intro _
    refine k false [] s p rfl (fun _ => rfl) ?_ (by simpa using h)
    intro u hu; cases hu

/-- An optional name. -/
theorem J.identOpt {F : Frame} {hs : List Token} {p : Cursor} {s : PState} {ctx : Ctx} (h : Hist F true hs s p)
    {β : Type} {f : Option Ident → P β} {Q : β → PState → Prop}
    (k : ∀ id nm s' p', (match id with | some id => ∃ t, IdentTok ctx t id ∧ nm = [t] | none => nm = []) →
      Hist F true (hs ++ nm) s' p' → J F (f id) s' Q) :
    J F (Parser.isIdent ctx >>= fun b => Parser.thenTry b (Parser.parseIdent ctx) >>= f) s Q := by
  refine J.bind (J.isIdent ?_)
  refine J.bind (J.thenTry (fun _ => ?_) (fun _ => ?_))
  · refine J.parseIdent h ?_
    intro t id s' p' _ hid _ h'
    exact k (some id) [t] s' p' ⟨t, hid, rfl⟩ h'
  · exact k none [] s p rfl (by simpa using h)

theorem functionExpr_P : Parses src styp n 0 x (Parser.functionExpr r ctx) ctx (.expr 21) := by
  intro s p hp
  unfold Parser.functionExpr Parser.functionExprContent
  jp
  jb J.consumeAssert hp.start with f s1 p1 - hf - h1
  refine J.star hr h1 rfl ?_
  intro g star s2 p2 hstar _ _ h2
  refine J.identOpt hr h2 ?_
  intro id nm s3 p3 hid h3
  jd (formalParameters_P hr _ none) at h3 with ps ts s4 p4 hps - - h4
  jd (functionBody_P hr _ none) at h4 with b us s5 p5 hb - - h5
  jp
  exact J.pure ⟨_, _, by simp, h5, (D.function hf hstar hid hps hb (by simpa using h5.spans (by simp))).cast (by simp)⟩

theorem asyncFunctionExpr_D : ∀ s p, At src styp s p → (∀ t, s.nxt = .ok t → t.fol = false) →
    J ⟨src, styp, n, 0, x, s, p⟩ (Parser.asyncFunctionExpr r ctx) s
      (Post ⟨src, styp, n, 0, x, s, p⟩ fun e ts _ => G src styp ctx (.expr 21 e) ts) := by
  intro s p hp hfol
  unfold Parser.asyncFunctionExpr Parser.functionExprContent
  jp
  jb J.consumeAssert hp.start with a s0 p0 - ha hn h0
  jb J.consumeAssert h0 with f s1 p1 hf0 hf - h1
  refine J.star hr h1 rfl ?_
  intro g star s2 p2 hstar _ _ h2
  refine J.identOpt hr h2 ?_
  intro id nm s3 p3 hid h3
  jd (formalParameters_P hr _ none) at h3 with ps ts s4 p4 hps - - h4
  jd (functionBody_P hr _ none) at h4 with b us s5 p5 hb - - h5
  jp
  exact J.pure ⟨_, _, by simp, h5, (D.asyncFunction ha hf (hfol f (hn ▸ hf0)) hstar hid hps hb (by simpa using h5.spans (by simp))).cast (by simp)⟩

/-- The name of a declaration. -/
theorem J.functionIdentifier {F : Frame} {hs : List Token} {p : Cursor} {s : PState} {ctx : Ctx} (h : Hist F true hs s p)
    {Q : Ident → PState → Prop}
    (k : ∀ id nm start s' p', DeclName ctx start id nm → (∀ ts, Begins s' ts → ∀ t ∈ ts.head?, start = t.span.start) →
      Hist F true (hs ++ nm) s' p' → Q id s') :
    J F (Parser.functionIdentifier ctx) s Q := by
  unfold Parser.functionIdentifier
  have ident : J F (Parser.parseIdent ctx) s Q := by
    refine J.parseIdent h ?_
    intro t id s' p' _ hid _ h'
    refine k id [t] (posOf s') s' p' (.ident hid) ?_ h'
    intro ts hts t' ht'
    obtain ⟨t0, h0, h1⟩ := hts t' ht'
    rw [posOf, h0]; exact h1.start.symm
  refine J.bind (J.curMatches (fun hv => ?_) (fun hv => ?_))
  · refine J.ite (fun hd => ?_) (fun _ => ident)
    refine J.bind ?_
    obtain ⟨t, ht, hv'⟩ := valOf_some hv
    have : Parser.currentUnwrapStart s = .ok t.span.start s := by unfold Parser.currentUnwrapStart; rw [ht]
    unfold J; rw [this]
    refine k _ [] t.span.start s p (.none (by simpa using hd)) ?_ (by simpa using h)
    intro ts hts t' ht'
    exact hts.start ht t' ht'
  · refine J.ite (fun hd => ?_) (fun _ => ident)
    simp at hd

theorem functionDeclaration_P : Parses src styp n 0 x (Parser.functionDeclaration r ctx) ctx .decl := by
  intro s p hp
  unfold Parser.functionDeclaration Parser.functionDeclContent
  jp
  jb J.consumeAssert hp.start with f s1 p1 - hf - h1
  refine J.star hr h1 rfl ?_
  intro g star s2 p2 hstar _ _ h2
  refine J.bind (J.functionIdentifier hr h2 ?_)
  intro id nm start s3 p3 hid hst h3
  jd (formalParameters_P hr _ none) at h3 with ps ts s4 p4 hps - hbg h4
  jd (functionBody_P hr _ none) at h4 with b us s5 p5 hb - - h5
  jp
  exact J.pure ⟨_, _, by simp, h5, (D.functionDecl hf hstar hid (hst _ hbg) hps hb (by simpa using h5.spans (by simp))).cast (by simp)⟩

theorem asyncFunctionDeclaration_P : Parses src styp n 0 x (Parser.asyncFunctionDeclaration r ctx) ctx .decl := by
  intro s p hp
  unfold Parser.asyncFunctionDeclaration Parser.functionDeclContent
  jp
  jb J.consumeAssert hp.start with a s0 p0 - ha hn h0
  jb J.consumeAssert h0 with f s1 p1 hf0 hf - h1
  refine J.star hr h1 rfl ?_
  intro g star s2 p2 hstar _ _ h2
  refine J.bind (J.functionIdentifier hr h2 ?_)
  intro id nm start s3 p3 hid hst h3
  jd (formalParameters_P hr _ none) at h3 with ps ts s4 p4 hps - hbg h4
  jd (functionBody_P hr _ none) at h4 with b us s5 p5 hb - - h5
  jp
  exact J.pure ⟨_, _, by simp, h5, (D.asyncFunctionDecl ha hf hstar hid (hst _ hbg) hps hb (by simpa using h5.spans (by simp))).cast (by simp)⟩

/-! ## Methods -/

/-- Parameters and body of a method. -/
theorem method_J {F : Frame} (hF : F.src = src ∧ F.styp = styp ∧ F.n = n) {s : PState} {hs : List Token} {p : Cursor}
    {st : Bool} {name : PropName} {kind : MethodKind} (h : Hist F true hs s p) (hne : hs ≠ [])
    {Q : MethodDef → PState → Prop}
    (k : ∀ ps bsp ds ss ts us s' p', G src styp { ctx with yield := false } (.params ps) ts →
      G src styp ctx (.body (.mk bsp ds ss)) us → ParamsOK kind ps ds → Hist F true (hs ++ ts ++ us) s' p' →
      Spans ⟨posOf F.s0, s'.pos⟩ (hs ++ ts ++ us) →
      Q (.mk ⟨posOf F.s0, s'.pos⟩ name kind ps (.mk bsp ds ss) ctx.yield ctx.await st) s') :
    J F (Parser.method r ctx (posOf F.s0) st name kind) s Q := by
  obtain ⟨rfl, rfl, rfl⟩ := hF
  unfold Parser.method
  jd (formalParameters_P hr { ctx with yield := false } none) at h with ps ts s1 p1 hps - - h1
  have hne1 : hs ++ ts ≠ [] := by simp [hne]
  jd (functionBody_P hr ctx none) at h1 with b us s2 p2 hb - - h2
  refine J.bind (J.ofExcept ?_ ?_)
  · intro _ hok
    jp
    obtain ⟨bsp, ds, ss⟩ := b
    exact k ps bsp ds ss ts us s2 p2 hps hb (methodEarlyErrors_ok hok) h2 (h2.spans (by simp [hne]))
  · intro e he
    have := methodEarlyErrors_err he
    exact ErrPost.of h2.kept (by rw [this.1]; exact h1.spansWF (hps.nodeSpan _ rfl)) this.2

theorem generatorMethod_D (st : Bool) : Does src styp n 0 x (Parser.generatorMethod r ctx st) fun m ts _ =>
    G src styp ctx (.method m) ts ∧ ∃ sp nm k ps b g a, m = .mk sp nm k ps b g a st := by
  intro s p hp
  unfold Parser.generatorMethod
  jp
  jb J.consumeAssert hp.start with t s1 p1 - ht - h1
  jd (propertyName_P hr ctx none) at h1 with nm ns s2 p2 hnm - - h2
  refine method_J hr _ (F := ⟨src, styp, n, 0, x, s, p⟩) ⟨rfl, rfl, rfl⟩ h2 (by simp) ?_
  intro ps bsp ds ss ts us s3 p3 hps hb hok h3 hsp
  exact ⟨_, _, by simp, h3, (D.generatorMethod ht hnm hps hb rfl hok (by simpa using hsp)).cast (by simp), _, _, _, _, _, _, _, rfl⟩

theorem getterOrSetter_D (st : Bool) (kind : MethodKind) : ∀ s p, At src styp s p →
    (∀ t, s.cur = .ok t → kind = .get ∧ t.value = .keyword k!"get" ∨ kind = .set ∧ t.value = .keyword k!"set") →
    J ⟨src, styp, n, 0, x, s, p⟩ (Parser.getterOrSetter r ctx st kind) s (Post ⟨src, styp, n, 0, x, s, p⟩ fun m ts _ =>
    G src styp ctx (.method m) ts ∧ ∃ sp nm k ps b g a, m = .mk sp nm k ps b g a st) := by
  intro s p hp hk
  unfold Parser.getterOrSetter
  jp
  jb J.consume hp.start with t s1 p1 ht - h1
  jd (propertyName_P hr ctx none) at h1 with nm ns s2 p2 hnm - - h2
  refine method_J hr _ (F := ⟨src, styp, n, 0, x, s, p⟩) ⟨rfl, rfl, rfl⟩ h2 (by simp) ?_
  intro ps bsp ds ss ts us s3 p3 hps hb hok h3 hsp
  rcases hk t ht with ⟨rfl, hv⟩ | ⟨rfl, hv⟩
  · exact ⟨_, _, by simp, h3, (D.getter hv hnm hps hb rfl hok (by simpa using hsp)).cast (by simp), _, _, _, _, _, _, _, rfl⟩
  · exact ⟨_, _, by simp, h3, (D.setter hv hnm hps hb rfl hok (by simpa using hsp)).cast (by simp), _, _, _, _, _, _, _, rfl⟩

theorem asyncMethod_D (st : Bool) : ∀ s p, At src styp s p → (∀ t, s.nxt = .ok t → t.fol = false) →
    J ⟨src, styp, n, 0, x, s, p⟩ (Parser.asyncMethod r ctx st) s (Post ⟨src, styp, n, 0, x, s, p⟩ fun m ts _ =>
    G src styp ctx (.method m) ts ∧ ∃ sp nm k ps b g a, m = .mk sp nm k ps b g a st) := by
  intro s p hp hk
  unfold Parser.asyncMethod
  jp
  jb J.consumeAssert hp.start with t s1 p1 - ht hn h1
  refine J.star hr h1 rfl ?_
  intro g star s2 p2 hstar hs2 hst h2
  jd (propertyName_P hr ctx none) at h2 with nm ns s3 p3 hnm hns hbg h3
  refine method_J hr _ (F := ⟨src, styp, n, 0, x, s, p⟩) ⟨rfl, rfl, rfl⟩ h3 (by simp) ?_
  intro ps bsp ds ss ts us s4 p4 hps hb hok h4 hsp
  refine ⟨_, _, by simp, h4, (D.asyncMethod ht hstar hnm ?_ hps hb rfl hok (by simpa using hsp)).cast (by simp), _, _, _, _, _, _, _, rfl⟩
  cases star with
  | nil =>
    rw [List.nil_append]
    intro u hu
    obtain ⟨t0, h0, -⟩ := id (hbg u hu)
    have hs2' := hs2 rfl
    subst hs2'
    exact hbg.fol h0 (hk _ (hn ▸ h0)) u hu
  | cons v vs =>
    intro u hu
    cases hu
    exact hk _ (hn ▸ hst _ rfl)

theorem methodDefinitionRest_D (st : Bool) : Does src styp n 0 x (Parser.methodDefinitionRest r ctx st) fun m ts _ =>
    G src styp ctx (.method m) ts ∧ ∃ sp nm k ps b g a, m = .mk sp nm k ps b g a st := by
  intro s p hp
  unfold Parser.methodDefinitionRest
  jb J.current hp.start with t ht
  refine J.bind (J.any (fun pp => ?_))
  refine J.bind (J.followedByNewLine ?_)
  refine J.ite (fun _ => ?_) (fun _ => ?_)
  · exact generatorMethod_D hr ctx x st s p hp
  refine J.ite (fun hv => ?_) (fun _ => ?_)
  · refine getterOrSetter_D hr ctx x st .get s p hp ?_
    intro t' ht'
    rw [ht] at ht'; cases ht'
    exact .inl ⟨rfl, hv.1⟩
  refine J.ite (fun hv => ?_) (fun _ => ?_)
  · refine getterOrSetter_D hr ctx x st .set s p hp ?_
    intro t' ht'
    rw [ht] at ht'; cases ht'
    exact .inr ⟨rfl, hv.1⟩
  refine J.ite (fun hv => ?_) (fun _ => ?_)
  · refine asyncMethod_D hr ctx x st s p hp ?_
    intro t' ht'
    have := hv.2
    unfold nextFol at this
    rw [ht'] at this
    simpa using this
  jp
  jd (propertyName_P hr ctx x) at hp.start with nm ns s1 p1 hnm hns - h1
  refine method_J hr _ (F := ⟨src, styp, n, 0, x, s, p⟩) ⟨rfl, rfl, rfl⟩ h1 (by simpa using hns) ?_
  intro ps bsp ds ss ts us s2 p2 hps hb hok h2 hsp
  exact ⟨_, _, by simp [hns], h2, (D.method hnm hps hb rfl hok (by simpa using hsp)).cast (by simp), _, _, _, _, _, _, _, rfl⟩

theorem methodDefinition_P : Parses src styp n 0 x (Parser.methodDefinition r ctx) ctx .classElement := by
  intro s p hp
  unfold Parser.methodDefinition
  refine J.bind (J.any (fun pp => ?_))
  have plain : J ⟨src, styp, n, 0, x, s, p⟩ (Parser.methodDefinitionRest r ctx false) s
      (Post ⟨src, styp, n, 0, x, s, p⟩ fun m ts _ => G src styp ctx (.classElement m) ts) := by
    je (methodDefinitionRest_D hr ctx x false) at hp.start with m ts s2 p2 ⟨hm, sp, nm, k, ps, b, g, a, e⟩ hts - h2
    subst e
    exact ⟨_, _, hts, h2, .elementPlain hm⟩
  refine J.ite (fun hc => ?_) (fun _ => plain)
  refine J.bind (J.maybeConsume hp.start ?_ (fun _ => plain))
  intro t s1 p1 _ ht _ h1
  je (methodDefinitionRest_D hr ctx none true) at h1 with m ts s2 p2 ⟨hm, sp, nm, k, ps, b, g, a, e⟩ hts - h2
  subst e
  exact ⟨_, _, by simp, h2, (D.elementStatic (by simp at hc; exact hc.1) ht hm).cast (by simp)⟩

end

end Fajt
