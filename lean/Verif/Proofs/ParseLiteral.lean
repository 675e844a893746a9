import Verif.Proofs.ParseFunction
/-!
# Literals
-/
namespace Fajt
open Spec
set_option linter.unusedSectionVars false
variable [UnicodeID] [Blame]

theorem pushString_eq (ps : List TemplatePart) (s : Str) : Parser.pushString ps s = ps ++ strPart s := by
  unfold Parser.pushString strPart
  split <;> simp

section
variable {src : Str} {styp : SourceType} {n : Nat} {r : Rec} (hr : RecOK src styp n r) (ctx : Ctx) (x : Option Ctx)
include hr

theorem literal_P : Parses src styp n 0 x Parser.literal ctx (.expr 21) := by
  intro s p hp
  unfold Parser.literal Parser.literalTok
  refine J.bind ?_
  jb J.consume hp.start with t s1 p1 - - h1
  split
  · next l hl =>
    refine J.pure (J.pure ⟨_, _, by simp, h1, ?_⟩)
    cases l with
    | string => exact .string hl
    | number => exact .number hl
    | regexp => exact .regexp hl
    | template => exact .templateE (.templatePlain hl) (Spans.one _)
  · exact ErrPost.of h1.kept (h1.tokWF (by simp)) (fun _ => PErrKind.noConfusion)

theorem nonSubstitutionTemplate_D : Does src styp n 0 x Parser.nonSubstitutionTemplate fun ps ts _ =>
    ∃ t v, ts = [t] ∧ t.value = .lit (.template v) ∧ ps = [.string v] := by
  intro s p hp
  unfold Parser.nonSubstitutionTemplate
  jb J.consume hp.start with t s1 p1 - - h1
  split
  · next v hv => exact J.pure ⟨_, _, by simp, h1, t, v, by simp, hv, rfl⟩
  · exact ErrPost.of h1.kept (h1.tokWF (by simp)) (fun _ => PErrKind.noConfusion)

theorem templateLiteral_P : Parses src styp n 0 x (Parser.templateLiteral r ctx) ctx .template := by
  intro s p hp
  unfold Parser.templateLiteral
  jb J.current hp.start with t ht
  refine J.ite (fun _ => ?_) (fun _ => ?_)
  · je (nonSubstitutionTemplate_D hr x) at hp.start with ps ts s1 p1 ⟨t, v, e1, e2, e3⟩ hts - h1
    subst e1 e3
    exact ⟨_, _, by simp, h1, .templatePlain e2⟩
  · unfold Parser.templateHeadString
    refine J.bind ?_
    jb J.consume hp.start with t s1 p1 - - h1
    split
    · next v hv =>
      refine J.pure ?_
      unfold Parser.templateLiteralParts
      refine J.loop (fun acc hs s => hs ≠ [] ∧ ∀ ps us, G src styp ctx (.templateRest ps) us → G src styp ctx (.template (acc ++ ps)) (hs ++ us))
        h1 ⟨by simp, ?_⟩ hr.fuel ?_
      · intro ps us h
        rw [pushString_eq]
        exact (D.templateHead hv h).cast (by simp)
      · rintro acc hs s2 p2 h2 ⟨hne, hi⟩
        jd (expr_P hr ctx) at h2 with e ts s3 p3 he hts - h3
        unfold Parser.consumeTemplateContinuation
        refine J.bind (J.bind (J.reread h3 ?_))
        intro s4 h4
        refine J.consume h4 ?_
        intro c s5 p5 _ _ h5
        split
        · next w hw =>
          refine J.again h5 (by simp <;> omega) ⟨by simp, ?_⟩
          intro ps us h
          have := hi _ _ (.templateMiddle he hw h)
          rw [pushString_eq]
          simpa using this
        · next w hw =>
          refine J.done ⟨_, _, by simp, h5, ?_⟩
          have := hi _ _ (.templateTail he hw)
          rw [pushString_eq]
          simpa using this
        · exact ErrPost.of h5.kept (h5.tokWF (by simp)) (fun _ => PErrKind.noConfusion)
    · exact ErrPost.of h1.kept (h1.tokWF (by simp)) (fun _ => PErrKind.noConfusion)

theorem templateLiteralExpr_P : Parses src styp n 0 x (Parser.templateLiteralExpr r ctx) ctx (.expr 21) := by
  intro s p hp
  unfold Parser.templateLiteralExpr
  jp
  jd (templateLiteral_P hr ctx x) at hp.start with ps ts s1 p1 hps hts - h1
  jp
  exact J.pure ⟨_, _, hts, h1, .templateE hps (h1.spans (by simpa using hts))⟩

theorem arrayLiteral_P : Parses src styp n 0 x (Parser.arrayLiteral r ctx) ctx (.expr 21) := by
  intro s p hp
  unfold Parser.arrayLiteral
  jp
  jb J.consumeAssert hp.start with lb s1 p1 - hlb - h1
  refine J.bind (J.loop (fun b hs s => ∃ acc : List (Option (ArrayElement × List Token)), b = acc.map (fun | none => .elision | some p => p.1) ∧
    HolesInv (fun a ts => G src styp ctx (.element a) ts) (.punct p!"]") [lb] acc hs s) h1
    ⟨[], rfl, true, [], by simp, by simp, .nil, .inl rfl⟩ hr.fuel ?_)
  rintro _ hs s2 p2 h2 ⟨acc, rfl, hi⟩
  obtain ⟨_, us, e1, _⟩ := id hi
  refine J.ifMaybe h2 ?_ ?_
  · intro rb s3 p3 _ hrb _ h3
    refine J.done ?_
    jp
    obtain ⟨b, us, e1, e3, e4, -⟩ := hi
    subst e1
    exact J.pure ⟨_, _, by simp, h3, (D.array hlb e3 e4 hrb (by simpa using h3.spans (by simp))).cast (by simp)⟩
  · intro hv
    unfold Parser.arrayElement
    refine J.bind ?_
    jb J.current h2 with t ht
    refine J.ite (fun hc => ?_) (fun hc => ?_)
    · jb J.consume h2 with t' s3 p3 ht' - h3
      rw [ht] at ht'; cases ht'
      refine J.pure ?_
      exact J.againSnoc h3 (by simp) ⟨_, by simp, hi.hole hv hc⟩
    refine J.ite (fun hd => ?_) (fun hd => ?_)
    · jb J.consume h2 with t' s3 p3 ht' - h3
      rw [ht] at ht'; cases ht'
      jd (hr.assignExpr ctx) at h3 with e ts s4 p4 he hts - h4
      refine J.pure ?_
      exact J.holesItem hi hv h4.assoc (by simp) (.elementSpread hd he) (by simp)
    · jd (hr.assignExpr ctx) at h2 with e ts s4 p4 he hts - h4
      refine J.pure ?_
      exact J.holesItem hi hv h4 hts (.elementExpr he) (by simp)

theorem propertyDefinition_P : Parses src styp n 0 x (Parser.propertyDefinition r ctx) ctx .propDef := by
  intro s p hp
  unfold Parser.propertyDefinition
  jb J.current hp.start with t ht
  refine J.ite (fun hd => ?_) (fun hd => ?_)
  · jb J.consume hp.start with t' s1 p1 ht' - h1
    rw [ht] at ht'; cases ht'
    jd (hr.assignExpr ctx) at h1 with e ts s2 p2 he hts - h2
    exact J.pure ⟨_, _, by simp, h2, (D.propSpread hd he).cast (by simp)⟩
  have named : ∀ {nm ns s1 p1}, G src styp ctx (.propName nm) ns → ns ≠ [] → Hist ⟨src, styp, n, 0, x, s, p⟩ true ([] ++ ns) s1 p1 →
      J ⟨src, styp, n, 0, x, s, p⟩ (Parser.namedPropertyDefinition r ctx (posOf s) nm) s1
        (Post ⟨src, styp, n, 0, x, s, p⟩ fun a ts _ => G src styp ctx (.propDef a) ts) := by
    intro nm ns s1 p1 hnm hns h1
    unfold Parser.namedPropertyDefinition
    jb J.consumeAssert h1 with c s2 p2 - hc - h2
    jd (hr.assignExpr ctx) at h2 with e ts s3 p3 he hts - h3
    jp
    exact J.pure ⟨_, _, by simp, h3, (D.propNamed hnm hc he (by simpa using h3.spans (by simp))).cast (by simp)⟩
  refine J.ifPeek (fun _ => ?_) (fun _ => ?_)
  · jp
    jd (propertyName_P hr ctx x) at hp.start with nm ns s1 p1 hnm hns - h1
    exact named hnm hns h1
  refine J.ite (fun hb => ?_) (fun hb => ?_)
  · unfold Parser.propertyDefinitionWithComputedName
    jp
    jd (propertyName_P hr ctx x) at hp.start with nm ns s1 p1 hnm hns hbg h1
    refine J.ifCur (fun _ => ?_) (fun _ => ?_)
    · exact named hnm hns h1
    · refine J.bind (method_J hr _ (F := ⟨src, styp, n, 0, x, s, p⟩) ⟨rfl, rfl, rfl⟩ h1 (by simpa using hns) ?_)
      intro ps bsp ds ss ts us s2 p2 hps hb' hok h2 hsp
      have hcomp : ∃ e, nm = .computed e := by
        have hbr : ∀ t' ∈ ns.head?, t'.value = .punct p!"[" := by
          intro t' ht'
          obtain ⟨t0, h0, h1⟩ := hbg t' ht'
          rw [ht] at h0; cases h0
          rw [h1.same (by rw [hb]; rfl)]; exact hb
        cases hnm with
        | nameIdent h =>
          have := hbr _ rfl
          cases h with
          | ident h => rw [h] at this; cases this
          | keyword h => rw [h] at this; cases this
        | nameString h => have := hbr _ rfl; rw [h] at this; cases this
        | nameNumber h => have := hbr _ rfl; rw [h] at this; cases this
        | nameComputed => exact ⟨_, rfl⟩
      obtain ⟨e, rfl⟩ := hcomp
      exact J.pure ⟨_, _, by simp [hns], h2, (D.propComputedMethod (D.method hnm hps hb' rfl hok (by simpa using hsp))).cast (by simp)⟩
  refine J.bind (J.mono (Q := fun _ s' => s' = s) ?_ ?_)
  · unfold Parser.isObjectMethodDefinition
    refine J.bind (J.any fun a => J.bind (J.any fun b => J.bind (J.curVal ?_)))
    split <;> exact J.pure rfl
  rintro b s' rfl
  refine J.ite (fun _ => ?_) (fun _ => ?_)
  · jd (methodDefinition_P hr _ x) at hp.start with m ts s1 p1 hm hts hbg h1
    exact J.pure ⟨_, _, hts, h1, .propMethod hm (hbg.val ht rfl hb)⟩
  · jb J.parseIdent hp.start with t id s1 p1 - hid - h1
    exact J.pure ⟨_, _, by simp, h1, .propIdent hid⟩

theorem objectLiteral_P : Parses src styp n 0 x (Parser.objectLiteral r ctx) ctx (.expr 21) := by
  intro s p hp
  unfold Parser.objectLiteral
  jp
  jb J.consumeAssert hp.start with lb s1 p1 - hlb - h1
  refine J.bind (J.loop (SepInv (fun a ts => G src styp ctx (.propDef a) ts) (.punct p!"}") [lb]) h1 SepInv.nil hr.fuel ?_)
  rintro acc hs s2 p2 h2 hi
  obtain ⟨_, _, us, e1, _⟩ := id hi
  refine J.ifMaybe h2 ?_ ?_
  · intro rb s3 p3 _ hrb _ h3
    refine J.done ?_
    jp
    obtain ⟨b, ps, us, e1, e2, e3, e4, -⟩ := hi
    subst e1 e2
    exact J.pure ⟨_, _, by simp, h3, (D.object hlb e3 e4 hrb (by simpa using h3.spans (by simp))).cast (by simp)⟩
  · intro hv
    jd (propertyDefinition_P hr ctx none) at h2 with a ts s3 p3 ha hts - h3
    refine J.bind (J.any fun b => ?_)
    refine J.ite (fun _ => ?_) (fun _ => ?_)
    · jb J.current h3 with t ht
      exact ErrPost.of h3.kept (h3.at1.curWF ht) (fun _ => PErrKind.noConfusion)
    · exact J.listItem hi hv h3 hts ha

end

end Fajt
