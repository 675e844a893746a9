import Verif.Proofs.ParseMember
/-!
# Classes, primary expressions, `new`
-/
namespace Fajt
open Spec
set_option linter.unusedSectionVars false
variable [UnicodeID] [Blame]

theorem consume_run {F : Frame} {s : PState} {hs : List Token} {p : Cursor} {c : Bool} (h : Hist F c hs s p) {t : Token}
    (ht : s.cur = .ok t) : ∃ s' p', Parser.consume s = .ok t s' ∧ s'.cur = s.nxt ∧ Hist F true (hs ++ [t]) s' p' := by
  have hj := J.consume h (Q := fun t' s' => t' = t ∧ s'.cur = s.nxt ∧ ∃ p', Hist F true (hs ++ [t]) s' p') (by
    intro t' s' p' h1 h2 h3
    rw [ht] at h1
    cases h1
    exact ⟨rfl, h2, p', h3⟩)
  obtain ⟨t', s', hr⟩ : ∃ t' s', Parser.consume s = .ok t' s' := by
    have hl := pull_at s.lx (by rw [h.at1.data]; exact h.at1.lexPlace)
    unfold Parser.consume
    rcases hl with ⟨u, q, h1, -⟩ | ⟨u, q, h1, -⟩ <;>
    · rw [M.seq_ok (pull_ok h1)]
      rw [M.seq_ok (m := M.get) rfl, M.seq_ok (m := M.set _) rfl]
      dsimp only
      rw [ht]
      exact ⟨_, _, rfl⟩
  unfold J at hj
  rw [hr] at hj
  obtain ⟨rfl, h1, p', h2⟩ := hj
  exact ⟨s', p', hr, h1, h2⟩

theorem optionalIdentUnwrap_J {F : Frame} {s : PState} {ctx : Ctx} {hs : List Token} {p : Cursor} (h : Hist F true hs s p)
    {Q : Option Ident → PState → Prop}
    (k : ∀ id nm s' p', (match id with | some id => ∃ t, IdentTok ctx t id ∧ nm = [t] | none => nm = []) →
      Hist F true (hs ++ nm) s' p' → Q id s') : J F (Parser.optionalIdentUnwrap ctx) s Q := by
  unfold Parser.optionalIdentUnwrap
  refine J.bind (J.isIdent ?_)
  refine J.ite (fun hid => ?_) (fun _ => ?_)
  · cases hc : s.cur with
    | error e => rw [hc] at hid; cases hid
    | ok t =>
      obtain ⟨s', p', e1, e2, e3⟩ := consume_run h hc
      rw [hc] at hid
      unfold Parser.isIdentTok at hid
      unfold J M.attempt Parser.parseIdent
      rw [M.seq_ok e1]
      obtain ⟨v, fol, sp⟩ := t
      cases v with
      | ident nm => exact k (some _) [_] s' p' ⟨_, .ident rfl, rfl⟩ e3
      | keyword kw =>
        have hid : kw.allowedAsIdent ctx.kw = true := hid
        dsimp only
        rw [if_pos hid]
        exact k (some _) [_] s' p' ⟨_, .keyword rfl hid, rfl⟩ e3
      | _ => cases hid
  · exact k none [] s p rfl (by simpa using h)

section
variable {src : Str} {styp : SourceType} {n : Nat} {r : Rec} (hr : RecOK src styp n r) (ctx : Ctx) (x : Option Ctx)
include hr

theorem classExpr_P : Parses src styp n 0 x (Parser.classExpr r { ctx with strict := true }) ctx (.expr 21) := by
  intro s p hp
  unfold Parser.classExpr
  jp
  jb J.consumeAssert hp.start with c s1 p1 - hc - h1
  refine J.bind (optionalIdentUnwrap_J h1 ?_)
  intro id nm s2 p2 hid h2
  jd (classTail_D hr { ctx with strict := true } none) at h2 with ⟨sup, ms⟩ ts s3 p3 ha hts - h3
  jp
  exact J.pure ⟨_, _, by simp, h3, (D.classE hc hid ha (by simpa using h3.spans (by simp))).cast (by simp)⟩

theorem optionalClassIdentifier_J {F : Frame} {hs : List Token} {p : Cursor} {s : PState} {ctx : Ctx} (h : Hist F true hs s p)
    {Q : Ident → PState → Prop}
    (k : ∀ id nm start s' p', DeclName ctx start id nm → (∀ ts, Begins s' ts → ∀ t ∈ ts.head?, start = t.span.start) →
      Hist F true (hs ++ nm) s' p' → Q id s') :
    J F (Parser.optionalClassIdentifier ctx) s Q := by
  unfold Parser.optionalClassIdentifier
  have ident : J F (Parser.parseIdent ctx) s Q := by
    refine J.parseIdent h ?_
    intro t id s' p' _ hid _ h'
    refine k id [t] (posOf s') s' p' (.ident hid) ?_ h'
    intro ts hts t' ht'
    obtain ⟨t0, h0, h1⟩ := hts t' ht'
    rw [posOf, h0]; exact h1.start.symm
  refine J.bind (J.curMatches (fun hv => ?_) (fun hv => ?_))
  · refine J.ite (fun hd => ?_) (fun _ => ident)
    refine J.bind ?_
    obtain ⟨t, ht, hv'⟩ := valOf_some hv
    have : Parser.currentUnwrapStart s = .ok t.span.start s := by unfold Parser.currentUnwrapStart; rw [ht]
    unfold J; rw [this]
    refine k _ [] t.span.start s p (.none (by simpa using hd)) ?_ (by simpa using h)
    intro ts hts t' ht'
    exact hts.start ht t' ht'
  · refine J.ite (fun hd => ?_) (fun _ => ident)
    simp at hd

theorem classDecl_P : Parses src styp n 0 x (Parser.classDecl r { ctx with strict := true }) ctx .decl := by
  intro s p hp
  unfold Parser.classDecl
  jp
  jb J.consumeAssert hp.start with c s1 p1 - hc - h1
  refine J.bind (optionalClassIdentifier_J hr h1 ?_)
  intro id nm start s2 p2 hid hst h2
  jd (classTail_D hr { ctx with strict := true } none) at h2 with ⟨sup, ms⟩ ts s3 p3 ha hts hbg h3
  jp
  exact J.pure ⟨_, _, by simp, h3, (D.classDecl hc hid (hst _ hbg) ha (by simpa using h3.spans (by simp))).cast (by simp)⟩

theorem rereadRegexp_P : Parses src styp n 0 x Parser.rereadRegexp ctx (.expr 21) := by
  intro s p hp
  unfold Parser.rereadRegexp
  refine J.bind (J.reread hp.start ?_)
  intro s1 h1
  je (literal_P hr ctx x) at h1 with e ts s2 p2 he hts - h2
  exact ⟨_, _, hts, h2, he⟩

theorem primaryExpr_P : Parses src styp n 0 (some ctx) (Parser.primaryExpr r ctx) ctx (.expr 21) := by
  intro s p hp
  unfold Parser.primaryExpr
  jb J.current hp.start with t ht
  split
  · exact thisExpr_P hr ctx _ s p hp
  · next hv =>
    unfold Parser.consumeLiteral
    jb J.consume hp.start with t' s1 p1 ht' - h1
    rw [ht] at ht'; cases ht'
    exact J.pure ⟨_, _, by simp, h1, .null hv⟩
  · next hv =>
    unfold Parser.consumeLiteral
    jb J.consume hp.start with t' s1 p1 ht' - h1
    rw [ht] at ht'; cases ht'
    exact J.pure ⟨_, _, by simp, h1, .true hv⟩
  · next hv =>
    unfold Parser.consumeLiteral
    jb J.consume hp.start with t' s1 p1 ht' - h1
    rw [ht] at ht'; cases ht'
    exact J.pure ⟨_, _, by simp, h1, .false hv⟩
  · exact literal_P hr ctx _ s p hp
  · exact arrayLiteral_P hr ctx _ s p hp
  · exact objectLiteral_P hr ctx _ s p hp
  · exact functionExpr_P hr ctx _ s p hp
  · exact classExpr_P hr ctx _ s p hp
  · exact rereadRegexp_P hr ctx _ s p hp
  · exact templateLiteralExpr_P hr ctx _ s p hp
  · exact coverParenthesizedAndArrowParameters_P hr ctx s p hp
  · refine J.bind (J.followedByNewLine ?_)
    refine J.ite (fun hv => ?_) (fun _ => ?_)
    · refine asyncFunctionExpr_D hr ctx _ s p hp ?_
      intro u hu
      have := hv.2
      unfold nextFol at this
      rw [hu] at this
      simpa using this
    · refine J.bind (J.isIdent ?_)
      refine J.ite (fun _ => ?_) (fun _ => ?_)
      · jb J.parseIdent hp.start with t' id s1 p1 - hid - h1
        exact J.pure ⟨_, _, by simp, h1, .identRef hid⟩
      · exact rereadRegexp_P hr ctx _ s p hp

theorem superProperty_P : ∀ s p, At src styp s p → valOf s = some (.keyword k!"super") →
    J ⟨src, styp, n, 0, x, s, p⟩ (Parser.superProperty r ctx) s
      (Post ⟨src, styp, n, 0, x, s, p⟩ fun e ts _ => G src styp ctx (.expr 20 e) ts) := by
  intro s p hp hv
  unfold Parser.superProperty
  jp
  jb J.consume hp.start with t s1 p1 ht - h1
  refine J.bind (J.curVal ?_)
  refine J.ite (fun _ => ?_) (fun hc => ?_)
  · jp
    exact ErrPost.of h1.kept (h1.spanWF (by simp)) (fun _ => PErrKind.noConfusion)
  refine J.ite (fun _ => ?_) (fun hm => ?_)
  · jp
    exact ErrPost.of h1.kept (h1.spanWF (by simp)) (fun _ => PErrKind.noConfusion)
  · refine memberExprRightSide_J hr ctx (F := ⟨src, styp, n, 0, x, s, p⟩) ⟨rfl, rfl, rfl⟩ h1 (by simp) ?_ ?_
    · by_cases hd : valOf s1 = some (.punct p!".")
      · exact .inl hd
      · by_cases hb : valOf s1 = some (.punct p!"[")
        · exact .inr hb
        · exact absurd ⟨hd, hb⟩ hc
    · intro m us s2 p2 hus hmm h2 hsp
      exact ⟨_, _, by simp, h2, (D.superMember (by simpa using hm) (valOf_eq ht hv) hmm (by simpa using hsp)).cast (by simp)⟩

theorem metaProperty_D (o pr : Str) (v : TokVal) : ∀ s p, At src styp s p → valOf s = some v → peekOf s = some (.punct p!".") →
    J ⟨src, styp, n, 0, x, s, p⟩ (Parser.metaProperty ctx o pr) s (Post ⟨src, styp, n, 0, x, s, p⟩ fun e ts _ =>
    ∃ a b c id sp, ts = [a, b, c] ∧ a.value = v ∧ b.value = .punct p!"." ∧ IdentTok ctx c id ∧ id.name = pr ∧ Spans sp ts ∧
      e = .metaProp sp ⟨a.span, o⟩ id) := by
  intro s p hp hv hpk
  unfold Parser.metaProperty
  jp
  jb J.consume hp.start with a s1 p1 ha hn h1
  jb J.consume h1 with b s2 p2 hb - h2
  jb J.parseIdent h2 with c id s3 p3 - hid - h3
  refine J.ite (fun _ => ?_) (fun hn => ?_)
  · refine ErrPost.of h3.kept ?_ (fun _ => PErrKind.noConfusion)
    show SpanWF src id.span
    rw [hid.span]
    exact h3.tokWF (by simp)
  · jp
    refine J.pure ⟨_, _, by simp, h3, a, b, c, id, _, by simp, valOf_eq ha hv, ?_, hid, by simpa using hn, h3.spans (by simp), rfl⟩
    have : valOf s1 = some (.punct p!".") := by
      rw [← hpk]; unfold valOf peekOf; rw [‹s1.cur = s.nxt›]
    exact valOf_eq hb this

/-! ## `new` and member expressions -/

/-- What a member expression or `new` without arguments is. -/
def NewInv (src : Str) (styp : SourceType) (ctx : Ctx) (e : Expr) (hs : List Token) (s : PState) : Prop :=
  G src styp ctx (.expr 20 e) hs ∨ G src styp ctx (.newE e) hs ∧ valOf s ≠ some (.punct p!"(") ∧ NoMember s

theorem newExpr_D : ∀ s p, At src styp s p → valOf s = some (.keyword k!"new") →
    J ⟨src, styp, n, 0, x, s, p⟩ (Parser.newExpr r ctx) s
      (Post ⟨src, styp, n, 0, x, s, p⟩ (NewInv src styp ctx)) := by
  intro s p hp hv
  unfold Parser.newExpr Parser.optionalArguments
  jp
  jb J.consume hp.start with t s1 p1 ht - h1
  jd (hr.newOrMember ctx) at h1 with e ts s2 p2 ⟨he, hno⟩ hts - h2
  have he' : G src styp ctx (.newE e) ts := he.elim .newMember (·.1)
  refine J.bind (J.ifCur (fun hc => ?_) (fun hc => ?_))
  · jd (arguments_D hr ctx none) at h2 with ⟨asp, as⟩ us s3 p3 ha hus - h3
    refine J.pure ?_
    dsimp only
    jp
    exact J.pure ⟨_, _, by simp, h3, .inl ((D.newArgs (valOf_eq ht hv) he' ha (by simpa using h3.spans (by simp))).cast (by simp))⟩
  · refine J.pure ?_
    dsimp only
    jp
    exact J.pure ⟨_, _, by simp, h2, .inr ⟨(D.newPlain (valOf_eq ht hv) he' (by simpa using h2.spans (by simp))).cast (by simp), hc, hno⟩⟩

theorem memberExprFromTerminal_D : Does src styp n 0 (some ctx) (Parser.memberExprFromTerminal r ctx) (NewInv src styp ctx) := by
  intro s p hp
  unfold Parser.memberExprFromTerminal
  jb J.current hp.start with t ht
  have hvt := valOf_ok ht
  refine J.bind (J.mono (Q := fun b s' => (b = true → peekOf s = some (.punct p!".")) ∧ s' = s)
      (J.peekMatches (fun h => ⟨fun _ => h, rfl⟩) (fun _ => ⟨fun h => (nomatch h), rfl⟩)) ?_)
  rintro b s' ⟨hb, rfl⟩
  refine J.ite (fun hv => ?_) (fun _ => ?_)
  · refine (superProperty_P hr ctx _ s' p hp (by rw [hvt, hv])).mono ?_
    rintro a s1 ⟨ts, p1, h1, h2, h3⟩
    exact ⟨ts, p1, h1, h2, .inl h3⟩
  refine J.ite (fun hv => ?_) (fun _ => ?_)
  · refine J.ite (fun hd => ?_) (fun _ => ?_)
    · refine (metaProperty_D hr ctx _ _ _ (.keyword k!"new") s' p hp (by rw [hvt, hv]) (hb hd)).mono ?_
      rintro e s1 ⟨ts, p1, h1, h2, a, b, c, id, sp, e1, e2, e3, e4, e5, e6, e7⟩
      subst e1 e7
      exact ⟨_, p1, h1, h2, .inl (.newTarget e2 e3 e4 e5 e6)⟩
    · exact newExpr_D hr ctx _ s' p hp (by rw [hvt, hv])
  refine J.ite (fun hv => ?_) (fun _ => ?_)
  · refine (metaProperty_D hr ctx _ _ _ (.keyword k!"import") s' p hp (by rw [hvt, hv.1]) (hb hv.2)).mono ?_
    rintro e s1 ⟨ts, p1, h1, h2, a, b, c, id, sp, e1, e2, e3, e4, e5, e6, e7⟩
    subst e1 e7
    exact ⟨_, p1, h1, h2, .inl (.importMeta e2 e3 e4 e5 e6)⟩
  · refine (primaryExpr_P hr ctx s' p hp).mono ?_
    rintro a s1 ⟨ts, p1, h1, h2, h3⟩
    exact ⟨ts, p1, h1, h2, .inl (D.weaken h3 (by omega))⟩

theorem newOrMember_D : Does src styp n 0 (some ctx) (Parser.newOrMember r ctx) fun e ts s' =>
    (G src styp ctx (.expr 20 e) ts ∨ G src styp ctx (.newE e) ts ∧ valOf s' ≠ some (.punct p!"(")) ∧ NoMember s' := by
  intro s p hp
  unfold Parser.newOrMember
  jp
  jd (memberExprFromTerminal_D hr ctx) at hp.start with e ts s1 p1 he hts - h1
  refine J.loop (fun e hs s => hs ≠ [] ∧ NewInv src styp ctx e hs s) h1 ⟨hts, he⟩ hr.fuel ?_
  clear he hts h1
  rintro e hs s1 p1 h1 ⟨hne, hi⟩
  refine J.bind (J.curVal ?_)
  have mem : (valOf s1 = some (.punct p!".") ∨ valOf s1 = some (.punct p!"[")) →
      J ⟨src, styp, n, 0, some ctx, s, p⟩ (Parser.memberExprRightSide r ctx (posOf s) (.expr e) >>= fun e => Pure.pure (.inl e)) s1
      (LoopPost ⟨src, styp, n, 0, some ctx, s, p⟩ hs (fun e hs s => hs ≠ [] ∧ NewInv src styp ctx e hs s)
      (Post ⟨src, styp, n, 0, some ctx, s, p⟩ fun e ts s' =>
    (G src styp ctx (.expr 20 e) ts ∨ G src styp ctx (.newE e) ts ∧ valOf s' ≠ some (.punct p!"(")) ∧ NoMember s')) := by
    intro hv
    refine J.bind (memberExprRightSide_J hr ctx (F := ⟨src, styp, n, 0, some ctx, s, p⟩) ⟨rfl, rfl, rfl⟩ h1 hne hv ?_)
    intro m us s2 p2 hus hm h2 hsp
    refine J.againSnoc h2 hus ⟨by simp [hne], .inl ?_⟩
    rcases hi with hi | ⟨_, _, hi⟩
    · exact D.member (.inr rfl) hi hm hsp
    · rcases hv with hv | hv
      · exact absurd hv hi.1
      · exact absurd hv hi.2.1
  have tmpl : (¬ NoMember s1) →
      J ⟨src, styp, n, 0, some ctx, s, p⟩ (Parser.taggedTemplate r ctx (posOf s) e >>= fun e => Pure.pure (.inl e)) s1
      (LoopPost ⟨src, styp, n, 0, some ctx, s, p⟩ hs (fun e hs s => hs ≠ [] ∧ NewInv src styp ctx e hs s)
      (Post ⟨src, styp, n, 0, some ctx, s, p⟩ fun e ts s' =>
    (G src styp ctx (.expr 20 e) ts ∨ G src styp ctx (.newE e) ts ∧ valOf s' ≠ some (.punct p!"(")) ∧ NoMember s')) := by
    intro hv
    refine J.bind (taggedTemplate_J hr ctx (F := ⟨src, styp, n, 0, some ctx, s, p⟩) ⟨rfl, rfl, rfl⟩ h1 hne ?_)
    intro ps us s2 p2 hus hps hbg h2 hsp
    refine J.againSnoc h2 hus ⟨by simp [hne], .inl ?_⟩
    rcases hi with hi | ⟨_, _, hi⟩
    · exact D.tagged hi hps hsp
    · exact absurd hi hv
  split
  · next hv => exact mem (.inl hv)
  · next hv => exact mem (.inr hv)
  · next v hv => exact tmpl (fun h => h.2.2.1 _ hv)
  · next v hv => exact tmpl (fun h => h.2.2.2 _ hv)
  · next n1 n2 n3 n4 =>
    refine J.done ⟨_, _, hne, h1, ?_, n1, n2, fun v hv => n3 _ hv, fun v hv => n4 _ hv⟩
    rcases hi with hi | hi
    · exact .inl hi
    · exact .inr ⟨hi.1, hi.2.1⟩

end
end Fajt
