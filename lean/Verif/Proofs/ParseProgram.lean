import Verif.Proofs.ParseAll
/-!
# Whole programs
-/
namespace Fajt
open Spec
set_option linter.unusedSectionVars false
variable [UnicodeID] [Blame]

/-- A chain of tokens up to the end of the source are the tokens of the source. -/
theorem Chain.sourceTokens {p p' : Cursor} {ts : List Token} (h : Chain p ts p') {pre : Str} (hb : Behind pre p)
    (he : ∃ html f, Trivia html p'.fol p'.rest [] f) : SourceTokens pre p.fol p.rest ts := by
  induction h generalizing pre with
  | nil => obtain ⟨_, _, he⟩ := he; exact .nil he
  | @cons p p1 p2 t ts hs _ ih =>
    obtain ⟨html, tr, c, h1, h2, ⟨⟨w, h3, h4, h5⟩, h6, -⟩, h7⟩ := hs
    have hb1 := hb.eats h1
    have hb2 := hb1.eats h3
    have ih' := ih hb2 he
    rw [h1.rest, h3.rest]
    have hh : (w ++ p1.rest).head? = w.head? := by cases w with
      | nil => exact absurd rfl h4
      | cons a w => rfl
    rw [h3.rest] at h2 h7
    refine .cons h2 ?_ h4 h5 (by rw [h6, hb1.pos, hb2.pos]) ih'
    rwa [hh] at h7

theorem start_at (src : Str) (styp : SourceType) : ∃ s, Parser.start src styp = .ok () s ∧
    At src styp s ⟨src, 0, 0, true⟩ ∧ s.pos = 0 := by
  have hp0 : Place src ⟨src, 0, 0, true⟩ := ⟨[], rfl, rfl, rfl⟩
  let lx : LexerS := { LexerS.new src with st := { LexState.default with html := styp = .script } }
  have hd : lx.data = src := rfl
  have hstart : ∀ {c n lx1 lx2}, LexerS.pull lx = .ok c lx1 → LexerS.pull lx1 = .ok n lx2 →
      Parser.start src styp = .ok () ⟨lx2, c, n, 0, styp⟩ := by
    intro c n lx1 lx2 h1 h2
    unfold Parser.start
    show ((liftLx LexerS.pull >>= fun c => _) : P Unit) ⟨lx, .error LexErr.endOfStream, .error LexErr.endOfStream, 0, styp⟩ = _
    rw [M.seq_ok (pull_ok (s := ⟨lx, .error LexErr.endOfStream, .error LexErr.endOfStream, 0, styp⟩) h1)]
    rw [M.seq_ok (pull_ok (s := ⟨lx1, .error LexErr.endOfStream, .error LexErr.endOfStream, 0, styp⟩) h2)]
    rfl
  have hc : lx.cursor = ⟨src, 0, 0, true⟩ := rfl
  rcases pull_at lx (by rw [hd, hc]; exact hp0) with ⟨u, q, h1, h2⟩ | ⟨e, q, h1, h2, h3⟩
  · have hq := h2.place hp0
    rcases pull_at { lx with cursor := q } hq with ⟨u', q', h3, h4⟩ | ⟨e, q', h3, h4, h5⟩
    · exact ⟨_, hstart h1 h3, ⟨rfl, rfl, hp0, ⟨[], .nil⟩, q, h2, h4⟩, rfl⟩
    · exact ⟨_, hstart h1 h3, ⟨rfl, rfl, hp0, ⟨[], .nil⟩, q, h2, h4, h5⟩, rfl⟩
  · rcases pull_at { lx with cursor := q } h3 with ⟨u', q', h5, h6⟩ | ⟨e', q', h5, h6, h7⟩
    · exact ⟨_, hstart h1 h5, ⟨rfl, rfl, hp0, ⟨[], .nil⟩, h2, h6.place h3⟩, rfl⟩
    · exact ⟨_, hstart h1 h5, ⟨rfl, rfl, hp0, ⟨[], .nil⟩, h2, h7⟩, rfl⟩

/-- The end of the source is reached. -/
def Ended (s : PState) : Prop := ∃ e, s.cur = .error e ∧ e.kind = .endOfStream

theorem Ended.trivia {src : Str} {styp : SourceType} {s : PState} {p : Cursor} (h : Ended s) (hp : At src styp s p) :
    ∃ html f, Trivia html p.fol p.rest [] f := by
  obtain ⟨e, h1, h2⟩ := h
  have := hp.cur
  rw [h1] at this
  exact this.1.2 h2

/-- All statements up to the end of the source. -/
theorem allStmts_J {F : Frame} {r : Rec} (hr : RecOK F.src F.styp F.n r) {ctx : Ctx} {s : PState}
    {pre : List Token} {p : Cursor} {c : Bool} (h : Hist F c pre s p) (hne : ∀ hs, CallOK F hs 6 none)
    (hc : c = true ∨ ∀ e, s.cur = .error e → e.kind ≠ .endOfStream) :
    J F (Parser.allStmts r ctx) s fun ss s' => ∃ qs p', Hist F true (pre ++ toks qs) s' p' ∧ ss = trees qs ∧ Ended s' ∧
      (∀ q ∈ qs, G F.src F.styp ctx (.item q.1) q.2) ∧ (toks qs = [] → s' = s) ∧ Begins s (toks qs) := by
  have main : ∀ fuel acc hs s p, Hist F true hs s p → ManyInv (fun a ts => G F.src F.styp ctx (.item a) ts) pre acc hs s →
      F.n ≤ fuel + hs.length →
      J F (Fajt.loop (fun acc => do
        if ← Parser.isEnd then pure (.inr acc)
        else do
          let st ← r.declOrStmt ctx
          pure (.inl (acc ++ [st]))) fuel acc) s fun ss s' => ∃ qs p', Hist F true (pre ++ toks qs) s' p' ∧ ss = trees qs ∧
            Ended s' ∧ (∀ q ∈ qs, G F.src F.styp ctx (.item q.1) q.2) ∧ hs.length ≤ (pre ++ toks qs).length ∧
            (hs.length = (pre ++ toks qs).length → s' = s) ∧ ∃ ts, pre ++ toks qs = hs ++ ts ∧ Begins s ts := by
    intro fuel
    induction fuel with
    | zero =>
      intro acc hs s p h _ hf
      have := h.chain.length_le h.at0.place
      have := h.place.le
      show F.n < 8 * (byteLen F.src + 1 - F.p0.pos) + F.K
      omega
    | succ fuel ih =>
      intro acc hs s p h hi hf
      unfold Fajt.loop
      refine J.bind (J.bind (J.isEnd ?_ ?_))
      · intro e hk he
        replace he : Ended _ := ⟨e, hk, he⟩
        refine J.ite (fun _ => ?_) (fun h => absurd rfl h)
        obtain ⟨qs, e1, e2, e3⟩ := hi
        exact J.pure (J.pure ⟨qs, p, e1 ▸ h, e2, he, e3, by rw [e1]; exact Nat.le_refl _, fun _ => rfl, [], by simp [e1], fun t ht => by cases ht⟩)
      · intro he
        refine J.ite (fun h => (nomatch h)) (fun _ => ?_)
        refine J.bind (Does.call (hr.declOrStmt ctx) h (hne hs) ?_)
        rintro st ts s2 p2 hst hts hbg h2
        have hl : 0 < ts.length := List.length_pos_iff.2 hts
        refine J.pure (J.mono (ih _ _ _ _ h2 (hi.snoc hst) (by simp; omega)) ?_)
        rintro a s' ⟨qs, p', e1, e2, e3, e4, e5, -, us, e6, -⟩
        rw [List.length_append] at e5
        exact ⟨qs, p', e1, e2, e3, e4, by omega, fun h => by omega, ts ++ us, by rw [e6]; simp, hbg.append hts⟩
  unfold Parser.allStmts
  rw [hr.fuel]
  rcases hc with rfl | hc
  · refine J.mono (main _ _ _ _ _ h ManyInv.nil (by omega)) ?_
    rintro a s' ⟨qs, p', e1, e2, e3, e4, -, e5, us, e6, e7⟩
    exact ⟨qs, p', e1, e2, e3, e4, fun h => e5 (by rw [h]; simp), (List.append_cancel_left e6) ▸ e7⟩
  · cases hn : F.n with
    | zero =>
      show F.n < 8 * (byteLen F.src + 1 - F.p0.pos) + F.K
      have := hne []
      unfold CallOK at this
      simp at this
      omega
    | succ n =>
      unfold Fajt.loop
      refine J.bind (J.bind (J.isEnd ?_ ?_))
      · intro e he hk
        exact absurd hk (hc e he)
      · intro he
        refine J.ite (fun h => (nomatch h)) (fun _ => ?_)
        refine J.bind (Does.call (hr.declOrStmt ctx) h (hne pre) ?_)
        rintro st ts s2 p2 hst hts hbg h2
        have hl : 0 < ts.length := List.length_pos_iff.2 hts
        refine J.pure (J.mono (main n _ _ _ _ h2 (ManyInv.nil (s := s2) |>.snoc hst) (by simp; omega)) ?_)
        rintro a s' ⟨qs, p', e1, e2, e3, e4, e5, -, us, e6, -⟩
        rw [List.length_append, List.length_append] at e5
        refine ⟨qs, p', e1, e2, e3, e4, fun h => by rw [h] at e5; simp at e5; omega, ?_⟩
        rw [List.append_cancel_left (e6.trans (List.append_assoc _ _ _))]
        exact hbg.append hts

/-- What parsing a program does. -/
theorem program_J (src : Str) (styp : SourceType) {n : Nat} {r : Rec} (hr : RecOK src styp n r) {s : PState} {p : Cursor}
    (hp : At src styp s p) (h0 : s.pos = 0) :
    J ⟨src, styp, n, 6, none, s, p⟩ (Parser.program r) s fun a s' => ∃ ts p', Hist ⟨src, styp, n, 6, none, s, p⟩ true ts s' p' ∧
      Ended s' ∧ IsProgram (sourceEnv src styp) a ts ∧ a.sourceType = styp := by
  have hne : ∀ hs, CallOK ⟨src, styp, n, 6, none, s, p⟩ hs 6 none := by
    intro hs
    by_cases he : hs = []
    · exact .inl ⟨he, Nat.le_refl _, .inl rfl⟩
    · exact .inr ⟨he, by simp⟩
  unfold Parser.program
  jp
  refine J.bind (J.mono (directivePrologue_J' hr hp.start (hne _)) ?_)
  rintro ds s1 ⟨ps, p1, c, h1, hds, hps, hc, hst⟩
  refine J.bind (J.mono (allStmts_J hr h1 hne (hc.imp And.left id)) ?_)
  rintro ss s2 ⟨qs, p2, h2, rfl, hend, hqs, hss, hbg⟩
  jp
  refine J.bind (J.gets ?_)
  refine J.pure ⟨_, _, h2, hend, ⟨⟨ps, qs, by simp, hps, hds, hqs, rfl, hst.behind hbg⟩, ?_⟩, h2.at1.styp⟩
  show if _ then _ else _
  split
  · next hts =>
    have hpos := h2.pos rfl
    rw [if_pos hts] at hpos
    have hts' : toks ps = [] ∧ toks qs = [] := by simpa using hts
    have : posOf s = 0 := by
      have e2 := hss hts'.2
      subst e2
      obtain ⟨e, he, hk⟩ := hend
      rcases hc with ⟨-, hc⟩ | hc
      · have e1 := hc hts'.1
        subst e1
        rw [posOf, he]
        exact h0
      · exact absurd hk (hc e he)
    show (⟨posOf s, s2.pos⟩ : Span) = _
    rw [this, hpos]
    exact congrArg _ h0
  · next hts => exact h2.spans hts

/-- The outcomes of parsing a source. -/
def Outcome {α : Type} (src : Str) (styp : SourceType) (Q : α → Prop) : Res PState PErr α → Prop
  | .ok a _ => Q a
  | .err e _ => ErrorSpan src styp e
  | .panic _ => Blame.blame src styp
  | .oof => False

theorem parse_with {α : Type} (src : Str) (styp : SourceType) {n K : Nat} (hn : 8 * (byteLen src + 1) + K ≤ n) (m : Rec → P α) {Q : α → Prop}
    (h : ∀ s p, At src styp s p → s.pos = 0 → p = ⟨src, 0, 0, true⟩ →
      J ⟨src, styp, n, K, none, s, p⟩ (m (mkRec n)) s fun a _ => Q a) {s : PState} (hs : Parser.start src styp = .ok () s) :
    Outcome src styp Q (m (mkRec n) s) := by
  obtain ⟨s', h1, h2, h3⟩ := start_at src styp
  rw [hs] at h1
  cases h1
  have hj := h s _ h2 h3 rfl
  unfold J at hj
  cases hr : m (mkRec n) s <;> rw [hr] at hj
  · exact hj
  · exact hj.span
  · exact hj
  · have hj' : n < 8 * (byteLen src + 1 - 0) + K := hj
    show False
    omega

theorem parse_outcome {α : Type} (src : Str) (styp : SourceType) {K : Nat} (hK : K ≤ 24) (m : Rec → P α) {Q : α → Prop}
    (h : ∀ n r, RecOK src styp n r → ∀ s p, At src styp s p → s.pos = 0 → p = ⟨src, 0, 0, true⟩ →
      J ⟨src, styp, n, K, none, s, p⟩ (m r) s fun a _ => Q a) : Outcome src styp Q (Parser.parse m src styp) := by
  obtain ⟨s, h1, -⟩ := start_at src styp
  unfold Parser.parse
  rw [h1]
  exact parse_with src styp (by unfold Parser.enoughFuel; omega) m (h _ _ (mkRec_ok src styp _)) h1

/-- Parsing a whole source. -/
theorem parse_program (src : Str) (styp : SourceType) : Outcome src styp (fun a : Program => a.sourceType = styp ∧
    ∃ ts, SourceTokens [] true src ts ∧ IsProgram (sourceEnv src styp) a ts) (Parser.parse Parser.program src styp) := by
  refine parse_outcome src styp (K := 6) (by omega) _ ?_
  intro n r hr s p hp h0 he
  refine J.mono (program_J src styp hr hp h0) ?_
  rintro a s' ⟨ts, p', h1, h2, h3, h4⟩
  refine ⟨h4, ts, ?_, h3⟩
  subst he
  exact h1.chain.sourceTokens (p := ⟨src, 0, 0, true⟩) ⟨rfl, rfl⟩ (h2.trivia h1.at1)

/-- Parsing an expression, possibly followed by something else. -/
theorem parse_expr (src : Str) (styp : SourceType) : Outcome src styp (fun a : Expr =>
    ∃ ts p', Chain ⟨src, 0, 0, true⟩ ts p' ∧ G src styp { in_ := true } (.expr 0 a) ts) (Parser.parseExpr src styp) := by
  refine parse_outcome src styp (K := 4) (by omega) _ ?_
  intro n r hr s p hp h0 he
  refine J.mono (expr_P hr { in_ := true } s p hp) ?_
  rintro a s' ⟨ts, p', h1, h2, h3⟩
  subst he
  exact ⟨ts, p', h2.chain, h3⟩

/-- Parsing a statement, possibly followed by something else. -/
theorem parse_stmt (src : Str) (styp : SourceType) : Outcome src styp (fun a : Stmt =>
    ∃ ts p', Chain ⟨src, 0, 0, true⟩ ts p' ∧ G src styp {} (.item a) ts) (Parser.parseStmt src styp) := by
  refine parse_outcome src styp (K := 5) (by omega) _ ?_
  intro n r hr s p hp h0 he
  refine J.mono (declOrStmt_P hr {} s p hp) ?_
  rintro a s' ⟨ts, p', h1, h2, h3⟩
  subst he
  exact ⟨ts, p', h2.chain, h3⟩

end Fajt
