import Verif.Proofs.CompleteOps
import Verif.Props.StaticSemantics
/-!
# Completeness: expressions

What a derivation means for the parser, symbol by symbol, and one lemma for every rule.
-/
namespace Fajt
open Spec
set_option linter.unusedSectionVars false
variable [UnicodeID]

namespace Complete
open Parser

/-! ## What a derivation means -/

/-- The keywords that start a statement or declaration and never an expression, or are parts of statements. -/
def stmtWords : List TokVal :=
  [.keyword k!"var", .keyword k!"if", .keyword k!"break", .keyword k!"continue", .keyword k!"return", .keyword k!"with",
    .keyword k!"throw", .keyword k!"try", .keyword k!"debugger", .keyword k!"do", .keyword k!"while", .keyword k!"for",
    .keyword k!"switch", .keyword k!"export", .keyword k!"const", .keyword k!"case", .keyword k!"default",
    .keyword k!"else", .keyword k!"catch", .keyword k!"finally"]

/-- Tokens that may start an expression, as far as the parser looks at them to decide that no expression follows. -/
def startVal (v : TokVal) : Bool :=
  decide (v ∉ [.punct p!")", .punct p!"]", .punct p!"}", .punct p!",", .punct p!"...", .punct p!";", .punct p!"*",
    .punct p!".", .punct p!":", .punct p!"=>", .punct p!"="] ++ stmtWords)

/-- The first token `t` of an expression of level `l`, with the point after it. -/
structure HeadTok (sty : SourceType) (ctx : Ctx) (l : Nat) (t : Token) (c : Point) : Prop where
  start : startVal t.value = true
  yield : 2 ≤ l → ctx.yield = true → t.value ≠ .keyword k!"yield"
  async : 2 ≤ l → t.value = .keyword k!"async" → ∃ d, Key sty k!"function" c d
  unary : 16 ≤ l → unaryOpOf t.value = none
  await : 16 ≤ l → ctx.await = true → t.value ≠ .keyword k!"await"
  update : 17 ≤ l → updateOpOf t.value = none
  callHead : 19 ≤ l → t.value = .keyword k!"super" ∨ t.value = .keyword k!"import" →
    Look sty c (fun u => u.value ≠ .punct p!"(")

theorem HeadTok.mono {sty : SourceType} {ctx : Ctx} {k l : Nat} {t : Token} {c : Point} (h : HeadTok sty ctx l t c) (hk : k ≤ l) :
    HeadTok sty ctx k t c where
  start := h.start
  yield hl := h.yield (Nat.le_trans hl hk)
  async hl := h.async (Nat.le_trans hl hk)
  unary hl := h.unary (Nat.le_trans hl hk)
  await hl := h.await (Nat.le_trans hl hk)
  update hl := h.update (Nat.le_trans hl hk)
  callHead hl := h.callHead (Nat.le_trans hl hk)

/-- The levels parsed by a loop. -/
def isLoop (l : Nat) : Bool := (3 ≤ l && l ≤ 14) || l = 20

/-- What must end after an expression of level `l` so that it is parsed as a whole. -/
def endLevel : Nat → Nat
  | 2 => 1
  | 20 => 20
  | l => l

/-- What the parser sees of an expression at its first token. -/
structure Base (sty : SourceType) (ctx : Ctx) (l : Nat) (e : Expr) (a b : Point) : Prop where
  head : ∃ t c, Next sty a t c ∧ HeadTok sty ctx l t c
  span : From sty a b e.span
  solo : 2 ≤ l → ∀ t c, Next sty a t c → isIdentTok (.ok t) ctx.kw = true →
    c = b ∨ Look sty c (fun u => u.value ≠ .punct p!"=>")

/-- The meaning of an expression of level `l` between `a` and `b`. -/
structure ExprOK (sty : SourceType) (ctx : Ctx) (l : Nat) (e : Expr) (a b : Point) : Prop extends Base sty ctx l e a b where
  /-- Levels parsed by a loop: what happens after the expression happens after the whole. -/
  cps : isLoop l = true → Ends sty ctx (l + 1) b → ∀ n q x d q' t c, Next sty a t c →
    (∀ k, Run sty (loop (lvBody (mkRec n) ctx t.span.start l) k e) b b.fin x d q') → Run sty (lv (mkRec n) ctx l) a q x d q'
  run : isLoop l = false → Ends sty ctx (endLevel l) b → ∀ n q, Run sty (lv (mkRec n) ctx l) a q e b b.fin

section
variable {sty : SourceType} {a b c m o p : Point} {q q' n l : Nat} {t u : Token} {ctx : Ctx} {e x y z : Expr} {sp : Span}

theorem nmBody_end {r : Rec} {start : Nat} (h : Ends sty ctx 20 b) :
    Run sty (nmBody r ctx start e) b q (.inr e) b q := by
  rcases next_or_none sty b with ⟨t, d, hn⟩ | ⟨hn, -⟩
  · refine Run.bind (run_curVal hn) ?_
    have h' := h t d hn
    obtain ⟨v, f, s⟩ := t
    simp only
    split
    · rename_i heq; cases heq; exact absurd (h' 20 rfl) (by decide)
    · rename_i heq; cases heq; exact absurd (h' 20 rfl) (by decide)
    · rename_i heq; cases heq; exact absurd (h' 20 rfl) (by decide)
    · rename_i heq; cases heq; exact absurd (h' 20 rfl) (by decide)
    · exact Run.pure _
  · exact Run.bind (run_curVal_none hn) (Run.pure _)

theorem body_end {r : Rec} {start : Nat} (hl : isLoop l = true) (h : Ends sty ctx l b) :
    Run sty (lvBody r ctx start l e) b q (.inr e) b q := by
  simp only [isLoop, Bool.or_eq_true, Bool.and_eq_true, decide_eq_true_eq] at hl
  rcases hl with ⟨h1, h2⟩ | rfl
  · exact lvBody_end h1 h2 h
  · exact nmBody_end h

/-- An expression that is not continued is parsed. -/
theorem ExprOK.parse (h : ExprOK sty ctx l e a b) (he : Ends sty ctx (endLevel l) b) (n q : Nat) :
    Run sty (lv (mkRec n) ctx l) a q e b b.fin := by
  cases hl : isLoop l with
  | false => exact h.run hl he n q
  | true =>
    have hel : endLevel l = l := by
      unfold endLevel
      split
      · revert hl; decide
      · rfl
      · rfl
    rw [hel] at he
    obtain ⟨t, c, h1, -⟩ := h.head
    exact h.cps hl (he.mono (Nat.le_succ l)) n q _ _ _ t c h1 fun k => Run.loop_end (body_end hl he) k

theorem run_mk {α : Type} {f : Rec → P α} {g : Rec → P α} {x : α} (h0 : ∀ s, f (mkRec 0) s = .oof)
    (hs : ∀ n, f (mkRec (n + 1)) = g (mkRec n)) (h : ∀ n, Run sty (g (mkRec n)) a q x b q') (n : Nat) :
    Run sty (f (mkRec n)) a q x b q' := by
  cases n with
  | zero => exact .inl (h0 _)
  | succ n => rw [hs]; exact h n

theorem run_assignExpr {x : Expr} (h : ∀ n, Run sty (assignExpr (mkRec n) ctx) a q x b q') (n : Nat) :
    Run sty ((mkRec n).assignExpr ctx) a q x b q' :=
  run_mk (f := fun r => r.assignExpr ctx) (g := fun r => assignExpr r ctx) (fun _ => rfl) (fun _ => rfl) h n

theorem run_unary {x : Expr} (h : ∀ n, Run sty (unary (mkRec n) ctx) a q x b q') (n : Nat) :
    Run sty ((mkRec n).unary ctx) a q x b q' :=
  run_mk (f := fun r => r.unary ctx) (g := fun r => unary r ctx) (fun _ => rfl) (fun _ => rfl) h n

theorem run_newOrMember {x : Expr} (h : ∀ n, Run sty (newOrMember (mkRec n) ctx) a q x b q') (n : Nat) :
    Run sty ((mkRec n).newOrMember ctx) a q x b q' :=
  run_mk (f := fun r => r.newOrMember ctx) (g := fun r => newOrMember r ctx) (fun _ => rfl) (fun _ => rfl) h n

/-! ## Level by level -/

theorem ExprOK.up14 (h : ExprOK sty ctx (l + 1) e a b) (h3 : 3 ≤ l) (h14 : l ≤ 14) : ExprOK sty ctx l e a b where
  head := by obtain ⟨t, c, h1, h2⟩ := h.head; exact ⟨t, c, h1, h2.mono (Nat.le_succ l)⟩
  span := h.span
  solo _ := h.solo (by omega)
  cps _ he n q x d q' t c hn hk := by
    have hel : endLevel (l + 1) = l + 1 := by
      unfold endLevel
      split
      · omega
      · omega
      · rfl
    rw [lv_eq _ _ h3 h14]
    exact Run.bind (run_position hn) (Run.bind (h.parse (by rw [hel]; exact he) n q) (hk _))
  run hl := by simp [isLoop, h3, h14] at hl

theorem ExprOK.up15 (h : ExprOK sty ctx 16 e a b) : ExprOK sty ctx 15 e a b where
  head := by obtain ⟨t, c, h1, h2⟩ := h.head; exact ⟨t, c, h1, h2.mono (by decide)⟩
  span := h.span
  solo _ := h.solo (by decide)
  cps hl := nomatch hl
  run _ he n q := by
    refine run_unary (fun n => ?_) n
    obtain ⟨t, c, h1, h2⟩ := h.head
    have h16 : Run sty (updateExpr (mkRec n) ctx) a q e b b.fin := h.run rfl (he.mono (by decide)) n q
    refine Run.bind (run_position h1) (Run.bind (run_optOpNone ((look_iff h1).2 (h2.unary (by decide)))) ?_)
    unfold awaitOrUpdateExpr
    by_cases ha : ctx.await = true
    · exact Run.iteT ha (Run.bind (run_current h1) (Run.iteF (h2.await (by decide) ha) h16))
    · exact Run.iteF ha h16

theorem updateNone_of_ends (h : Ends sty ctx 16 b) (hn : Next sty b t c) (hf : t.fol = false) : updateOpOf t.value = none :=
  not_none fun op hop => absurd (h t c hn 16 (update_cont (updateOpOf_some hop) hf)) (by decide)

theorem ExprOK.up16 (h : ExprOK sty ctx 17 e a b) : ExprOK sty ctx 16 e a b where
  head := by obtain ⟨t, c, h1, h2⟩ := h.head; exact ⟨t, c, h1, h2.mono (by decide)⟩
  span := h.span
  solo _ := h.solo (by decide)
  cps hl := nomatch hl
  run _ he n q := by
    obtain ⟨t, c, h1, h2⟩ := h.head
    refine Run.bind (run_position h1) (Run.bind (run_optOpNone ((look_iff h1).2 (h2.update (by decide)))) ?_)
    refine Run.bind (h.run rfl (he.mono (by decide)) n q) ?_
    rcases next_or_none sty b with ⟨u, d, hn⟩ | ⟨hn, -⟩
    · refine Run.bind (run_firstOnLine hn) ?_
      cases hf : u.fol with
      | true => exact Run.pure _
      | false => exact Run.bind (run_optOpNone ((look_iff hn).2 (updateNone_of_ends he hn hf))) (Run.pure _)
    · exact Run.bind (run_firstOnLine_none hn) (Run.bind (run_optOpNone fun u d hu => absurd hu (hn u d)) (Run.pure _))

theorem ExprOK.up17 (h : ExprOK sty ctx 18 e a b) : ExprOK sty ctx 17 e a b where
  head := by obtain ⟨t, c, h1, h2⟩ := h.head; exact ⟨t, c, h1, h2.mono (by decide)⟩
  span := h.span
  solo _ := h.solo (by decide)
  cps hl := nomatch hl
  run _ he n q := by
    obtain ⟨t, c, h1, h2⟩ := h.head
    exact Run.bind (run_position h1) (Run.bind (h.run rfl (he.mono (by decide)) n q)
      (Run.ifF (run_curF (Ends.punct he (p := p!"?.") rfl (by decide))) (Run.pure _)))

theorem ExprOK.up20 (h : ExprOK sty ctx 21 e a b) : ExprOK sty ctx 20 e a b where
  head := by obtain ⟨t, c, h1, h2⟩ := h.head; exact ⟨t, c, h1, h2.mono (by decide)⟩
  span := h.span
  solo _ := h.solo (by decide)
  cps _ he n q x d q' t c hn hk :=
    Run.bind (run_position hn) (Run.bind (h.run rfl he n q) (hk _))
  run hl := nomatch hl

/-- A conditional expression without `?`. -/
theorem ExprOK.conditional (h : ExprOK sty ctx 3 e a b) (he : Ends sty ctx 2 b) (n q : Nat) :
    Run sty (conditionalExpr (mkRec n) ctx) a q e b b.fin := by
  obtain ⟨t, c, h1, h2⟩ := h.head
  exact Run.bind (run_position h1) (Run.bind (h.parse (he.mono (by decide)) n q)
      (Run.ifF (run_curF (Ends.punct he (p := p!"?") rfl (by decide))) (Run.pure _)))

theorem ExprOK.up2 (h : ExprOK sty ctx 3 e a b) : ExprOK sty ctx 2 e a b where
  head := by obtain ⟨t, c, h1, h2⟩ := h.head; exact ⟨t, c, h1, h2.mono (by decide)⟩
  span := h.span
  solo _ := h.solo (by decide)
  cps hl := nomatch hl
  run _ he n q := h.conditional (he.mono (by decide)) n q

/-- From level 17 to level 3. -/
theorem ExprOK.down3 (h : ExprOK sty ctx 17 e a b) : ExprOK sty ctx 3 e a b :=
  ((((((((((((h.up16.up15.up14 (l := 14) (by decide) (by decide)).up14 (l := 13) (by decide) (by decide)).up14 (l := 12)
    (by decide) (by decide)).up14 (l := 11) (by decide) (by decide)).up14 (l := 10) (by decide) (by decide)).up14 (l := 9)
    (by decide) (by decide)).up14 (l := 8) (by decide) (by decide)).up14 (l := 7) (by decide) (by decide)).up14 (l := 6)
    (by decide) (by decide)).up14 (l := 5) (by decide) (by decide)).up14 (l := 4) (by decide) (by decide)).up14 (l := 3)
    (by decide) (by decide))

theorem run_peekAny (v : TokVal) : ∃ w, Run sty (peekMatches v) a q w a q :=
  ⟨_, Run.gets rfl⟩

/-- The start of `assignExpr`: neither `yield` nor `async` nor `x =>`. -/
theorem assign_general {e : Expr} (h1 : Next sty a t c) (hy : ctx.yield = true → t.value ≠ .keyword k!"yield")
    (ha : t.value ≠ .keyword k!"async")
    (hs : isIdentTok (.ok t) ctx.kw = true → Look sty c (fun u => u.value ≠ .punct p!"=>"))
    (h : Run sty (assignmentExprGeneral (mkRec n) ctx) a q e b q') : Run sty (assignExpr (mkRec n) ctx) a q e b q' := by
  refine Run.bind (run_curVal h1) ?_
  refine Run.iteF (fun hh => hy hh.2 (Option.some.inj hh.1)) (Run.iteF (fun hh => ha (Option.some.inj hh)) ?_)
  refine Run.bind (run_isIdent h1 ctx) ?_
  cases hi : isIdentTok (.ok t) ctx.kw with
  | false =>
    obtain ⟨w, hw⟩ := run_peekAny (sty := sty) (a := a) (q := q) (.punct p!"=>")
    exact Run.bind hw h
  | true =>
    exact Run.bind (x := false) (run_peekF h1 (hs hi)) h

theorem general_plain {e : Expr} (h1 : Next sty a t c) (h : Run sty (conditionalExpr (mkRec n) ctx) a q e b b.fin)
    (he : Ends sty ctx 1 b) : Run sty (assignmentExprGeneral (mkRec n) ctx) a q e b b.fin := by
  refine Run.bind (run_position h1) (Run.bind (run_current h1) ?_)
  refine Run.attempt (Run.bind (run_position h1) (Run.attempt h (Run.pure _))) ?_
  refine Run.bind (run_optOpNone fun u d hu => not_none fun op hop => ?_) (Run.pure _)
  exact absurd (he u d hu 1 (assign_cont (assignOpOf_some hop))) (by decide)

theorem ends_arrow {k : Nat} (h : Ends sty ctx k b) (hk : k ≤ 21) : Look sty b (fun u => u.value ≠ .punct p!"=>") :=
  Ends.punct h (p := p!"=>") rfl hk

theorem key_not_ident {d : Point} (hi : Key sty k!"function" c d) (h1 : Next sty a t c) (q : Nat) :
    Run sty (peekIsIdent ctx) a q false a q := by
  obtain ⟨u, h3, h4⟩ := hi
  have := run_peekIsIdent (q := q) h1 h3 ctx
  obtain ⟨v, f, s⟩ := u
  cases h4
  exact this

theorem ExprOK.up1 (h : ExprOK sty ctx 2 e a b) : ExprOK sty ctx 1 e a b where
  head := by obtain ⟨t, c, h1, h2⟩ := h.head; exact ⟨t, c, h1, h2.mono (by decide)⟩
  span := h.span
  solo hl := absurd hl (by decide)
  cps hl := nomatch hl
  run _ he n q := by
    refine run_assignExpr (fun n => ?_) n
    obtain ⟨t, c, h1, h2⟩ := h.head
    have hc : Run sty (conditionalExpr (mkRec n) ctx) a q e b b.fin := h.run rfl he n q
    by_cases ha : t.value = .keyword k!"async"
    · refine Run.bind (run_curVal h1) ?_
      refine Run.iteF (fun hh => h2.yield (by decide) hh.2 (Option.some.inj hh.1)) (Run.iteT (by rw [ha]) ?_)
      obtain ⟨d, hd⟩ := h2.async (by decide) ha
      refine Run.ifF (run_peekF h1 (tok_ne hd nofun)) (Run.ifF (run_peekF h1 (tok_ne hd nofun)) (Run.ifF ?_ hc))
      exact key_not_ident hd h1 q
    · refine assign_general h1 (h2.yield (by decide)) ha (fun hi => ?_) (general_plain h1 hc he)
      rcases h.solo (by decide) t c h1 hi with rfl | hl
      · exact ends_arrow he (by decide)
      · exact hl

theorem ExprOK.up0 (h : ExprOK sty ctx 1 e a b) : ExprOK sty ctx 0 e a b where
  head := by obtain ⟨t, c, h1, h2⟩ := h.head; exact ⟨t, c, h1, h2.mono (by decide)⟩
  span := h.span
  solo hl := absurd hl (by decide)
  cps hl := nomatch hl
  run _ he n q := by
    obtain ⟨t, c, h1, h2⟩ := h.head
    exact Run.bind (run_position h1) (Run.bind (h.run rfl (he.mono (by decide)) n q)
      (Run.ifF (run_curF (Ends.punct he (p := p!",") rfl (by decide))) (Run.pure _)))

theorem ExprOK.up (h : ExprOK sty ctx (l + 1) e a b) (hl : l ≤ 17 ∨ l = 20) : ExprOK sty ctx l e a b := by
  by_cases h3 : 3 ≤ l ∧ l ≤ 14
  · exact h.up14 h3.1 h3.2
  · have : l = 0 ∨ l = 1 ∨ l = 2 ∨ l = 15 ∨ l = 16 ∨ l = 17 ∨ l = 20 := by omega
    rcases this with rfl | rfl | rfl | rfl | rfl | rfl | rfl
    · exact h.up0
    · exact h.up1
    · exact h.up2
    · exact h.up15
    · exact h.up16
    · exact h.up17
    · exact h.up20

end
end Complete
end Fajt
