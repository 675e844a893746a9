import Verif.Proofs.CompleteFunction
import Verif.Proofs.CompleteSeek
import Verif.Proofs.CompleteSrc
/-!
# Completeness: arrow functions, destructuring assignments

A text in parentheses or a literal is first parsed as an expression.  The parser goes back when it finds out that the text is
something else: it fails with an error that is caught.  `Fails` says which error.
-/
namespace Fajt
open Spec
set_option linter.unusedSectionVars false
variable [UnicodeID]

namespace Complete
open Parser

section
variable {sty : SourceType} {α β : Type} {a b c x : Point} {q q1 q' : Nat} {e : PErr}

theorem Fails.attemptOk {m : P α} {f : α → P β} {g : PErr → P β} {v : α} (h1 : Run sty m a q v b q1)
    (h2 : Fails sty (f v) b q1 e x q') : Fails sty (M.attempt m f g) a q e x q' := by
  unfold Run Fails at *
  simp only [M.attempt]
  rcases h1 with h1 | h1
  · exact .inl (by rw [h1])
  · rw [h1]; exact h2

theorem Fails.attempt {m : P α} {f : α → P β} {g : PErr → P β} {e1 : PErr} (h1 : Fails sty m a q e1 b q1)
    (h2 : Fails sty (g e1) b q1 e x q') : Fails sty (M.attempt m f g) a q e x q' := by
  unfold Fails at *
  simp only [M.attempt]
  rcases h1 with h1 | h1
  · exact .inl (by rw [h1])
  · rw [h1]; exact h2

theorem Fails.throw : Fails sty (M.throw e : P α) a q e a q := .inr rfl

theorem Fails.iteT {p : Prop} [Decidable p] {A B : P β} (hp : p) (h : Fails sty A a q e x q') :
    Fails sty (if p then A else B) a q e x q' := by rw [if_pos hp]; exact h

theorem Fails.iteF {p : Prop} [Decidable p] {A B : P β} (hp : ¬ p) (h : Fails sty B a q e x q') :
    Fails sty (if p then A else B) a q e x q' := by rw [if_neg hp]; exact h

theorem Fails.loop_here {body : β → P (β ⊕ α)} {v : β} (h1 : Fails sty (body v) a q e x q') (n : Nat) :
    Fails sty (loop body n v) a q e x q' := by
  cases n with
  | zero => exact .inl rfl
  | succ n => exact Fails.bind h1

theorem Fails.loop_step {body : β → P (β ⊕ α)} {v v' : β} (h1 : Run sty (body v) a q (.inl v') b q1)
    (h2 : ∀ n, Fails sty (loop body n v') b q1 e x q') (n : Nat) : Fails sty (loop body n v) a q e x q' := by
  cases n with
  | zero => exact .inl rfl
  | succ n => exact Fails.seq h1 (h2 n)

theorem fails_mk {f : Rec → P α} {g : Rec → P α} (h0 : ∀ s, f (mkRec 0) s = .oof)
    (hs : ∀ n, f (mkRec (n + 1)) = g (mkRec n)) (h : ∀ n, Fails sty (g (mkRec n)) a q e x q') (n : Nat) :
    Fails sty (f (mkRec n)) a q e x q' := by
  cases n with
  | zero => exact .inl (h0 _)
  | succ n => rw [hs]; exact h n
end

section
variable {sty : SourceType} {a b c d m o p x : Point} {q q' q1 n l : Nat} {t u : Token} {ctx : Ctx} {e y z : Expr} {sp asp : Span}
  {as : List Argument} {id : Ident} {er : PErr}

/-! ## From a primary expression to a conditional expression -/

/-- The tokens in question. -/
def coverHead (v : TokVal) : Prop := v ∈ [.punct p!"(", .punct p!"[", .punct p!"{", .punct p!"..."]

theorem coverHead_cases {v : TokVal} (h : coverHead v) :
    v = .punct p!"(" ∨ v = .punct p!"[" ∨ v = .punct p!"{" ∨ v = .punct p!"..." := by
  simpa [coverHead] using h

theorem fails_up (hn : Next sty a t c) (ht : coverHead t.value)
    (h : ∀ n q, Fails sty (primaryExpr (mkRec n) ctx) a q er x q') (n q : Nat) :
    Fails sty (conditionalExpr (mkRec n) ctx) a q er x q' := by
  have hp : ∃ p, t.value = .punct p := by rcases coverHead_cases ht with h | h | h | h <;> exact ⟨_, h⟩
  obtain ⟨p, hp⟩ := hp
  have hu : unaryOpOf t.value = none := by rcases coverHead_cases ht with h | h | h | h <;> rw [h] <;> rfl
  have hup : updateOpOf t.value = none := by rcases coverHead_cases ht with h | h | h | h <;> rw [h] <;> rfl
  have h21 : ∀ n q, Fails sty (memberExprFromTerminal (mkRec n) ctx) a q er x q' := fun n q => by
    obtain ⟨w, hw⟩ := run_peekAny (sty := sty) (a := a) (q := q) (.punct p!".")
    exact Fails.seq (run_current hn) (Fails.seq hw (Fails.iteF (by rw [hp]; nofun) (Fails.iteF (by rw [hp]; nofun)
      (Fails.iteF (by rw [hp]; nofun) (h n q)))))
  have h20 : ∀ n q, Fails sty (newOrMember (mkRec n) ctx) a q er x q' := fun n q =>
    Fails.seq (run_position hn) (Fails.bind (h21 n q))
  have h18 : ∀ n q, Fails sty (callOrMemberExpr (mkRec n) ctx) a q er x q' := fun n q => by
    obtain ⟨w, hw⟩ := run_peekAny (sty := sty) (a := a) (q := q) (.punct p!"(")
    refine Fails.seq hw (Fails.seq (run_curVal hn) (Fails.iteF ?_ (Fails.iteF ?_ (Fails.seq (run_position hn) (Fails.bind ?_)))))
    · rw [hp]; nofun
    · rw [hp]; nofun
    · exact fails_mk (f := fun r => r.newOrMember ctx) (g := fun r => newOrMember r ctx) (fun _ => rfl) (fun _ => rfl)
        (fun n => h20 n q) n
  have h17 : ∀ n q, Fails sty (leftHandSideExpr (mkRec n) ctx) a q er x q' := fun n q =>
    Fails.seq (run_position hn) (Fails.bind (h18 n q))
  have h16 : ∀ n q, Fails sty (updateExpr (mkRec n) ctx) a q er x q' := fun n q =>
    Fails.seq (run_position hn) (Fails.seq (run_optOpNone ((look_iff hn).2 hup)) (Fails.bind (h17 n q)))
  have h15 : ∀ n q, Fails sty (lv (mkRec n) ctx 15) a q er x q' := fun n q => by
    refine fails_mk (f := fun r => r.unary ctx) (g := fun r => unary r ctx) (fun _ => rfl) (fun _ => rfl) (fun n => ?_) n
    refine Fails.seq (run_position hn) (Fails.seq (run_optOpNone ((look_iff hn).2 hu)) ?_)
    unfold awaitOrUpdateExpr
    by_cases ha : ctx.await = true
    · exact Fails.iteT ha (Fails.seq (run_current hn) (Fails.iteF (by rw [hp]; nofun) (h16 n q)))
    · exact Fails.iteF ha (h16 n q)
  have down : ∀ k l, l + k = 15 → 3 ≤ l → ∀ n q, Fails sty (lv (mkRec n) ctx l) a q er x q' := by
    intro k
    induction k with
    | zero => intro l hl _ n q; obtain rfl : l = 15 := by omega
              exact h15 n q
    | succ k ih =>
      intro l hl h3 n q
      rw [lv_eq _ _ h3 (by omega)]
      exact Fails.seq (run_position hn) (Fails.bind (ih (l + 1) (by omega) (by omega) n q))
  exact Fails.seq (run_position hn) (Fails.bind (down 12 3 rfl (by decide) n q))

/-! ## Meanings -/

/-- The error of the parser. -/
def stopErr : Stop → PErr
  | .dots t => PErr.unexpectedToken t
  | .init i => PErr.initializedName i

variable (sty ctx) in
structure ArrowBodyOK (bd : ArrowBody) (a b : Point) : Prop where
  run : Ends sty ctx 1 b → ∀ n q, Run sty (conciseBody (mkRec n) ctx) a q bd b b.fin

variable (sty ctx) in
structure AheadOK (a : Point) : Prop where
  head : ∃ c, Sym sty p!"(" a c
  run : ∀ er x q', (∀ n q, Fails sty (throwArrow (mkRec n) ctx) a q er x q') →
    ∀ n q, Fails sty (coverParenthesizedAndArrowParameters (mkRec n) ctx) a q er x q'

variable (sty ctx) in
structure AssignPatternOK (p : AssignPattern) (a b : Point) : Prop where
  head : ∃ t c, Next sty a t c ∧ (t.value = .punct p!"{" ∨ t.value = .punct p!"[")
  span : From sty a b p.span
  run : ∀ n q, Run sty (assignPattern (mkRec n) ctx) a q p b b.fin

variable (sty ctx) in
structure InitLitOK (i : Span) (a x : Point) : Prop where
  head : ∃ t c, Next sty a t c ∧ (t.value = .punct p!"{" ∨ t.value = .punct p!"[")
  fails : ∀ n q, Fails sty (primaryExpr (mkRec n) ctx) a q (PErr.initializedName i) x x.fin

variable (sty ctx) in
structure StopOK (s : Stop) (a x : Point) : Prop where
  head : ∃ t c, Next sty a t c ∧ t.value ∈ [.punct p!"[", .punct p!"{", .punct p!"..."]
  dots : ∀ t, s = .dots t → t.value = .punct p!"..."
  init : ∀ i, s = .init i → ∃ t c, Next sty a t c ∧ (t.value = .punct p!"{" ∨ t.value = .punct p!"[")
  fails : ∀ n q, Fails sty (assignExpr (mkRec n) ctx) a q (stopErr s) x x.fin

variable (sty ctx) in
structure StopsOK (s : Stop) (a x : Point) : Prop where
  head : ∃ t c, Next sty a t c ∧ t.value ≠ .punct p!")"
  dots : ∀ t, s = .dots t → t.value = .punct p!"..."
  fails : ∀ n q, Fails sty (expr (mkRec n) ctx) a q (stopErr s) x x.fin
  more : ∀ n k q acc c, Sym sty p!"," c a → Fails sty (loop (seqBody (mkRec n) ctx) k acc) c q (stopErr s) x x.fin

variable (sty ctx) in
def InitPropsOK (i : Span) (a x : Point) : Prop :=
  ∀ n k q acc, Fails sty (loop (propBody (mkRec n) ctx) k acc) a q (PErr.initializedName i) x x.fin

variable (sty ctx) in
def InitElementsOK (i : Span) (a x : Point) : Prop :=
  ∀ n k q acc, Fails sty (loop (elemBody (mkRec n) ctx) k acc) a q (PErr.initializedName i) x x.fin

/-! ## Bodies and arrow functions -/

theorem ends_inside {k : Nat} {w : Bool} : Ends sty (insideArrow ctx w) k a ↔ Ends sty ctx k a := Iff.rfl

theorem arrowExpr_ok (hl : Look sty a fun t => t.value ≠ .punct p!"{") (h : ExprOK sty ctx 1 e a b) :
    ArrowBodyOK sty ctx (.expr e) a b :=
  ⟨fun he n q => Run.ifF (run_curF hl) (Run.bind (h.parse he n q) (Run.pure _))⟩

theorem arrowBlock_ok {bd : Body} (h : BodyOK sty ctx bd a b) : ArrowBodyOK sty ctx (.body bd) a b := by
  obtain ⟨c, hc⟩ := h.head
  exact ⟨fun _ n q => Run.ifT (run_curT hc) (Run.bind (h.run n q) (Run.pure _))⟩

theorem ident_startVal (h : IdentTok ctx t id) : startVal t.value = true := by
  have res : ∀ k : Keyword, k.allowedAsIdent ({} : Ctx).kw = false → t.value ≠ .keyword k := fun k hk => ident_not_reserved hk h
  have hp : ∀ p, t.value ≠ .punct p := fun p hp => by
    rcases ident_shape h with ⟨s, h⟩ | ⟨s, h⟩ <;> rw [hp] at h <;> cases h
  simp only [startVal, stmtWords, List.cons_append, List.nil_append, List.mem_cons, List.not_mem_nil, or_false, not_or,
    decide_eq_true_eq]
  refine ⟨?_, ?_, ?_, ?_, ?_, ?_, ?_, ?_, ?_, ?_, ?_, ?_⟩
  all_goals first | exact hp _ | exact ⟨res _ rfl, res _ rfl, res _ rfl, res _ rfl, res _ rfl, res _ rfl, res _ rfl,
    res _ rfl, res _ rfl, res _ rfl, res _ rfl, res _ rfl, res _ rfl, res _ rfl, res _ rfl, res _ rfl, res _ rfl,
    res _ rfl, res _ rfl, res _ rfl⟩

theorem headTok1 (h : startVal t.value = true) : HeadTok sty ctx 1 t c :=
  ⟨h, fun h => absurd h (by decide), fun h => absurd h (by decide), fun h => absurd h (by decide), fun h => absurd h (by decide),
    fun h => absurd h (by decide), fun h => absurd h (by decide)⟩

/-- An expression of level 1 that is parsed by `assignExpr`. -/
theorem expr1_ok (hn : Next sty a t c) (ht : startVal t.value = true) (hs : From sty a b e.span)
    (h : Ends sty ctx 1 b → ∀ n q, Run sty (assignExpr (mkRec n) ctx) a q e b b.fin) : ExprOK sty ctx 1 e a b where
  head := ⟨t, c, hn, headTok1 ht⟩
  span := hs
  solo hl := absurd hl (by decide)
  cps hl := nomatch hl
  run _ he n q := run_assignExpr (fun n => h he n q) n

/-- The part of an arrow function from `=>` on. -/
theorem run_arrowTail {bd : ArrowBody} {start : Nat} {w bp : Bool} {ps : FormalParams} (h3 : Next sty m u o) (hv : u.value = .punct p!"=>")
    (hf : u.fol = false) (h4 : ArrowBodyOK sty (insideArrow ctx w) bd o b) (he : Ends sty ctx 1 b) (n q : Nat)
    (h : Run sty (arrowFunctionParameters (mkRec n) ctx) a q (bp, ps) m m.fin) :
    Run sty (arrowFunction (mkRec n) ctx start w) a q (.arrow ⟨start, b.fin⟩ w bp ps bd) b b.fin := by
  have ha := run_assert (q := m.fin) h3
  rw [hv] at ha
  exact Run.bind h (Run.bind ha (Run.iteF (by rw [hf]; nofun) (Run.bind (h4.run (ends_inside.2 he) n _)
    (Run.bind (run_spanFrom _) (Run.pure _)))))

theorem run_arrowIdentParams (h1 : Next sty a t m) (hi : IdentTok ctx t id) (n q : Nat) :
    Run sty (arrowFunctionParameters (mkRec n) ctx) a q (true, .mk t.span [.mk t.span (.ident id) none] none) m m.fin := by
  have e : t.span = ⟨t.span.start, m.fin⟩ := by rw [← next_fin h1]
  refine Run.ifT (by have := run_isIdent (q := q) h1 ctx; rwa [isIdentTok_of hi] at this) ?_
  refine Run.bind (x := .mk t.span [.mk t.span (.ident id) none] none) ?_ (Run.pure _)
  refine Run.bind (run_position h1) (Run.bind (run_parseIdent h1 hi) (Run.bind (run_spanFrom _) ?_))
  rw [← e]
  exact Run.pure _

theorem ident_yield (h : IdentTok ctx t id) (hy : ctx.yield = true) : t.value ≠ .keyword k!"yield" := by
  intro hv
  obtain ⟨v, f, s⟩ := t
  cases hv
  have hk := isIdentTok_of h
  simp only [isIdentTok] at hk
  revert hk
  simp [Keyword.allowedAsIdent, Ctx.kw, hy]

theorem arrowIdent_ok {bd : ArrowBody} (h1 : Next sty a t m) (hi : IdentTok ctx t id) (h3 : Next sty m u o) (hv : u.value = .punct p!"=>")
    (hf : u.fol = false) (h4 : ArrowBodyOK sty (insideArrow ctx false) bd o b) (hs : From sty a b sp) :
    ExprOK sty ctx 1 (.arrow sp false true (.mk t.span [.mk t.span (.ident id) none] none) bd) a b := by
  refine expr1_ok h1 (ident_startVal hi) hs fun he n q => ?_
  have main : Run sty (arrowFunctionExpr (mkRec n) ctx) a q (.arrow sp false true (.mk t.span [.mk t.span (.ident id) none] none) bd) b b.fin := by
    rw [From.eq hs h1]
    exact Run.bind (run_position h1) (run_arrowTail h3 hv hf h4 he n q (run_arrowIdentParams h1 hi n q))
  refine Run.bind (run_curVal h1) (Run.iteF (fun hh => ident_yield hi hh.2 (Option.some.inj hh.1)) ?_)
  by_cases ha : t.value = .keyword k!"async"
  · exact Run.iteT (by rw [ha]) (Run.ifT (run_peekT h1 ⟨u, h3, hv⟩) main)
  · refine Run.iteF (fun h => ha (Option.some.inj h)) (Run.bind (x := true) (b := a) (q1 := q) ?_ ?_)
    · have := run_isIdent (q := q) h1 ctx
      rwa [isIdentTok_of hi] at this
    · exact Run.bind (x := true) (run_peekT h1 ⟨u, h3, hv⟩) main

theorem run_arrowParams {ps : FormalParams} (h : ParamsOK sty ctx ps a m) (n q : Nat) :
    Run sty (arrowFunctionParameters (mkRec n) ctx) a q (false, ps) m m.fin := by
  obtain ⟨c, t, hn, hv⟩ := h.head
  refine Run.ifF ?_ (Run.bind (h.run n q) (Run.pure _))
  have := run_isIdent (q := q) hn ctx
  rwa [punct_not_ident hv] at this

theorem arrow_ok {ps : FormalParams} {bd : ArrowBody} (h1 : AheadOK sty ctx a) (h2 : ParamsOK sty ctx ps a m) (h3 : Next sty m u o)
    (hv : u.value = .punct p!"=>") (hf : u.fol = false) (h4 : ArrowBodyOK sty (insideArrow ctx false) bd o b) (hs : From sty a b sp) :
    ExprOK sty ctx 1 (.arrow sp false false ps bd) a b := by
  obtain ⟨c, t, hn, ht⟩ := h1.head
  refine expr1_ok hn (by rw [ht]; rfl) hs fun he n q => ?_
  refine assign_general hn (fun _ => by rw [ht]; nofun) (by rw [ht]; nofun) (fun h => by rw [punct_not_ident ht] at h; cases h) ?_
  refine Run.bind (run_position hn) (Run.bind (run_current hn) ?_)
  have hth : ∀ n q, Fails sty (throwArrow (mkRec n) ctx) a q (PErr.arrowNotAllowed (.arrow sp false false ps bd)) b b.fin := fun n q => by
    refine Fails.seq (x := .arrow sp false false ps bd) ?_ Fails.throw
    rw [From.eq hs hn]
    exact Run.bind (run_position hn) (run_arrowTail h3 hv hf h4 he n q (run_arrowParams h2 n q))
  have hpr : ∀ n q, Fails sty (primaryExpr (mkRec n) ctx) a q (PErr.arrowNotAllowed (.arrow sp false false ps bd)) b b.fin := fun n q => by
    refine Fails.seq (run_current hn) ?_
    simp only [ht]
    exact h1.run _ _ _ hth n q
  have hc := fails_up hn (by rw [ht]; simp [coverHead]) hpr n q
  have hst : sp.start = t.span.start := by rw [From.eq hs hn]
  refine Run.attempt (x := .arrow sp false false ps bd) (b := b) (q1 := b.fin) ?_ ?_
  · exact Run.bind (run_position hn) (Run.attemptErr hc (Run.iteT hst (Run.pure _)))
  · refine Run.bind (run_optOpNone fun u d hu => not_none fun op hop => ?_) (Run.pure _)
    exact absurd (he u d hu 1 (assign_cont (assignOpOf_some hop))) (by decide)

theorem async_ident {ctx : Ctx} (h : t.value = .keyword k!"async") : ∃ id, IdentTok ctx t id := ⟨_, .keyword h rfl⟩

theorem punct_peekNotIdent {p : Punct} (h1 : Next sty a t m) (h2 : Next sty m u o) (hv : u.value = .punct p) (q : Nat) :
    Run sty (peekIsIdent ctx) a q false a q := by
  have := run_peekIsIdent (q := q) h1 h2 ctx
  rwa [punct_not_ident hv] at this

theorem asyncArrowIdent_ok {bd : ArrowBody} {l' : Point} (h0 : Key sty k!"async" a l') (h1 : Next sty l' t m) (hi : IdentTok ctx t id)
    (h3 : Next sty m u o) (hv : u.value = .punct p!"=>")
    (hf : u.fol = false) (h4 : ArrowBodyOK sty (insideArrow ctx true) bd o b) (hs : From sty a b sp) :
    ExprOK sty ctx 1 (.arrow sp true true (.mk t.span [.mk t.span (.ident id) none] none) bd) a b := by
  obtain ⟨t0, hn, ht⟩ := h0
  have hp : ∀ p, t.value ≠ .punct p := fun p hp => by
    rcases ident_shape hi with ⟨s, h⟩ | ⟨s, h⟩ <;> rw [hp] at h <;> cases h
  refine expr1_ok hn (by rw [ht]; rfl) hs fun he n q => ?_
  refine Run.bind (run_curVal hn) (Run.iteF (by rw [ht]; nofun) (Run.iteT (by rw [ht]) ?_))
  refine Run.ifF (run_peekF hn ((look_iff h1).2 (hp _))) (Run.ifF (run_peekF hn ((look_iff h1).2 (hp _))) (Run.ifT (b := a) (q1 := q) ?_ ?_))
  · have := run_peekIsIdent (q := q) hn h1 ctx
    rwa [isIdentTok_of hi] at this
  · rw [From.eq hs hn]
    exact Run.bind (run_position hn) (Run.assert ⟨t0, hn, ht⟩ (run_arrowTail h3 hv hf h4 he n _ (run_arrowIdentParams h1 hi n _)))

theorem run_coveredCall (hn : Next sty a t m) (hi : IdentTok ctx t id) (h : ArgsOK sty ctx asp as m b) (n q : Nat) :
    Run sty (coveredCallExpression (mkRec n) ctx) a q (.call ⟨t.span.start, b.fin⟩ (.expr (.ident id)) asp as) b b.fin :=
  Run.bind (run_position hn) (Run.bind (run_parseIdent hn hi) (Run.bind (h.run n _) (Run.bind (run_spanFrom _) (Run.pure _))))

theorem asyncHead (hn : Next sty a t m) (ht : t.value = .keyword k!"async") (h : ArgsOK sty ctx asp as m c) (n q : Nat)
    (hr : Run sty (coverCallOrAsyncArrowHead (mkRec n) ctx) a q e b b.fin) : Run sty (assignExpr (mkRec n) ctx) a q e b b.fin := by
  obtain ⟨d, hd⟩ := h.head
  refine Run.bind (run_curVal hn) (Run.iteF (by rw [ht]; nofun) (Run.iteT (by rw [ht]) ?_))
  exact Run.ifF (run_peekF hn (tok_ne hd nofun)) (Run.ifT (run_peekT hn hd) hr)

theorem asyncArrow_ok {ps : FormalParams} {bd : ArrowBody} {l' : Point} (hk : Seekable sty a) (h0 : Key sty k!"async" a l')
    (h1 : ArgsOK sty ctx asp as l' m) (h2 : ParamsOK sty ctx ps l' m) (hm : src m = src l') (h3 : Next sty m u o)
    (hv : u.value = .punct p!"=>") (hf : u.fol = false) (h4 : ArrowBodyOK sty (insideArrow ctx true) bd o b) (hs : From sty a b sp) :
    ExprOK sty ctx 1 (.arrow sp true false ps bd) a b := by
  obtain ⟨t, hn, ht⟩ := h0
  refine expr1_ok hn (by rw [ht]; rfl) hs fun he n q => asyncHead hn ht h1 n q ?_
  obtain ⟨id, hi⟩ := async_ident (ctx := ctx) ht
  refine Run.bind (run_current hn) (Run.bind (run_coveredCall hn hi h1 n q) (Run.ifT (run_curT ⟨u, h3, hv⟩) ?_))
  refine Run.bind (run_rewind hn hk (by rw [hm, next_src hn])) ?_
  rw [From.eq hs hn]
  exact Run.bind (run_position hn) (Run.assert ⟨t, hn, ht⟩ (run_arrowTail h3 hv hf h4 he n _ (run_arrowParams h2 n _)))

theorem asyncCall_ok (hn : Next sty a t m) (ht : t.value = .keyword k!"async") (hi : IdentTok ctx t id)
    (h1 : ArgsOK sty ctx asp as m b) (hs : From sty a b sp) : ExprOK sty ctx 1 (.call sp (.expr (.ident id)) asp as) a b := by
  refine expr1_ok hn (by rw [ht]; rfl) hs fun he n q => asyncHead hn ht h1 n q ?_
  rw [From.eq hs hn]
  exact Run.bind (run_current hn) (Run.bind (run_coveredCall hn hi h1 n q)
    (Run.ifF (run_curF (ends_arrow he (by decide))) (Run.pure _)))

/-! ## Parameters that could be expressions -/

theorem aheadEmpty_ok (h1 : Sym sty p!"(" a m) (h2 : Sym sty p!")" m b) : AheadOK sty ctx a := by
  obtain ⟨t, hn, hv⟩ := h1
  exact ⟨⟨m, t, hn, hv⟩, fun er x q' h n q => Fails.seq (run_current hn) (Fails.seq (x := true) (run_peekT hn h2) (h n q))⟩

theorem aheadParen_ok (hk : Seekable sty a) (h1 : Sym sty p!"(" a m) (h2 : ExprOK sty { ctx with in_ := true } 0 e m o)
    (ho : src o = src m) (h3 : Sym sty p!")" o p) (h4 : Sym sty p!"=>" p b) : AheadOK sty ctx a := by
  obtain ⟨t, hn, hv⟩ := h1
  obtain ⟨u, c, hu, hh⟩ := h2.head
  refine ⟨⟨m, t, hn, hv⟩, fun er x q' h n q => Fails.seq (run_current hn) (Fails.seq (x := false)
    (run_peekF hn ((look_iff hu).2 (startVal_ne hh.start (by decide)))) ?_)⟩
  refine Fails.attemptOk (v := .paren ⟨t.span.start, p.fin⟩ e) (b := p) (q1 := p.fin) ?_ ?_
  · exact Run.bind (run_position hn) (Run.assert ⟨t, hn, hv⟩ (Run.bind (h2.parse (ends_close h3 (by simp)) n _)
      (Run.assert h3 (Run.bind (run_spanFrom _) (Run.pure _)))))
  · exact Fails.seq (x := true) (run_curT h4) (Fails.seq (run_rewind hn hk (by rw [tok_src h3, ho, next_src hn])) (h n _))

theorem stopErr_retry {s : Stop} (hd : ∀ t, s = .dots t → t.value = .punct p!"...") : (stopErr s).kind.isCoverRetry = true := by
  cases s with
  | dots t =>
    have := hd t rfl
    simp only [stopErr, PErr.unexpectedToken, this]
    rfl
  | init i => rfl

theorem aheadStop_ok {s : Stop} (hk : Seekable sty a) (h1 : Sym sty p!"(" a m) (h2 : StopsOK sty { ctx with in_ := true } s m b)
    (hb : src b = src m) : AheadOK sty ctx a := by
  obtain ⟨t, hn, hv⟩ := h1
  obtain ⟨u, c, hu, hne⟩ := h2.head
  refine ⟨⟨m, t, hn, hv⟩, fun er x q' h n q => Fails.seq (run_current hn) (Fails.seq (x := false)
    (run_peekF hn ((look_iff hu).2 hne)) ?_)⟩
  refine Fails.attempt (e1 := stopErr s) (b := b) (q1 := b.fin) ?_ ?_
  · exact Fails.seq (run_position hn) (by
      obtain ⟨t', ht', hn', hr⟩ := run_assertTok (q := q) ⟨t, hn, hv⟩
      exact Fails.seq hr (Fails.bind (h2.fails n _)))
  · exact Fails.iteT (stopErr_retry h2.dots) (Fails.seq (run_rewind hn hk (by rw [hb, next_src hn])) (h n _))

theorem fails_assignRec (h : ∀ n q, Fails sty (assignExpr (mkRec n) ctx) a q er x q') (n q : Nat) :
    Fails sty ((mkRec n).assignExpr ctx) a q er x q' :=
  fails_mk (f := fun r => r.assignExpr ctx) (g := fun r => assignExpr r ctx) (fun _ => rfl) (fun _ => rfl) (fun n => h n q) n

theorem stopsHere_ok {s : Stop} (h : StopOK sty ctx s a b) : StopsOK sty ctx s a b := by
  obtain ⟨t, c, hn, ht⟩ := h.head
  refine ⟨⟨t, c, hn, ?_⟩, h.dots, fun n q => ?_, fun n k q acc d hd => ?_⟩
  · intro hv; rw [hv] at ht; simp at ht
  · exact Fails.seq (run_position hn) (Fails.bind (fails_assignRec h.fails n q))
  · exact Fails.loop_here (Fails.seq (x := true) (run_maybeT hd) (Fails.bind (fails_assignRec h.fails n _))) k

theorem stopsMore_ok {s : Stop} (h1 : ExprOK sty ctx 1 e a m) (h2 : Sym sty p!"," m o) (h3 : StopsOK sty ctx s o b) :
    StopsOK sty ctx s a b := by
  obtain ⟨t, c, hn, hh⟩ := h1.head
  refine ⟨⟨t, c, hn, startVal_ne hh.start (by decide)⟩, h3.dots, fun n q => ?_, fun n k q acc d hd => ?_⟩
  · exact Fails.seq (run_position hn) (Fails.seq (h1.parse (ends_comma h2) n q) (Fails.seq (x := true) (run_curT h2)
      (Fails.bind (h3.more n _ _ _ _ h2))))
  · have e : Run sty (seqBody (mkRec n) ctx acc) d q (.inl (acc ++ [e])) m m.fin :=
      Run.ifT (run_maybeT hd) (Run.bind (h1.parse (ends_comma h2) n _) (Run.pure _))
    exact Fails.loop_step e (fun k => h3.more n k _ _ _ h2) k

end
end Complete
end Fajt
