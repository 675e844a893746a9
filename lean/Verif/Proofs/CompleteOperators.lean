import Verif.Proofs.CompleteRules
/-!
# Completeness: operators, assignments, comma expressions
-/
namespace Fajt
open Spec
set_option linter.unusedSectionVars false
variable [UnicodeID]

namespace Complete
open Parser

section
variable {sty : SourceType} {a b c m o p : Point} {q q' n l : Nat} {t u : Token} {ctx : Ctx} {e x y z : Expr} {sp asp : Span}
  {id : Ident}

theorem updateCheck (h : TargetOK ctx.strict e) : e.earlyErrorsUpdate ctx = .ok () :=
  (Props.C31_checks_agree ctx e).1 ((Props.C31_target_check ctx _ e).2 h)

theorem lhsCheck (h : TargetOK ctx.strict e) : e.earlyErrorsLhs ctx = .ok () :=
  (Props.C31_target_check ctx _ e).2 h

/-- No operator has level 15. -/
theorem ends15 (h : Ends sty ctx 16 b) : Ends sty ctx 15 b := fun t c hn l hl => by
  have h' := h t c hn l hl
  have : l ≠ 15 := by
    rintro rfl
    unfold contLevel at hl
    split at hl
    all_goals first | (cases hl; done) | (split at hl <;> cases hl)
  omega

theorem prefixUpdate_ok {op : UpdateOp} (h1 : Next sty a t m) (hv : symbol t.value = some op.asStr)
    (h2 : ExprOK sty ctx 15 e m b) (h3 : TargetOK ctx.strict e) (hs : From sty a b sp) :
    ExprOK sty ctx 16 (.update sp op true e) a b := by
  have hv := updTok_of hv
  have hh : HeadTok sty ctx 16 t m := by
    cases op <;> exact ⟨by rw [hv]; rfl, fun _ _ => by rw [hv]; nofun, fun _ => by rw [hv]; nofun, fun _ => by rw [hv]; rfl,
      fun _ _ => by rw [hv]; nofun, fun h => absurd h (by decide), fun h => absurd h (by decide)⟩
  refine ⟨Base.tok h1 hh (fun _ => by cases op <;> exact punct_not_ident hv) hs, nofun, fun _ he n q => ?_⟩
  refine Run.bind (run_position h1) (Run.bind (run_optOpSome h1 (by rw [hv]; exact updateOpOf_tok op)) ?_)
  rw [From.eq hs h1]
  refine Run.bind (h2.run rfl (ends15 he) n _) ?_
  rw [updateCheck h3]
  exact Run.bind Run.ofExcept (Run.bind (run_spanFrom _) (Run.pure _))

theorem ends_op {k : Nat} (hn : Next sty m t o) (hc : contLevel ctx t = some k) : Ends sty ctx (k + 1) m :=
  Ends.of_next hn fun l hl => by rw [hc] at hl; cases hl; exact Nat.lt_succ_self _

theorem postfixUpdate_ok {op : UpdateOp} (h1 : ExprOK sty ctx 17 e a m) (h3 : TargetOK ctx.strict e) (h2 : Next sty m t b)
    (hv : symbol t.value = some op.asStr) (hf : t.fol = false) (hs : From sty a b sp) :
    ExprOK sty ctx 16 (.update sp op false e) a b := by
  have he : Ends sty ctx 17 m := ends_op h2 (update_cont hv hf)
  refine ⟨h1.toBase.left (by decide) (ends_arrow he (by decide)) hs, nofun, fun _ _ n q => ?_⟩
  obtain ⟨u, c, hu, hh⟩ := h1.head
  refine Run.bind (run_position hu) (Run.bind (run_optOpNone ((look_iff hu).2 (hh.update (by decide)))) ?_)
  refine Run.bind (h1.run rfl he n q) (Run.ifF (hf ▸ run_firstOnLine h2) ?_)
  refine Run.bind (run_optOpSome h2 (by rw [updTok_of hv]; exact updateOpOf_tok op)) ?_
  show Run sty (M.ofExcept (e.earlyErrorsUpdate ctx) >>= fun _ => _) _ _ _ _ _
  rw [updateCheck h3, From.eq hs hu]
  have hst : e.span.start = u.span.start := by rw [From.eq h1.span hu]
  refine Run.bind Run.ofExcept ?_
  rw [hst]
  exact Run.bind (run_spanFrom _) (Run.pure _)

theorem unary_ok {op : UnaryOp} (h1 : Next sty a t m) (hv : symbol t.value = some op.asStr)
    (h2 : ExprOK sty ctx 15 e m b) (h3 : op = .delete → DeleteOK ctx.strict e) (hs : From sty a b sp) :
    ExprOK sty ctx 15 (.unary sp op e) a b := by
  have hv := unTok_of hv
  have hh : HeadTok sty ctx 15 t m := by
    cases op <;> exact ⟨by rw [hv]; rfl, fun _ _ => by rw [hv]; nofun, fun _ => by rw [hv]; nofun, fun h => absurd h (by decide),
      fun h => absurd h (by decide), fun h => absurd h (by decide), fun h => absurd h (by decide)⟩
  refine ⟨Base.tok h1 hh (fun _ => ?_) hs, nofun, fun _ he n q => ?_⟩
  · cases op <;> first | exact punct_not_ident hv | exact reserved_not_ident rfl hv
  refine run_unary (fun n => ?_) n
  refine Run.bind (run_position h1) (Run.bind (run_optOpSome h1 (by rw [hv]; exact unaryOpOf_tok op)) ?_)
  rw [From.eq hs h1]
  refine Run.bind (h2.run rfl he n _) ?_
  refine Run.bind (x := ()) ?_ (Run.bind (run_spanFrom _) (Run.pure _))
  by_cases hd : op = .delete
  · rw [if_pos hd, (Props.C32_delete_check ctx e).1.2 (h3 hd)]; exact Run.ofExcept
  · rw [if_neg hd]; exact Run.ofExcept

theorem await_ok (hc : ctx.await = true) (h1 : Key sty k!"await" a m) (h2 : ExprOK sty ctx 15 e m b) (hs : From sty a b sp) :
    ExprOK sty ctx 15 (.await sp e) a b := by
  obtain ⟨t, hn, hv⟩ := h1
  refine ⟨Base.tok hn ⟨by rw [hv]; rfl, fun _ _ => by rw [hv]; nofun, fun _ => by rw [hv]; nofun, fun h => absurd h (by decide),
      fun h => absurd h (by decide), fun h => absurd h (by decide), fun h => absurd h (by decide)⟩ (fun _ => ?_) hs, nofun,
      fun _ he n q => ?_⟩
  · obtain ⟨v, f, s⟩ := t
    cases hv
    simp [isIdentTok, Keyword.allowedAsIdent, Ctx.kw, hc]
  refine run_unary (fun n => ?_) n
  refine Run.bind (run_position hn) (Run.bind (run_optOpNone ((look_iff hn).2 (by rw [hv]; rfl))) ?_)
  refine Run.iteT hc (Run.bind (run_current hn) (Run.iteT hv ?_))
  rw [From.eq hs hn]
  exact Run.bind (run_position hn) (Run.assert ⟨t, hn, hv⟩ (Run.bind (h2.run rfl he n _) (Run.bind (run_spanFrom _) (Run.pure _))))

theorem endLevel_eq (h : l ≠ 2) : endLevel l = l := by
  unfold endLevel
  split
  · contradiction
  · rfl
  · rfl

theorem binaryLevel_bounds (op : BinaryOp) : 3 ≤ binaryLevel op ∧ binaryLevel op ≤ 14 := by cases op <;> decide
theorem logicalLevel_bounds (op : LogicalOp) : 3 ≤ logicalLevel op ∧ logicalLevel op ≤ 14 := by cases op <;> decide

theorem isLoop_of (h3 : 3 ≤ l) (h14 : l ≤ 14) : isLoop l = true := by simp [isLoop, h3, h14]

theorem binary_ok {op : BinaryOp} (h1 : ExprOK sty ctx (binaryLevel op) x a m) (h2 : Next sty m t o)
    (hv : symbol t.value = some op.asStr) (hin : op = .in_ → ctx.in_ = true) (h3 : ExprOK sty ctx (binaryLevel op + 1) y o b)
    (hs : From sty a b sp) : ExprOK sty ctx (binaryLevel op) (.binary sp op x y) a b := by
  have hb := binaryLevel_bounds op
  have hl := isLoop_of hb.1 hb.2
  have he : Ends sty ctx (binaryLevel op + 1) m := ends_op h2 (binary_cont hv hin)
  refine ⟨h1.toBase.left (Nat.le_refl _) (ends_arrow he (by omega)) hs, fun _ heb n q x' d q' t' c hn hk => ?_, fun h => ?_⟩
  · refine h1.cps hl he n q x' d q' t' c hn fun k => ?_
    rw [From.eq hs hn] at hk
    refine Run.loop_step (lvBody_binary h2 hv hin fun q => h3.parse ?_ n q) hk k
    rw [endLevel_eq (by omega)]; exact heb
  · rw [hl] at h; cases h

theorem logical_ok {op : LogicalOp} (h1 : ExprOK sty ctx (logicalLevel op) x a m) (h2 : Next sty m t o)
    (hv : symbol t.value = some op.asStr) (h3 : ExprOK sty ctx (logicalLevel op + 1) y o b)
    (hs : From sty a b sp) : ExprOK sty ctx (logicalLevel op) (.logical sp op x y) a b := by
  have hb := logicalLevel_bounds op
  have hl := isLoop_of hb.1 hb.2
  have he : Ends sty ctx (logicalLevel op + 1) m := ends_op h2 (logical_cont hv)
  refine ⟨h1.toBase.left (Nat.le_refl _) (ends_arrow he (by omega)) hs, fun _ heb n q x' d q' t' c hn hk => ?_, fun h => ?_⟩
  · refine h1.cps hl he n q x' d q' t' c hn fun k => ?_
    rw [From.eq hs hn] at hk
    refine Run.loop_step (lvBody_logical h2 hv fun q => h3.parse ?_ n q) hk k
    rw [endLevel_eq (by omega)]; exact heb
  · rw [hl] at h; cases h

theorem conditional_ok (h1 : ExprOK sty ctx 3 x a m) (h2 : Sym sty p!"?" m o) (h3 : ExprOK sty ctx 1 y o p)
    {r : Point} (h4 : Sym sty p!":" p r) (h5 : ExprOK sty ctx 1 z r b) (hs : From sty a b sp) :
    ExprOK sty ctx 2 (.conditional sp x y z) a b := by
  have he : Ends sty ctx 3 m := by
    obtain ⟨u, hu, hv⟩ := id h2
    refine ends_op hu ?_
    obtain ⟨v, f, s⟩ := u
    cases hv; rfl
  refine ⟨h1.toBase.left (by decide) (ends_arrow he (by decide)) hs, nofun, fun _ he' n q => ?_⟩
  obtain ⟨t, c, hn, -⟩ := h1.head
  rw [From.eq hs hn]
  exact Run.bind (run_position hn) (Run.bind (h1.parse he n q) (Run.ifT (run_curT h2) (Run.skip h2
    (Run.bind (h3.parse (ends_close h4 (by simp)) n _) (Run.assert h4 (Run.bind (h5.parse he' n _)
    (Run.bind (run_spanFrom _) (Run.pure _))))))))

/-- Neither an object nor an array literal. -/
theorem target_shape (h : TargetOK ctx.strict e) : (∀ sp ps, e ≠ .literal sp (.object ps)) ∧ ∀ sp ps, e ≠ .literal sp (.array ps) := by
  constructor <;> rintro sp ps rfl <;> (obtain ⟨h, -⟩ := h; cases h)

theorem assign_ok {op : AssignOp} (h1 : ExprOK sty ctx 17 x a m) (ha : Look sty a (fun t => t.value ≠ .keyword k!"async"))
    (h2 : TargetOK ctx.strict x) (h3 : Next sty m t o) (hv : symbol t.value = some op.asStr) (h4 : ExprOK sty ctx 1 y o b)
    (hs : From sty a b sp) : ExprOK sty ctx 1 (.assign sp op (.expr x) y) a b := by
  have he : Ends sty ctx 2 m := ends_op h3 (assign_cont hv)
  refine ⟨h1.toBase.left (by decide) (ends_arrow he (by decide)) hs, nofun, fun _ heb n q => ?_⟩
  refine run_assignExpr (fun n => ?_) n
  obtain ⟨u, c, hu, hh⟩ := h1.head
  refine assign_general hu (hh.yield (by decide)) (ha u c hu) (fun hi => ?_) ?_
  · rcases h1.solo (by decide) u c hu hi with rfl | hl
    · exact ends_arrow he (by decide)
    · exact hl
  · refine Run.bind (run_position hu) (Run.bind (run_current hu) ?_)
    refine Run.attempt (Run.bind (run_position hu) (Run.attempt (h1.down3.conditional he n q) (Run.pure _))) ?_
    refine Run.bind (run_optOpSome h3 (by rw [asgTok_of hv]; exact assignOpOf_tok op)) ?_
    rw [From.eq hs hu]
    have tail : ∀ q, Run sty (assignment (mkRec n) ctx u.span.start (.expr x) op) o q
        (.assign ⟨u.span.start, b.fin⟩ op (.expr x) y) b b.fin := fun q =>
      Run.bind (h4.parse heb n q) (Run.bind (run_spanFrom _) (Run.pure _))
    have chk := lhsCheck h2
    by_cases hop : op = .assign
    · subst hop
      refine Run.bind (x := .expr x) (q1 := o.fin) ?_ (tail _)
      obtain ⟨hso, hsa⟩ := target_shape h2
      unfold normalizeLeftSideAssignment
      split
      · exact absurd rfl (hso _ _)
      · exact absurd rfl (hsa _ _)
      · rw [chk]; exact Run.bind Run.ofExcept (Run.pure _)
    · split
      · rename_i h; cases h; exact absurd rfl hop
      · rename_i h; cases h
        rw [chk]; exact Run.bind Run.ofExcept (tail _)
      · rename_i h; cases h

theorem yield_start {x : Expr} {d : Point} (hc : ctx.yield = true) (h1 : Next sty a t m) (hv : t.value = .keyword k!"yield")
    (h : ∀ n, Run sty (yieldExpr (mkRec n) ctx) a q x d q') (n : Nat) : Run sty ((mkRec n).assignExpr ctx) a q x d q' :=
  run_assignExpr (fun n => Run.bind (run_curVal h1) (Run.iteT ⟨by rw [hv], hc⟩ (h n))) n

theorem yield_head (hv : t.value = .keyword k!"yield") : HeadTok sty ctx 1 t c :=
  ⟨by rw [hv]; rfl, fun h => absurd h (by decide), fun h => absurd h (by decide), fun h => absurd h (by decide),
    fun h => absurd h (by decide), fun h => absurd h (by decide), fun h => absurd h (by decide)⟩

theorem run_isEndAny : ∃ w, Run sty isEnd a q w a q := ⟨_, Run.gets rfl⟩
theorem run_curAny (v : TokVal) : ∃ w, Run sty (curMatches v) a q w a q := ⟨_, Run.gets rfl⟩

theorem run_firstOnLineAny : ∃ w, Run sty firstOnLine a q w a q := ⟨_, Run.gets rfl⟩

theorem run_canInsertT (h : t.fol = true ∨ t.value = .punct p!"}") (h1 : Next sty a t b) :
    Run sty canInsertSemicolon a q true a q := by
  refine Run.bind (run_isEndF h1) (Run.bind (run_curMatches h1 _) (Run.bind (run_firstOnLine h1) ?_))
  have : (false || decide (t.value = .punct p!"}") || t.fol) = true := by
    rcases h with h | h
    · rw [h]; simp
    · rw [decide_eq_true h]; rfl
  rw [this]
  exact Run.pure _

theorem run_canInsertF (h1 : Next sty a t b) (h : t.fol = false) (h' : t.value ≠ .punct p!"}") :
    Run sty canInsertSemicolon a q false a q := by
  refine Run.bind (run_isEndF h1) (Run.bind (run_curMatches h1 _) (Run.bind (run_firstOnLine h1) ?_))
  rw [h, decide_eq_false h']
  exact Run.pure _

theorem yieldNone_ok (hc : ctx.yield = true) (h1 : Key sty k!"yield" a b)
    (h2 : Look sty b (fun t => t.fol = true ∨ t.value ∈ [.punct p!";", .punct p!"}", .punct p!")", .punct p!"]"]))
    (hs : From sty a b sp) : ExprOK sty ctx 1 (.yield sp none false) a b := by
  obtain ⟨t, hn, hv⟩ := h1
  refine ⟨Base.tok hn (yield_head hv) (fun h => absurd h (by decide)) hs, nofun, fun _ _ n q => yield_start hc hn hv (fun n => ?_) n⟩
  rw [From.eq hs hn]
  refine Run.bind (run_position hn) (Run.assert ⟨t, hn, hv⟩ ?_)
  obtain ⟨w, hw⟩ := run_isEndAny (sty := sty) (a := b) (q := b.fin)
  refine Run.bind hw (Run.bind (x := true) ?_ (Run.iteT (by simp) (Run.bind (run_spanFrom _) (Run.pure _))))
  rcases next_or_none sty b with ⟨u, d, hu⟩ | ⟨hu, -⟩
  · have h := h2 u d hu
    by_cases hs : u.value = .punct p!";"
    · refine Run.bind (x := true) (Run.bind (run_curVal hu) (Run.iteT hs (Run.pure _))) ?_
      obtain ⟨w1, hw1⟩ := run_curAny (sty := sty) (a := b) (q := b.fin) (.punct p!")")
      obtain ⟨w2, hw2⟩ := run_curAny (sty := sty) (a := b) (q := b.fin) (.punct p!"]")
      exact Run.bind hw1 (Run.bind hw2 (Run.pure _))
    · obtain ⟨w3, hw3⟩ : ∃ w3, Run sty canInsertSemicolon b b.fin w3 b b.fin := by
        obtain ⟨w1, hw1⟩ := run_isEndAny (sty := sty) (a := b) (q := b.fin)
        obtain ⟨w2, hw2⟩ := run_curAny (sty := sty) (a := b) (q := b.fin) (.punct p!"}")
        obtain ⟨w3, hw3⟩ := run_firstOnLineAny (sty := sty) (a := b) (q := b.fin)
        exact ⟨_, Run.bind hw1 (Run.bind hw2 (Run.bind hw3 (Run.pure _)))⟩
      by_cases hb : u.fol = true ∨ u.value = .punct p!"}"
      · refine Run.bind (x := true) (Run.bind (run_curVal hu) (Run.iteF hs (run_canInsertT hb hu))) ?_
        obtain ⟨w1, hw1⟩ := run_curAny (sty := sty) (a := b) (q := b.fin) (.punct p!")")
        obtain ⟨w2, hw2⟩ := run_curAny (sty := sty) (a := b) (q := b.fin) (.punct p!"]")
        exact Run.bind hw1 (Run.bind hw2 (Run.pure _))
      · refine Run.bind (x := w3) (Run.bind (run_curVal hu) (Run.iteF hs hw3)) ?_
        refine Run.bind (run_curMatches hu _) (Run.bind (run_curMatches hu _) ?_)
        have : (w3 || decide (u.value = .punct p!")") || decide (u.value = .punct p!"]")) = true := by
          simp only [not_or] at hb
          simp only [List.mem_cons, List.not_mem_nil, or_false] at h
          rcases h with h | h | h | h | h
          · exact absurd h hb.1
          · exact absurd h hs
          · exact absurd h hb.2
          · simp [h]
          · simp [h]
        rw [this]
        exact Run.pure _
  · refine Run.bind (x := true) (Run.bind (run_curVal_none hu) (Run.pure _)) ?_
    obtain ⟨w1, hw1⟩ := run_curAny (sty := sty) (a := b) (q := b.fin) (.punct p!")")
    obtain ⟨w2, hw2⟩ := run_curAny (sty := sty) (a := b) (q := b.fin) (.punct p!"]")
    exact Run.bind hw1 (Run.bind hw2 (Run.pure _))

theorem run_exprEndedF (h1 : Next sty a t b) (hf : t.fol = false) (hv : t.value ∉ [.punct p!";", .punct p!"}", .punct p!")", .punct p!"]"]) :
    Run sty exprEnded a q false a q := by
  simp only [List.mem_cons, List.not_mem_nil, or_false, not_or] at hv
  refine Run.bind (x := false) (Run.bind (run_curVal h1) (Run.iteF hv.1 (run_canInsertF h1 hf hv.2.1))) ?_
  refine Run.bind (run_curMatches h1 _) (Run.bind (run_curMatches h1 _) ?_)
  rw [decide_eq_false hv.2.2.1, decide_eq_false hv.2.2.2]
  exact Run.pure _

theorem yield_ok (hc : ctx.yield = true) (h1 : Key sty k!"yield" a m) (h2 : Look sty m (fun t => t.fol = false))
    (h3 : ExprOK sty ctx 1 e m b) (hs : From sty a b sp) : ExprOK sty ctx 1 (.yield sp (some e) false) a b := by
  obtain ⟨t, hn, hv⟩ := h1
  obtain ⟨u, c, hu, hh⟩ := h3.head
  refine ⟨Base.tok hn (yield_head hv) (fun h => absurd h (by decide)) hs, nofun, fun _ he n q => yield_start hc hn hv (fun n => ?_) n⟩
  rw [From.eq hs hn]
  refine Run.bind (run_position hn) (Run.assert ⟨t, hn, hv⟩ (Run.bind (run_isEndF hu) (Run.bind
    (run_exprEndedF hu (h2 u c hu) ?_) (Run.iteF (by decide) ?_))))
  · simp only [List.mem_cons, List.not_mem_nil, or_false, not_or]
    exact ⟨startVal_ne hh.start (by decide), startVal_ne hh.start (by decide), startVal_ne hh.start (by decide),
      startVal_ne hh.start (by decide)⟩
  · exact Run.bind (run_maybeF ((look_iff hu).2 (startVal_ne hh.start (by decide)))) (Run.bind (h3.parse he n _)
      (Run.bind (run_spanFrom _) (Run.pure _)))

theorem yieldStar_ok (hc : ctx.yield = true) (h1 : Key sty k!"yield" a m) (h2 : Look sty m (fun t => t.fol = false))
    (h0 : Sym sty p!"*" m o) (h3 : ExprOK sty ctx 1 e o b) (hs : From sty a b sp) :
    ExprOK sty ctx 1 (.yield sp (some e) true) a b := by
  obtain ⟨t, hn, hv⟩ := h1
  obtain ⟨u, hu, hv'⟩ := id h0
  refine ⟨Base.tok hn (yield_head hv) (fun h => absurd h (by decide)) hs, nofun, fun _ he n q => yield_start hc hn hv (fun n => ?_) n⟩
  rw [From.eq hs hn]
  refine Run.bind (run_position hn) (Run.assert ⟨t, hn, hv⟩ (Run.bind (run_isEndF hu) (Run.bind
    (run_exprEndedF hu (h2 u o hu) (by rw [hv']; decide)) (Run.iteF (by decide) ?_))))
  exact Run.bind (run_maybeT h0) (Run.bind (h3.parse he n _) (Run.bind (run_spanFrom _) (Run.pure _)))

theorem comma_ok {es : List Expr} (h1 : ExprOK sty ctx 1 e a m) (h2 : ExprsOK sty ctx es m b) (hs : From sty a b sp) :
    ExprOK sty ctx 0 (.sequence sp (e :: es)) a b := by
  obtain ⟨c, hc⟩ := h2.head
  obtain ⟨t, d, hn, -⟩ := h1.head
  refine ⟨h1.toBase.left (by decide) (tok_ne hc nofun) hs, nofun, fun _ he n q => ?_⟩
  rw [From.eq hs hn]
  exact Run.bind (run_position hn) (Run.bind (h1.parse (ends_comma hc) n q) (Run.ifT (run_curT hc)
    (Run.bind (h2.run he n _ _ [e]) (Run.bind (run_spanFrom _) (Run.pure _)))))

theorem seqBody_end (he : Ends sty ctx 0 b) {acc : List Expr} : Run sty (seqBody (mkRec n) ctx acc) b q (.inr acc) b q :=
  Run.ifF (run_maybeF (Ends.punct he (p := p!",") rfl (by decide))) (Run.pure _)

theorem exprsLast_ok (h1 : Sym sty p!"," a m) (h2 : ExprOK sty ctx 1 e m b) : ExprsOK sty ctx [e] a b := by
  refine ⟨⟨m, h1⟩, fun he n k q acc => ?_⟩
  refine Run.loop_step (q1 := b.fin) ?_ (fun k => Run.loop_end (seqBody_end he) k) k
  exact Run.ifT (run_maybeT h1) (Run.bind (h2.parse (Ends.mono he (by decide)) n _) (Run.pure _))

theorem exprsMore_ok {es : List Expr} (h1 : Sym sty p!"," a m) (h2 : ExprOK sty ctx 1 e m o) (h3 : ExprsOK sty ctx es o b) :
    ExprsOK sty ctx (e :: es) a b := by
  refine ⟨⟨m, h1⟩, fun he n k q acc => ?_⟩
  obtain ⟨c, hc⟩ := h3.head
  rw [List.append_cons]
  refine Run.loop_step (q1 := o.fin) ?_ (fun k => h3.run he n k _ _) k
  exact Run.ifT (run_maybeT h1) (Run.bind (h2.parse (ends_comma hc) n _) (Run.pure _))

end
end Complete
end Fajt
