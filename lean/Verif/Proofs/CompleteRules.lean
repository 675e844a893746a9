import Verif.Proofs.CompletePrimary
/-!
# Completeness: member and call expressions, operators
-/
namespace Fajt
open Spec
set_option linter.unusedSectionVars false
variable [UnicodeID]

namespace Complete
open Parser

section
variable {sty : SourceType} {a b c m o p : Point} {q q' n l : Nat} {t u : Token} {ctx : Ctx} {e x y z : Expr} {sp asp : Span}
  {as : List Argument} {ps : List TemplatePart} {id : Ident} {mp : MemberProp}

/-! ## Member expressions -/

/-- A member expression that is read as a whole by `memberExprFromTerminal`. -/
theorem terminal_ok (hb : Base sty ctx 20 e a b) (h : ∀ n q, Run sty (memberExprFromTerminal (mkRec n) ctx) a q e b b.fin) :
    ExprOK sty ctx 20 e a b :=
  ⟨hb, fun _ _ n q _ _ _ _ _ hn hk => Run.bind (run_position hn) (Run.bind (h n q) (hk _)), nofun⟩

theorem nmBody_member {r : Rec} {start : Nat} (h : ∀ q, Run sty (memberProperty r ctx) m q mp b b.fin)
    (hn : Next sty m t c) (hv : t.value = .punct p!"." ∨ t.value = .punct p!"[") :
    Run sty (nmBody r ctx start x) m q (.inl (.member ⟨start, b.fin⟩ (.expr x) mp)) b b.fin := by
  refine Run.bind (run_curVal hn) ?_
  rcases hv with hv | hv <;> simp only [hv] <;>
    exact Run.bind (Run.bind (h _) (Run.bind (run_spanFrom _) (Run.pure _))) (Run.pure _)

theorem nmBody_tagged {r : Rec} {start : Nat} (h : ∀ q, Run sty (templateLiteral r ctx) m q ps b b.fin)
    (hn : Next sty m t c) (hv : isTemplate t.value = true) :
    Run sty (nmBody r ctx start x) m q (.inl (.tagged ⟨start, b.fin⟩ x ps)) b b.fin := by
  refine Run.bind (run_curVal hn) ?_
  unfold isTemplate at hv
  split at hv
  · rename_i heq; rw [heq]
    exact Run.bind (Run.bind (h _) (Run.bind (run_spanFrom _) (Run.pure _))) (Run.pure _)
  · rename_i heq; rw [heq]
    exact Run.bind (Run.bind (h _) (Run.bind (run_spanFrom _) (Run.pure _))) (Run.pure _)
  · cases hv

theorem ends_member (hn : Next sty m t c) (hv : t.value = .punct p!"." ∨ t.value = .punct p!"[") : Ends sty ctx 21 m := by
  refine Ends.of_next hn fun l hl => ?_
  obtain ⟨w, f, s⟩ := t
  rcases hv with hv | hv <;> cases hv <;> cases hl <;> decide

theorem ends_template (hn : Next sty m t c) (hv : isTemplate t.value = true) : Ends sty ctx 21 m := by
  refine Ends.of_next hn fun l hl => ?_
  obtain ⟨w, f, s⟩ := t
  simp only [isTemplate] at hv
  split at hv
  · cases hl; decide
  · cases hl; decide
  · cases hv

theorem ends_paren (h : Sym sty p!"(" m o) : Ends sty ctx 20 m := by
  refine Ends.of_tok h fun t ht l hl => ?_
  obtain ⟨w, f, s⟩ := t
  cases ht; cases hl; decide

theorem member_ok (h1 : ExprOK sty ctx 20 e a m) (h2 : MemberOK sty ctx mp m b) (hs : From sty a b sp) :
    ExprOK sty ctx 20 (.member sp (.expr e) mp) a b := by
  obtain ⟨u, d, hu, hv⟩ := h2.head
  have he := ends_member (ctx := ctx) hu hv
  refine ⟨h1.toBase.left (Nat.le_refl _) (ends_arrow he (by decide)) hs, fun _ _ n q x d' q' t c hn hk => ?_, nofun⟩
  refine h1.cps rfl he n q x d' q' t c hn fun k => ?_
  rw [From.eq hs hn] at hk
  exact Run.loop_step (nmBody_member (h2.run n) hu hv) hk k

theorem tagged_ok (h1 : ExprOK sty ctx 20 e a m) (h2 : TemplateOK sty ctx ps m b) (hs : From sty a b sp) :
    ExprOK sty ctx 20 (.tagged sp e ps) a b := by
  obtain ⟨u, d, hu, hv⟩ := h2.head
  have he := ends_template (ctx := ctx) hu hv
  refine ⟨h1.toBase.left (Nat.le_refl _) (ends_arrow he (by decide)) hs, fun _ _ n q x d' q' t c hn hk => ?_, nofun⟩
  refine h1.cps rfl he n q x d' q' t c hn fun k => ?_
  rw [From.eq hs hn] at hk
  exact Run.loop_step (nmBody_tagged (h2.run n) hu hv) hk k

theorem memberName_ok (h1 : Sym sty p!"." a m) (h2 : Next sty m t b) (h3 : NameTok t id) : MemberOK sty ctx (.ident id) a b := by
  obtain ⟨u, hu, hv⟩ := h1
  refine ⟨⟨u, m, hu, .inl hv⟩, fun n q => ?_⟩
  refine Run.bind (run_curVal hu) ?_
  simp only [hv]
  exact Run.bind (run_consume hu) (Run.bind (run_parseIdentName h2 h3) (Run.pure _))

theorem computed_run (h1 : Sym sty p!"[" a m) (h2 : ExprOK sty ctx 0 e m o) (h3 : Sym sty p!"]" o b) (n q : Nat) :
    Run sty (computedProperty (mkRec n) ctx) a q e b b.fin :=
  Run.assert h1 (Run.bind (h2.parse (ends_close h3 (by simp)) n _) (Run.assert h3 (Run.pure _)))

theorem memberComputed_ok (h1 : Sym sty p!"[" a m) (h2 : ExprOK sty { ctx with in_ := true } 0 e m o) (h3 : Sym sty p!"]" o b) :
    MemberOK sty ctx (.expr e) a b := by
  obtain ⟨u, hu, hv⟩ := h1
  refine ⟨⟨u, m, hu, .inr hv⟩, fun n q => ?_⟩
  refine Run.bind (run_curVal hu) ?_
  simp only [hv]
  exact Run.bind (computed_run ⟨u, hu, hv⟩ h2 h3 n q) (Run.pure _)

/-- Keywords that start a member expression. -/
theorem base_key {k : Keyword} (h1 : Next sty a t c) (hv : t.value = .keyword k)
    (hk : k.allowedAsIdent ({} : Ctx).kw = false) (h0 : plainHead (.keyword k) = true)
    (hs : From sty a b e.span) : Base sty ctx l e a b :=
  Base.tok h1 (headTok_plain (hv ▸ h0)) (fun _ => reserved_not_ident hk hv) hs

theorem headTok_call {k : Keyword} (hv : t.value = .keyword k) (hk : k = k!"super" ∨ k = k!"import")
    (hl : 19 ≤ l → Look sty c (fun u => u.value ≠ .punct p!"(")) : HeadTok sty ctx l t c := by
  rcases hk with rfl | rfl <;>
  exact ⟨by rw [hv]; rfl, fun _ _ => by rw [hv]; nofun, fun _ => by rw [hv]; nofun, fun _ => by rw [hv]; rfl,
    fun _ _ => by rw [hv]; nofun, fun _ => by rw [hv]; rfl, fun h _ => hl h⟩

theorem superMember_ok (hc : ctx.inMethod = true) (h1 : Next sty a t m) (hv : t.value = .keyword k!"super")
    (h2 : MemberOK sty ctx mp m b) (hs : From sty a b sp) : ExprOK sty ctx 20 (.member sp (.super t.span) mp) a b := by
  obtain ⟨u, d, hu, hh⟩ := h2.head
  refine terminal_ok (Base.tok h1 (headTok_call hv (.inl rfl) fun _ => (look_iff hu).2 ?_)
    (fun _ => reserved_not_ident rfl hv) hs) fun n q => ?_
  · rcases hh with hh | hh <;> rw [hh] <;> nofun
  · obtain ⟨w, hw⟩ := run_peekAny (sty := sty) (a := a) (q := q) (.punct p!".")
    refine Run.bind (run_current h1) (Run.bind hw (Run.iteT hv ?_))
    refine Run.bind (run_position h1) (Run.bind (run_consume h1) (Run.bind (run_curVal hu) (Run.iteF ?_ (Run.iteF ?_ ?_))))
    · rcases hh with hh | hh <;> rw [hh] <;> simp
    · rw [hc]; decide
    · rw [From.eq hs h1]
      exact Run.bind (h2.run n _) (Run.bind (run_spanFrom _) (Run.pure _))

theorem newTarget_ok (h1 : Next sty a t m) (hv : t.value = .keyword k!"new") (h2 : Sym sty p!"." m o) (h3 : Next sty o u b)
    (h4 : IdentTok ctx u id) (h5 : id.name = c!"target") (hs : From sty a b sp) :
    ExprOK sty ctx 20 (.metaProp sp ⟨t.span, c!"new"⟩ id) a b := by
  refine terminal_ok (base_key h1 hv rfl rfl hs) fun n q => ?_
  refine Run.bind (run_current h1) (Run.bind (run_peekT h1 h2) (Run.iteF (by rw [hv]; nofun) (Run.iteT hv (Run.iteT rfl ?_))))
  rw [From.eq hs h1]
  exact Run.bind (run_position h1) (Run.bind (run_consume h1) (Run.skip h2 (Run.bind (run_parseIdent h3 h4)
    (Run.iteF (by rw [h5]; simp) (Run.bind (run_spanFrom _) (Run.pure _))))))

theorem importMeta_ok (h1 : Next sty a t m) (hv : t.value = .keyword k!"import") (h2 : Sym sty p!"." m o) (h3 : Next sty o u b)
    (h4 : IdentTok ctx u id) (h5 : id.name = c!"meta") (hs : From sty a b sp) :
    ExprOK sty ctx 20 (.metaProp sp ⟨t.span, c!"import"⟩ id) a b := by
  refine terminal_ok (Base.tok h1 (headTok_call hv (.inr rfl) fun _ => tok_ne h2 nofun)
    (fun _ => reserved_not_ident rfl hv) hs) fun n q => ?_
  refine Run.bind (run_current h1) (Run.bind (run_peekT h1 h2) (Run.iteF (by rw [hv]; nofun) (Run.iteF (by rw [hv]; nofun)
    (Run.iteT ⟨hv, rfl⟩ ?_))))
  rw [From.eq hs h1]
  exact Run.bind (run_position h1) (Run.bind (run_consume h1) (Run.skip h2 (Run.bind (run_parseIdent h3 h4)
    (Run.iteF (by rw [h5]; simp) (Run.bind (run_spanFrom _) (Run.pure _))))))

/-- `new` is not followed by a dot. -/
theorem new_run {x : Expr} {k : Nat} (h1 : Next sty a t m) (hv : t.value = .keyword k!"new") (h2 : Base sty ctx k e m o)
    (h : Run sty (newExpr (mkRec n) ctx) a q x b b.fin) : Run sty (memberExprFromTerminal (mkRec n) ctx) a q x b b.fin := by
  obtain ⟨u, d, hu, hh⟩ := h2.head
  exact Run.bind (run_current h1) (Run.bind (run_peekF h1 ((look_iff hu).2 (startVal_ne hh.start (by decide))))
    (Run.iteF (by rw [hv]; nofun) (Run.iteT hv (Run.iteF nofun h))))

theorem newArgs_ok (h1 : Key sty k!"new" a m) (h2 : ExprOK sty ctx 20 e m o) (h3 : ArgsOK sty ctx asp as o b)
    (hs : From sty a b sp) : ExprOK sty ctx 20 (.new sp e (some asp) as) a b := by
  obtain ⟨t, hn, hv⟩ := h1
  obtain ⟨d, hd⟩ := h3.head
  refine terminal_ok (base_key hn hv rfl rfl hs) fun n q => new_run hn hv h2.toBase ?_
  rw [From.eq hs hn]
  refine Run.bind (run_position hn) (Run.bind (run_consume hn) (Run.bind
    (run_newOrMember (fun n => h2.parse (ends_paren hd) n _) n) ?_))
  exact Run.bind (x := (some asp, as)) (Run.ifT (run_curT hd) (Run.bind (h3.run n _) (Run.pure _)))
    (Run.bind (run_spanFrom _) (Run.pure _))

theorem newMember_ok (h : ExprOK sty ctx 20 e a b) : NewOK sty ctx e a b :=
  ⟨h.toBase, fun he n q => h.parse (he.mono (by decide)) n q⟩

theorem newPlain_ok (h1 : Key sty k!"new" a m) (h2 : NewOK sty ctx e m b) (hs : From sty a b sp) :
    NewOK sty ctx (.new sp e none []) a b := by
  obtain ⟨t, hn, hv⟩ := h1
  refine ⟨base_key hn hv rfl rfl hs, fun he n q => ?_⟩
  refine Run.bind (run_position hn) (Run.bind (new_run hn hv h2.toBase (x := .new sp e none []) ?_)
    (Run.loop_end (nmBody_end (he.mono (by decide))) _))
  rw [From.eq hs hn]
  refine Run.bind (run_position hn) (Run.bind (run_consume hn) (Run.bind (run_newOrMember (fun n => h2.run he n _) n) ?_))
  exact Run.bind (x := (none, [])) (Run.ifF (run_curF (Ends.punct he (p := p!"(") rfl (by decide))) (Run.pure _))
    (Run.bind (run_spanFrom _) (Run.pure _))

/-! ## Calls -/

theorem callBody_end {r : Rec} {start : Nat} (h : Ends sty ctx 18 b) :
    Run sty (callBody r ctx start e) b q (.inr e) b q := by
  rcases next_or_none sty b with ⟨t, d, hn⟩ | ⟨hn, -⟩
  · refine Run.bind (run_curVal hn) ?_
    have h' := h t d hn
    obtain ⟨v, f, s⟩ := t
    simp only
    split
    · rename_i heq; cases heq; exact absurd (h' 19 rfl) (by decide)
    · rename_i heq; cases heq; exact absurd (h' 20 rfl) (by decide)
    · rename_i heq; cases heq; exact absurd (h' 20 rfl) (by decide)
    · rename_i heq; cases heq; exact absurd (h' 20 rfl) (by decide)
    · exact Run.pure _
  · exact Run.bind (run_curVal_none hn) (Run.pure _)

/-- The start of `callOrMemberExpr`: neither `super(` nor `import(`. -/
theorem call_start {x : Expr} {d : Point} (hb : Base sty ctx 20 e a b) (hn : Next sty a t c)
    (h : Run sty ((mkRec n).newOrMember ctx >>= fun e => loop (callBody (mkRec n) ctx t.span.start) (mkRec n).fuel e) a q x d q') :
    Run sty (callOrMemberExpr (mkRec n) ctx) a q x d q' := by
  obtain ⟨t', c', hn', hh⟩ := hb.head
  obtain ⟨rfl, rfl⟩ := next_unique hn hn'
  by_cases hs : t'.value = .keyword k!"super" ∨ t'.value = .keyword k!"import"
  · refine Run.bind (run_peekF hn (hh.callHead (by decide) hs)) (Run.bind (run_curVal hn) ?_)
    exact Run.iteF (fun h => nomatch h.2) (Run.iteF (fun h => nomatch h.2) (Run.bind (run_position hn) h))
  · obtain ⟨w, hw⟩ := run_peekAny (sty := sty) (a := a) (q := q) (.punct p!"(")
    refine Run.bind hw (Run.bind (run_curVal hn) ?_)
    exact Run.iteF (fun h => hs (.inl (Option.some.inj h.1))) (Run.iteF (fun h => hs (.inr (Option.some.inj h.1)))
      (Run.bind (run_position hn) h))

theorem newLhs_ok (h : NewOK sty ctx e a b) : ExprOK sty ctx 18 e a b := by
  refine ⟨h.toBase.mono (by decide), nofun, fun _ he n q => ?_⟩
  obtain ⟨t, c, hn, -⟩ := h.head
  exact call_start h.toBase hn (Run.bind (run_newOrMember (fun n => h.run (Ends.mono he (by decide)) n q) n)
    (Run.loop_end (callBody_end he) _))

theorem callBody_call {r : Rec} {start : Nat} (h : ∀ q, Run sty (arguments r ctx) m q (asp, as) b b.fin)
    (hv : Sym sty p!"(" m c) :
    Run sty (callBody r ctx start x) m q (.inl (.call ⟨start, b.fin⟩ (.expr x) asp as)) b b.fin := by
  obtain ⟨t, hn, hv⟩ := hv
  refine Run.bind (run_curVal hn) ?_
  simp only [hv]
  exact Run.bind (Run.bind (h _) (Run.bind (run_spanFrom _) (Run.pure _))) (Run.pure _)

theorem callBody_member {r : Rec} {start : Nat} (h : ∀ q, Run sty (memberProperty r ctx) m q mp b b.fin)
    (hn : Next sty m t c) (hv : t.value = .punct p!"." ∨ t.value = .punct p!"[") :
    Run sty (callBody r ctx start x) m q (.inl (.member ⟨start, b.fin⟩ (.expr x) mp)) b b.fin := by
  refine Run.bind (run_curVal hn) ?_
  rcases hv with hv | hv <;> simp only [hv] <;>
    exact Run.bind (Run.bind (h _) (Run.bind (run_spanFrom _) (Run.pure _))) (Run.pure _)

theorem call_ok (h1 : ExprOK sty ctx 20 e a m) (h2 : ArgsOK sty ctx asp as m b) (hs : From sty a b sp) :
    CallOK sty ctx (.call sp (.expr e) asp as) a b := by
  obtain ⟨d, hd⟩ := h2.head
  refine ⟨h1.toBase.left (Nat.le_refl _) (tok_ne hd nofun) hs, fun n q x d' q' t c hn hk => ?_⟩
  refine call_start h1.toBase hn (Run.bind (run_newOrMember (fun n => h1.parse (ends_paren hd) n _) n) ?_)
  rw [From.eq hs hn] at hk
  exact Run.loop_step (callBody_call (h2.run n) hd) hk _

theorem callAgain_ok (h1 : CallOK sty ctx e a m) (h2 : ArgsOK sty ctx asp as m b) (hs : From sty a b sp) :
    CallOK sty ctx (.call sp (.expr e) asp as) a b := by
  obtain ⟨d, hd⟩ := h2.head
  refine ⟨h1.toBase.left (Nat.le_refl _) (tok_ne hd nofun) hs, fun n q x d' q' t c hn hk => ?_⟩
  refine h1.cps n q x d' q' t c hn fun k => ?_
  rw [From.eq hs hn] at hk
  exact Run.loop_step (callBody_call (h2.run n) hd) hk k

theorem callMember_ok (h1 : CallOK sty ctx e a m) (h2 : MemberOK sty ctx mp m b) (hs : From sty a b sp) :
    CallOK sty ctx (.member sp (.expr e) mp) a b := by
  obtain ⟨u, d, hu, hv⟩ := h2.head
  refine ⟨h1.toBase.left (Nat.le_refl _) (ends_arrow (ends_member (ctx := ctx) hu hv) (by decide)) hs,
    fun n q x d' q' t c hn hk => ?_⟩
  refine h1.cps n q x d' q' t c hn fun k => ?_
  rw [From.eq hs hn] at hk
  exact Run.loop_step (callBody_member (h2.run n) hu hv) hk k

theorem callTagged_ok {s : Str} (h1 : CallOK sty ctx e a m) (h2 : Tok sty (.lit (.template s)) m b) (hs : From sty a b sp) :
    CallOK sty ctx (.tagged sp e [.string s]) a b := by
  have ht : TemplateOK sty ctx [.string s] m b := templatePlain_ok h2
  obtain ⟨u, hu, hv⟩ := h2
  refine ⟨h1.toBase.left (Nat.le_refl _) ((look_iff hu).2 (by rw [hv]; nofun)) hs, fun n q x d' q' t c hn hk => ?_⟩
  refine h1.cps n q x d' q' t c hn fun k => ?_
  rw [From.eq hs hn] at hk
  refine Run.loop_step ?_ hk k
  refine Run.bind (run_curVal hu) ?_
  simp only [hv]
  exact Run.bind (Run.bind (ht.run n _) (Run.bind (run_spanFrom _) (Run.pure _))) (Run.pure _)

theorem callLhs_ok (h : CallOK sty ctx e a b) : ExprOK sty ctx 18 e a b := by
  refine ⟨h.toBase.mono (by decide), nofun, fun _ he n q => ?_⟩
  obtain ⟨t, c, hn, -⟩ := h.head
  exact h.cps n q _ _ _ t c hn fun k => Run.loop_end (callBody_end he) k

theorem superCall_ok (hc : ctx.superCall = true) (h1 : Key sty k!"super" a m) (h2 : ArgsOK sty ctx asp as m b)
    (hs : From sty a b sp) : ExprOK sty ctx 18 (.call sp .super asp as) a b := by
  obtain ⟨t, hn, hv⟩ := h1
  obtain ⟨d, hd⟩ := h2.head
  refine ⟨Base.tok hn (headTok_call hv (.inl rfl) fun h => absurd h (by decide)) (fun _ => reserved_not_ident rfl hv) hs, nofun,
    fun _ he n q => ?_⟩
  refine Run.bind (run_peekT hn hd) (Run.bind (run_curVal hn) (Run.iteT ⟨by rw [hv], rfl⟩ ?_))
  rw [From.eq hs hn]
  exact Run.bind (run_position hn) (Run.assert ⟨t, hn, hv⟩ (Run.bind (h2.run n _) (Run.bind (run_spanFrom _)
    (Run.iteF (by rw [hc]; decide) (Run.pure _)))))

theorem importCall_ok (h1 : Key sty k!"import" a m) (h2 : Sym sty p!"(" m o) (h3 : ExprOK sty ctx 1 e o p)
    (h4 : Sym sty p!")" p b) (has : From sty m b asp) (hs : From sty a b sp) :
    ExprOK sty ctx 18 (.call sp .import asp [.expr e]) a b := by
  obtain ⟨t, hn, hv⟩ := h1
  obtain ⟨u, hu, hv'⟩ := id h2
  refine ⟨Base.tok hn (headTok_call hv (.inr rfl) fun h => absurd h (by decide)) (fun _ => reserved_not_ident rfl hv) hs, nofun,
    fun _ he n q => ?_⟩
  refine Run.bind (run_peekT hn h2) (Run.bind (run_curVal hn) (Run.iteF (by rw [hv]; nofun) (Run.iteT ⟨by rw [hv], rfl⟩ ?_)))
  rw [From.eq hs hn, From.eq has hu]
  refine Run.bind (run_position hn) (Run.bind (run_consume hn) (Run.bind (x := (_, _)) ?_ (Run.bind (run_spanFrom _) (Run.pure _))))
  exact Run.bind (run_position hu) (Run.assert h2 (Run.bind (h3.parse (ends_close h4 (by simp)) n _)
    (Run.assert h4 (Run.bind (run_spanFrom _) (Run.pure _)))))

theorem args_ok (h1 : Sym sty p!"(" a m) (h2 : ArgListOK sty { ctx with in_ := true } as m b) (hs : From sty a b sp) :
    ArgsOK sty ctx sp as a b := by
  obtain ⟨t, hn, hv⟩ := h1
  refine ⟨⟨m, t, hn, hv⟩, fun n q => ?_⟩
  rw [From.eq hs hn]
  exact Run.bind (run_position hn) (Run.assert ⟨t, hn, hv⟩ (Run.bind (h2 n _ _ []) (Run.bind (run_spanFrom _) (Run.pure _))))

theorem argsEnd_ok (h : Sym sty p!")" a b) : ArgListOK sty ctx [] a b := fun n k q acc => by
  rw [List.append_nil]
  exact Run.loop_end (Run.ifT (run_maybeT h) (Run.pure _)) k

theorem argsLast_ok {x : Argument} (h : ArgOK sty ctx x a m) (h2 : Sym sty p!")" m b) : ArgListOK sty ctx [x] a b :=
  fun n k q acc => by
  obtain ⟨t, c, hn, hv⟩ := h.head
  refine Run.loop_step (q1 := m.fin) (Run.ifF (run_maybeF ((look_iff hn).2 hv)) ?_) (fun k => Run.loop_end
    (Run.ifT (run_maybeT h2) (Run.pure _)) k) k
  exact Run.bind (h.run (ends_close h2 (by simp)) n _) (Run.bind (run_delimEnd h2 nofun) (Run.pure _))

theorem argsMore_ok {x : Argument} {xs : List Argument} (h : ArgOK sty ctx x a m) (h2 : Sym sty p!"," m o)
    (h3 : ArgListOK sty ctx xs o b) : ArgListOK sty ctx (x :: xs) a b := fun n k q acc => by
  rw [List.append_cons]
  obtain ⟨t, c, hn, hv⟩ := h.head
  refine Run.loop_step (q1 := o.fin) (Run.ifF (run_maybeF ((look_iff hn).2 hv)) ?_) (fun k => h3 n k _ _) k
  exact Run.bind (h.run (ends_comma h2) n _) (Run.bind (run_delimComma h2) (Run.pure _))

theorem argExpr_ok (h : ExprOK sty ctx 1 e a b) : ArgOK sty ctx (.expr e) a b := by
  obtain ⟨t, c, hn, hh⟩ := h.head
  refine ⟨⟨t, c, hn, startVal_ne hh.start (by decide)⟩, fun he n q => ?_⟩
  exact Run.ifF (run_maybeF ((look_iff hn).2 (startVal_ne hh.start (by decide)))) (Run.bind (h.parse he n q) (Run.pure _))

theorem argSpread_ok (h1 : Sym sty p!"..." a m) (h : ExprOK sty ctx 1 e m b) : ArgOK sty ctx (.spread e) a b := by
  obtain ⟨t, hn, hv⟩ := id h1
  refine ⟨⟨t, m, hn, by rw [hv]; nofun⟩, fun he n q => ?_⟩
  exact Run.ifT (run_maybeT h1) (Run.bind (h.parse he n _) (Run.pure _))

/-! ## Optional chains -/

theorem optBody_end {r : Rec} {start : Nat} (h : Ends sty ctx 17 b) :
    Run sty (optBody r ctx start e) b q (.inr e) b q := by
  obtain ⟨w, hw⟩ := run_peekAny (sty := sty) (a := b) (q := q) (.punct p!"(")
  refine Run.bind hw ?_
  rcases next_or_none sty b with ⟨t, d, hn⟩ | ⟨hn, -⟩
  · refine Run.bind (run_cur hn) ?_
    have h' := h t d hn
    have hne : ∀ (v : TokVal) (l : Nat), contLevel ctx ⟨v, t.fol, t.span⟩ = some l → 17 ≤ l → t.value ≠ v := by
      rintro v l hc hl rfl
      exact absurd (h' l hc) (Nat.not_lt.2 hl)
    refine Run.iteF (hne _ 17 rfl (by decide)) (Run.iteF (fun hh => ?_) (Run.iteF (hne _ 19 rfl (by decide)) ?_))
    · rcases hh with hh | hh
      · exact hne _ 20 rfl (by decide) hh
      · exact hne _ 20 rfl (by decide) hh
    · refine Run.bind (x := ()) ?_ (Run.pure _)
      unfold validateNoTemplate
      split
      · rename_i hv; exact absurd hv (hne _ 20 rfl (by decide))
      · rename_i hv; exact absurd hv (hne _ 20 rfl (by decide))
      · exact Run.pure _
  · exact Run.bind (run_cur_none hn) (Run.pure _)

theorem optBody_call {r : Rec} {start : Nat} (h : ∀ q, Run sty (arguments r ctx) m q (asp, as) b b.fin)
    (hv : Sym sty p!"(" m c) :
    Run sty (optBody r ctx start x) m q (.inl (.optCall ⟨start, b.fin⟩ x asp as false)) b b.fin := by
  obtain ⟨t, hn, hv'⟩ := id hv
  obtain ⟨w, hw⟩ := run_peekAny (sty := sty) (a := m) (q := q) (.punct p!"(")
  refine Run.bind hw (Run.bind (run_cur hn) (Run.iteF (by rw [hv']; nofun) (Run.iteF (by rw [hv']; nofun) (Run.iteT hv' ?_))))
  exact Run.bind (Run.bind (run_maybeF (tok_ne hv nofun)) (Run.bind (h _) (Run.bind (run_spanFrom _) (Run.pure _)))) (Run.pure _)

theorem optBody_optCall {r : Rec} {start : Nat} (h : ∀ q, Run sty (arguments r ctx) o q (asp, as) b b.fin)
    (h0 : Sym sty p!"?." m o) (hv : Sym sty p!"(" o c) :
    Run sty (optBody r ctx start x) m q (.inl (.optCall ⟨start, b.fin⟩ x asp as true)) b b.fin := by
  obtain ⟨t, hn, hv'⟩ := id h0
  refine Run.bind (run_peekT hn hv) (Run.bind (run_cur hn) (Run.iteT hv' (Run.iteT rfl ?_)))
  exact Run.bind (Run.bind (run_maybeT h0) (Run.bind (h _) (Run.bind (run_spanFrom _) (Run.pure _)))) (Run.pure _)

theorem optBody_member {optional : Bool} {start : Nat} (h : OptOK sty ctx optional mp m b) :
    Run sty (optBody (mkRec n) ctx start x) m q (.inl (.optMember ⟨start, b.fin⟩ x mp optional)) b b.fin := by
  obtain ⟨t, c, hn, hh⟩ := h.head
  have tail : Run sty (curMatches (.punct p!"?.")) m q optional m q → Run sty (optionalMemberExpr (mkRec n) ctx start x) m q
      (.optMember ⟨start, b.fin⟩ x mp optional) b b.fin := fun ho =>
    Run.bind ho (Run.bind (h.run n _) (Run.bind (run_spanFrom _) (Run.pure _)))
  cases optional with
  | true =>
    obtain ⟨hv, u, d, hu, h1, h2⟩ := hh
    refine Run.bind (run_peekF hn ((look_iff hu).2 h1)) (Run.bind (run_cur hn) (Run.iteT hv (Run.iteF nofun ?_)))
    refine Run.bind (run_peek hn hu) (Run.bind (x := ()) ?_ (Run.bind (tail (run_curT ⟨t, hn, hv⟩)) (Run.pure _)))
    simp only [validateNoTemplate]
    split
    · rename_i hv; rw [hv] at h2; cases h2
    · rename_i hv; rw [hv] at h2; cases h2
    · exact Run.pure _
  | false =>
    obtain ⟨w, hw⟩ := run_peekAny (sty := sty) (a := m) (q := q) (.punct p!"(")
    have hne : t.value ≠ .punct p!"?." := by rcases hh with hh | hh <;> rw [hh] <;> nofun
    exact Run.bind hw (Run.bind (run_cur hn) (Run.iteF hne (Run.iteT hh (Run.bind (tail (run_curF ((look_iff hn).2 hne)))
      (Run.pure _)))))

theorem opt_ends {mp : MemberProp} (h : OptOK sty ctx true mp m b) : (∃ o, Sym sty p!"?." m o) := by
  obtain ⟨t, c, hn, hv, -⟩ := h.head
  exact ⟨c, t, hn, hv⟩

theorem opt_arrow {optional : Bool} {mp : MemberProp} (h : OptOK sty ctx optional mp m b) :
    Look sty m (fun u => u.value ≠ .punct p!"=>") := by
  obtain ⟨t, c, hn, hv⟩ := h.head
  refine (look_iff hn).2 ?_
  cases optional with
  | true => rw [hv.1]; nofun
  | false => rcases hv with hv | hv <;> rw [hv] <;> nofun

/-- The first link of a chain. -/
theorem chain_start {x : Expr} {d : Point} (h1 : ExprOK sty ctx 18 e a m) (hnn : nestedNew e = false) (h2 : Sym sty p!"?." m o)
    (hn : Next sty a t c)
    (hk : Run sty (loop (optBody (mkRec n) ctx t.span.start) (mkRec n).fuel e) m m.fin x d q') :
    Run sty (leftHandSideExpr (mkRec n) ctx) a q x d q' := by
  refine Run.bind (run_position hn) (Run.bind (h1.run rfl ?_ n q) (Run.ifT (run_curT h2) (Run.iteF ?_ hk)))
  · refine Ends.of_tok h2 fun t ht l hl => ?_
    obtain ⟨w, f, s⟩ := t
    cases ht; cases hl; decide
  · have : e.isNestedNew = nestedNew e := rfl
    rw [this, hnn]; decide

theorem chainFirstMember_ok (h1 : ExprOK sty ctx 18 e a m) (hnn : nestedNew e = false) (h2 : OptOK sty ctx true mp m b)
    (hs : From sty a b sp) : ChainOK sty ctx (.optMember sp e mp true) a b := by
  obtain ⟨o, ho⟩ := opt_ends h2
  refine ⟨h1.toBase.left (Nat.le_refl _) (opt_arrow h2) hs, fun n q x d q' t c hn hk => chain_start h1 hnn ho hn ?_⟩
  rw [From.eq hs hn] at hk
  exact Run.loop_step (optBody_member h2) hk _

theorem chainFirstCall_ok (h1 : ExprOK sty ctx 18 e a m) (hnn : nestedNew e = false) (h2 : Sym sty p!"?." m o)
    (h3 : ArgsOK sty ctx asp as o b) (hs : From sty a b sp) : ChainOK sty ctx (.optCall sp e asp as true) a b := by
  obtain ⟨d, hd⟩ := h3.head
  refine ⟨h1.toBase.left (Nat.le_refl _) (tok_ne h2 nofun) hs, fun n q x d q' t c hn hk => chain_start h1 hnn h2 hn ?_⟩
  rw [From.eq hs hn] at hk
  exact Run.loop_step (optBody_optCall (h3.run n) h2 hd) hk _

theorem chainMember_ok {optional : Bool} (h1 : ChainOK sty ctx e a m) (h2 : OptOK sty ctx optional mp m b)
    (hs : From sty a b sp) : ChainOK sty ctx (.optMember sp e mp optional) a b := by
  refine ⟨h1.toBase.left (Nat.le_refl _) (opt_arrow h2) hs, fun n q x d q' t c hn hk => h1.cps n q x d q' t c hn fun k => ?_⟩
  rw [From.eq hs hn] at hk
  exact Run.loop_step (optBody_member h2) hk _

theorem chainOptCall_ok (h1 : ChainOK sty ctx e a m) (h2 : Sym sty p!"?." m o)
    (h3 : ArgsOK sty ctx asp as o b) (hs : From sty a b sp) : ChainOK sty ctx (.optCall sp e asp as true) a b := by
  obtain ⟨d, hd⟩ := h3.head
  refine ⟨h1.toBase.left (Nat.le_refl _) (tok_ne h2 nofun) hs, fun n q x d q' t c hn hk => h1.cps n q x d q' t c hn fun k => ?_⟩
  rw [From.eq hs hn] at hk
  exact Run.loop_step (optBody_optCall (h3.run n) h2 hd) hk _

theorem chainCall_ok (h1 : ChainOK sty ctx e a m) (h3 : ArgsOK sty ctx asp as m b) (hs : From sty a b sp) :
    ChainOK sty ctx (.optCall sp e asp as false) a b := by
  obtain ⟨d, hd⟩ := h3.head
  refine ⟨h1.toBase.left (Nat.le_refl _) (tok_ne hd nofun) hs, fun n q x d q' t c hn hk => h1.cps n q x d q' t c hn fun k => ?_⟩
  rw [From.eq hs hn] at hk
  exact Run.loop_step (optBody_call (h3.run n) hd) hk _

theorem chainExpr_ok (h : ChainOK sty ctx e a b) : ExprOK sty ctx 17 e a b := by
  refine ⟨h.toBase.mono (by decide), nofun, fun _ he n q => ?_⟩
  obtain ⟨t, c, hn, -⟩ := h.head
  exact h.cps n q _ _ _ t c hn fun k => Run.loop_end (optBody_end he) k

theorem optName_ok (h1 : Sym sty p!"?." a m) (h2 : Next sty m t b) (h3 : IdentTok ctx t id) :
    OptOK sty ctx true (.ident id) a b := by
  obtain ⟨u, hu, hv⟩ := h1
  have hp : ∀ p, t.value ≠ .punct p := fun p hp => by
    rcases ident_shape h3 with ⟨s, h⟩ | ⟨s, h⟩ <;> rw [hp] at h <;> cases h
  refine ⟨⟨u, m, hu, hv, t, b, h2, hp _, ?_⟩, fun n q => ?_⟩
  · rcases ident_shape h3 with ⟨s, h⟩ | ⟨s, h⟩ <;> rw [h] <;> rfl
  · refine Run.bind (run_peekF hu ((look_iff h2).2 (hp _))) (Run.bind (run_curVal hu) ?_)
    simp only [hv]
    exact Run.iteF nofun (Run.bind (run_consume hu) (Run.bind (run_parseIdent h2 h3) (Run.pure _)))

theorem optDotName_ok (h1 : Sym sty p!"." a m) (h2 : Next sty m t b) (h3 : IdentTok ctx t id) :
    OptOK sty ctx false (.ident id) a b := by
  obtain ⟨u, hu, hv⟩ := h1
  refine ⟨⟨u, m, hu, .inl hv⟩, fun n q => ?_⟩
  obtain ⟨w, hw⟩ := run_peekAny (sty := sty) (a := a) (q := q) (.punct p!"[")
  refine Run.bind hw (Run.bind (run_curVal hu) ?_)
  simp only [hv]
  exact Run.bind (run_consume hu) (Run.bind (run_parseIdent h2 h3) (Run.pure _))

theorem optComputed_ok (h0 : Sym sty p!"?." a m) (h1 : Sym sty p!"[" m o) (h2 : ExprOK sty ctx 0 e o p) (h3 : Sym sty p!"]" p b) :
    OptOK sty ctx true (.expr e) a b := by
  obtain ⟨u, hu, hv⟩ := h0
  obtain ⟨u', hu', hv'⟩ := id h1
  refine ⟨⟨u, m, hu, hv, u', o, hu', by rw [hv']; nofun, by rw [hv']; rfl⟩, fun n q => ?_⟩
  refine Run.bind (run_peekT hu h1) (Run.bind (run_curVal hu) ?_)
  simp only [hv]
  exact Run.iteT trivial (Run.bind (run_consume hu) (Run.bind (computed_run h1 h2 h3 n _) (Run.pure _)))

theorem optIndex_ok (h1 : Sym sty p!"[" a m) (h2 : ExprOK sty ctx 0 e m o) (h3 : Sym sty p!"]" o b) :
    OptOK sty ctx false (.expr e) a b := by
  obtain ⟨u, hu, hv⟩ := id h1
  refine ⟨⟨u, m, hu, .inr hv⟩, fun n q => ?_⟩
  obtain ⟨w, hw⟩ := run_peekAny (sty := sty) (a := a) (q := q) (.punct p!"[")
  refine Run.bind hw (Run.bind (run_curVal hu) ?_)
  simp only [hv]
  exact Run.bind (computed_run h1 h2 h3 n _) (Run.pure _)

end
end Complete
end Fajt
