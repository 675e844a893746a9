import Verif.Proofs.PrintExpr
/-!
# Reading printed operators and arrow functions
-/
namespace Fajt.Print
open Fajt Spec Complete
set_option linter.unusedSectionVars false
set_option linter.unusedSimpArgs false
variable [UnicodeID] {sty : SourceType} {mini : Bool} {ctx : Ctx} {f : Bool} {a b c m o p q x y z : Point} {is js : List Item} {v : TokVal} {n s : Str}
  {t u : Token} {e e1 e2 e3 : Expr} {es : List Expr} {sp asp bsp lsp : Span} {id : Ident} {as : List Argument}

/-! ## Static semantics of trees that are equal up to spans -/

theorem ident_strip {i j : Ident} (h : i.strip = j.strip) : i.name = j.name := by
  have := congrArg Ident.name h; exact this

theorem target_again (h : Target e) : ∀ e' : Expr, e'.strip = e.strip → Target e' := by
  induction h with
  | ident id => intro e' h; cases e' <;> simp [Expr.strip] at h; exact .ident _
  | member => intro e' h; cases e' <;> simp [Expr.strip] at h; exact .member ..
  | paren _ ih => intro e' h; cases e' <;> simp [Expr.strip] at h; exact .paren (ih _ h)

theorem names_again (h : Names e id) : ∀ e' : Expr, e'.strip = e.strip → ∃ id', Names e' id' ∧ id'.name = id.name := by
  induction h with
  | ident id => intro e' h; cases e' <;> simp [Expr.strip] at h; exact ⟨_, .ident _, ident_strip h⟩
  | paren _ ih =>
    intro e' h; cases e' <;> simp [Expr.strip] at h
    obtain ⟨i, h1, h2⟩ := ih _ h
    exact ⟨i, .paren h1, h2⟩

theorem targetOK_again {strict : Bool} {e' : Expr} (h : TargetOK strict e) (he : e'.strip = e.strip) : TargetOK strict e' := by
  refine ⟨target_again h.1 _ he, fun hs id hn => ?_⟩
  obtain ⟨i, h1, h2⟩ := names_again hn e he.symm
  have := h.2 hs i h1
  unfold evalOrArguments at *
  rwa [← h2]

theorem deleteOK_again {strict : Bool} {e' : Expr} (h : DeleteOK strict e) (he : e'.strip = e.strip) : DeleteOK strict e' := by
  intro hs id hn
  obtain ⟨i, h1, -⟩ := names_again hn e he.symm
  exact h hs i h1

theorem nestedNew_strip (e : Expr) : nestedNew e.strip = nestedNew e := by
  cases e with
  | new sp c asp as => cases c <;> simp [Expr.strip, nestedNew]
  | _ => simp [Expr.strip, nestedNew]

theorem nestedNew_again {e' : Expr} (h : nestedNew e = false) (he : e'.strip = e.strip) : nestedNew e' = false := by
  rw [← nestedNew_strip, he, nestedNew_strip, h]

theorem lineEnd_append : lineEnd mini f (is ++ js) = lineEnd mini (lineEnd mini f is) js := by simp [lineEnd]
theorem lineEnd_pu {k : Punct} : lineEnd mini f (is ++ [pu k]) = false := by simp [lineEnd, after, pu]
theorem lineEnd_word : lineEnd mini f (is ++ [word n]) = false := by simp [lineEnd, after, word]

theorem target_line (h : Target e) : lineEnd mini f e.items = false := by
  cases h with
  | ident => rfl
  | member sp o r =>
    simp only [Expr.items, lineEnd_append]
    cases r with
    | ident => rfl
    | expr e => simp only [MemberProp.items, lineEnd_pu]
  | paren => simp only [Expr.items, lineEnd_pu]

theorem updateOp_text (op : UpdateOp) : (∃ p, Punct.fromStr op.asStr = some p) ∨ ∃ k, Keyword.fromStr op.asStr = some k := by
  cases op <;> first | exact .inl ⟨_, rfl⟩ | exact .inr ⟨_, rfl⟩
theorem unaryOp_text (op : UnaryOp) : (∃ p, Punct.fromStr op.asStr = some p) ∨ ∃ k, Keyword.fromStr op.asStr = some k := by
  cases op <;> first | exact .inl ⟨_, rfl⟩ | exact .inr ⟨_, rfl⟩
theorem binaryOp_text (op : BinaryOp) : (∃ p, Punct.fromStr op.asStr = some p) ∨ ∃ k, Keyword.fromStr op.asStr = some k := by
  cases op <;> first | exact .inl ⟨_, rfl⟩ | exact .inr ⟨_, rfl⟩
theorem logicalOp_text (op : LogicalOp) : (∃ p, Punct.fromStr op.asStr = some p) ∨ ∃ k, Keyword.fromStr op.asStr = some k := by
  cases op <;> first | exact .inl ⟨_, rfl⟩ | exact .inr ⟨_, rfl⟩
theorem assignOp_text (op : AssignOp) : (∃ p, Punct.fromStr op.asStr = some p) ∨ ∃ k, Keyword.fromStr op.asStr = some k := by
  cases op <;> first | exact .inl ⟨_, rfl⟩ | exact .inr ⟨_, rfl⟩

/-! ## Optional chains -/

theorem re_chainFirstMember {r : MemberProp} (ih : Re sty mini ctx (.expr 18 e)) (hn : nestedNew e = false) (ih' : Re sty mini ctx (.optProp true r)) :
    Re sty mini ctx (.chain (.optMember sp e r true)) := by
  intro f x y h
  obtain ⟨sp', hsp⟩ := run_from h (by cases r <;> has_tok)
  obtain ⟨m, h1, h2⟩ := run_append.1 h
  obtain ⟨e', h3, h4⟩ := ih h1
  obtain ⟨r', h5, h6⟩ := ih' h2
  exact ⟨.optMember sp' e' r' true, by simp only [Expr.strip, h3, h5],
    fun v hv => .chainFirstMember (h4 v hv) (nestedNew_again hn h3) (h6 v hv) hsp⟩

theorem re_chainMember {r : MemberProp} {opt : Bool} (ih : Re sty mini ctx (.chain e)) (ih' : Re sty mini ctx (.optProp opt r)) :
    Re sty mini ctx (.chain (.optMember sp e r opt)) := by
  intro f x y h
  obtain ⟨sp', hsp⟩ := run_from h (by cases r <;> cases opt <;> has_tok)
  obtain ⟨m, h1, h2⟩ := run_append.1 h
  obtain ⟨e', h3, h4⟩ := ih h1
  obtain ⟨r', h5, h6⟩ := ih' h2
  exact ⟨.optMember sp' e' r' opt, by simp only [Expr.strip, h3, h5], fun v hv => .chainMember (h4 v hv) (h6 v hv) hsp⟩

theorem optCall_run {opt : Bool} (h : Run sty mini f x (itemsOf (.chain (.optCall sp e asp as opt))) y) :
    ∃ m o, Run sty mini f x e.items m ∧ (if opt then Sym sty p!"?." m o else o = m) ∧ ∃ g, Run sty mini g o (itemsOf (.args asp as)) y := by
  have h : Run sty mini f x (e.items ++ ((if opt then [pu p!"?."] else []) ++ (pu p!"(" :: commaItems (argItems as) ++ [pu p!")"]))) y := by
    simpa only [itemsOf, Expr.items, Callee.items, List.append_assoc] using h
  obtain ⟨m, h1, h2⟩ := run_append.1 h
  cases opt with
  | true =>
    obtain ⟨o, h3, h4⟩ := h2
    exact ⟨m, o, h1, T.tok h3, _, h4⟩
  | false => exact ⟨m, m, h1, rfl, _, h2⟩

theorem re_chainFirstCall (ih : Re sty mini ctx (.expr 18 e)) (hn : nestedNew e = false) (ih' : Re sty mini ctx (.args asp as)) :
    Re sty mini ctx (.chain (.optCall sp e asp as true)) := by
  intro f x y h
  obtain ⟨sp', hsp⟩ := run_from h (by has_tok)
  obtain ⟨m, o, h1, h2, g, h3⟩ := optCall_run h
  obtain ⟨e', h4, h5⟩ := ih h1
  obtain ⟨asp', as', h7, h8⟩ := ih' h3
  exact ⟨.optCall sp' e' asp' as' true, by simp only [Expr.strip, h4, h7],
    fun v hv => .chainFirstCall (h5 v hv) (nestedNew_again hn h4) h2 (h8 v hv) hsp⟩

theorem re_chainOptCall (ih : Re sty mini ctx (.chain e)) (ih' : Re sty mini ctx (.args asp as)) :
    Re sty mini ctx (.chain (.optCall sp e asp as true)) := by
  intro f x y h
  obtain ⟨sp', hsp⟩ := run_from h (by has_tok)
  obtain ⟨m, o, h1, h2, g, h3⟩ := optCall_run h
  obtain ⟨e', h4, h5⟩ := ih h1
  obtain ⟨asp', as', h7, h8⟩ := ih' h3
  exact ⟨.optCall sp' e' asp' as' true, by simp only [Expr.strip, h4, h7], fun v hv => .chainOptCall (h5 v hv) h2 (h8 v hv) hsp⟩

theorem re_chainCall (ih : Re sty mini ctx (.chain e)) (ih' : Re sty mini ctx (.args asp as)) :
    Re sty mini ctx (.chain (.optCall sp e asp as false)) := by
  intro f x y h
  obtain ⟨sp', hsp⟩ := run_from h (by has_tok)
  obtain ⟨m, _, h1, rfl, g, h3⟩ := optCall_run h
  obtain ⟨e', h4, h5⟩ := ih h1
  obtain ⟨asp', as', h7, h8⟩ := ih' h3
  exact ⟨.optCall sp' e' asp' as' false, by simp only [Expr.strip, h4, h7], fun v hv => .chainCall (h5 v hv) (h8 v hv) hsp⟩

theorem re_chainExpr (ih : Re sty mini ctx (.chain e)) : Re sty mini ctx (.expr 17 e) := fun _ _ _ h =>
  let ⟨e', he, hd⟩ := ih h; ⟨e', he, fun v hv => .chainExpr (hd v hv)⟩

theorem re_optName (h1 : Real t) (h2 : IdentTok ctx t id) : Re sty mini ctx (.optProp true (.ident id)) := by
  intro f x y h
  run_at h
  obtain ⟨m, h3, o, h4, rfl⟩ := h
  obtain ⟨u, h5, -, -, h6⟩ := ident_again h1 h2 h4
  exact ⟨.ident ⟨u.span, id.name⟩, rfl, fun v hv => .optName h3.tok h5 (h6 _ rfl)⟩

theorem re_optDotName (h1 : Real t) (h2 : IdentTok ctx t id) : Re sty mini ctx (.optProp false (.ident id)) := by
  intro f x y h
  run_at h
  obtain ⟨m, h3, o, h4, rfl⟩ := h
  obtain ⟨u, h5, -, -, h6⟩ := ident_again h1 h2 h4
  exact ⟨.ident ⟨u.span, id.name⟩, rfl, fun v hv => .optDotName h3.tok h5 (h6 _ rfl)⟩

theorem re_optComputed (ih : Re sty mini ctx (.expr 0 e)) : Re sty mini ctx (.optProp true (.expr e)) := by
  intro f x y h
  run_at h
  obtain ⟨m, h1, o, h2, q, h3, r, h4, rfl⟩ := h
  obtain ⟨e', h5, h6⟩ := ih h3
  exact ⟨.expr e', by simp only [MemberProp.strip, h5], fun v hv => .optComputed h1.tok h2.tok (h6 v hv) h4.tok⟩

theorem re_optIndex (ih : Re sty mini ctx (.expr 0 e)) : Re sty mini ctx (.optProp false (.expr e)) := by
  intro f x y h
  run_at h
  obtain ⟨o, h2, q, h3, r, h4, rfl⟩ := h
  obtain ⟨e', h5, h6⟩ := ih h3
  exact ⟨.expr e', by simp only [MemberProp.strip, h5], fun v hv => .optIndex h2.tok (h6 v hv) h4.tok⟩

/-! ## Operators -/

theorem re_prefixUpdate {op : UpdateOp} (ih : Re sty mini ctx (.expr 15 e)) (ht : TargetOK ctx.strict e) :
    Re sty mini ctx (.expr 16 (.update sp op true e)) := by
  intro f x y h
  obtain ⟨sp', hsp⟩ := run_from h (by has_tok)
  obtain ⟨u, m, h1, h2, -, h3⟩ := oper_again (updateOp_text op) h
  obtain ⟨e', h4, h5⟩ := ih h3
  exact ⟨.update sp' op true e', by simp only [Expr.strip, h4],
    fun v hv => .prefixUpdate h1 h2 (h5 v hv) (targetOK_again ht h4) hsp⟩

theorem re_postfixUpdate {op : UpdateOp} (ih : Re sty mini ctx (.expr 17 e)) (ht : TargetOK ctx.strict e) :
    Re sty mini ctx (.expr 16 (.update sp op false e)) := by
  intro f x y h
  obtain ⟨sp', hsp⟩ := run_from h (by has_tok)
  obtain ⟨m, h1, h2⟩ := run_append.1 h
  obtain ⟨u, q, h3, h4, h5, rfl⟩ := oper_again (updateOp_text op) h2
  obtain ⟨e', h6, h7⟩ := ih h1
  exact ⟨.update sp' op false e', by simp only [Expr.strip, h6],
    fun v hv => .postfixUpdate (h7 v hv) (targetOK_again ht h6) h3 h4 (h5.trans (target_line ht.1)) hsp⟩

theorem re_unary {op : UnaryOp} (ih : Re sty mini ctx (.expr 15 e)) (ht : op = .delete → DeleteOK ctx.strict e) :
    Re sty mini ctx (.expr 15 (.unary sp op e)) := by
  intro f x y h
  obtain ⟨sp', hsp⟩ := run_from h (by has_tok)
  obtain ⟨u, m, h1, h2, -, h3⟩ := oper_again (unaryOp_text op) h
  obtain ⟨e', h4, h5⟩ := ih h3
  exact ⟨.unary sp' op e', by simp only [Expr.strip, h4], fun v hv => .unary h1 h2 (h5 v hv) (fun ho => deleteOK_again (ht ho) h4) hsp⟩

theorem re_await (hc : ctx.await = true) (ih : Re sty mini ctx (.expr 15 e)) : Re sty mini ctx (.expr 15 (.await sp e)) := by
  intro f x y h
  obtain ⟨sp', hsp⟩ := run_from h (by has_tok)
  run_at h
  obtain ⟨m, h1, h2⟩ := h
  obtain ⟨e', h4, h5⟩ := ih h2
  exact ⟨.await sp' e', by simp only [Expr.strip, h4], fun v hv => .await hc h1.key (h5 v hv) hsp⟩

theorem infix_run {l r : List Item} {s : Str} (hs : (∃ p, Punct.fromStr s = some p) ∨ ∃ k, Keyword.fromStr s = some k)
    (h : Run sty mini f x (l ++ [.gap, oper s, .gap] ++ r) y) :
    ∃ m o t g, Run sty mini f x l m ∧ Next sty m t o ∧ symbol t.value = some s ∧ Run sty mini g o r y := by
  rw [List.append_assoc] at h
  obtain ⟨m, h1, h2⟩ := run_append.1 h
  obtain ⟨u, o, h3, h4, -, h5⟩ := oper_again hs (run_gap.1 h2)
  exact ⟨m, o, u, _, h1, h3, h4, run_gap.1 h5⟩

theorem re_binary {op : BinaryOp} (ih : Re sty mini ctx (.expr (binaryLevel op) e1)) (hi : op = .in_ → ctx.in_ = true)
    (ih' : Re sty mini ctx (.expr (binaryLevel op + 1) e2)) : Re sty mini ctx (.expr (binaryLevel op) (.binary sp op e1 e2)) := by
  intro f x y h
  obtain ⟨sp', hsp⟩ := run_from h (by has_tok)
  obtain ⟨m, o, t, g, h1, h2, h3, h4⟩ := infix_run (binaryOp_text op) h
  obtain ⟨e1', h5, h6⟩ := ih h1
  obtain ⟨e2', h7, h8⟩ := ih' h4
  exact ⟨.binary sp' op e1' e2', by simp only [Expr.strip, h5, h7], fun v hv => .binary (h6 v hv) h2 h3 (fun h => hv (hi h)) (h8 v hv) hsp⟩

theorem re_logical {op : LogicalOp} (ih : Re sty mini ctx (.expr (logicalLevel op) e1))
    (ih' : Re sty mini ctx (.expr (logicalLevel op + 1) e2)) : Re sty mini ctx (.expr (logicalLevel op) (.logical sp op e1 e2)) := by
  intro f x y h
  obtain ⟨sp', hsp⟩ := run_from h (by has_tok)
  obtain ⟨m, o, t, g, h1, h2, h3, h4⟩ := infix_run (logicalOp_text op) h
  obtain ⟨e1', h5, h6⟩ := ih h1
  obtain ⟨e2', h7, h8⟩ := ih' h4
  exact ⟨.logical sp' op e1' e2', by simp only [Expr.strip, h5, h7], fun v hv => .logical (h6 v hv) h2 h3 (h8 v hv) hsp⟩

theorem re_conditional (ih : Re sty mini ctx (.expr 3 e1)) (ih2 : Re sty mini ctx (.expr 1 e2)) (ih3 : Re sty mini ctx (.expr 1 e3)) :
    Re sty mini ctx (.expr 2 (.conditional sp e1 e2 e3)) := by
  intro f x y h
  obtain ⟨sp', hsp⟩ := run_from h (by has_tok)
  run_at h
  obtain ⟨m, h1, o, h2, q, h3, r, h4, h5⟩ := h
  obtain ⟨e1', h6, h7⟩ := ih h1
  obtain ⟨e2', h8, h9⟩ := ih2 h3
  obtain ⟨e3', h10, h11⟩ := ih3 h5
  exact ⟨.conditional sp' e1' e2' e3', by simp only [Expr.strip, h6, h8, h10],
    fun v hv => .conditional (h7 v hv) h2.tok (h9 v hv) h4.tok (h11 v hv) hsp⟩

theorem re_assign {op : AssignOp} (ih : Re sty mini ctx (.expr 17 e1)) (ht : TargetOK ctx.strict e1) (ih' : Re sty mini ctx (.expr 1 e2)) :
    Re sty mini ctx (.expr 1 (.assign sp op (.expr e1) e2)) := by
  intro f x y h
  obtain ⟨sp', hsp⟩ := run_from h (by has_tok)
  obtain ⟨hl, h⟩ := h
  obtain ⟨m, o, t, g, h1, h2, h3, h4⟩ := infix_run (assignOp_text op) h
  obtain ⟨e1', h5, h6⟩ := ih h1
  obtain ⟨e2', h7, h8⟩ := ih' h4
  exact ⟨.assign sp' op (.expr e1') e2', by simp only [Expr.strip, PatternOrExpr.strip, h5, h7],
    fun v hv => .assign (h6 v hv) (Look.mono hl fun t ht => by simpa using ht) (targetOK_again ht h5) h2 h3 (h8 v hv) hsp⟩

theorem re_assignPattern {op : AssignOp} {r : AssignPattern} : Re sty mini ctx (.expr 1 (.assign sp op (.pattern r) e2)) := by
  intro f x y h
  run_at h
  exact absurd h.2.1 (by decide)

theorem re_yieldNone (hc : ctx.yield = true) : Re sty mini ctx (.expr 1 (.yield sp none false)) := by
  intro f x y h
  obtain ⟨sp', hsp⟩ := run_from h (by has_tok)
  obtain ⟨m, h1, h2, rfl⟩ := h
  refine ⟨.yield sp' none false, rfl, fun v hv => .yieldNone hc (skey h1) (Look.mono h2 fun t ht => .inr ?_) hsp⟩
  simpa using ht

theorem re_yield (hc : ctx.yield = true) (ih : Re sty mini ctx (.expr 1 e)) : Re sty mini ctx (.expr 1 (.yield sp (some e) false)) := by
  intro f x y h
  obtain ⟨sp', hsp⟩ := run_from h (by has_tok)
  run_at h
  obtain ⟨m, h1, h2, h3⟩ := h
  obtain ⟨e', h4, h5⟩ := ih h3
  exact ⟨.yield sp' (some e') false, by simp only [Expr.strip, stripOptExpr, h4],
    fun v hv => .yield hc h1.key (Look.mono h2 fun t ht => by simpa using ht) (h5 v hv) hsp⟩

theorem re_yieldStar (hc : ctx.yield = true) (ih : Re sty mini ctx (.expr 1 e)) : Re sty mini ctx (.expr 1 (.yield sp (some e) true)) := by
  intro f x y h
  obtain ⟨sp', hsp⟩ := run_from h (by has_tok)
  run_at h
  obtain ⟨m, h1, h2, o, h3, h6⟩ := h
  obtain ⟨e', h4, h5⟩ := ih h6
  exact ⟨.yield sp' (some e') true, by simp only [Expr.strip, stripOptExpr, h4],
    fun v hv => .yieldStar hc h1.key (Look.mono h2 fun t ht => by simpa using ht) h3.tok (h5 v hv) hsp⟩

theorem comma_tail {i : List Item} {l : List Expr} : commaItems (i :: exprItems l) = i ++ tailItems l := by
  induction l generalizing i with
  | nil => simp [exprItems, commaItems, tailItems]
  | cons e l ih => simp only [exprItems, commaItems, ih, tailItems, List.append_assoc, List.cons_append, List.nil_append]

theorem re_comma {d : Expr} {l : List Expr} (ih : Re sty mini ctx (.expr 1 e)) (ih' : Re sty mini ctx (.exprs (d :: l))) :
    Re sty mini ctx (.expr 0 (.sequence sp (e :: d :: l))) := by
  intro f x y h
  have h : Run sty mini f x (e.items ++ tailItems (d :: l)) y := by
    rw [← comma_tail]; exact h
  obtain ⟨sp', hsp⟩ := run_from h (by simp [tailItems, isTok_pu])
  obtain ⟨m, h1, h2⟩ := run_append.1 h
  obtain ⟨e', h3, h4⟩ := ih h1
  obtain ⟨l', h5, h6⟩ := ih' h2
  exact ⟨.sequence sp' (e' :: l'), by rw [Expr.strip, stripExprs, h3, h5]; rfl, fun v hv => .comma (h4 v hv) (h6 v hv) hsp⟩

theorem re_exprsLast (ih : Re sty mini ctx (.expr 1 e)) : Re sty mini ctx (.exprs [e]) := by
  intro f x y h
  run_at h
  obtain ⟨m, h1, h2⟩ := h
  obtain ⟨e', h3, h4⟩ := ih h2
  exact ⟨[e'], by simp only [stripExprs, h3], fun v hv => .exprsLast h1.tok (h4 v hv)⟩

theorem re_exprsMore {l : List Expr} (ih : Re sty mini ctx (.expr 1 e)) (ih' : Re sty mini ctx (.exprs l)) : Re sty mini ctx (.exprs (e :: l)) := by
  intro f x y h
  simp only [itemsOf, tailItems, List.cons_append, run_pu, run_gap] at h
  obtain ⟨m, h1, h2⟩ := h
  obtain ⟨o, h2, h5⟩ := run_append.1 h2
  obtain ⟨e', h3, h4⟩ := ih h2
  obtain ⟨l', h6, h7⟩ := ih' h5
  exact ⟨e' :: l', by simp only [stripExprs, h3, h6], fun v hv => .exprsMore h1.tok (h4 v hv) (h7 v hv)⟩

/-! ## Arrow functions -/

theorem re_arrowIdent {bd : ArrowBody} {sp1 sp2 : Span} (h1 : Real t) (h2 : IdentTok ctx t id)
    (ih : Re sty mini (insideArrow ctx false) (.arrowBody bd)) :
    Re sty mini ctx (.expr 1 (.arrow sp false true (.mk sp1 [.mk sp2 (.ident id) none] none) bd)) := by
  intro f x y h
  obtain ⟨sp', hsp⟩ := run_from h (by has_tok)
  simp only [itemsOf, Expr.items, Bool.false_eq_true, if_false, if_true, FormalParams.bare, bareItems, BindingElement.items, BindingPattern.items,
    initItems, List.append_nil, List.nil_append, List.cons_append, run_word, run_gap, run_pu] at h
  obtain ⟨m, h3, o, ⟨-, u, h4, h5, h6⟩, h7⟩ := h
  obtain ⟨w, h8, -, -, h9⟩ := ident_again h1 h2 h3
  obtain ⟨b', h10, h11⟩ := ih h7
  exact ⟨.arrow sp' false true (.mk w.span [.mk w.span (.ident ⟨w.span, id.name⟩) none] none) b',
    by simp only [Expr.strip, FormalParams.strip, stripBindingElements, BindingElement.strip, BindingPattern.strip, stripOptExpr, stripOptBindingPattern, Ident.strip, h10],
    fun v hv => .arrowIdent h8 (h9 _ rfl) h4 h5 h6 (h11 v hv) hsp⟩

theorem re_asyncArrowIdent {bd : ArrowBody} {sp1 sp2 : Span} (h1 : Real t) (h2 : IdentTok ctx t id)
    (ih : Re sty mini (insideArrow ctx true) (.arrowBody bd)) :
    Re sty mini ctx (.expr 1 (.arrow sp true true (.mk sp1 [.mk sp2 (.ident id) none] none) bd)) := by
  intro f x y h
  obtain ⟨sp', hsp⟩ := run_from h (by has_tok)
  simp only [itemsOf, Expr.items, Bool.false_eq_true, if_false, if_true, FormalParams.bare, bareItems, BindingElement.items, BindingPattern.items,
    initItems, List.append_nil, List.nil_append, List.cons_append, run_word, run_gap, run_pu] at h
  obtain ⟨l, h0, m, h3, o, ⟨-, u, h4, h5, h6⟩, h7⟩ := h
  obtain ⟨w, h8, -, -, h9⟩ := ident_again h1 h2 h3
  obtain ⟨b', h10, h11⟩ := ih h7
  exact ⟨.arrow sp' true true (.mk w.span [.mk w.span (.ident ⟨w.span, id.name⟩) none] none) b',
    by simp only [Expr.strip, FormalParams.strip, stripBindingElements, BindingElement.strip, BindingPattern.strip, stripOptExpr, stripOptBindingPattern, Ident.strip, h10],
    fun v hv => .asyncArrowIdent h0.key h8 (h9 _ rfl) h4 h5 h6 (h11 v hv) hsp⟩

theorem params_line (ps : FormalParams) : lineEnd mini f ps.items = false := by
  cases ps; simp only [FormalParams.items, lineEnd_pu]

theorem cover_ahead (hs : Seekable sty x) (h1 : Sym sty p!"(" x m) {n : Bool} (hc : Cover sty ctx n m y) (h2 : Sym sty p!"=>" y b) (v : Bool) :
    ∃ w, Derives sty { ctx with in_ := v } .arrowAhead x w := by
  obtain ⟨⟨t, c, ht⟩, ⟨-, h⟩ | ⟨e, q, o, h3, h4, h5⟩ | ⟨s, w, h⟩⟩ := hc
  · exact ⟨_, .aheadEmpty h1 h⟩
  · rcases h4 with rfl | ⟨es, h4⟩
    · exact ⟨_, .aheadParen hs h1 (.up (.inl (by omega)) h3) h5 h2⟩
    · exact ⟨_, .aheadParen hs h1 (.comma h3 h4 ⟨t, c, ht, rfl⟩) h5 h2⟩
  · exact ⟨_, .aheadStop hs h1 h⟩

theorem re_arrow {ps : FormalParams} {bd : ArrowBody} (ih : Re sty mini ctx (.params ps)) (ih' : Re sty mini (insideArrow ctx false) (.arrowBody bd)) :
    Re sty mini ctx (.expr 1 (.arrow sp false false ps bd)) := by
  intro f x y h
  obtain ⟨sp', hsp⟩ := run_from h (by has_tok)
  simp only [itemsOf, Expr.items, Bool.false_eq_true, if_false, List.append_nil, List.nil_append, List.cons_append, run_demand, List.append_assoc] at h
  obtain ⟨hd, h⟩ := h
  obtain ⟨m, h1, h2⟩ := run_append.1 h
  rw [params_line] at h2
  obtain ⟨o, ⟨-, u, h4, h5, h6⟩, h7⟩ := h2
  obtain ⟨⟨ps', h8, h9⟩, hc⟩ := ih h1
  obtain ⟨hs, w, hw, ⟨_, hc⟩, -⟩ := hc (Bool.and_eq_true_iff.1 hd).1
  obtain ⟨b', h10, h11⟩ := ih' (run_gap.1 h7)
  refine ⟨.arrow sp' false false ps' b', by simp only [Expr.strip, h8, h10], fun v hv => ?_⟩
  obtain ⟨z, hz⟩ := cover_ahead hs hw hc ⟨u, h4, h5⟩ v
  exact .arrow hz (h9 v hv) h4 h5 h6 (h11 v hv) hsp

theorem re_asyncArrow {ps : FormalParams} {bd : ArrowBody} (ih : Re sty mini ctx (.params ps)) (ih' : Re sty mini (insideArrow ctx true) (.arrowBody bd)) :
    Re sty mini ctx (.expr 1 (.arrow sp true false ps bd)) := by
  intro f x y h
  obtain ⟨sp', hsp⟩ := run_from h (by has_tok)
  simp only [itemsOf, Expr.items, Bool.false_eq_true, if_false, if_true, List.append_nil, List.nil_append, List.cons_append, run_demand, List.append_assoc,
    run_word, run_gap] at h
  obtain ⟨l, h0, hd, h⟩ := h
  obtain ⟨m, h1, h2⟩ := run_append.1 h
  rw [params_line] at h2
  obtain ⟨o, ⟨-, u, h4, h5, h6⟩, h7⟩ := h2
  obtain ⟨⟨ps', h8, h9⟩, hc⟩ := ih h1
  rw [Bool.and_eq_true] at hd
  obtain ⟨hs, w, hw, -, hc⟩ := hc hd.1
  obtain ⟨b', h10, h11⟩ := ih' (run_gap.1 h7)
  obtain ⟨as, has⟩ := hc (by simpa using hd.2)
  obtain ⟨asp, hasp⟩ := run_from h1 (by cases ps; simp [FormalParams.items, isTok_pu])
  exact ⟨.arrow sp' true false ps' b', by simp only [Expr.strip, h8, h10],
    fun v hv => .asyncArrow h0.seek h0.key (.args hw has hasp) (h9 v hv) h4 h5 h6 (h11 v hv) hsp⟩

theorem re_arrowExpr (ih : Re sty mini ctx (.expr 1 e)) : Re sty mini ctx (.arrowBody (.expr e)) := by
  intro f x y h
  obtain ⟨hl, h⟩ := h
  obtain ⟨e', h1, h2⟩ := ih h
  exact ⟨.expr e', by simp only [ArrowBody.strip, h1], fun v hv => .arrowExpr (Look.mono hl fun t ht => by simpa using ht) (h2 v hv)⟩

theorem re_arrowBlock {bd : Body} (ih : Re sty mini ctx (.body bd)) : Re sty mini ctx (.arrowBody (.body bd)) := by
  intro f x y h
  obtain ⟨e', h1, h2⟩ := ih h
  exact ⟨.body e', by simp only [ArrowBody.strip, h1], fun v hv => .arrowBlock (h2 v hv)⟩

end Fajt.Print
