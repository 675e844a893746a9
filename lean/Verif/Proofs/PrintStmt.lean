import Verif.Proofs.PrintFunc
/-!
# Reading printed statements
-/
namespace Fajt.Print
open Fajt Spec Complete
set_option linter.unusedSectionVars false
set_option linter.unusedSimpArgs false
variable [UnicodeID] {sty : SourceType} {mini : Bool} {ctx : Ctx} {f : Bool} {a b c m o p q x y z : Point} {is js : List Item} {v : TokVal} {n : Str}
  {t u : Token} {e e1 e2 e3 : Expr} {es : List Expr} {sp asp bsp lsp : Span} {id : Ident} {as : List Argument} {s s1 s2 : Stmt}
  {ss : List Stmt}

/-- Takes the reading of the items of a statement apart. -/
macro "st_at " h:ident : tactic => `(tactic|
  simp only [itemsOf, Stmt.items, returnItems, elseItems, finallyItems, catchItems, CatchClause.items, catchParamItems, VarStmt.items, VarStmt.bare,
    VarDecl.items, SwitchCase.items, caseTestItems, forInitItems, ForInit.items, ForDecl.items, spacedItems, stmtItems, caseItems,
    List.cons_append, List.append_assoc, List.nil_append, List.append_nil, if_true, if_false, Bool.false_eq_true,
    run_nil, run_gap, run_blank, run_close, run_semi, run_nl, run_open, run_sep, run_still, run_single, run_next, run_notNext, run_sameLine, run_next2, run_more, run_lexed,
    run_demand, run_word, run_pu, run_strItem, run_append] at $h:ident)

/-- There is a token among the items of a statement. -/
macro "st_tok" : tactic => `(tactic|
  simp [itemsOf, Stmt.items, VarStmt.items, VarStmt.bare, SwitchCase.items, CatchClause.items, isTok_word, isTok_pu, isTok_strItem])

/-! ## Variables -/

theorem re_varDecl {d : BindingPattern} {i : Option Expr} (ih : Re sty mini ctx (.binding d)) (ih' : Re sty mini ctx (.initializer i))
    (hi : i = none → ∃ id, d = .ident id) : Re sty mini ctx (.varDecl (.mk sp d i)) := by
  intro f x y h
  have htok : (d.items ++ initItems i).any isTok = true := by
    cases d <;> simp [BindingPattern.items, isTok_pu, isTok_word]
  obtain ⟨sp', hsp⟩ := run_from h htok
  obtain ⟨m, h1, h2⟩ := run_append.1 h
  obtain ⟨⟨d', h3, h4⟩, -⟩ := ih h1
  obtain ⟨i', h5, h6⟩ := ih' h2
  refine ⟨.mk sp' d' i', by simp only [VarDecl.strip, h3, h5], fun v hv => .varDecl (h4 v hv) (h6 v hv) ?_ hsp⟩
  rintro rfl
  obtain rfl : i = none := by cases i <;> simp [stripOptExpr] at h5 ⊢
  obtain ⟨j, rfl⟩ := hi rfl
  cases d' <;> simp [BindingPattern.strip] at h3
  exact ⟨_, rfl⟩

theorem re_varDeclsLast {d : VarDecl} (ih : Re sty mini ctx (.varDecl d)) : Re sty mini ctx (.varDecls [d]) := by
  intro f x y h
  have h : Run sty mini f x (d.items ++ [] ++ []) y := h
  simp only [List.append_nil] at h
  obtain ⟨d', h1, h2⟩ := ih h
  exact ⟨[d'], by simp only [stripVarDecls, h1], fun v hv => .varDeclsLast (h2 v hv)⟩

theorem re_varDeclsMore {d : VarDecl} {l : List VarDecl} (ih : Re sty mini ctx (.varDecl d)) (ih' : Re sty mini ctx (.varDecls l)) :
    Re sty mini ctx (.varDecls (d :: l)) := by
  cases l with
  | nil => exact re_varDeclsLast ih
  | cons d1 l =>
    intro f x y h
    have h : Run sty mini f x (d.items ++ [pu p!",", if hasInit d then .nl else .gap] ++ varDeclItems (d1 :: l)) y := h
    rw [List.append_assoc] at h
    obtain ⟨m, h1, o, h2, h⟩ := run_append.1 h
    have h : ∃ g, Run sty mini g o (varDeclItems (d1 :: l)) y := by
      cases hd : hasInit d <;> rw [hd] at h <;> exact ⟨_, h⟩
    obtain ⟨g, h⟩ := h
    obtain ⟨d', h3, h4⟩ := ih h1
    obtain ⟨l', h5, h6⟩ := ih' h
    exact ⟨d' :: l', by rw [stripVarDecls, h3, h5]; rfl, fun v hv => .varDeclsMore (h4 v hv) (T.tok h2) (h6 v hv)⟩

theorem varDecls_ne {l : List VarDecl} (h : Derives sty ctx (.varDecls l) a b) : l ≠ [] := by
  rintro rfl; cases h

theorem varKind_word {k : VarKind} (h : T sty (nameVal k.asStr) f x m) : ∃ t, Next sty x t m ∧ symbol t.value = some k.asStr := by
  obtain ⟨-, t, h1, h2, -⟩ := h
  exact ⟨t, h1, by rw [h2]; cases k <;> rfl⟩

/-- The parts of a variable statement. -/
theorem var_run {k : VarKind} {l : List VarDecl} (hl : l ≠ []) (h : Run sty mini f x (VarStmt.items (.mk sp k l)) y) :
    ∃ m o, T sty (nameVal k.asStr) f x m ∧ (∃ g, Run sty mini g m (varDeclItems l) o) ∧ (∀ c k, Ends sty c k o) ∧ EndOfStmt sty o y := by
  have hl : l.isEmpty = false := by cases l <;> simp at hl ⊢
  simp only [VarStmt.items, hl, Bool.false_eq_true, if_false, List.cons_append] at h
  obtain ⟨m, h1, h⟩ := run_word.1 h
  obtain ⟨o, h2, q, h3, rfl⟩ := run_append.1 (run_gap.1 h)
  exact ⟨m, o, h1, ⟨_, h2⟩, fun c k => semi_ends h3, semi_stmt h3⟩

theorem run_nlEnd : Run sty mini f x (is ++ [.nl]) y ↔ Run sty mini f x is y := by
  simp only [run_append, run_nl, run_nil]
  exact ⟨fun ⟨m, h1, h2⟩ => h2 ▸ h1, fun h => ⟨_, h, rfl⟩⟩

theorem re_var {l : List VarDecl} (hl : l ≠ []) (ih : Re sty mini { ctx with in_ := true } (.varDecls l)) :
    Re sty mini ctx (.stmt (.variable (.mk sp .var l))) := by
  intro f x y h
  obtain ⟨sp', hsp⟩ := run_from h (by st_tok)
  obtain ⟨m, o, h1, ⟨g, h2⟩, h3, h4⟩ := var_run hl (run_nlEnd.1 h)
  obtain ⟨l', h5, h6⟩ := ih h2
  exact ⟨.variable (.mk sp' .var l'), by simp only [Stmt.strip, VarStmt.strip, h5], fun v hv => .var h1.key h6.on (h3 _ _) h4 hsp⟩

theorem re_lexical {k : VarKind} {l : List VarDecl} (hk : k ≠ .var) (hl : l ≠ []) (ih : Re sty mini ctx (.varDecls l)) :
    Re sty mini ctx (.decl (.variable (.mk sp k l))) := by
  intro f x y h
  obtain ⟨sp', hsp⟩ := run_from h (by st_tok)
  obtain ⟨m, o, h1, ⟨g, h2⟩, h3, h4⟩ := var_run hl (run_nlEnd.1 h)
  obtain ⟨t, ht, hs⟩ := varKind_word h1
  obtain ⟨l', h5, h6⟩ := ih h2
  exact ⟨.variable (.mk sp' k l'), by simp only [Stmt.strip, VarStmt.strip, h5], fun v hv => .lexical ht hk hs (h6 v hv) (h3 _ _) h4 hsp⟩

/-! ## Statements -/

theorem re_empty : Re sty mini ctx (.stmt (.empty sp)) := by
  intro f x y h
  st_at h
  obtain ⟨m, ⟨-, t, h1, h2, -⟩, rfl⟩ := h
  exact ⟨.empty t.span, rfl, fun v hv => .empty h1 h2⟩

theorem re_blockS {k : Block} (ih : Re sty mini ctx (.block k)) : Re sty mini ctx (.stmt (.block k)) := by
  intro f x y h
  obtain ⟨k', h1, h2⟩ := ih (run_nlEnd.1 h)
  exact ⟨.block k', by simp only [Stmt.strip, h1], fun v hv => .blockS (h2 v hv)⟩

theorem block_tok : (blockItems is).any isTok = true := by
  unfold blockItems; split <;> simp [isTok_pu]

theorem re_block (ih : Re sty mini ctx (.stmts ss)) : Re sty mini ctx (.block (.mk sp ss)) := by
  intro f x y h
  obtain ⟨sp', hsp⟩ := run_from h block_tok
  obtain ⟨m, g, h1, h2⟩ := block_run' h
  obtain ⟨ss', h3, h4⟩ := ih h2
  exact ⟨.mk sp' ss', by simp only [Block.strip, h3], fun v hv => .block h1 (h4 v hv) hsp⟩

theorem re_stmtsEnd : Re sty mini ctx (.stmts []) := by
  intro f x y h
  obtain ⟨b, h1, rfl⟩ := h
  exact ⟨[], rfl, fun v hv => .stmtsEnd (T.tok h1)⟩

theorem re_stmtsMore (ih : Re sty mini ctx (.item s)) (ih' : Re sty mini ctx (.stmts ss)) : Re sty mini ctx (.stmts (s :: ss)) := by
  intro f x y h
  simp only [itemsOf, stmtItems, List.append_assoc] at h
  obtain ⟨m, h1, h2⟩ := run_append.1 h
  obtain ⟨s', h3, h4⟩ := ih h1
  obtain ⟨ss', h5, h6⟩ := ih' h2
  exact ⟨s' :: ss', by simp only [stripStmts, h3, h5], fun v hv => .stmtsMore (h4 v hv) (h6 v hv)⟩

theorem re_itemsEnd : Re sty mini ctx (.items []) := by
  intro f x y h he
  obtain rfl : y = x := h
  exact ⟨[], rfl, fun v hv => .itemsEnd he⟩

theorem re_itemsMore (ih : Re sty mini ctx (.item s)) (ih' : Re sty mini ctx (.items ss)) : Re sty mini ctx (.items (s :: ss)) := by
  intro f x y h he
  simp only [itemsOf, stmtItems] at h
  obtain ⟨m, h1, h2⟩ := run_append.1 h
  obtain ⟨s', h3, h4⟩ := ih h1
  obtain ⟨ss', h5, h6⟩ := ih' h2 he
  exact ⟨s' :: ss', by simp only [stripStmts, h3, h5], fun v hv => .itemsMore (h4 v hv) (h6 v hv)⟩

theorem stmt_start (h : Run sty mini f x (stmtStart ++ is) y) : (∀ ctx, StmtStart sty ctx x) ∧ Run sty mini f x is y := by
  obtain ⟨⟨t, b, h1⟩, h2, h3, h4⟩ := h
  have h2 := h2 t b h1
  simp at h2
  refine ⟨fun ctx => ⟨t, b, h1, by simp [h2], fun hv u c hu hw => ?_, fun hv => absurd hv h2.2.2.2.2, fun ⟨id, hi⟩ u c hu hw => ?_⟩, h4⟩
  · have := h3 t b u c h1 hu (.inr ⟨_, hv⟩)
    simp [hv, hw] at this
  · have := h3 t b u c h1 hu (by
      cases hi with
      | ident h => left; rw [h]; rfl
      | keyword h => exact .inr ⟨_, h⟩)
    simp [hw] at this

theorem re_exprStmt (ih : Re sty mini { ctx with in_ := true } (.expr 0 e)) : Re sty mini ctx (.stmt (.expr sp e)) := by
  intro f x y h
  simp only [itemsOf, Stmt.items, List.append_assoc] at h
  obtain ⟨h0, h⟩ := stmt_start h
  obtain ⟨sp', hsp⟩ : ∃ sp, From sty x y sp := let ⟨t, b, h1, _⟩ := h0 ctx; ⟨_, t, b, h1, rfl⟩
  obtain ⟨m, h1, h⟩ := run_append.1 h
  obtain ⟨o, h2, rfl⟩ := run_semi.1 h
  obtain ⟨e', h3, h4⟩ := ih h1
  refine ⟨.expr sp' e', by simp only [Stmt.strip, h3], fun v hv => .exprStmt ?_ h4.on (semi_ends h2) (semi_stmt h2) hsp⟩
  exact h0 _

theorem re_labeled (h1 : Real t) (h2 : IdentTok ctx t id) (ih : Re sty mini ctx (.stmt s)) : Re sty mini ctx (.stmt (.labeled sp id s)) := by
  intro f x y h
  obtain ⟨sp', hsp⟩ := run_from h (by st_tok)
  st_at h
  obtain ⟨m, h3, o, h4, q, h5, rfl⟩ := h
  obtain ⟨u, h6, -, -, h7⟩ := ident_again h1 h2 h3
  obtain ⟨s', h8, h9⟩ := ih h5
  exact ⟨.labeled sp' ⟨u.span, id.name⟩ s', by simp only [Stmt.strip, Ident.strip, h8], fun v hv => .labeled h6 (h7 _ rfl) h4.tok (h9 v hv) hsp⟩

theorem re_break : Re sty mini ctx (.stmt (.break sp none)) := by
  intro f x y h
  obtain ⟨sp', hsp⟩ := run_from h (by st_tok)
  st_at h
  obtain ⟨m, h3, o, h4, rfl⟩ := h
  exact ⟨.break sp' none, rfl, fun v hv => .break h3.key (semi_stmt h4) hsp⟩

theorem re_breakLabel (h1 : Real t) (h2 : IdentTok ctx t id) : Re sty mini ctx (.stmt (.break sp (some id))) := by
  intro f x y h
  obtain ⟨sp', hsp⟩ := run_from h (by st_tok)
  st_at h
  obtain ⟨m, h3, o, h4, q, h5, rfl⟩ := h
  obtain ⟨u, h6, -, h8, h7⟩ := ident_again h1 h2 h4
  exact ⟨.break sp' (some ⟨u.span, id.name⟩), rfl, fun v hv => .breakLabel h3.key h6 (h7 _ rfl) h8 (semi_stmt h5) hsp⟩

theorem re_continue : Re sty mini ctx (.stmt (.continue sp none)) := by
  intro f x y h
  obtain ⟨sp', hsp⟩ := run_from h (by st_tok)
  st_at h
  obtain ⟨m, h3, o, h4, rfl⟩ := h
  exact ⟨.continue sp' none, rfl, fun v hv => .continue h3.key (semi_stmt h4) hsp⟩

theorem re_continueLabel (h1 : Real t) (h2 : IdentTok ctx t id) : Re sty mini ctx (.stmt (.continue sp (some id))) := by
  intro f x y h
  obtain ⟨sp', hsp⟩ := run_from h (by st_tok)
  st_at h
  obtain ⟨m, h3, o, h4, q, h5, rfl⟩ := h
  obtain ⟨u, h6, -, h8, h7⟩ := ident_again h1 h2 h4
  exact ⟨.continue sp' (some ⟨u.span, id.name⟩), rfl, fun v hv => .continueLabel h3.key h6 (h7 _ rfl) h8 (semi_stmt h5) hsp⟩

theorem re_return (hr : ctx.return_ = true) : Re sty mini ctx (.stmt (.return sp none)) := by
  intro f x y h
  obtain ⟨sp', hsp⟩ := run_from h (by st_tok)
  st_at h
  obtain ⟨m, h3, o, h4, rfl⟩ := h
  exact ⟨.return sp' none, rfl, fun v hv => .return hr h3.key (semi_stmt h4) hsp⟩

theorem re_returnExpr (hr : ctx.return_ = true) (ih : Re sty mini { ctx with in_ := true } (.expr 0 e)) : Re sty mini ctx (.stmt (.return sp (some e))) := by
  intro f x y h
  obtain ⟨sp', hsp⟩ := run_from h (by st_tok)
  st_at h
  obtain ⟨m, h3, h4, o, h5, q, h6, rfl⟩ := h
  obtain ⟨e', h7, h8⟩ := ih h5
  exact ⟨.return sp' (some e'), by simp only [Stmt.strip, stripOptExpr, h7],
    fun v hv => .returnExpr hr h3.key (Look.mono h4 fun t ht => by simpa using ht) h8.on (semi_ends h6) (semi_stmt h6) hsp⟩

/-- What `throwEnd` says. -/
theorem throw_end (h : Run sty mini f a (throwEnd :: is) z) : Ends sty { ctx with in_ := true } 0 a ∧
    Look sty a (fun t => t.value ≠ .punct p!";" ∧ (t.value = .punct p!"}" ∨ t.fol = true)) ∧ Run sty mini f a is z := by
  obtain ⟨h1, h2⟩ := h
  refine ⟨Look.mono h1 fun t ht l hl => ?_, Look.mono h1 fun t ht => ?_, h2⟩
  · obtain ⟨tv, tf, tsp⟩ := t
    exfalso
    simp only [Bool.and_eq_true] at ht
    obtain ⟨h0, ht⟩ := ht
    unfold contLevel at hl
    split at hl <;> first
      | (simp_all; done)
      | (rename_i heq; simp only at heq; subst heq; simp_all; done)
  · simp only [Bool.and_eq_true, Bool.or_eq_true, beq_iff_eq] at ht
    refine ⟨fun hv => ?_, ht.1.symm⟩
    rw [hv] at ht
    simp at ht

theorem re_throw (ih : Re sty mini { ctx with in_ := true } (.expr 0 e)) : Re sty mini ctx (.stmt (.throw sp e)) := by
  intro f x y h
  obtain ⟨sp', hsp⟩ := run_from h (by st_tok)
  simp only [itemsOf, Stmt.items, List.cons_append, run_word, run_gap, run_sameLine] at h
  obtain ⟨m, h3, h4, h⟩ := h
  obtain ⟨o, h5, h⟩ := run_append.1 h
  obtain ⟨h6, h7, h8, rfl⟩ := throw_end (ctx := ctx) h
  obtain ⟨e', h9, h10⟩ := ih h5
  refine ⟨.throw sp' e', by simp only [Stmt.strip, h9],
    fun v hv => .throw h3.key (Look.mono h4 fun t ht => by simpa using ht) h10.on h6 (.inr ⟨rfl, ?_⟩) hsp⟩
  rcases h8 with h8 | ⟨t, b, h8⟩
  · exact .inl h8
  · exact .inr ⟨t, b, h8, h7 t b h8⟩

theorem re_debugger : Re sty mini ctx (.stmt (.debugger sp)) := by
  intro f x y h
  obtain ⟨sp', hsp⟩ := run_from h (by st_tok)
  st_at h
  obtain ⟨m, h3, o, h4, rfl⟩ := h
  exact ⟨.debugger sp', rfl, fun v hv => .debugger h3.key (semi_stmt h4) hsp⟩

theorem re_if (ih : Re sty mini { ctx with in_ := true } (.expr 0 e)) (ih' : Re sty mini ctx (.stmt s)) : Re sty mini ctx (.stmt (.if sp e s none)) := by
  intro f x y h
  obtain ⟨sp', hsp⟩ := run_from h (by st_tok)
  st_at h
  obtain ⟨m, h1, o, h2, q, h3, r, h4, w, h5, h6, rfl⟩ := h
  obtain ⟨e', h7, h8⟩ := ih h3
  obtain ⟨s', h9, h10⟩ := ih' h5
  exact ⟨.if sp' e' s' none, by simp only [Stmt.strip, stripOptStmt, h7, h9],
    fun v hv => .if h1.key h2.tok h8.on h4.tok (h10 v hv) (Look.mono h6 fun t ht => by simpa using ht) hsp⟩

theorem re_ifElse (ih : Re sty mini { ctx with in_ := true } (.expr 0 e)) (ih1 : Re sty mini ctx (.stmt s1)) (ih2 : Re sty mini ctx (.stmt s2)) :
    Re sty mini ctx (.stmt (.if sp e s1 (some s2))) := by
  intro f x y h
  obtain ⟨sp', hsp⟩ := run_from h (by st_tok)
  st_at h
  obtain ⟨m, h1, o, h2, q, h3, r, h4, w, h5, p, h6, k, h7, rfl⟩ := h
  obtain ⟨e', h8, h9⟩ := ih h3
  obtain ⟨s1', h10, h11⟩ := ih1 h5
  obtain ⟨s2', h12, h13⟩ := ih2 h7
  exact ⟨.if sp' e' s1' (some s2'), by simp only [Stmt.strip, stripOptStmt, h8, h10, h12],
    fun v hv => .ifElse h1.key h2.tok h9.on h4.tok (h11 v hv) h6.key (h13 v hv) hsp⟩

theorem re_with (ih : Re sty mini ctx (.expr 0 e)) (ih' : Re sty mini ctx (.stmt s)) : Re sty mini ctx (.stmt (.with sp e s)) := by
  intro f x y h
  obtain ⟨sp', hsp⟩ := run_from h (by st_tok)
  st_at h
  obtain ⟨m, h1, o, h2, q, h3, r, h4, w, h5, rfl⟩ := h
  obtain ⟨e', h7, h8⟩ := ih h3
  obtain ⟨s', h9, h10⟩ := ih' h5
  exact ⟨.with sp' e' s', by simp only [Stmt.strip, h7, h9], fun v hv => .with h1.key h2.tok (h8 v hv) h4.tok (h10 v hv) hsp⟩

theorem re_tryCatch {k : Block} {c : CatchClause} (ih : Re sty mini ctx (.block k)) (ih' : Re sty mini ctx (.catchClause c)) :
    Re sty mini ctx (.stmt (.try sp k (some c) none)) := by
  intro f x y h
  obtain ⟨sp', hsp⟩ := run_from h (by st_tok)
  simp only [itemsOf, Stmt.items, catchItems, finallyItems, List.cons_append, List.append_assoc, List.nil_append, run_word, run_gap] at h
  obtain ⟨m, h1, h⟩ := h
  obtain ⟨o, h2, h⟩ := run_append.1 h
  have h : Run sty mini (lineEnd mini false k.items) o ((word c!"catch" :: .gap :: c.items) ++ [notNext (.keyword k!"finally"), .nl]) y := h
  obtain ⟨q, h3, h4, rfl⟩ := run_append.1 h
  obtain ⟨k', h5, h6⟩ := ih h2
  obtain ⟨c', h7, h8⟩ := ih' h3
  exact ⟨.try sp' k' (some c') none, by simp only [Stmt.strip, stripOptCatchClause, stripOptBlock, h5, h7],
    fun v hv => .tryCatch h1.key (h6 v hv) (h8 v hv) (Look.mono h4 fun t ht => by simpa using ht) hsp⟩

theorem re_tryFinally {k l : Block} (ih : Re sty mini ctx (.block k)) (ih' : Re sty mini ctx (.block l)) :
    Re sty mini ctx (.stmt (.try sp k none (some l))) := by
  intro f x y h
  obtain ⟨sp', hsp⟩ := run_from h (by st_tok)
  st_at h
  obtain ⟨m, h1, o, h2, q, h3, r, h4, rfl⟩ := h
  obtain ⟨k', h5, h6⟩ := ih h2
  obtain ⟨l', h7, h8⟩ := ih' h4
  exact ⟨.try sp' k' none (some l'), by simp only [Stmt.strip, stripOptCatchClause, stripOptBlock, h5, h7],
    fun v hv => .tryFinally h1.key (h6 v hv) h3.key (h8 v hv) hsp⟩

theorem re_tryCatchFinally {k l : Block} {c : CatchClause} (ih : Re sty mini ctx (.block k)) (ih1 : Re sty mini ctx (.catchClause c))
    (ih2 : Re sty mini ctx (.block l)) : Re sty mini ctx (.stmt (.try sp k (some c) (some l))) := by
  intro f x y h
  obtain ⟨sp', hsp⟩ := run_from h (by st_tok)
  simp only [itemsOf, Stmt.items, catchItems, finallyItems, List.cons_append, List.append_assoc, List.nil_append, run_word, run_gap] at h
  obtain ⟨m, h1, h⟩ := h
  obtain ⟨o, h2, h⟩ := run_append.1 h
  have h : Run sty mini (lineEnd mini false k.items) o ((word c!"catch" :: .gap :: c.items) ++ (.gap :: word c!"finally" :: .gap :: (l.items ++ [.nl]))) y := h
  obtain ⟨q, h3, h⟩ := run_append.1 h
  obtain ⟨r, h4, h⟩ := run_word.1 (run_gap.1 h)
  have h := run_nlEnd.1 (run_gap.1 h)
  obtain ⟨k', h5, h6⟩ := ih h2
  obtain ⟨c', h7, h8⟩ := ih1 h3
  obtain ⟨l', h9, h10⟩ := ih2 h
  exact ⟨.try sp' k' (some c') (some l'), by simp only [Stmt.strip, stripOptCatchClause, stripOptBlock, h5, h7, h9],
    fun v hv => .tryCatchFinally h1.key (h6 v hv) (h8 v hv) h4.key (h10 v hv) hsp⟩

theorem re_catch {k : Block} (ih : Re sty mini ctx (.block k)) : Re sty mini ctx (.catchClause (.mk sp none k)) := by
  intro f x y h
  obtain ⟨sp', hsp⟩ := run_from h (by st_tok)
  st_at h
  obtain ⟨m, h1, h⟩ := h
  obtain ⟨k', h5, h6⟩ := ih h
  exact ⟨.mk sp' none k', by simp only [CatchClause.strip, stripOptBindingPattern, h5], fun v hv => .catch h1.key (h6 v hv) hsp⟩

theorem re_catchParam {d : BindingPattern} {k : Block} (ih : Re sty mini ctx (.binding d)) (ih' : Re sty mini ctx (.block k)) :
    Re sty mini ctx (.catchClause (.mk sp (some d) k)) := by
  intro f x y h
  obtain ⟨sp', hsp⟩ := run_from h (by st_tok)
  st_at h
  obtain ⟨m, h1, o, h2, q, h3, r, h4, h⟩ := h
  obtain ⟨⟨d', h5, h6⟩, -⟩ := ih h3
  obtain ⟨k', h7, h8⟩ := ih' h
  exact ⟨.mk sp' (some d') k', by simp only [CatchClause.strip, stripOptBindingPattern, h5, h7],
    fun v hv => .catchParam h1.key h2.tok (h6 v hv) h4.tok (h8 v hv) hsp⟩

/-! ## Switch statements -/

theorem re_switch {cs : List SwitchCase} (ih : Re sty mini { ctx with in_ := true } (.expr 0 e)) (ih' : Re sty mini ctx (.cases cs)) :
    Re sty mini ctx (.stmt (.switch sp e cs)) := by
  intro f x y h
  obtain ⟨sp', hsp⟩ := run_from h (by st_tok)
  simp only [itemsOf, Stmt.items, List.cons_append, List.append_assoc, run_word, run_gap, run_pu] at h
  obtain ⟨m, h1, o, h2, h⟩ := h
  obtain ⟨q, h3, h⟩ := run_append.1 h
  obtain ⟨r, h4, h⟩ := run_pu.1 h
  obtain ⟨w, g, h5, h6⟩ := block_run' (run_nlEnd.1 (run_gap.1 h))
  obtain ⟨e', h7, h8⟩ := ih h3
  obtain ⟨cs', h9, h10⟩ := ih' h6
  exact ⟨.switch sp' e' cs', by simp only [Stmt.strip, h7, h9], fun v hv => .switch h1.key h2.tok h8.on h4.tok h5 (h10 v hv) hsp⟩

theorem re_casesEnd : Re sty mini ctx (.cases []) := by
  intro f x y h
  obtain ⟨b, h1, rfl⟩ := h
  exact ⟨[], rfl, fun v hv => .casesEnd (T.tok h1)⟩

theorem re_casesMore {k : SwitchCase} {cs : List SwitchCase} (ih : Re sty mini ctx (.case k)) (ih' : Re sty mini ctx (.cases cs)) :
    Re sty mini ctx (.cases (k :: cs)) := by
  intro f x y h
  simp only [itemsOf, caseItems, List.append_assoc] at h
  obtain ⟨m, h1, h2⟩ := run_append.1 h
  obtain ⟨s', h3, h4⟩ := ih h1
  obtain ⟨ss', h5, h6⟩ := ih' h2
  exact ⟨s' :: ss', by simp only [stripSwitchCases, h3, h5], fun v hv => .casesMore (h4 v hv) (h6 v hv)⟩

theorem re_case (ih : Re sty mini { ctx with in_ := true } (.expr 0 e)) (ih' : Re sty mini ctx (.caseStmts ss)) :
    Re sty mini ctx (.case (.mk sp (some e) ss)) := by
  intro f x y h
  obtain ⟨sp', hsp⟩ := run_from h (by st_tok)
  simp only [itemsOf, SwitchCase.items, caseTestItems, List.cons_append, List.append_assoc, run_word, run_gap] at h
  obtain ⟨m, h1, h⟩ := h
  obtain ⟨o, h2, h⟩ := run_append.1 h
  obtain ⟨q, h3, h⟩ := run_pu.1 h
  obtain ⟨e', h4, h5⟩ := ih h2
  obtain ⟨ss', h6, h7⟩ := ih' (run_nl.1 h)
  exact ⟨.mk sp' (some e') ss', by simp only [SwitchCase.strip, stripOptExpr, h4, h6], fun v hv => .case h1.key h5.on h3.tok (h7 v hv) hsp⟩

theorem re_default (ih' : Re sty mini ctx (.caseStmts ss)) : Re sty mini ctx (.case (.mk sp none ss)) := by
  intro f x y h
  obtain ⟨sp', hsp⟩ := run_from h (by st_tok)
  simp only [itemsOf, SwitchCase.items, caseTestItems, List.cons_append, List.append_assoc, List.nil_append, run_word, run_gap] at h
  obtain ⟨m, h1, h⟩ := h
  obtain ⟨q, h3, h⟩ := run_pu.1 h
  obtain ⟨ss', h6, h7⟩ := ih' (run_nl.1 h)
  exact ⟨.mk sp' none ss', by simp only [SwitchCase.strip, stripOptExpr, h6], fun v hv => .default h1.key h3.tok (h7 v hv) hsp⟩

theorem re_caseStmtsEnd : Re sty mini ctx (.caseStmts []) := by
  intro f x y h
  obtain ⟨⟨t, b, h1⟩, h2, rfl⟩ := h
  have := h2 t b h1
  exact ⟨[], rfl, fun v hv => .caseStmtsEnd h1 (by simpa using this)⟩

theorem re_caseStmtsMore (ih : Re sty mini ctx (.item s)) (ih' : Re sty mini ctx (.caseStmts ss)) : Re sty mini ctx (.caseStmts (s :: ss)) := by
  intro f x y h
  simp only [itemsOf, stmtItems, List.append_assoc] at h
  obtain ⟨m, h1, h2⟩ := run_append.1 h
  obtain ⟨s', h3, h4⟩ := ih h1
  obtain ⟨ss', h5, h6⟩ := ih' h2
  exact ⟨s' :: ss', by simp only [stripStmts, h3, h5], fun v hv => .caseStmtsMore (h4 v hv) (h6 v hv)⟩

/-! ## Loops -/

theorem re_while (ih : Re sty mini { ctx with in_ := true } (.expr 0 e)) (ih' : Re sty mini ctx (.stmt s)) : Re sty mini ctx (.stmt (.while sp e s)) := by
  intro f x y h
  obtain ⟨sp', hsp⟩ := run_from h (by st_tok)
  st_at h
  obtain ⟨m, h1, o, h2, q, h3, r, h4, w, h5, rfl⟩ := h
  obtain ⟨e', h7, h8⟩ := ih h3
  obtain ⟨s', h9, h10⟩ := ih' h5
  exact ⟨.while sp' e' s', by simp only [Stmt.strip, h7, h9], fun v hv => .while h1.key h2.tok h8.on h4.tok (h10 v hv) hsp⟩

theorem re_doWhile (ih : Re sty mini { ctx with in_ := true } (.expr 0 e)) (ih' : Re sty mini ctx (.stmt s)) : Re sty mini ctx (.stmt (.doWhile sp s e)) := by
  intro f x y h
  obtain ⟨sp', hsp⟩ := run_from h (by st_tok)
  st_at h
  obtain ⟨m, h1, o, h2, q, h3, r, h4, w, h5, k, h6, h7, rfl⟩ := h
  obtain ⟨e', h8, h9⟩ := ih h5
  obtain ⟨s', h10, h11⟩ := ih' h2
  exact ⟨.doWhile sp' s' e', by simp only [Stmt.strip, h8, h10],
    fun v hv => .doWhile h1.key (h11 v hv) h3.key h4.tok h9.on h6.tok (.inr ⟨rfl, Look.mono h7 fun t ht => by simpa using ht⟩) hsp⟩

theorem re_for {i : Option ForInit} {d1 d2 : Option Expr} (ih1 : Re sty mini ctx (.forInit i)) (ih2 : Re sty mini { ctx with in_ := true } (.optExpr d1))
    (ih3 : Re sty mini { ctx with in_ := true } (.optExpr d2)) (ih4 : Re sty mini ctx (.stmt s)) : Re sty mini ctx (.stmt (.for sp i d1 d2 s)) := by
  intro f x y h
  obtain ⟨sp', hsp⟩ := run_from h (by st_tok)
  simp only [itemsOf, Stmt.items, List.cons_append, List.append_assoc, run_word, run_gap, run_pu] at h
  obtain ⟨m, h1, o, h2, h⟩ := h
  obtain ⟨q, h3, h⟩ := run_append.1 h
  obtain ⟨r, h4, h⟩ := run_pu.1 h
  obtain ⟨w, h5, h⟩ := run_append.1 h
  obtain ⟨k, h6, h⟩ := run_pu.1 h
  obtain ⟨j, h7, h⟩ := run_append.1 h
  obtain ⟨l, h8, h⟩ := run_pu.1 h
  obtain ⟨i', g1, g2⟩ := ih1 h3
  obtain ⟨d1', g3, g4⟩ := ih2 h5
  obtain ⟨d2', g5, g6⟩ := ih3 h7
  obtain ⟨s', g7, g8⟩ := ih4 (run_nlEnd.1 (run_gap.1 h))
  exact ⟨.for sp' i' d1' d2' s', by simp only [Stmt.strip, g1, g3, g5, g7],
    fun v hv => .for h1.key h2.tok (g2 v hv) h4.tok g4.on h6.tok g6.on h8.tok (g8 v hv) hsp⟩

theorem re_noExpr : Re sty mini ctx (.optExpr none) := by
  intro f x y h
  obtain rfl : y = x := h
  exact ⟨none, rfl, fun v hv => .noExpr⟩

theorem re_someExpr (ih : Re sty mini ctx (.expr 0 e)) : Re sty mini ctx (.optExpr (some e)) := by
  intro f x y h
  obtain ⟨e', h1, h2⟩ := ih (run_gap.1 h)
  exact ⟨some e', by simp only [stripOptExpr, h1], fun v hv => .someExpr (h2 v hv)⟩

theorem re_noForInit : Re sty mini ctx (.forInit none) := by
  intro f x y h
  obtain rfl : y = x := h
  exact ⟨none, rfl, fun v hv => .noForInit⟩

theorem re_forInitExpr (ih : Re sty mini { ctx with in_ := false } (.expr 0 e)) : Re sty mini ctx (.forInit (some (.expr e))) := by
  intro f x y h
  obtain ⟨⟨t, b, h1⟩, h2, h⟩ := h
  obtain ⟨e', h3, h4⟩ := ih h
  have h2 : (t.value != .keyword .letK) = true := h2 t b h1
  exact ⟨some (.expr e'), by simp only [stripOptForInit, ForInit.strip, h3],
    fun v hv => .forInitExpr h1 (fun hl => by rw [hl] at h2; simp at h2) (h4 false nofun)⟩

theorem re_forInitDecl {k : VarKind} {l : List VarDecl} (ih : Re sty mini { ctx with in_ := false } (.varDecls l)) :
    Re sty mini ctx (.forInit (some (.declaration (.mk sp k l)))) := by
  intro f x y h
  have h : Run sty mini f x (word k.asStr :: .gap :: varDeclItems l) y := h
  obtain ⟨sp', hsp⟩ := run_from h (by simp [isTok_word])
  obtain ⟨m, h1, h⟩ := run_word.1 h
  obtain ⟨t, ht, hs⟩ := varKind_word h1
  obtain ⟨l', h3, h4⟩ := ih (run_gap.1 h)
  exact ⟨some (.declaration (.mk sp' k l')), by simp only [stripOptForInit, ForInit.strip, VarStmt.strip, h3],
    fun v hv => .forInitDecl ht hs (h4 false nofun) hsp⟩

theorem re_forIn {d : ForDecl} (ih1 : Re sty mini ctx (.forDecl d)) (ih2 : Re sty mini { ctx with in_ := true } (.expr 0 e)) (ih3 : Re sty mini ctx (.stmt s)) :
    Re sty mini ctx (.stmt (.forIn sp d e s)) := by
  intro f x y h
  obtain ⟨sp', hsp⟩ := run_from h (by st_tok)
  simp only [itemsOf, Stmt.items, List.cons_append, List.append_assoc, run_word, run_gap, run_pu] at h
  obtain ⟨m, h1, o, h2, h⟩ := h
  have hs := (run_first h (by simp [isTok_word])).2
  obtain ⟨q, h3, h⟩ := run_append.1 h
  obtain ⟨r, h4, h⟩ := run_word.1 h
  obtain ⟨w, h5, h⟩ := run_append.1 (run_gap.1 h)
  obtain ⟨k, h6, h⟩ := run_pu.1 h
  obtain ⟨d', g1, g2⟩ := ih1 h3
  obtain ⟨e', g3, g4⟩ := ih2 h5
  obtain ⟨s', g5, g6⟩ := ih3 (run_nlEnd.1 (run_gap.1 h))
  exact ⟨.forIn sp' d' e' s', by simp only [Stmt.strip, g1, g3, g5],
    fun v hv => .forIn h1.key h2.tok hs (g2 v hv) h4.key g4.on h6.tok (g6 v hv) hsp⟩

theorem re_forOf {d : ForDecl} (ih1 : Re sty mini ctx (.forDecl d)) (ih2 : Re sty mini { ctx with in_ := true } (.expr 0 e)) (ih3 : Re sty mini ctx (.stmt s)) :
    Re sty mini ctx (.stmt (.forOf sp d e s false)) := by
  intro f x y h
  obtain ⟨sp', hsp⟩ := run_from h (by st_tok)
  simp only [itemsOf, Stmt.items, List.cons_append, List.append_assoc, List.nil_append, Bool.false_eq_true, if_false, run_word, run_gap, run_pu] at h
  obtain ⟨m, h1, o, h2, h⟩ := h
  have hs := (run_first h (by simp [isTok_word])).2
  obtain ⟨q, h3, h⟩ := run_append.1 h
  obtain ⟨r, h4, h⟩ := run_word.1 h
  obtain ⟨w, h5, h⟩ := run_append.1 (run_gap.1 h)
  obtain ⟨k, h6, h⟩ := run_pu.1 h
  obtain ⟨d', g1, g2⟩ := ih1 h3
  obtain ⟨e', g3, g4⟩ := ih2 h5
  obtain ⟨s', g5, g6⟩ := ih3 (run_nlEnd.1 (run_gap.1 h))
  exact ⟨.forOf sp' d' e' s' false, by simp only [Stmt.strip, g1, g3, g5],
    fun v hv => .forOf h1.key h2.tok hs (g2 v hv) h4.key g4.on h6.tok (g6 v hv) hsp⟩

theorem re_forAwait {d : ForDecl} (hw : ctx.await = true) (ih1 : Re sty mini ctx (.forDecl d)) (ih2 : Re sty mini { ctx with in_ := true } (.expr 0 e))
    (ih3 : Re sty mini ctx (.stmt s)) : Re sty mini ctx (.stmt (.forOf sp d e s true)) := by
  intro f x y h
  obtain ⟨sp', hsp⟩ := run_from h (by st_tok)
  simp only [itemsOf, Stmt.items, List.cons_append, List.append_assoc, List.nil_append, if_true, run_word, run_gap, run_pu] at h
  obtain ⟨l, h0, m, h1, o, h2, h⟩ := h
  have hs := (run_first h (by simp [isTok_word])).2
  obtain ⟨q, h3, h⟩ := run_append.1 h
  obtain ⟨r, h4, h⟩ := run_word.1 h
  obtain ⟨w, h5, h⟩ := run_append.1 (run_gap.1 h)
  obtain ⟨k, h6, h⟩ := run_pu.1 h
  obtain ⟨d', g1, g2⟩ := ih1 h3
  obtain ⟨e', g3, g4⟩ := ih2 h5
  obtain ⟨s', g5, g6⟩ := ih3 (run_nlEnd.1 (run_gap.1 h))
  exact ⟨.forOf sp' d' e' s' true, by simp only [Stmt.strip, g1, g3, g5],
    fun v hv => .forAwait h0.key hw h1.key h2.tok hs (g2 v hv) h4.key g4.on h6.tok (g6 v hv) hsp⟩

theorem re_forDeclVar {k : VarKind} {d : BindingPattern} : Re sty mini ctx (.forDecl (.declaration sp k d)) := by
  intro f x y h
  exact absurd (show false = true from h.1) (by decide)

theorem re_forDeclPattern {d : AssignPattern} : Re sty mini ctx (.forDecl (.pattern d)) := by
  intro f x y h
  exact absurd (show false = true from h.1) (by decide)

theorem re_forDeclExpr (ht : TargetOK ctx.strict e) (ih : Re sty mini { ctx with in_ := false } (.expr 17 e)) : Re sty mini ctx (.forDecl (.expr e)) := by
  intro f x y h
  obtain ⟨-, ⟨t, b, h1⟩, h2, h⟩ := h
  obtain ⟨e', h3, h4⟩ := ih h
  have h2 := h2 t b h1
  simp at h2
  exact ⟨.expr e', by simp only [ForDecl.strip, h3],
    fun v hv => .forDeclExpr h1 (by simp [h2]) (fun hl => absurd hl h2.2.2) (h4 v nofun) (h4 false nofun) (targetOK_again ht h3)⟩

theorem re_itemStmt (ih : Re sty mini ctx (.stmt s)) : Re sty mini ctx (.item s) := fun _ _ _ h =>
  let ⟨e', he, hd⟩ := ih h; ⟨e', he, fun v hv => .itemStmt (hd v hv)⟩

theorem re_itemDecl (ih : Re sty mini ctx (.decl s)) : Re sty mini ctx (.item s) := fun _ _ _ h =>
  let ⟨e', he, hd⟩ := ih h; ⟨e', he, fun v hv => .itemDecl (hd v hv)⟩

end Fajt.Print
