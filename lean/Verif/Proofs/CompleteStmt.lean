import Verif.Proofs.CompleteFunction
/-!
# Completeness: statements
-/
namespace Fajt
open Spec
set_option linter.unusedSectionVars false
variable [UnicodeID]

namespace Complete
open Parser

/-! ## Loops -/

/-- The body of the loop of the statements of a case. -/
def caseStmtBody (r : Rec) (ctx : Ctx) : List Stmt → P (List Stmt ⊕ List Stmt) := fun acc => do
  let v ← curVal?
  if v = some (.punct p!"}") ∨ v = some (.keyword k!"case") ∨ v = some (.keyword k!"default") then pure (.inr acc)
  else do
    let st ← r.declOrStmt ctx
    pure (.inl (acc ++ [st]))

/-- The body of the loop of the cases of a switch. -/
def caseBody (r : Rec) (ctx : Ctx) : List SwitchCase → P (List SwitchCase ⊕ List SwitchCase) := fun acc => do
  if ← curMatches (.punct p!"}") then pure (.inr acc)
  else do
    let c ← caseClause r ctx
    pure (.inl (acc ++ [c]))

/-- The body of the loop of the statements of a program. -/
def itemBody (r : Rec) (ctx : Ctx) : List Stmt → P (List Stmt ⊕ List Stmt) := fun acc => do
  if ← isEnd then pure (.inr acc)
  else do
    let st ← r.declOrStmt ctx
    pure (.inl (acc ++ [st]))

/-! ## What derivations mean -/

section
variable (sty : SourceType) (ctx : Ctx)

structure BlockOK (k : Block) (a b : Point) : Prop where
  head : ∃ c, Sym sty p!"{" a c
  run : ∀ n q, Run sty (block (mkRec n) ctx) a q k b b.fin

structure CatchOK (k : CatchClause) (a b : Point) : Prop where
  head : ∃ c, Key sty k!"catch" a c
  run : ∀ n q, Run sty (catchClause (mkRec n) ctx) a q k b b.fin

structure CaseOK (k : SwitchCase) (a b : Point) : Prop where
  head : ∃ t c, Next sty a t c ∧ (t.value = .keyword k!"case" ∨ t.value = .keyword k!"default")
  run : ∀ n q, Run sty (caseClause (mkRec n) ctx) a q k b b.fin

def CaseStmtsOK (ss : List Stmt) (a b : Point) : Prop :=
  ∀ n k acc, Run sty (loop (caseStmtBody (mkRec n) ctx) k acc) a a.fin (acc ++ ss) b b.fin

def CasesOK (cs : List SwitchCase) (a b : Point) : Prop :=
  ∃ m, Sym sty p!"}" m b ∧ ∀ q, ∃ q', ∀ n k acc, Run sty (loop (caseBody (mkRec n) ctx) k acc) a q (acc ++ cs) m q'

structure ItemsOK (ss : List Stmt) (a b : Point) : Prop where
  head : ss ≠ [] → ∃ t c, Next sty a t c
  nil : ss = [] → b = a ∧ AtEnd sty a
  run : ∀ n k q acc, (ss = [] → q = b.fin) → Run sty (loop (itemBody (mkRec n) ctx) k acc) a q (acc ++ ss) b b.fin

def OptExprOK (e : Option Expr) (a b : Point) : Prop :=
  ∀ p c, p ∈ [p!";", p!")"] → Sym sty p b c → ∀ n, Run sty (curMatches (.punct p)) a a.fin e.isNone a a.fin ∧
    Run sty (thenTry (!e.isNone) (expr (mkRec n) ctx)) a a.fin e b b.fin

def ForInitOK (i : Option ForInit) (a b : Point) : Prop :=
  ∀ c, Sym sty p!";" b c → (∃ t c, Next sty a t c) ∧ ∀ n, Run sty (optionalForInit (mkRec n) ctx) a a.fin i b b.fin
end

section
variable {sty : SourceType} {a b c m o p : Point} {q q' n l : Nat} {t u : Token} {ctx : Ctx} {e x y z : Expr} {sp asp : Span}
  {id : Ident} {s s' : Stmt} {ss : List Stmt} {k k' : Block}

/-- Tokens that start a declaration, or are looked at more closely, or end a list. -/
def declWords : List TokVal :=
  [.punct p!"}", .keyword k!"case", .keyword k!"default", .keyword k!"function", .keyword k!"class", .keyword k!"import",
    .keyword k!"export", .keyword k!"const", .keyword k!"async", .keyword k!"let"]

theorem stmt_of (hn : Next sty a t c) (hv : t.value ∉ declWords) (h : ∀ n q, Run sty (stmt (mkRec n) ctx) a q s b b.fin) :
    StmtOK sty ctx s a b := by
  simp only [declWords, List.mem_cons, List.not_mem_nil, or_false, not_or] at hv
  refine ⟨⟨t, c, hn, ?_⟩, run_nodecl hn ?_ ?_ ?_, h⟩
  · simp only [listEnd, List.mem_cons, List.not_mem_nil, or_false, not_or]
    exact ⟨hv.1, hv.2.1, hv.2.2.1⟩
  · simp only [List.mem_cons, List.not_mem_nil, or_false, not_or]
    exact ⟨hv.2.2.2.1, hv.2.2.2.2.1, hv.2.2.2.2.2.1, hv.2.2.2.2.2.2.1, hv.2.2.2.2.2.2.2.1⟩
  · exact fun h => absurd h hv.2.2.2.2.2.2.2.2.1
  · exact fun h => absurd h hv.2.2.2.2.2.2.2.2.2

theorem empty_ok (hn : Next sty a t b) (hv : t.value = .punct p!";") : StmtOK sty ctx (.empty t.span) a b := by
  refine stmt_of hn (by rw [hv]; decide) fun n q => Run.bind (run_current hn) ?_
  simp only [hv]
  have := run_assert (q := q) hn
  rw [hv] at this
  exact Run.bind this (Run.pure _)

theorem block_ok (h1 : Sym sty p!"{" a m) (h2 : StmtsOK sty ctx ss m b) (hs : From sty a b sp) : BlockOK sty ctx (.mk sp ss) a b := by
  refine ⟨⟨m, h1⟩, fun n q => ?_⟩
  obtain ⟨t, hn, hv⟩ := h1
  rw [From.eq hs hn]
  exact Run.bind (run_position hn) (Run.assert ⟨t, hn, hv⟩ (Run.bind (h2 n _ _ []) (Run.bind (run_spanFrom _) (Run.pure _))))

theorem blockS_ok (h : BlockOK sty ctx k a b) : StmtOK sty ctx (.block k) a b := by
  obtain ⟨m, t, hn, hv⟩ := h.head
  refine stmt_of hn (by rw [hv]; decide) fun n q => Run.bind (run_current hn) ?_
  simp only [hv]
  exact Run.bind (h.run n q) (Run.pure _)

theorem var_ok {vs : List VarDecl} (h1 : Key sty k!"var" a m) (h2 : VarDeclsOK sty { ctx with in_ := true } vs m o)
    (he : Ends sty { ctx with in_ := true } 0 o) (h3 : EndOfStmt sty o b) (hs : From sty a b sp) :
    StmtOK sty ctx (.variable (.mk sp .var vs)) a b := by
  obtain ⟨t, hn, hv⟩ := h1
  refine stmt_of hn (by rw [hv]; decide) fun n q => Run.bind (run_current hn) ?_
  simp only [hv]
  rw [From.eq hs hn]
  obtain ⟨w, hw⟩ := run_semi' h3
  exact Run.bind (run_consume hn) (Run.bind (h2.parse he n _) (Run.bind hw (Run.bind (run_spanFrom _) (Run.pure _))))

theorem ident_nokey {v : TokVal} (hi : IdentTok ctx t id) (hv : isIdentTok (.ok { t with value := v }) ctx.kw = false) : t.value ≠ v := by
  intro h
  subst h
  rw [isIdentTok_of hi] at hv
  cases hv

theorem labeled_ok (hn : Next sty a t m) (hi : IdentTok ctx t id) (h1 : Sym sty p!":" m o) (h2 : StmtOK sty ctx s o b)
    (hs : From sty a b sp) : StmtOK sty ctx (.labeled sp id s) a b := by
  have hne : ∀ p, t.value ≠ .punct p := fun p => ident_nokey hi rfl
  refine ⟨⟨t, m, hn, ?_⟩, run_nodecl hn ?_ ?_ ?_, fun n q => Run.bind (run_current hn) ?_⟩
  · simp only [listEnd, List.mem_cons, List.not_mem_nil, or_false, not_or]
    exact ⟨hne _, ident_nokey hi rfl, ident_nokey hi rfl⟩
  · simp only [List.mem_cons, List.not_mem_nil, or_false, not_or]
    exact ⟨ident_nokey hi rfl, ident_nokey hi rfl, ident_nokey hi rfl, ident_nokey hi rfl, ident_nokey hi rfl⟩
  · exact fun _ => tok_ne h1 nofun
  · intro _
    obtain ⟨u, hu, hv⟩ := h1
    refine (look_iff hu).2 fun h => ?_
    rcases h with h | h | ⟨id, h⟩
    · rw [hv] at h; cases h
    · rw [hv] at h; cases h
    · rcases ident_shape h with ⟨s, h⟩ | ⟨s, h⟩ <;> rw [hv] at h <;> cases h
  · have hmain : Run sty (labeledStmt (mkRec n) ctx) a q (.labeled sp id s) b b.fin := by
      rw [From.eq hs hn]
      exact Run.bind (run_position hn) (Run.bind (run_parseIdent hn hi) (Run.assert h1
        (Run.bind (run_stmtRec (fun n => h2.run n _) n) (Run.bind (run_spanFrom _) (Run.pure _)))))
    split
    all_goals try (rename_i hv; exact absurd hv (ident_nokey hi rfl))
    have := run_isIdent (q := q) hn ctx
    rw [isIdentTok_of hi] at this
    exact Run.bind this (Run.bind (run_peekT hn h1) (Run.iteT rfl hmain))

theorem break_ok (h1 : Key sty k!"break" a m) (h2 : EndOfStmt sty m b) (hs : From sty a b sp) :
    StmtOK sty ctx (.break sp none) a b := by
  obtain ⟨t, hn, hv⟩ := h1
  refine stmt_of hn (by rw [hv]; decide) fun n q => Run.bind (run_current hn) ?_
  simp only [hv]
  rw [From.eq hs hn]
  obtain ⟨w, hw⟩ := run_semi' h2
  exact Run.bind (run_position hn) (Run.assert ⟨t, hn, hv⟩ (Run.bind (run_stmtEndedT h2) (Run.bind (x := none) (Run.pure _)
    (Run.bind hw (Run.bind (run_spanFrom _) (Run.pure _))))))

theorem run_label (hn : Next sty a t b) (hi : IdentTok ctx t id) (hf : t.fol = false) :
    Run sty (stmtEnded >>= fun x => thenTry (!x) (parseIdent ctx)) a q (some id) b b.fin :=
  Run.bind (run_stmtEndedF hn hf (ident_nokey hi rfl) (ident_nokey hi rfl)) (Run.bind (run_parseIdent hn hi) (Run.pure _))

theorem breakLabel_ok (h1 : Key sty k!"break" a m) (h2 : Next sty m u o) (hi : IdentTok ctx u id) (hf : u.fol = false)
    (h3 : EndOfStmt sty o b) (hs : From sty a b sp) : StmtOK sty ctx (.break sp (some id)) a b := by
  obtain ⟨t, hn, hv⟩ := h1
  refine stmt_of hn (by rw [hv]; decide) fun n q => Run.bind (run_current hn) ?_
  simp only [hv]
  rw [From.eq hs hn]
  obtain ⟨w, hw⟩ := run_semi' h3
  exact Run.bind (run_position hn) (Run.assert ⟨t, hn, hv⟩
    (Run.bind (run_stmtEndedF h2 hf (ident_nokey hi rfl) (ident_nokey hi rfl)) (Run.bind (x := some id)
      (Run.bind (run_parseIdent h2 hi) (Run.pure _)) (Run.bind hw (Run.bind (run_spanFrom _) (Run.pure _))))))

theorem continue_ok (h1 : Key sty k!"continue" a m) (h2 : EndOfStmt sty m b) (hs : From sty a b sp) :
    StmtOK sty ctx (.continue sp none) a b := by
  obtain ⟨t, hn, hv⟩ := h1
  refine stmt_of hn (by rw [hv]; decide) fun n q => Run.bind (run_current hn) ?_
  simp only [hv]
  rw [From.eq hs hn]
  obtain ⟨w, hw⟩ := run_semi' h2
  exact Run.bind (run_position hn) (Run.assert ⟨t, hn, hv⟩ (Run.bind (run_stmtEndedT h2) (Run.bind (x := none) (Run.pure _)
    (Run.bind hw (Run.bind (run_spanFrom _) (Run.pure _))))))

theorem continueLabel_ok (h1 : Key sty k!"continue" a m) (h2 : Next sty m u o) (hi : IdentTok ctx u id) (hf : u.fol = false)
    (h3 : EndOfStmt sty o b) (hs : From sty a b sp) : StmtOK sty ctx (.continue sp (some id)) a b := by
  obtain ⟨t, hn, hv⟩ := h1
  refine stmt_of hn (by rw [hv]; decide) fun n q => Run.bind (run_current hn) ?_
  simp only [hv]
  rw [From.eq hs hn]
  obtain ⟨w, hw⟩ := run_semi' h3
  exact Run.bind (run_position hn) (Run.assert ⟨t, hn, hv⟩
    (Run.bind (run_stmtEndedF h2 hf (ident_nokey hi rfl) (ident_nokey hi rfl)) (Run.bind (x := some id)
      (Run.bind (run_parseIdent h2 hi) (Run.pure _)) (Run.bind hw (Run.bind (run_spanFrom _) (Run.pure _))))))

theorem return_ok (hr : ctx.return_ = true) (h1 : Key sty k!"return" a m) (h2 : EndOfStmt sty m b) (hs : From sty a b sp) :
    StmtOK sty ctx (.return sp none) a b := by
  obtain ⟨t, hn, hv⟩ := h1
  refine stmt_of hn (by rw [hv]; decide) fun n q => Run.bind (run_current hn) ?_
  simp only [hv]
  rw [From.eq hs hn]
  obtain ⟨w, hw⟩ := run_semi' h2
  exact Run.bind (run_position hn) (Run.assert ⟨t, hn, hv⟩ (Run.iteF (by simp [hr]) (Run.bind (run_stmtEndedT h2)
    (Run.bind (x := none) (Run.pure _) (Run.bind hw (Run.bind (run_spanFrom _) (Run.pure _)))))))

/-- An expression follows on the same line. -/
theorem ExprOK.stmtEnded (h : ExprOK sty ctx l e a b) (hl : Look sty a fun t => t.fol = false) :
    Run sty stmtEnded a q false a q := by
  obtain ⟨t, c, hn, hh⟩ := h.head
  exact run_stmtEndedF hn (hl t c hn) (startVal_ne hh.start (by decide)) (startVal_ne hh.start (by decide))

theorem returnExpr_ok (hr : ctx.return_ = true) (h1 : Key sty k!"return" a m) (hl : Look sty m fun t => t.fol = false)
    (h2 : ExprOK sty { ctx with in_ := true } 0 e m o) (he : Ends sty { ctx with in_ := true } 0 o) (h3 : EndOfStmt sty o b)
    (hs : From sty a b sp) : StmtOK sty ctx (.return sp (some e)) a b := by
  obtain ⟨t, hn, hv⟩ := h1
  refine stmt_of hn (by rw [hv]; decide) fun n q => Run.bind (run_current hn) ?_
  simp only [hv]
  rw [From.eq hs hn]
  obtain ⟨w, hw⟩ := run_semi' h3
  exact Run.bind (run_position hn) (Run.assert ⟨t, hn, hv⟩ (Run.iteF (by simp [hr]) (Run.bind (h2.stmtEnded hl)
    (Run.bind (x := some e) (Run.bind (h2.parse he n _) (Run.pure _)) (Run.bind hw (Run.bind (run_spanFrom _) (Run.pure _)))))))

theorem throw_ok (h1 : Key sty k!"throw" a m) (hl : Look sty m fun t => t.fol = false)
    (h2 : ExprOK sty { ctx with in_ := true } 0 e m o) (he : Ends sty { ctx with in_ := true } 0 o) (h3 : EndOfStmt sty o b)
    (hs : From sty a b sp) : StmtOK sty ctx (.throw sp e) a b := by
  obtain ⟨t, hn, hv⟩ := h1
  refine stmt_of hn (by rw [hv]; decide) fun n q => Run.bind (run_current hn) ?_
  simp only [hv]
  rw [From.eq hs hn]
  obtain ⟨w, hw⟩ := run_semi' h3
  obtain ⟨u, c, hu, hh⟩ := h2.head
  have hc : ∀ sp, Run sty (throwCheck sp) m m.fin () m m.fin := fun sp =>
    Run.bind (run_cur hu) (Run.iteF (startVal_ne hh.start (by decide)) (Run.iteF (by simp [hl u c hu]) (Run.pure _)))
  have ha := run_assert (q := q) hn
  rw [hv] at ha
  exact Run.bind (run_position hn) (Run.bind ha (Run.bind (hc _) (Run.bind (h2.parse he n _)
    (Run.bind hw (Run.bind (run_spanFrom _) (Run.pure _))))))

theorem debugger_ok (h1 : Key sty k!"debugger" a m) (h2 : EndOfStmt sty m b) (hs : From sty a b sp) :
    StmtOK sty ctx (.debugger sp) a b := by
  obtain ⟨t, hn, hv⟩ := h1
  refine stmt_of hn (by rw [hv]; decide) fun n q => Run.bind (run_current hn) ?_
  simp only [hv]
  rw [From.eq hs hn]
  obtain ⟨w, hw⟩ := run_semi' h2
  exact Run.bind (run_position hn) (Run.assert ⟨t, hn, hv⟩ (Run.bind hw (Run.bind (run_spanFrom _) (Run.pure _))))

/-! ## Compound statements -/

theorem ends_sym {p' : Punct} {k : Nat} (h : Sym sty p' a b) (hp : p' ∈ [p!")", p!";", p!":", p!"]", p!"}"]) : Ends sty ctx k a := by
  obtain ⟨t, hn, hv⟩ := h
  refine (look_iff hn).2 fun l hl => ?_
  obtain ⟨v, f, s⟩ := t
  cases hv
  simp only [List.mem_cons, List.not_mem_nil, or_false] at hp
  rcases hp with rfl | rfl | rfl | rfl | rfl <;> cases hl

theorem if_ok {p' q1 : Point} (h1 : Key sty k!"if" a m) (h2 : Sym sty p!"(" m o) (h3 : ExprOK sty { ctx with in_ := true } 0 e o p')
    (h4 : Sym sty p!")" p' q1) (h5 : StmtOK sty ctx s q1 b) (hl : Look sty b fun t => t.value ≠ .keyword k!"else")
    (hs : From sty a b sp) : StmtOK sty ctx (.if sp e s none) a b := by
  obtain ⟨t, hn, hv⟩ := h1
  refine stmt_of hn (by rw [hv]; decide) fun n q => Run.bind (run_current hn) ?_
  simp only [hv]
  rw [From.eq hs hn]
  exact Run.bind (run_position hn) (Run.assert ⟨t, hn, hv⟩ (Run.assert h2 (Run.bind (h3.parse (ends_sym h4 (by simp)) n _)
    (Run.assert h4 (Run.bind (run_stmtRec (fun n => h5.run n _) n) (Run.bind (run_maybeF hl) (Run.bind (x := none) (Run.pure _)
      (Run.bind (run_spanFrom _) (Run.pure _)))))))))

theorem ifElse_ok {p' q1 u v : Point} (h1 : Key sty k!"if" a m) (h2 : Sym sty p!"(" m o)
    (h3 : ExprOK sty { ctx with in_ := true } 0 e o p')
    (h4 : Sym sty p!")" p' q1) (h5 : StmtOK sty ctx s q1 u) (h6 : Key sty k!"else" u v) (h7 : StmtOK sty ctx s' v b)
    (hs : From sty a b sp) : StmtOK sty ctx (.if sp e s (some s')) a b := by
  obtain ⟨t, hn, hv⟩ := h1
  refine stmt_of hn (by rw [hv]; decide) fun n q => Run.bind (run_current hn) ?_
  simp only [hv]
  rw [From.eq hs hn]
  exact Run.bind (run_position hn) (Run.assert ⟨t, hn, hv⟩ (Run.assert h2 (Run.bind (h3.parse (ends_sym h4 (by simp)) n _)
    (Run.assert h4 (Run.bind (run_stmtRec (fun n => h5.run n _) n) (Run.bind (run_maybeT h6) (Run.bind (x := some s')
      (Run.bind (run_stmtRec (fun n => h7.run n _) n) (Run.pure _))
      (Run.bind (run_spanFrom _) (Run.pure _)))))))))

theorem with_ok {p' q1 : Point} (h1 : Key sty k!"with" a m) (h2 : Sym sty p!"(" m o) (h3 : ExprOK sty ctx 0 e o p')
    (h4 : Sym sty p!")" p' q1) (h5 : StmtOK sty ctx s q1 b) (hs : From sty a b sp) : StmtOK sty ctx (.with sp e s) a b := by
  obtain ⟨t, hn, hv⟩ := h1
  refine stmt_of hn (by rw [hv]; decide) fun n q => Run.bind (run_current hn) ?_
  simp only [hv]
  rw [From.eq hs hn]
  exact Run.bind (run_position hn) (Run.assert ⟨t, hn, hv⟩ (Run.assert h2 (Run.bind (h3.parse (ends_sym h4 (by simp)) n _)
    (Run.assert h4 (Run.bind (run_stmtRec (fun n => h5.run n _) n) (Run.bind (run_spanFrom _) (Run.pure _)))))))

theorem while_ok {p' q1 : Point} (h1 : Key sty k!"while" a m) (h2 : Sym sty p!"(" m o)
    (h3 : ExprOK sty { ctx with in_ := true } 0 e o p')
    (h4 : Sym sty p!")" p' q1) (h5 : StmtOK sty ctx s q1 b) (hs : From sty a b sp) : StmtOK sty ctx (.while sp e s) a b := by
  obtain ⟨t, hn, hv⟩ := h1
  refine stmt_of hn (by rw [hv]; decide) fun n q => Run.bind (run_current hn) ?_
  simp only [hv]
  rw [From.eq hs hn]
  exact Run.bind (run_position hn) (Run.assert ⟨t, hn, hv⟩ (Run.assert h2 (Run.bind (h3.parse (ends_sym h4 (by simp)) n _)
    (Run.assert h4 (Run.bind (run_stmtRec (fun n => h5.run n _) n) (Run.bind (run_spanFrom _) (Run.pure _)))))))

theorem doWhile_ok {p' q1 r u : Point} (h1 : Key sty k!"do" a m) (h2 : StmtOK sty ctx s m o) (h3 : Key sty k!"while" o p')
    (h4 : Sym sty p!"(" p' q1) (h5 : ExprOK sty { ctx with in_ := true } 0 e q1 r) (h6 : Sym sty p!")" r u)
    (h7 : Sym sty p!";" u b ∨ (b = u ∧ Look sty u fun t => t.value ≠ .punct p!";")) (hs : From sty a b sp) :
    StmtOK sty ctx (.doWhile sp s e) a b := by
  obtain ⟨t, hn, hv⟩ := h1
  refine stmt_of hn (by rw [hv]; decide) fun n q => Run.bind (run_current hn) ?_
  simp only [hv]
  rw [From.eq hs hn]
  obtain ⟨w, hw⟩ : ∃ w, Run sty (maybeConsume (.punct p!";")) u u.fin w b b.fin := by
    rcases h7 with h | ⟨rfl, h⟩
    · exact ⟨_, run_maybeT h⟩
    · exact ⟨_, run_maybeF h⟩
  exact Run.bind (run_position hn) (Run.assert ⟨t, hn, hv⟩ (Run.bind (run_stmtRec (fun n => h2.run n _) n) (Run.assert h3
    (Run.assert h4 (Run.bind (h5.parse (ends_sym h6 (by simp)) n _)
    (Run.assert h6 (Run.bind hw (Run.bind (run_spanFrom _) (Run.pure _)))))))))

/-! ### `try` -/

theorem catch_ok (h1 : Key sty k!"catch" a m) (h2 : BlockOK sty ctx k m b) (hs : From sty a b sp) :
    CatchOK sty ctx (.mk sp none k) a b := by
  refine ⟨⟨m, h1⟩, fun n q => ?_⟩
  obtain ⟨t, hn, hv⟩ := h1
  obtain ⟨c, hb⟩ := h2.head
  rw [From.eq hs hn]
  exact Run.bind (run_position hn) (Run.assert ⟨t, hn, hv⟩ (Run.bind (x := none)
    (Run.ifF (run_maybeF (tok_ne hb nofun)) (Run.pure _)) (Run.bind (h2.run n _) (Run.bind (run_spanFrom _) (Run.pure _)))))

theorem catchParam_ok {bp : BindingPattern} {q1 : Point} (h1 : Key sty k!"catch" a m) (h2 : Sym sty p!"(" m o)
    (h3 : BindingOK sty ctx bp o p) (h4 : Sym sty p!")" p q1)
    (h5 : BlockOK sty ctx k q1 b) (hs : From sty a b sp) : CatchOK sty ctx (.mk sp (some bp) k) a b := by
  refine ⟨⟨m, h1⟩, fun n q => ?_⟩
  obtain ⟨t, hn, hv⟩ := h1
  rw [From.eq hs hn]
  exact Run.bind (run_position hn) (Run.assert ⟨t, hn, hv⟩ (Run.bind (x := some bp)
    (Run.ifT (run_maybeT h2) (Run.bind (run_bindingRec (fun n => h3.run n _) n) (Run.assert h4 (Run.pure _))))
    (Run.bind (h5.run n _) (Run.bind (run_spanFrom _) (Run.pure _)))))

theorem tryCatch_ok {cc : CatchClause} (h1 : Key sty k!"try" a m) (h2 : BlockOK sty ctx k m o) (h3 : CatchOK sty ctx cc o b)
    (hl : Look sty b fun t => t.value ≠ .keyword k!"finally") (hs : From sty a b sp) :
    StmtOK sty ctx (.try sp k (some cc) none) a b := by
  obtain ⟨t, hn, hv⟩ := h1
  refine stmt_of hn (by rw [hv]; decide) fun n q => Run.bind (run_current hn) ?_
  simp only [hv]
  obtain ⟨c, hc⟩ := h3.head
  rw [From.eq hs hn]
  exact Run.bind (run_position hn) (Run.assert ⟨t, hn, hv⟩ (Run.bind (h2.run n _) (Run.bind (run_curT hc) (Run.bind (x := some cc)
    (Run.bind (h3.run n _) (Run.pure _)) (Run.bind (run_maybeF hl) (Run.bind (x := none) (Run.pure _)
      (Run.bind (run_spanFrom _) (Run.iteF (by simp) (Run.pure _)))))))))

theorem tryFinally_ok (h1 : Key sty k!"try" a m) (h2 : BlockOK sty ctx k m o) (h3 : Key sty k!"finally" o p)
    (h4 : BlockOK sty ctx k' p b) (hs : From sty a b sp) :
    StmtOK sty ctx (.try sp k none (some k')) a b := by
  obtain ⟨t, hn, hv⟩ := h1
  refine stmt_of hn (by rw [hv]; decide) fun n q => Run.bind (run_current hn) ?_
  simp only [hv]
  rw [From.eq hs hn]
  exact Run.bind (run_position hn) (Run.assert ⟨t, hn, hv⟩ (Run.bind (h2.run n _) (Run.bind (run_curF (tok_ne h3 nofun))
    (Run.bind (x := none) (Run.pure _) (Run.bind (run_maybeT h3) (Run.bind (x := some k') (Run.bind (h4.run n _) (Run.pure _))
      (Run.bind (run_spanFrom _) (Run.iteF (by simp) (Run.pure _)))))))))

theorem tryCatchFinally_ok {cc : CatchClause} {q1 : Point} (h1 : Key sty k!"try" a m) (h2 : BlockOK sty ctx k m o)
    (h3 : CatchOK sty ctx cc o p) (h4 : Key sty k!"finally" p q1)
    (h5 : BlockOK sty ctx k' q1 b) (hs : From sty a b sp) : StmtOK sty ctx (.try sp k (some cc) (some k')) a b := by
  obtain ⟨t, hn, hv⟩ := h1
  refine stmt_of hn (by rw [hv]; decide) fun n q => Run.bind (run_current hn) ?_
  simp only [hv]
  obtain ⟨c, hc⟩ := h3.head
  rw [From.eq hs hn]
  exact Run.bind (run_position hn) (Run.assert ⟨t, hn, hv⟩ (Run.bind (h2.run n _) (Run.bind (run_curT hc) (Run.bind (x := some cc)
    (Run.bind (h3.run n _) (Run.pure _)) (Run.bind (run_maybeT h4) (Run.bind (x := some k') (Run.bind (h5.run n _) (Run.pure _))
      (Run.bind (run_spanFrom _) (Run.iteF (by simp) (Run.pure _)))))))))

/-! ### `switch` -/

theorem caseStmtsEnd_ok (hn : Next sty a t b)
    (hv : t.value ∈ [.punct p!"}", .keyword k!"case", .keyword k!"default"]) : CaseStmtsOK sty ctx [] a a := fun n k acc => by
  rw [List.append_nil]
  simp only [List.mem_cons, List.not_mem_nil, or_false] at hv
  have e : Run sty (caseStmtBody (mkRec n) ctx acc) a a.fin (.inr acc) a a.fin :=
    Run.bind (run_curVal hn) (Run.iteT (by simpa using hv) (Run.pure _))
  exact Run.loop_end e k

theorem caseStmtsMore_ok (h : ItemOK sty ctx s a m) (h2 : CaseStmtsOK sty ctx ss m b) : CaseStmtsOK sty ctx (s :: ss) a b :=
  fun n k acc => by
    rw [List.append_cons]
    obtain ⟨t, c, hn, hh⟩ := h.head
    simp only [listEnd, List.mem_cons, List.not_mem_nil, or_false] at hh
    have e : Run sty (caseStmtBody (mkRec n) ctx acc) a a.fin (.inl (acc ++ [s])) m m.fin :=
      Run.bind (run_curVal hn) (Run.iteF (by simpa using hh) (Run.bind (run_itemRec (fun n => h.run n _) n) (Run.pure _)))
    exact Run.loop_step e (fun k => h2 n k _) k

theorem case_ok (h1 : Key sty k!"case" a m) (h2 : ExprOK sty { ctx with in_ := true } 0 e m o) (h3 : Sym sty p!":" o p)
    (h4 : CaseStmtsOK sty ctx ss p b) (hs : From sty a b sp) : CaseOK sty ctx (.mk sp (some e) ss) a b := by
  obtain ⟨t, hn, hv⟩ := h1
  refine ⟨⟨t, m, hn, .inl hv⟩, fun n q => ?_⟩
  rw [From.eq hs hn]
  exact Run.bind (run_position hn) (Run.bind (x := some e) (Run.ifT (run_maybeT ⟨t, hn, hv⟩)
    (Run.bind (h2.parse (ends_sym h3 (by simp)) n _) (Run.assert h3 (Run.pure _))))
    (Run.bind (h4 n _ []) (Run.bind (run_spanFrom _) (Run.pure _))))

theorem default_ok (h1 : Key sty k!"default" a m) (h3 : Sym sty p!":" m p)
    (h4 : CaseStmtsOK sty ctx ss p b) (hs : From sty a b sp) : CaseOK sty ctx (.mk sp none ss) a b := by
  obtain ⟨t, hn, hv⟩ := h1
  refine ⟨⟨t, m, hn, .inr hv⟩, fun n q => ?_⟩
  rw [From.eq hs hn]
  exact Run.bind (run_position hn) (Run.bind (x := none) (Run.ifF (run_maybeF (tok_ne ⟨t, hn, hv⟩ nofun))
    (Run.assert ⟨t, hn, hv⟩ (Run.assert h3 (Run.pure _))))
    (Run.bind (h4 n _ []) (Run.bind (run_spanFrom _) (Run.pure _))))

theorem casesEnd_ok (h : Sym sty p!"}" a b) : CasesOK sty ctx [] a b := ⟨a, h, fun q => ⟨q, fun n k acc => by
  rw [List.append_nil]
  have e : Run sty (caseBody (mkRec n) ctx acc) a q (.inr acc) a q := Run.ifT (run_curT h) (Run.pure _)
  exact Run.loop_end e k⟩⟩

theorem casesMore_ok {w : SwitchCase} {ws : List SwitchCase} (h1 : CaseOK sty ctx w a m) (h2 : CasesOK sty ctx ws m b) :
    CasesOK sty ctx (w :: ws) a b := by
  obtain ⟨d, hd, hr⟩ := h2
  obtain ⟨q', hr⟩ := hr m.fin
  refine ⟨d, hd, fun q => ⟨q', fun n k acc => ?_⟩⟩
  rw [List.append_cons]
  obtain ⟨t, c, hn, hh⟩ := h1.head
  have e : Run sty (caseBody (mkRec n) ctx acc) a q (.inl (acc ++ [w])) m m.fin :=
    Run.ifF (run_curF ((look_iff hn).2 fun h => by rw [h] at hh; rcases hh with hh | hh <;> cases hh))
      (Run.bind (h1.run n q) (Run.pure _))
  exact Run.loop_step e (fun k => hr n k _) k

theorem switch_ok {cs : List SwitchCase} {p' q1 r : Point} (h1 : Key sty k!"switch" a m) (h2 : Sym sty p!"(" m o)
    (h3 : ExprOK sty { ctx with in_ := true } 0 e o p') (h4 : Sym sty p!")" p' q1) (h5 : Sym sty p!"{" q1 r)
    (h6 : CasesOK sty ctx cs r b) (hs : From sty a b sp) : StmtOK sty ctx (.switch sp e cs) a b := by
  obtain ⟨t, hn, hv⟩ := h1
  refine stmt_of hn (by rw [hv]; decide) fun n q => Run.bind (run_current hn) ?_
  simp only [hv]
  rw [From.eq hs hn]
  obtain ⟨d, hd, hr⟩ := h6
  obtain ⟨q', hr⟩ := hr r.fin
  exact Run.bind (run_position hn) (Run.assert ⟨t, hn, hv⟩ (Run.assert h2 (Run.bind (h3.parse (ends_sym h4 (by simp)) n _)
    (Run.assert h4 (Run.bind (x := cs) (Run.assert h5 (Run.bind (hr n _ []) (Run.assert hd (Run.pure _))))
      (Run.bind (run_spanFrom _) (Run.pure _)))))))

/-! ### `for` -/

theorem noExpr_ok : OptExprOK sty ctx none a a := fun _ _ _ h _ => ⟨run_curT h, Run.pure _⟩

theorem someExpr_ok (h : ExprOK sty ctx 0 e a b) : OptExprOK sty ctx (some e) a b := fun p' c hp hc n => by
  obtain ⟨t, d, hn, hh⟩ := h.head
  have hp' : p' ∈ [p!")", p!";", p!":", p!"]", p!"}"] := by
    simp only [List.mem_cons, List.not_mem_nil, or_false] at hp ⊢
    rcases hp with h | h <;> simp [h]
  refine ⟨run_curF ((look_iff hn).2 (startVal_ne hh.start ?_)), Run.bind (h.parse (ends_sym hc hp') n _) (Run.pure _)⟩
  simp only [List.mem_cons, List.not_mem_nil, or_false] at hp
  rcases hp with rfl | rfl <;> decide

theorem noForInit_ok : ForInitOK sty ctx none a a := fun c h => by
  obtain ⟨t, hn, hv⟩ := h
  exact ⟨⟨t, c, hn⟩, fun n => Run.ifT (run_curT ⟨t, hn, hv⟩) (Run.pure _)⟩

theorem forInitExpr_ok (hn : Next sty a t c) (hl : t.value = .keyword k!"let" → Look sty c fun u => ¬ lexicalStart ctx u)
    (h : ExprOK sty { ctx with in_ := false } 0 e a b) : ForInitOK sty ctx (some (.expr e)) a b := fun d hd => by
  obtain ⟨t', c', hn', hh⟩ := h.head
  obtain ⟨rfl, rfl⟩ := next_unique hn hn'
  refine ⟨⟨t', c', hn⟩, fun n => Run.ifF (run_curF ((look_iff hn).2 (startVal_ne hh.start (by decide)))) ?_⟩
  refine Run.bind (x := .expr e) (Run.bind (run_position hn) ?_) (Run.pure _)
  have hk : Run sty (optionalVariableKind ctx) a a.fin none a a.fin := by
    refine Run.bind (run_current hn) ?_
    by_cases hy : t'.value = .keyword k!"let"
    · exact Run.bind (run_lexicalF hn (hl hy)) (Run.iteF (startVal_ne hh.start (by decide)) (Run.iteF (fun h => nomatch h.2)
        (Run.iteF (startVal_ne hh.start (by decide)) (Run.pure _))))
    · obtain ⟨w, hw⟩ := run_lexicalAny (sty := sty) (a := a) (q := a.fin) (ctx := ctx)
      exact Run.bind hw (Run.iteF (startVal_ne hh.start (by decide)) (Run.iteF (fun h => hy h.1)
        (Run.iteF (startVal_ne hh.start (by decide)) (Run.pure _))))
  exact Run.bind hk (Run.bind (h.parse (ends_sym hd (by simp)) n _) (Run.pure _))

theorem kind_value {kd : VarKind} (h : symbol t.value = some kd.asStr) :
    t.value = match kd with | .var => .keyword k!"var" | .let_ => .keyword k!"let" | .const => .keyword k!"const" := by
  cases kd <;> exact symbol_inj h rfl

theorem lexicalStart_in {w : Bool} (h : lexicalStart { ctx with in_ := w } t) : lexicalStart ctx t := by
  rcases h with h | h | ⟨id, h⟩
  · exact .inl h
  · exact .inr (.inl h)
  · refine .inr (.inr ⟨id, ?_⟩)
    cases h with
    | ident h => exact .ident h
    | keyword h h2 => exact .keyword h h2

theorem forInitDecl_ok {kd : VarKind} {vs : List VarDecl} (hn : Next sty a t m) (hk : symbol t.value = some kd.asStr)
    (h : VarDeclsOK sty { ctx with in_ := false } vs m b) (hs : From sty a b sp) :
    ForInitOK sty ctx (some (.declaration (.mk sp kd vs))) a b := fun d hd => by
  have hv := kind_value hk
  refine ⟨⟨t, m, hn⟩, fun n => Run.ifF (run_curF ((look_iff hn).2 ?_)) (Run.bind (x := .declaration (.mk sp kd vs))
    (Run.bind (run_position hn) (Run.bind (x := some kd) (b := m) (q1 := m.fin) (Run.bind (run_current hn) ?_)
    (Run.bind (h.parse (ends_sym hd (by simp)) n _) (Run.bind (run_spanFrom _) ?_)))) (Run.pure _))⟩
  · rw [hv]; cases kd <;> nofun
  · cases kd with
    | var =>
      obtain ⟨w, hw⟩ := run_lexicalAny (sty := sty) (a := a) (q := a.fin) (ctx := ctx)
      exact Run.bind hw (Run.iteT hv (Run.bind (run_consume hn) (Run.pure _)))
    | let_ =>
      obtain ⟨u, c, hu, hh⟩ := h.head
      exact Run.bind (run_lexicalT hn hu (lexicalStart_in hh)) (Run.iteF (by rw [hv]; nofun) (Run.iteT ⟨hv, rfl⟩ (Run.bind (run_consume hn) (Run.pure _))))
    | const =>
      obtain ⟨w, hw⟩ := run_lexicalAny (sty := sty) (a := a) (q := a.fin) (ctx := ctx)
      exact Run.bind hw (Run.iteF (by rw [hv]; nofun) (Run.iteF (by rw [hv]; nofun) (Run.iteT hv (Run.bind (run_consume hn) (Run.pure _)))))
  · rw [From.eq hs hn]; exact Run.pure _

theorem for_ok {i : Option ForInit} {x y : Option Expr} {q1 r u v w : Point} (h1 : Key sty k!"for" a m) (h2 : Sym sty p!"(" m o)
    (h3 : ForInitOK sty ctx i o p) (h4 : Sym sty p!";" p q1) (h5 : OptExprOK sty { ctx with in_ := true } x q1 r)
    (h6 : Sym sty p!";" r u) (h7 : OptExprOK sty { ctx with in_ := true } y u v) (h8 : Sym sty p!")" v w)
    (h9 : StmtOK sty ctx s w b) (hs : From sty a b sp) : StmtOK sty ctx (.for sp i x y s) a b := by
  obtain ⟨t, hn, hv⟩ := h1
  refine stmt_of hn (by rw [hv]; decide) fun n q => Run.bind (run_current hn) ?_
  simp only [hv]
  rw [From.eq hs hn]
  obtain ⟨⟨t', c, hn'⟩, h3⟩ := h3 _ h4
  have e1 := h5 _ _ (by simp) h6 n
  have e2 := h7 _ _ (by simp) h8 n
  have rest : Run sty (forRest (mkRec n) ctx t.span.start i) q1 q1.fin (Stmt.for ⟨t.span.start, b.fin⟩ i x y s) b b.fin :=
    Run.bind e1.1 (Run.bind e1.2 (Run.assert h6 (Run.bind e2.1 (Run.bind e2.2 (Run.assert h8
      (Run.bind (run_stmtRec (fun n => h9.run n _) n) (Run.bind (run_spanFrom _) (Run.pure _))))))))
  have main : Run sty (forAfterParen (mkRec n) ctx t.span.start false) o o.fin (Stmt.for ⟨t.span.start, b.fin⟩ i x y s) b b.fin :=
    Run.bind (run_current hn') (Run.bind (x := some (Stmt.for ⟨t.span.start, b.fin⟩ i x y s)) (Run.attempt (h3 n)
      (Run.ifT (run_maybeT h4) (Run.iteF nofun (Run.bind rest (Run.pure _))))) (Run.pure _))
  refine Run.bind (run_position hn) (Run.assert ⟨t, hn, hv⟩ ?_)
  by_cases ha : ctx.await = true
  · exact Run.iteT ha (Run.bind (run_maybeF (tok_ne h2 nofun)) (Run.assert h2 main))
  · exact Run.iteF ha (Run.bind (Run.pure _) (Run.assert h2 main))

/-! ## Declarations and programs -/

theorem lexical_ok {kd : VarKind} {vs : List VarDecl} (hn : Next sty a t m) (hne : kd ≠ .var) (hk : symbol t.value = some kd.asStr)
    (h : VarDeclsOK sty ctx vs m o) (he : Ends sty ctx 0 o) (h2 : EndOfStmt sty o b) (hs : From sty a b sp) :
    DeclOK sty ctx (.variable (.mk sp kd vs)) a b := by
  have hv := kind_value hk
  obtain ⟨w, hw⟩ := run_semi' h2
  cases kd with
  | var => exact absurd rfl hne
  | let_ =>
    refine ⟨⟨t, m, hn, .inl (by rw [hv]; simp)⟩, fun n q => Run.bind (run_current hn) ?_⟩
    obtain ⟨w', hw'⟩ := run_peekAny (sty := sty) (a := a) (q := q) (.keyword k!"function")
    obtain ⟨u, c, hu, hh⟩ := h.head
    rw [From.eq hs hn]
    exact Run.bind hw' (Run.bind (run_lexicalT hn hu hh) (Run.iteF (by rw [hv]; nofun) (Run.iteF (by rw [hv]; nofun)
      (Run.iteF (by rw [hv]; nofun) (Run.iteF (by rw [hv]; nofun) (Run.iteF (by rw [hv]; nofun) (Run.iteF (by rw [hv]; nofun)
      (Run.iteT ⟨hv, rfl⟩ (Run.bind (x := .variable (.mk ⟨t.span.start, b.fin⟩ .let_ vs))
        (Run.bind (run_consume hn) (Run.bind (h.parse he n _) (Run.bind hw (Run.bind (run_spanFrom _) (Run.pure _)))))
        (Run.pure _))))))))))
  | const =>
    refine ⟨⟨t, m, hn, .inl (by rw [hv]; simp)⟩, fun n q => Run.bind (run_current hn) ?_⟩
    obtain ⟨w', hw'⟩ := run_peekAny (sty := sty) (a := a) (q := q) (.keyword k!"function")
    obtain ⟨w2, hw2⟩ := run_lexicalAny (sty := sty) (a := a) (q := q) (ctx := ctx)
    rw [From.eq hs hn]
    exact Run.bind hw' (Run.bind hw2 (Run.iteF (by rw [hv]; nofun) (Run.iteF (by rw [hv]; nofun)
      (Run.iteF (by rw [hv]; nofun) (Run.iteF (by rw [hv]; nofun) (Run.iteF (by rw [hv]; nofun)
      (Run.iteT hv (Run.bind (x := .variable (.mk ⟨t.span.start, b.fin⟩ .const vs))
        (Run.bind (run_consume hn) (Run.bind (h.parse he n _) (Run.bind hw (Run.bind (run_spanFrom _) (Run.pure _)))))
        (Run.pure _)))))))))

theorem itemsEnd_ok (h : AtEnd sty a) : ItemsOK sty ctx [] a a where
  head h := absurd rfl h
  nil _ := ⟨rfl, h⟩
  run n k q acc hq := by
    rw [List.append_nil, hq rfl]
    have e : Run sty (itemBody (mkRec n) ctx acc) a a.fin (.inr acc) a a.fin := Run.ifT (run_isEndT h) (Run.pure _)
    exact Run.loop_end e k

theorem itemsMore_ok (h : ItemOK sty ctx s a m) (h2 : ItemsOK sty ctx ss m b) : ItemsOK sty ctx (s :: ss) a b where
  head _ := by obtain ⟨t, c, hn, -⟩ := h.head; exact ⟨t, c, hn⟩
  nil h := nomatch h
  run n k q acc _ := by
    rw [List.append_cons]
    obtain ⟨t, c, hn, hh⟩ := h.head
    have e : Run sty (itemBody (mkRec n) ctx acc) a q (.inl (acc ++ [s])) m m.fin :=
      Run.ifF (run_isEndF hn) (Run.bind (run_itemRec (fun n => h.run n q) n) (Run.pure _))
    refine Run.loop_step e (fun k => h2.run n k _ _ fun hs => ?_) k
    rw [(h2.nil hs).1]

end
end Complete
end Fajt
