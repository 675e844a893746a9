import Verif.Proofs.CompleteBinding
/-!
# Completeness: functions
-/
namespace Fajt
open Spec
set_option linter.unusedSectionVars false
variable [UnicodeID]

namespace Complete
open Parser

/-! ## Loops -/

/-- The body of the loop of directives. -/
def dirBody (r : Rec) (ctx : Ctx) : List LitString → P (List LitString ⊕ List LitString) := fun acc => do
  if ← curMatchesString then do
    let startToken ← current
    let stmt ← r.declOrStmt ctx
    match directiveOf stmt with
    | some s => pure (.inl (acc ++ [s]))
    | none => do
      rewindTo startToken
      pure (.inr acc)
  else pure (.inr acc)

/-- The body of the loop of statements in braces. -/
def stmtBody (r : Rec) (ctx : Ctx) : List Stmt → P (List Stmt ⊕ List Stmt) := fun acc => do
  if ← maybeConsume (.punct p!"}") then pure (.inr acc)
  else do
    let st ← r.declOrStmt ctx
    pure (.inl (acc ++ [st]))

/-! ## What derivations mean -/

section
variable (sty : SourceType) (ctx : Ctx)

/-- Tokens that end a list of statements. -/
def listEnd (v : TokVal) : Prop := v ∈ [.punct p!"}", .keyword k!"case", .keyword k!"default"]

structure StmtOK (s : Stmt) (a b : Point) : Prop where
  head : ∃ t c, Next sty a t c ∧ ¬ listEnd t.value
  nodecl : ∀ n q, Run sty (declaration (mkRec n) ctx) a q none a q
  run : ∀ n q, Run sty (stmt (mkRec n) ctx) a q s b b.fin

/-- How declarations start. -/
def DeclStart (t : Token) (c : Point) : Prop :=
  t.value ∈ [.keyword k!"function", .keyword k!"class", .keyword k!"import", .keyword k!"export", .keyword k!"const",
    .keyword k!"let"] ∨ t.value = .keyword k!"async" ∧ ∃ d, Key sty k!"function" c d

structure DeclOK (s : Stmt) (a b : Point) : Prop where
  start : ∃ t c, Next sty a t c ∧ DeclStart sty t c
  run : ∀ n q, Run sty (declaration (mkRec n) ctx) a q (some s) b b.fin

structure ItemOK (s : Stmt) (a b : Point) : Prop where
  head : ∃ t c, Next sty a t c ∧ ¬ listEnd t.value
  run : ∀ n q, Run sty (declOrStmt (mkRec n) ctx) a q s b b.fin

def StmtsOK (ss : List Stmt) (a b : Point) : Prop :=
  ∀ n k q acc, Run sty (loop (stmtBody (mkRec n) ctx) k acc) a q (acc ++ ss) b b.fin

def DirsOK (ds : List LitString) (a b : Point) : Prop :=
  ∀ q, ∃ q', (q = a.fin → q' = b.fin ∨ ∃ t c, Next sty b t c) ∧
    ∀ n k acc, Run sty (loop (dirBody (mkRec n) ctx) k acc) a q (acc ++ ds) b q'

structure BodyOK (x : Body) (a b : Point) : Prop where
  head : ∃ c, Sym sty p!"{" a c
  run : ∀ n q, Run sty (functionBody (mkRec n) ctx) a q x b b.fin
end

section
variable {sty : SourceType} {a b c m o p : Point} {q q' n l : Nat} {t u : Token} {ctx : Ctx} {e x y z : Expr} {sp asp : Span}
  {id : Ident} {s : Stmt} {ss : List Stmt} {ds : List LitString}

theorem run_stmtRec (h : ∀ n, Run sty (stmt (mkRec n) ctx) a q s b q') (n : Nat) :
    Run sty ((mkRec n).stmt ctx) a q s b q' :=
  run_mk (f := fun r => r.stmt ctx) (g := fun r => stmt r ctx) (fun _ => rfl) (fun _ => rfl) h n

theorem run_itemRec (h : ∀ n, Run sty (declOrStmt (mkRec n) ctx) a q s b q') (n : Nat) :
    Run sty ((mkRec n).declOrStmt ctx) a q s b q' :=
  run_mk (f := fun r => r.declOrStmt ctx) (g := fun r => declOrStmt r ctx) (fun _ => rfl) (fun _ => rfl) h n

theorem run_declRec {x : Option Stmt} (h : ∀ n, Run sty (declaration (mkRec n) ctx) a q x b q') (n : Nat) :
    Run sty ((mkRec n).declaration ctx) a q x b q' :=
  run_mk (f := fun r => r.declaration ctx) (g := fun r => declaration r ctx) (fun _ => rfl) (fun _ => rfl) h n

/-! ## The end of a statement -/

theorem run_semi (h : EndOfStmt sty a b) : Run sty consumeOptionalSemicolon a a.fin () b b.fin := by
  rcases h with h | ⟨rfl, h | ⟨t, c, h1, h2, h3⟩⟩
  · exact Run.ifT (run_maybeT h) (Run.pure _)
  · have hno : ∀ t c, ¬ Next sty b t c := fun t c hn => by
      have := stateAt_cur hn 0
      rw [(atEnd_cur 0).1 h] at this; cases this
    refine Run.ifF (run_maybeF fun t c hn => absurd hn (hno t c)) (Run.ifT (q1 := b.fin) ?_ (Run.pure _))
    obtain ⟨w, hw⟩ := run_curAny (sty := sty) (a := b) (q := b.fin) (.punct p!"}")
    obtain ⟨w', hw'⟩ := run_firstOnLineAny (sty := sty) (a := b) (q := b.fin)
    exact Run.bind (run_isEndT h) (Run.bind hw (Run.bind hw' (Run.pure _)))
  · exact Run.ifF (run_maybeF ((look_iff h1).2 h2)) (Run.ifT (run_canInsertT (Or.comm.1 h3) h1) (Run.pure _))

/-- `maybe_consume(";")` at the end of a statement. -/
theorem run_semi' (h : EndOfStmt sty a b) : ∃ w, Run sty (maybeConsume (.punct p!";")) a a.fin w b b.fin := by
  rcases h with h | ⟨rfl, h | ⟨t, c, h1, h2, h3⟩⟩
  · exact ⟨_, run_maybeT h⟩
  · have hno : ∀ t c, ¬ Next sty b t c := fun t c hn => by
      have := stateAt_cur hn 0
      rw [(atEnd_cur 0).1 h] at this; cases this
    exact ⟨_, run_maybeF fun t c hn => absurd hn (hno t c)⟩
  · exact ⟨_, run_maybeF ((look_iff h1).2 h2)⟩

theorem run_stmtEndedT (h : EndOfStmt sty a b) : Run sty stmtEnded a q true a q := by
  rcases h with ⟨t, h1, h2⟩ | ⟨rfl, h | ⟨t, c, h1, h2, h3⟩⟩
  · exact Run.bind (run_curVal h1) (Run.iteT h2 (Run.pure _))
  · have hno : ∀ t c, ¬ Next sty b t c := fun t c hn => by
      have := stateAt_cur hn 0
      rw [(atEnd_cur 0).1 h] at this; cases this
    exact Run.bind (run_curVal_none hno) (Run.pure _)
  · exact Run.bind (run_curVal h1) (Run.iteF h2 (run_canInsertT (Or.comm.1 h3) h1))

theorem run_stmtEndedF (h1 : Next sty a t b) (hf : t.fol = false) (h2 : t.value ≠ .punct p!";") (h3 : t.value ≠ .punct p!"}") :
    Run sty stmtEnded a q false a q :=
  Run.bind (run_curVal h1) (Run.iteF h2 (run_canInsertF h1 hf h3))

/-! ## Which statements are declarations -/

theorem run_lexicalF (h1 : Next sty a t b) (h : Look sty b fun u => ¬ lexicalStart ctx u) :
    Run sty (peekMatchesLexicalBinding ctx) a q false a q := by
  have h2 : Look sty b fun u => u.value ≠ .punct p!"{" := Look.mono h fun u hu hv => hu (.inl hv)
  have h3 : Look sty b fun u => u.value ≠ .punct p!"[" := Look.mono h fun u hu hv => hu (.inr (.inl hv))
  refine Run.bind (run_peekF h1 h2) (Run.bind (run_peekF h1 h3) (Run.bind (x := false) ?_ (Run.pure _)))
  rcases next_or_none sty b with ⟨u, c, hn⟩ | ⟨hn, -⟩
  · have := run_peekIsIdent (q := q) h1 hn ctx
    cases hi : isIdentTok (.ok u) ctx.kw with
    | false => rwa [hi] at this
    | true =>
      exfalso
      refine h u c hn (.inr (.inr ?_))
      obtain ⟨v, f, s⟩ := u
      cases v with
      | ident s => exact ⟨_, .ident rfl⟩
      | keyword k => exact ⟨_, .keyword rfl hi⟩
      | _ => cases hi
  · exact Run.gets (by obtain ⟨e, he⟩ := stateAt_none hn q; rw [stateAt_nxt h1, he]; rfl)

theorem run_lexicalT (h1 : Next sty a t b) (h2 : Next sty b u c) (h : lexicalStart ctx u) :
    Run sty (peekMatchesLexicalBinding ctx) a q true a q := by
  have r1 : ∀ v, Run sty (peekMatches v) a q (decide (u.value = v)) a q := fun v =>
    Run.gets (by rw [stateAt_nxt h1, stateAt_cur h2])
  have : (decide (u.value = .punct p!"{") || decide (u.value = .punct p!"[") || isIdentTok (.ok u) ctx.kw) = true := by
    rcases h with h | h | ⟨id, h⟩
    · simp [h]
    · simp [h]
    · simp [isIdentTok_of h]
  have e : Run sty (peekMatchesLexicalBinding ctx) a q
      (decide (u.value = .punct p!"{") || decide (u.value = .punct p!"[") || isIdentTok (.ok u) ctx.kw) a q :=
    Run.bind (r1 _) (Run.bind (r1 _) (Run.bind (run_peekIsIdent h1 h2 ctx) (Run.pure _)))
  rwa [this] at e

theorem run_lexicalAny : ∃ w, Run sty (peekMatchesLexicalBinding ctx) a q w a q :=
  ⟨_, Run.bind (Run.gets rfl) (Run.bind (Run.gets rfl) (Run.bind (Run.gets rfl) (Run.pure _)))⟩

/-- No declaration starts with this token. -/
theorem run_nodecl (h1 : Next sty a t b)
    (hv : t.value ∉ [.keyword k!"function", .keyword k!"class", .keyword k!"import", .keyword k!"export", .keyword k!"const"])
    (ha : t.value = .keyword k!"async" → Look sty b fun u => u.value ≠ .keyword k!"function")
    (hl : t.value = .keyword k!"let" → Look sty b fun u => ¬ lexicalStart ctx u) (n q : Nat) :
    Run sty (declaration (mkRec n) ctx) a q none a q := by
  simp only [List.mem_cons, List.not_mem_nil, or_false, not_or] at hv
  obtain ⟨h2, h3, h4, h5, h6⟩ := hv
  refine Run.bind (run_current h1) ?_
  by_cases hx : t.value = .keyword k!"async"
  · obtain ⟨w, hw⟩ := run_lexicalAny (sty := sty) (a := a) (q := q) (ctx := ctx)
    exact Run.bind (run_peekF h1 (ha hx)) (Run.bind hw (Run.iteF h2 (Run.iteF (fun h => nomatch h.2) (Run.iteF h3 (Run.iteF h4
      (Run.iteF h5 (Run.iteF h6 (Run.iteF (fun h => by rw [hx] at h; cases h.1) (Run.pure _)))))))))
  · obtain ⟨w', hw'⟩ := run_peekAny (sty := sty) (a := a) (q := q) (.keyword k!"function")
    by_cases hy : t.value = .keyword k!"let"
    · exact Run.bind hw' (Run.bind (run_lexicalF h1 (hl hy)) (Run.iteF h2 (Run.iteF (fun h => hx h.1) (Run.iteF h3 (Run.iteF h4
        (Run.iteF h5 (Run.iteF h6 (Run.iteF (fun h => nomatch h.2) (Run.pure _)))))))))
    · obtain ⟨w, hw⟩ := run_lexicalAny (sty := sty) (a := a) (q := q) (ctx := ctx)
      exact Run.bind hw' (Run.bind hw (Run.iteF h2 (Run.iteF (fun h => hx h.1) (Run.iteF h3 (Run.iteF h4
        (Run.iteF h5 (Run.iteF h6 (Run.iteF (fun h => hy h.1) (Run.pure _)))))))))

theorem itemStmt_ok (h : StmtOK sty ctx s a b) : ItemOK sty ctx s a b where
  head := h.head
  run n q := Run.bind (run_declRec (fun n => h.nodecl n q) n) (run_stmtRec (fun n => h.run n q) n)

theorem DeclOK.head (h : DeclOK sty ctx s a b) : ∃ t c, Next sty a t c ∧ ¬ listEnd t.value := by
  obtain ⟨t, c, hn, hs⟩ := h.start
  refine ⟨t, c, hn, ?_⟩
  rcases hs with hs | ⟨hs, -⟩
  · simp only [List.mem_cons, List.not_mem_nil, or_false] at hs
    rcases hs with h | h | h | h | h | h <;> rw [h] <;> simp [listEnd]
  · rw [hs]; simp [listEnd]

theorem itemDecl_ok (h : DeclOK sty ctx s a b) : ItemOK sty ctx s a b where
  head := h.head
  run n q := Run.bind (run_declRec (fun n => h.run n q) n) (Run.pure _)

/-! ## Expression statements -/

theorem exprStmt_ok (h0 : StmtStart sty ctx a) (h : ExprOK sty { ctx with in_ := true } 0 e a m)
    (he : Ends sty { ctx with in_ := true } 0 m) (h2 : EndOfStmt sty m b) (hs : From sty a b sp) :
    StmtOK sty ctx (.expr sp e) a b := by
  obtain ⟨t, c, hn, h3, ha, hl, hc⟩ := h0
  obtain ⟨t', c', hn', hh⟩ := h.head
  obtain ⟨rfl, rfl⟩ := next_unique hn hn'
  have hst := hh.start
  simp only [List.mem_cons, List.not_mem_nil, or_false, not_or] at h3
  obtain ⟨h3a, h3b, h3c, h3d⟩ := h3
  have hne : ∀ v, startVal v = false → t'.value ≠ v := fun v hv => startVal_ne hst hv
  refine ⟨⟨t', c', hn, ?_⟩, run_nodecl hn ?_ ha hl, fun n q => ?_⟩
  · simp only [listEnd, List.mem_cons, List.not_mem_nil, or_false, not_or]
    exact ⟨hne _ (by decide), hne _ (by decide), hne _ (by decide)⟩
  · simp only [List.mem_cons, List.not_mem_nil, or_false, not_or]
    exact ⟨h3b, h3c, h3d, hne _ (by decide), hne _ (by decide)⟩
  · have hmain : Run sty (exprStmt (mkRec n) { ctx with in_ := true }) a q (.expr sp e) b b.fin := by
      rw [From.eq hs hn]
      exact Run.bind (run_position hn) (Run.bind (h.parse he n q) (Run.bind (run_semi h2) (Run.bind (run_spanFrom _) (Run.pure _))))
    refine Run.bind (run_current hn) ?_
    split
    all_goals try (rename_i hv; exact absurd hv (hne _ (by decide)))
    · rename_i hv; exact absurd hv h3a
    · refine Run.bind (run_isIdent hn ctx) ?_
      have hes : Run sty isExprStmt a q true a q := by
        refine Run.bind (run_current hn) (Run.iteF (by simp [h3a, h3b, h3c]) ?_)
        obtain ⟨w, hw⟩ := run_peekAny (sty := sty) (a := a) (q := q) (.punct p!"[")
        obtain ⟨w', hw'⟩ := run_peekAny (sty := sty) (a := a) (q := q) (.keyword k!"function")
        by_cases hy : t'.value = .keyword k!"let"
        · have : Look sty c' fun u => u.value ≠ .punct p!"[" := Look.mono (hl hy) fun u hu hv => hu (.inr (.inl hv))
          refine Run.bind (run_peekF hn this) (Run.iteF (fun h => nomatch h.2) (Run.bind hw' (Run.iteF (fun h => ?_) (Run.pure _))))
          rw [hy] at h; cases h.1
        · refine Run.bind hw (Run.iteF (fun h => hy h.1) ?_)
          by_cases hx : t'.value = .keyword k!"async"
          · exact Run.bind (run_peekF hn (ha hx)) (Run.iteF (fun h => nomatch h.2) (Run.pure _))
          · exact Run.bind hw' (Run.iteF (fun h => hx h.1) (Run.pure _))
      cases hi : isIdentTok (.ok t') ctx.kw with
      | false =>
        obtain ⟨w, hw⟩ := run_peekAny (sty := sty) (a := a) (q := q) (.punct p!":")
        exact Run.bind hw (Run.iteF (by simp) (Run.ifT hes hmain))
      | true =>
        refine Run.bind (run_peekF hn (hc ?_)) (Run.iteF (by simp) (Run.ifT hes hmain))
        obtain ⟨v, f, s⟩ := t'
        cases v with
        | ident s => exact ⟨_, .ident rfl⟩
        | keyword k => exact ⟨_, .keyword rfl hi⟩
        | _ => cases hi

/-! ## Bodies -/

theorem run_curString {s : LitString} (h : Next sty a t b) (hv : t.value = .lit (.string s)) :
    Run sty curMatchesString a q true a q := by
  refine Run.gets ?_
  rw [stateAt_cur h]
  obtain ⟨v, f, sp⟩ := t
  cases hv; rfl

theorem run_curStringF (h : Look sty a fun t => ∀ s, t.value ≠ .lit (.string s)) :
    Run sty curMatchesString a q false a q := by
  refine Run.gets ?_
  rcases next_or_none sty a with ⟨t, b, hn⟩ | ⟨hn, -⟩
  · rw [stateAt_cur hn]
    have := h t b hn
    obtain ⟨v, f, sp⟩ := t
    cases v with
    | lit l =>
      cases l with
      | string s => exact absurd rfl (this s)
      | _ => rfl
    | _ => rfl
  · obtain ⟨e, he⟩ := stateAt_none hn q; rw [he]

theorem directivesEnd_ok (h : Look sty a fun t => ∀ s, t.value ≠ .lit (.string s)) : DirsOK sty ctx [] a a := fun q =>
  ⟨q, fun h => .inl h, fun n k acc => by
    rw [List.append_nil]
    have e : Run sty (dirBody (mkRec n) ctx acc) a q (.inr acc) a q := Run.ifF (run_curStringF h) (Run.pure _)
    exact Run.loop_end e k⟩

theorem string_expr0 {s : LitString} (h1 : Next sty a t b) (hv : t.value = .lit (.string s)) :
    ExprOK sty ctx 0 (.literal t.span (.string s)) a b := by
  have h21 : ExprOK sty ctx 21 (.literal t.span (.string s)) a b := literal_ok h1 hv
  exact ((newLhs_ok (newMember_ok h21.up20)).up17).down3.up2.up1.up0

theorem directive_ok {s : LitString} (h1 : Next sty a t m) (hv : t.value = .lit (.string s))
    (he : Ends sty { ctx with in_ := true } 0 m) (h2 : EndOfStmt sty m o) :
    StmtOK sty ctx (.expr ⟨t.span.start, o.fin⟩ (.literal t.span (.string s))) a o := by
  refine exprStmt_ok ⟨t, m, h1, ?_, ?_, ?_, ?_⟩ (string_expr0 h1 hv) he h2 ⟨t, m, h1, rfl⟩
  · rw [hv]; simp
  · intro h; rw [hv] at h; cases h
  · intro h; rw [hv] at h; cases h
  · rintro ⟨id, h⟩
    rcases ident_shape h with ⟨s, h⟩ | ⟨s, h⟩ <;> rw [hv] at h <;> cases h

theorem directivesMore_ok {s : LitString} (h1 : Next sty a t m) (hv : t.value = .lit (.string s))
    (he : Ends sty { ctx with in_ := true } 0 m) (h2 : EndOfStmt sty m o) (h3 : DirsOK sty ctx ds o b) :
    DirsOK sty ctx (s :: ds) a b := fun q => by
  obtain ⟨q', hq', hr⟩ := h3 o.fin
  refine ⟨q', fun _ => hq' rfl, fun n k acc => ?_⟩
  rw [List.append_cons]
  have e : Run sty (dirBody (mkRec n) ctx acc) a q (.inl (acc ++ [s])) o o.fin :=
    Run.ifT (run_curString h1 hv) (Run.bind (run_current h1)
      (Run.bind (run_itemRec (fun n => (itemStmt_ok (directive_ok h1 hv he h2)).run n q) n) (Run.pure _)))
  exact Run.loop_step e (fun k => hr n k _) k

theorem stmtsEnd_ok (h : Sym sty p!"}" a b) : StmtsOK sty ctx [] a b := fun n k q acc => by
  rw [List.append_nil]
  exact Run.loop_end (Run.ifT (run_maybeT h) (Run.pure _)) k

theorem stmtsMore_ok (h : ItemOK sty ctx s a m) (h2 : StmtsOK sty ctx ss m b) : StmtsOK sty ctx (s :: ss) a b :=
  fun n k q acc => by
    rw [List.append_cons]
    obtain ⟨t, c, hn, hh⟩ := h.head
    simp only [listEnd, List.mem_cons, List.not_mem_nil, or_false, not_or] at hh
    refine Run.loop_step (q1 := m.fin) (Run.ifF (run_maybeF ((look_iff hn).2 hh.1)) ?_) (fun k => h2 n k _ _) k
    exact Run.bind (run_itemRec (fun n => h.run n q) n) (Run.pure _)

theorem body_ok (h1 : Sym sty p!"{" a m) (h2 : DirsOK sty ctx ds m o)
    (h3 : StmtsOK sty { afterDirectives ctx ds with return_ := true } ss o b) (hs : From sty a b sp) :
    BodyOK sty ctx (.mk sp ds ss) a b := by
  obtain ⟨t, hn, hv⟩ := h1
  refine ⟨⟨m, t, hn, hv⟩, fun n q => ?_⟩
  obtain ⟨q', -, hr⟩ := h2 m.fin
  rw [From.eq hs hn]
  exact Run.bind (run_position hn) (Run.assert ⟨t, hn, hv⟩ (Run.bind (hr n _ []) (Run.bind (h3 n _ _ [])
    (Run.bind (run_spanFrom _) (Run.pure _)))))

/-! ## Functions -/

theorem run_star {g : Bool} (h : OptTok sty (.punct p!"*") g a b) (hl : g = false → Look sty a fun t => t.value ≠ .punct p!"*") :
    Run sty (maybeConsume (.punct p!"*")) a a.fin g b b.fin := by
  unfold OptTok at h
  cases g with
  | true => exact run_maybeT (by simpa using h)
  | false =>
    have h : b = a := by simpa using h
    subst h
    exact run_maybeF (hl rfl)

/-- The name, the parameters and the body of a function expression. -/
theorem run_content {i : Option Ident} {ps : FormalParams} {bd : Body} {start : Nat} (h1 : OptName sty ctx i a m)
    (h2 : ParamsOK sty ctx ps m o) (h3 : BodyOK sty ctx bd o b) :
    Run sty (functionExprContent (mkRec n) ctx start) a a.fin (.function ⟨start, b.fin⟩ ctx.await ctx.yield i ps bd) b b.fin := by
  have tail : Run sty (formalParameters (mkRec n) ctx >>= fun ps => functionBody (mkRec n) ctx >>= fun bd =>
      spanFrom start >>= fun sp => (pure (.function sp ctx.await ctx.yield i ps bd) : P Expr)) m m.fin
      (.function ⟨start, b.fin⟩ ctx.await ctx.yield i ps bd) b b.fin :=
    Run.bind (h2.run n _) (Run.bind (h3.run n _) (Run.bind (run_spanFrom _) (Run.pure _)))
  cases i with
  | some id =>
    obtain ⟨t, hn, hi⟩ := h1
    have := run_isIdent (q := a.fin) hn ctx
    rw [isIdentTok_of hi] at this
    exact Run.bind this (Run.bind (x := some id) (Run.iteT rfl (Run.bind (run_parseIdent hn hi) (Run.pure _))) tail)
  | none =>
    have h1 : m = a := h1
    subst h1
    obtain ⟨c, t, hn, hv⟩ := h2.head
    have := run_isIdent (q := m.fin) hn ctx
    rw [punct_not_ident hv] at this
    exact Run.bind this (Run.bind (x := none) (Run.pure _) tail)

theorem optName_notStar {i : Option Ident} {ps : FormalParams} (h1 : OptName sty ctx i a m) (h2 : ParamsOK sty ctx ps m o) :
    Look sty a fun t => t.value ≠ .punct p!"*" := by
  cases i with
  | some id =>
    obtain ⟨t, hn, hi⟩ := h1
    refine (look_iff hn).2 fun hp => ?_
    rcases ident_shape hi with ⟨s, h⟩ | ⟨s, h⟩ <;> rw [hp] at h <;> cases h
  | none =>
    have h1 : m = a := h1
    subst h1
    obtain ⟨c, h⟩ := h2.head
    exact tok_ne h nofun

theorem function_ok {g : Bool} {i : Option Ident} {ps : FormalParams} {bd : Body} {r : Point} (h1 : Key sty k!"function" a m)
    (h2 : OptTok sty (.punct p!"*") g m o) (h3 : OptName sty (insideFunction ctx g false) i o p)
    (h4 : ParamsOK sty (insideFunction ctx g false) ps p r) (h5 : BodyOK sty (insideFunction ctx g false) bd r b)
    (hs : From sty a b sp) : ExprOK sty ctx 21 (.function sp false g i ps bd) a b := by
  obtain ⟨t, hn, hv⟩ := h1
  refine primary_ok hn hv rfl (reserved_not_ident rfl hv) hs (by decide) fun _ n q => ?_
  refine Run.bind (run_current hn) ?_
  simp only [hv]
  rw [From.eq hs hn]
  refine Run.bind (run_position hn) (Run.assert ⟨t, hn, hv⟩ (Run.bind (run_star h2 fun hg => ?_) (run_content h3 h4 h5)))
  subst hg
  have h2 : o = m := by simpa [OptTok] using h2
  subst h2
  exact optName_notStar h3 h4

theorem asyncFunction_ok {g : Bool} {i : Option Ident} {ps : FormalParams} {bd : Body} {k r : Point} (h0 : Key sty k!"async" a k)
    (hl : Look sty k fun t => t.fol = false) (h1 : Key sty k!"function" k m)
    (h2 : OptTok sty (.punct p!"*") g m o) (h3 : OptName sty (insideFunction ctx g true) i o p)
    (h4 : ParamsOK sty (insideFunction ctx g true) ps p r) (h5 : BodyOK sty (insideFunction ctx g true) bd r b)
    (hs : From sty a b sp) : ExprOK sty ctx 21 (.function sp true g i ps bd) a b := by
  obtain ⟨t, hn, hv⟩ := h0
  refine ⟨⟨⟨t, k, hn, ⟨by rw [hv]; rfl, fun _ _ => by rw [hv]; nofun, fun _ _ => ⟨m, h1⟩, fun _ => by rw [hv]; rfl,
    fun _ _ => by rw [hv]; nofun, fun _ => by rw [hv]; rfl, fun _ h => ?_⟩⟩, hs, fun _ t' c' h1' _ => ?_⟩, nofun,
    fun _ _ n q => run_terminal hn (by rw [hv]; decide) ?_⟩
  · rw [hv] at h; rcases h with h | h <;> cases h
  · obtain ⟨rfl, rfl⟩ := next_unique hn h1'
    exact .inr (tok_ne h1 nofun)
  · refine Run.bind (run_current hn) ?_
    simp only [hv]
    have hf : Run sty followedByNewLine a q false a q := by
      obtain ⟨u, hu, -⟩ := h1
      have := run_followedByNewLine (q := q) hn hu
      rwa [hl u m hu] at this
    refine Run.bind hf (Run.iteT (by simp) ?_)
    rw [From.eq hs hn]
    refine Run.bind (run_position hn) (Run.assert ⟨t, hn, hv⟩ (Run.assert h1 (Run.bind (run_star h2 fun hg => ?_) (run_content h3 h4 h5))))
    subst hg
    have h2 : o = m := by simpa [OptTok] using h2
    subst h2
    exact optName_notStar h3 h4

/-- The name of a declaration. -/
theorem run_functionIdentifier (h : NameAt sty ctx [.punct p!"("] id a b) : Run sty (functionIdentifier ctx) a a.fin id b b.fin := by
  rcases h with ⟨t, hn, hi⟩ | ⟨hd, rfl, t, c, hn, hv, rfl⟩
  · have hp : t.value ≠ .punct p!"(" := fun hp => by
      rcases ident_shape hi with ⟨s, h⟩ | ⟨s, h⟩ <;> rw [hp] at h <;> cases h
    exact Run.bind (run_curMatches hn _) (Run.iteF (by simp [hp]) (run_parseIdent hn hi))
  · have hv : t.value = .punct p!"(" := by simpa using hv
    refine Run.bind (run_curMatches hn _) (Run.iteT (by simp [hd, hv]) (Run.bind (x := t.span.start) ?_ (Run.pure _)))
    exact .inr (by unfold currentUnwrapStart; rw [stateAt_cur hn])

theorem nameAt_notStar (h : NameAt sty ctx [.punct p!"("] id a b) : Look sty a fun t => t.value ≠ .punct p!"*" := by
  rcases h with ⟨t, hn, hi⟩ | ⟨hd, rfl, t, c, hn, hv, rfl⟩
  · refine (look_iff hn).2 fun hp => ?_
    rcases ident_shape hi with ⟨s, h⟩ | ⟨s, h⟩ <;> rw [hp] at h <;> cases h
  · refine (look_iff hn).2 fun hp => ?_
    rw [hp] at hv
    simp at hv

theorem functionDecl_ok {g : Bool} {ps : FormalParams} {bd : Body} {r : Point} (h1 : Key sty k!"function" a m)
    (h2 : OptTok sty (.punct p!"*") g m o) (h3 : NameAt sty ctx [.punct p!"("] id o p)
    (h4 : ParamsOK sty (insideFunction ctx g false) ps p r) (h5 : BodyOK sty (insideFunction ctx g false) bd r b)
    (hs : From sty a b sp) : DeclOK sty ctx (.functionDecl sp false g id ps bd) a b := by
  obtain ⟨t, hn, hv⟩ := h1
  refine ⟨⟨t, m, hn, .inl (by rw [hv]; simp)⟩, fun n q => Run.bind (run_current hn) ?_⟩
  obtain ⟨w, hw⟩ := run_lexicalAny (sty := sty) (a := a) (q := q) (ctx := ctx)
  obtain ⟨w', hw'⟩ := run_peekAny (sty := sty) (a := a) (q := q) (.keyword k!"function")
  refine Run.bind hw' (Run.bind hw (Run.iteT hv (Run.bind (x := .functionDecl sp false g id ps bd) ?_ (Run.pure _))))
  rw [From.eq hs hn]
  refine Run.bind (run_position hn) (Run.assert ⟨t, hn, hv⟩ (Run.bind (run_star h2 fun hg => ?_) (Run.bind
    (run_functionIdentifier h3) (Run.bind (h4.run n _) (Run.bind (h5.run n _) (Run.bind (run_spanFrom _) (Run.pure _)))))))
  subst hg
  have h2 : o = m := by simpa [OptTok] using h2
  subst h2
  exact nameAt_notStar h3

theorem asyncFunctionDecl_ok {g : Bool} {ps : FormalParams} {bd : Body} {k r : Point} (h0 : Key sty k!"async" a k)
    (h1 : Key sty k!"function" k m)
    (h2 : OptTok sty (.punct p!"*") g m o) (h3 : NameAt sty ctx [.punct p!"("] id o p)
    (h4 : ParamsOK sty (insideFunction ctx g true) ps p r) (h5 : BodyOK sty (insideFunction ctx g true) bd r b)
    (hs : From sty a b sp) : DeclOK sty ctx (.functionDecl sp true g id ps bd) a b := by
  obtain ⟨t, hn, hv⟩ := h0
  refine ⟨⟨t, k, hn, .inr ⟨hv, m, h1⟩⟩, fun n q => Run.bind (run_current hn) ?_⟩
  obtain ⟨w, hw⟩ := run_lexicalAny (sty := sty) (a := a) (q := q) (ctx := ctx)
  refine Run.bind (run_peekT hn h1) (Run.bind hw (Run.iteF (by rw [hv]; nofun) (Run.iteT ⟨hv, rfl⟩
    (Run.bind (x := .functionDecl sp true g id ps bd) ?_ (Run.pure _)))))
  rw [From.eq hs hn]
  refine Run.bind (run_position hn) (Run.assert ⟨t, hn, hv⟩ (Run.assert h1 (Run.bind (run_star h2 fun hg => ?_) (Run.bind
    (run_functionIdentifier h3) (Run.bind (h4.run n _) (Run.bind (h5.run n _) (Run.bind (run_spanFrom _) (Run.pure _))))))))
  subst hg
  have h2 : o = m := by simpa [OptTok] using h2
  subst h2
  exact nameAt_notStar h3

end
end Complete
end Fajt
