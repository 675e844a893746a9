import Verif.Proofs.CompleteExpr
/-!
# Completeness: primary, member and call expressions, operators
-/
namespace Fajt
open Spec
set_option linter.unusedSectionVars false
variable [UnicodeID]

namespace Complete
open Parser

/-! ## The meaning of the other symbols -/

section
variable (sty : SourceType) (ctx : Ctx)

/-- The body of the loop of calls. -/
def callBody (r : Rec) (ctx : Ctx) (start : Nat) : Expr → P (Expr ⊕ Expr) := fun e => do
  match ← curVal? with
  | some (.punct p!"(") => do
    let e ← callExpr r ctx start e
    pure (.inl e)
  | some (.punct p!".") | some (.punct p!"[") => do
    let e ← memberExprRightSide r ctx start (.expr e)
    pure (.inl e)
  | some (.lit (.template _)) => do
    let e ← taggedTemplate r ctx start e
    pure (.inl e)
  | _ => pure (.inr e)

/-- The body of the loop of optional chains. -/
def optBody (r : Rec) (ctx : Ctx) (start : Nat) : Expr → P (Expr ⊕ Expr) := fun object => do
  let peekParen ← peekMatches (.punct p!"(")
  match ← cur? with
  | none => pure (.inr object)
  | some t =>
    if t.value = .punct p!"?." then
      if peekParen then do
        let e ← optionalCallExpr r ctx start object
        pure (.inl e)
      else do
        match ← peek? with
        | some p => validateNoTemplate p
        | none => pure ()
        let e ← optionalMemberExpr r ctx start object
        pure (.inl e)
    else if t.value = .punct p!"." ∨ t.value = .punct p!"[" then do
      let e ← optionalMemberExpr r ctx start object
      pure (.inl e)
    else if t.value = .punct p!"(" then do
      let e ← optionalCallExpr r ctx start object
      pure (.inl e)
    else do
      validateNoTemplate t
      pure (.inr object)

/-- The body of the loop of arguments. -/
def argBody (r : Rec) (ctx : Ctx) : List Argument → P (List Argument ⊕ List Argument) := fun acc => do
  if ← maybeConsume (.punct p!")") then pure (.inr acc)
  else do
    let a ← argument r ctx
    consumeListDelimiter (.punct p!")")
    pure (.inl (acc ++ [a]))

/-- The body of the loop of array elements. -/
def elemBody (r : Rec) (ctx : Ctx) : List ArrayElement → P (List ArrayElement ⊕ List ArrayElement) := fun acc => do
  if ← maybeConsume (.punct p!"]") then pure (.inr acc)
  else do
    let e ← arrayElement r ctx
    if e.isElision then pure (.inl (acc ++ [e]))
    else do
      consumeListDelimiter (.punct p!"]")
      pure (.inl (acc ++ [e]))

/-- The body of the loop of properties. -/
def propBody (r : Rec) (ctx : Ctx) : List PropDef → P (List PropDef ⊕ List PropDef) := fun acc => do
  if ← maybeConsume (.punct p!"}") then pure (.inr acc)
  else do
    let prop ← propertyDefinition r ctx
    if (← curMatches (.punct p!"=")) && prop.isIdentRef then do
      let t ← current
      M.throw (PErr.initializedName t.span)
    else do
      consumeListDelimiter (.punct p!"}")
      pure (.inl (acc ++ [prop]))

/-- The body of the loop of comma expressions. -/
def seqBody (r : Rec) (ctx : Ctx) : List Expr → P (List Expr ⊕ List Expr) := fun acc => do
  if ← maybeConsume (.punct p!",") then do
    let e ← r.assignExpr ctx
    pure (.inl (acc ++ [e]))
  else pure (.inr acc)

def isTemplate : TokVal → Bool
  | .lit (.template _) => true
  | .templateHead _ => true
  | _ => false

structure NewOK (e : Expr) (a b : Point) : Prop extends Base sty ctx 20 e a b where
  run : Ends sty ctx 19 b → ∀ n q, Run sty (newOrMember (mkRec n) ctx) a q e b b.fin

structure CallOK (e : Expr) (a b : Point) : Prop extends Base sty ctx 20 e a b where
  cps : ∀ n q x d q' t c, Next sty a t c → (∀ k, Run sty (loop (callBody (mkRec n) ctx t.span.start) k e) b b.fin x d q') →
    Run sty (callOrMemberExpr (mkRec n) ctx) a q x d q'

structure ChainOK (e : Expr) (a b : Point) : Prop extends Base sty ctx 18 e a b where
  cps : ∀ n q x d q' t c, Next sty a t c → (∀ k, Run sty (loop (optBody (mkRec n) ctx t.span.start) k e) b b.fin x d q') →
    Run sty (leftHandSideExpr (mkRec n) ctx) a q x d q'

structure ArgsOK (sp : Span) (as : List Argument) (a b : Point) : Prop where
  head : ∃ c, Sym sty p!"(" a c
  run : ∀ n q, Run sty (arguments (mkRec n) ctx) a q (sp, as) b b.fin

def ArgListOK (as : List Argument) (a b : Point) : Prop :=
  ∀ n k q acc, Run sty (loop (argBody (mkRec n) ctx) k acc) a q (acc ++ as) b b.fin

structure ArgOK (x : Argument) (a b : Point) : Prop where
  head : ∃ t c, Next sty a t c ∧ t.value ≠ .punct p!")"
  run : Ends sty ctx 1 b → ∀ n q, Run sty (argument (mkRec n) ctx) a q x b b.fin

structure TemplateOK (ps : List TemplatePart) (a b : Point) : Prop where
  head : ∃ t c, Next sty a t c ∧ isTemplate t.value = true
  plain : ∀ t c s, Next sty a t c → t.value = .lit (.template s) → c = b ∧ ps = [.string s]
  run : ∀ n q, Run sty (templateLiteral (mkRec n) ctx) a q ps b b.fin

structure MemberOK (p : MemberProp) (a b : Point) : Prop where
  head : ∃ t c, Next sty a t c ∧ (t.value = .punct p!"." ∨ t.value = .punct p!"[")
  run : ∀ n q, Run sty (memberProperty (mkRec n) ctx) a q p b b.fin

structure OptOK (optional : Bool) (p : MemberProp) (a b : Point) : Prop where
  head : ∃ t c, Next sty a t c ∧ if optional then t.value = .punct p!"?." ∧ ∃ u d, Next sty c u d ∧
    u.value ≠ .punct p!"(" ∧ isTemplate u.value = false else t.value = .punct p!"." ∨ t.value = .punct p!"["
  run : ∀ n q, Run sty (optionalMemberProperty (mkRec n) ctx) a q p b b.fin

def ElementsOK (es : List ArrayElement) (a b : Point) : Prop :=
  ∀ n k q acc, Run sty (loop (elemBody (mkRec n) ctx) k acc) a q (acc ++ es) b b.fin

structure ElementOK (e : ArrayElement) (a b : Point) : Prop where
  head : ∃ t c, Next sty a t c ∧ t.value ≠ .punct p!"]"
  plain : e.isElision = false
  run : Ends sty ctx 1 b → ∀ n q, Run sty (arrayElement (mkRec n) ctx) a q e b b.fin

def PropsOK (ps : List PropDef) (a b : Point) : Prop :=
  ∀ n k q acc, Run sty (loop (propBody (mkRec n) ctx) k acc) a q (acc ++ ps) b b.fin

structure PropOK (p : PropDef) (a b : Point) : Prop where
  head : ∃ t c, Next sty a t c ∧ t.value ≠ .punct p!"}"
  run : ∀ v c, (v = .punct p!"," ∨ v = .punct p!"}") → Tok sty v b c → ∀ n q,
    Run sty (propertyDefinition (mkRec n) ctx) a q p b b.fin

structure NameOK (x : PropName) (a b : Point) : Prop where
  head : ∃ t c, Next sty a t c ∧ ((c = b ∧ ∀ p, t.value ≠ .punct p) ∨
    (t.value = .punct p!"[" ∧ Look sty c (fun u => u.value ≠ .punct p!":")))
  run : ∀ n q, Run sty (propertyName (mkRec n) ctx) a q x b b.fin

structure ExprsOK (es : List Expr) (a b : Point) : Prop where
  head : ∃ c, Sym sty p!"," a c
  run : Ends sty ctx 0 b → ∀ n k q acc, Run sty (loop (seqBody (mkRec n) ctx) k acc) a q (acc ++ es) b b.fin
end

section
variable {sty : SourceType} {a b c m o p : Point} {q q' n l : Nat} {t u : Token} {ctx : Ctx} {e x y z : Expr} {sp asp : Span}
  {as : List Argument} {ps : List TemplatePart} {id : Ident}

/-! ## Heads -/

theorem reserved_not_ident {k : Keyword} (hk : k.allowedAsIdent ({} : Ctx).kw = false) (h : t.value = .keyword k) :
    isIdentTok (.ok t) ctx.kw = false := by
  obtain ⟨v, f, s⟩ := t
  cases h
  show k.allowedAsIdent ctx.kw = false
  cases hc : k.allowedAsIdent ctx.kw with
  | false => rfl
  | true => rw [Props.C18_monotone k ({} : Ctx).kw ctx.kw nofun nofun nofun hc] at hk; cases hk

theorem ident_not_reserved {k : Keyword} (hk : k.allowedAsIdent ({} : Ctx).kw = false) (h : IdentTok ctx t id) :
    t.value ≠ .keyword k := fun he => by
  have := isIdentTok_of h
  rw [reserved_not_ident hk he] at this
  cases this

theorem ident_shape (h : IdentTok ctx t id) : (∃ s, t.value = .ident s) ∨ ∃ k, t.value = .keyword k := by
  cases h with
  | ident h => exact .inl ⟨_, h⟩
  | keyword h _ => exact .inr ⟨_, h⟩

theorem name_shape (h : NameTok t id) : (∃ s, t.value = .ident s) ∨ ∃ k, t.value = .keyword k := by
  cases h with
  | ident h => exact .inl ⟨_, h⟩
  | keyword h => exact .inr ⟨_, h⟩

theorem ident_name (h : IdentTok ctx t id) : NameTok t id := by
  cases h with
  | ident h => exact .ident h
  | keyword h _ => exact .keyword h

theorem ident_span (h : IdentTok ctx t id) : id.span = t.span := by cases h <;> rfl

theorem punct_not_ident {p : Punct} (h : t.value = .punct p) : isIdentTok (.ok t) ctx.kw = false := by
  obtain ⟨v, f, s⟩ := t
  cases h; rfl

theorem lit_not_ident {p : TLit} (h : t.value = .lit p) : isIdentTok (.ok t) ctx.kw = false := by
  obtain ⟨v, f, s⟩ := t
  cases h; rfl

/-- An expression that starts with an expression. -/
theorem Base.left {k : Nat} (h : Base sty ctx k x a m) (hl : l ≤ k) (h2 : Look sty m (fun u => u.value ≠ .punct p!"=>"))
    (hs : From sty a b e.span) : Base sty ctx l e a b where
  head := by obtain ⟨t, c, h1, h2⟩ := h.head; exact ⟨t, c, h1, h2.mono hl⟩
  span := hs
  solo h0 t c h1 hi := by
    rcases h.solo (Nat.le_trans h0 hl) t c h1 hi with rfl | hl
    · exact .inr h2
    · exact .inr hl

/-- An expression that starts with a token that is no identifier. -/
theorem Base.tok (h1 : Next sty a t c) (h2 : HeadTok sty ctx l t c) (h3 : 2 ≤ l → isIdentTok (.ok t) ctx.kw = false)
    (hs : From sty a b e.span) : Base sty ctx l e a b where
  head := ⟨t, c, h1, h2⟩
  span := hs
  solo h0 t' c' h1' hi := by
    obtain ⟨rfl, rfl⟩ := next_unique h1 h1'
    rw [h3 h0] at hi; cases hi

theorem Base.mono {k : Nat} (h : Base sty ctx k e a b) (hk : l ≤ k) : Base sty ctx l e a b where
  head := by obtain ⟨t, c, h1, h2⟩ := h.head; exact ⟨t, c, h1, h2.mono hk⟩
  span := h.span
  solo h0 := h.solo (Nat.le_trans h0 hk)

/-- The first token of a primary expression, in terms of its value. -/
def plainHead (v : TokVal) : Bool :=
  startVal v && decide (v ∉ [.keyword k!"yield", .keyword k!"async", .keyword k!"await", .keyword k!"super",
    .keyword k!"import"]) && (unaryOpOf v).isNone && (updateOpOf v).isNone

theorem headTok_plain (h : plainHead t.value = true) : HeadTok sty ctx l t c := by
  simp only [plainHead, Bool.and_eq_true, decide_eq_true_eq, List.mem_cons, List.not_mem_nil, or_false, not_or,
    Option.isNone_iff_eq_none] at h
  obtain ⟨⟨⟨h1, h2, h3, h4, h5, h6⟩, h7⟩, h8⟩ := h
  exact ⟨h1, fun _ _ => h2, fun _ hh => absurd hh h3, fun _ => h7, fun _ _ => h4, fun _ => h8,
    fun _ hh => by rcases hh with hh | hh <;> contradiction⟩

theorem From.of_tok (h : Next sty a t b) : From sty a b t.span := by
  refine ⟨t, b, h, ?_⟩
  rw [← next_fin h]

/-! ## Primary expressions -/

theorem run_terminal {α : Expr} (h1 : Next sty a t c)
    (hv : t.value ∉ [.keyword k!"super", .keyword k!"new", .keyword k!"import"])
    (h : Run sty (primaryExpr (mkRec n) ctx) a q α b q') : Run sty (memberExprFromTerminal (mkRec n) ctx) a q α b q' := by
  simp only [List.mem_cons, List.not_mem_nil, or_false, not_or] at hv
  obtain ⟨w, hw⟩ := run_peekAny (sty := sty) (a := a) (q := q) (.punct p!".")
  exact Run.bind (run_current h1) (Run.bind hw (Run.iteF hv.1 (Run.iteF hv.2.1 (Run.iteF (fun hh => hv.2.2 hh.1) h))))

/-- A primary expression that starts with the token `t`. -/
theorem primary_ok {v : TokVal} (h1 : Next sty a t c) (hv : t.value = v) (hp : plainHead v = true)
    (hi : isIdentTok (.ok t) ctx.kw = false) (hs : From sty a b e.span)
    (hn : v ∉ [.keyword k!"super", .keyword k!"new", .keyword k!"import"])
    (h : Ends sty ctx 21 b → ∀ n q, Run sty (primaryExpr (mkRec n) ctx) a q e b b.fin) : ExprOK sty ctx 21 e a b :=
  { Base.tok h1 (headTok_plain (hv ▸ hp)) (fun _ => hi) hs with
    cps := nofun
    run := fun _ he n q => run_terminal h1 (hv ▸ hn) (h he n q) }

theorem this_ok (h1 : Next sty a t b) (hv : t.value = .keyword k!"this") : ExprOK sty ctx 21 (.this t.span) a b :=
  primary_ok h1 hv rfl (reserved_not_ident rfl hv) (From.of_tok h1) (by decide) fun _ n q => by
    refine Run.bind (run_current h1) ?_
    simp only [hv]
    have := run_assert (q := q) h1
    rw [hv] at this
    exact Run.bind this (Run.pure _)

theorem null_ok (h1 : Next sty a t b) (hv : t.value = .keyword k!"null") :
    ExprOK sty ctx 21 (.literal t.span .null) a b :=
  primary_ok h1 hv rfl (reserved_not_ident rfl hv) (From.of_tok h1) (by decide) fun _ n q => by
    refine Run.bind (run_current h1) ?_
    simp only [hv]
    exact Run.bind (run_consume h1) (Run.pure _)

theorem true_ok (h1 : Next sty a t b) (hv : t.value = .keyword k!"true") :
    ExprOK sty ctx 21 (.literal t.span (.boolean true)) a b :=
  primary_ok h1 hv rfl (reserved_not_ident rfl hv) (From.of_tok h1) (by decide) fun _ n q => by
    refine Run.bind (run_current h1) ?_
    simp only [hv]
    exact Run.bind (run_consume h1) (Run.pure _)

theorem false_ok (h1 : Next sty a t b) (hv : t.value = .keyword k!"false") :
    ExprOK sty ctx 21 (.literal t.span (.boolean false)) a b :=
  primary_ok h1 hv rfl (reserved_not_ident rfl hv) (From.of_tok h1) (by decide) fun _ n q => by
    refine Run.bind (run_current h1) ?_
    simp only [hv]
    exact Run.bind (run_consume h1) (Run.pure _)

theorem plainHead_lit (l : TLit) : plainHead (.lit l) = true := by
  simp [plainHead, startVal, stmtWords, unaryOpOf, updateOpOf]

theorem literal_ok {l : TLit} (h1 : Next sty a t b) (hv : t.value = .lit l) :
    ExprOK sty ctx 21 (.literal t.span l.toLiteral) a b :=
  primary_ok h1 hv (plainHead_lit l) (lit_not_ident hv) (From.of_tok h1) (by simp) fun _ n q => by
    refine Run.bind (run_current h1) ?_
    simp only [hv]
    refine Run.bind (x := (t.span, l)) (Run.bind (run_consume h1) ?_) (Run.pure _)
    simp only [hv]
    exact Run.pure _

theorem identRef_ok (h1 : Next sty a t b) (h : IdentTok ctx t id) (ha : t.value ≠ .keyword k!"async") :
    ExprOK sty ctx 21 (.ident id) a b := by
  have res : ∀ k : Keyword, k.allowedAsIdent ({} : Ctx).kw = false → t.value ≠ .keyword k := fun k hk => ident_not_reserved hk h
  have hyield : ctx.yield = true → t.value ≠ .keyword k!"yield" := by
    intro hy hv
    obtain ⟨v, f, s⟩ := t
    cases hv
    have hk := isIdentTok_of h
    simp [isIdentTok, Keyword.allowedAsIdent, Ctx.kw, hy] at hk
  have hawait : ctx.await = true → t.value ≠ .keyword k!"await" := by
    intro hy hv
    obtain ⟨v, f, s⟩ := t
    cases hv
    have hk := isIdentTok_of h
    simp [isIdentTok, Keyword.allowedAsIdent, Ctx.kw, hy] at hk
  have hp : ∀ p, t.value ≠ .punct p := fun p hp => by
    rcases ident_shape h with ⟨s, h⟩ | ⟨s, h⟩ <;> rw [hp] at h <;> cases h
  have hl : ∀ p, t.value ≠ .lit p := fun p hp => by
    rcases ident_shape h with ⟨s, h⟩ | ⟨s, h⟩ <;> rw [hp] at h <;> cases h
  have hth : ∀ p, t.value ≠ .templateHead p := fun p hp => by
    rcases ident_shape h with ⟨s, h⟩ | ⟨s, h⟩ <;> rw [hp] at h <;> cases h
  refine ⟨⟨⟨t, b, h1, ⟨?_, fun _ => hyield, fun _ h => absurd h ha, ?_, fun _ => hawait, ?_, ?_⟩⟩, ?_, ?_⟩, nofun,
    fun _ he n q => run_terminal h1 ?_ ?_⟩
  · simp only [startVal, stmtWords, List.cons_append, List.nil_append, List.mem_cons, List.not_mem_nil, or_false, not_or,
      decide_eq_true_eq]
    refine ⟨?_, ?_, ?_, ?_, ?_, ?_, ?_, ?_, ?_, ?_, ?_, ?_⟩
    all_goals first | exact hp _ | exact ⟨res _ rfl, res _ rfl, res _ rfl, res _ rfl, res _ rfl, res _ rfl, res _ rfl,
      res _ rfl, res _ rfl, res _ rfl, res _ rfl, res _ rfl, res _ rfl, res _ rfl, res _ rfl, res _ rfl, res _ rfl,
      res _ rfl, res _ rfl, res _ rfl⟩
  · intro _
    unfold unaryOpOf
    split <;> first | rfl | (rename_i hv; first | exact absurd hv (hp _) | exact absurd hv (res _ rfl))
  · intro _
    unfold updateOpOf
    split <;> first | rfl | (rename_i hv; first | exact absurd hv (hp _) | exact absurd hv (res _ rfl))
  · intro _ hh
    rcases hh with hh | hh
    · exact absurd hh (res _ rfl)
    · exact absurd hh (res _ rfl)
  · show From sty a b id.span
    rw [ident_span h]; exact From.of_tok h1
  · intro _ t' c' h1' _
    exact .inl (next_unique h1 h1').2
  · simp only [List.mem_cons, List.not_mem_nil, or_false, not_or]
    exact ⟨res _ rfl, res _ rfl, res _ rfl⟩
  · refine Run.bind (run_current h1) ?_
    split
    all_goals try (rename_i hv; first | exact absurd hv (hp _) | exact absurd hv (hl _) | exact absurd hv (hth _) |
      exact absurd hv (res _ rfl))
    obtain ⟨w, hw⟩ : ∃ w, Run sty followedByNewLine a q w a q := ⟨_, Run.gets rfl⟩
    refine Run.bind hw (Run.iteF (fun hh => ha hh.1) ?_)
    refine Run.ifT (q1 := q) (h1 := ?_) (Run.bind (run_parseIdent h1 h) (Run.pure _))
    have := run_isIdent (q := q) h1 {}
    cases hi : isIdentTok (.ok t) ({} : Ctx).kw with
    | true => rwa [hi] at this
    | false =>
      obtain ⟨v, f, s⟩ := t
      rcases ident_shape h with ⟨s', hs⟩ | ⟨k, hs⟩
      · cases hs; cases hi
      · exact absurd hs (res k (by cases hs; exact hi))

theorem From.tok_eq (hs : From sty a b sp) (h1 : Next sty a t b) : sp = t.span := by
  rw [From.eq hs h1, ← next_fin h1]

theorem templateE_ok (h : TemplateOK sty ctx ps a b) (hs : From sty a b sp) :
    ExprOK sty ctx 21 (.literal sp (.template ps)) a b := by
  obtain ⟨t, c, h1, h2⟩ := h.head
  unfold isTemplate at h2
  split at h2
  · rename_i s hv
    obtain ⟨rfl, rfl⟩ := h.plain t c s h1 hv
    rw [From.tok_eq hs h1]
    exact literal_ok h1 hv
  · rename_i s hv
    refine primary_ok h1 hv (by simp [plainHead, startVal, stmtWords, unaryOpOf, updateOpOf]) ?_ hs (by simp) fun _ n q => ?_
    · obtain ⟨v, f, s⟩ := t
      cases hv; rfl
    · refine Run.bind (run_current h1) ?_
      simp only [hv]
      rw [From.eq hs h1]
      exact Run.bind (run_position h1) (Run.bind (h.run n q) (Run.bind (run_spanFrom _) (Run.pure _)))
  · cases h2

theorem templatePlain_ok {s : Str} (h : Tok sty (.lit (.template s)) a b) : TemplateOK sty ctx [.string s] a b := by
  obtain ⟨t, h1, hv⟩ := h
  refine ⟨⟨t, b, h1, by rw [hv]; rfl⟩, fun t' c s' h1' hv' => ?_, fun n q => ?_⟩
  · obtain ⟨rfl, rfl⟩ := next_unique h1 h1'
    rw [hv] at hv'; cases hv'
    exact ⟨rfl, rfl⟩
  · refine Run.bind (run_current h1) (Run.iteT (by rw [hv]; rfl) ?_)
    refine Run.bind (run_consume h1) ?_
    simp only [hv]
    exact Run.pure _

/-- Tokens at the end of an expression in brackets. -/
theorem ends_close {v : TokVal} {k : Nat} (h : Tok sty v a b)
    (hv : v ∈ [.punct p!")", .punct p!"]", .punct p!"}", .punct p!":", .punct p!";"]) :
    Ends sty ctx k a := by
  refine Ends.of_tok h fun t ht l hl => ?_
  obtain ⟨w, f, s⟩ := t
  cases ht
  simp only [List.mem_cons, List.not_mem_nil, or_false] at hv
  rcases hv with rfl | rfl | rfl | rfl | rfl <;> cases hl

theorem ends_comma {k : Nat} (h : Sym sty p!"," a b) : Ends sty ctx (k + 1) a := by
  refine Ends.of_tok h fun t ht l hl => ?_
  obtain ⟨w, f, s⟩ := t
  cases ht
  cases hl
  exact Nat.succ_pos k

theorem startVal_ne {v w : TokVal} (h : startVal v = true) (hw : startVal w = false) : v ≠ w := by
  rintro rfl; rw [h] at hw; cases hw

theorem paren_ok (h1 : Sym sty p!"(" a m) (h2 : ExprOK sty { ctx with in_ := true } 0 e m o) (h3 : Sym sty p!")" o b)
    (hs : From sty a b sp) : ExprOK sty ctx 21 (.paren sp e) a b := by
  obtain ⟨t, hn, hv⟩ := h1
  obtain ⟨u, c, hu, hh⟩ := h2.head
  refine primary_ok hn hv rfl (punct_not_ident hv) hs (by decide) fun he n q => ?_
  refine Run.bind (run_current hn) ?_
  simp only [hv]
  refine Run.bind (run_current hn) (Run.ifF (run_peekF hn ((look_iff hu).2 (startVal_ne hh.start (by decide)))) ?_)
  refine Run.attempt (x := .paren sp e) ?_ (Run.ifF (run_curF (ends_arrow he (by decide))) (Run.pure _))
  rw [From.eq hs hn]
  exact Run.bind (run_position hn) (Run.assert ⟨t, hn, hv⟩ (Run.bind (h2.parse (ends_close h3 (by simp)) n _)
    (Run.assert h3 (Run.bind (run_spanFrom _) (Run.pure _)))))

/-! ## Arrays and objects -/

theorem array_ok {es : List ArrayElement} (h1 : Sym sty p!"[" a m) (h2 : ElementsOK sty ctx es m b) (hs : From sty a b sp) :
    ExprOK sty ctx 21 (.literal sp (.array es)) a b := by
  obtain ⟨t, hn, hv⟩ := h1
  refine primary_ok hn hv rfl (punct_not_ident hv) hs (by decide) fun he n q => ?_
  refine Run.bind (run_current hn) ?_
  simp only [hv]
  rw [From.eq hs hn]
  exact Run.bind (run_position hn) (Run.assert ⟨t, hn, hv⟩ (Run.bind (h2 n _ _ [])
    (Run.bind (run_spanFrom _) (Run.pure _))))

theorem elementsEnd_ok (h : Sym sty p!"]" a b) : ElementsOK sty ctx [] a b := fun n k q acc => by
  rw [List.append_nil]
  exact Run.loop_end (Run.ifT (run_maybeT h) (Run.pure _)) k

theorem elementsHole_ok {es : List ArrayElement} (h : Sym sty p!"," a m) (h2 : ElementsOK sty ctx es m b) :
    ElementsOK sty ctx (.elision :: es) a b := fun n k q acc => by
  rw [List.append_cons]
  obtain ⟨t, hn, hv⟩ := h
  refine Run.loop_step (q1 := m.fin) (Run.ifF (run_maybeF ((look_iff hn).2 (by rw [hv]; nofun))) ?_) (fun k => h2 n k _ _) k
  refine Run.bind (x := .elision) (Run.bind (run_current hn) (Run.iteT hv (Run.bind (run_consume hn) (Run.pure _)))) ?_
  exact Run.iteT rfl (Run.pure _)

theorem elementsLast_ok {x : ArrayElement} (h : ElementOK sty ctx x a m) (h2 : Sym sty p!"]" m b) :
    ElementsOK sty ctx [x] a b := fun n k q acc => by
  obtain ⟨t, c, hn, hv⟩ := h.head
  refine Run.loop_step (q1 := m.fin) (Run.ifF (run_maybeF ((look_iff hn).2 hv)) ?_) (fun k => Run.loop_end
    (Run.ifT (run_maybeT h2) (Run.pure _)) k) k
  refine Run.bind (h.run (ends_close h2 (by simp)) n _) (Run.iteF (by rw [h.plain]; decide) ?_)
  exact Run.bind (run_delimEnd h2 nofun) (Run.pure _)

theorem elementsMore_ok {x : ArrayElement} {es : List ArrayElement} (h : ElementOK sty ctx x a m) (h2 : Sym sty p!"," m o)
    (h3 : ElementsOK sty ctx es o b) : ElementsOK sty ctx (x :: es) a b := fun n k q acc => by
  rw [List.append_cons]
  obtain ⟨t, c, hn, hv⟩ := h.head
  refine Run.loop_step (q1 := o.fin) (Run.ifF (run_maybeF ((look_iff hn).2 hv)) ?_) (fun k => h3 n k _ _) k
  refine Run.bind (h.run (ends_comma h2) n _) (Run.iteF (by rw [h.plain]; decide) ?_)
  exact Run.bind (run_delimComma h2) (Run.pure _)

theorem elementExpr_ok (h : ExprOK sty ctx 1 e a b) : ElementOK sty ctx (.expr e) a b := by
  obtain ⟨t, c, hn, hh⟩ := h.head
  refine ⟨⟨t, c, hn, startVal_ne hh.start (by decide)⟩, rfl, fun he n q => ?_⟩
  exact Run.bind (run_current hn) (Run.iteF (startVal_ne hh.start (by decide)) (Run.iteF (startVal_ne hh.start (by decide))
    (Run.bind (h.parse he n q) (Run.pure _))))

theorem elementSpread_ok (h1 : Sym sty p!"..." a m) (h : ExprOK sty ctx 1 e m b) : ElementOK sty ctx (.spread e) a b := by
  obtain ⟨t, hn, hv⟩ := h1
  refine ⟨⟨t, m, hn, by rw [hv]; nofun⟩, rfl, fun he n q => ?_⟩
  exact Run.bind (run_current hn) (Run.iteF (by rw [hv]; nofun) (Run.iteT hv (Run.bind (run_consume hn)
    (Run.bind (h.parse he n _) (Run.pure _)))))

theorem object_ok {es : List PropDef} (h1 : Sym sty p!"{" a m) (h2 : PropsOK sty ctx es m b) (hs : From sty a b sp) :
    ExprOK sty ctx 21 (.literal sp (.object es)) a b := by
  obtain ⟨t, hn, hv⟩ := h1
  refine primary_ok hn hv rfl (punct_not_ident hv) hs (by decide) fun he n q => ?_
  refine Run.bind (run_current hn) ?_
  simp only [hv]
  rw [From.eq hs hn]
  exact Run.bind (run_position hn) (Run.assert ⟨t, hn, hv⟩ (Run.bind (h2 n _ _ [])
    (Run.bind (run_spanFrom _) (Run.pure _))))

theorem propsEnd_ok (h : Sym sty p!"}" a b) : PropsOK sty ctx [] a b := fun n k q acc => by
  rw [List.append_nil]
  exact Run.loop_end (Run.ifT (run_maybeT h) (Run.pure _)) k

theorem propsLast_ok {x : PropDef} (h : PropOK sty ctx x a m) (h2 : Sym sty p!"}" m b) :
    PropsOK sty ctx [x] a b := fun n k q acc => by
  obtain ⟨t, c, hn, hv⟩ := h.head
  refine Run.loop_step (q1 := m.fin) (Run.ifF (run_maybeF ((look_iff hn).2 hv)) ?_) (fun k => Run.loop_end
    (Run.ifT (run_maybeT h2) (Run.pure _)) k) k
  refine Run.bind (h.run _ _ (.inr rfl) h2 n _) (Run.bind (run_curF (tok_ne h2 nofun)) (Run.iteF nofun ?_))
  exact Run.bind (run_delimEnd h2 nofun) (Run.pure _)

theorem propsMore_ok {x : PropDef} {es : List PropDef} (h : PropOK sty ctx x a m) (h2 : Sym sty p!"," m o)
    (h3 : PropsOK sty ctx es o b) : PropsOK sty ctx (x :: es) a b := fun n k q acc => by
  rw [List.append_cons]
  obtain ⟨t, c, hn, hv⟩ := h.head
  refine Run.loop_step (q1 := o.fin) (Run.ifF (run_maybeF ((look_iff hn).2 hv)) ?_) (fun k => h3 n k _ _) k
  refine Run.bind (h.run _ _ (.inl rfl) h2 n _) (Run.bind (run_curF (tok_ne h2 nofun)) (Run.iteF nofun ?_))
  exact Run.bind (run_delimComma h2) (Run.pure _)

theorem ends_item {v : TokVal} (h : v = .punct p!"," ∨ v = .punct p!"}") (h2 : Tok sty v a b) : Ends sty ctx 1 a := by
  rcases h with rfl | rfl
  · exact ends_comma h2
  · exact ends_close h2 (by simp)

theorem propSpread_ok (h1 : Sym sty p!"..." a m) (h : ExprOK sty ctx 1 e m b) : PropOK sty ctx (.spread e) a b := by
  obtain ⟨t, hn, hv⟩ := h1
  refine ⟨⟨t, m, hn, by rw [hv]; nofun⟩, fun v c hv' h2 n q => ?_⟩
  exact Run.bind (run_current hn) (Run.iteT hv (Run.bind (run_consume hn)
    (Run.bind (h.parse (ends_item hv' h2) n _) (Run.pure _))))

theorem propIdent_ok (h1 : Next sty a t b) (h : IdentTok ctx t id) (hsp : ¬ specialProp t) :
    PropOK sty ctx (.identRef id) a b := by
  have hp : ∀ p, t.value ≠ .punct p := fun p hp => by
    rcases ident_shape h with ⟨s, h⟩ | ⟨s, h⟩ <;> rw [hp] at h <;> cases h
  refine ⟨⟨t, b, h1, hp _⟩, fun v c hv' h2 n q => ?_⟩
  refine Run.bind (run_current h1) (Run.iteF (hp _) (Run.ifF (run_peekF h1 (tok_ne h2 ?_)) (Run.iteF (hp _) ?_)))
  · rcases hv' with rfl | rfl <;> nofun
  · refine Run.ifF (q1 := q) (Run.bind (run_peekF h1 (tok_ne h2 ?_)) (Run.bind (run_peekF h1 (tok_ne h2 ?_)) (Run.bind (run_curVal h1) ?_)))
      (Run.bind (run_parseIdent h1 h) (Run.pure _))
    · rcases hv' with rfl | rfl <;> nofun
    · rcases hv' with rfl | rfl <;> nofun
    · simp only [specialProp, List.mem_cons, List.not_mem_nil, or_false, not_or] at hsp
      split
      all_goals first | exact Run.pure _ | (rename_i hv; have hv := Option.some.inj hv; first
        | exact absurd hv (hp _) | (exfalso; simp_all; done))

theorem nameIdent_ok (h1 : Next sty a t b) (h : NameTok t id) : NameOK sty ctx (.ident id) a b := by
  have hp : ∀ p, t.value ≠ .punct p := fun p hp => by
    rcases name_shape h with ⟨s, h⟩ | ⟨s, h⟩ <;> rw [hp] at h <;> cases h
  have hl : ∀ p, t.value ≠ .lit p := fun p hp => by
    rcases name_shape h with ⟨s, h⟩ | ⟨s, h⟩ <;> rw [hp] at h <;> cases h
  refine ⟨⟨t, b, h1, .inl ⟨rfl, hp⟩⟩, fun n q => ?_⟩
  refine Run.bind (run_current h1) ?_
  split
  · rename_i hv; exact absurd hv (hl _)
  · rename_i hv; exact absurd hv (hp _)
  · exact Run.ifT (run_isIdentName h1 h) (Run.bind (run_parseIdentName h1 h) (Run.pure _))

theorem nameString_ok {s : LitString} (h1 : Next sty a t b) (h : t.value = .lit (.string s)) :
    NameOK sty ctx (.string s) a b := by
  refine ⟨⟨t, b, h1, .inl ⟨rfl, fun p => by rw [h]; nofun⟩⟩, fun n q => ?_⟩
  refine Run.bind (run_current h1) ?_
  simp only [h]
  refine Run.bind (run_consume h1) ?_
  simp only [h]
  exact Run.pure _

theorem nameNumber_ok {s : Str} (h1 : Next sty a t b) (h : t.value = .lit (.number s)) :
    NameOK sty ctx (.number s) a b := by
  refine ⟨⟨t, b, h1, .inl ⟨rfl, fun p => by rw [h]; nofun⟩⟩, fun n q => ?_⟩
  refine Run.bind (run_current h1) ?_
  simp only [h]
  refine Run.bind (run_consume h1) ?_
  simp only [h]
  exact Run.pure _

theorem nameComputed_ok (h1 : Sym sty p!"[" a m) (h2 : ExprOK sty ctx 1 e m o) (h3 : Sym sty p!"]" o b) :
    NameOK sty ctx (.computed e) a b := by
  obtain ⟨t, hn, hv⟩ := h1
  obtain ⟨u, c, hu, hh⟩ := h2.head
  refine ⟨⟨t, m, hn, .inr ⟨hv, (look_iff hu).2 (startVal_ne hh.start (by decide))⟩⟩, fun n q => ?_⟩
  refine Run.bind (run_current hn) ?_
  simp only [hv]
  exact Run.bind (run_consume hn) (Run.bind (h2.parse (ends_close h3 (by simp)) n _) (Run.assert h3 (Run.pure _)))

theorem propNamed_ok {x : PropName} (h1 : NameOK sty ctx x a m) (h2 : Sym sty p!":" m o) (h3 : ExprOK sty ctx 1 e o b)
    (hs : From sty a b sp) : PropOK sty ctx (.named sp x e) a b := by
  obtain ⟨t, c, hn, hh⟩ := h1.head
  have tail : ∀ n q, Ends sty ctx 1 b → Run sty (namedPropertyDefinition (mkRec n) ctx t.span.start x) m q (.named sp x e) b b.fin := by
    intro n q he
    rw [From.eq hs hn]
    exact Run.assert h2 (Run.bind (h3.parse he n _) (Run.bind (run_spanFrom _) (Run.pure _)))
  rcases hh with ⟨rfl, hd⟩ | ⟨hv, hl⟩
  · refine ⟨⟨t, c, hn, hd _⟩, fun v d hv' h' n q => ?_⟩
    exact Run.bind (run_current hn) (Run.iteF (hd _) (Run.ifT (run_peekT hn h2) (Run.bind (run_position hn)
      (Run.bind (h1.run n q) (tail n _ (ends_item hv' h'))))))
  · refine ⟨⟨t, c, hn, by rw [hv]; nofun⟩, fun v d hv' h' n q => ?_⟩
    exact Run.bind (run_current hn) (Run.iteF (by rw [hv]; nofun) (Run.ifF (run_peekF hn hl) (Run.iteT hv
      (Run.bind (run_position hn) (Run.bind (h1.run n q) (Run.ifT (run_curT h2) (tail n _ (ends_item hv' h'))))))))

end
end Complete
end Fajt
