import Verif.Proofs.CompleteBase
import Verif.Props.Tables
/-!
# Completeness: operators and levels
-/
namespace Fajt
open Spec
set_option linter.unusedSectionVars false
variable [UnicodeID]

namespace Complete
open Parser

/-! ## Tokens of operators -/

theorem symbol_inj {v w : TokVal} {s : Str} (h1 : symbol v = some s) (h2 : symbol w = some s) : v = w := by
  cases v <;> cases w <;> simp only [symbol, Option.some.injEq, reduceCtorEq] at h1 h2
  · rw [Props.C08_texts_differ Props.C08_keywords _ _ (h1.trans h2.symm)]
  · exact absurd (h1.trans h2.symm) (Props.C08_disjoint _ _)
  · exact absurd (h2.trans h1.symm) (Props.C08_disjoint _ _)
  · rw [Props.C08_texts_differ Props.C08_punctuators _ _ (h1.trans h2.symm)]

/-- The token of an operator. -/
def binTok : BinaryOp → TokVal
  | .plus => .punct p!"+" | .minus => .punct p!"-" | .mul => .punct p!"*" | .div => .punct p!"/" | .mod => .punct p!"%"
  | .exp => .punct p!"**" | .shl => .punct p!"<<" | .shr => .punct p!">>" | .ushr => .punct p!">>>" | .lt => .punct p!"<"
  | .gt => .punct p!">" | .le => .punct p!"<=" | .ge => .punct p!">=" | .instanceof => .keyword k!"instanceof"
  | .in_ => .keyword k!"in" | .eq => .punct p!"==" | .ne => .punct p!"!=" | .seq => .punct p!"===" | .sne => .punct p!"!=="
  | .bitAnd => .punct p!"&" | .bitXor => .punct p!"^" | .bitOr => .punct p!"|"

@[inherit_doc binTok]
def logTok : LogicalOp → TokVal
  | .and => .punct p!"&&" | .or => .punct p!"||" | .coalesce => .punct p!"??"

@[inherit_doc binTok]
def unTok : UnaryOp → TokVal
  | .delete => .keyword k!"delete" | .void => .keyword k!"void" | .typeof => .keyword k!"typeof" | .plus => .punct p!"+"
  | .minus => .punct p!"-" | .bitNot => .punct p!"~" | .not => .punct p!"!"

@[inherit_doc binTok]
def updTok : UpdateOp → TokVal
  | .incr => .punct p!"++" | .decr => .punct p!"--"

@[inherit_doc binTok]
def asgTok : AssignOp → TokVal
  | .assign => .punct p!"=" | .mul => .punct p!"*=" | .pow => .punct p!"**=" | .div => .punct p!"/=" | .mod => .punct p!"%="
  | .add => .punct p!"+=" | .sub => .punct p!"-=" | .shl => .punct p!"<<=" | .shr => .punct p!">>=" | .ushr => .punct p!">>>="
  | .bitAnd => .punct p!"&=" | .bitXor => .punct p!"^=" | .bitOr => .punct p!"|="

theorem binTok_of {v : TokVal} {op : BinaryOp} (h : symbol v = some op.asStr) : v = binTok op :=
  symbol_inj h (by cases op <;> rfl)
theorem logTok_of {v : TokVal} {op : LogicalOp} (h : symbol v = some op.asStr) : v = logTok op :=
  symbol_inj h (by cases op <;> rfl)
theorem unTok_of {v : TokVal} {op : UnaryOp} (h : symbol v = some op.asStr) : v = unTok op :=
  symbol_inj h (by cases op <;> rfl)
theorem updTok_of {v : TokVal} {op : UpdateOp} (h : symbol v = some op.asStr) : v = updTok op :=
  symbol_inj h (by cases op <;> rfl)
theorem asgTok_of {v : TokVal} {op : AssignOp} (h : symbol v = some op.asStr) : v = asgTok op :=
  symbol_inj h (by cases op <;> rfl)

theorem unaryOpOf_tok (op : UnaryOp) : unaryOpOf (unTok op) = some op := by cases op <;> rfl
theorem updateOpOf_tok (op : UpdateOp) : updateOpOf (updTok op) = some op := by cases op <;> rfl
theorem assignOpOf_tok (op : AssignOp) : assignOpOf (asgTok op) = some op := by cases op <;> rfl

/-! ## Levels -/

/-- The parser function of a level. -/
def lv (r : Rec) (ctx : Ctx) : Nat → P Expr
  | 0 => expr r ctx
  | 1 => r.assignExpr ctx
  | 2 => conditionalExpr r ctx
  | 3 => shortCircuitExpr r ctx
  | 4 => logicalOrExpr r ctx
  | 5 => logicalAndExpr r ctx
  | 6 => bitwiseOrExpr r ctx
  | 7 => bitwiseXorExpr r ctx
  | 8 => bitwiseAndExpr r ctx
  | 9 => equalityExpr r ctx
  | 10 => relationalExpr r ctx
  | 11 => shiftExpr r ctx
  | 12 => additiveExpr r ctx
  | 13 => multiplicativeExpr r ctx
  | 14 => exponentiationExpr r ctx
  | 15 => r.unary ctx
  | 16 => updateExpr r ctx
  | 17 => leftHandSideExpr r ctx
  | 18 => callOrMemberExpr r ctx
  | 19 => callOrMemberExpr r ctx
  | 20 => newOrMember r ctx
  | _ => memberExprFromTerminal r ctx

/-- The body of the loop of binary expressions. -/
def binBody {α : Type} (next : P Expr) (mapOp : TokVal → Option α) (create : Span → Expr → Expr → α → Expr) (start : Nat) :
    Expr → P (Expr ⊕ Expr) := fun e => do
  match (← curVal?).bind mapOp with
  | some op => do
    let _ ← consume
    let right ← next
    let span ← spanFrom start
    pure (.inl (create span e right op))
  | none => pure (.inr e)

/-- The body of the loop of member expressions. -/
def nmBody (r : Rec) (ctx : Ctx) (start : Nat) : Expr → P (Expr ⊕ Expr) := fun e => do
  match ← curVal? with
  | some (.punct p!".") | some (.punct p!"[") => do
    let e ← memberExprRightSide r ctx start (.expr e)
    pure (.inl e)
  | some (.templateHead _) | some (.lit (.template _)) => do
    let e ← taggedTemplate r ctx start e
    pure (.inl e)
  | _ => pure (.inr e)

@[inherit_doc binBody]
def lvBody (r : Rec) (ctx : Ctx) (start : Nat) : Nat → Expr → P (Expr ⊕ Expr)
  | 3 => binBody (lv r ctx 4) coalesceOpOf (fun sp x y op => .logical sp op x y) start
  | 4 => binBody (lv r ctx 5) orOpOf (fun sp x y op => .logical sp op x y) start
  | 5 => binBody (lv r ctx 6) andOpOf (fun sp x y op => .logical sp op x y) start
  | 6 => binBody (lv r ctx 7) bitOrOpOf (fun sp x y op => .binary sp op x y) start
  | 7 => binBody (lv r ctx 8) bitXorOpOf (fun sp x y op => .binary sp op x y) start
  | 8 => binBody (lv r ctx 9) bitAndOpOf (fun sp x y op => .binary sp op x y) start
  | 9 => binBody (lv r ctx 10) eqOpOf (fun sp x y op => .binary sp op x y) start
  | 10 => binBody (lv r ctx 11) (relOpOf ctx.in_) (fun sp x y op => .binary sp op x y) start
  | 11 => binBody (lv r ctx 12) shiftOpOf (fun sp x y op => .binary sp op x y) start
  | 12 => binBody (lv r ctx 13) addOpOf (fun sp x y op => .binary sp op x y) start
  | 13 => binBody (lv r ctx 14) mulOpOf (fun sp x y op => .binary sp op x y) start
  | 20 => nmBody r ctx start
  | _ => binBody (lv r ctx 15) expOpOf (fun sp x y op => .binary sp op x y) start

theorem lv_eq (r : Rec) (ctx : Ctx) {l : Nat} (h3 : 3 ≤ l) (h14 : l ≤ 14) :
    lv r ctx l = (position >>= fun s => lv r ctx (l + 1) >>= fun e => loop (lvBody r ctx s l) r.fuel e) := by
  have : l ∈ [3, 4, 5, 6, 7, 8, 9, 10, 11, 12, 13, 14] := by simp only [List.mem_cons, List.not_mem_nil, or_false]; omega
  simp only [List.mem_cons, List.not_mem_nil, or_false] at this
  rcases this with rfl | rfl | rfl | rfl | rfl | rfl | rfl | rfl | rfl | rfl | rfl | rfl <;> rfl

section
variable {sty : SourceType} {a b c m o : Point} {q q' : Nat} {t : Token} {ctx : Ctx} {α : Type}

theorem binBody_step {next : P Expr} {mapOp : TokVal → Option α} {create : Span → Expr → Expr → α → Expr} {start : Nat}
    {op : α} {x y : Expr} (h : Next sty m t o) (hop : mapOp t.value = some op) (hy : ∀ q, Run sty next o q y b b.fin) :
    Run sty (binBody next mapOp create start x) m q (.inl (create ⟨start, b.fin⟩ x y op)) b b.fin := by
  refine Run.bind (run_curVal h) ?_
  simp only [Option.bind_some, hop]
  exact Run.bind (run_consume h) (Run.bind (hy _) (Run.bind (run_spanFrom _) (Run.pure _)))

theorem binBody_end {next : P Expr} {mapOp : TokVal → Option α} {create : Span → Expr → Expr → α → Expr} {start : Nat}
    {x : Expr} (h : Look sty b (fun t => mapOp t.value = none)) :
    Run sty (binBody next mapOp create start x) b q (.inr x) b q := by
  rcases next_or_none sty b with ⟨t, d, hn⟩ | ⟨hn, -⟩
  · refine Run.bind (run_curVal hn) ?_
    simp only [Option.bind_some, h t d hn]
    exact Run.pure _
  · exact Run.bind (run_curVal_none hn) (Run.pure _)

theorem lvBody_binary {r : Rec} {start : Nat} {op : BinaryOp} {x y : Expr} (h : Next sty m t o)
    (hop : symbol t.value = some op.asStr) (hin : op = .in_ → ctx.in_ = true)
    (hy : ∀ q, Run sty (lv r ctx (binaryLevel op + 1)) o q y b b.fin) :
    Run sty (lvBody r ctx start (binaryLevel op) x) m q (.inl (.binary ⟨start, b.fin⟩ op x y)) b b.fin := by
  have hv := binTok_of hop
  have key : ∀ (mapOp : TokVal → Option BinaryOp), mapOp (binTok op) = some op →
      Run sty (binBody (lv r ctx (binaryLevel op + 1)) mapOp (fun sp x y op => Expr.binary sp op x y) start x) m q
        (.inl (.binary ⟨start, b.fin⟩ op x y)) b b.fin := fun mapOp hm => binBody_step h (by rw [hv]; exact hm) hy
  cases op
  case bitOr => exact key bitOrOpOf rfl
  case bitXor => exact key bitXorOpOf rfl
  case bitAnd => exact key bitAndOpOf rfl
  case eq => exact key eqOpOf rfl
  case ne => exact key eqOpOf rfl
  case seq => exact key eqOpOf rfl
  case sne => exact key eqOpOf rfl
  case lt => exact key (relOpOf ctx.in_) rfl
  case gt => exact key (relOpOf ctx.in_) rfl
  case le => exact key (relOpOf ctx.in_) rfl
  case ge => exact key (relOpOf ctx.in_) rfl
  case instanceof => exact key (relOpOf ctx.in_) rfl
  case in_ => exact key (relOpOf ctx.in_) (by rw [hin rfl]; rfl)
  case shl => exact key shiftOpOf rfl
  case shr => exact key shiftOpOf rfl
  case ushr => exact key shiftOpOf rfl
  case plus => exact key addOpOf rfl
  case minus => exact key addOpOf rfl
  case mul => exact key mulOpOf rfl
  case div => exact key mulOpOf rfl
  case mod => exact key mulOpOf rfl
  case exp => exact key expOpOf rfl

theorem lvBody_logical {r : Rec} {start : Nat} {op : LogicalOp} {x y : Expr} (h : Next sty m t o)
    (hop : symbol t.value = some op.asStr) (hy : ∀ q, Run sty (lv r ctx (logicalLevel op + 1)) o q y b b.fin) :
    Run sty (lvBody r ctx start (logicalLevel op) x) m q (.inl (.logical ⟨start, b.fin⟩ op x y)) b b.fin := by
  have hv := logTok_of hop
  have key : ∀ (mapOp : TokVal → Option LogicalOp), mapOp (logTok op) = some op →
      Run sty (binBody (lv r ctx (logicalLevel op + 1)) mapOp (fun sp x y op => Expr.logical sp op x y) start x) m q
        (.inl (.logical ⟨start, b.fin⟩ op x y)) b b.fin := fun mapOp hm => binBody_step h (by rw [hv]; exact hm) hy
  cases op
  · exact key andOpOf rfl
  · exact key orOpOf rfl
  · exact key coalesceOpOf rfl

theorem binary_cont {op : BinaryOp} (hop : symbol t.value = some op.asStr) (hin : op = .in_ → ctx.in_ = true) :
    contLevel ctx t = some (binaryLevel op) := by
  have hv := binTok_of hop
  obtain ⟨v, f, s⟩ := t
  cases hv
  cases op <;> try rfl
  simp only [contLevel, hin rfl, if_true]
  rfl

theorem logical_cont {op : LogicalOp} (hop : symbol t.value = some op.asStr) :
    contLevel ctx t = some (logicalLevel op) := by
  have hv := logTok_of hop
  obtain ⟨v, f, s⟩ := t
  cases hv
  cases op <;> rfl

theorem assign_cont {op : AssignOp} (hop : symbol t.value = some op.asStr) : contLevel ctx t = some 1 := by
  have hv := asgTok_of hop
  obtain ⟨v, f, s⟩ := t
  cases hv
  cases op <;> rfl

theorem update_cont {op : UpdateOp} (hop : symbol t.value = some op.asStr) (hf : t.fol = false) :
    contLevel ctx t = some 16 := by
  have hv := updTok_of hop
  obtain ⟨v, f, s⟩ := t
  cases hv; cases hf
  cases op <;> rfl

theorem assignOpOf_some {v : TokVal} {op : AssignOp} (h : assignOpOf v = some op) : symbol v = some op.asStr := by
  unfold assignOpOf at h
  split at h <;> cases h <;> rfl

theorem updateOpOf_some {v : TokVal} {op : UpdateOp} (h : updateOpOf v = some op) : symbol v = some op.asStr := by
  unfold updateOpOf at h
  split at h <;> cases h <;> rfl

theorem not_none {β : Type} {o : Option β} (h : ∀ x, o ≠ some x) : o = none := by
  cases o with
  | none => rfl
  | some x => exact absurd rfl (h x)

theorem _root_.Fajt.Spec.Ends.mono {k l : Nat} (h : Ends sty ctx k a) (hkl : k ≤ l) : Ends sty ctx l a :=
  fun t b ht n hn => Nat.lt_of_lt_of_le (h t b ht n hn) hkl

theorem _root_.Fajt.Spec.Ends.of_tok {v : TokVal} {k : Nat} (h : Tok sty v a b)
    (hv : ∀ t : Token, t.value = v → ∀ l, contLevel ctx t = some l → l < k) : Ends sty ctx k a := tok_look h hv

theorem _root_.Fajt.Spec.Ends.of_next {k : Nat} (h : Next sty a t b) (hv : ∀ l, contLevel ctx t = some l → l < k) : Ends sty ctx k a :=
  (look_iff h).2 hv

/-- A token that continues level `l` does not follow where level `l` ends. -/
theorem _root_.Fajt.Spec.Ends.ne {v : TokVal} {k l : Nat} (h : Ends sty ctx k a) (hv : ∀ t : Token, t.value = v → contLevel ctx t = some l)
    (hl : k ≤ l) : Look sty a (fun t => t.value ≠ v) :=
  fun t b ht he => Nat.not_lt.2 hl (h t b ht l (hv t he))

theorem _root_.Fajt.Spec.Ends.punct {p : Punct} {k l : Nat} (h : Ends sty ctx k a) (hv : contLevel ctx ⟨.punct p, true, ⟨0, 0⟩⟩ = some l)
    (hl : k ≤ l) : Look sty a (fun t => t.value ≠ .punct p) :=
  h.ne (l := l) (fun t ht => by
    obtain ⟨v, f, s⟩ := t
    cases ht
    cases p <;> first | exact hv | (cases hv)) hl

theorem cont_of {P : TokVal → Prop} (l : Nat) (h : ∀ t : Token, P t.value → contLevel ctx t = some l) {k : Nat} (hk : k ≤ l)
    (he : Ends sty ctx k a) : Look sty a (fun t => ¬ P t.value) :=
  fun t b ht hp => Nat.not_lt.2 hk (he t b ht l (h t hp))

theorem lvBody_end {r : Rec} {start l : Nat} {x : Expr} (h3 : 3 ≤ l) (h14 : l ≤ 14) (h : Ends sty ctx l b) :
    Run sty (lvBody r ctx start l x) b q (.inr x) b q := by
  have aux : ∀ {α : Type} (mapOp : TokVal → Option α),
      (∀ t op, mapOp t.value = some op → contLevel ctx t = some l) → Look sty b (fun t => mapOp t.value = none) := by
    intro α mapOp hm t d ht
    exact not_none fun op hop => Nat.lt_irrefl _ (h t d ht l (hm t op hop))
  have : l ∈ [3, 4, 5, 6, 7, 8, 9, 10, 11, 12, 13, 14] := by simp only [List.mem_cons, List.not_mem_nil, or_false]; omega
  simp only [List.mem_cons, List.not_mem_nil, or_false] at this
  have bin : ∀ (mapOp : TokVal → Option BinaryOp), (∀ v op, mapOp v = some op →
      symbol v = some op.asStr ∧ binaryLevel op = l ∧ (op = .in_ → ctx.in_ = true)) →
      Run sty (binBody (lv r ctx (l + 1)) mapOp (fun sp x y op => Expr.binary sp op x y) start x) b q (.inr x) b q :=
      fun mapOp hm => binBody_end <| aux mapOp fun t op hop => by
    obtain ⟨h1, h2, h3⟩ := hm _ _ hop
    rw [binary_cont h1 h3, h2]
  have log : ∀ (mapOp : TokVal → Option LogicalOp), (∀ v op, mapOp v = some op →
      symbol v = some op.asStr ∧ logicalLevel op = l) →
      Run sty (binBody (lv r ctx (l + 1)) mapOp (fun sp x y op => Expr.logical sp op x y) start x) b q (.inr x) b q :=
      fun mapOp hm => binBody_end <| aux mapOp fun t op hop => by
    obtain ⟨h1, h2⟩ := hm _ _ hop
    rw [logical_cont h1, h2]
  rcases this with rfl | rfl | rfl | rfl | rfl | rfl | rfl | rfl | rfl | rfl | rfl | rfl
  · exact log coalesceOpOf fun v op h => by unfold coalesceOpOf at h; split at h <;> cases h; exact ⟨rfl, rfl⟩
  · exact log orOpOf fun v op h => by unfold orOpOf at h; split at h <;> cases h; exact ⟨rfl, rfl⟩
  · exact log andOpOf fun v op h => by unfold andOpOf at h; split at h <;> cases h; exact ⟨rfl, rfl⟩
  · exact bin bitOrOpOf fun v op h => by unfold bitOrOpOf at h; split at h <;> cases h; exact ⟨rfl, rfl, nofun⟩
  · exact bin bitXorOpOf fun v op h => by unfold bitXorOpOf at h; split at h <;> cases h; exact ⟨rfl, rfl, nofun⟩
  · exact bin bitAndOpOf fun v op h => by unfold bitAndOpOf at h; split at h <;> cases h; exact ⟨rfl, rfl, nofun⟩
  · exact bin eqOpOf fun v op h => by unfold eqOpOf at h; split at h <;> cases h <;> exact ⟨rfl, rfl, nofun⟩
  · exact bin (relOpOf ctx.in_) fun v op h => by
      unfold relOpOf at h
      split at h
      all_goals first
        | (cases h; exact ⟨rfl, rfl, nofun⟩)
        | (split at h
           · rename_i hi; cases h; exact ⟨rfl, rfl, fun _ => hi⟩
           · cases h)
        | cases h
  · exact bin shiftOpOf fun v op h => by unfold shiftOpOf at h; split at h <;> cases h <;> exact ⟨rfl, rfl, nofun⟩
  · exact bin addOpOf fun v op h => by unfold addOpOf at h; split at h <;> cases h <;> exact ⟨rfl, rfl, nofun⟩
  · exact bin mulOpOf fun v op h => by unfold mulOpOf at h; split at h <;> cases h <;> exact ⟨rfl, rfl, nofun⟩
  · exact bin expOpOf fun v op h => by unfold expOpOf at h; split at h <;> cases h; exact ⟨rfl, rfl, nofun⟩

end
end Complete
end Fajt
