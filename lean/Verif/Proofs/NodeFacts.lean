import Verif.Proofs.NodePlace
/-!
# What the derivation of a node says of the node
-/
namespace Fajt
open Spec
set_option linter.unusedSectionVars false

/-- Induction over derivations for facts about the node alone: the rules that pass a node on are skipped. -/
syntax "nodes" : tactic
macro_rules
  | `(tactic| nodes) => `(tactic| (
    case weaken ih => exact ih
    case newMember ih => exact ih
    case newLhs ih => exact ih
    case chainExpr ih => exact ih
    case itemStmt ih => exact ih
    case itemDecl ih => exact ih
    case arrowList ih => exact ih
    all_goals (intro n hn; first | (exfalso; cases hn; done) | (simp only [GNode.top, Option.some.injEq] at hn; subst hn))))

theorem spans_single (t : Token) : Spans t.span [t] := ⟨t, t, rfl, rfl, rfl⟩

theorem nameTok_span {t : Token} {id : Ident} (h : NameTok t id) : id.span = t.span := by cases h <;> rfl
theorem identTok_span {ctx : Ctx} {t : Token} {id : Ident} (h : IdentTok ctx t id) : id.span = t.span := by cases h <;> rfl

theorem Spec.D.span {E : GEnv} {ctx : Ctx} {g : GNode} {us : List Token} (h : D E ctx g us) :
    ∀ n, g.top = some n → ∀ sp, n.span? = some sp → Spans sp us := by
  induction h
  nodes
  all_goals try (intro sp hs; simp only [Node.span?, exprSpan, stmtSpan, Option.some.injEq, reduceCtorEq] at hs; subst hs)
  all_goals try assumption
  all_goals try exact spans_single _
  all_goals try (rw [identTok_span ‹_›]; exact spans_single _)
  all_goals try (rw [nameTok_span ‹_›]; exact spans_single _)
  case blockS b _ _ ih => cases b; exact ih _ rfl _ rfl
  case forInitExpr ih => exact ih _ rfl _ rfl
  case forDeclExpr ih => exact ih _ rfl _ rfl
  case forDeclPattern p _ _ ih => cases p <;> exact ih (.assignPattern _) rfl
  all_goals (intro sp hs; cases hs)

/-! ## Binding strength -/

theorem level_le {a b c : Nat} (h : a ≤ b) (h' : b ≤ c) : a ≤ c := Nat.le_trans h h'

/-- The level of the symbol is at most the level of its expression. -/
def levelFact : GNode → Prop
  | .expr l e => l ≤ level e
  | .newE e => 18 ≤ level e
  | .chain e => level e = 17
  | _ => True

theorem Spec.D.level {E : GEnv} {ctx : Ctx} {g : GNode} {us : List Token} (h : D E ctx g us) : levelFact g := by
  induction h
  case weaken h ih => exact Nat.le_trans h ih
  case member hl _ _ _ ih _ =>
    show _ ≤ min 20 _
    simp only [levelFact] at ih
    omega
  case tagged ih _ => 
    show _ ≤ min 20 _
    simp only [levelFact] at ih
    omega
  case taggedCall ih => 
    show _ ≤ min 20 _
    simp only [levelFact] at ih
    omega
  case newMember ih => simp only [levelFact] at *; omega
  case chainExpr ih => simp only [levelFact] at *; omega
  all_goals try exact trivial
  all_goals try exact Nat.le_refl _
  all_goals try assumption
  all_goals try rfl

theorem Spec.D.operands {E : GEnv} {ctx : Ctx} {g : GNode} {us : List Token} (h : D E ctx g us) :
    ∀ n, g.top = some n → ∀ e, n = .expr e → OperandsBind e := by
  induction h
  nodes
  all_goals (intro e he; first | (exfalso; cases he; done) | (cases he))
  case member hl h1 _ _ _ _ =>
    have := h1.level
    simp only [levelFact] at this
    show 19 ≤ _
    omega
  case tagged h1 _ _ _ _ =>
    have := h1.level
    simp only [levelFact] at this
    show 19 ≤ _
    omega
  case chainFirstMember h1 _ _ _ _ _ =>
    have := h1.level
    simp only [levelFact] at this
    show 17 ≤ _
    omega
  case chainFirstCall h1 _ _ _ _ _ _ =>
    have := h1.level
    simp only [levelFact] at this
    show 17 ≤ _
    omega
  case chainMember o _ _ _ _ _ h1 _ _ _ _ =>
    have := h1.level
    simp only [levelFact] at this
    cases o <;> simp [OperandsBind, this]
  case chainOptCall h1 _ _ _ _ _ =>
    have := h1.level
    simp only [levelFact] at this
    show 17 ≤ _
    omega
  case chainCall h1 _ _ _ _ => exact h1.level
  case comma h1 _ _ _ _ =>
    intro e he
    obtain ⟨us, hu⟩ := mem_trees he
    exact (h1 _ hu).level
  case arrow =>
    have h := ‹D E _ (.arrowBody _) _›
    cases h with
    | arrowExpr h => exact h.level
    | arrowBlock h => exact trivial
  case asyncArrow =>
    have h := ‹D E _ (.arrowBody _) _›
    cases h with
    | arrowExpr h => exact h.level
    | arrowBlock h => exact trivial
  all_goals try exact trivial
  all_goals try (have h1 := Spec.D.level ‹D _ _ (.expr _ _) _›; exact h1)
  all_goals try (have h1 := Spec.D.level ‹D _ _ (.newE _) _›; exact h1)
  case binary h1 _ _ h2 _ _ _ => exact ⟨h1.level, h2.level⟩
  case logical h1 _ h2 _ _ _ => exact ⟨h1.level, h2.level⟩
  case conditional h1 _ h2 _ h3 _ _ _ _ => exact ⟨h1.level, h2.level, h3.level⟩
  case assign h1 _ _ h2 _ _ _ => exact ⟨h1.level, h2.level⟩

/-! ## Rules for single nodes -/

/-- What the rules say of single nodes. -/
def ruleFact (E : GEnv) (ctx : Ctx) : Node → Prop
  | .expr (.unary _ op e) => op = .delete → DeleteOK ctx.strict e
  | .expr (.assign _ op (.pattern _) _) => op = .assign
  | .expr (.await _ _) => ctx.await = true
  | .expr (.yield _ _ _) => ctx.yield = true
  | .expr (.member _ (.super _) _) => ctx.inMethod = true
  | .expr (.call _ .super _ _) => ctx.superCall = true
  | .expr (.sequence _ es) => 2 ≤ es.length
  | .expr (.literal _ (.template ps)) => ps ≠ []
  | .expr (.tagged _ _ ps) => ps ≠ []
  | .stmt (.return _ _) => ctx.return_ = true
  | .stmt (.forOf _ _ _ _ asynchronous) => asynchronous = true → ctx.await = true
  | .stmt (.try _ _ h f) => h.isSome = true ∨ f.isSome = true
  | .stmt (.variable (.mk _ _ ds)) => ds ≠ []
  | .stmt (.importDecl _ _ _ _ _) => E.isModule
  | .stmt (.exportDecl _) => E.isModule
  | .forInit (.declaration (.mk _ _ ds)) => ds ≠ []
  | .varDecl (.mk _ p init) => init = none → ∃ id, p = .ident id
  | .method (.mk _ _ k ps (.mk _ ds _) _ _ _) => ParamsOK k ps ds
  | _ => True

theorem Spec.Sep.ne_nil {α : Type} {b : Bool} {ps : List (α × List Token)} {ts : List Token} (h : Sep b ps ts) (hb : b = false) : trees ps ≠ [] := by
  cases h with
  | nil => cases hb
  | item h => simp [trees]
  | comma h _ => cases hb

theorem varDecls_ne {E : GEnv} {ctx : Ctx} {ds : List VarDecl} {ts : List Token} (h : D E ctx (.varDecls ds) ts) : ds ≠ [] := by
  cases h with
  | varDecls _ h => exact h.ne_nil rfl

theorem templateRest_ne {E : GEnv} {ctx : Ctx} {ps : List TemplatePart} {ts : List Token} (h : D E ctx (.templateRest ps) ts) : ps ≠ [] := by
  cases h <;> simp

theorem template_ne {E : GEnv} {ctx : Ctx} {ps : List TemplatePart} {ts : List Token} (h : D E ctx (.template ps) ts) : ps ≠ [] := by
  cases h with
  | templatePlain => simp
  | templateHead _ h => simp [templateRest_ne h]

theorem Spec.D.rule {E : GEnv} {ctx : Ctx} {g : GNode} {us : List Token} (h : D E ctx g us) : ∀ n, g.top = some n → ruleFact E ctx n := by
  induction h
  nodes
  all_goals try exact trivial
  all_goals try assumption
  all_goals try (subst_vars; assumption)
  all_goals try exact varDecls_ne ‹_›
  all_goals try exact template_ne ‹_›
  case taggedCall => simp [ruleFact]
  case assignPattern => rfl
  case comma => simpa [ruleFact, trees] using ‹2 ≤ _›
  case tryCatch => exact .inl rfl
  case tryFinally => exact .inr rfl
  case tryBoth => exact .inl rfl
  case forOf => intro h; cases h
  case forAwait => intro h; assumption

/-! ## Assignment targets -/

theorem target_ok {E : GEnv} {ctx : Ctx} {t : PatternOrExpr} {ts : List Token} (h : D E ctx (.target t) ts) :
    ∀ e ∈ targetExpr t, TargetOK ctx.strict e := by
  cases h with
  | targetPattern => intro e he; cases he
  | targetExpr _ h => intro e he; simp only [targetExpr, List.mem_cons, List.not_mem_nil, or_false] at he; subst he; exact h

theorem Spec.D.targets {E : GEnv} {ctx : Ctx} {g : GNode} {us : List Token} (h : D E ctx g us) :
    ∀ n, g.top = some n → ∀ e ∈ n.targets, TargetOK ctx.strict e := by
  induction h
  nodes
  all_goals try (intro e he; exact absurd he List.not_mem_nil)
  all_goals try (intro e he; simp only [Node.targets, Spec.targetExpr, Option.toList, List.flatMap_cons, List.flatMap_nil, List.append_nil, List.mem_cons, List.not_mem_nil, or_false] at he; first | (subst he; assumption) | exact target_ok ‹_› e he)

/-! ## Identifiers -/

/-- The identifier is the token, in a context with these flags. -/
def IdWord (w : WordCtx) (t : Token) (id : Ident) : Prop := IdentTok { strict := w.strict, yield := w.yield, await := w.await } t id

theorem identTok_word {ctx : Ctx} {t : Token} {id : Ident} (h : IdentTok ctx t id) : IdWord ⟨ctx.strict, ctx.yield, ctx.await⟩ t id := by
  cases h with
  | ident h => exact .ident h
  | keyword h h' => exact .keyword h h'

/-- The identifier is one of the tokens, or a missing name. -/
def IdOK (us : List Token) (q : Ident × WordCtx) : Prop := (∃ t ∈ us, IdWord q.2 t q.1) ∨ q.1.name = []

theorem importRest_ids {ctx : Ctx} {n : Option Ident} {is : Option (List NamedImport)} {ts : List Token} (h : ImportRest ctx n is ts) :
    ∀ id ∈ n.toList ++ (is.map aliases).getD [], ∃ t ∈ ts, IdentTok ctx t id := by
  cases h with
  | «namespace» _ _ h =>
    intro id hid
    simp at hid; subst hid
    exact ⟨_, by simp, h⟩
  | named h =>
    intro id hid
    cases h with
    | intro hl h hs hr =>
      simp only [Option.toList, Option.map_some, Option.getD_some, List.nil_append, aliases, List.mem_filterMap] at hid
      obtain ⟨i, hi, ha⟩ := hid
      obtain ⟨us, hu⟩ := mem_trees hi
      have h1 := h _ hu
      have h2 : us <:+: _ := Sep.infix hs hu
      cases h1 with
      | plain => cases ha
      | renamed _ _ h3 _ =>
        cases ha
        refine ⟨_, ?_, h3⟩
        have := h2.subset (List.mem_cons_of_mem _ (List.mem_cons_of_mem _ (List.mem_cons_self ..)))
        simp [this]

theorem importClause_ids {ctx : Ctx} {d n : Option Ident} {is : Option (List NamedImport)} {ts : List Token}
    (h : ImportClause ctx d n is ts) :
    ∀ id ∈ d.toList ++ n.toList ++ (is.map aliases).getD [], ∃ t ∈ ts, IdentTok ctx t id := by
  cases h with
  | default h =>
    intro id hid
    simp at hid; subst hid
    exact ⟨_, by simp, h⟩
  | both h _ h' =>
    intro id hid
    rw [List.append_assoc, List.mem_append] at hid
    rcases hid with hid | hid
    · simp at hid; subst hid
      exact ⟨_, by simp, h⟩
    · obtain ⟨t, ht, hi⟩ := importRest_ids h' id hid
      exact ⟨t, by simp [ht], hi⟩
  | rest h => simpa using importRest_ids h

theorem IdOK.of {ctx : Ctx} {t : Token} {id : Ident} {us : List Token} (h : IdentTok ctx t id) (ht : t ∈ us) :
    IdOK us (id, ⟨ctx.strict, ctx.yield, ctx.await⟩) := .inl ⟨t, ht, identTok_word h⟩

theorem declName_ok {ctx : Ctx} {start : Nat} {id : Ident} {nm us : List Token} (h : DeclName ctx start id nm) (hs : nm ⊆ us) :
    IdOK us (id, ⟨ctx.strict, ctx.yield, ctx.await⟩) := by
  cases h with
  | ident h => exact .inl ⟨_, hs (by simp), identTok_word h⟩
  | none => exact .inr rfl

theorem Spec.D.identifiers {E : GEnv} {ctx : Ctx} {g : GNode} {us : List Token} (h : D E ctx g us) :
    ∀ n, g.top = some n → ∀ q ∈ n.identifiers ⟨ctx.strict, ctx.yield, ctx.await⟩, IdOK us q := by
  induction h
  nodes
  all_goals try (intro q hq; exact absurd hq List.not_mem_nil)
  all_goals try (intro q hq; simp only [Node.identifiers, List.mem_cons, List.not_mem_nil, or_false] at hq; subst hq; exact IdOK.of ‹_› (by simp))
  case functionDecl h _ _ _ _ _ _ =>
    intro q hq
    simp only [Node.identifiers, List.mem_cons, List.not_mem_nil, or_false] at hq; subst hq
    exact declName_ok h (by intro t ht; simp [ht])
  case asyncFunctionDecl h _ _ _ _ _ _ =>
    intro q hq
    simp only [Node.identifiers, List.mem_cons, List.not_mem_nil, or_false] at hq; subst hq
    exact declName_ok h (by intro t ht; simp [ht])
  case classDecl h _ _ _ _ =>
    intro q hq
    simp only [Node.identifiers, List.mem_cons, List.not_mem_nil, or_false] at hq; subst hq
    exact declName_ok h (by intro t ht; simp [ht])
  case importFrom h _ _ _ _ =>
    intro q hq
    simp only [Node.identifiers, List.mem_map] at hq
    obtain ⟨id, hid, rfl⟩ := hq
    obtain ⟨t, ht, hi⟩ := importClause_ids h id hid
    exact .inl ⟨t, by simp [ht], identTok_word hi⟩
  case function id _ _ _ _ _ _ _ _ _ h _ _ _ _ _ =>
    intro q hq
    cases id with
    | none => cases hq
    | some id =>
      simp only [Node.identifiers, List.mem_cons, List.not_mem_nil, or_false] at hq; subst hq
      obtain ⟨t, ht, rfl⟩ := h
      exact .inl ⟨t, by simp, identTok_word ht⟩
  case asyncFunction id _ _ _ _ _ _ _ _ _ _ _ h _ _ _ _ _ =>
    intro q hq
    cases id with
    | none => cases hq
    | some id =>
      simp only [Node.identifiers, List.mem_cons, List.not_mem_nil, or_false] at hq; subst hq
      obtain ⟨t, ht, rfl⟩ := h
      exact .inl ⟨t, by simp, identTok_word ht⟩
  case classE id _ _ _ _ _ _ h _ _ _ =>
    intro q hq
    cases id with
    | none => cases hq
    | some id =>
      simp only [Node.identifiers, List.mem_cons, List.not_mem_nil, or_false] at hq; subst hq
      obtain ⟨t, ht, rfl⟩ := h
      exact .inl ⟨t, by simp, identTok_word ht⟩

/-! ## First tokens -/

/-- The token may be the first one of an expression. -/
def Starts (t : Token) : Prop := t.value ≠ .punct p!"}" ∧ ∀ s, t.value ≠ .templateMiddle s ∧ t.value ≠ .templateTail s

theorem starts_punct {t : Token} {p : Punct} (h : t.value = .punct p) (hp : p ≠ p!"}") : Starts t := by
  refine ⟨?_, fun s => ?_⟩ <;> rw [h] <;> simp [hp]
theorem starts_keyword {t : Token} {k : Keyword} (h : t.value = .keyword k) : Starts t := by
  refine ⟨?_, fun s => ?_⟩ <;> rw [h] <;> simp
theorem starts_lit {t : Token} {l : TLit} (h : t.value = .lit l) : Starts t := by
  refine ⟨?_, fun s => ?_⟩ <;> rw [h] <;> simp
theorem starts_head {t : Token} {s : Str} (h : t.value = .templateHead s) : Starts t := by
  refine ⟨?_, fun s => ?_⟩ <;> rw [h] <;> simp
theorem starts_ident {ctx : Ctx} {t : Token} {id : Ident} (h : IdentTok ctx t id) : Starts t := by
  cases h with
  | ident h => refine ⟨?_, fun s => ?_⟩ <;> rw [h] <;> simp
  | keyword h _ => exact starts_keyword h
theorem starts_name {t : Token} {id : Ident} (h : NameTok t id) : Starts t := by
  cases h with
  | ident h => refine ⟨?_, fun s => ?_⟩ <;> rw [h] <;> simp
  | keyword h => exact starts_keyword h
theorem starts_symbol {t : Token} {s : Str} (h : symbol t.value = some s) (hs : s ≠ c!"}") : Starts t := by
  unfold symbol at h
  split at h
  · rename_i p hp
    refine starts_punct hp ?_
    rintro rfl
    cases h
    exact hs rfl
  · rename_i k hk
    exact starts_keyword hk
  · cases h

/-- There is a first token and it may start an expression. -/
def firstFact : GNode → List Token → Prop
  | .expr _ _, ts | .newE _, ts | .chain _, ts | .template _, ts | .params _, ts | .arrowParams _ _, ts | .assignPattern _, ts | .propName _, ts => ∃ t us, ts = t :: us ∧ Starts t
  | _, _ => True

theorem unary_ne (op : UnaryOp) : op.asStr ≠ c!"}" := by cases op <;> decide
theorem update_ne (op : UpdateOp) : op.asStr ≠ c!"}" := by cases op <;> decide

theorem first_left {ts us : List Token} (h : ∃ t vs, ts = t :: vs ∧ Starts t) : ∃ t vs, ts ++ us = t :: vs ∧ Starts t := by
  obtain ⟨t, vs, rfl, h⟩ := h
  exact ⟨t, _, rfl, h⟩

theorem Spec.Sep.first {α : Type} {b : Bool} {ps : List (α × List Token)} {ts : List Token} (h : Spec.Sep b ps ts)
    (hp : ∀ p ∈ ps, ∃ t vs, p.2 = t :: vs ∧ Starts t) :
    (ts = [] ∧ b = Bool.true) ∨ ∃ t vs, ts = t :: vs ∧ Starts t := by
  induction h with
  | nil => exact .inl ⟨rfl, rfl⟩
  | item h ih =>
    right
    rcases ih (fun p hp' => hp p (List.mem_append_left _ hp')) with ⟨rfl, _⟩ | h
    · exact hp (_, _) (List.mem_append_right _ (List.mem_cons_self ..))
    · exact first_left h
  | comma h _ ih =>
    right
    rcases ih hp with ⟨_, h⟩ | h
    · cases h
    · exact first_left h

theorem Spec.D.first {E : GEnv} {ctx : Ctx} {g : GNode} {us : List Token} (h : D E ctx g us) : firstFact g us := by
  induction h
  all_goals try exact trivial
  all_goals try assumption
  all_goals try exact ⟨_, _, rfl, starts_keyword ‹_›⟩
  all_goals try exact ⟨_, _, rfl, starts_punct ‹_› (by decide)⟩
  all_goals try exact ⟨_, _, rfl, starts_lit ‹_›⟩
  all_goals try exact ⟨_, _, rfl, starts_head ‹_›⟩
  all_goals try exact ⟨_, _, rfl, starts_ident ‹_›⟩
  all_goals try exact ⟨_, _, rfl, starts_name ‹_›⟩
  all_goals try exact ⟨_, _, rfl, starts_symbol ‹_› (unary_ne _)⟩
  all_goals try exact ⟨_, _, rfl, starts_symbol ‹_› (update_ne _)⟩
  all_goals try exact first_left ‹_›
  all_goals try (simp only [List.append_assoc]; exact first_left ‹_›)
  case comma h _ _ ih =>
    rcases h.first ih with ⟨_, h⟩ | h
    · cases h
    · exact h

/-! ## Line breaks and semicolons -/

/-- The first token stands on the line of the token before it. -/
def Continues (ts : List Token) : Prop := ∃ t us, ts = t :: us ∧ t.fol = false ∧ Starts t

/-- What the rules say of the tokens of restricted productions and of the ends of statements. -/
def lineFact (E : GEnv) (us : List Token) : Node → Prop
  | .expr (.update _ op false e) => ∃ ts t, us = ts ++ [t] ∧ Spans (exprSpan e) ts ∧ symbol t.value = some op.asStr ∧ t.fol = false
  | .expr (.arrow _ _ _ (.mk psp _ _) _) => ∃ as ts t bs, us = as ++ (ts ++ t :: bs) ∧ Spans psp ts ∧ t.value = .punct p!"=>" ∧ t.fol = false
  | .expr (.yield _ (some e) false) => ∃ t ts, us = t :: ts ∧ t.value = .keyword k!"yield" ∧ Spans (exprSpan e) ts ∧ Continues ts
  | .expr (.yield _ (some _) true) => ∃ t s ts, us = t :: s :: ts ∧ t.value = .keyword k!"yield" ∧ s.value = .punct p!"*" ∧ s.fol = false
  | .expr (.function _ true _ _ _ _) => ∃ t s ts, us = t :: s :: ts ∧ t.value = .keyword k!"async" ∧ s.value = .keyword k!"function" ∧ s.fol = false
  | .stmt (.return _ (some e)) => ∃ t ts vs, us = t :: (ts ++ vs) ∧ t.value = .keyword k!"return" ∧ Spans (exprSpan e) ts ∧ Continues ts
  | .stmt (.throw _ e) => ∃ t ts vs, us = t :: (ts ++ vs) ∧ t.value = .keyword k!"throw" ∧ Spans (exprSpan e) ts ∧ Continues ts
  | .stmt (.break _ (some id)) => ∃ t l vs, us = t :: l :: vs ∧ t.value = .keyword k!"break" ∧ id.span = l.span ∧ l.fol = false ∧ Starts l
  | .stmt (.continue _ (some id)) => ∃ t l vs, us = t :: l :: vs ∧ t.value = .keyword k!"continue" ∧ id.span = l.span ∧ l.fol = false ∧ Starts l
  | .stmt (.expr _ e) => ∃ ts vs, us = ts ++ vs ∧ Spans (exprSpan e) ts ∧ Semi E ts vs
  | .stmt (.importDecl _ _ _ _ _) => ∃ ts vs, us = ts ++ vs ∧ ts ≠ [] ∧ Semi E ts vs
  | .stmt (.exportDecl (.defaultExpr _ e)) => ∃ as ts vs, us = as ++ ts ++ vs ∧ Spans (exprSpan e) ts ∧ Semi E (as ++ ts) vs
  | .stmt (.exportDecl (.named _ _ _)) => ∃ ts vs, us = ts ++ vs ∧ ts ≠ [] ∧ Semi E ts vs
  | .stmt (.exportDecl (.namespace _ _ _)) => ∃ ts vs, us = ts ++ vs ∧ ts ≠ [] ∧ Semi E ts vs
  | _ => True

theorem expr_span {E : GEnv} {ctx : Ctx} {l : Nat} {e : Expr} {ts : List Token} (h : D E ctx (.expr l e) ts) : Spans (exprSpan e) ts :=
  h.span _ rfl _ rfl

theorem continues {E : GEnv} {ctx : Ctx} {l : Nat} {e : Expr} {ts : List Token} (h : D E ctx (.expr l e) ts)
    (hf : ∀ u ∈ ts.head?, u.fol = false) : Continues ts := by
  obtain ⟨t, us, rfl, h'⟩ := h.first
  exact ⟨t, us, rfl, hf t rfl, h'⟩

theorem Spec.D.line {E : GEnv} {ctx : Ctx} {g : GNode} {us : List Token} (h : D E ctx g us) : ∀ n, g.top = some n → lineFact E us n := by
  induction h
  nodes
  case arrow ps _ _ _ _ h _ _ _ _ _ _ =>
    obtain ⟨psp, pb, pr⟩ := ps
    exact ⟨[], _, _, _, rfl, h.span _ rfl _ rfl, by assumption, by assumption⟩
  case asyncArrow ps _ _ _ _ _ h _ _ _ _ _ _ =>
    obtain ⟨psp, pb, pr⟩ := ps
    exact ⟨[_], _, _, _, rfl, h.span _ rfl _ rfl, by assumption, by assumption⟩
  all_goals try exact trivial
  case postfixUpdate => exact ⟨_, _, rfl, expr_span ‹_›, by assumption, by assumption⟩
  case yield => exact ⟨_, _, rfl, by assumption, expr_span ‹_›, continues ‹_› (by assumption)⟩
  case yieldStar => exact ⟨_, _, _, rfl, by assumption, by assumption, by assumption⟩
  case asyncFunction => exact ⟨_, _, _, rfl, by assumption, by assumption, by assumption⟩
  case returnExpr => exact ⟨_, _, _, rfl, by assumption, expr_span ‹_›, continues ‹_› (by assumption)⟩
  case throw => exact ⟨_, _, _, rfl, by assumption, expr_span ‹_›, continues ‹_› (by assumption)⟩
  case breakLabel => exact ⟨_, _, _, rfl, by assumption, identTok_span ‹_›, by assumption, starts_ident ‹_›⟩
  case continueLabel => exact ⟨_, _, _, rfl, by assumption, identTok_span ‹_›, by assumption, starts_ident ‹_›⟩
  case exprStmt => exact ⟨_, _, rfl, expr_span ‹_›, by assumption⟩
  case importModule => exact ⟨[_, _], _, rfl, by simp, by assumption⟩
  case importFrom h _ => exact ⟨_, _, by simp, by simp, h⟩
  case exportNamed => exact ⟨_ :: _, _, rfl, by simp, by assumption⟩
  case exportFrom h _ => exact ⟨_, _, by simp, by simp, h⟩
  case exportAll => exact ⟨[_, _, _, _], _, rfl, by simp, by assumption⟩
  case exportAllAs => exact ⟨[_, _, _, _, _, _], _, rfl, by simp, by assumption⟩
  case exportDefaultExpr => exact ⟨[_, _], _, _, rfl, expr_span ‹_›, by assumption⟩
end Fajt
