import Verif.Proofs.NodeProps
import Verif.Props.Parser
/-!
# Properties of the trees that the parser returns (C22 – C33, C35)

`Accepts styp src p` says that `parse_script` or `parse_module` returns `p`; `Path p (n :: ms)` says that `n` is a node of `p` and `ms`
the nodes around it, from the inside to the outside.  `along f top ns` computes a property of the place of the node from these nodes.
-/
set_option linter.unusedSectionVars false
namespace Fajt.Props
open Fajt Spec
variable [UnicodeID]

/-- A script is accepted and its tree satisfies a test (for examples). -/
def scriptHas (src : Str) (f : Program → Bool) : Bool := (resultOf (Parser.parseScript src)).any f

/-- A module is accepted and its tree satisfies a test (for examples). -/
def moduleHas (src : Str) (f : Program → Bool) : Bool := (resultOf (Parser.parseModule src)).any f

theorem scriptHas_accepts {src : Str} {f : Program → Bool} (h : scriptHas src f = true) : ∃ p, Accepts .script src p ∧ f p = true := by
  unfold scriptHas at h
  cases hr : Parser.parseScript src with
  | ok p s => rw [hr] at h; exact ⟨p, .script hr, h⟩
  | err e s => rw [hr] at h; cases h
  | panic w => rw [hr] at h; cases h
  | oof => rw [hr] at h; cases h

theorem moduleHas_accepts {src : Str} {f : Program → Bool} (h : moduleHas src f = true) : ∃ p, Accepts .module src p ∧ f p = true := by
  unfold moduleHas at h
  cases hr : Parser.parseModule src with
  | ok p s => rw [hr] at h; exact ⟨p, .module hr, h⟩
  | err e s => rw [hr] at h; cases h
  | panic w => rw [hr] at h; cases h
  | oof => rw [hr] at h; cases h

/-- A script is rejected (for examples). -/
def rejected (src : Str) : Bool := (errorOf (Parser.parseScript src)).isSome

/-- The only statement of a program. -/
theorem only_stmt {p : Program} {s : Stmt} (h : p.body = [s]) : Path p [.stmt s] := .root (by simp [h])

/-! ## C22: spans -/

/-- **C22**. The source consists of the tokens `ts`, `ts` derives the program, every node of the tree is derived from a contiguous part of
`ts`, and the span of the node goes from the start of the first token of this part to the end of its last token. -/
theorem C22_node_spans {styp : SourceType} {src : Str} {p : Program} (h : Accepts styp src p) :
    ∃ ts, SourceTokens [] true src ts ∧ IsProgram (sourceEnv src styp) p ts ∧
      ∀ n ms, Path p (n :: ms) → ∃ ctx us, us <:+: ts ∧ Derived (sourceEnv src styp) ctx n us ∧
        ∀ sp, n.span? = some sp → Spans sp us := by
  obtain ⟨ts, h1, h2⟩ := h.sound
  refine ⟨ts, h1, h2, fun n ms hp => ?_⟩
  obtain ⟨n', ms', e, ctx, us, ⟨g, h3, h4⟩, h5, h6⟩ := place h2 hp
  cases e
  exact ⟨ctx, us, h5, ⟨g, h3, h4⟩, h4.span _ h3⟩

theorem spans_covers {src : Str} {ts us : List Token} {sp : Span} (h : SourceTokens [] true src ts) (hi : us <:+: ts) (hs : Spans sp us) :
    CoversTokens src sp := by
  obtain ⟨a, b, h1, h2, rfl⟩ := hs
  cases us with
  | nil => cases h1
  | cons x us =>
    simp only [List.head?_cons, Option.some.injEq] at h1
    subst h1
    obtain ⟨l, r, rfl⟩ := hi
    rcases List.eq_nil_or_concat us with rfl | ⟨us', c, rfl⟩
    · simp at h2; subst h2
      obtain ⟨q, w, rest, hq⟩ := h.mem (t := x) (by simp)
      exact ⟨x, x, q, w, rest, q, w, rest, hq, hq, Nat.le_refl _, rfl⟩
    · rw [List.concat_eq_append] at h h2
      have e : b = c := by
        rw [show x :: (us' ++ [c]) = (x :: us') ++ [c] by simp, List.getLast?_concat] at h2
        simpa using h2.symm
      subst e
      have h3 : SourceTokens [] true src (l ++ x :: (us' ++ [b] ++ r)) := by simpa using h
      obtain ⟨pa, wa, mid, wb, rest, h4, h5, h6⟩ := h3.ordered (b := b) (by simp)
      exact ⟨x, b, _, _, _, _, _, _, h5, h6, by simp, rfl⟩

/-- **C22**, in terms of the source: the span of a node starts where the text of a token starts and ends where the text of a token, which
is not an earlier one, ends. -/
theorem C22_covers_tokens {styp : SourceType} {src : Str} {p : Program} (h : Accepts styp src p) {n : Node} {ms : List Node}
    (hp : Path p (n :: ms)) {sp : Span} (hs : n.span? = some sp) : CoversTokens src sp := by
  obtain ⟨ts, h1, h2, h3⟩ := C22_node_spans h
  obtain ⟨ctx, us, h4, h5, h6⟩ := h3 n ms hp
  exact spans_covers h1 h4 (h6 sp hs)

theorem ancestors {E : GEnv} {p : Program} {ts : List Token} (h : IsProgram E p ts) {ns : List Node} (hp : Path p ns) :
    ∃ n ms ctx us, ns = n :: ms ∧ Derived E ctx n us ∧ us <:+: ts ∧
      ∀ N ∈ ns, ∃ ctx' vs, Derived E ctx' N vs ∧ us <:+: vs ∧ vs <:+: ts := by
  induction hp with
  | @root s hs =>
    obtain ⟨n, ms, e, ctx, us, h1, h2, -⟩ := place h (Path.root hs)
    cases e
    refine ⟨_, _, ctx, us, rfl, h1, h2, ?_⟩
    intro N hN
    simp only [List.mem_cons, List.not_mem_nil, or_false] at hN
    subst hN
    exact ⟨ctx, us, h1, List.infix_refl _, h2⟩
  | step hp hc ih =>
    obtain ⟨n, ms, ctx, us, e, h1, h2, h3⟩ := ih
    cases e
    obtain ⟨ctx', us', h4, h5, -⟩ := h1.child hc
    refine ⟨_, _, ctx', us', rfl, h4, h5.trans h2, ?_⟩
    intro N hN
    rcases List.mem_cons.1 hN with rfl | hN
    · exact ⟨ctx', us', h4, List.infix_refl _, h5.trans h2⟩
    · obtain ⟨c, vs, h6, h7, h8⟩ := h3 N hN
      exact ⟨c, vs, h6, h5.trans h7, h8⟩

theorem _root_.Fajt.Spec.Derived.span {E : GEnv} {ctx : Ctx} {n : Node} {us : List Token} (h : Derived E ctx n us) {sp : Span} (hs : n.span? = some sp) :
    Spans sp us := by
  obtain ⟨g, h1, h2⟩ := h
  exact h2.span _ h1 _ hs

/-- **C22**, nesting: the span of a node lies within the spans of the nodes around it. -/
theorem C22_nested {styp : SourceType} {src : Str} {p : Program} (h : Accepts styp src p) {n N : Node} {ms : List Node}
    (hp : Path p (n :: ms)) (hN : N ∈ ms) {sp SP : Span} (hs : n.span? = some sp) (hS : N.span? = some SP) :
    SP.start ≤ sp.start ∧ sp.start < sp.stop ∧ sp.stop ≤ SP.stop := by
  obtain ⟨ts, h1, h2⟩ := h.sound
  obtain ⟨n', ms', ctx, us, e, h3, h4, h5⟩ := ancestors h2 hp
  cases e
  obtain ⟨ctx', vs, h6, h7, h8⟩ := h5 N (List.mem_cons_of_mem _ hN)
  obtain ⟨l, r, rfl⟩ := h7
  rw [List.append_assoc] at h8 h6
  have h9 := spans_start h1 h8 (h6.span hS) (h3.span hs)
  refine ⟨h9.1, ?_, h9.2⟩
  obtain ⟨a, b, ha, hb, rfl⟩ := h3.span hs
  obtain ⟨l', r', rfl⟩ := h4
  cases us with
  | nil => cases ha
  | cons x us =>
    simp only [List.head?_cons, Option.some.injEq] at ha
    subst ha
    have hx := h1.lt (t := x) (by simp)
    rcases List.eq_nil_or_concat us with rfl | ⟨us', c, rfl⟩
    · simp at hb; subst hb; exact hx
    · rw [List.concat_eq_append] at h1 hb
      have e : b = c := by
        rw [show x :: (us' ++ [c]) = (x :: us') ++ [c] by simp, List.getLast?_concat] at hb
        simpa using hb.symm
      subst e
      have h3 : SourceTokens [] true src (l' ++ x :: (us' ++ [b] ++ r')) := by simpa using h1
      have hb' := h1.lt (t := b) (by simp)
      have := h3.before (b := b) (by simp)
      show x.span.start < b.span.stop
      omega

/-- **C22**, order: of two children of a node the earlier one ends before the later one starts. -/
theorem C22_siblings_ordered {styp : SourceType} {src : Str} {p : Program} (h : Accepts styp src p) {N c d : Node} {ms xs ys : List Node}
    (hp : Path p (N :: ms)) (hc : N.children = xs ++ c :: ys) (hd : d ∈ ys) {sc sd : Span} (hsc : c.span? = some sc)
    (hsd : d.span? = some sd) : sc.stop ≤ sd.start := by
  obtain ⟨ts, ctx, us, g, h1, h2, h3, h4, -⟩ := h.at hp
  have h5 := h4.segs
  rw [GNode.kids_top h3, hc] at h5
  obtain ⟨c1, d1, ps, cs, qs, ds, rs, rfl, h6, h7⟩ := h5.two hd
  obtain ⟨z, w, hz, hw, rfl⟩ := h7.span hsd
  have hq : Spans ⟨z.span.start, w.span.stop⟩ ds := ⟨z, w, hz, hw, rfl⟩
  obtain ⟨x, y, hx, hy, rfl⟩ := h6.span hsc
  obtain ⟨l, r, rfl⟩ := h2
  obtain ⟨cs', rfl⟩ := List.getLast?_eq_some_iff.1 hy
  have h8 : SourceTokens [] true src ((l ++ ps ++ cs') ++ y :: (qs ++ ds ++ rs ++ r)) := by simpa using h1
  exact h8.before (List.mem_append_left _ (List.mem_append_left _ (List.mem_append_right _ (List.mem_of_mem_head? hz))))

theorem derived_parts {E : GEnv} {ctx : Ctx} {qs : List (Stmt × List Token)} (hq : ∀ q ∈ qs, D E ctx (.item q.1) q.2) :
    Segs E ((trees qs).map .stmt) (toks qs) := by
  have := Segs.toksMap (E := E) (ctx := ctx) (ps := qs) (f := GNode.item) (k := Node.stmt) (by simpa using hq) (fun _ => rfl)
  exact this

/-- **C22**, order of the statements of the program. -/
theorem C22_statements_ordered {styp : SourceType} {src : Str} {p : Program} (h : Accepts styp src p) {xs ys : List Stmt} {s t : Stmt}
    (hb : p.body = xs ++ s :: ys) (ht : t ∈ ys) : (stmtSpan s).stop ≤ (stmtSpan t).start := by
  obtain ⟨ts, h1, h2⟩ := h.sound
  obtain ⟨ps, qs, rfl, -, -, h5, h6, -⟩ := h2.parts
  have h7 := derived_parts h5
  rw [← h6, hb, List.map_append, List.map_cons] at h7
  obtain ⟨c1, d1, ps', cs, qs', ds, rs, e, h8, h9⟩ := h7.two (List.mem_map_of_mem ht)
  obtain ⟨z, w, hz, hw, e'⟩ := h9.span (sp := stmtSpan t) rfl
  obtain ⟨x, y, hx, hy, e''⟩ := h8.span (sp := stmtSpan s) rfl
  rw [e', e'']
  obtain ⟨cs', rfl⟩ := List.getLast?_eq_some_iff.1 hy
  rw [e] at h1
  have h8 : SourceTokens [] true src ((toks ps ++ ps' ++ cs') ++ y :: (qs' ++ ds ++ rs)) := by simpa using h1
  exact h8.before (List.mem_append_left _ (List.mem_append_right _ (List.mem_of_mem_head? hz)))

/-- **C22**, the program: its span covers the tokens of the source (it is empty when there are none), and the spans of its statements
lie within it. -/
theorem C22_program_span {styp : SourceType} {src : Str} {p : Program} (h : Accepts styp src p) :
    (∃ ts, SourceTokens [] true src ts ∧ if ts = [] then p.span = ⟨0, 0⟩ else Spans p.span ts) ∧
      ∀ s ∈ p.body, p.span.start ≤ (stmtSpan s).start ∧ (stmtSpan s).stop ≤ p.span.stop := by
  obtain ⟨ts, h1, h2⟩ := h.sound
  refine ⟨⟨ts, h1, h2.span⟩, fun s hs => ?_⟩
  obtain ⟨n, ms, ctx, us, e, h3, h4, -⟩ := ancestors h2 (Path.root hs)
  cases e
  have hsp := h2.span
  have h5 := h3.span (sp := stmtSpan s) rfl
  split at hsp
  · subst_vars
    obtain ⟨x, y, hx, -⟩ := h5
    rw [List.infix_nil.1 h4] at hx
    cases hx
  · obtain ⟨l, r, rfl⟩ := h4
    rw [List.append_assoc] at h1 hsp
    exact spans_start h1 (List.infix_refl _) hsp h5

/-- A node three levels down, with the spans that the theorems speak of: in `f(a, b + 1);` the right operand `1` spans 9–10, the sum 5–10,
the arguments 1–11, and the statement 0–12. -/
example : letI := asciiID
    ∃ p, Accepts .script c!"f(a, b + 1);" p ∧ ∃ e1 e2 asp as csp, Path p [.expr e1, .expr e2, .args asp as, .expr (.call csp (.expr (.ident ⟨⟨0, 1⟩, c!"f"⟩)) asp as),
      .stmt (.expr ⟨0, 12⟩ (.call csp (.expr (.ident ⟨⟨0, 1⟩, c!"f"⟩)) asp as))] ∧ exprSpan e1 = ⟨9, 10⟩ ∧ exprSpan e2 = ⟨5, 10⟩ ∧ asp = ⟨1, 11⟩ := by
  letI := asciiID
  have h : scriptHas c!"f(a, b + 1);" (fun p => match p.body with
    | [.expr s1 (.call csp (.expr (.ident id)) asp [.expr (.ident a), .expr (.binary bsp .plus (.ident b) (.literal lsp (.number n)))])] =>
      s1 = ⟨0, 12⟩ && id = ⟨⟨0, 1⟩, c!"f"⟩ && asp = ⟨1, 11⟩ && bsp = ⟨5, 10⟩ && lsp = ⟨9, 10⟩
    | _ => false) = true := by decide +kernel
  obtain ⟨p, h1, h2⟩ := scriptHas_accepts h
  refine ⟨p, h1, ?_⟩
  split at h2
  · rename_i b _ n hb
    simp only [Bool.and_eq_true, decide_eq_true_eq] at h2
    obtain ⟨⟨⟨⟨rfl, rfl⟩, rfl⟩, rfl⟩, rfl⟩ := h2
    exact ⟨.literal ⟨9, 10⟩ (.number n), .binary ⟨5, 10⟩ .plus (.ident b) (.literal ⟨9, 10⟩ (.number n)), _, _, _, .step (.step (.step (.step (only_stmt hb) (by simp [Node.children, stmtChildren]))
      (by simp [Node.children, exprChildren])) (by simp [Node.children, argNode])) (by simp [Node.children, exprChildren]), rfl, rfl, rfl⟩
  · cases h2

/-! ## C23: precedence and associativity -/

/-- **C23**. The operands of every operator of an accepted tree bind tightly enough (`OperandsBind`): parentheses are never lost. -/
theorem C23_operands_bind {styp : SourceType} {src : Str} {p : Program} (h : Accepts styp src p) {e : Expr} {ms : List Node}
    (hp : Path p (.expr e :: ms)) : OperandsBind e := by
  obtain ⟨ts, ctx, us, g, -, -, h3, h4, -⟩ := h.at hp
  exact h4.operands _ h3 e rfl

/-- **C23**, binary operators: the left operand binds at least as tightly as the operator, the right one tighter. -/
theorem C23_binary {styp : SourceType} {src : Str} {p : Program} (h : Accepts styp src p) {sp : Span} {op : BinaryOp} {a b : Expr} {ms : List Node}
    (hp : Path p (.expr (.binary sp op a b) :: ms)) : binaryLevel op ≤ level a ∧ binaryLevel op < level b :=
  C23_operands_bind h hp

/-- **C23**: operators of the same precedence group to the left: the right operand of a binary operator is no binary expression of the same
precedence. -/
theorem C23_left_associative {styp : SourceType} {src : Str} {p : Program} (h : Accepts styp src p) {sp sp' : Span} {op op' : BinaryOp} {a b c : Expr}
    {ms : List Node} (hp : Path p (.expr (.binary sp op a (.binary sp' op' b c)) :: ms)) : binaryLevel op < binaryLevel op' :=
  (C23_binary h hp).2

/-- **C23**: assignments and conditional expressions group to the right: their left parts are no assignments. -/
theorem C23_right_associative {styp : SourceType} {src : Str} {p : Program} (h : Accepts styp src p) {e : Expr} {ms : List Node}
    (hp : Path p (.expr e :: ms)) :
    (∀ sp op l r, e = .assign sp op (.expr l) r → 17 ≤ level l) ∧ (∀ sp a b c, e = .conditional sp a b c → 3 ≤ level a) := by
  have h1 := C23_operands_bind h hp
  constructor
  · rintro sp op l r rfl; exact h1.1
  · rintro sp a b c rfl; exact h1.1

/-- `a - b * c - d` is `(a - (b * c)) - d`. -/
example : letI := asciiID; scriptHas c!"a - b * c - d" (fun p => match p.body with
    | [.expr _ (.binary _ .minus (.binary _ .minus (.ident _) (.binary _ .mul (.ident _) (.ident _))) (.ident _))] => true
    | _ => false) = true := by decide +kernel

/-- Departures from ECMAScript, by example: `**` groups to the left, a unary expression may be its left operand, and `??` may be mixed
with `||`. -/
theorem C23_departures : letI := asciiID
    scriptHas c!"a ** b ** c" (fun p => match p.body with
      | [.expr _ (.binary _ .exp (.binary _ .exp _ _) (.ident _))] => true
      | _ => false) = true ∧
    scriptHas c!"-a ** b" (fun p => match p.body with
      | [.expr _ (.binary _ .exp (.unary _ .minus _) (.ident _))] => true
      | _ => false) = true ∧
    scriptHas c!"a ?? b || c" (fun p => match p.body with
      | [.expr _ (.logical _ .coalesce (.ident _) (.logical _ .or _ _))] => true
      | _ => false) = true := by decide +kernel

/-! ## C24: automatic semicolon insertion -/

theorem span_stop {sp : Span} {us : List Token} (h : Spans sp us) : lastEnd us = sp.stop := by
  obtain ⟨a, b, h1, h2, rfl⟩ := h
  simp [lastEnd, h2]

theorem ends_statement {src : Str} {styp : SourceType} {ts us vs : List Token} {sp : Span} (h : SourceTokens [] true src ts) (hi : us ++ vs <:+: ts)
    (hs : Spans sp (us ++ vs)) (hu : Semi (sourceEnv src styp) us vs) : EndsStatement src sp := by
  rcases hu with ⟨rfl, hu⟩ | ⟨t, ht, rfl⟩
  · left
    rw [List.append_nil] at hs
    rw [span_stop hs] at hu
    exact hu
  · right
    obtain ⟨l, r, rfl⟩ := hi
    obtain ⟨q, w, rest, hq⟩ := h.mem (t := t) (by simp)
    have := hq.punct ht
    subst this
    refine ⟨q, rest, hq.1, ?_⟩
    obtain ⟨a, b, h1, h2, rfl⟩ := hs
    rw [List.getLast?_concat] at h2
    cases h2
    rw [hq.2.2.2]
    rfl

theorem statement_end {src : Str} {styp : SourceType} {ts us vs : List Token} {sp : Span} (h : SourceTokens [] true src ts) (hi : us ++ vs <:+: ts)
    (hs : Spans sp us) (hu : Semi (sourceEnv src styp) us vs) : StatementEnd src sp.stop := by
  rcases hu with ⟨rfl, hu⟩ | ⟨t, ht, rfl⟩
  · right
    rw [span_stop hs] at hu
    exact hu
  · left
    obtain ⟨l, r, rfl⟩ := hi
    obtain ⟨a, b, h1, h2, rfl⟩ := hs
    obtain ⟨us', rfl⟩ := List.getLast?_eq_some_iff.1 h2
    have h3 : SourceTokens [] true src ((l ++ us') ++ b :: t :: r) := by simpa using h
    obtain ⟨q, wa, tr, wb, rest, html, fol, fol', e, h4, h5, h6, -⟩ := next_to h3
    have := h5.punct ht
    subst this
    exact ⟨q ++ wa, tr, rest, html, fol, fol', by rw [e]; simp; rfl, by rw [h4.2.2.2], h6⟩

/-- **C24**. After the expression of an expression statement there is a semicolon, or a semicolon may be inserted there: apart from white
space and comments the source ends, or `}` follows, or there is a line terminator in between. -/
theorem C24_expression_statement {styp : SourceType} {src : Str} {p : Program} (h : Accepts styp src p) {sp : Span} {e : Expr} {ms : List Node}
    (hp : Path p (.stmt (.expr sp e) :: ms)) : StatementEnd src (exprSpan e).stop := by
  obtain ⟨ts, ctx, us, g, h1, h2, h3, h4, -⟩ := h.at hp
  obtain ⟨us', vs, rfl, h5, h6⟩ := h4.line _ h3
  exact statement_end h1 h2 h5 h6

/-- **C24** for the statements that fajt checks: expression statements, imports, and exports of names and default expressions end with a semicolon, or
a semicolon may be inserted after them. -/
theorem C24_statement_end {styp : SourceType} {src : Str} {p : Program} (h : Accepts styp src p) {s : Stmt} {ms : List Node}
    (hp : Path p (.stmt s :: ms))
    (hs : (∃ sp e, s = .expr sp e) ∨ (∃ sp d n is m, s = .importDecl sp d n is m) ∨ (∃ sp e, s = .exportDecl (.defaultExpr sp e)) ∨
      (∃ sp es m, s = .exportDecl (.named sp es m)) ∨ (∃ sp n m, s = .exportDecl (.namespace sp n m))) :
    EndsStatement src (stmtSpan s) := by
  obtain ⟨ts, ctx, us, g, h1, h2, h3, h4, -⟩ := h.at hp
  have hl := h4.line _ h3
  have hsp := h4.span _ h3 _ rfl
  rcases hs with ⟨sp, e, rfl⟩ | ⟨sp, d, n, is, m, rfl⟩ | ⟨sp, e, rfl⟩ | ⟨sp, es, m, rfl⟩ | ⟨sp, n, m, rfl⟩
  · obtain ⟨us', vs, rfl, -, h6⟩ := hl
    exact ends_statement h1 h2 hsp h6
  · obtain ⟨us', vs, rfl, -, h6⟩ := hl
    exact ends_statement h1 h2 hsp h6
  · obtain ⟨as, us', vs, rfl, -, h6⟩ := hl
    exact ends_statement h1 h2 hsp h6
  · obtain ⟨us', vs, rfl, -, h6⟩ := hl
    exact ends_statement h1 h2 hsp h6
  · obtain ⟨us', vs, rfl, -, h6⟩ := hl
    exact ends_statement h1 h2 hsp h6

/-- `a b` is rejected, `a` and `b` on two lines are accepted. -/
example : letI := asciiID; rejected c!"a b" = true ∧ scriptHas c!"a\nb" (fun p => match p.body with
    | [.expr _ (.ident _), .expr _ (.ident _)] => true
    | _ => false) = true := by decide +kernel

/-- Departures, by example: nothing is checked after variable, `return`, `throw`, `break`, `continue`, `debugger` and `do` statements; and
behind a template whose substitution starts on a new line no semicolon is needed. -/
theorem C24_departures : letI := asciiID
    scriptHas c!"var a b" (fun p => match p.body with | [.variable _, .expr _ _] => true | _ => false) = true ∧
    scriptHas c!"throw a b" (fun p => match p.body with | [.throw _ _, .expr _ _] => true | _ => false) = true ∧
    scriptHas c!"debugger b" (fun p => match p.body with | [.debugger _, .expr _ _] => true | _ => false) = true ∧
    scriptHas c!"function f() { return a b }" (fun p => match p.body with
      | [.functionDecl _ _ _ _ _ (.mk _ _ [.return _ _, .expr _ _])] => true | _ => false) = true ∧
    scriptHas c!"while (x) { break b c }" (fun p => match p.body with
      | [.while _ _ (.block (.mk _ [.break _ _, .expr _ _]))] => true | _ => false) = true ∧
    scriptHas c!"do x; while (y) z" (fun p => match p.body with | [.doWhile _ _ _, .expr _ _] => true | _ => false) = true ∧
    scriptHas c!"`${a\n}` b" (fun p => match p.body with
      | [.expr _ (.literal _ (.template _)), .expr _ (.ident _)] => true | _ => false) = true := by decide +kernel

/-! ## C25: restricted productions -/

theorem on_line {src : Str} {xs ys : List Token} {a b : Token} {q : Punct} (h : SourceTokens [] true src (xs ++ a :: b :: ys)) (hb : b.fol = false)
    (hv : b.value = .punct q) (hq : q ≠ p!"}") : FollowedOnLine src a.span.stop q.asStr := by
  obtain ⟨p, wa, tr, wb, rest, html, fol, fol', e, h4, h5, h6, h7⟩ := next_to h
  have := h5.punct hv
  subst this
  exact ⟨p ++ wa, tr, rest, html, fol, fol', by rw [e]; simp, by rw [h4.2.2.2], h6, h7 hb (starts_punct hv hq)⟩

theorem update_punct {op : UpdateOp} {v : TokVal} (h : symbol v = some op.asStr) : ∃ q, v = .punct q ∧ q.asStr = op.asStr ∧ q ≠ p!"}" := by
  cases v with
  | punct q =>
    refine ⟨q, rfl, by simpa [symbol] using h, ?_⟩
    rintro rfl
    cases op <;> simp [symbol] at h <;> revert h <;> decide
  | keyword k =>
    exfalso
    have : k.asStr = op.asStr := by simpa [symbol] using h
    revert this
    cases op <;> cases k <;> decide
  | _ => cases h

/-- **C25**, `a++`: the operator stands on the line on which its operand ends. -/
theorem C25_postfix {styp : SourceType} {src : Str} {p : Program} (h : Accepts styp src p) {sp : Span} {op : UpdateOp} {e : Expr} {ms : List Node}
    (hp : Path p (.expr (.update sp op false e) :: ms)) : FollowedOnLine src (exprSpan e).stop op.asStr := by
  obtain ⟨ts, ctx, us, g, h1, h2, h3, h4, -⟩ := h.at hp
  obtain ⟨us', t, rfl, h5, h6, h7⟩ := h4.line _ h3
  obtain ⟨l, r, rfl⟩ := h2
  obtain ⟨a, b, ha, hb, e'⟩ := h5
  obtain ⟨us'', rfl⟩ := List.getLast?_eq_some_iff.1 hb
  have h8 : SourceTokens [] true src ((l ++ us'') ++ b :: t :: r) := by simpa using h1
  obtain ⟨q, hv, hq, hn⟩ := update_punct h6
  rw [e', ← hq]
  exact on_line h8 h7 hv hn

/-- **C25**, arrow functions: `=>` stands on the line on which the parameters end. -/
theorem C25_arrow {styp : SourceType} {src : Str} {p : Program} (h : Accepts styp src p) {sp psp : Span} {asynchronous bp : Bool}
    {bs : List BindingElement} {rest : Option BindingPattern} {b : ArrowBody} {ms : List Node}
    (hp : Path p (.expr (.arrow sp asynchronous bp (.mk psp bs rest) b) :: ms)) : FollowedOnLine src psp.stop c!"=>" := by
  obtain ⟨ts, ctx, us, g, h1, h2, h3, h4, -⟩ := h.at hp
  obtain ⟨as, us', t, vs, rfl, h5, h6, h7⟩ := h4.line _ h3
  obtain ⟨l, r, rfl⟩ := h2
  obtain ⟨a, b, ha, hb, rfl⟩ := h5
  obtain ⟨us'', rfl⟩ := List.getLast?_eq_some_iff.1 hb
  have h8 : SourceTokens [] true src ((l ++ as ++ us'') ++ b :: t :: (vs ++ r)) := by simpa using h1
  exact on_line h8 h7 h6 (by decide)

theorem keyword_then {src : Str} {ts us vs : List Token} {t : Token} {k : Keyword} {sp SP : Span} (h : SourceTokens [] true src ts)
    (hi : t :: (us ++ vs) <:+: ts) (hk : t.value = .keyword k) (hS : Spans SP (t :: (us ++ vs))) (hs : Spans sp us) (hc : Continues us) :
    NoLineBreak src SP.start sp.start := by
  obtain ⟨l, r, rfl⟩ := hi
  obtain ⟨x, us', rfl, hx, hst⟩ := hc
  obtain ⟨a, b, ha, hb, rfl⟩ := hs
  obtain ⟨c, d, hc, hd, rfl⟩ := hS
  simp only [List.head?_cons, Option.some.injEq] at ha hc
  subst ha hc
  have h1 : SourceTokens [] true src (l ++ t :: x :: (us' ++ vs ++ r)) := by simpa using h
  exact adjacent_from h1 hx hst (.inr (.inl ⟨k, hk⟩))

/-- **C25**, `return`, `throw` and `yield`: there is no line terminator between the keyword and its argument. -/
theorem C25_argument {styp : SourceType} {src : Str} {p : Program} (h : Accepts styp src p) {n : Node} {ms : List Node} (hp : Path p (n :: ms))
    {sp : Span} {e : Expr} (hn : n = .stmt (.return sp (some e)) ∨ n = .stmt (.throw sp e) ∨ n = .expr (.yield sp (some e) false)) :
    NoLineBreak src sp.start (exprSpan e).start := by
  obtain ⟨ts, ctx, us, g, h1, h2, h3, h4, -⟩ := h.at hp
  have hl := h4.line _ h3
  have hsp := h4.span _ h3
  rcases hn with rfl | rfl | rfl
  · obtain ⟨t, us', vs, rfl, h5, h6, h7⟩ := hl
    exact keyword_then h1 h2 h5 (hsp _ rfl) h6 h7
  · obtain ⟨t, us', vs, rfl, h5, h6, h7⟩ := hl
    exact keyword_then h1 h2 h5 (hsp _ rfl) h6 h7
  · obtain ⟨t, us', rfl, h5, h6, h7⟩ := hl
    rw [show us' = us' ++ [] by simp] at h2 hsp
    exact keyword_then h1 h2 h5 (hsp _ rfl) h6 h7

/-- **C25**, `break` and `continue`: there is no line terminator between the keyword and its label. -/
theorem C25_label {styp : SourceType} {src : Str} {p : Program} (h : Accepts styp src p) {s : Stmt} {ms : List Node} (hp : Path p (.stmt s :: ms))
    {sp : Span} {id : Ident} (hn : s = .break sp (some id) ∨ s = .continue sp (some id)) : NoLineBreak src sp.start id.span.start := by
  obtain ⟨ts, ctx, us, g, h1, h2, h3, h4, -⟩ := h.at hp
  have hl := h4.line _ h3
  have hsp := h4.span _ h3 _ rfl
  have go : ∀ k, (∃ t l vs, us = t :: l :: vs ∧ t.value = .keyword k ∧ id.span = l.span ∧ l.fol = false ∧ Starts l) → stmtSpan s = sp →
      NoLineBreak src sp.start id.span.start := by
    rintro k ⟨t, l, vs, rfl, h5, h6, h7, h8⟩ es
    rw [es] at hsp
    obtain ⟨c, d, hc, hd, rfl⟩ := hsp
    simp only [List.head?_cons, Option.some.injEq] at hc
    subst hc
    obtain ⟨l', r, rfl⟩ := h2
    rw [h6]
    exact adjacent_from (by simpa using h1) h7 h8 (.inr (.inl ⟨k, h5⟩))
  rcases hn with rfl | rfl
  · exact go _ hl rfl
  · exact go _ hl rfl

/-- **C25**, `async function` expressions and `yield*`: there is no line terminator between the two words. -/
theorem C25_async_function {styp : SourceType} {src : Str} {p : Program} (h : Accepts styp src p) {e : Expr} {ms : List Node} (hp : Path p (.expr e :: ms))
    {sp : Span} (hn : (∃ g id ps b, e = .function sp true g id ps b) ∨ ∃ a, e = .yield sp (some a) true) :
    ∃ t : Token, ∃ pre w rest, TokAt src t pre w rest ∧ (t.value = .keyword k!"function" ∨ t.value = .punct p!"*") ∧ NoLineBreak src sp.start t.span.start := by
  obtain ⟨ts, ctx, us, g, h1, h2, h3, h4, -⟩ := h.at hp
  have hl := h4.line _ h3
  have hsp := h4.span _ h3 _ rfl
  have go : ∀ {t s : Token} {vs : List Token} {k : Keyword}, us = t :: s :: vs → t.value = .keyword k → s.fol = false → Starts s → exprSpan e = sp →
      ∃ pre w rest, TokAt src s pre w rest ∧ NoLineBreak src sp.start s.span.start := by
    intro t s vs k e1 hk hs hst es
    subst e1
    rw [es] at hsp
    obtain ⟨c, d, hc, hd, rfl⟩ := hsp
    simp only [List.head?_cons, Option.some.injEq] at hc
    subst hc
    obtain ⟨l', r, rfl⟩ := h2
    obtain ⟨q, w, rest, hq⟩ := h1.mem (t := s) (by simp)
    exact ⟨q, w, rest, hq, adjacent_from (xs := l') (ys := vs ++ r) (by simpa using h1) hs hst (.inr (.inl ⟨k, hk⟩))⟩
  rcases hn with ⟨g', id, ps, b, rfl⟩ | ⟨a, rfl⟩
  · obtain ⟨t, s, vs, e1, h5, h6, h7⟩ := hl
    obtain ⟨pre, w, rest, h8, h9⟩ := go e1 h5 h7 (starts_keyword h6) rfl
    exact ⟨s, pre, w, rest, h8, .inl h6, h9⟩
  · obtain ⟨t, s, vs, e1, h5, h6, h7⟩ := hl
    obtain ⟨pre, w, rest, h8, h9⟩ := go e1 h5 h7 (starts_punct h6 (by decide)) rfl
    exact ⟨s, pre, w, rest, h8, .inr h6, h9⟩

/-- The restricted productions with and without line terminators. -/
example : letI := asciiID
    scriptHas c!"a /* x */ ++" (fun p => match p.body with | [.expr _ (.update _ .incr false (.ident _))] => true | _ => false) = true ∧
    scriptHas c!"a\n++b" (fun p => match p.body with | [.expr _ (.ident _), .expr _ (.update _ .incr true _)] => true | _ => false) = true ∧
    scriptHas c!"function f() { return\na }" (fun p => match p.body with
      | [.functionDecl _ _ _ _ _ (.mk _ _ [.return _ none, .expr _ _])] => true | _ => false) = true ∧
    scriptHas c!"throw a" (fun p => match p.body with | [.throw _ _] => true | _ => false) = true ∧
    rejected c!"throw\na" = true ∧ rejected c!"(a)\n=> a" = true ∧
    scriptHas c!"(a) => a" (fun p => match p.body with | [.expr _ (.arrow ..)] => true | _ => false) = true := by decide +kernel

/-! ## C26: return -/

/-- **C26**. A `return` statement of an accepted script or module is inside the body of a function. -/
theorem C26_return {styp : SourceType} {src : Str} {p : Program} (h : Accepts styp src p) {sp : Span} {a : Option Expr} {ms : List Node}
    (hp : Path p (.stmt (.return sp a) :: ms)) : ∃ b, .body b ∈ ms := by
  obtain ⟨ts, ctx, us, g, -, -, h3, h4, h5⟩ := h.at hp
  have h6 : ctx.return_ = true := h4.rule _ h3
  rw [h5.return_] at h6
  exact return_place hp h6

/-- `return` outside of functions is rejected, also in blocks; inside it is accepted. -/
example : letI := asciiID; rejected c!"if (a) { return b }" = true ∧ scriptHas c!"function f() { if (a) { return b } }" (fun p => match p.body with
    | [.functionDecl _ _ _ _ _ (.mk _ _ [.if _ _ (.block (.mk _ [.return _ (some _)])) none])] => true
    | _ => false) = true := by decide +kernel

/-! ## C27: super -/

/-- **C27**, `super.x` and `super[x]`: inside a method, with no function (other than arrow functions) in between. -/
theorem C27_super_property {styp : SourceType} {src : Str} {p : Program} (h : Accepts styp src p) {sp sp' : Span} {mp : MemberProp} {ms : List Node}
    (hp : Path p (.expr (.member sp (.super sp') mp) :: ms)) :
    ∃ as m bs, ms = as ++ .method m :: bs ∧ ∀ n ∈ as, ¬ isFunction n := by
  obtain ⟨ts, ctx, us, g, -, -, h3, h4, h5⟩ := h.at hp
  have h6 : ctx.inMethod = true := h4.rule _ h3
  obtain ⟨as, m, bs, h7, h8⟩ := method_place hp (h5.inMethod h6)
  cases as with
  | nil => cases h7
  | cons a as =>
    simp only [List.cons_append, List.cons.injEq] at h7
    exact ⟨as, m, bs, h7.2, h8⟩

/-- **C27**, `super(..)`: inside the constructor of a class that extends another one, with no function (other than arrow functions) in
between and no method, except methods with computed names (a departure). -/
theorem C27_super_call {styp : SourceType} {src : Str} {p : Program} (h : Accepts styp src p) {sp asp : Span} {args : List Argument} {ms : List Node}
    (hp : Path p (.expr (.call sp .super asp args) :: ms)) :
    ∃ as m N bs, ms = as ++ .method m :: N :: bs ∧ isConstructor m ∧ extendsClass N ∧
      (∀ n ∈ as, ¬ isFunction n) ∧ ∀ m', .method m' ∈ as → hasComputedName m' := by
  obtain ⟨ts, ctx, us, g, -, -, h3, h4, h5⟩ := h.at hp
  have h6 : ctx.superCall = true := h4.rule _ h3
  obtain ⟨as, m, N, bs, h7, h8, h9, h10, h11⟩ := super_place hp (h5.superCall h6)
  cases as with
  | nil => cases h7
  | cons a as =>
    simp only [List.cons_append, List.cons.injEq] at h7
    exact ⟨as, m, N, bs, h7.2, h8, h9, h10, fun m' hm' => h11 m' (List.mem_cons_of_mem _ hm')⟩

/-- `super` in the places that the theorems speak of, and elsewhere. -/
example : letI := asciiID
    scriptHas c!"class A extends B { constructor() { () => super(super.x) } }" (fun p => match p.body with
      | [.classDecl _ _ (some _) [.mk _ _ _ _ (.mk _ _ [.expr _ (.arrow _ _ _ _ (.expr (.call _ .super _ [.expr (.member _ (.super _) _)])))]) _ _ _]] => true
      | _ => false) = true ∧
    rejected c!"class A { constructor() { super() } }" = true ∧ rejected c!"class A extends B { m() { super() } }" = true ∧
    rejected c!"class A extends B { constructor() { function f() { super() } } }" = true ∧ rejected c!"super.x" = true := by decide +kernel

/-- Departure, by example: `super()` is accepted in a method with a computed name of an object literal inside a constructor. -/
theorem C27_computed_method_departure : letI := asciiID
    scriptHas c!"class A extends B { constructor() { x = { [a]() { super() } } } }" (fun _ => true) = true := by decide +kernel

/-! ## C28: import and export -/

/-- **C28**. An accepted script has no import and no export declaration, at any depth. -/
theorem C28_script {src : Str} {p : Program} (h : Accepts .script src p) {s : Stmt} {ms : List Node} (hp : Path p (.stmt s :: ms)) :
    (∀ sp d n is m, s ≠ .importDecl sp d n is m) ∧ ∀ e, s ≠ .exportDecl e := by
  obtain ⟨ts, ctx, us, g, -, -, h3, h4, h5⟩ := h.at hp
  have h6 := h4.rule _ h3
  constructor
  · rintro sp d n is m rfl
    have : SourceType.script = .module := h6
    cases this
  · rintro e rfl
    have : SourceType.script = .module := h6
    cases this

/-- Scripts with declarations inside blocks satisfy the hypotheses; imports and exports are rejected. -/
example : letI := asciiID; scriptHas c!"{ class A {} }" (fun p => match p.body with
    | [.block (.mk _ [.classDecl ..])] => true
    | _ => false) = true ∧ rejected c!"import 'a'" = true ∧ rejected c!"export var a" = true := by decide +kernel

/-- Departure, by example: in a module import and export declarations are accepted inside blocks and functions. -/
theorem C28_nested_departure : letI := asciiID
    moduleHas c!"{ import 'a'; export default b }" (fun p => match p.body with
      | [.block (.mk _ [.importDecl .., .exportDecl _])] => true
      | _ => false) = true := by decide +kernel

/-! ## C29: yield and await -/

/-- **C29**, `yield`: the expression is in the code of a generator function or method, with no other function (arrow functions apart) in
between; `along yieldEdge` says precisely which parts of a function belong to its code. -/
theorem C29_yield {styp : SourceType} {src : Str} {p : Program} (h : Accepts styp src p) {sp : Span} {a : Option Expr} {d : Bool} {ms : List Node}
    (hp : Path p (.expr (.yield sp a d) :: ms)) :
    along yieldEdge false (.expr (.yield sp a d) :: ms) = true ∧ ∃ as N bs, ms = as ++ N :: bs ∧ isGenerator N ∧ ∀ n ∈ as, ¬ isFunction n := by
  obtain ⟨ts, ctx, us, g, -, -, h3, h4, h5⟩ := h.at hp
  have h6 : ctx.yield = true := h4.rule _ h3
  rw [h5.yield] at h6
  refine ⟨h6, ?_⟩
  obtain ⟨as, N, bs, h7, h8, h9, h10⟩ := yield_place hp h6
  cases as with
  | nil => exact absurd rfl h8
  | cons a as =>
    simp only [List.cons_append, List.cons.injEq] at h7
    exact ⟨as, N, bs, h7.2, h9, h10⟩

/-- **C29**, `await`: the expression is in the code of an asynchronous function, method or arrow function, with no other function (arrow
functions apart) in between. -/
theorem C29_await {styp : SourceType} {src : Str} {p : Program} (h : Accepts styp src p) {sp : Span} {a : Expr} {ms : List Node}
    (hp : Path p (.expr (.await sp a) :: ms)) :
    along awaitEdge false (.expr (.await sp a) :: ms) = true ∧ ∃ as N bs, ms = as ++ N :: bs ∧ isAsync N ∧ ∀ n ∈ as, ¬ isFunction n := by
  obtain ⟨ts, ctx, us, g, -, -, h3, h4, h5⟩ := h.at hp
  have h6 : ctx.await = true := h4.rule _ h3
  rw [h5.await] at h6
  refine ⟨h6, ?_⟩
  obtain ⟨as, N, bs, h7, h8, h9, h10⟩ := await_place hp h6
  cases as with
  | nil => exact absurd rfl h8
  | cons a as =>
    simp only [List.cons_append, List.cons.injEq] at h7
    exact ⟨as, N, bs, h7.2, h9, h10⟩

/-- `yield` and `await` in the places that the theorems speak of, and elsewhere. -/
example : letI := asciiID
    scriptHas c!"function* f() { yield a }" (fun p => match p.body with
      | [.functionDecl _ false true _ _ (.mk _ _ [.expr _ (.yield ..)])] => true | _ => false) = true ∧
    scriptHas c!"async () => { await a }" (fun p => match p.body with
      | [.expr _ (.arrow _ true _ _ (.body (.mk _ _ [.expr _ (.await ..)])))] => true | _ => false) = true ∧
    rejected c!"function f() { yield a }" = true ∧ rejected c!"() => { await a }" = true := by decide +kernel

/-! ## C30: reserved words -/

theorem identTok_not_reserved {src : Str} {ts : List Token} {t : Token} {w : WordCtx} {id : Ident} (h : SourceTokens [] true src ts) (ht : t ∈ ts)
    (hi : IdWord w t id) : ¬ Reserved w id.name := by
  have key : ∀ n, Reserved w n → ∃ k : Keyword, k.asStr = n := by
    intro n hn
    have all : ∀ n ∈ reservedWords ++ (strictReserved ++ [c!"await"]), (Keyword.all.map Keyword.asStr).contains n = true := by decide +kernel
    have hm : n ∈ reservedWords ++ (strictReserved ++ [c!"await"]) := by
      rcases hn with h | ⟨-, h⟩ | ⟨-, h⟩ | ⟨-, h⟩
      · exact List.mem_append_left _ h
      · exact List.mem_append_right _ (List.mem_append_left _ h)
      · subst h; decide +kernel
      · subst h; decide +kernel
    have := all n hm
    rw [List.contains_iff_mem, List.mem_map] at this
    obtain ⟨k, -, hk⟩ := this
    exact ⟨k, hk⟩
  intro hr
  cases hi with
  | ident hv =>
    obtain ⟨k, hk⟩ := key _ hr
    obtain ⟨q, s, rest, -, -, hl, -⟩ := h.mem ht
    rw [hv] at hl
    rcases hl with ⟨_, hl⟩ | hl
    · cases hl with
      | ident _ hn => exact hn k hk
    · cases hl
  | @keyword k hv hk =>
    rw [C18_keyword_as_identifier] at hk
    unfold Reserved at hr
    dsimp only at hr
    simp only [Ctx.kw] at hk
    obtain ⟨s, y, a⟩ := w
    dsimp only at hr hk
    revert hk hr
    cases k <;> cases s <;> cases y <;> cases a <;> decide +kernel

/-- **C30**. No identifier of an accepted tree (reference, binding, label, shorthand property, name of a function or class, local name of an
import with `as`) is a reserved word of the place where it stands. -/
theorem C30_reserved_words {styp : SourceType} {src : Str} {p : Program} (h : Accepts styp src p) {n : Node} {ms : List Node}
    (hp : Path p (n :: ms)) {id : Ident} {w : WordCtx}
    (hid : (id, w) ∈ n.identifiers ⟨along strictEdge (useStrict p.directives) (n :: ms), along yieldEdge false (n :: ms), along awaitEdge false (n :: ms)⟩) :
    ¬ Reserved w id.name := by
  obtain ⟨ts, ctx, us, g, h1, h2, h3, h4, h5⟩ := h.at hp
  rw [← h5.strict, ← h5.yield, ← h5.await] at hid
  rcases h4.identifiers _ h3 _ hid with ⟨t, ht, hw⟩ | he
  · exact identTok_not_reserved h1 (h2.subset ht) hw
  · have e : id.name = [] := he
    rw [e]
    unfold Reserved
    obtain ⟨s, y, a⟩ := w
    cases s <;> cases y <;> cases a <;> decide +kernel

/-- A word that is an identifier in one place and reserved in another one. -/
example : letI := asciiID
    scriptHas c!"let = yield" (fun p => match p.body with | [.expr _ (.assign _ _ (.expr (.ident _)) (.ident _))] => true | _ => false) = true ∧
    rejected c!"'use strict'; let = 1" = true ∧ rejected c!"'use strict'; yield" = true ∧ rejected c!"function* f() { yield = 1 }" = true ∧
    rejected c!"var if" = true ∧ rejected c!"class A { m() { var static } }" = true := by decide +kernel

/-- Departure, by example: the local name of `import { if } from 'a'` is a reserved word. -/
theorem C30_import_departure : letI := asciiID
    moduleHas c!"import { if } from 'a'" (fun p => match p.body with
      | [.importDecl _ none none (some [⟨_, id, none⟩]) _] => id.name = c!"if"
      | _ => false) = true := by decide +kernel

/-! ## C31: assignment targets -/

/-- **C31**. What is assigned to (by `=`, a compound assignment, `++`, `--`, an assignment pattern or a `for` loop) is a name or a member
access, possibly in parentheses, and not `eval` or `arguments` in strict code. -/
theorem C31_targets {styp : SourceType} {src : Str} {p : Program} (h : Accepts styp src p) {n : Node} {ms : List Node} (hp : Path p (n :: ms))
    {e : Expr} (he : e ∈ n.targets) : TargetOK (along strictEdge (useStrict p.directives) (n :: ms)) e := by
  obtain ⟨ts, ctx, us, g, h1, h2, h3, h4, h5⟩ := h.at hp
  rw [← h5.strict]
  exact h4.targets _ h3 e he

/-- **C31**: only `=` assigns to a pattern. -/
theorem C31_pattern_operator {styp : SourceType} {src : Str} {p : Program} (h : Accepts styp src p) {sp : Span} {op : AssignOp} {l : AssignPattern}
    {r : Expr} {ms : List Node} (hp : Path p (.expr (.assign sp op (.pattern l) r) :: ms)) : op = .assign := by
  obtain ⟨ts, ctx, us, g, h1, h2, h3, h4, h5⟩ := h.at hp
  exact h4.rule _ h3

/-- Targets of all kinds, and rejected ones. -/
example : letI := asciiID
    scriptHas c!"(a) += b.c[d] = [e, ...f.g] = h++" (fun p => match p.body with
      | [.expr _ (.assign _ _ (.expr (.paren _ (.ident _))) (.assign _ _ (.expr (.member ..)) (.assign _ _ (.pattern (.array ..)) (.update ..))))] => true
      | _ => false) = true ∧
    rejected c!"a() = b" = true ∧ rejected c!"a + b = c" = true ∧ rejected c!"1++" = true ∧ rejected c!"[a] += b" = true ∧
    rejected c!"'use strict'; eval = 1" = true ∧ rejected c!"for (a() of b) ;" = true := by decide +kernel

/-! ## C32: strict code -/

/-- **C32**, `delete`: in strict code its operand is not a name. -/
theorem C32_delete {styp : SourceType} {src : Str} {p : Program} (h : Accepts styp src p) {sp : Span} {e : Expr} {ms : List Node}
    (hp : Path p (.expr (.unary sp .delete e) :: ms)) :
    DeleteOK (along strictEdge (useStrict p.directives) (.expr (.unary sp .delete e) :: ms)) e := by
  obtain ⟨ts, ctx, us, g, h1, h2, h3, h4, h5⟩ := h.at hp
  rw [← h5.strict]
  exact h4.rule _ h3 rfl

/-- **C32**, directives: a method or setter whose body says `use strict` has simple parameters. -/
theorem C32_use_strict_params {styp : SourceType} {src : Str} {p : Program} (h : Accepts styp src p) {sp bsp : Span} {n : PropName} {k : MethodKind}
    {ps : FormalParams} {ds : List LitString} {ss : List Stmt} {g a st : Bool} {ms : List Node}
    (hp : Path p (.method (.mk sp n k ps (.mk bsp ds ss) g a st) :: ms)) (hk : k ≠ .get) : UseStrictOK ps ds := by
  obtain ⟨ts, ctx, us, g, h1, h2, h3, h4, h5⟩ := h.at hp
  have h6 : ParamsOK k ps ds := h4.rule _ h3
  cases k with
  | method => exact h6.1
  | get => exact absurd rfl hk
  | set => obtain ⟨a, b, c⟩ := ps; exact h6.2.2

/-- Strict code by directive, by inheritance and by classes; `delete x.y` is accepted there. -/
example : letI := asciiID
    scriptHas c!"delete x" (fun _ => true) = true ∧ rejected c!"'use strict'; delete x" = true ∧
    rejected c!"function f() { 'use strict'; delete ((x)) }" = true ∧ rejected c!"class A { m() { delete x } }" = true ∧
    rejected c!"'use strict'; function f() { if (a) delete x }" = true ∧
    scriptHas c!"'use strict'; delete x.y" (fun p => useStrict p.directives && match p.body with
      | [.expr _ (.unary _ .delete (.member ..))] => true
      | _ => false) = true ∧
    rejected c!"class A { m(a = 1) { 'use strict' } }" = true ∧ rejected c!"x = { set m([a]) { 'use strict' } }" = true := by decide +kernel

/-- Departures, by example: `with` is accepted in strict code, arrow functions in strict code are not strict, modules are not strict, and functions may
say `use strict` whatever their parameters are. -/
theorem C32_departures : letI := asciiID
    scriptHas c!"'use strict'; with (a) b" (fun p => match p.body with | [.with ..] => true | _ => false) = true ∧
    scriptHas c!"'use strict'; () => { delete x }" (fun _ => true) = true ∧
    moduleHas c!"delete x" (fun _ => true) = true ∧
    scriptHas c!"function f(a = 1) { 'use strict' }" (fun _ => true) = true := by decide +kernel

/-! ## C33: parameters of methods -/

/-- **C33**. Getters have no parameters, setters have exactly one and no rest parameter, and methods have no two parameters of the same
name. -/
theorem C33_parameters {styp : SourceType} {src : Str} {p : Program} (h : Accepts styp src p) {sp psp : Span} {n : PropName} {k : MethodKind}
    {bs : List BindingElement} {rest : Option BindingPattern} {b : Body} {g a st : Bool} {ms : List Node}
    (hp : Path p (.method (.mk sp n k (.mk psp bs rest) b g a st) :: ms)) :
    (k = .get → bs = [] ∧ rest = none) ∧ (k = .set → bs.length = 1 ∧ rest = none) ∧ (k = .method → (plainNames (.mk psp bs rest)).Nodup) := by
  obtain ⟨ts, ctx, us, g, h1, h2, h3, h4, h5⟩ := h.at hp
  have h6 := h4.rule _ h3
  obtain ⟨bsp, ds, ss⟩ := b
  have h7 : ParamsOK k (.mk psp bs rest) ds := h6
  refine ⟨?_, ?_, ?_⟩
  · rintro rfl; exact h7
  · rintro rfl
    obtain ⟨⟨b, rfl⟩, h8, -⟩ := h7
    exact ⟨rfl, h8⟩
  · rintro rfl; exact h7.2

/-- Accepted and rejected parameter lists. -/
example : letI := asciiID
    scriptHas c!"class A { get a() {} set a(b) {} m(c, d) {} }" (fun p => match p.body with
      | [.classDecl _ _ _ [.mk _ _ .get .., .mk _ _ .set .., .mk _ _ .method ..]] => true
      | _ => false) = true ∧
    rejected c!"class A { get a(b) {} }" = true ∧ rejected c!"class A { set a() {} }" = true ∧ rejected c!"class A { set a(...b) {} }" = true ∧
    rejected c!"class A { m(a, a) {} }" = true := by decide +kernel

/-- Departures, by example: names inside patterns and the parameters of functions and arrow functions are not compared. -/
theorem C33_departures : letI := asciiID
    scriptHas c!"class A { m(a, [a]) {} }" (fun _ => true) = true ∧ scriptHas c!"'use strict'; function f(a, a) {}" (fun _ => true) = true ∧
    scriptHas c!"(a, a) => a" (fun _ => true) = true := by decide +kernel

/-! ## C35: statements -/

/-- **C35**. `try` has a handler or a finalizer. -/
theorem C35_try {styp : SourceType} {src : Str} {p : Program} (h : Accepts styp src p) {sp : Span} {b : Block} {c : Option CatchClause} {f : Option Block}
    {ms : List Node} (hp : Path p (.stmt (.try sp b c f) :: ms)) : c.isSome = true ∨ f.isSome = true := by
  obtain ⟨ts, ctx, us, g, h1, h2, h3, h4, h5⟩ := h.at hp
  exact h4.rule _ h3

/-- **C35**. `for await` is in the code of an asynchronous function. -/
theorem C35_for_await {styp : SourceType} {src : Str} {p : Program} (h : Accepts styp src p) {sp : Span} {l : ForDecl} {r : Expr} {b : Stmt}
    {ms : List Node} (hp : Path p (.stmt (.forOf sp l r b true) :: ms)) :
    along awaitEdge false (.stmt (.forOf sp l r b true) :: ms) = true ∧ ∃ as N bs, ms = as ++ N :: bs ∧ isAsync N ∧ ∀ n ∈ as, ¬ isFunction n := by
  obtain ⟨ts, ctx, us, g, -, -, h3, h4, h5⟩ := h.at hp
  have h6 : ctx.await = true := h4.rule _ h3 rfl
  rw [h5.await] at h6
  refine ⟨h6, ?_⟩
  obtain ⟨as, N, bs, h7, h8, h9, h10⟩ := await_place hp h6
  cases as with
  | nil => exact absurd rfl h8
  | cons a as =>
    simp only [List.cons_append, List.cons.injEq] at h7
    exact ⟨as, N, bs, h7.2, h9, h10⟩

/-- **C35**. Variable declarations declare something, comma expressions have at least two operands, templates have at least one part, and a
variable without initializer (outside of `for`-`in` and `for`-`of`) is a name, not a pattern. -/
theorem C35_lists {styp : SourceType} {src : Str} {p : Program} (h : Accepts styp src p) {n : Node} {ms : List Node} (hp : Path p (n :: ms)) :
    (∀ sp k ds, n = .stmt (.variable (.mk sp k ds)) → ds ≠ []) ∧ (∀ sp k ds, n = .forInit (.declaration (.mk sp k ds)) → ds ≠ []) ∧
      (∀ sp es, n = .expr (.sequence sp es) → 2 ≤ es.length) ∧ (∀ sp ps, n = .expr (.literal sp (.template ps)) → ps ≠ []) ∧
      (∀ sp e ps, n = .expr (.tagged sp e ps) → ps ≠ []) ∧ (∀ sp b, n = .varDecl (.mk sp b none) → ∃ id, b = .ident id) := by
  obtain ⟨ts, ctx, us, g, -, -, h3, h4, h5⟩ := h.at hp
  have h6 := h4.rule _ h3
  refine ⟨?_, ?_, ?_, ?_, ?_, ?_⟩
  · rintro sp k ds rfl; exact h6
  · rintro sp k ds rfl; exact h6
  · rintro sp es rfl; exact h6
  · rintro sp ps rfl; exact h6
  · rintro sp e ps rfl; exact h6
  · rintro sp b rfl; exact h6 rfl

/-- Accepted and rejected statements. -/
example : letI := asciiID
    scriptHas c!"try {} catch { var a, b = 1 }" (fun p => match p.body with
      | [.try _ _ (some (.mk _ none (.mk _ [.variable (.mk _ .var [_, _])]))) none] => true
      | _ => false) = true ∧
    scriptHas c!"async function f() { for await (a of b, c) ; }" (fun p => match p.body with
      | [.functionDecl _ true _ _ _ (.mk _ _ [.forOf _ _ (.sequence _ [_, _]) _ true])] => true
      | _ => false) = true ∧
    rejected c!"try {}" = true ∧ rejected c!"for await (a of b) ;" = true ∧ rejected c!"var ;" = true ∧ rejected c!"var [a]" = true := by
  decide +kernel

/-- Departure, by example: a `switch` may have several `default` clauses. -/
theorem C35_switch_departure : letI := asciiID
    scriptHas c!"switch (a) { default: default: b }" (fun p => match p.body with
      | [.switch _ _ [.mk _ none [], .mk _ none [_]]] => true
      | _ => false) = true := by decide +kernel

end Fajt.Props
