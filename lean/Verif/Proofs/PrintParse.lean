import Verif.Proofs.PrintProgram
import Verif.Spec.Strip
/-!
# Reading printed trees

A tree that has been derived from some text is derived, up to spans, from every text that is read as its tokens.  The proof is by
induction on the derivation; this file states what is shown for every grammar symbol.
-/
namespace Fajt.Print
open Fajt Spec Complete
set_option linter.unusedSectionVars false
variable [UnicodeID] {sty : SourceType} {mini : Bool} {ctx : Ctx} {f : Bool} {a b c x y z : Point} {is js : List Item} {v : TokVal} {n : Str}

/-! ## Reading items -/

/-- The next token, with the flag, at a place where the parser can go back to it. -/
def T (sty : SourceType) (v : TokVal) (f : Bool) (a b : Point) : Prop :=
  Seekable sty a ∧ ∃ t, Next sty a t b ∧ t.value = v ∧ t.fol = f

theorem T.tok (h : T sty v f a b) : Tok sty v a b := let ⟨_, t, h1, h2, _⟩ := h; ⟨t, h1, h2⟩
theorem T.seek (h : T sty v f a b) : Seekable sty a := h.1
theorem T.look (h : T sty v f a b) {p : Token → Prop} (hp : ∀ t : Token, t.value = v → t.fol = f → p t) : Look sty a p :=
  let ⟨_, _, h1, h2, h3⟩ := h; (look_iff h1).2 (hp _ h2 h3)
theorem T.key {k : Keyword} (h : T sty (nameVal n) f a b) (hn : nameVal n = .keyword k := by rfl) : Key sty k a b := by
  have := h.tok; rwa [hn] at this

theorem skey {k : Keyword} {w : Str} (h : Step sty a ⟨.plain, nameVal n, w⟩ f b) (hn : nameVal n = .keyword k := by rfl) : Key sty k a b :=
  T.key (n := n) h hn

/-- The continuation of a template. -/
def TC (sty : SourceType) (v : TokVal) (f : Bool) (a b : Point) : Prop :=
  Seekable sty a ∧ ∃ t, Spec.Continues sty a t b ∧ t.value = v ∧ ∃ u c, Next sty a u c ∧ u.value = .punct p!"}" ∧ u.fol = f

/-- A regular expression. -/
def TR (sty : SourceType) (s : Str) (f : Bool) (a b : Point) : Prop :=
  Seekable sty a ∧ ∃ t, RegexAt sty s t a b ∧ t.fol = f ∧ TokVal.lit (.regexp s) = .lit (.regexp s)

/-- The item is a token. -/
def isTok : Item → Bool
  | .tok _ => true
  | _ => false

theorem run_nil : Run sty mini f a [] z ↔ z = a := Iff.rfl
theorem run_gap : Run sty mini f a (.gap :: is) z ↔ Run sty mini f a is z := Iff.rfl
theorem run_nl : Run sty mini f a (.nl :: is) z ↔ Run sty mini (!mini || f) a is z := Iff.rfl
theorem run_blank : Run sty mini f a (.blank :: is) z ↔ Run sty mini f a is z := Iff.rfl
theorem run_close : Run sty mini f a (.close :: is) z ↔ Run sty mini f a is z := Iff.rfl
theorem run_semi : Run sty mini f a (.semi :: is) z ↔ ∃ b, Semi sty f a b ∧ Run sty mini false b is z := Iff.rfl
theorem run_open : Run sty mini f a (.open :: is) z ↔ Run sty mini (!mini || f) a is z := Iff.rfl
theorem run_sep : Run sty mini f a (.sep :: is) z ↔ Run sty mini f a is z := Iff.rfl
theorem run_still : Run sty mini f a (.still :: is) z ↔ Run sty mini f a is z := Iff.rfl
theorem run_single {p : Bool} : Run sty mini f a (.single p :: is) z ↔ Run sty mini f a is z := Iff.rfl
theorem run_next {q : TokVal → Bool → Bool} : Run sty mini f a (.next q :: is) z ↔ Look sty a (fun t => q t.value t.fol = true) ∧ Run sty mini f a is z :=
  Iff.rfl
theorem run_notNext {u : TokVal} : Run sty mini f a (notNext u :: is) z ↔ Look sty a (fun t => (t.value != u) = true) ∧ Run sty mini f a is z := Iff.rfl
theorem run_sameLine : Run sty mini f a (sameLine :: is) z ↔ Look sty a (fun t => (!t.fol) = true) ∧ Run sty mini f a is z := Iff.rfl
theorem run_next2 {q : TokVal → TokVal → Bool} : Run sty mini f a (.next2 q :: is) z ↔
    (∀ t b u c, Next sty a t b → Next sty b u c → symbol t.value = none ∨ (∃ k, t.value = .keyword k) → q t.value u.value = true) ∧
    Run sty mini f a is z := Iff.rfl
theorem run_more : Run sty mini f a (.more :: is) z ↔ (∃ t b, Next sty a t b) ∧ Run sty mini f a is z := Iff.rfl
theorem run_lexed : Run sty mini f a (.lexed :: is) z ↔ (AtEnd sty a ∨ ∃ t b, Next sty a t b) ∧ Run sty mini f a is z := Iff.rfl
theorem run_demand {p : Bool} : Run sty mini f a (.demand p :: is) z ↔ p = true ∧ Run sty mini f a is z := Iff.rfl
theorem run_word : Run sty mini f a (word n :: is) z ↔ ∃ b, T sty (nameVal n) f a b ∧ Run sty mini false b is z := Iff.rfl
theorem run_pu {p : Punct} : Run sty mini f a (pu p :: is) z ↔ ∃ b, T sty (.punct p) f a b ∧ Run sty mini false b is z := Iff.rfl
theorem run_strItem {s : LitString} : Run sty mini f a (strItem s :: is) z ↔ ∃ b, T sty (.lit (.string s)) f a b ∧ Run sty mini false b is z := Iff.rfl
theorem run_numItem {s : Str} : Run sty mini f a (numItem s :: is) z ↔ ∃ b, T sty (.lit (.number s)) f a b ∧ Run sty mini false b is z := Iff.rfl
theorem run_regexItem {s : Str} : Run sty mini f a (regexItem s :: is) z ↔ ∃ b, TR sty s f a b ∧ Run sty mini false b is z := Iff.rfl
theorem run_templateEndT {s : Str} : Run sty mini f a (templateEnd true s :: is) z ↔ ∃ b, T sty (.lit (.template s)) f a b ∧ Run sty mini false b is z := Iff.rfl
theorem run_templateEndF {s : Str} : Run sty mini f a (templateEnd false s :: is) z ↔ ∃ b, TC sty (.templateTail s) f a b ∧ Run sty mini false b is z := Iff.rfl
theorem run_templateSubT {s : Str} : Run sty mini f a (templateSub true s :: is) z ↔ ∃ b, T sty (.templateHead s) f a b ∧ Run sty mini false b is z := Iff.rfl
theorem run_templateSubF {s : Str} : Run sty mini f a (templateSub false s :: is) z ↔ ∃ b, TC sty (.templateMiddle s) f a b ∧ Run sty mini false b is z := Iff.rfl
theorem run_gapIf {p : Bool} : Run sty mini f a (gapIf p ++ is) z ↔ Run sty mini f a is z := by cases p <;> exact Iff.rfl

theorem isTok_word : isTok (word n) = true := rfl
theorem isTok_pu {p : Punct} : isTok (pu p) = true := rfl
theorem isTok_strItem {s : LitString} : isTok (strItem s) = true := rfl
theorem isTok_numItem {s : Str} : isTok (numItem s) = true := rfl
theorem isTok_regexItem {s : Str} : isTok (regexItem s) = true := rfl
theorem isTok_templateEnd {p : Bool} {s : Str} : isTok (templateEnd p s) = true := by cases p <;> rfl
theorem isTok_templateSub {p : Bool} {s : Str} : isTok (templateSub p s) = true := by cases p <;> rfl

theorem isTok_oper {s : Str} : isTok (oper s) = true := by unfold oper; split <;> rfl

/-- Reading items that contain a token. -/
theorem run_first (h : Run sty mini f a is z) (ht : is.any isTok = true) : (∃ t b, Next sty a t b) ∧ Seekable sty a := by
  induction is generalizing f with
  | nil => simp at ht
  | cons i is ih =>
    cases i with
    | tok l =>
      obtain ⟨b, h1, -⟩ := h
      obtain ⟨t, c, h2, -⟩ := step_next h1
      exact ⟨⟨t, c, h2⟩, h1.1⟩
    | next | next2 | more | lexed | demand => exact ih h.2 (by simpa [isTok] using ht)
    | semi =>
      obtain ⟨b, h1 | ⟨rfl, -, -⟩, h2⟩ := h
      · obtain ⟨t, c, h2, -⟩ := step_next h1
        exact ⟨⟨t, c, h2⟩, h1.1⟩
      · exact ih h2 (by simpa [isTok] using ht)
    | _ => exact ih (f := _) h (by simpa [isTok] using ht)

theorem run_from (h : Run sty mini f a is z) (ht : is.any isTok = true) : ∃ sp, From sty a z sp :=
  let ⟨⟨t, b, h1⟩, _⟩ := run_first h ht; ⟨_, t, b, h1, rfl⟩

/-! ## Names -/

/-- An identifier is not empty and not a keyword. -/
def Real (t : Token) : Prop := ∀ n, t.value = .ident n → nameVal n = .ident n ∧ n ≠ []

theorem lexeme_real {regex : Bool} {t : Token} {w rest : Str} (h : Lexeme regex t.value w rest) : Real t := by
  intro n hn
  rw [hn] at h
  cases h with
  | ident h6 h7 =>
    constructor
    · unfold nameVal
      cases hf : Keyword.fromStr n with
      | none => rfl
      | some k => exact absurd (fromStr_some hf) (h7 k)
    · rintro rfl
      obtain ⟨⟨c, r, h, -⟩, -⟩ := h6.valid; cases h

theorem ident_value {t : Token} {id : Ident} (h : Real t) (h' : IdentTok ctx t id) : nameVal id.name = t.value ∧ id.name ≠ [] := by
  cases h' with
  | ident h1 => exact ⟨(h _ h1).1.trans h1.symm, (h _ h1).2⟩
  | @keyword k h1 h2 => exact ⟨by simp only [nameVal, fromStr_asStr, h1], fun h => absurd (show k.asStr = [] from h) (by cases k <;> decide)⟩

theorem name_value {t : Token} {id : Ident} (h : Real t) (h' : NameTok t id) : nameVal id.name = t.value := by
  cases h' with
  | ident h1 => exact (h _ h1).1.trans h1.symm
  | keyword h1 => simp only [nameVal, fromStr_asStr, h1]

/-- An identifier is read again. -/
theorem ident_again {t : Token} {id : Ident} (h : Real t) (h' : IdentTok ctx t id) (hx : T sty (nameVal id.name) f x y) :
    ∃ u, Next sty x u y ∧ u.value = t.value ∧ u.fol = f ∧ ∀ c : Ctx, c.kw = ctx.kw → IdentTok c u ⟨u.span, id.name⟩ := by
  obtain ⟨-, u, h1, h2, h3⟩ := hx
  rw [(ident_value h h').1] at h2
  refine ⟨u, h1, h2, h3, fun c hc => ?_⟩
  cases h' with
  | ident h4 => exact .ident (h2.trans h4)
  | keyword h4 h5 => exact .keyword (h2.trans h4) (by rw [hc]; exact h5)

theorem name_again {t : Token} {id : Ident} (h : Real t) (h' : NameTok t id) (hx : T sty (nameVal id.name) f x y) :
    ∃ u, Next sty x u y ∧ u.value = t.value ∧ u.fol = f ∧ NameTok u ⟨u.span, id.name⟩ := by
  obtain ⟨-, u, h1, h2, h3⟩ := hx
  rw [name_value h h'] at h2
  refine ⟨u, h1, h2, h3, ?_⟩
  cases h' with
  | ident h4 => exact .ident (h2.trans h4)
  | keyword h4 => exact .keyword (h2.trans h4)

/-- An operator is read again. -/
theorem oper_again {s : Str} (hs : (∃ p, Punct.fromStr s = some p) ∨ ∃ k, Keyword.fromStr s = some k) (hx : Run sty mini f x (oper s :: is) z) :
    ∃ u y, Next sty x u y ∧ symbol u.value = some s ∧ u.fol = f ∧ Run sty mini false y is z := by
  unfold oper at hx
  cases hp : Punct.fromStr s with
  | some p =>
    simp only [hp] at hx
    obtain ⟨y, ⟨-, u, h1, h2, h3⟩, h4⟩ := hx
    refine ⟨u, y, h1, ?_, h3, h4⟩
    have h2 : u.value = .punct p := h2
    rw [h2, symbol, punct_asStr hp]
  | none =>
    simp only [hp] at hx
    obtain ⟨y, ⟨-, u, h1, h2, h3⟩, h4⟩ := hx
    refine ⟨u, y, h1, ?_, h3, h4⟩
    obtain ⟨k, hk⟩ : ∃ k, Keyword.fromStr s = some k := by
      rcases hs with ⟨p, h⟩ | h
      · rw [hp] at h; cases h
      · exact h
    have h2 : u.value = nameVal s := h2
    rw [h2, nameVal, hk, symbol, fromStr_some hk]

/-! ## Grammar symbols -/

/-- Derived whether or not `in` is an operator, unless it must be one. -/
def Up (sty : SourceType) (ctx : Ctx) (g : CNode) (x y : Point) : Prop :=
  ∀ v : Bool, (ctx.in_ = true → v = true) → Derives sty { ctx with in_ := v } g x y

theorem Up.same {g : CNode} (h : Up sty ctx g x y) : Derives sty ctx g x y := h ctx.in_ id
theorem Up.on {g : CNode} (h : Up sty { ctx with in_ := true } g x y) : Derives sty { ctx with in_ := true } g x y := h true fun _ => rfl

/-- The items of parameters in parentheses (`none`: there are no parameters) can also be read as an expression or up to a place where it
is clear that they are parameters. -/
def Cover (sty : SourceType) (ctx : Ctx) (none : Bool) (x y : Point) : Prop :=
  (∃ t c, Next sty x t c) ∧ (none = true ∧ Sym sty p!")" x y ∨
    (∃ e q o, Derives sty { ctx with in_ := true } (.expr 1 e) x q ∧ (o = q ∨ ∃ es, Derives sty { ctx with in_ := true } (.exprs es) q o) ∧
      Sym sty p!")" o y) ∨
    ∃ s w, Derives sty { ctx with in_ := true } (.stops s) x w)

/-- A pattern that is not a name can be read as a pattern of an assignment, and as a literal up to an initialized name. -/
def CoverPattern (sty : SourceType) (ctx : Ctx) (p : BindingPattern) (x y : Point) : Prop :=
  coverPattern p = true → (∃ i, p = .ident i) ∨ Seekable sty x ∧ (∃ q, Derives sty ctx (.assignPattern q) x y) ∧
    (initPattern p = false → ∃ sp l, ((∃ ps, l = .object ps) ∨ ∃ es, l = .array es) ∧ Derives sty ctx (.expr 21 (.literal sp l)) x y) ∧
    (initPattern p = true → ∃ i b, Derives sty ctx (.initLit i) x b)

/-- An element can be read as an element of a pattern of an assignment, and as an expression up to an initialized name. -/
def CoverElement (sty : SourceType) (ctx : Ctx) (e : BindingElement) (x y : Point) : Prop :=
  coverElement e = true → (∃ q, Derives sty ctx (.assignElement q) x y) ∧
    (initElement e = false → ∃ d, Derives sty ctx (.expr 1 d) x y) ∧
    (initElement e = true → Ends sty ctx 1 y → ∃ i, Derives sty ctx (.stop (.init i)) x y)

/-- As `CoverElement`, for a property. -/
def CoverProp (sty : SourceType) (ctx : Ctx) (p : BindingProp) (x y : Point) : Prop :=
  coverProp p = true → (∃ q, Derives sty ctx (.assignProp q) x y) ∧
    (initProp p = false → ∃ d, Derives sty ctx (.prop d) x y) ∧
    (initProp p = true → Ends sty ctx 1 y → ∃ i b, Derives sty ctx (.initProps i) x b)

/-- As `CoverElement`, for the properties of an object. -/
def CoverProps (sty : SourceType) (ctx : Ctx) (ps : List BindingProp) (r : Option BindingPattern) (x y : Point) : Prop :=
  coverProps ps = true → coverRest r = true → (∃ q s, Derives sty ctx (.assignProps q s) x y) ∧
    (initProps ps = false → ∃ d, Derives sty ctx (.props d) x y) ∧
    (initProps ps = true → ∃ i b, Derives sty ctx (.initProps i) x b)

/-- As `CoverElement`, for the elements of an array. -/
def CoverElements (sty : SourceType) (ctx : Ctx) (es : List (Option BindingElement)) (r : Option BindingPattern) (x y : Point) : Prop :=
  coverElements es = true → coverRest r = true → (∃ q s, Derives sty ctx (.assignElements q s) x y) ∧
    (initElements es = false → ∃ d, Derives sty ctx (.elements d) x y) ∧
    (initElements es = true → ∃ i b, Derives sty ctx (.initElements i) x b)

/-- The symbol, with the same tree up to spans, is derived between the points. -/
def Again (sty : SourceType) (ctx : Ctx) (x y : Point) : CNode → Prop
  | .expr l e => ∃ e', e'.strip = e.strip ∧ Up sty ctx (.expr l e') x y
  | .exprs es => ∃ es', stripExprs es' = stripExprs es ∧ Up sty ctx (.exprs es') x y
  | .newE e => ∃ e', e'.strip = e.strip ∧ Up sty ctx (.newE e') x y
  | .callE e => ∃ e', e'.strip = e.strip ∧ Up sty ctx (.callE e') x y
  | .chain e => ∃ e', e'.strip = e.strip ∧ Up sty ctx (.chain e') x y
  | .args _ as => ∃ sp as', stripArguments as' = stripArguments as ∧ Up sty ctx (.args sp as') x y
  | .argList as => ∃ as', stripArguments as' = stripArguments as ∧ Up sty ctx (.argList as') x y
  | .arg a => ∃ a', a'.strip = a.strip ∧ Up sty ctx (.arg a') x y
  | .template ps => ∃ ps', stripTemplateParts ps' = stripTemplateParts ps ∧ Up sty ctx (.template ps') x y
  | .templateRest ps => ∃ ps', stripTemplateParts ps' = stripTemplateParts ps ∧ Up sty ctx (.templateRest ps') x y
  | .memberProp p => ∃ p', p'.strip = p.strip ∧ Up sty ctx (.memberProp p') x y
  | .optProp o p => ∃ p', p'.strip = p.strip ∧ Up sty ctx (.optProp o p') x y
  | .elements es => ∃ es', stripArrayElements es' = stripArrayElements es ∧ Up sty ctx (.elements es') x y
  | .element e => ∃ e', e'.strip = e.strip ∧ Up sty ctx (.element e') x y
  | .props ps => ∃ ps', stripPropDefs ps' = stripPropDefs ps ∧ Up sty ctx (.props ps') x y
  | .prop p => ∃ p', p'.strip = p.strip ∧ Up sty ctx (.prop p') x y
  | .propName n => ∃ n', n'.strip = n.strip ∧ Up sty ctx (.propName n') x y
  | .initializer e => ∃ e', stripOptExpr e' = stripOptExpr e ∧ Up sty ctx (.initializer e') x y
  | .binding p => (∃ p', p'.strip = p.strip ∧ Up sty ctx (.binding p') x y) ∧ CoverPattern sty { ctx with in_ := true } p x y
  | .bindingElement e => (∃ e', e'.strip = e.strip ∧ Up sty ctx (.bindingElement e') x y) ∧ CoverElement sty { ctx with in_ := true } e x y ∧
      (simpleParam e = true → initElement e = false → ∃ d, Derives sty { ctx with in_ := true } (.expr 1 d) x y)
  | .bindingProp p => (∃ p', p'.strip = p.strip ∧ Up sty ctx (.bindingProp p') x y) ∧ CoverProp sty { ctx with in_ := true } p x y
  | .bindingProps ps r => (∃ ps' r', stripBindingProps ps' = stripBindingProps ps ∧ stripOptBindingPattern r' = stripOptBindingPattern r ∧
      Up sty ctx (.bindingProps ps' r') x y) ∧ CoverProps sty { ctx with in_ := true } ps r x y
  | .bindingElements es r => (∃ es' r', stripOptBindingElements es' = stripOptBindingElements es ∧
      stripOptBindingPattern r' = stripOptBindingPattern r ∧ Up sty ctx (.bindingElements es' r') x y) ∧
      CoverElements sty { ctx with in_ := true } es r x y
  | .arrowBody b => ∃ b', b'.strip = b.strip ∧ Up sty ctx (.arrowBody b') x y
  | .forDecl d => ∃ d', d'.strip = d.strip ∧ Up sty ctx (.forDecl d') x y
  | .params p => (∃ p', p'.strip = p.strip ∧ Up sty ctx (.params p') x y) ∧
      (simpleParams p = true → Seekable sty x ∧ ∃ m, Sym sty p!"(" x m ∧ (∃ e, Cover sty ctx e m y) ∧
        (argumentParams p = true → ∃ as, Derives sty { ctx with in_ := true } (.argList as) m y))
  | .paramList es r => (∃ es' r', stripBindingElements es' = stripBindingElements es ∧
      stripOptBindingPattern r' = stripOptBindingPattern r ∧ Up sty ctx (.paramList es' r') x y) ∧
      (simpleParams (.mk nowhere es r) = true → Cover sty ctx (es.isEmpty && r.isNone) x y ∧
        (argumentParams (.mk nowhere es r) = true → ∃ as, Derives sty { ctx with in_ := true } (.argList as) x y))
  | .body b => ∃ b', b'.strip = b.strip ∧ Up sty ctx (.body b') x y
  | .method m => ∃ m', m'.strip = m.strip ∧ Up sty ctx (.method m') x y
  | .classElement m => ∃ m', m'.strip = m.strip ∧ Up sty ctx (.classElement m') x y
  | .classBody s ms => ∃ ms', stripMethodDefs ms' = stripMethodDefs ms ∧ Up sty ctx (.classBody s ms') x y
  | .classTail e ms => ∃ e' ms', stripOptExpr e' = stripOptExpr e ∧ stripMethodDefs ms' = stripMethodDefs ms ∧
      Up sty ctx (.classTail e' ms') x y
  | .directives ds => Up sty ctx (.directives ds) x y
  | .varDecl v => ∃ v', v'.strip = v.strip ∧ Up sty ctx (.varDecl v') x y
  | .varDecls vs => ∃ vs', stripVarDecls vs' = stripVarDecls vs ∧ Up sty ctx (.varDecls vs') x y
  | .optExpr e => ∃ e', stripOptExpr e' = stripOptExpr e ∧ Up sty ctx (.optExpr e') x y
  | .stmt s => ∃ s', s'.strip = s.strip ∧ Up sty ctx (.stmt s') x y
  | .decl s => ∃ s', s'.strip = s.strip ∧ Up sty ctx (.decl s') x y
  | .item s => ∃ s', s'.strip = s.strip ∧ Up sty ctx (.item s') x y
  | .stmts ss => ∃ ss', stripStmts ss' = stripStmts ss ∧ Up sty ctx (.stmts ss') x y
  | .items ss => AtEnd sty y → ∃ ss', stripStmts ss' = stripStmts ss ∧ Up sty ctx (.items ss') x y
  | .block b => ∃ b', b'.strip = b.strip ∧ Up sty ctx (.block b') x y
  | .catchClause c => ∃ c', c'.strip = c.strip ∧ Up sty ctx (.catchClause c') x y
  | .case c => ∃ c', c'.strip = c.strip ∧ Up sty ctx (.case c') x y
  | .caseStmts ss => ∃ ss', stripStmts ss' = stripStmts ss ∧ Up sty ctx (.caseStmts ss') x y
  | .cases cs => ∃ cs', stripSwitchCases cs' = stripSwitchCases cs ∧ Up sty ctx (.cases cs') x y
  | .forInit i => ∃ i', stripOptForInit i' = stripOptForInit i ∧ Up sty ctx (.forInit i') x y
  | _ => True

/-- Expressions, each with a comma in front. -/
def tailItems : List Expr → List Item
  | [] => []
  | e :: es => pu p!"," :: .gap :: e.items ++ tailItems es

/-- The items of a symbol. -/
def itemsOf : CNode → List Item
  | .expr _ e | .newE e | .callE e | .chain e => e.items
  | .exprs es => tailItems es
  | .args _ as => pu p!"(" :: commaItems (argItems as) ++ [pu p!")"]
  | .argList as => commaItems (argItems as) ++ [pu p!")"]
  | .arg a => a.items
  | .template ps => partItems true [] ps
  | .templateRest (.expr e :: ps) => e.items ++ partItems false [] ps
  | .memberProp p => p.items
  | .optProp o p => if o then p.optItems else p.items
  | .elements es => .demand (lastNotHole es) :: commaItems (arrayItems es) ++ [pu p!"]"]
  | .element e => e.items
  | .props ps => commaItems (propItems ps) ++ [pu p!"}"]
  | .prop p => p.items
  | .propName n => n.items
  | .initializer e => initItems e
  | .binding p => p.items
  | .bindingElement e => e.items
  | .bindingProp p => p.items
  | .bindingProps ps r => commaItems (bindingPropItems ps) ++ restItems (!ps.isEmpty) r ++ [pu p!"}"]
  | .bindingElements es r => .demand (noHoleBeforeRest es r) :: optElementItems es ++ restItems (!es.isEmpty) r ++ [pu p!"]"]
  | .arrowBody b => b.items
  | .forDecl d => d.items
  | .params p => p.items
  | .paramList es r => commaItems (bindingElementItems es) ++ restItems (!es.isEmpty) r ++ [pu p!")"]
  | .body b => b.items
  | .method (.mk sp n k ps bd g y _) => (MethodDef.mk sp n k ps bd g y false).items
  | .classElement m => m.items
  | .classBody _ ms => elementItems ms ++ [.close, pu p!"}"]
  | .classTail e ms => extendsItems e ++ blockItems (elementItems ms)
  | .directives ds => directiveItems ds ++ [notString]
  | .varDecl v => v.items
  | .varDecls vs => varDeclItems vs
  | .optExpr e => spacedItems e
  | .stmt s | .decl s | .item s => s.items
  | .stmts ss => stmtItems ss ++ [.close, pu p!"}"]
  | .items ss => stmtItems ss
  | .block b => b.items
  | .catchClause c => word c!"catch" :: .gap :: c.items
  | .case c => c.items
  | .caseStmts ss => stmtItems ss ++ caseEnd
  | .cases cs => caseItems cs ++ [.close, pu p!"}"]
  | .forInit i => forInitItems i
  | _ => [.demand false]

/-- What is shown for every derived symbol. -/
def Re (sty : SourceType) (mini : Bool) (ctx : Ctx) (g : CNode) : Prop := ∀ ⦃f : Bool⦄ ⦃x y : Point⦄, Run sty mini f x (itemsOf g) y → Again sty ctx x y g

end Fajt.Print
