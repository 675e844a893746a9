import Verif.Proofs.PrintRules
/-!
# The generator writes the items of every tree
-/
namespace Fajt.Print
open Fajt Spec
set_option linter.unusedSectionVars false
set_option linter.unusedSimpArgs false
set_option linter.unusedVariables false
variable [UnicodeID]

/-! ## What is written at the end of the lines of a block -/

theorem open_nl {is : List Item} (h : is.getLast? = some .nl) (s : Lay) : (s.run (pretty is)).open = false := by
  obtain ⟨js, rfl⟩ := List.getLast?_eq_some_iff.1 h
  rw [pretty_append, run_snoc]; rfl

theorem stmt_open (x : Stmt) (s : Lay) : (s.run (pretty x.items)).open = false := by
  refine open_nl ?_ s
  cases x <;> simp [Stmt.items, List.getLast?_append, List.getLast?_cons]

theorem stmts_open : ∀ (ss : List Stmt) (s : Lay), s.open = false → (s.run (pretty (stmtItems ss))).open = false
  | [], _, h => h
  | x :: ss, s, _ => by
    rw [stmtItems, pretty_append, run_snoc]
    exact stmts_open ss _ (stmt_open x s)

theorem stmts_open' {ss : List Stmt} (h : stmtItems ss ≠ []) (s : Lay) : (s.run (pretty (stmtItems ss))).open = false := by
  cases ss with
  | nil => exact absurd (by simp [stmtItems]) h
  | cons x ss =>
    rw [stmtItems, pretty_append, run_snoc]
    exact stmts_open ss _ (stmt_open x s)

theorem directives_open : ∀ (ds : List LitString) (s : Lay), s.open = false ∨ ds ≠ [] → (s.run (pretty (directiveItems ds))).open = false
  | [], _, h => by simpa [directiveItems, pretty, Lay.run] using h
  | d :: ds, s, _ => directives_open ds _ (.inl rfl)

theorem elements_open : ∀ (ms : List MethodDef) (s : Lay), s.open = false ∨ ms ≠ [] → (s.run (pretty (elementItems ms))).open = false
  | [], _, h => by simpa [elementItems, pretty, Lay.run] using h
  | m :: ms, s, _ => by
    rw [elementItems, pretty_append, run_snoc]
    exact elements_open ms _ (.inl rfl)

theorem case_open (x : SwitchCase) (s : Lay) : (s.run (pretty x.items)).open = false := by
  cases x with
  | mk _ t ss =>
    rw [SwitchCase.items, pretty_append, pretty_append, run_snoc, run_snoc]
    show (((s.run (pretty (caseTestItems t))).run (pu p!":" :: .nl :: pretty (stmtItems ss))).run (pretty caseEnd)).open = false
    exact stmts_open ss _ rfl

theorem cases_open : ∀ (xs : List SwitchCase) (s : Lay), s.open = false ∨ xs ≠ [] → (s.run (pretty (caseItems xs))).open = false
  | [], _, h => by simpa [caseItems, pretty, Lay.run] using h
  | x :: xs, s, _ => by
    rw [caseItems, pretty_append, run_snoc]
    exact cases_open xs _ (.inl (case_open x s))

theorem block_at {f : GCtx → GAct} {lines : List Item} (h : WritesC f lines) (h0 : lines = [] → ∀ c g, f c g = g)
    (h1 : lines ≠ [] → ∀ s : Lay, (s.run (pretty lines)).open = false) :
    WritesC (fun c g => (Gen.child (f c.indented) (g.startBlock c)).endBlock c) (blockItems lines) := fun mini c hc s ts g js hg =>
  At.block hc (h.at (c := c.indented) hc) (fun hl g => h0 hl _ g) h1 hg

theorem elements_block {ms : List MethodDef} (h : WritesC (fun c => elementsGen c ms) (elementItems ms)) :
    WritesC (fun c g => (Gen.child (elementsGen c.indented ms) (g.startBlock c)).endBlock c) (blockItems (elementItems ms)) := by
  refine block_at (f := fun c => elementsGen c ms) h (fun hl c g => ?_) (fun hl s => elements_open ms s (.inr ?_))
  · cases ms with
    | nil => simp [elementsGen]
    | cons => simp [elementItems] at hl
  · rintro rfl; exact hl (by simp [elementItems])

theorem cases_block {ms : List SwitchCase} (h : WritesC (fun c => casesGen c ms) (caseItems ms)) :
    WritesC (fun c g => (Gen.child (casesGen c.indented ms) (g.startBlock c)).endBlock c) (blockItems (caseItems ms)) := by
  refine block_at (f := fun c => casesGen c ms) h (fun hl c g => ?_) (fun hl s => cases_open ms s (.inr ?_))
  · cases ms with
    | nil => simp [casesGen]
    | cons x => cases x; simp [caseItems, SwitchCase.items] at hl
  · rintro rfl; exact hl (by simp [caseItems])

theorem stmt_items_ne (x : Stmt) : x.items ≠ [] := by cases x <;> simp [Stmt.items]

theorem stmts_block {ss : List Stmt} (h : WritesC (fun c => stmtsGen c ss) (stmtItems ss)) :
    WritesC (fun c g => (Gen.child (stmtsGen c.indented ss) (g.startBlock c)).endBlock c) (blockItems (stmtItems ss)) := by
  refine block_at (f := fun c => stmtsGen c ss) h (fun hl c g => ?_) (fun hl s => stmts_open' hl s)
  cases ss with
  | nil => simp [stmtsGen]
  | cons x xs => simp [stmtItems, stmt_items_ne] at hl

theorem body_at {ds : List LitString} {ss : List Stmt} (h : WritesC (fun c => stmtsGen c ss) (stmtItems ss)) (sp : Span) :
    WritesC (fun c g => (Gen.child (fun g => stmtsGen c.indented ss (g.directives c.indented ds)) (g.startBlock c)).endBlock c)
      (Body.mk sp ds ss).items := by
  have hl : WritesC (fun c g => stmtsGen c ss (g.directives c ds)) (directiveItems ds ++ stmtItems ss) := fun mini c hc s ts g js hg => by
    rw [← List.append_assoc]
    exact h hc (directives_at ds hc hg)
  have := block_at hl (fun hl c g => ?_) (fun hl s => ?_)
  · intro mini c hc s ts g js hg
    refine At.notes ?_ (this hc hg)
    unfold blockItems
    simp only [bare_append, Body.items]
    cases ds with
    | nil =>
      cases ss with
      | nil => simp [directiveItems, stmtItems]
      | cons x xs => simp [directiveItems, stmtItems, bare_append, notString, stmt_items_ne]
    | cons d ds => simp [directiveItems, bare_append, notString]
  · cases ds with
    | nil =>
      cases ss with
      | nil => simp [stmtsGen, Gen.directives]
      | cons x xs => simp [directiveItems, stmtItems, stmt_items_ne] at hl
    | cons d ds => simp [directiveItems] at hl
  · rw [pretty_append, run_snoc]
    cases ss with
    | nil =>
      simp only [stmtItems, pretty, Lay.run, List.foldl_nil]
      refine directives_open ds s (.inr ?_)
      rintro rfl; exact hl (by simp [directiveItems, stmtItems])
    | cons x xs => exact stmts_open' (by simp [stmtItems, stmt_items_ne]) _

/-- A template after its first character. -/
abbrev PartsC (ps : List TemplatePart) : Prop := ∀ ⦃mini : Bool⦄ ⦃c : GCtx⦄, c.minified = mini → ∀ ⦃s ts g js⦄ (first : Bool) (u : Str),
  MidAt mini s ts g js ((if first then '`' else '}') :: u) → At mini s ts ((partsGen c ps g).char c '`') (js ++ partItems first u ps)

theorem alnum_tick : UnicodeID.alphanumeric '`' = false := alnum_of (by decide) (by decide)
theorem alnum_brace : UnicodeID.alphanumeric '}' = false := alnum_of (by decide) (by decide)
theorem alnum_dollar : UnicodeID.alphanumeric '$' = false := alnum_of (by decide) (by decide)

theorem parts_nil : PartsC [] := fun mini c hc s ts g js first u h => by
  simp only [partsGen, id, partItems, templateEnd]
  have h1 := mid_charB hc h '`'
  cases first
  · exact mid_tokB (l := ⟨.cont, .templateTail u, '}' :: u ++ ['`']⟩) (by simpa using h1) (by simp [Gen.isAlnum, alnum_brace])
  · exact mid_tokB (l := ⟨.plain, .lit (.template u), '`' :: u ++ ['`']⟩) (by simpa using h1) (by simp [Gen.isAlnum, alnum_tick])

theorem single_at {mini : Bool} {s : Lay} {ts : List (Lex × Bool)} {g : Gen} {js : List Item} {u : Str} (h : MidAt mini s ts g js u) :
    MidAt mini s ts g (js ++ [.single true]) u := by
  cases mini with
  | false =>
    show MidAt0 _ _ _ (pretty _) _
    rw [pretty_append]
    intro hw
    rw [writable_append] at hw
    have := h hw.1
    rw [run_snoc, flags_append]
    simpa [Lay.run, Lay.next, flags, pretty] using this
  | true =>
    intro hs
    rw [h (sound_append.1 hs).1, emit_append]
    rfl

/-- If the strings of the template are in one piece whenever the items are written, they can be assumed to be. -/
theorem single_of {mini : Bool} {s : Lay} {ts : List (Lex × Bool)} {g : Gen} {js is : List Item} {b : Bool}
    (h : b = true → At mini s ts g (js ++ .single b :: is)) : At mini s ts g (js ++ .single b :: is) := by
  cases mini with
  | false =>
    intro hw
    refine h ?_ hw
    rw [pretty_append, writable_append] at hw
    exact hw.2.1
  | true =>
    intro hs
    exact h (hs (.single b) (by simp)) hs

theorem parts_string {t : Str} {ps : List TemplatePart} (ih : PartsC ps) : PartsC (.string t :: ps) := fun mini c hc s ts g js first u h => by
  simp only [partsGen, TemplatePart.gen, partItems]
  refine single_of fun hu => ?_
  obtain rfl : u = [] := by simpa using hu
  have h1 : MidAt mini s ts (g.string c t) js ((if first then '`' else '}') :: t) := by
    refine mid_stringB hc h t (by simp) ?_
    cases first <;> simp [bothAlnum, alnum_tick, alnum_brace]
  have := ih hc first t (single_at h1)
  simpa using this

theorem parts_expr {e : Expr} {ps : List TemplatePart} (he : WritesC (fun c => e.gen c) e.items) (ih : PartsC ps) :
    PartsC (.expr e :: ps) := fun mini c hc s ts g js first u h => by
  simp only [partsGen, TemplatePart.gen, partItems, templateSub]
  have h1 : MidAt mini s ts (g.string c c!"${") js ((if first then '`' else '}') :: u ++ ['$', '{']) := by
    refine mid_stringB hc h ['$', '{'] (by simp) ?_
    simp [bothAlnum, alnum_dollar]
  have h2 : At mini s ts (g.string c c!"${") (js ++ [templateSub first u]) := by
    unfold templateSub
    cases first
    · exact mid_tokB (l := ⟨.cont, .templateMiddle u, '}' :: u ++ ['$', '{']⟩) (by simpa using h1) (by simp [Gen.isAlnum, alnum_brace])
    · exact mid_tokB (l := ⟨.plain, .templateHead u, '`' :: u ++ ['$', '{']⟩) (by simpa using h1) (by simp [Gen.isAlnum, alnum_tick])
  have h3 := he hc h2
  have h4 := char_midB hc (x := '}') h3
  have := ih hc false [] (by simpa using h4)
  simpa [templateSub] using this

theorem template_at {ps : List TemplatePart} (h : PartsC ps) :
    WritesC (fun c g => (partsGen c ps (g.char c '`')).char c '`') (partItems true [] ps) := fun mini c hc s ts g js hg =>
  h hc true [] (char_midB hc (x := '`') hg)

/-- The declarations of a variable statement, in front of the last semicolon. -/
abbrev DeclsC (ds : List VarDecl) : Prop := ∃ f : GCtx → GAct, WritesC f (varDeclItems ds) ∧
  ∀ c g, varDeclsGen c ds g = if ds = [] then f c g else (f c g).char c ';'

theorem decls_nil : DeclsC [] := ⟨fun _ => id, fun mini c hc s ts g js hg => by simpa [varDeclItems] using hg, fun c g => by simp [varDeclsGen]⟩

theorem decls_cons {d : VarDecl} {ds : List VarDecl} (h : WritesC (fun c => d.gen c) d.items) (ih : DeclsC ds) : DeclsC (d :: ds) := by
  cases ds with
  | nil =>
    refine ⟨fun c => d.gen c, ?_, fun c g => by simp [varDeclsGen]⟩
    simpa [varDeclItems] using h
  | cons d' ds =>
    obtain ⟨f, h1, h2⟩ := ih
    refine ⟨fun c g => f c (if d.hasInit then ((d.gen c g).char c ',').newLine c else ((d.gen c g).char c ',').space c), ?_, fun c g => ?_⟩
    · intro mini c hc s ts g js hg
      rw [varDeclItems]
      have hh : Print.hasInit d = d.hasInit := by cases d; rfl
      rw [hh]
      cases d.hasInit <;> simp only [Bool.false_eq_true, if_true, if_false, List.isEmpty_cons] <;> gw [h1, h] []
    · rw [varDeclsGen]
      simp only [List.isEmpty_cons, Bool.false_eq_true, if_false, h2]
      simp

theorem varStmt_at {sp : Span} {k : VarKind} {ds : List VarDecl} (h : DeclsC ds) : WritesC (fun c => (VarStmt.mk sp k ds).gen c) (VarStmt.mk sp k ds).items := by
  obtain ⟨f, h1, h2⟩ := h
  intro mini c hc s ts g js hg
  have hf : ∀ a, WritesC (fun c => f (c.aligned a)) (varDeclItems ds) := fun a m c hc s ts g js hg => h1 (c := c.aligned a) hc hg
  simp only [VarStmt.gen, VarStmt.items]
  refine At.child ?_
  rw [h2]
  cases ds with
  | nil => simp only [if_true]; gw [hf] [varDeclItems]
  | cons d ds =>
    rw [if_neg (by simp)]
    refine At.noted (At.semi (c := c.aligned _) hc (hf _ hc (At.askCol (At.space hc (At.word hc hg _))))) ?_
    simp [bare_append]

theorem varBare_nil {mini : Bool} {c : GCtx} {s : Lay} {ts : List (Lex × Bool)} {g1 : Gen} {js : List Item} {k : VarKind}
    (hc : c.minified = mini) (hg' : At mini s ts g1 (js ++ [word k.asStr] ++ [.gap])) :
    At mini s ts (Gen.removeLast ';' g1).2 (js ++ [word k.asStr] ++ [.gap]) := by
  cases mini with
  | false =>
    intro hw
    have h3 := hg' hw
    have hne : (Gen.removeLast ';' g1).2 = g1 := by
      obtain ⟨w, b, hd, hcore, -⟩ := h3
      have hb : b ≠ [] := fun hb => by
        have := (hcore.gap (by rw [pretty_append, pretty_append, run_snoc, run_snoc]; exact nofun)).1 hb
        rw [pretty_append, run_snoc] at this
        exact nomatch this
      unfold Gen.removeLast
      rw [if_neg]
      rw [hd, List.getLast?_append]
      rcases List.eq_nil_or_concat b with h | ⟨b1, x, rfl⟩
      · exact absurd h hb
      · simp
        rintro rfl
        rcases hcore.blanks ';' (by simp) with h | h <;> exact absurd h (by decide)
    rw [hne]
    exact h3
  | true =>
    intro hs
    rw [← hg' hs]
    have h3 := hg' hs
    have hl : g1.data.getLast? ≠ some ';' := by
      rw [h3, List.append_assoc, emit_append]
      show (emit1 _ (word k.asStr)).getLast? ≠ _
      generalize emit [] js = w
      cases k <;> simp [emit1, word, VarKind.asStr, List.getLast?_append]
    simp [Gen.removeLast, hl]

theorem varBare_at {sp : Span} {k : VarKind} {ds : List VarDecl} (h : DeclsC ds) :
    WritesC (fun c g => (((VarStmt.mk sp k ds).gen c g).removeLast ';').2) (VarStmt.mk sp k ds).bare := by
  obtain ⟨f, h1, h2⟩ := h
  intro mini c hc s ts g js hg
  simp only [VarStmt.gen, VarStmt.bare]
  have hg' := At.askCol (At.space hc (At.word hc hg k.asStr))
  generalize (((g.string c k.asStr).space c).askCol) = g1 at hg'
  cases ds with
  | nil =>
    have e : Gen.child (varDeclsGen (c.aligned g1.colPos) []) g1 = g1 := by simp [varDeclsGen, Gen.child]
    rw [e]
    simp only [varDeclItems]
    refine At.noted (varBare_nil hc hg') ?_
    simp [bare_append]
  | cons d ds =>
    have h3 := h1 (c := c.aligned g1.colPos) hc hg'
    have e : varDeclsGen (c.aligned g1.colPos) (d :: ds) g1 = (f (c.aligned g1.colPos) g1).char (c.aligned g1.colPos) ';' := by
      rw [h2, if_neg (by simp)]
    have h4 := indent_both (c := c.aligned g1.colPos) hc _ _ _ _ h3
    refine At.noted (h4.congr (g' := (Gen.removeLast ';' (Gen.child (varDeclsGen (c.aligned g1.colPos) (d :: ds)) g1)).2) ?_ ?_ ?_) ?_
    · simp [Gen.removeLast, Gen.child, e, Gen.char, Gen.push]
    · simp [Gen.removeLast, Gen.child, e, Gen.char, Gen.push]
    · simp [Gen.removeLast, Gen.child, e, Gen.char, Gen.push]
    · simp [bare_append]

/-! ## Every tree -/

/-- An optional expression. -/
def optItems : Option Expr → List Item
  | some e => e.items
  | none => []

theorem closeP : Gen.closing '(' = ')' := rfl
theorem closeS : Gen.closing '[' = ']' := rfl
theorem closeC : Gen.closing '{' = '}' := rfl

/-- The function without a line in front of it. -/
def SkipC (x : Stmt) : Prop := WritesC (fun c g => x.gen c { g with skipNextSeparation := true }) (x.items.drop 1)

theorem isFunctionDecl_eq (d : Stmt) : d.isFunctionDecl = isFunction d := by cases d <;> rfl

set_option maxHeartbeats 1000000 in
mutual

theorem _root_.Fajt.Expr.writes : ∀ x : Expr, WritesC (fun c => x.gen c) x.items
  | .arrow _ a b ps y, mini, c, hc, s, ts, g, js, hg => by
    have h0 := ps.writes
    have h1 := ps.bare_writes
    have h2 := y.writes
    cases a <;> cases b <;> simp only [Expr.gen, Expr.items, Bool.false_eq_true, if_true, if_false, ] <;> gw [h0, h1, h2] []
  | .assign _ op l r, mini, c, hc, s, ts, g, js, hg => by
    have h0 := l.writes
    have h1 := r.writes
    simp only [Expr.gen, Expr.items]; gw [h0, h1] []
  | .await _ a, mini, c, hc, s, ts, g, js, hg => by
    have h0 := a.writes
    simp only [Expr.gen, Expr.items]; gw [h0] []
  | .binary _ op l r, mini, c, hc, s, ts, g, js, hg => by
    have h0 := l.writes
    have h1 := r.writes
    simp only [Expr.gen, Expr.items]; gw [h0, h1] []
  | .call _ y _ as, mini, c, hc, s, ts, g, js, hg => by
    have h0 := y.writes
    have h1 := args_each as
    simp only [Expr.gen, Expr.items, Gen.parenthesize, closeP, closeS, closeC, Bool.false_eq_true, if_true, if_false, ]; gw [h0, h1] []
  | .classE _ i sc b, mini, c, hc, s, ts, g, js, hg => by
    have h0 := extends_writes sc
    have h1 := elements_block (elements_writes b)
    have h2 := @optIdent_at
    simp only [Expr.gen, Expr.items]; gw [h0, h1, h2] []
  | .conditional _ y t e, mini, c, hc, s, ts, g, js, hg => by
    have h0 := y.writes
    have h1 := t.writes
    have h2 := e.writes
    simp only [Expr.gen, Expr.items]; gw [h0, h1, h2] []
  | .function _ a gn i ps b, mini, c, hc, s, ts, g, js, hg => by
    have h0 := ps.writes
    have h1 := b.writes
    have h2 := @optIdent_at
    cases a <;> cases gn <;> simp only [Expr.gen, Expr.items, Bool.false_eq_true, if_true, if_false, ] <;> gw [h0, h1, h2] []
  | .ident i, mini, c, hc, s, ts, g, js, hg => by
    simp only [Expr.gen, Expr.items]; gw [] []
  | .literal _ l, mini, c, hc, s, ts, g, js, hg => by
    have h0 := l.writes
    simp only [Expr.gen, Expr.items]; gw [h0] []
  | .logical _ op l r, mini, c, hc, s, ts, g, js, hg => by
    have h0 := l.writes
    have h1 := r.writes
    simp only [Expr.gen, Expr.items]; gw [h0, h1] []
  | .member _ o p, mini, c, hc, s, ts, g, js, hg => by
    have h0 := o.writes
    have h1 := p.writes
    simp only [Expr.gen, Expr.items]; gw [h0, h1] []
  | .metaProp _ o p, mini, c, hc, s, ts, g, js, hg => by
    simp only [Expr.gen, Expr.items]; gw [] []
  | .new _ y asp as, mini, c, hc, s, ts, g, js, hg => by
    have h0 := y.writes
    have h1 := args_each as
    cases asp <;> simp only [Expr.gen, Expr.items, Option.isSome_none, Option.isSome_some, Gen.parenthesize, closeP, closeS, closeC, Bool.false_eq_true, if_true, if_false, ] <;> gw [h0, h1] []
  | .optCall _ y _ as o, mini, c, hc, s, ts, g, js, hg => by
    have h0 := y.writes
    have h1 := args_each as
    cases o <;> simp only [Expr.gen, Expr.items, Gen.parenthesize, closeP, closeS, closeC, Bool.false_eq_true, if_true, if_false, ] <;> gw [h0, h1] []
  | .optMember _ y (.ident i) o, mini, c, hc, s, ts, g, js, hg => by
    have h0 := y.writes
    cases o <;> simp only [Expr.gen, Expr.items, MemberProp.gen, MemberProp.items, MemberProp.optItems, Gen.parenthesize, closeP, closeS, closeC, Bool.false_eq_true, if_true, if_false, ] <;> gw [h0] []
  | .optMember _ y (.expr e) o, mini, c, hc, s, ts, g, js, hg => by
    have h0 := y.writes
    have h1 := e.writes
    cases o <;> simp only [Expr.gen, Expr.items, MemberProp.gen, MemberProp.items, MemberProp.optItems, Gen.parenthesize, closeP, closeS, closeC, Bool.false_eq_true, if_true, if_false, ] <;> gw [h0, h1] []
  | .paren _ y, mini, c, hc, s, ts, g, js, hg => by
    have h0 := y.writes
    simp only [Expr.gen, Expr.items, Gen.parenthesize, closeP, closeS, closeC, Bool.false_eq_true, if_true, if_false, ]; gw [h0] []
  | .sequence _ xs, mini, c, hc, s, ts, g, js, hg => by
    have h0 := exprs_each xs
    simp only [Expr.gen, Expr.items]; gw [h0] []
  | .tagged _ y t, mini, c, hc, s, ts, g, js, hg => by
    have h0 := y.writes
    have h1 := template_at (parts_writes t)
    simp only [Expr.gen, Expr.items]; gw [h0, h1] []
  | .this _, mini, c, hc, s, ts, g, js, hg => by
    simp only [Expr.gen, Expr.items]; gw [] []
  | .unary _ op a, mini, c, hc, s, ts, g, js, hg => by
    have h0 := a.writes
    simp only [Expr.gen, Expr.items]; gw [h0] []
  | .update _ op pre a, mini, c, hc, s, ts, g, js, hg => by
    have h0 := a.writes
    cases pre <;> simp only [Expr.gen, Expr.items, Bool.false_eq_true, if_true, if_false, ] <;> gw [h0] []
  | .yield _ a d, mini, c, hc, s, ts, g, js, hg => by
    have h0 := spaced_writes' a
    cases d <;> cases a <;> simp only [Expr.gen, Expr.items, Bool.false_eq_true, if_true, if_false, ] <;> gw [h0] [yieldItems, spacedItems]
termination_by structural x => x

theorem extends_writes : ∀ x : Option Expr, WritesC (fun c => genExtends c x) (extendsItems x)
  | some e, mini, c, hc, s, ts, g, js, hg => by
    have h0 := e.writes
    simp only [genExtends, extendsItems]; gw [h0] []
  | none, mini, c, hc, s, ts, g, js, hg => by
    simp only [genExtends, extendsItems, id]; gw [] []
termination_by structural x => x

theorem spaced_writes' : ∀ x : Option Expr, WritesC (fun c => genSpaced c x) (spacedItems x)
  | some e, mini, c, hc, s, ts, g, js, hg => by
    have h0 := e.writes
    simp only [genSpaced, spacedItems]; gw [h0] []
  | none, mini, c, hc, s, ts, g, js, hg => by
    simp only [genSpaced, spacedItems, id]; gw [] []
termination_by structural x => x

theorem init_writes : ∀ x : Option Expr, WritesC (fun c => genInit c x) (initItems x)
  | some e, mini, c, hc, s, ts, g, js, hg => by
    have h0 := e.writes
    simp only [genInit, initItems]; gw [h0] []
  | none, mini, c, hc, s, ts, g, js, hg => by
    simp only [genInit, initItems, id]; gw [] []
termination_by structural x => x

theorem exprs_each : ∀ x : List Expr, EachC (fun c => exprActs c x) (exprItems x)
  | [], _, c, hc => .nil
  | a :: l, _, c, hc => .cons (a.writes.at hc) (exprs_each l hc)
termination_by structural x => x

theorem _root_.Fajt.Literal.writes : ∀ x : Literal, WritesC (fun c => x.gen c) x.items
  | .null, mini, c, hc, s, ts, g, js, hg => by
    simp only [Literal.gen, Literal.items]; gw [] []
  | .boolean true, mini, c, hc, s, ts, g, js, hg => by
    simp only [Literal.gen, Literal.items]; gw [] []
  | .boolean false, mini, c, hc, s, ts, g, js, hg => by
    simp only [Literal.gen, Literal.items]; gw [] []
  | .string v, mini, c, hc, s, ts, g, js, hg => by
    simp only [Literal.gen, Literal.items]; gw [] []
  | .number u, mini, c, hc, s, ts, g, js, hg => by
    have h0 := @At.num
    simp only [Literal.gen, Literal.items]; gw [h0] []
  | .array es, mini, c, hc, s, ts, g, js, hg => by
    have h0 := array_each es
    cases he : es.isEmpty <;> simp only [Literal.gen, Literal.items, he, Bool.not_true, Bool.not_false, Gen.parenthesize, closeP, closeS, closeC, Bool.false_eq_true, if_true, if_false, ] <;> gw [h0] []
  | .object es, mini, c, hc, s, ts, g, js, hg => by
    have h0 := props_each es
    cases he : es.isEmpty <;> simp only [Literal.gen, Literal.items, he, Bool.not_true, Bool.not_false, Gen.parenthesize, closeP, closeS, closeC, Bool.false_eq_true, if_true, if_false, ] <;> gw [h0] []
  | .regexp u, mini, c, hc, s, ts, g, js, hg => by
    have h0 := @At.regex
    simp only [Literal.gen, Literal.items]; gw [h0] []
  | .template ps, mini, c, hc, s, ts, g, js, hg => by
    have h0 := template_at (parts_writes ps)
    simp only [Literal.gen, Literal.items]; gw [h0] []
termination_by structural x => x

theorem parts_writes : ∀ x : List TemplatePart, PartsC x
  | [] => parts_nil
  | .string _ :: ps => parts_string (parts_writes ps)
  | .expr e :: ps => parts_expr e.writes (parts_writes ps)
termination_by structural x => x

theorem _root_.Fajt.ArrayElement.writes : ∀ x : ArrayElement, WritesC (fun c => x.gen c) x.items
  | .elision, mini, c, hc, s, ts, g, js, hg => by
    simp only [ArrayElement.gen, ArrayElement.items, id]; gw [] []
  | .expr e, mini, c, hc, s, ts, g, js, hg => by
    have h0 := e.writes
    simp only [ArrayElement.gen, ArrayElement.items]; gw [h0] []
  | .spread e, mini, c, hc, s, ts, g, js, hg => by
    have h0 := e.writes
    simp only [ArrayElement.gen, ArrayElement.items]; gw [h0] []
termination_by structural x => x

theorem array_each : ∀ x : List ArrayElement, EachC (fun c => arrayActs c x) (arrayItems x)
  | [], _, c, hc => .nil
  | a :: l, _, c, hc => .cons (a.writes.at hc) (array_each l hc)
termination_by structural x => x

theorem _root_.Fajt.PropDef.writes : ∀ x : PropDef, WritesC (fun c => x.gen c) x.items
  | .identRef i, mini, c, hc, s, ts, g, js, hg => by
    simp only [PropDef.gen, PropDef.items]; gw [] []
  | .spread e, mini, c, hc, s, ts, g, js, hg => by
    have h0 := e.writes
    simp only [PropDef.gen, PropDef.items]; gw [h0] []
  | .named _ n v, mini, c, hc, s, ts, g, js, hg => by
    have h0 := n.writes
    have h1 := v.writes
    simp only [PropDef.gen, PropDef.items]; gw [h0, h1] []
  | .method m, mini, c, hc, s, ts, g, js, hg => by
    have h0 := m.writes
    cases hb : bareComputed m <;> simp only [PropDef.gen, PropDef.items, hb, Bool.false_eq_true, if_true, if_false, ] <;> gw [h0] []
termination_by structural x => x

theorem props_each : ∀ x : List PropDef, EachC (fun c => propActs c x) (propItems x)
  | [], _, c, hc => .nil
  | a :: l, _, c, hc => .cons (a.writes.at hc) (props_each l hc)
termination_by structural x => x

theorem _root_.Fajt.PropName.writes : ∀ x : PropName, WritesC (fun c => x.gen c) x.items
  | .ident i, mini, c, hc, s, ts, g, js, hg => by
    simp only [PropName.gen, PropName.items]; gw [] []
  | .string v, mini, c, hc, s, ts, g, js, hg => by
    simp only [PropName.gen, PropName.items]; gw [] []
  | .number u, mini, c, hc, s, ts, g, js, hg => by
    have h0 := @At.num
    simp only [PropName.gen, PropName.items]; gw [h0] []
  | .computed e, mini, c, hc, s, ts, g, js, hg => by
    have h0 := e.writes
    simp only [PropName.gen, PropName.items, Gen.parenthesize, closeP, closeS, closeC, Bool.false_eq_true, if_true, if_false, ]; gw [h0] []
termination_by structural x => x

theorem _root_.Fajt.MethodDef.writes : ∀ x : MethodDef, WritesC (fun c => x.gen c) x.items
  | .mk _ n k ps b gn a st, mini, c, hc, s, ts, g, js, hg => by
    have h0 := n.writes
    have h1 := ps.writes
    have h2 := b.writes
    cases k <;> cases gn <;> cases a <;> cases st <;> simp only [MethodDef.gen, MethodDef.items, Bool.false_eq_true, if_true, if_false, ] <;> gw [h0, h1, h2] []
termination_by structural x => x

theorem elements_writes : ∀ x : List MethodDef, WritesC (fun c => elementsGen c x) (elementItems x)
  | [], mini, c, hc, s, ts, g, js, hg => by
    simp only [elementsGen, elementItems, id]; gw [] []
  | m :: ms, mini, c, hc, s, ts, g, js, hg => by
    have h0 := m.writes
    have h1 := elements_writes ms
    simp only [elementsGen, elementItems]; gw [h0, h1] []
termination_by structural x => x

theorem _root_.Fajt.FormalParams.writes : ∀ x : FormalParams, WritesC (fun c => x.gen c) x.items
  | .mk _ bs r, mini, c, hc, s, ts, g, js, hg => by
    have h0 := bindingElements_each bs
    have h1 := rest_writes r
    simp only [FormalParams.gen, FormalParams.items, Gen.parenthesize, closeP, closeS, closeC, Bool.false_eq_true, if_true, if_false, ]; gw [h0, h1] []
termination_by structural x => x

theorem _root_.Fajt.FormalParams.bare_writes : ∀ x : FormalParams, WritesC (fun c => x.genBindings c) x.bare
  | .mk _ bs r, mini, c, hc, s, ts, g, js, hg => by
    have h0 := bareElements_writes bs
    simp only [FormalParams.genBindings, FormalParams.bare]; gw [h0] []
termination_by structural x => x

theorem rest_writes : ∀ (x : Option BindingPattern) (b : Bool), WritesC (fun c => genRest c b x) (restItems b x)
  | some p, b, mini, c, hc, s, ts, g, js, hg => by
    have h0 := p.writes
    cases b <;> simp only [genRest, restItems, Bool.false_eq_true, if_true, if_false] <;> gw [h0] []
  | none, b, mini, c, hc, s, ts, g, js, hg => by
    simp only [genRest, restItems, id]; gw [] []
termination_by structural x => x

theorem bareElements_writes : ∀ x : List BindingElement, WritesC (fun c => bindingElementsGen c x) (bareItems x)
  | [], mini, c, hc, s, ts, g, js, hg => by
    simp only [bindingElementsGen, bareItems, id]; gw [] []
  | m :: ms, mini, c, hc, s, ts, g, js, hg => by
    have h0 := m.writes
    have h1 := bareElements_writes ms
    simp only [bindingElementsGen, bareItems]; gw [h0, h1] []
termination_by structural x => x

theorem bindingElements_each : ∀ x : List BindingElement, EachC (fun c => bindingElementActs c x) (bindingElementItems x)
  | [], _, c, hc => .nil
  | a :: l, _, c, hc => .cons (a.writes.at hc) (bindingElements_each l hc)
termination_by structural x => x

theorem _root_.Fajt.Body.writes : ∀ x : Body, WritesC (fun c => x.gen c) x.items
  | .mk sp ds ss, mini, c, hc, s, ts, g, js, hg => body_at (stmts_writes ss) sp hc hg
termination_by structural x => x

theorem _root_.Fajt.ArrowBody.writes : ∀ x : ArrowBody, WritesC (fun c => x.gen c) x.items
  | .expr e, mini, c, hc, s, ts, g, js, hg => by
    have h0 := e.writes
    simp only [ArrowBody.gen, ArrowBody.items]; gw [h0] []
  | .body e, mini, c, hc, s, ts, g, js, hg => by
    have h0 := e.writes
    simp only [ArrowBody.gen, ArrowBody.items]; gw [h0] []
termination_by structural x => x

theorem _root_.Fajt.MemberObject.writes : ∀ x : MemberObject, WritesC (fun c => x.gen c) x.items
  | .expr e, mini, c, hc, s, ts, g, js, hg => by
    have h0 := e.writes
    simp only [MemberObject.gen, MemberObject.items]; gw [h0] []
  | .super _, mini, c, hc, s, ts, g, js, hg => by
    simp only [MemberObject.gen, MemberObject.items]; gw [] []
termination_by structural x => x

theorem _root_.Fajt.MemberProp.writes : ∀ x : MemberProp, WritesC (fun c => x.gen c) x.items
  | .ident i, mini, c, hc, s, ts, g, js, hg => by
    simp only [MemberProp.gen, MemberProp.items]; gw [] []
  | .expr e, mini, c, hc, s, ts, g, js, hg => by
    have h0 := e.writes
    simp only [MemberProp.gen, MemberProp.items, Gen.parenthesize, closeP, closeS, closeC, Bool.false_eq_true, if_true, if_false, ]; gw [h0] []
termination_by structural x => x

theorem _root_.Fajt.Argument.writes : ∀ x : Argument, WritesC (fun c => x.gen c) x.items
  | .expr e, mini, c, hc, s, ts, g, js, hg => by
    have h0 := e.writes
    simp only [Argument.gen, Argument.items]; gw [h0] []
  | .spread e, mini, c, hc, s, ts, g, js, hg => by
    have h0 := e.writes
    simp only [Argument.gen, Argument.items]; gw [h0] []
termination_by structural x => x

theorem args_each : ∀ x : List Argument, EachC (fun c => argActs c x) (argItems x)
  | [], _, c, hc => .nil
  | a :: l, _, c, hc => .cons (a.writes.at hc) (args_each l hc)
termination_by structural x => x

theorem _root_.Fajt.Callee.writes : ∀ x : Callee, WritesC (fun c => x.gen c) x.items
  | .super, mini, c, hc, s, ts, g, js, hg => by
    simp only [Callee.gen, Callee.items]; gw [] []
  | .import, mini, c, hc, s, ts, g, js, hg => by
    simp only [Callee.gen, Callee.items]; gw [] []
  | .expr e, mini, c, hc, s, ts, g, js, hg => by
    have h0 := e.writes
    simp only [Callee.gen, Callee.items]; gw [h0] []
termination_by structural x => x

theorem _root_.Fajt.BindingPattern.writes : ∀ x : BindingPattern, WritesC (fun c => x.gen c) x.items
  | .ident i, mini, c, hc, s, ts, g, js, hg => by
    simp only [BindingPattern.gen, BindingPattern.items]; gw [] []
  | .array _ es r, mini, c, hc, s, ts, g, js, hg => by
    have h0 := optElements_writes es
    have h1 := rest_writes r
    cases he : (!es.isEmpty || r.isSome) <;> simp only [BindingPattern.gen, BindingPattern.items, he, Gen.parenthesize, closeP, closeS, closeC, Bool.false_eq_true, if_true, if_false, ] <;> gw [h0, h1] []
  | .object _ es r, mini, c, hc, s, ts, g, js, hg => by
    have h0 := bindingProps_each es
    have h1 := rest_writes r
    cases he : (!es.isEmpty || r.isSome) <;> simp only [BindingPattern.gen, BindingPattern.items, he, Gen.parenthesize, closeP, closeS, closeC, Bool.false_eq_true, if_true, if_false, ] <;> gw [h0, h1] []
termination_by structural x => x

theorem optElements_writes : ∀ x : List (Option BindingElement), WritesC (fun c => optElementsGen c x) (optElementItems x)
  | [], mini, c, hc, s, ts, g, js, hg => by
    simp only [optElementsGen, optElementItems, id]; gw [] []
  | m :: ms, mini, c, hc, s, ts, g, js, hg => by
    have h0 := optElement_writes m
    have h1 := optElements_writes ms
    cases he : ms.isEmpty <;> cases hm : m.isNone <;> simp only [optElementsGen, optElementItems, he, hm, Bool.not_true, Bool.not_false, Bool.or_true, Bool.or_false, Bool.true_or, Bool.false_or, Bool.false_eq_true, if_true, if_false, ] <;> gw [h0, h1] []
termination_by structural x => x

theorem optElement_writes : ∀ x : Option BindingElement, WritesC (fun c => optElementGen c x) (optElement x)
  | some b, mini, c, hc, s, ts, g, js, hg => by
    have h0 := b.writes
    simp only [optElementGen, optElement]; gw [h0] []
  | none, mini, c, hc, s, ts, g, js, hg => by
    simp only [optElementGen, optElement, id]; gw [] []
termination_by structural x => x

theorem _root_.Fajt.BindingProp.writes : ∀ x : BindingProp, WritesC (fun c => x.gen c) x.items
  | .single _ i e, mini, c, hc, s, ts, g, js, hg => by
    have h0 := init_writes e
    simp only [BindingProp.gen, BindingProp.items]; gw [h0] []
  | .named _ n b, mini, c, hc, s, ts, g, js, hg => by
    have h0 := n.writes
    have h1 := b.writes
    simp only [BindingProp.gen, BindingProp.items]; gw [h0, h1] []
termination_by structural x => x

theorem bindingProps_each : ∀ x : List BindingProp, EachC (fun c => bindingPropActs c x) (bindingPropItems x)
  | [], _, c, hc => .nil
  | a :: l, _, c, hc => .cons (a.writes.at hc) (bindingProps_each l hc)
termination_by structural x => x

theorem _root_.Fajt.BindingElement.writes : ∀ x : BindingElement, WritesC (fun c => x.gen c) x.items
  | .mk _ p e, mini, c, hc, s, ts, g, js, hg => by
    have h0 := p.writes
    have h1 := init_writes e
    simp only [BindingElement.gen, BindingElement.items]; gw [h0, h1] []
termination_by structural x => x

theorem _root_.Fajt.PatternOrExpr.writes : ∀ x : PatternOrExpr, WritesC (fun c => x.gen c) x.items
  | .expr e, mini, c, hc, s, ts, g, js, hg => by
    have h0 := e.writes
    simp only [PatternOrExpr.gen, PatternOrExpr.items]; gw [h0] []
  | .pattern _, mini, c, hc, s, ts, g, js, hg => by
    simp only [PatternOrExpr.gen, PatternOrExpr.items, id]; gw [] []
termination_by structural x => x

theorem _root_.Fajt.Stmt.writes : ∀ x : Stmt, WritesC (fun c => x.gen c) x.items
  | .block b, mini, c, hc, s, ts, g, js, hg => by
    have h0 := b.writes
    simp only [Stmt.gen, Stmt.items, ]; gw [h0] []
  | .break _ l, mini, c, hc, s, ts, g, js, hg => by
    cases l <;> simp only [Stmt.gen, Stmt.items, ] <;> gw [] []
  | .continue _ l, mini, c, hc, s, ts, g, js, hg => by
    cases l <;> simp only [Stmt.gen, Stmt.items, ] <;> gw [] []
  | .debugger _, mini, c, hc, s, ts, g, js, hg => by
    simp only [Stmt.gen, Stmt.items, ]; gw [] []
  | .doWhile _ b t, mini, c, hc, s, ts, g, js, hg => by
    have h0 := b.writes
    have h1 := t.writes
    simp only [Stmt.gen, Stmt.items, Gen.parenthesize, closeP, closeS, closeC, Bool.false_eq_true, if_true, if_false, ]; gw [h0, h1] []
  | .empty _, mini, c, hc, s, ts, g, js, hg => by
    have hp := @At.puSemi
    simp only [Stmt.gen, Stmt.items, ]; gw [hp] []
  | .expr _ e, mini, c, hc, s, ts, g, js, hg => by
    have h0 := e.writes
    simp only [Stmt.gen, Stmt.items, ]; gw [h0] []
  | .for _ i t u b, mini, c, hc, s, ts, g, js, hg => by
    have h0 := forInit_writes i
    have h1 := opt_writes t
    have h2 := opt_writes u
    have h3 := spaced_writes' t
    have h4 := spaced_writes' u
    have h5 := b.writes
    have hp := @At.puSemi
    rcases t with _ | t <;> rcases u with _ | u <;> simp only [Stmt.gen, Stmt.items, Gen.parenthesize, closeP, closeS, closeC, Option.isSome_none, Option.isSome_some, Bool.false_eq_true, if_true, if_false, ] <;> gw [h0, h1, h2, h3, h4, h5, hp] [optItems, spacedItems]
  | .forIn _ l r b, mini, c, hc, s, ts, g, js, hg => by
    have h0 := l.writes
    have h1 := r.writes
    have h2 := b.writes
    simp only [Stmt.gen, Stmt.items, Gen.parenthesize, closeP, closeS, closeC, Bool.false_eq_true, if_true, if_false, ]; gw [h0, h1, h2] []
  | .forOf _ l r b a, mini, c, hc, s, ts, g, js, hg => by
    have h0 := l.writes
    have h1 := r.writes
    have h2 := b.writes
    cases a <;> simp only [Stmt.gen, Stmt.items, Gen.parenthesize, closeP, closeS, closeC, Bool.false_eq_true, if_true, if_false, ] <;> gw [h0, h1, h2] []
  | .if _ y t a, mini, c, hc, s, ts, g, js, hg => by
    have h0 := y.writes
    have h1 := t.writes
    have h2 := else_writes a
    simp only [Stmt.gen, Stmt.items, Gen.parenthesize, closeP, closeS, closeC, Bool.false_eq_true, if_true, if_false, ]; gw [h0, h1, h2] []
  | .labeled _ l b, mini, c, hc, s, ts, g, js, hg => by
    have h0 := b.writes
    simp only [Stmt.gen, Stmt.items, ]; gw [h0] []
  | .return _ a, mini, c, hc, s, ts, g, js, hg => by
    have h0 := spaced_writes' a
    rcases a with _ | a <;> simp only [Stmt.gen, Stmt.items, ] <;> gw [h0] [returnItems, spacedItems]
  | .switch _ d cs, mini, c, hc, s, ts, g, js, hg => by
    have h0 := d.writes
    have h1 := cases_block (cases_writes cs)
    simp only [Stmt.gen, Stmt.items, Gen.parenthesize, closeP, closeS, closeC, Bool.false_eq_true, if_true, if_false, ]; gw [h0, h1] []
  | .throw _ a, mini, c, hc, s, ts, g, js, hg => by
    have h0 := a.writes
    simp only [Stmt.gen, Stmt.items, ]; gw [h0] []
  | .try _ b h f, mini, c, hc, s, ts, g, js, hg => by
    have h0 := b.writes
    have h1 := catch_writes h
    have h2 := finally_writes f
    simp only [Stmt.gen, Stmt.items, ]; gw [h0, h1, h2] []
  | .variable v, mini, c, hc, s, ts, g, js, hg => by
    have h0 := v.writes
    simp only [Stmt.gen, Stmt.items, ]; gw [h0] []
  | .while _ t b, mini, c, hc, s, ts, g, js, hg => by
    have h0 := t.writes
    have h1 := b.writes
    simp only [Stmt.gen, Stmt.items, Gen.parenthesize, closeP, closeS, closeC, Bool.false_eq_true, if_true, if_false, ]; gw [h0, h1] []
  | .with _ y b, mini, c, hc, s, ts, g, js, hg => by
    have h0 := y.writes
    have h1 := b.writes
    simp only [Stmt.gen, Stmt.items, Gen.parenthesize, closeP, closeS, closeC, Bool.false_eq_true, if_true, if_false, ]; gw [h0, h1] []
  | .classDecl _ i sc b, mini, c, hc, s, ts, g, js, hg => by
    have h0 := extends_writes sc
    have h1 := elements_block (elements_writes b)
    have h2 := @nameItems_at
    simp only [Stmt.gen, Stmt.items, ]; gw [h0, h1, h2] []
  | .functionDecl _ a gn i ps b, mini, c, hc, s, ts, g, js, hg => by
    have h0 := ps.writes
    have h1 := b.writes
    have h2 := @nameItems_at
    cases a <;> cases gn <;> simp only [Stmt.gen, Stmt.items, Bool.false_eq_true, if_true, if_false, ] <;> gw [h0, h1, h2] []
  | .importDecl _ d ns n v, mini, c, hc, s, ts, g, js, hg => by
    have h0 := importDecl_at d ns n v
    simp only [Stmt.gen, Stmt.items, ]; gw [h0] []
  | .exportDecl d, mini, c, hc, s, ts, g, js, hg => by
    have h0 := d.writes
    simp only [Stmt.gen, Stmt.items, ]; gw [h0] []
termination_by structural x => x

theorem _root_.Fajt.Stmt.skip_writes : ∀ x : Stmt, isFunction x = true → SkipC x
  | .functionDecl _ a gn i ps b, _ => by
    intro mini c hc s ts g js hg
    have h0 := ps.writes
    have h1 := b.writes
    have h2 := @nameItems_at
    have h3 : At mini s ts { g with skipNextSeparation := false } js := At.skip hg
    cases a <;> cases gn <;> simp only [Stmt.gen, Stmt.items, Gen.separation, Bool.false_eq_true, if_true, if_false] <;> gw [h0, h1, h2] []
  | .block .., h | .break .., h | .continue .., h | .debugger .., h | .doWhile .., h | .empty .., h | .expr .., h | .for .., h
  | .forIn .., h | .forOf .., h | .if .., h | .labeled .., h | .return .., h | .switch .., h | .throw .., h | .try .., h | .variable .., h
  | .while .., h | .with .., h | .classDecl .., h | .importDecl .., h | .exportDecl .., h => nomatch h
termination_by structural x => x

theorem opt_writes : ∀ x : Option Expr, WritesC (fun c => genOpt c x) (optItems x)
  | some e, mini, c, hc, s, ts, g, js, hg => by
    have h0 := e.writes
    simp only [genOpt, optItems]; gw [h0] []
  | none, mini, c, hc, s, ts, g, js, hg => by
    simp only [genOpt, optItems, id]; gw [] []
termination_by structural x => x

theorem stmts_writes : ∀ x : List Stmt, WritesC (fun c => stmtsGen c x) (stmtItems x)
  | [], mini, c, hc, s, ts, g, js, hg => by
    simp only [stmtsGen, stmtItems, id]; gw [] []
  | m :: ms, mini, c, hc, s, ts, g, js, hg => by
    have h0 := m.writes
    have h1 := stmts_writes ms
    simp only [stmtsGen, stmtItems]; gw [h0, h1] []
termination_by structural x => x

theorem else_writes : ∀ x : Option Stmt, WritesC (fun c => genElse c x) (elseItems x)
  | some e, mini, c, hc, s, ts, g, js, hg => by
    have h0 := e.writes
    simp only [genElse, elseItems]; gw [h0] []
  | none, mini, c, hc, s, ts, g, js, hg => by
    simp only [genElse, elseItems, id]; gw [] []
termination_by structural x => x

theorem _root_.Fajt.Block.writes : ∀ x : Block, WritesC (fun c => x.gen c) x.items
  | .mk _ ss, mini, c, hc, s, ts, g, js, hg => stmts_block (stmts_writes ss) hc hg
termination_by structural x => x

theorem finally_writes : ∀ x : Option Block, WritesC (fun c => genFinally c x) (finallyItems x)
  | some e, mini, c, hc, s, ts, g, js, hg => by
    have h0 := e.writes
    simp only [genFinally, finallyItems]; gw [h0] []
  | none, mini, c, hc, s, ts, g, js, hg => by
    simp only [genFinally, finallyItems, id]; gw [] []
termination_by structural x => x

theorem catch_writes : ∀ x : Option CatchClause, WritesC (fun c => genCatch c x) (catchItems x)
  | some e, mini, c, hc, s, ts, g, js, hg => by
    have h0 := e.writes
    simp only [genCatch, catchItems]; gw [h0] []
  | none, mini, c, hc, s, ts, g, js, hg => by
    simp only [genCatch, catchItems, id]; gw [] []
termination_by structural x => x

theorem _root_.Fajt.CatchClause.writes : ∀ x : CatchClause, WritesC (fun c => x.gen c) x.items
  | .mk _ p b, mini, c, hc, s, ts, g, js, hg => by
    have h0 := catchParam_writes p
    have h1 := b.writes
    simp only [CatchClause.gen, CatchClause.items]; gw [h0, h1] []
termination_by structural x => x

theorem catchParam_writes : ∀ x : Option BindingPattern, WritesC (fun c => genCatchParam c x) (catchParamItems x)
  | some p, mini, c, hc, s, ts, g, js, hg => by
    have h0 := p.writes
    simp only [genCatchParam, catchParamItems, Gen.parenthesize, closeP, closeS, closeC, Bool.false_eq_true, if_true, if_false, ]; gw [h0] []
  | none, mini, c, hc, s, ts, g, js, hg => by
    simp only [genCatchParam, catchParamItems, id]; gw [] []
termination_by structural x => x

theorem _root_.Fajt.VarStmt.writes : ∀ x : VarStmt, WritesC (fun c => x.gen c) x.items
  | .mk _ k ds => varStmt_at (decls_writes ds)
termination_by structural x => x

theorem _root_.Fajt.VarStmt.bare_writes : ∀ x : VarStmt, WritesC (fun c g => ((x.gen c g).removeLast ';').2) x.bare
  | .mk _ k ds => varBare_at (decls_writes ds)
termination_by structural x => x

theorem decls_writes : ∀ x : List VarDecl, DeclsC x
  | [] => decls_nil
  | d :: ds => decls_cons d.writes (decls_writes ds)
termination_by structural x => x

theorem _root_.Fajt.VarDecl.writes : ∀ x : VarDecl, WritesC (fun c => x.gen c) x.items
  | .mk _ p e, mini, c, hc, s, ts, g, js, hg => by
    have h0 := p.writes
    have h1 := init_writes e
    simp only [VarDecl.gen, VarDecl.items]
    split
    all_goals
      have h2 := h1 (c := c.unaligned) hc
      refine At.cast (List.append_assoc _ _ _) ?_
    · exact At.child (h2 (h0 hc hg))
    · exact At.child (h2 (h0 hc hg))
    · exact h1 hc (h0 hc hg)
termination_by structural x => x

theorem _root_.Fajt.SwitchCase.writes : ∀ x : SwitchCase, WritesC (fun c => x.gen c) x.items
  | .mk _ t ss, mini, c, hc, s, ts, g, js, hg => by
    have h0 := caseTest_writes t
    have h1 := stmts_writes ss
    simp only [SwitchCase.gen, SwitchCase.items]; gw [h0, h1] []
termination_by structural x => x

theorem caseTest_writes : ∀ x : Option Expr, WritesC (fun c => genCaseTest c x) (caseTestItems x)
  | some e, mini, c, hc, s, ts, g, js, hg => by
    have h0 := e.writes
    simp only [genCaseTest, caseTestItems]; gw [h0] []
  | none, mini, c, hc, s, ts, g, js, hg => by
    simp only [genCaseTest, caseTestItems]; gw [] []
termination_by structural x => x

theorem cases_writes : ∀ x : List SwitchCase, WritesC (fun c => casesGen c x) (caseItems x)
  | [], mini, c, hc, s, ts, g, js, hg => by
    simp only [casesGen, caseItems, id]; gw [] []
  | m :: ms, mini, c, hc, s, ts, g, js, hg => by
    have h0 := m.writes
    have h1 := cases_writes ms
    simp only [casesGen, caseItems]; gw [h0, h1] []
termination_by structural x => x

theorem forInit_writes : ∀ x : Option ForInit, WritesC (fun c => genForInit c x) (forInitItems x)
  | some e, mini, c, hc, s, ts, g, js, hg => by
    have h0 := e.writes
    simp only [genForInit, forInitItems]; gw [h0] []
  | none, mini, c, hc, s, ts, g, js, hg => by
    simp only [genForInit, forInitItems, id]; gw [] []
termination_by structural x => x

theorem _root_.Fajt.ForInit.writes : ∀ x : ForInit, WritesC (fun c => x.gen c) x.items
  | .expr e, mini, c, hc, s, ts, g, js, hg => by
    have h0 := e.writes
    simp only [ForInit.gen, ForInit.items]; gw [h0] []
  | .declaration v, mini, c, hc, s, ts, g, js, hg => by
    have h0 := v.bare_writes
    simp only [ForInit.gen, ForInit.items]; gw [h0] []
termination_by structural x => x

theorem _root_.Fajt.ForDecl.writes : ∀ x : ForDecl, WritesC (fun c => x.gen c) x.items
  | .expr e, mini, c, hc, s, ts, g, js, hg => by
    have h0 := e.writes
    simp only [ForDecl.gen, ForDecl.items]; gw [h0] []
  | .pattern _, mini, c, hc, s, ts, g, js, hg => by
    simp only [ForDecl.gen, ForDecl.items, id]; gw [] []
  | .declaration .., mini, c, hc, s, ts, g, js, hg => by
    simp only [ForDecl.gen, ForDecl.items, id]; gw [] []
termination_by structural x => x

theorem _root_.Fajt.ExportDecl.writes : ∀ x : ExportDecl, WritesC (fun c => x.gen c) x.items
  | .decl _ d, mini, c, hc, s, ts, g, js, hg => by
    have h0 := d.writes
    have h1 := d.skip_writes
    simp only [ExportDecl.gen, ExportDecl.items, isFunctionDecl_eq]
    cases hf : isFunction d with
    | false => simp only [Bool.false_eq_true, if_false]; gw [h0] []
    | true =>
      simp only [if_true]
      refine At.noted (h1 hf hc (At.space hc (At.word hc hg _))) ?_
      simp [bare_append]
  | .defaultExpr _ e, mini, c, hc, s, ts, g, js, hg => by
    have h0 := e.writes
    simp only [ExportDecl.gen, ExportDecl.items]; gw [h0] []
  | .defaultDecl _ d, mini, c, hc, s, ts, g, js, hg => by
    have h0 := d.writes
    have h1 := d.skip_writes
    simp only [ExportDecl.gen, ExportDecl.items, isFunctionDecl_eq]
    cases hf : isFunction d with
    | false => simp only [Bool.false_eq_true, if_false]; gw [h0] []
    | true =>
      simp only [if_true]
      refine At.noted (h1 hf hc (At.space hc (At.exportDefault hc hg))) ?_
      simp [bare_append]
  | .named _ ns src, mini, c, hc, s, ts, g, js, hg => by
    have h0 := braces_at Gen.namedExport exportItems namedExport_at ns
    cases src <;> simp only [ExportDecl.gen, ExportDecl.items] <;> gw [h0] []
  | .namespace _ a src, mini, c, hc, s, ts, g, js, hg => by
    cases a <;> simp only [ExportDecl.gen, ExportDecl.items, Gen.asAlias, id] <;> gw [] []
termination_by structural x => x

end

end Fajt.Print
