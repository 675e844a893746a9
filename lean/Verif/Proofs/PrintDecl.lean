import Verif.Proofs.PrintStmt
/-!
# Reading printed declarations, imports and exports
-/
namespace Fajt.Print
open Fajt Spec Complete
set_option linter.unusedSectionVars false
set_option linter.unusedSimpArgs false
variable [UnicodeID] {sty : SourceType} {mini : Bool} {ctx : Ctx} {f : Bool} {a b c m o p q x y z : Point} {is js : List Item} {v : TokVal} {n : Str}
  {t u : Token} {e e1 e2 e3 : Expr} {es : List Expr} {sp asp bsp lsp vsp : Span} {id : Ident} {as : List Argument} {s s1 s2 : Stmt}
  {ss : List Stmt}

/-! ## Functions and classes -/

/-- The name of a declaration: an identifier, or nothing in a default export. -/
def NameOf (ctx : Ctx) (id : Ident) : Prop := (∃ t, Real t ∧ IdentTok ctx t id) ∨ (ctx.default = true ∧ id.name = [])

/-- The name of a declaration is read again. -/
theorem nameAt_run {vs : List TokVal} (hn : NameOf ctx id) (h : Run sty mini f x (nameItems id.name ++ is) y)
    (hf : id.name = [] → ∀ f, Run sty mini f x is y → ∃ t c, Next sty x t c ∧ t.value ∈ vs) :
    ∃ id' m f', id'.strip = id.strip ∧ (∀ c : Ctx, c.kw = ctx.kw → c.default = ctx.default → NameAt sty c vs id' x m) ∧ Run sty mini f' m is y := by
  rcases hn with ⟨t, h1, h2⟩ | ⟨h1, h2⟩
  · have hne := (ident_value h1 h2).2
    simp only [nameItems, hne, if_false, List.cons_append, List.nil_append] at h
    obtain ⟨m, h3, h⟩ := run_word.1 h
    obtain ⟨u, h4, -, -, h5⟩ := ident_again h1 h2 h3
    exact ⟨⟨u.span, id.name⟩, m, _, rfl, fun c hc _ => .inl ⟨u, h4, h5 c hc⟩, h⟩
  · obtain ⟨isp, n⟩ := id
    obtain rfl : n = [] := h2
    simp only [nameItems, if_true, List.cons_append, List.nil_append, run_still] at h
    obtain ⟨u, d, h4, h5⟩ := hf rfl _ h
    exact ⟨⟨⟨u.span.start, u.span.start⟩, []⟩, x, _, rfl, fun c _ hc => .inr ⟨hc.trans h1, rfl, u, d, h4, h5, rfl⟩, h⟩

theorem params_first {ps : FormalParams} (h : Run sty mini f x (ps.items ++ is) y) : ∃ t c, Next sty x t c ∧ t.value ∈ [TokVal.punct p!"("] := by
  obtain ⟨sp, l, r⟩ := ps
  simp only [FormalParams.items, List.cons_append, run_pu] at h
  obtain ⟨m, ⟨-, t, h1, h2, -⟩, -⟩ := h
  exact ⟨t, m, h1, by simp [h2]⟩

theorem re_functionDecl {g : Bool} {ps : FormalParams} {bd : Body} (ho : NameOf ctx id)
    (ih : Re sty mini (insideFunction ctx g false) (.params ps)) (ih' : Re sty mini (insideFunction ctx g false) (.body bd)) :
    Re sty mini ctx (.decl (.functionDecl sp false g id ps bd)) := by
  intro f x y h
  obtain ⟨sp', hsp⟩ := run_from h (by st_tok)
  simp only [itemsOf, Stmt.items, List.append_assoc, List.cons_append, Bool.false_eq_true, if_false, List.nil_append, run_sep] at h
  obtain ⟨m, h1, h⟩ := run_word.1 h
  obtain ⟨o, _, h2, h⟩ := optTok_run h
  obtain ⟨i', p, _, h3, h4, h⟩ := nameAt_run ho (run_gap.1 h) fun _ _ h => params_first h
  obtain ⟨q, h5, h⟩ := params_run h
  obtain ⟨⟨ps', h6, h7⟩, -⟩ := ih h5
  obtain ⟨b', h8, h9⟩ := ih' (run_nlEnd.1 (run_gap.1 h))
  exact ⟨.functionDecl sp' false g i' ps' b', by simp only [Stmt.strip, h3, h6, h8],
    fun v hv => .functionDecl h1.key h2 (h4 _ rfl rfl) (h7 v hv) (h9 v hv) hsp⟩

theorem re_asyncFunctionDecl {g : Bool} {ps : FormalParams} {bd : Body} (ho : NameOf ctx id)
    (ih : Re sty mini (insideFunction ctx g true) (.params ps)) (ih' : Re sty mini (insideFunction ctx g true) (.body bd)) :
    Re sty mini ctx (.decl (.functionDecl sp true g id ps bd)) := by
  intro f x y h
  obtain ⟨sp', hsp⟩ := run_from h (by st_tok)
  simp only [itemsOf, Stmt.items, List.append_assoc, List.cons_append, if_true, List.nil_append, run_sep] at h
  obtain ⟨l, h0, h⟩ := run_word.1 h
  obtain ⟨m, h1, h⟩ := run_word.1 (run_gap.1 h)
  obtain ⟨o, _, h2, h⟩ := optTok_run h
  obtain ⟨i', p, _, h3, h4, h⟩ := nameAt_run ho (run_gap.1 h) fun _ _ h => params_first h
  obtain ⟨q, h5, h⟩ := params_run h
  obtain ⟨⟨ps', h6, h7⟩, -⟩ := ih h5
  obtain ⟨b', h8, h9⟩ := ih' (run_nlEnd.1 (run_gap.1 h))
  exact ⟨.functionDecl sp' true g i' ps' b', by simp only [Stmt.strip, h3, h6, h8],
    fun v hv => .asyncFunctionDecl h0.key h1.key h2 (h4 _ rfl rfl) (h7 v hv) (h9 v hv) hsp⟩

theorem re_classDecl {i : Option Expr} {l : List MethodDef} (ho : NameOf { ctx with strict := true } id)
    (ih : Re sty mini { ctx with strict := true } (.classTail i l)) : Re sty mini ctx (.decl (.classDecl sp id i l)) := by
  intro f x y h
  obtain ⟨sp', hsp⟩ := run_from h (by st_tok)
  simp only [itemsOf, Stmt.items, List.append_assoc, List.cons_append, run_demand] at h
  obtain ⟨hd, h⟩ := h
  obtain ⟨m, h1, h⟩ := run_word.1 h
  obtain ⟨i', p, _, h3, h4, h⟩ := nameAt_run (vs := [.punct p!"{"]) ho h (by
    intro he f h
    obtain rfl : i = none := by simpa [he] using hd
    obtain ⟨m, o, g, ⟨t, h1, h2⟩, -⟩ := block_run (run_gap.1 h)
    exact ⟨t, m, h1, by simp [h2]⟩)
  have h : Run sty mini _ p (extendsItems i ++ (blockItems (elementItems l) ++ [.nl])) y := run_gap1.1 h
  rw [← List.append_assoc] at h
  obtain ⟨s', l', h5, h6, h7⟩ := ih (run_nlEnd.1 h)
  exact ⟨.classDecl sp' i' s' l', by simp only [Stmt.strip, h3, h5, h6],
    fun v hv => .classDecl h1.key (h4 _ rfl rfl) (h7 v hv) hsp⟩

/-! ## Lists in braces -/

theorem braces_run {α : Type} {P : α → Point → Point → Prop} {strip : α → α} {its : α → List Item} {l : List α}
    (hl : ∀ d ∈ l, ∀ {f x y}, Run sty mini f x (its d) y → ∃ d', strip d' = strip d ∧ P d' x y) (h : Run sty mini f x (braces (l.map its) ++ is) y) :
    ∃ l' m o, l'.map strip = l.map strip ∧ Sym sty p!"{" x m ∧ CommaList sty P l' m o ∧ Run sty mini false o is y := by
  simp only [braces, List.cons_append, List.append_assoc, run_pu, run_gapIf, List.nil_append] at h
  obtain ⟨m, h1, h⟩ := h
  have key : ∀ {l : List α}, (∀ d ∈ l, ∀ {f x y}, Run sty mini f x (its d) y → ∃ d', strip d' = strip d ∧ P d' x y) → ∀ {f x k},
      Run sty mini f x (commaItems (l.map its) ++ (gapIf k ++ pu p!"}" :: is)) y →
      ∃ l' o, l'.map strip = l.map strip ∧ CommaList sty P l' x o ∧ Run sty mini false o is y := by
    intro l hl
    induction l with
    | nil =>
      intro f x k h
      have h : Run sty mini f x (gapIf k ++ pu p!"}" :: is) y := h
      obtain ⟨o, h2, h⟩ := run_pu.1 (run_gapIf.1 h)
      exact ⟨[], o, rfl, .close h2.tok, h⟩
    | cons d l ih =>
      intro f x k h
      cases l with
      | nil =>
        have h : Run sty mini f x (its d ++ (gapIf k ++ pu p!"}" :: is)) y := h
        obtain ⟨m, h2, h⟩ := run_append.1 h
        obtain ⟨o, h3, h⟩ := run_pu.1 (run_gapIf.1 h)
        obtain ⟨d', h4, h5⟩ := hl d (by simp) h2
        exact ⟨[d'], o, by simp [h4], .last h5 h3.tok, h⟩
      | cons d1 l =>
        have h : Run sty mini f x (its d ++ [pu p!",", .gap] ++ commaItems ((d1 :: l).map its) ++ (gapIf k ++ pu p!"}" :: is)) y := h
        simp only [List.append_assoc, List.cons_append, List.nil_append] at h
        obtain ⟨m, h2, h⟩ := run_append.1 h
        obtain ⟨o, h3, h⟩ := run_pu.1 h
        obtain ⟨d', h4, h5⟩ := hl d (by simp) h2
        obtain ⟨l', r, h6, h7, h8⟩ := ih (fun d hd => hl d (by simp [hd])) (run_gap.1 h)
        exact ⟨d' :: l', r, by simp [h4, h6], .more h5 h3.tok h7, h8⟩
  obtain ⟨l', o, h2, h3, h4⟩ := key hl h
  exact ⟨l', m, o, h2, h1.tok, h3, h4⟩

theorem commaList_mono {α : Type} {P Q : α → Point → Point → Prop} {l : List α} (hpq : ∀ d x y, P d x y → Q d x y) (h : CommaList sty P l a b) :
    CommaList sty Q l a b := by
  induction h with
  | close h => exact .close h
  | last h h' => exact .last (hpq _ _ _ h) h'
  | more h h' _ ih => exact .more (hpq _ _ _ h) h' ih

theorem importItem_again {d : NamedImport} {ts : List Token} (hr : ∀ t ∈ ts, Real t) (hd : ImportSpec ctx d ts)
    (h : Run sty mini f x (importItems d) y) : ∃ d', d'.strip = d.strip ∧ ∀ c : Ctx, c.kw = ctx.kw → ImportItem sty c d' x y := by
  cases hd with
  | plain h2 _ =>
    obtain ⟨m, h3, rfl⟩ := run_word.1 h
    obtain ⟨u, h4, -, -, h5⟩ := name_again (hr _ (by simp)) h2 h3
    exact ⟨⟨_, ⟨u.span, _⟩, none⟩, rfl, fun c _ => .plain h4 h5 ⟨u, _, h4, rfl⟩⟩
  | @renamed t w v _ _ _ h2 _ h4 _ =>
    obtain ⟨m, h5, o, h6, q, h7, rfl⟩ := h
    obtain ⟨u, h8, -, -, h9⟩ := name_again (hr t (by simp)) h2 h5
    obtain ⟨w, g1, -, -, g2⟩ := ident_again (hr v (by simp)) h4 h7
    exact ⟨⟨_, ⟨u.span, _⟩, some ⟨w.span, _⟩⟩, rfl, fun c hc => .renamed h8 h9 (skey h6) g1 (g2 _ hc) ⟨u, _, h8, rfl⟩⟩

theorem exportItem_again {d : NamedExport} {ts : List Token} (hr : ∀ t ∈ ts, Real t) (hd : ExportSpec d ts)
    (h : Run sty mini f x (exportItems d) y) : ∃ d', d'.strip = d.strip ∧ ExportItem sty d' x y := by
  cases hd with
  | plain h2 _ =>
    obtain ⟨m, h3, rfl⟩ := h
    obtain ⟨u, h4, -, -, h5⟩ := name_again (hr _ (by simp)) h2 h3
    exact ⟨⟨_, ⟨u.span, _⟩, none⟩, rfl, .plain h4 h5 ⟨u, _, h4, rfl⟩⟩
  | @renamed t w v _ _ _ h2 _ h4 _ =>
    obtain ⟨m, h5, o, h6, q, h7, rfl⟩ := h
    obtain ⟨u, h8, -, -, h9⟩ := name_again (hr t (by simp)) h2 h5
    obtain ⟨w, g1, -, -, g2⟩ := name_again (hr v (by simp)) h4 h7
    exact ⟨⟨_, ⟨w.span, _⟩, some ⟨u.span, _⟩⟩, rfl, .renamed h8 h9 (skey h6) g1 g2 ⟨u, _, h8, rfl⟩⟩

/-- The tokens of the items of a list are among the tokens of the list. -/
theorem sep_mem {α : Type} {k : Bool} {ps : List (α × List Token)} {ts : List Token} (h : Sep k ps ts) : ∀ p ∈ ps, ∀ t ∈ p.2, t ∈ ts := by
  induction h with
  | nil => simp
  | item _ ih =>
    intro p hp t ht
    rcases List.mem_append.1 hp with hp | hp
    · exact List.mem_append_left _ (ih p hp t ht)
    · obtain rfl := List.mem_singleton.1 hp
      exact List.mem_append_right _ ht
  | comma _ _ ih => exact fun p hp t ht => List.mem_append_left _ (ih p hp t ht)

theorem mem_trees {α : Type} {ps : List (α × List Token)} {d : α} (h : d ∈ trees ps) : ∃ us, (d, us) ∈ ps := by
  obtain ⟨⟨d', us⟩, h1, rfl⟩ := List.mem_map.1 h
  exact ⟨us, h1⟩

/-! ## Imports -/

/-- What follows the default import. -/
def importNameItems (ns : Option Ident) (named : Option (List NamedImport)) : List Item :=
  (match ns with
    | some i => [pu p!"*", .gap, word c!"as", .gap, word i.name]
    | none => []) ++
  (match named with
    | some l => braces (l.map importItems)
    | none => [])

theorem importNames_again {ns : Option Ident} {l : Option (List NamedImport)} {ts : List Token} (hr : ∀ t ∈ ts, Real t) (hd : ImportRest ctx ns l ts)
    (h : Run sty mini f x (importNameItems ns l ++ is) y) : ∃ ns' l' m, ns'.map Ident.strip = ns.map Ident.strip ∧
      (l'.map fun l => l.map NamedImport.strip) = (l.map fun l => l.map NamedImport.strip) ∧
      (∀ c : Ctx, c.kw = ctx.kw → ImportNames sty c ns' l' x m) ∧ Run sty mini false m is y := by
  cases hd with
  | «namespace» h1 h2 h4 =>
    obtain ⟨m, h5, o, h6, q, h7, h⟩ := h
    obtain ⟨u, h8, -, -, h9⟩ := ident_again (hr _ (by simp)) h4 h7
    exact ⟨some ⟨u.span, _⟩, none, q, rfl, rfl, fun c hc => .namespace (T.tok h5) (skey h6) h8 (h9 _ hc), h⟩
  | named h2 =>
    obtain ⟨-, hm, hsep, -⟩ := h2
    obtain ⟨l', m, o, h3, h4, h5, h6⟩ := braces_run (P := fun d x y => ∀ c : Ctx, c.kw = ctx.kw → ImportItem sty c d x y)
      (strip := NamedImport.strip) (its := importItems) (fun d hd f x y h =>
        let ⟨us, hd⟩ := mem_trees hd
        importItem_again (ts := us) (fun t ht => hr t (by simp [sep_mem hsep _ hd t ht])) (hm _ hd) h) h
    exact ⟨none, some l', o, rfl, congrArg some h3, fun c hc => .named h4 (commaList_mono (fun d x y h => h c hc) h5), h6⟩

theorem importWhat_again {d ns : Option Ident} {l : Option (List NamedImport)} {s : LitString} {ts : List Token} (hr : ∀ t ∈ ts, Real t) (hd : ImportClause ctx d ns l ts)
    (h : Run sty mini f x (importDeclItems d ns l s) y) : ∃ d' ns' l' m o, d'.map Ident.strip = d.map Ident.strip ∧
      ns'.map Ident.strip = ns.map Ident.strip ∧
      (l'.map fun l => l.map NamedImport.strip) = (l.map fun l => l.map NamedImport.strip) ∧ Key sty k!"import" x m ∧
      (∀ c : Ctx, c.kw = ctx.kw → ImportWhat sty c d' ns' l' m o) ∧ Run sty mini false o [word c!"from", .gap, strItem s, .semi] y := by
  cases hd with
  | default h2 =>
    obtain ⟨m, h3, o, h4, h⟩ := h
    obtain ⟨u, h5, -, -, h6⟩ := ident_again (hr _ (by simp)) h2 h4
    exact ⟨some ⟨u.span, _⟩, none, none, m, o, rfl, rfl, rfl, skey h3, fun c hc => .default h5 (h6 c hc), h⟩
  | @both _ _ i _ _ _ h2 _ h3 =>
    have h : Run sty mini f x (word c!"import" :: word i.name :: pu p!"," :: (importNameItems ns l ++ [.gap, word c!"from", .gap, strItem s, .semi])) y := by
      cases h3 with
      | «namespace» => exact h
      | named =>
        simp only [importDeclItems, List.cons_append, List.append_assoc, List.nil_append, Option.isSome_some, Option.isSome_none, Bool.or_true,
          Bool.true_or, if_true, Bool.false_eq_true, if_false] at h
        exact h
    obtain ⟨m, h4, o, h5, q, h6, h⟩ := h
    obtain ⟨u, h7, -, -, h8⟩ := ident_again (hr _ (by simp)) h2 h5
    obtain ⟨ns', l', r, g1, g2, g3, g4⟩ := importNames_again (fun t ht => hr t (by simp [ht])) h3 h
    exact ⟨some ⟨u.span, _⟩, ns', l', m, r, rfl, g1, g2, skey h4, fun c hc => .both h7 (h8 c hc) (T.tok h6) (g3 c hc), g4⟩
  | rest h3 =>
    have h : Run sty mini f x (word c!"import" :: (importNameItems ns l ++ [.gap, word c!"from", .gap, strItem s, .semi])) y := by
      cases h3 with
      | «namespace» => exact h
      | named =>
        simp only [importDeclItems, List.cons_append, List.append_assoc, List.nil_append, Option.isSome_some, Option.isSome_none, Bool.or_true,
          Bool.true_or, if_true, Bool.false_eq_true, if_false] at h
        exact h
    obtain ⟨m, h4, h⟩ := h
    obtain ⟨ns', l', r, g1, g2, g3, g4⟩ := importNames_again hr h3 h
    exact ⟨none, ns', l', m, r, rfl, g1, g2, skey h4, fun c hc => .names (g3 c hc), g4⟩

theorem import_tok {d ns : Option Ident} {l : Option (List NamedImport)} {s : LitString} :
    (importDeclItems d ns l s ++ [Item.nl]).any isTok = true := by
  simp [importDeclItems, isTok_word]

theorem re_importModule {s : LitString} (hs : sty = .module) : Re sty mini ctx (.decl (.importDecl sp none none none s)) := by
  intro f x y h
  obtain ⟨sp', hsp⟩ := run_from h (by simp only [itemsOf, Stmt.items, import_tok])
  obtain ⟨m, h1, o, h2, q, h3, rfl⟩ := h
  exact ⟨.importDecl sp' none none none s, rfl, fun v hv => .importModule hs (skey h1) (T.tok h2) (semi_stmt h3) hsp⟩

theorem re_importFrom {d ns : Option Ident} {l : Option (List NamedImport)} {s : LitString} {ts : List Token} (hs : sty = .module)
    (hr : ∀ t ∈ ts, Real t) (hd : ImportClause ctx d ns l ts) : Re sty mini ctx (.decl (.importDecl sp d ns l s)) := by
  intro f x y h
  obtain ⟨sp', hsp⟩ := run_from h (by simp only [itemsOf, Stmt.items, import_tok])
  obtain ⟨d', ns', l', m, o, h1, h2, h3, h4, h5, q, h6, r, h7, w, h8, rfl⟩ := importWhat_again hr hd (run_nlEnd.1 h)
  exact ⟨.importDecl sp' d' ns' l' s, by simp only [Stmt.strip, h1, h2, h3],
    fun v hv => .importFrom hs h4 (h5 _ rfl) (skey h6) (T.tok h7) (semi_stmt h8) hsp⟩

/-! ## Exports -/

theorem re_exportNamed {l : List NamedExport} {ts : List Token} (hs : sty = .module) (hr : ∀ t ∈ ts, Real t) (hd : NamedExports l ts) :
    Re sty mini ctx (.decl (.exportDecl (.named sp l none))) := by
  intro f x y h
  have h : Run sty mini f x ((word c!"export" :: .gap :: braces (l.map exportItems) ++ [] ++ [.semi]) ++ [.nl]) y := h
  obtain ⟨sp', hsp⟩ := run_from h (by simp [isTok_word])
  simp only [List.cons_append, List.append_assoc, List.nil_append, run_word, run_gap] at h
  obtain ⟨m, h1, h⟩ := h
  obtain ⟨-, hm, hsep, -⟩ := hd
  obtain ⟨l', o, q, h2, h3, h4, h⟩ := braces_run (strip := NamedExport.strip) (fun d hd f x y h =>
    let ⟨us, hd⟩ := mem_trees hd
    exportItem_again (ts := us) (fun t ht => hr t (by simp [sep_mem hsep _ hd t ht])) (hm _ hd) h) h
  obtain ⟨r, h5, rfl⟩ := run_semi.1 h
  exact ⟨.exportDecl (.named sp' l' none), by simp only [Stmt.strip, ExportDecl.strip, h2],
    fun v hv => .exportNamed hs h1.key h3 h4 (semi_look h5 fun t ht => by rcases ht with ht | ht <;> rw [ht] <;> exact nofun) (semi_stmt h5) hsp⟩

theorem re_exportFrom {l : List NamedExport} {s : LitString} {ts : List Token} (hs : sty = .module) (hr : ∀ t ∈ ts, Real t) (hd : NamedExports l ts) :
    Re sty mini ctx (.decl (.exportDecl (.named sp l (some s)))) := by
  intro f x y h
  have h : Run sty mini f x ((word c!"export" :: .gap :: braces (l.map exportItems) ++ [.gap, word c!"from", .gap, strItem s] ++ [.semi]) ++ [.nl]) y := h
  obtain ⟨sp', hsp⟩ := run_from h (by simp [isTok_word])
  simp only [List.cons_append, List.append_assoc, List.nil_append, run_word, run_gap] at h
  obtain ⟨m, h1, h⟩ := h
  obtain ⟨-, hm, hsep, -⟩ := hd
  obtain ⟨l', o, q, h2, h3, h4, h⟩ := braces_run (strip := NamedExport.strip) (fun d hd f x y h =>
    let ⟨us, hd⟩ := mem_trees hd
    exportItem_again (ts := us) (fun t ht => hr t (by simp [sep_mem hsep _ hd t ht])) (hm _ hd) h) h
  obtain ⟨r, h5, w, h6, k, h7, rfl⟩ := h
  exact ⟨.exportDecl (.named sp' l' (some s)), by simp only [Stmt.strip, ExportDecl.strip, h2],
    fun v hv => .exportFrom hs h1.key h3 h4 (skey h5) (T.tok h6) (semi_stmt h7) hsp⟩

theorem line_end (h : Run sty mini f x (lineEnds :: .lexed :: is) y) : EndOfStmt sty x x := by
  obtain ⟨h1, h2, -⟩ := h
  refine .inr ⟨rfl, ?_⟩
  rcases h2 with h2 | ⟨t, b, h2⟩
  · exact .inl h2
  · have h1 := h1 t b h2
    simp at h1
    exact .inr ⟨t, b, h2, h1.2, h1.1.symm⟩

theorem re_exportAll {s : LitString} (hs : sty = .module) : Re sty mini ctx (.decl (.exportDecl (.namespace sp none s))) := by
  intro f x y h
  have h : Run sty mini f x (word c!"export" :: .gap :: pu p!"*" :: .gap :: word c!"from" :: .gap :: strItem s :: lineEnds :: .lexed :: [.nl]) y := h
  obtain ⟨sp', hsp⟩ := run_from h (by simp [isTok_word])
  obtain ⟨m, h1, o, h2, q, h3, r, h4, h⟩ := h
  have he := line_end h
  obtain ⟨-, -, rfl⟩ := h
  exact ⟨.exportDecl (.namespace sp' none s), rfl, fun v hv => .exportAll hs (skey h1) (T.tok h2) (skey h3) (T.tok h4) he hsp⟩

theorem re_exportAllAs {s : LitString} (hs : sty = .module) (h1 : Real t) (h2 : NameTok t id) :
    Re sty mini ctx (.decl (.exportDecl (.namespace sp (some id) s))) := by
  intro f x y h
  have h : Run sty mini f x (word c!"export" :: .gap :: pu p!"*" :: .gap :: word c!"as" :: .gap :: word id.name :: .gap :: word c!"from" :: .gap ::
    strItem s :: lineEnds :: .lexed :: [.nl]) y := h
  obtain ⟨sp', hsp⟩ := run_from h (by simp [isTok_word])
  obtain ⟨m, h3, o, h4, q, h5, r, h6, w, h7, k, h8, h⟩ := h
  have he := line_end h
  obtain ⟨-, -, rfl⟩ := h
  obtain ⟨u, g1, -, -, g2⟩ := name_again h1 h2 h6
  exact ⟨.exportDecl (.namespace sp' (some ⟨u.span, id.name⟩) s), rfl,
    fun v hv => .exportAllAs hs (skey h3) (T.tok h4) (skey h5) g1 g2 (skey h7) (T.tok h8) he hsp⟩

/-- A declaration after `export`. -/
theorem decl_run {d : Stmt} (h : Run sty mini f x (if isFunction d then d.items.drop 1 else d.items) y) : Run sty mini f x d.items y := by
  cases d <;> exact h

theorem re_exportVar {l : List VarDecl} (hs : sty = .module) (hl : l ≠ []) (ih : Re sty mini { ctx with in_ := true } (.varDecls l)) :
    Re sty mini ctx (.decl (.exportDecl (.decl sp (.variable (.mk vsp .var l))))) := by
  intro f x y h
  obtain ⟨sp', hsp⟩ := run_from h (by simp [itemsOf, Stmt.items, ExportDecl.items, isTok_word])
  obtain ⟨m, h1, -, h⟩ := run_nlEnd.1 h
  have h := decl_run h
  obtain ⟨vsp', hvsp⟩ := run_from h (by st_tok)
  obtain ⟨o, q, h2, ⟨g, h3⟩, h4, h5⟩ := var_run hl (run_nlEnd.1 h)
  obtain ⟨l', h6, h7⟩ := ih h3
  exact ⟨.exportDecl (.decl sp' (.variable (.mk vsp' .var l'))), by simp only [Stmt.strip, ExportDecl.strip, VarStmt.strip, h6],
    fun v hv => .exportVar hs (skey h1) h2.key h7.on (h4 _ _) h5 hvsp hsp⟩

theorem re_exportDecl {d : Stmt} (hs : sty = .module) (ih : Re sty mini ctx (.decl d)) : Re sty mini ctx (.decl (.exportDecl (.decl sp d))) := by
  intro f x y h
  obtain ⟨sp', hsp⟩ := run_from h (by simp [itemsOf, Stmt.items, ExportDecl.items, isTok_word])
  obtain ⟨m, h1, h2, h⟩ := run_nlEnd.1 h
  obtain ⟨d', h6, h7⟩ := ih (decl_run h)
  exact ⟨.exportDecl (.decl sp' d'), by simp only [Stmt.strip, ExportDecl.strip, h6],
    fun v hv => .exportDecl hs (skey h1) (Look.mono h2 fun t ht => by simpa using ht) (h7 v hv) hsp⟩

theorem re_exportDefaultDecl {d : Stmt} (hs : sty = .module) (ih : Re sty mini { ctx with default := true } (.decl d)) :
    Re sty mini ctx (.decl (.exportDecl (.defaultDecl sp d))) := by
  intro f x y h
  obtain ⟨sp', hsp⟩ := run_from h (by simp [itemsOf, Stmt.items, ExportDecl.items, isTok_word])
  obtain ⟨m, h1, o, h2, h3, h⟩ := run_nlEnd.1 h
  obtain ⟨d', h6, h7⟩ := ih (decl_run h)
  exact ⟨.exportDecl (.defaultDecl sp' d'), by simp only [Stmt.strip, ExportDecl.strip, h6],
    fun v hv => .exportDefaultDecl hs (skey h1) (skey h2) (Look.mono h3 fun t ht => by simpa using ht) (h7 v hv) hsp⟩

theorem re_exportDefaultExpr (hs : sty = .module) (ih : Re sty mini { ctx with in_ := true } (.expr 1 e)) :
    Re sty mini ctx (.decl (.exportDecl (.defaultExpr sp e))) := by
  intro f x y h
  obtain ⟨sp', hsp⟩ := run_from h (by simp [itemsOf, Stmt.items, ExportDecl.items, isTok_word])
  have h := run_nlEnd.1 h
  simp only [ExportDecl.items, List.cons_append, List.append_assoc, exportStart, List.nil_append, run_word, run_gap, run_blank, run_next, run_next2] at h
  obtain ⟨m, h1, o, h2, h3, h4, h⟩ := h
  obtain ⟨q, h5, h⟩ := run_append.1 h
  obtain ⟨r, h8, rfl⟩ := run_semi.1 h
  obtain ⟨e', h6, h7⟩ := ih h5
  refine ⟨.exportDecl (.defaultExpr sp' e'), by simp only [Stmt.strip, ExportDecl.strip, h6],
    fun v hv => .exportDefaultExpr hs h1.key h2.key (fun t c ht => ⟨by simpa using h3 t c ht, fun hv u d hu hw => ?_⟩) h7.on (semi_ends h8) (semi_stmt h8) hsp⟩
  have := h4 t c u d ht hu (.inr ⟨_, hv⟩)
  simp [hv, hw] at this

end Fajt.Print
