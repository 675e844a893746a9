import Verif.Proofs.PrintBind
/-!
# Reading printed functions and classes
-/
namespace Fajt.Print
open Fajt Spec Complete
set_option linter.unusedSectionVars false
set_option linter.unusedSimpArgs false
variable [UnicodeID] {sty : SourceType} {mini : Bool} {ctx : Ctx} {f : Bool} {a b c m o p q x y z : Point} {is js : List Item} {v : TokVal} {n s : Str}
  {t u : Token} {e e1 e2 e3 : Expr} {es : List Expr} {sp asp bsp lsp : Span} {id : Ident} {as : List Argument}

/-! ## Static semantics of parameters -/

theorem stripBindingElements_map (l : List BindingElement) : stripBindingElements l = l.map BindingElement.strip := by
  induction l with
  | nil => rfl
  | cons d l ih => simp only [stripBindingElements, ih, List.map_cons]

theorem stripOptBindingPattern_map (r : Option BindingPattern) : stripOptBindingPattern r = r.map BindingPattern.strip := by
  cases r <;> rfl

theorem plainName_strip (d : BindingPattern) : plainName d.strip = plainName d := by
  cases d <;> rfl

theorem patternOf_strip (d : BindingElement) : patternOf d.strip = (patternOf d).strip := by
  cases d; rfl

theorem plainNames_strip (ps : FormalParams) : plainNames ps.strip = plainNames ps := by
  obtain ⟨sp, l, r⟩ := ps
  simp only [FormalParams.strip, plainNames, stripBindingElements_map, stripOptBindingPattern_map, List.filterMap_append, List.filterMap_map]
  congr 1
  · congr 1
    funext d
    simp only [Function.comp, patternOf_strip, plainName_strip]
  · cases r <;> simp [List.filterMap, plainName_strip]

theorem simple_again {ps : FormalParams} (h : SimpleParams ps) : ∀ ps' : FormalParams, ps'.strip = ps.strip → SimpleParams ps' := by
  obtain ⟨sp, l⟩ := h
  rintro ⟨sp', l', r'⟩ h
  simp only [FormalParams.strip, FormalParams.mk.injEq, true_and] at h
  obtain ⟨h1, h2⟩ := h
  obtain rfl : r' = none := by cases r' <;> simp [stripOptBindingPattern] at h2 ⊢
  obtain ⟨k, rfl⟩ : ∃ k : List (Span × Ident), l' = k.map fun p => .mk p.1 (.ident p.2) none := by
    clear h2
    induction l generalizing l' with
    | nil =>
      cases l' with
      | nil => exact ⟨[], rfl⟩
      | cons => simp [stripBindingElements] at h1
    | cons d l ih =>
      cases l' with
      | nil => simp [stripBindingElements] at h1
      | cons d' l' =>
        simp only [List.map_cons, stripBindingElements, List.cons.injEq] at h1
        obtain ⟨k, rfl⟩ := ih _ h1.2
        obtain ⟨sp2, p2, i2⟩ := d'
        simp only [BindingElement.strip, BindingElement.mk.injEq, true_and] at h1
        obtain ⟨⟨h3, h4⟩, -⟩ := h1
        obtain rfl : i2 = none := by cases i2 <;> simp [stripOptExpr] at h4 ⊢
        cases p2 with
        | ident i => exact ⟨(sp2, i) :: k, rfl⟩
        | _ => simp [BindingPattern.strip] at h3
  exact .intro _ _

theorem paramsOK_again {k : MethodKind} {ps ps' : FormalParams} {ds : List LitString} (h : ParamsOK k ps ds) (he : ps'.strip = ps.strip) :
    ParamsOK k ps' ds := by
  have hu : ∀ {ps : FormalParams}, UseStrictOK ps ds → ps'.strip = ps.strip → UseStrictOK ps' ds := fun h he =>
    h.imp (fun h => simple_again h _ he) id
  obtain ⟨sp', l', r'⟩ := ps'
  obtain ⟨sp, l, r⟩ := ps
  have he' := he
  simp only [FormalParams.strip, FormalParams.mk.injEq, true_and, stripBindingElements_map, stripOptBindingPattern_map] at he'
  cases k with
  | method => exact ⟨hu h.1 he, by rw [← plainNames_strip, he, plainNames_strip]; exact h.2⟩
  | get =>
    obtain ⟨rfl, rfl⟩ := h
    exact ⟨by simpa using he'.1, by simpa using he'.2⟩
  | set =>
    obtain ⟨⟨d, rfl⟩, rfl, h⟩ := h
    refine ⟨?_, by simpa using he'.2, hu h he⟩
    cases l' with
    | nil => simp at he'
    | cons d' l' =>
      cases l' with
      | nil => exact ⟨_, rfl⟩
      | cons => simp at he'

/-! ## Bodies -/

theorem run_gap1 : Run sty mini f x (is ++ (.gap :: js)) y ↔ Run sty mini f x (is ++ js) y := by
  simp only [run_append (is := is), run_gap]

theorem block_run (h : Run sty mini f x (blockItems is ++ js) y) : ∃ m o g, Sym sty p!"{" x m ∧ Run sty mini g m (is ++ [.close, pu p!"}"]) o ∧ Run sty mini false o js y := by
  unfold blockItems at h
  split at h
  · next hi =>
    obtain rfl : is = [] := by simpa using hi
    obtain ⟨m, h1, o, h2, h3⟩ := h
    exact ⟨m, o, false, T.tok h1, ⟨o, h2, rfl⟩, h3⟩
  · rw [List.cons_append, List.cons_append] at h
    obtain ⟨m, h1, h2⟩ := h
    obtain ⟨o, h2, h3⟩ := run_append.1 (run_open.1 h2)
    exact ⟨m, o, _, T.tok h1, h2, by
      rwa [show ∀ g, lineEnd mini g (is.append [.close, pu p!"}"]) = false from fun g => by
        simp [lineEnd, List.foldl_append, after, pu]] at h3⟩

theorem block_run' (h : Run sty mini f x (blockItems is) y) : ∃ m g, Sym sty p!"{" x m ∧ Run sty mini g m (is ++ [.close, pu p!"}"]) y := by
  obtain ⟨m, o, g, h1, h2, rfl⟩ := block_run (js := []) (by rw [List.append_nil]; exact h)
  exact ⟨m, g, h1, h2⟩

theorem notString_look (h : Look sty a fun t => (match t.value with
    | .lit (.string _) => false
    | _ => true) = true) : Look sty a fun t => ∀ s, t.value ≠ .lit (.string s) :=
  Look.mono h fun t ht s hs => by rw [hs] at ht; cases ht

theorem re_directivesNil : Re sty mini ctx (.directives []) := by
  intro f x y h
  obtain ⟨h1, rfl⟩ := h
  exact fun v hv => .directivesEnd (notString_look h1)

theorem T.mk' {k : Punct} (h : Step sty a ⟨.plain, .punct k, k.asStr⟩ f b) : T sty (.punct k) f a b := h

theorem tok_ends {k : Nat} (h : T sty v f a b) (hv : ∀ (c : Ctx) (t : Token), t.value = v → contLevel c t = none := by
    intro c t ht; simp [contLevel, ht]) : Ends sty ctx k a :=
  h.look fun t ht _ l hl => by rw [hv _ _ ht] at hl; cases hl

/-- The end of a statement. -/
theorem semi_ends {k : Nat} (h : Semi sty f a b) : Ends sty ctx k a := by
  rcases h with h | ⟨-, h, -⟩
  · exact tok_ends (T.mk' h)
  · exact Look.mono h fun t ht l hl => by simp [contLevel, ht] at hl

theorem semi_stmt (h : Semi sty f a b) : EndOfStmt sty a b := by
  rcases h with h | ⟨rfl, h, h' | ⟨t, c, ht⟩⟩
  · exact .inl (T.mk' h).tok
  · exact .inr ⟨rfl, .inl h'⟩
  · have := (look_iff ht).1 h
    exact .inr ⟨rfl, .inr ⟨t, c, ht, by rw [this]; decide, .inl this⟩⟩

theorem semi_look (h : Semi sty f a b) {p : Token → Prop} (hp : ∀ t : Token, t.value = .punct p!";" ∨ t.value = .punct p!"}" → p t) : Look sty a p := by
  rcases h with h | ⟨-, h, -⟩
  · exact (T.mk' h).look fun t ht _ => hp t (.inl ht)
  · exact Look.mono h fun t ht => hp t (.inr ht)

theorem re_directivesMore {d : LitString} {ds : List LitString} (ih : Re sty mini ctx (.directives ds)) : Re sty mini ctx (.directives (d :: ds)) := by
  intro f x y h
  have h : Run sty mini f x (strItem d :: .semi :: .nl :: (directiveItems ds ++ [notString])) y := h
  obtain ⟨m, ⟨-, t, h1, h2, -⟩, h3⟩ := run_strItem.1 h
  obtain ⟨o, h4, h5⟩ := run_semi.1 h3
  exact fun v hv => .directivesMore h1 h2 (semi_ends h4) (semi_stmt h4) (ih (run_nl.1 h5) v hv)

theorem re_body {ds : List LitString} {ss : List Stmt} (ih : Re sty mini ctx (.directives ds))
    (ih' : Re sty mini { afterDirectives ctx ds with return_ := true } (.stmts ss)) : Re sty mini ctx (.body (.mk sp ds ss)) := by
  intro f x y h
  obtain ⟨sp', hsp⟩ := run_from h (by simp only [itemsOf, Body.items]; split <;> simp [isTok_pu])
  have hh : ∃ m o g g', Sym sty p!"{" x m ∧ Run sty mini g m (itemsOf (.directives ds)) o ∧ Run sty mini g' o (itemsOf (.stmts ss)) y := by
    simp only [itemsOf, Body.items] at h
    split at h
    · next hi =>
      obtain ⟨rfl, rfl⟩ : ds = [] ∧ ss = [] := by simpa using hi
      obtain ⟨m, h1, o, h2, rfl⟩ := h
      refine ⟨m, m, false, false, T.tok h1, ⟨T.look h2 fun t ht _ => ?_, rfl⟩, _, h2, rfl⟩
      rw [ht]
    · simp only [List.cons_append, List.append_assoc, run_pu, run_open] at h
      obtain ⟨m, h1, h2⟩ := h
      obtain ⟨o, h3, h4, h5⟩ := run_append.1 h2
      exact ⟨m, o, _, _, h1.tok, run_append.2 ⟨o, h3, h4, rfl⟩, h5⟩
  obtain ⟨m, o, g, g', h1, h2, h3⟩ := hh
  obtain ⟨ss', h4, h5⟩ := ih' h3
  exact ⟨.mk sp' ds ss', by simp only [Body.strip, h4], fun v hv => .body h1 (ih h2 v hv) (h5 v hv) hsp⟩

/-! ## Functions -/

theorem optTok_run {g : Bool} {k : Punct} (h : Run sty mini f x ((if g then [pu k] else []) ++ is) y) :
    ∃ m f', OptTok sty (.punct k) g x m ∧ Run sty mini f' m is y := by
  cases g with
  | true =>
    obtain ⟨m, h1, h2⟩ := h
    exact ⟨m, _, T.tok h1, h2⟩
  | false => exact ⟨x, _, rfl, h⟩

theorem optName_run {i : Option Ident} (ho : ∀ j ∈ i, ∃ t, Real t ∧ IdentTok ctx t j) (h : Run sty mini f x (optNameItems i ++ is) y) :
    ∃ i' m f', i'.map Ident.strip = i.map Ident.strip ∧ (∀ c : Ctx, c.kw = ctx.kw → OptName sty c i' x m) ∧ Run sty mini f' m is y := by
  cases i with
  | none => exact ⟨none, x, _, rfl, fun _ _ => rfl, h⟩
  | some i =>
    obtain ⟨m, h1, h2⟩ := h
    obtain ⟨t, h3, h4⟩ := ho i rfl
    obtain ⟨u, h5, -, -, h6⟩ := ident_again h3 h4 h1
    exact ⟨some ⟨u.span, i.name⟩, m, _, rfl, fun c hc => ⟨u, h5, h6 c hc⟩, h2⟩

theorem params_run {ps : FormalParams} (h : Run sty mini f x (ps.items ++ is) y) : ∃ m, Run sty mini f x ps.items m ∧ Run sty mini false m is y := by
  obtain ⟨m, h1, h2⟩ := run_append.1 h
  rw [params_line] at h2
  exact ⟨m, h1, h2⟩

theorem re_function {g : Bool} {i : Option Ident} {ps : FormalParams} {bd : Body} (ho : ∀ j ∈ i, ∃ t, Real t ∧ IdentTok (insideFunction ctx g false) t j)
    (ih : Re sty mini (insideFunction ctx g false) (.params ps)) (ih' : Re sty mini (insideFunction ctx g false) (.body bd)) :
    Re sty mini ctx (.expr 21 (.function sp false g i ps bd)) := by
  intro f x y h
  obtain ⟨sp', hsp⟩ := run_from h (by has_tok)
  simp only [itemsOf, Expr.items, List.append_assoc, List.cons_append, Bool.false_eq_true, if_false, List.nil_append] at h
  obtain ⟨m, h1, h⟩ := run_word.1 h
  obtain ⟨o, _, h2, h⟩ := optTok_run h
  obtain ⟨i', p, _, h3, h4, h⟩ := optName_run ho (run_gap.1 h)
  obtain ⟨q, h5, h⟩ := params_run h
  obtain ⟨⟨ps', h6, h7⟩, -⟩ := ih h5
  obtain ⟨b', h8, h9⟩ := ih' (run_gap.1 h)
  exact ⟨.function sp' false g i' ps' b', by simp only [Expr.strip, h3, h6, h8],
    fun v hv => .function h1.key h2 (h4 _ rfl) (h7 v hv) (h9 v hv) hsp⟩

theorem re_asyncFunction {g : Bool} {i : Option Ident} {ps : FormalParams} {bd : Body} (ho : ∀ j ∈ i, ∃ t, Real t ∧ IdentTok (insideFunction ctx g true) t j)
    (ih : Re sty mini (insideFunction ctx g true) (.params ps)) (ih' : Re sty mini (insideFunction ctx g true) (.body bd)) :
    Re sty mini ctx (.expr 21 (.function sp true g i ps bd)) := by
  intro f x y h
  obtain ⟨sp', hsp⟩ := run_from h (by has_tok)
  simp only [itemsOf, Expr.items, List.append_assoc, List.cons_append, if_true, List.nil_append] at h
  obtain ⟨l, h0, h⟩ := run_word.1 h
  obtain ⟨m, h1, h⟩ := run_word.1 (run_gap.1 h)
  obtain ⟨o, _, h2, h⟩ := optTok_run h
  obtain ⟨i', p, _, h3, h4, h⟩ := optName_run ho (run_gap.1 h)
  obtain ⟨q, h5, h⟩ := params_run h
  obtain ⟨⟨ps', h6, h7⟩, -⟩ := ih h5
  obtain ⟨b', h8, h9⟩ := ih' (run_gap.1 h)
  exact ⟨.function sp' true g i' ps' b', by simp only [Expr.strip, h3, h6, h8],
    fun v hv => .asyncFunction h0.key (h1.look fun _ _ h => h) h1.key h2 (h4 _ rfl) (h7 v hv) (h9 v hv) hsp⟩

/-! ## Methods -/

theorem isIdentName_strip (s : Str) (n : PropName) : isIdentName s n.strip = isIdentName s n := by cases n <;> rfl
theorem hasName_strip (s : Str) (n : PropName) : hasName s n.strip = hasName s n := by cases n <;> rfl

theorem first_async {n : PropName} (h : Derives sty ctx (.propName n) a b) (hn : isIdentName c!"async" n = false) (ht : Next sty a t c) :
    t.value ≠ .keyword k!"async" := by
  intro hv
  cases h with
  | nameIdent h1 h2 =>
    obtain ⟨rfl, rfl⟩ := next_unique h1 ht
    cases h2 with
    | ident h3 => rw [hv] at h3; cases h3
    | keyword h3 =>
      rw [hv] at h3
      cases h3
      exact absurd (show true = false from hn) (by decide)
  | nameString h1 h2 => obtain ⟨rfl, rfl⟩ := next_unique h1 ht; rw [hv] at h2; cases h2
  | nameNumber h1 h2 => obtain ⟨rfl, rfl⟩ := next_unique h1 ht; rw [hv] at h2; cases h2
  | nameComputed h1 =>
    obtain ⟨u, h1, h2⟩ := h1
    obtain ⟨rfl, rfl⟩ := next_unique h1 ht; rw [hv] at h2; cases h2

theorem re_methodGen {n : PropName} {k : MethodKind} {ps : FormalParams} {ds : List LitString} {ss : List Stmt} {g w st : Bool}
    (ih1 : Re sty mini ctx (.propName n)) (ih2 : Re sty mini { ctx with yield := false, await := w } (.params ps))
    (ih3 : Re sty mini { ctx with yield := g, await := w } (.body (.mk bsp ds ss))) (hok : ParamsOK k ps ds)
    (hg : g = false → w = false → ctx.yield = false ∧ ctx.await = false) :
    Re sty mini ctx (.method (.mk sp n k ps (.mk bsp ds ss) g w st)) := by
  intro f x y h
  obtain ⟨sp', hsp⟩ := run_from h (by cases n <;> simp [itemsOf, MethodDef.items, PropName.items, isTok_word, isTok_pu, isTok_strItem, isTok_numItem])
  simp only [itemsOf, MethodDef.items, Bool.false_eq_true, if_false, List.cons_append, List.append_assoc, List.nil_append, run_demand] at h
  obtain ⟨hd, h⟩ := h
  have key : ∀ {f m}, Run sty mini f m (n.items ++ (ps.items ++ .gap :: (Body.mk bsp ds ss).items)) y → ∃ n' ps' bsp' ss' o q,
      n'.strip = n.strip ∧ ps'.strip = ps.strip ∧ stripStmts ss' = stripStmts ss ∧ Up sty ctx (.propName n') m o ∧
      Up sty { ctx with yield := false, await := w } (.params ps') o q ∧ Up sty { ctx with yield := g, await := w } (.body (.mk bsp' ds ss')) q y := by
    intro f m h
    obtain ⟨o, h1, h⟩ := run_append.1 h
    obtain ⟨q, h2, h⟩ := params_run h
    obtain ⟨n', h3, h4⟩ := ih1 h1
    obtain ⟨⟨ps', h5, h6⟩, -⟩ := ih2 h2
    obtain ⟨⟨bsp', ds', ss'⟩, h7, h8⟩ := ih3 (run_gap.1 h)
    simp only [Body.strip, Body.mk.injEq, true_and] at h7
    obtain ⟨rfl, h7⟩ := h7
    exact ⟨n', ps', bsp', ss', o, q, h3, h5, h7, h4, h6, h8⟩
  cases w with
  | true =>
    obtain rfl : k = .method := by cases k <;> simp [methodOk] at hd ⊢
    simp only [if_true, List.cons_append, List.nil_append, run_word, run_gap, run_sameLine] at h
    obtain ⟨l, h0, h1, h⟩ := h
    obtain ⟨m, _, h2, h⟩ := optTok_run h
    obtain ⟨n', ps', bsp', ss', o, q, h3, h4, h5, h6, h7, h8⟩ := key h
    exact ⟨.mk sp' n' .method ps' (.mk bsp' ds ss') g true st, by simp only [MethodDef.strip, Body.strip, h3, h4, h5],
      fun v hv => .asyncMethod h0.key (Look.mono h1 fun t ht => by simpa using ht) h2 (h6 v hv) (h7 v hv) (h8 v hv) (paramsOK_again hok h4) hsp⟩
  | false =>
    simp only [Bool.false_eq_true, if_false, List.nil_append] at h
    cases g with
    | true =>
      obtain rfl : k = .method := by cases k <;> simp [methodOk] at hd ⊢
      simp only [if_true, List.cons_append, List.nil_append, run_pu] at h
      obtain ⟨l, h0, h⟩ := h
      obtain ⟨n', ps', bsp', ss', o, q, h3, h4, h5, h6, h7, h8⟩ := key h
      exact ⟨.mk sp' n' .method ps' (.mk bsp' ds ss') true false st, by simp only [MethodDef.strip, Body.strip, h3, h4, h5],
        fun v hv => .generatorMethod h0.tok (h6 v hv) (h7 v hv) (h8 v hv) (paramsOK_again hok h4) hsp⟩
    | false =>
      simp only [Bool.false_eq_true, if_false, List.nil_append] at h
      obtain ⟨hy, hw⟩ := hg rfl rfl
      obtain ⟨cw, cy, c3, c4, c5, c6, c7, c8, c9⟩ := ctx
      subst hy hw
      cases k with
      | get =>
        simp only [List.cons_append, List.nil_append, run_word] at h
        obtain ⟨l, h0, h⟩ := h
        obtain ⟨n', ps', bsp', ss', o, q, h3, h4, h5, h6, h7, h8⟩ := key h
        exact ⟨.mk sp' n' .get ps' (.mk bsp' ds ss') false false st, by simp only [MethodDef.strip, Body.strip, h3, h4, h5],
          fun v hv => .getter (ctx := ⟨false, false, v, c4, c5, c6, c7, c8, c9⟩) h0.key (h6 v hv) (h7 v hv) (h8 v hv) (paramsOK_again hok h4) hsp⟩
      | set =>
        simp only [List.cons_append, List.nil_append, run_word] at h
        obtain ⟨l, h0, h⟩ := h
        obtain ⟨n', ps', bsp', ss', o, q, h3, h4, h5, h6, h7, h8⟩ := key h
        exact ⟨.mk sp' n' .set ps' (.mk bsp' ds ss') false false st, by simp only [MethodDef.strip, Body.strip, h3, h4, h5],
          fun v hv => .setter (ctx := ⟨false, false, v, c4, c5, c6, c7, c8, c9⟩) h0.key (h6 v hv) (h7 v hv) (h8 v hv) (paramsOK_again hok h4) hsp⟩
      | method =>
        simp only [List.nil_append] at h
        obtain ⟨n', ps', bsp', ss', o, q, h3, h4, h5, h6, h7, h8⟩ := key h
        have hn : isIdentName c!"async" n' = false := by
          rw [← isIdentName_strip, h3, isIdentName_strip]
          simpa [methodOk] using hd
        exact ⟨.mk sp' n' .method ps' (.mk bsp' ds ss') false false st, by simp only [MethodDef.strip, Body.strip, h3, h4, h5],
          fun v hv => .method (ctx := ⟨false, false, v, c4, c5, c6, c7, c8, c9⟩)
            (fun t c ht hv => absurd hv (first_async h6.same hn ht)) (h6 v hv) (h7 v hv) (h8 v hv) (paramsOK_again hok h4) hsp⟩

theorem re_propMethod {n : PropName} {k : MethodKind} {ps : FormalParams} {bd : Body} {g w : Bool}
    (hb : bareComputed (.mk sp n k ps bd g w false) = false)
    (ih : Re sty mini { ctx with inMethod := true, staticMethod := false, superCall := false } (.method (.mk sp n k ps bd g w false))) :
    Re sty mini ctx (.prop (.method (.mk sp n k ps bd g w false))) := by
  intro f x y h
  simp only [itemsOf, PropDef.items, hb, Bool.false_eq_true, if_false, List.cons_append, List.nil_append, run_demand, run_notNext] at h
  obtain ⟨-, h1, h⟩ := h
  obtain ⟨⟨sp', n', k', ps', bd', g', w', st⟩, h2, h3⟩ := ih h
  have h4 := h2
  simp only [MethodDef.strip, MethodDef.mk.injEq] at h4
  obtain ⟨-, -, -, -, -, -, -, rfl⟩ := h4
  exact ⟨.method (.mk sp' n' k' ps' bd' g' w' false), by simp only [PropDef.strip, h2],
    fun v hv => .propMethod (Look.mono h1 fun t ht => by simpa using ht) (h3 v hv)⟩

theorem re_propComputedMethod {ps : FormalParams} {ds : List LitString} {ss : List Stmt}
    (ih1 : Re sty mini ctx (.propName (.computed e))) (ih2 : Re sty mini { ctx with yield := false } (.params ps))
    (ih3 : Re sty mini ctx (.body (.mk bsp ds ss))) (hok : ParamsOK .method ps ds) :
    Re sty mini ctx (.prop (.method (.mk sp (.computed e) .method ps (.mk bsp ds ss) ctx.yield ctx.await false))) := by
  intro f x y h
  simp only [itemsOf, PropDef.items, List.cons_append, run_demand] at h
  obtain ⟨hd, h⟩ := h
  obtain ⟨cw, cy, c3, c4, c5, c6, c7, c8, c9⟩ := ctx
  obtain ⟨rfl, rfl⟩ : cy = false ∧ cw = false := by simpa [computedOk, isComputed] using hd
  have h : Run sty mini f x ((PropName.computed e).items ++ ps.items ++ .gap :: (Body.mk bsp ds ss).items) y := h.2
  obtain ⟨sp', hsp⟩ := run_from h (by simp [PropName.items, isTok_pu])
  rw [List.append_assoc] at h
  obtain ⟨o, h1, h⟩ := run_append.1 h
  obtain ⟨q, h2, h⟩ := params_run h
  obtain ⟨n', h3, h4⟩ := ih1 h1
  obtain ⟨⟨ps', h5, h6⟩, -⟩ := ih2 h2
  obtain ⟨⟨bsp', ds', ss'⟩, h7, h8⟩ := ih3 (run_gap.1 h)
  have h9 := h7
  simp only [Body.strip, Body.mk.injEq, true_and] at h9
  obtain ⟨rfl, -⟩ := h9
  cases n' with
  | computed e' =>
    exact ⟨.method (.mk sp' (.computed e') .method ps' (.mk bsp' ds' ss') false false false), by simp only [PropDef.strip, MethodDef.strip, h3, h5, h7],
      fun v hv => .propComputedMethod (ctx := ⟨false, false, v, c4, c5, c6, c7, c8, c9⟩) (h4 v hv) (h6 v hv) (h8 v hv) (paramsOK_again hok h5) hsp⟩
  | _ => simp [PropName.strip] at h3

/-! ## Classes -/

theorem re_elementPlain {n : PropName} {k : MethodKind} {ps : FormalParams} {bd : Body} {g w : Bool}
    (ih : Re sty mini ctx (.method (.mk sp n k ps bd g w false))) : Re sty mini ctx (.classElement (.mk sp n k ps bd g w false)) := by
  intro f x y h
  obtain ⟨⟨sp', n', k', ps', bd', g', w', st⟩, h2, h3⟩ := ih h
  have h4 := h2
  simp only [MethodDef.strip, MethodDef.mk.injEq] at h4
  obtain ⟨-, -, -, -, -, -, -, rfl⟩ := h4
  exact ⟨.mk sp' n' k' ps' bd' g' w' false, h2, fun v hv => .elementPlain (h3 v hv)⟩

theorem re_elementStatic {n : PropName} {k : MethodKind} {ps : FormalParams} {bd : Body} {g w : Bool} (hs : ctx.staticMethod = true)
    (ih : Re sty mini ctx (.method (.mk sp n k ps bd g w true))) : Re sty mini ctx (.classElement (.mk sp n k ps bd g w true)) := by
  intro f x y h
  simp only [itemsOf, MethodDef.items, if_true, List.cons_append, List.append_assoc, List.nil_append, run_demand, run_word, run_gap] at h
  obtain ⟨hd, m, h1, h⟩ := h
  have h : Run sty mini false m (itemsOf (.method (.mk sp n k ps bd g w true))) y := by
    simp only [itemsOf, MethodDef.items, Bool.false_eq_true, if_false, List.cons_append, List.append_assoc, List.nil_append, run_demand]
    exact ⟨hd, h⟩
  obtain ⟨⟨sp', n', k', ps', bd', g', w', st⟩, h2, h3⟩ := ih h
  have h4 := h2
  simp only [MethodDef.strip, MethodDef.mk.injEq] at h4
  obtain ⟨-, -, -, -, -, -, -, rfl⟩ := h4
  exact ⟨.mk sp' n' k' ps' bd' g' w' true, h2, fun v hv => .elementStatic hs h1.key (h3 v hv)⟩

/-- The method begins with the name `constructor`. -/
def ctorFirst : MethodDef → Bool
  | .mk _ n k _ _ g w st => !g && !w && !st && k == .method && hasName c!"constructor" n

theorem str_eq (s r : Str) : decide (s = r) = (r == s) := by
  by_cases h : s = r
  · subst h; simp
  · rw [decide_eq_false h, eq_comm, beq_eq_false_iff_ne]
    exact fun h' => h h'.symm

theorem ctor_name {n : PropName} (h : Derives sty ctx (.propName n) a b) (ht : Next sty a t c) : ctorTok t = hasName c!"constructor" n := by
  cases h with
  | @nameIdent _ u i _ _ h1 h2 =>
    obtain ⟨rfl, rfl⟩ := next_unique h1 ht
    cases h2 with
    | ident h3 => simp only [ctorTok, h3, hasName]; exact str_eq _ _
    | @keyword k h3 => simp [ctorTok, h3, hasName]; cases k <;> decide
  | nameString h1 h2 => obtain ⟨rfl, rfl⟩ := next_unique h1 ht; simp only [ctorTok, h2, hasName]; exact str_eq _ _
  | nameNumber h1 h2 => obtain ⟨rfl, rfl⟩ := next_unique h1 ht; simp [ctorTok, h2, hasName]
  | nameComputed h1 =>
    obtain ⟨u, h1, h2⟩ := h1
    obtain ⟨rfl, rfl⟩ := next_unique h1 ht; simp [ctorTok, h2, hasName]

theorem ctor_tok (h : Tok sty v a b) (ht : Next sty a t c) (hv : ∀ t : Token, t.value = v → ctorTok t = false := by
    intro t ht; simp [ctorTok, ht]) : ctorTok t = false := by
  obtain ⟨u, h1, h2⟩ := h
  obtain ⟨rfl, rfl⟩ := next_unique h1 ht
  exact hv _ h2

theorem ctor_first {d : MethodDef} (h : Derives sty ctx (.classElement d) a b) (hc : ctorOk d = true) (ht : Next sty a t c) :
    ctorTok t = ctorFirst d := by
  cases h with
  | elementStatic _ h1 => rw [ctor_tok h1 ht]; simp [ctorFirst]
  | elementPlain h =>
    cases h with
    | method _ h1 =>
      rw [ctor_name h1 ht]
      simp [ctorFirst, ctorOk] at hc ⊢
      cases hn : hasName c!"constructor" _ <;> simp_all
    | generatorMethod h1 => rw [ctor_tok h1 ht]; simp [ctorFirst]
    | asyncMethod h1 => rw [ctor_tok h1 ht]; simp [ctorFirst]
    | getter h1 => rw [ctor_tok h1 ht]; simp [ctorFirst]
    | setter h1 => rw [ctor_tok h1 ht]; simp [ctorFirst]

theorem ctorOk_strip (d : MethodDef) : ctorOk d.strip = ctorOk d := by
  cases d; simp only [MethodDef.strip, ctorOk, hasName_strip]
theorem ctorFirst_strip (d : MethodDef) : ctorFirst d.strip = ctorFirst d := by
  cases d; simp only [MethodDef.strip, ctorFirst, hasName_strip]

theorem re_classEnd {hs : Bool} : Re sty mini ctx (.classBody hs []) := by
  intro f x y h
  obtain ⟨b, h1, rfl⟩ := h
  exact ⟨[], rfl, fun v hv => .classEnd (T.tok h1)⟩

theorem method_tok (d : MethodDef) : d.items.any isTok = true := by
  obtain ⟨sp, n, k, ps, bd, g, w, st⟩ := d
  cases n <;> simp [MethodDef.items, PropName.items, isTok_word, isTok_pu, isTok_strItem, isTok_numItem]

theorem re_classMore {hs sc : Bool} {d : MethodDef} {l : List MethodDef} (hsc : ctorOk d = true → sc = (hs && ctorFirst d))
    (ih : Re sty mini { ctx with inMethod := true, staticMethod := true, superCall := sc } (.classElement d))
    (ih' : Re sty mini ctx (.classBody hs l)) : Re sty mini ctx (.classBody hs (d :: l)) := by
  intro f x y h
  simp only [itemsOf, elementItems, List.cons_append, List.append_assoc, run_demand] at h
  obtain ⟨hc, h⟩ := h
  obtain ⟨m, h1, h2⟩ := run_append.1 h
  obtain ⟨⟨t', c', ht'⟩, -⟩ := run_first h1 (method_tok d)
  obtain ⟨d', h3, h4⟩ := ih h1
  obtain ⟨l', h5, h6⟩ := ih' (run_nl.1 h2)
  have h7 := ctor_first h4.same (by rw [← ctorOk_strip, h3, ctorOk_strip]; exact hc) ht'
  rw [← ctorFirst_strip, h3, ctorFirst_strip] at h7
  refine ⟨d' :: l', by simp only [stripMethodDefs, h3, h5], fun v hv => .classMore ht' ?_ (h6 v hv)⟩
  rw [h7, ← hsc hc]
  exact h4 v hv

theorem re_classPlain {l : List MethodDef} (ih : Re sty mini ctx (.classBody false l)) : Re sty mini ctx (.classTail none l) := by
  intro f x y h
  obtain ⟨m, g, h1, h2⟩ := block_run' h
  obtain ⟨l', h3, h4⟩ := ih h2
  exact ⟨none, l', rfl, h3, fun v hv => .classPlain h1 (h4 v hv)⟩

theorem re_classExtends {l : List MethodDef} (ih : Re sty mini ctx (.expr 17 e)) (ih' : Re sty mini ctx (.classBody true l)) :
    Re sty mini ctx (.classTail (some e) l) := by
  intro f x y h
  have h : Run sty mini f x (word c!"extends" :: (e.items ++ blockItems (elementItems l))) y := h
  obtain ⟨m, h1, h⟩ := run_word.1 h
  obtain ⟨o, h2, h⟩ := run_append.1 h
  obtain ⟨p, g, h3, h⟩ := block_run' h
  obtain ⟨e', h4, h5⟩ := ih h2
  obtain ⟨l', h6, h7⟩ := ih' h
  exact ⟨some e', l', by simp only [stripOptExpr, h4], h6, fun v hv => .classExtends h1.key (h5 v hv) h3 (h7 v hv)⟩

theorem re_classE {i : Option Ident} {s : Option Expr} {l : List MethodDef} (ho : ∀ j ∈ i, ∃ t, Real t ∧ IdentTok { ctx with strict := true } t j)
    (ih : Re sty mini { ctx with strict := true } (.classTail s l)) : Re sty mini ctx (.expr 21 (.classE sp i s l)) := by
  intro f x y h
  obtain ⟨sp', hsp⟩ := run_from h (by has_tok)
  simp only [itemsOf, Expr.items, List.append_assoc, List.cons_append] at h
  obtain ⟨m, h1, h⟩ := run_word.1 h
  obtain ⟨i', p, _, h3, h4, h⟩ := optName_run ho h
  obtain ⟨s', l', h5, h6, h7⟩ := ih (run_gap1.1 h)
  exact ⟨.classE sp' i' s' l', by simp only [Expr.strip, h3, h5, h6], fun v hv => .classE h1.key (h4 _ rfl) (h7 v hv) hsp⟩

end Fajt.Print
