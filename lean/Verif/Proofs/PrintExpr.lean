import Verif.Proofs.PrintParse
/-!
# Reading printed expressions
-/
namespace Fajt.Print
open Fajt Spec Complete
set_option linter.unusedSectionVars false
set_option linter.unusedSimpArgs false
variable [UnicodeID] {sty : SourceType} {mini : Bool} {ctx : Ctx} {f : Bool} {a b c m o p q x y z : Point} {is js : List Item} {v : TokVal} {n s : Str}
  {t u : Token} {e e1 e2 e3 : Expr} {es : List Expr} {sp asp bsp lsp : Span} {id : Ident} {as : List Argument}

/-- Takes the reading of the items apart. -/
macro "run_at " h:ident : tactic => `(tactic|
  simp only [itemsOf, Expr.items, Literal.items, Argument.items, MemberProp.items, MemberProp.optItems, MemberObject.items, Callee.items,
    ArrayElement.items, PropDef.items, PropName.items, yieldItems, ArrowBody.items, PatternOrExpr.items, tailItems, initItems,
    List.cons_append, List.append_assoc, List.nil_append, List.append_nil, if_true, if_false, Bool.false_eq_true,
    run_nil, run_gap, run_blank, run_close, run_semi, run_nl, run_open, run_sep, run_still, run_single, run_next, run_notNext, run_sameLine, run_next2, run_more,
    run_demand, run_word, run_pu, run_strItem, run_numItem, run_regexItem, run_templateEndT, run_templateEndF, run_templateSubT,
    run_templateSubF, run_gapIf, run_append] at $h:ident)

/-- There is a token among the items. -/
macro "has_tok" : tactic => `(tactic|
  simp [itemsOf, Expr.items, Literal.items, Argument.items, MemberProp.items, MemberProp.optItems, MemberObject.items, Callee.items,
    ArrayElement.items, PropDef.items, PropName.items, yieldItems, ArrowBody.items, tailItems, initItems, isTok_word, isTok_pu,
    isTok_strItem, isTok_numItem, isTok_regexItem, isTok_oper])

theorem re_up {l : Nat} (hl : l ≤ 17 ∨ l = 20) (ih : Re sty mini ctx (.expr (l + 1) e)) : Re sty mini ctx (.expr l e) := fun _ _ _ h =>
  let ⟨e', he, hd⟩ := ih h; ⟨e', he, fun v hv => .up hl (hd v hv)⟩

theorem re_this : Re sty mini ctx (.expr 21 (.this sp)) := by
  intro f x y h
  run_at h
  obtain ⟨m, h1, rfl⟩ := h
  obtain ⟨-, t, h1, h2, -⟩ := h1
  exact ⟨.this t.span, rfl, fun v hv => .this h1 h2⟩

/-- The name of a keyword. -/
theorem ident_key {k : Keyword} (h : IdentTok ctx t id) (hk : t.value = .keyword k) : id.name = k.asStr := by
  cases h with
  | ident h1 => rw [h1] at hk; cases hk
  | keyword h1 => rw [h1] at hk; cases hk; rfl

theorem re_identRef (h1 : Real t) (h2 : IdentTok ctx t id) : Re sty mini ctx (.expr 21 (.ident id)) := by
  intro f x y h
  run_at h
  obtain ⟨hd, m, h, rfl⟩ := h
  have h3 : t.value ≠ .keyword k!"async" := fun hk => by rw [ident_key h2 hk] at hd; exact absurd hd (by decide)
  obtain ⟨u, h4, h5, -, h6⟩ := ident_again h1 h2 h
  exact ⟨.ident ⟨u.span, id.name⟩, rfl, fun v hv => .identRef h4 (h6 _ rfl) (h5 ▸ h3)⟩

theorem re_null : Re sty mini ctx (.expr 21 (.literal sp .null)) := by
  intro f x y h
  run_at h
  obtain ⟨m, ⟨-, t, h1, h2, -⟩, rfl⟩ := h
  exact ⟨.literal t.span .null, rfl, fun v hv => .null h1 h2⟩

theorem re_true : Re sty mini ctx (.expr 21 (.literal sp (.boolean true))) := by
  intro f x y h
  run_at h
  obtain ⟨m, ⟨-, t, h1, h2, -⟩, rfl⟩ := h
  exact ⟨.literal t.span (.boolean true), rfl, fun v hv => .true h1 h2⟩

theorem re_false : Re sty mini ctx (.expr 21 (.literal sp (.boolean false))) := by
  intro f x y h
  run_at h
  obtain ⟨m, ⟨-, t, h1, h2, -⟩, rfl⟩ := h
  exact ⟨.literal t.span (.boolean false), rfl, fun v hv => .false h1 h2⟩

theorem re_string {s : LitString} : Re sty mini ctx (.expr 21 (.literal sp (.string s))) := by
  intro f x y h
  run_at h
  obtain ⟨m, ⟨-, t, h1, h2, -⟩, rfl⟩ := h
  exact ⟨.literal t.span (.string s), rfl, fun v hv => .string h1 h2⟩

theorem re_number : Re sty mini ctx (.expr 21 (.literal sp (.number s))) := by
  intro f x y h
  run_at h
  obtain ⟨m, ⟨-, t, h1, h2, -⟩, rfl⟩ := h
  exact ⟨.literal t.span (.number s), rfl, fun v hv => .number h1 h2⟩

theorem re_regex : Re sty mini ctx (.expr 21 (.literal sp (.regexp s))) := by
  intro f x y h
  run_at h
  obtain ⟨m, ⟨h0, t, h1, -⟩, rfl⟩ := h
  exact ⟨.literal t.span (.regexp s), rfl, fun v hv => .regexE h1 h0⟩

theorem part_tok {fst : Bool} {ps : List TemplatePart} : (partItems fst s ps).any isTok = true := by
  induction ps generalizing fst s with
  | nil => simp [partItems, isTok_templateEnd]
  | cons p ps ih => cases p <;> simp [partItems, isTok_templateSub, isTok, ih] <;> simpa using ih

theorem re_template {ps : List TemplatePart} (ih : Re sty mini ctx (.template ps)) : Re sty mini ctx (.expr 21 (.literal sp (.template ps))) := by
  intro f x y h
  obtain ⟨sp', hsp⟩ := run_from h part_tok
  obtain ⟨ps', h1, h2⟩ := ih h
  exact ⟨.literal sp' (.template ps'), by simp only [Expr.strip, Literal.strip, h1], fun v hv => .templateE (h2 v hv) hsp⟩

theorem re_paren (ih : Re sty mini { ctx with in_ := true } (.expr 0 e)) : Re sty mini ctx (.expr 21 (.paren sp e)) := by
  intro f x y h
  obtain ⟨sp', hsp⟩ := run_from h (by has_tok)
  run_at h
  obtain ⟨m, h1, o, h2, b, h3, rfl⟩ := h
  obtain ⟨e', he, hd⟩ := ih h2
  exact ⟨.paren sp' e', by simp only [Expr.strip, he], fun v hv => .paren h1.tok hd.on h3.tok hsp⟩

/-! ## Lists -/

theorem run_comma1 {i : List Item} : Run sty mini f x (commaItems [i] ++ is) z ↔ ∃ m, Run sty mini f x i m ∧ Run sty mini (lineEnd mini f i) m is z := by
  simp only [commaItems, run_append]

theorem run_comma2 {i j : List Item} {l : List (List Item)} : Run sty mini f x (commaItems (i :: j :: l) ++ is) z ↔
    ∃ m, Run sty mini f x i m ∧ ∃ o, T sty (.punct p!",") (lineEnd mini f i) m o ∧ Run sty mini false o (commaItems (j :: l) ++ is) z := by
  simp only [commaItems, List.append_assoc, run_append (is := i), List.cons_append, List.nil_append, run_pu, run_gap]

theorem re_array {l : List ArrayElement} (ih : Re sty mini ctx (.elements l)) : Re sty mini ctx (.expr 21 (.literal sp (.array l))) := by
  intro f x y h
  obtain ⟨sp', hsp⟩ := run_from h (by has_tok)
  simp only [itemsOf, Expr.items, Literal.items, List.cons_append, List.append_assoc, run_pu, run_demand, run_gapIf] at h
  obtain ⟨m, h1, hd, h2⟩ := h
  have h2 : Run sty mini false m (itemsOf (.elements l)) y := by
    refine ⟨hd, ?_⟩
    show Run _ _ _ _ (_ ++ _) _
    rw [run_append] at h2 ⊢
    obtain ⟨o, h3, h4⟩ := h2
    exact ⟨o, h3, run_gapIf.1 h4⟩
  obtain ⟨l', h3, h4⟩ := ih h2
  exact ⟨.literal sp' (.array l'), by simp only [Expr.strip, Literal.strip, h3], fun v hv => .array h1.tok (h4 v hv) hsp⟩

theorem re_elementsEnd : Re sty mini ctx (.elements []) := by
  intro f x y h
  obtain ⟨-, b, h1, rfl⟩ := h
  exact ⟨[], rfl, fun v hv => .elementsEnd (T.tok h1)⟩

theorem re_elementsHole {l : List ArrayElement} (ih : Re sty mini ctx (.elements l)) : Re sty mini ctx (.elements (.elision :: l)) := by
  intro f x y h
  cases l with
  | nil => exact absurd h.1 (by decide)
  | cons d l =>
    simp only [itemsOf, arrayItems, List.cons_append, run_demand, run_comma2, ArrayElement.items, run_nil] at h
    obtain ⟨hd, _, rfl, m, h1, h2⟩ := h
    obtain ⟨l', h3, h4⟩ := ih (f := false) (x := m) ⟨hd, h2⟩
    exact ⟨.elision :: l', by simp only [stripArrayElements, ArrayElement.strip, h3], fun v hv => .elementsHole h1.tok (h4 v hv)⟩

theorem re_elementsLast {d : ArrayElement} (ih : Re sty mini ctx (.element d)) : Re sty mini ctx (.elements [d]) := by
  intro f x y h
  simp only [itemsOf, arrayItems, List.cons_append, run_demand, run_comma1, run_pu, run_nil] at h
  obtain ⟨hd, m, h1, o, h2, rfl⟩ := h
  obtain ⟨d', h3, h4⟩ := ih h1
  exact ⟨[d'], by simp only [stripArrayElements, h3], fun v hv => .elementsLast (h4 v hv) h2.tok⟩

theorem re_elementsMore {d : ArrayElement} {l : List ArrayElement} (ih : Re sty mini ctx (.element d)) (ih' : Re sty mini ctx (.elements l)) :
    Re sty mini ctx (.elements (d :: l)) := by
  cases l with
  | nil => exact re_elementsLast ih
  | cons d' l =>
    intro f x y h
    simp only [itemsOf, arrayItems, List.cons_append, run_demand, run_comma2] at h
    obtain ⟨hd, m, h1, o, h2, h5⟩ := h
    obtain ⟨e', h3, h4⟩ := ih h1
    obtain ⟨l', h6, h7⟩ := ih' (f := false) (x := o) ⟨by cases d <;> exact hd, h5⟩
    exact ⟨e' :: l', by rw [stripArrayElements, h3, h6]; rfl, fun v hv => .elementsMore (h4 v hv) h2.tok (h7 v hv)⟩

theorem re_elementExpr (ih : Re sty mini ctx (.expr 1 e)) : Re sty mini ctx (.element (.expr e)) := by
  intro f x y h
  obtain ⟨e', h3, h4⟩ := ih h
  exact ⟨.expr e', by simp only [ArrayElement.strip, h3], fun v hv => .elementExpr (h4 v hv)⟩

theorem re_elementSpread (ih : Re sty mini ctx (.expr 1 e)) : Re sty mini ctx (.element (.spread e)) := by
  intro f x y h
  run_at h
  obtain ⟨m, h1, h2⟩ := h
  obtain ⟨e', h3, h4⟩ := ih h2
  exact ⟨.spread e', by simp only [ArrayElement.strip, h3], fun v hv => .elementSpread h1.tok (h4 v hv)⟩

theorem re_object {l : List PropDef} (ih : Re sty mini ctx (.props l)) : Re sty mini ctx (.expr 21 (.literal sp (.object l))) := by
  intro f x y h
  obtain ⟨sp', hsp⟩ := run_from h (by has_tok)
  simp only [itemsOf, Expr.items, Literal.items, List.cons_append, List.append_assoc, run_pu, run_demand, run_gapIf] at h
  obtain ⟨m, h1, h2⟩ := h
  have h2 : Run sty mini false m (itemsOf (.props l)) y := by
    show Run _ _ _ _ (_ ++ _) _
    rw [run_append] at h2 ⊢
    obtain ⟨o, h3, h4⟩ := h2
    exact ⟨o, h3, run_gapIf.1 h4⟩
  obtain ⟨l', h3, h4⟩ := ih h2
  exact ⟨.literal sp' (.object l'), by simp only [Expr.strip, Literal.strip, h3], fun v hv => .object h1.tok (h4 v hv) hsp⟩

theorem re_propsEnd : Re sty mini ctx (.props []) := by
  intro f x y h
  obtain ⟨b, h1, rfl⟩ := h
  exact ⟨[], rfl, fun v hv => .propsEnd (T.tok h1)⟩

theorem re_propsLast {d : PropDef} (ih : Re sty mini ctx (.prop d)) : Re sty mini ctx (.props [d]) := by
  intro f x y h
  simp only [itemsOf, propItems, List.cons_append, run_comma1, run_pu, run_nil] at h
  obtain ⟨m, h1, o, h2, rfl⟩ := h
  obtain ⟨d', h3, h4⟩ := ih h1
  exact ⟨[d'], by simp only [stripPropDefs, h3], fun v hv => .propsLast (h4 v hv) h2.tok⟩

theorem re_propsMore {d : PropDef} {l : List PropDef} (ih : Re sty mini ctx (.prop d)) (ih' : Re sty mini ctx (.props l)) :
    Re sty mini ctx (.props (d :: l)) := by
  cases l with
  | nil => exact re_propsLast ih
  | cons d' l =>
    intro f x y h
    simp only [itemsOf, propItems, List.cons_append, run_comma2] at h
    obtain ⟨m, h1, o, h2, h5⟩ := h
    obtain ⟨e', h3, h4⟩ := ih h1
    obtain ⟨l', h6, h7⟩ := ih' (f := false) (x := o) h5
    exact ⟨e' :: l', by rw [stripPropDefs, h3, h6]; rfl, fun v hv => .propsMore (h4 v hv) h2.tok (h7 v hv)⟩

theorem re_propIdent (h1 : Real t) (h2 : IdentTok ctx t id) : Re sty mini ctx (.prop (.identRef id)) := by
  intro f x y h
  run_at h
  obtain ⟨hd, m, h, rfl⟩ := h
  have h3 : ¬ specialProp t := by
    intro hs
    simp only [specialProp, List.mem_cons, List.not_mem_nil, or_false] at hs
    rcases hs with hk | hk | hk | hk <;> rw [ident_key h2 hk] at hd <;> exact absurd hd (by decide)
  obtain ⟨u, h4, h5, -, h6⟩ := ident_again h1 h2 h
  exact ⟨.identRef ⟨u.span, id.name⟩, rfl, fun v hv => .propIdent h4 (h6 _ rfl) (by unfold specialProp at *; rwa [h5])⟩

theorem re_propSpread (ih : Re sty mini ctx (.expr 1 e)) : Re sty mini ctx (.prop (.spread e)) := by
  intro f x y h
  run_at h
  obtain ⟨m, h1, h2⟩ := h
  obtain ⟨e', h3, h4⟩ := ih h2
  exact ⟨.spread e', by simp only [PropDef.strip, h3], fun v hv => .propSpread h1.tok (h4 v hv)⟩

theorem re_propNamed {n : PropName} (ih : Re sty mini ctx (.propName n)) (ih' : Re sty mini ctx (.expr 1 e)) : Re sty mini ctx (.prop (.named sp n e)) := by
  intro f x y h
  obtain ⟨sp', hsp⟩ := run_from h (by has_tok)
  simp only [itemsOf, PropDef.items, List.cons_append, List.append_assoc, List.nil_append, run_append (is := n.items), run_pu, run_gap] at h
  obtain ⟨m, h1, o, h2, h3⟩ := h
  obtain ⟨n', h4, h5⟩ := ih h1
  obtain ⟨e', h6, h7⟩ := ih' h3
  exact ⟨.named sp' n' e', by simp only [PropDef.strip, h4, h6], fun v hv => .propNamed (h5 v hv) h2.tok (h7 v hv) hsp⟩

theorem re_nameIdent (h1 : Real t) (h2 : NameTok t id) : Re sty mini ctx (.propName (.ident id)) := by
  intro f x y h
  run_at h
  obtain ⟨m, h, rfl⟩ := h
  obtain ⟨u, h4, h5, -, h6⟩ := name_again h1 h2 h
  exact ⟨.ident ⟨u.span, id.name⟩, rfl, fun v hv => .nameIdent h4 h6⟩

theorem re_nameString {s : LitString} : Re sty mini ctx (.propName (.string s)) := by
  intro f x y h
  run_at h
  obtain ⟨m, ⟨-, t, h1, h2, -⟩, rfl⟩ := h
  exact ⟨.string s, rfl, fun v hv => .nameString h1 h2⟩

theorem re_nameNumber : Re sty mini ctx (.propName (.number s)) := by
  intro f x y h
  run_at h
  obtain ⟨m, ⟨-, t, h1, h2, -⟩, rfl⟩ := h
  exact ⟨.number s, rfl, fun v hv => .nameNumber h1 h2⟩

theorem re_nameComputed (ih : Re sty mini ctx (.expr 1 e)) : Re sty mini ctx (.propName (.computed e)) := by
  intro f x y h
  run_at h
  obtain ⟨m, h1, o, h2, q, h3, rfl⟩ := h
  obtain ⟨e', h4, h5⟩ := ih h2
  exact ⟨.computed e', by simp only [PropName.strip, h4], fun v hv => .nameComputed h1.tok (h5 v hv) h3.tok⟩

/-! ## Templates -/

theorem part_sub {fst : Bool} {ps : List TemplatePart} : Run sty mini f x (partItems fst [] (stringPart s ++ .expr e :: ps)) y ↔
    Run sty mini f x (templateSub fst s :: (e.items ++ partItems false [] ps)) y := by
  unfold stringPart
  split
  · next h => subst h; exact Iff.rfl
  · exact Iff.rfl

theorem part_end : Run sty mini f x (partItems false [] (stringPart s)) y ↔ Run sty mini f x [templateEnd false s] y := by
  unfold stringPart
  split
  · next h => subst h; exact Iff.rfl
  · exact Iff.rfl

theorem parts_strip {ps ps' : List TemplatePart} (h : stripTemplateParts ps' = stripTemplateParts ps) :
    stripTemplateParts (stringPart s ++ ps') = stripTemplateParts (stringPart s ++ ps) := by
  unfold stringPart
  split
  · exact h
  · simp only [List.cons_append, List.nil_append, stripTemplateParts, h]

theorem re_templatePlain : Re sty mini ctx (.template [.string s]) := by
  intro f x y h
  obtain ⟨m, h1, rfl⟩ := h
  exact ⟨[.string s], rfl, fun v hv => .templatePlain (T.tok h1)⟩

theorem re_templateHead {ps : List TemplatePart} (ih : Re sty mini ctx (.templateRest (.expr e :: ps))) :
    Re sty mini ctx (.template (stringPart s ++ .expr e :: ps)) := by
  intro f x y h
  obtain ⟨m, h1, h2⟩ := run_templateSubT.1 (part_sub.1 h)
  obtain ⟨ps', h3, h4⟩ := ih h2
  exact ⟨stringPart s ++ ps', parts_strip h3, fun v hv => .templateHead h1.tok (h4 v hv)⟩

theorem re_templateMiddle {ps : List TemplatePart} (ih : Re sty mini ctx (.expr 0 e)) (ih' : Re sty mini ctx (.templateRest (.expr e1 :: ps))) :
    Re sty mini ctx (.templateRest (.expr e :: (stringPart s ++ .expr e1 :: ps))) := by
  intro f x y h
  obtain ⟨m, h1, h2⟩ := run_append.1 h
  obtain ⟨o, ⟨h3, t, h4, h5, -⟩, h6⟩ := run_templateSubF.1 (part_sub.1 h2)
  obtain ⟨e', h7, h8⟩ := ih h1
  obtain ⟨ps', h9, h10⟩ := ih' h6
  exact ⟨.expr e' :: (stringPart s ++ ps'), by simp only [stripTemplateParts, TemplatePart.strip, h7]; rw [parts_strip h9],
    fun v hv => .templateMiddle (h8 v hv) h3 h4 h5 (h10 v hv)⟩

theorem re_templateTail (ih : Re sty mini ctx (.expr 0 e)) : Re sty mini ctx (.templateRest (.expr e :: stringPart s)) := by
  intro f x y h
  obtain ⟨m, h1, h2⟩ := run_append.1 h
  obtain ⟨o, ⟨h3, t, h4, h5, -⟩, rfl⟩ := run_templateEndF.1 (part_end.1 h2)
  obtain ⟨e', h7, h8⟩ := ih h1
  exact ⟨.expr e' :: stringPart s, by simp only [stripTemplateParts, TemplatePart.strip, h7], fun v hv => .templateTail (h8 v hv) h3 h4 h5⟩

/-! ## Member and call expressions -/

theorem re_member {r : MemberProp} (ih : Re sty mini ctx (.expr 20 e)) (ih' : Re sty mini ctx (.memberProp r)) :
    Re sty mini ctx (.expr 20 (.member sp (.expr e) r)) := by
  intro f x y h
  obtain ⟨sp', hsp⟩ := run_from h (by cases r <;> has_tok)
  obtain ⟨m, h1, h2⟩ := run_append.1 h
  obtain ⟨e', h3, h4⟩ := ih h1
  obtain ⟨r', h5, h6⟩ := ih' h2
  exact ⟨.member sp' (.expr e') r', by simp only [Expr.strip, MemberObject.strip, h3, h5], fun v hv => .member (h4 v hv) (h6 v hv) hsp⟩

theorem re_tagged {ps : List TemplatePart} (ih : Re sty mini ctx (.expr 20 e)) (ih' : Re sty mini ctx (.template ps)) :
    Re sty mini ctx (.expr 20 (.tagged sp e ps)) := by
  intro f x y h
  obtain ⟨sp', hsp⟩ := run_from h (by simp only [itemsOf, Expr.items, List.any_append, part_tok, Bool.or_true])
  obtain ⟨m, h1, h2⟩ := run_append.1 h
  obtain ⟨e', h3, h4⟩ := ih h1
  obtain ⟨ps', h5, h6⟩ := ih' h2
  exact ⟨.tagged sp' e' ps', by simp only [Expr.strip, h3, h5], fun v hv => .tagged (h4 v hv) (h6 v hv) hsp⟩

theorem re_superMember {r : MemberProp} (hc : ctx.inMethod = true) (ih' : Re sty mini ctx (.memberProp r)) :
    Re sty mini ctx (.expr 20 (.member sp (.super asp) r)) := by
  intro f x y h
  obtain ⟨sp', hsp⟩ := run_from h (by cases r <;> has_tok)
  obtain ⟨m, ⟨-, t, h1, h2, -⟩, h3⟩ := h
  obtain ⟨r', h5, h6⟩ := ih' h3
  exact ⟨.member sp' (.super t.span) r', by simp only [Expr.strip, MemberObject.strip, h5],
    fun v hv => .superMember hc h1 h2 (h6 v hv) hsp⟩

theorem re_newTarget (h1 : Real t) (h2 : IdentTok ctx t id) (h3 : id.name = c!"target") :
    Re sty mini ctx (.expr 20 (.metaProp sp ⟨asp, c!"new"⟩ id)) := by
  intro f x y h
  obtain ⟨sp', hsp⟩ := run_from h (by has_tok)
  run_at h
  obtain ⟨m, ⟨-, n, h4, h5, -⟩, o, h6, q, h7, rfl⟩ := h
  obtain ⟨u, h8, -, -, h9⟩ := ident_again h1 h2 h7
  exact ⟨.metaProp sp' ⟨n.span, c!"new"⟩ ⟨u.span, id.name⟩, rfl, fun v hv => .newTarget h4 h5 h6.tok h8 (h9 _ rfl) h3 hsp⟩

theorem re_importMeta (h1 : Real t) (h2 : IdentTok ctx t id) (h3 : id.name = c!"meta") :
    Re sty mini ctx (.expr 20 (.metaProp sp ⟨asp, c!"import"⟩ id)) := by
  intro f x y h
  obtain ⟨sp', hsp⟩ := run_from h (by has_tok)
  run_at h
  obtain ⟨m, ⟨-, n, h4, h5, -⟩, o, h6, q, h7, rfl⟩ := h
  obtain ⟨u, h8, -, -, h9⟩ := ident_again h1 h2 h7
  exact ⟨.metaProp sp' ⟨n.span, c!"import"⟩ ⟨u.span, id.name⟩, rfl, fun v hv => .importMeta h4 h5 h6.tok h8 (h9 _ rfl) h3 hsp⟩

theorem re_newArgs (ih : Re sty mini ctx (.expr 20 e)) (ih' : Re sty mini ctx (.args asp as)) : Re sty mini ctx (.expr 20 (.new sp e (some asp) as)) := by
  intro f x y h
  obtain ⟨sp', hsp⟩ := run_from h (by has_tok)
  obtain ⟨-, m, h1, h2⟩ := h
  obtain ⟨o, h3, h4⟩ := run_append.1 h2
  obtain ⟨e', h5, h6⟩ := ih h3
  obtain ⟨asp', as', h7, h8⟩ := ih' h4
  exact ⟨.new sp' e' (some asp') as', by simp only [Expr.strip, h5, h7, Option.map_some], fun v hv => .newArgs (skey h1) (h6 v hv) (h8 v hv) hsp⟩

theorem re_memberName (h1 : Real t) (h2 : NameTok t id) : Re sty mini ctx (.memberProp (.ident id)) := by
  intro f x y h
  run_at h
  obtain ⟨m, h3, o, h4, rfl⟩ := h
  obtain ⟨u, h5, -, -, h6⟩ := name_again h1 h2 h4
  exact ⟨.ident ⟨u.span, id.name⟩, rfl, fun v hv => .memberName h3.tok h5 h6⟩

theorem re_memberComputed (ih : Re sty mini { ctx with in_ := true } (.expr 0 e)) : Re sty mini ctx (.memberProp (.expr e)) := by
  intro f x y h
  run_at h
  obtain ⟨m, h1, o, h2, q, h3, rfl⟩ := h
  obtain ⟨e', h4, h5⟩ := ih h2
  exact ⟨.expr e', by simp only [MemberProp.strip, h4], fun v hv => .memberComputed h1.tok h5.on h3.tok⟩

theorem re_newMember (ih : Re sty mini ctx (.expr 20 e)) : Re sty mini ctx (.newE e) := fun _ _ _ h =>
  let ⟨e', he, hd⟩ := ih h; ⟨e', he, fun v hv => .newMember (hd v hv)⟩

theorem re_newPlain (ih : Re sty mini ctx (.newE e)) : Re sty mini ctx (.newE (.new sp e none [])) := by
  intro f x y h
  obtain ⟨sp', hsp⟩ := run_from h (by has_tok)
  obtain ⟨-, m, h1, h2⟩ := h
  obtain ⟨o, h3, rfl⟩ := run_append.1 h2
  obtain ⟨e', h5, h6⟩ := ih h3
  exact ⟨.new sp' e' none [], by simp only [Expr.strip, h5, Option.map_none], fun v hv => .newPlain (skey h1) (h6 v hv) hsp⟩

theorem re_newLhs (ih : Re sty mini ctx (.newE e)) : Re sty mini ctx (.expr 18 e) := fun _ _ _ h =>
  let ⟨e', he, hd⟩ := ih h; ⟨e', he, fun v hv => .newLhs (hd v hv)⟩

theorem re_call (ih : Re sty mini ctx (.expr 20 e)) (ih' : Re sty mini ctx (.args asp as)) : Re sty mini ctx (.callE (.call sp (.expr e) asp as)) := by
  intro f x y h
  obtain ⟨sp', hsp⟩ := run_from h (by has_tok)
  have h : Run sty mini f x (e.items ++ (pu p!"(" :: commaItems (argItems as) ++ [pu p!")"])) y := by
    simpa only [itemsOf, Expr.items, Callee.items, List.append_assoc] using h
  obtain ⟨m, h1, h2⟩ := run_append.1 h
  obtain ⟨e', h5, h6⟩ := ih h1
  obtain ⟨asp', as', h7, h8⟩ := ih' h2
  exact ⟨.call sp' (.expr e') asp' as', by simp only [Expr.strip, Callee.strip, h5, h7], fun v hv => .call (h6 v hv) (h8 v hv) hsp⟩

theorem re_callAgain (ih : Re sty mini ctx (.callE e)) (ih' : Re sty mini ctx (.args asp as)) : Re sty mini ctx (.callE (.call sp (.expr e) asp as)) := by
  intro f x y h
  obtain ⟨sp', hsp⟩ := run_from h (by has_tok)
  have h : Run sty mini f x (e.items ++ (pu p!"(" :: commaItems (argItems as) ++ [pu p!")"])) y := by
    simpa only [itemsOf, Expr.items, Callee.items, List.append_assoc] using h
  obtain ⟨m, h1, h2⟩ := run_append.1 h
  obtain ⟨e', h5, h6⟩ := ih h1
  obtain ⟨asp', as', h7, h8⟩ := ih' h2
  exact ⟨.call sp' (.expr e') asp' as', by simp only [Expr.strip, Callee.strip, h5, h7], fun v hv => .callAgain (h6 v hv) (h8 v hv) hsp⟩

theorem re_callMember {r : MemberProp} (ih : Re sty mini ctx (.callE e)) (ih' : Re sty mini ctx (.memberProp r)) :
    Re sty mini ctx (.callE (.member sp (.expr e) r)) := by
  intro f x y h
  obtain ⟨sp', hsp⟩ := run_from h (by cases r <;> has_tok)
  obtain ⟨m, h1, h2⟩ := run_append.1 h
  obtain ⟨e', h3, h4⟩ := ih h1
  obtain ⟨r', h5, h6⟩ := ih' h2
  exact ⟨.member sp' (.expr e') r', by simp only [Expr.strip, MemberObject.strip, h3, h5], fun v hv => .callMember (h4 v hv) (h6 v hv) hsp⟩

theorem re_callTagged (ih : Re sty mini ctx (.callE e)) : Re sty mini ctx (.callE (.tagged sp e [.string s])) := by
  intro f x y h
  obtain ⟨sp', hsp⟩ := run_from h (by simp only [itemsOf, Expr.items, List.any_append, part_tok, Bool.or_true])
  obtain ⟨m, h1, o, h2, rfl⟩ := run_append.1 h
  obtain ⟨e', h3, h4⟩ := ih h1
  exact ⟨.tagged sp' e' [.string s], by simp only [Expr.strip, h3], fun v hv => .callTagged (h4 v hv) (T.tok h2) hsp⟩

theorem re_callLhs (ih : Re sty mini ctx (.callE e)) : Re sty mini ctx (.expr 18 e) := fun _ _ _ h =>
  let ⟨e', he, hd⟩ := ih h; ⟨e', he, fun v hv => .callLhs (hd v hv)⟩

theorem re_superCall (hc : ctx.superCall = true) (ih' : Re sty mini ctx (.args asp as)) : Re sty mini ctx (.expr 18 (.call sp .super asp as)) := by
  intro f x y h
  obtain ⟨sp', hsp⟩ := run_from h (by has_tok)
  obtain ⟨m, h1, h2⟩ := h
  obtain ⟨asp', as', h7, h8⟩ := ih' h2
  exact ⟨.call sp' .super asp' as', by simp only [Expr.strip, Callee.strip, h7], fun v hv => .superCall hc (skey h1) (h8 v hv) hsp⟩

theorem re_importCall (ih : Re sty mini ctx (.expr 1 e)) : Re sty mini ctx (.expr 18 (.call sp .import asp [.expr e])) := by
  intro f x y h
  obtain ⟨sp', hsp⟩ := run_from h (by has_tok)
  obtain ⟨m, h1, h2⟩ := h
  obtain ⟨asp', hasp⟩ := run_from h2 (by simp [argItems, isTok_pu])
  simp only [argItems, commaItems, Argument.items] at h2
  obtain ⟨o, h3, h4⟩ := h2
  obtain ⟨q, h5, r, h6, rfl⟩ := run_append.1 h4
  obtain ⟨e', h7, h8⟩ := ih h5
  exact ⟨.call sp' .import asp' [.expr e'], by simp only [Expr.strip, Callee.strip, stripArguments, Argument.strip, h7],
    fun v hv => .importCall (skey h1) (T.tok h3) (h8 v hv) (T.tok h6) hasp hsp⟩

theorem re_args (ih : Re sty mini { ctx with in_ := true } (.argList as)) : Re sty mini ctx (.args sp as) := by
  intro f x y h
  obtain ⟨sp', hsp⟩ := run_from h (by has_tok)
  obtain ⟨m, h1, h2⟩ := h
  obtain ⟨as', h3, h4⟩ := ih h2
  exact ⟨sp', as', h3, fun v hv => .args (T.tok h1) h4.on hsp⟩

theorem re_argsEnd : Re sty mini ctx (.argList []) := by
  intro f x y h
  obtain ⟨b, h1, rfl⟩ := h
  exact ⟨[], rfl, fun v hv => .argsEnd (T.tok h1)⟩

theorem re_argsLast {d : Argument} (ih : Re sty mini ctx (.arg d)) : Re sty mini ctx (.argList [d]) := by
  intro f x y h
  simp only [itemsOf, argItems, run_comma1, run_pu, run_nil] at h
  obtain ⟨m, h1, o, h2, rfl⟩ := h
  obtain ⟨d', h3, h4⟩ := ih h1
  exact ⟨[d'], by simp only [stripArguments, h3], fun v hv => .argsLast (h4 v hv) h2.tok⟩

theorem re_argsMore {d : Argument} (ih : Re sty mini ctx (.arg d)) (ih' : Re sty mini ctx (.argList as)) : Re sty mini ctx (.argList (d :: as)) := by
  cases as with
  | nil => exact re_argsLast ih
  | cons d' l =>
    intro f x y h
    simp only [itemsOf, argItems, run_comma2] at h
    obtain ⟨m, h1, o, h2, h5⟩ := h
    obtain ⟨e', h3, h4⟩ := ih h1
    obtain ⟨l', h6, h7⟩ := ih' (f := false) (x := o) h5
    exact ⟨e' :: l', by rw [stripArguments, h3, h6]; rfl, fun v hv => .argsMore (h4 v hv) h2.tok (h7 v hv)⟩

theorem re_argExpr (ih : Re sty mini ctx (.expr 1 e)) : Re sty mini ctx (.arg (.expr e)) := by
  intro f x y h
  obtain ⟨e', h3, h4⟩ := ih h
  exact ⟨.expr e', by simp only [Argument.strip, h3], fun v hv => .argExpr (h4 v hv)⟩

theorem re_argSpread (ih : Re sty mini ctx (.expr 1 e)) : Re sty mini ctx (.arg (.spread e)) := by
  intro f x y h
  obtain ⟨m, h1, h2⟩ := h
  obtain ⟨e', h3, h4⟩ := ih h2
  exact ⟨.spread e', by simp only [Argument.strip, h3], fun v hv => .argSpread (T.tok h1) (h4 v hv)⟩

end Fajt.Print
