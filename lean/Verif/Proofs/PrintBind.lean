import Verif.Proofs.PrintOps
/-!
# Reading printed patterns and parameters
-/
namespace Fajt.Print
open Fajt Spec Complete
set_option linter.unusedSectionVars false
set_option linter.unusedSimpArgs false
variable [UnicodeID] {sty : SourceType} {mini : Bool} {ctx : Ctx} {f : Bool} {a b c m o p q x y z : Point} {is js : List Item} {v : TokVal} {n s : Str}
  {t u : Token} {e e1 e2 e3 : Expr} {es : List Expr} {sp asp bsp lsp : Span} {id : Ident} {as : List Argument}

theorem re_noInitializer : Re sty mini ctx (.initializer none) := by
  intro f x y h
  obtain rfl : y = x := h
  exact ⟨none, rfl, fun v hv => .noInitializer⟩

theorem re_initializer (ih : Re sty mini ctx (.expr 1 e)) : Re sty mini ctx (.initializer (some e)) := by
  intro f x y h
  run_at h
  obtain ⟨m, h1, h2⟩ := h
  obtain ⟨e', h3, h4⟩ := ih h2
  exact ⟨some e', by simp only [stripOptExpr, h3], fun v hv => .initializer h1.tok (h4 v hv)⟩

theorem re_bindingIdent (h1 : Real t) (h2 : IdentTok ctx t id) : Re sty mini ctx (.binding (.ident id)) := by
  intro f x y h
  have h : Run sty mini f x [word id.name] y := h
  run_at h
  obtain ⟨m, h, rfl⟩ := h
  obtain ⟨u, h4, h5, -, h6⟩ := ident_again h1 h2 h
  exact ⟨⟨.ident ⟨u.span, id.name⟩, rfl, fun v hv => .bindingIdent h4 (h6 _ rfl)⟩, fun _ => .inl ⟨_, rfl⟩⟩

theorem comma_ends (h : Sym sty p!"," y o) : Ends sty ctx 1 y :=
  Ends.of_tok h fun t ht l hl => by simp [contLevel, ht] at hl; omega

theorem close_ends {k : Punct} (h : Sym sty k y o) (hk : k ∈ [p!"}", p!"]", p!")"]) : Ends sty ctx 1 y :=
  Ends.of_tok h fun t ht l hl => by
    simp only [List.mem_cons, List.not_mem_nil, or_false] at hk
    rcases hk with rfl | rfl | rfl <;> simp [contLevel, ht] at hl

theorem up17 (h : Derives sty ctx (.expr 21 e) a b) : Derives sty ctx (.expr 17 e) a b :=
  .up (by decide) (.newLhs (.newMember (.up (by decide) h)))

theorem up1 (h : Derives sty ctx (.expr 17 e) a b) : Derives sty ctx (.expr 1 e) a b := by
  iterate 16 refine .up (by decide) ?_
  exact h

/-- A name is an expression. -/
theorem name_expr {d : BindingPattern} (hd : Derives sty ctx (.binding d) x m) (h : d.strip = (BindingPattern.ident id).strip)
    (hn : id.name ≠ c!"async") : ∃ i : Ident, i.name = id.name ∧ Derives sty ctx (.expr 17 (.ident i)) x m ∧
      ∃ t, Next sty x t m ∧ IdentTok ctx t i ∧ t.value ≠ .keyword k!"async" := by
  cases hd with
  | @bindingIdent _ t i _ _ h1 h2 =>
    have hi : i.name = id.name := by simp [BindingPattern.strip] at h; exact ident_strip h
    have hv : t.value ≠ .keyword k!"async" := fun hc => hn (hi ▸ ident_key h2 hc)
    exact ⟨i, hi, up17 (.identRef h1 h2 hv), t, h1, h2, hv⟩
  | _ => simp [BindingPattern.strip] at h

theorem targetName_ne (h : targetName id = true) : id.name ≠ c!"async" ∧ id.name ≠ c!"eval" ∧ id.name ≠ c!"arguments" := by
  simpa [targetName] using h

theorem identTok_punct {k : Punct} (h : IdentTok ctx t id) : t.value ≠ .punct k := by
  intro hk
  cases h with
  | ident h => rw [h] at hk; cases hk
  | keyword h => rw [h] at hk; cases hk

/-- A name is the target of an assignment. -/
theorem name_target {d : BindingPattern} (hd : Derives sty ctx (.binding d) x m) (h : d.strip = (BindingPattern.ident id).strip)
    (hn : targetName id = true) : ∃ i : Ident, Derives sty ctx (.expr 17 (.ident i)) x m ∧ TargetOK ctx.strict (.ident i) ∧
      Look sty x (fun t => t.value ≠ .keyword k!"async") ∧ Derives sty ctx (.target (.expr (.ident i))) x m := by
  have hne := targetName_ne hn
  obtain ⟨i, hi, h1, t, ht, h2, hv⟩ := name_expr hd h hne.1
  have hok : TargetOK ctx.strict (.ident i) := by
    refine ⟨.ident _, fun _ k hk => ?_⟩
    cases hk
    unfold evalOrArguments
    rw [hi]
    simp [hne.2]
  refine ⟨i, h1, hok, (look_iff ht).2 hv, .targetExpr ((look_iff ht).2 ?_) h1 hok⟩
  simp only [List.mem_cons, List.not_mem_nil, or_false, not_or]
  exact ⟨identTok_punct h2, identTok_punct h2⟩

/-- A rest element is the target of an assignment. -/
theorem rest_target {r r' : BindingPattern} (hd : Derives sty ctx (.binding r') x m) (h : r'.strip = r.strip) (hc : coverRest (some r) = true) :
    (∃ t, Derives sty ctx (.target t) x m) ∧ ∃ e, Derives sty ctx (.expr 1 e) x m := by
  cases r with
  | ident i =>
    obtain ⟨j, h1, -, -, h2⟩ := name_target hd h hc
    exact ⟨⟨_, h2⟩, _, up1 h1⟩
  | _ => cases hc

theorem run_gapMid {k : Bool} : Run sty mini f x (is ++ (gapIf k ++ js)) y ↔ Run sty mini f x (is ++ js) y := by
  simp only [run_append (is := is), run_gapIf]

theorem re_bindingObject {ps : List BindingProp} {r : Option BindingPattern} (ih : Re sty mini ctx (.bindingProps ps r)) :
    Re sty mini ctx (.binding (.object sp ps r)) := by
  intro f x y h
  obtain ⟨sp', hsp⟩ := run_from h (by simp [itemsOf, BindingPattern.items, isTok_pu])
  simp only [itemsOf, BindingPattern.items, List.cons_append, List.append_assoc, run_pu, run_gapIf] at h
  obtain ⟨m, h1, h2⟩ := h
  rw [← List.append_assoc, run_gapMid, List.append_assoc, ← List.append_assoc] at h2
  obtain ⟨⟨ps', r', h3, h4, h5⟩, hc⟩ := ih h2
  refine ⟨⟨.object sp' ps' r', by simp only [BindingPattern.strip, h3, h4], fun v hv => .bindingObject h1.tok (h5 v hv) hsp⟩, fun h => ?_⟩
  simp only [coverPattern, Bool.and_eq_true] at h
  obtain ⟨⟨q, s, hq⟩, hl, hi⟩ := hc h.1 h.2
  refine .inr ⟨h1.seek, ⟨_, .assignObject h1.tok hq hsp⟩, fun hn => ?_, fun hn => ?_⟩
  · obtain ⟨d, hd⟩ := hl hn
    exact ⟨sp', _, .inl ⟨d, rfl⟩, .object h1.tok hd hsp⟩
  · obtain ⟨i, b, hb⟩ := hi hn
    exact ⟨i, b, .initObject h1.tok hb⟩

theorem re_bindingArray {ps : List (Option BindingElement)} {r : Option BindingPattern} (ih : Re sty mini ctx (.bindingElements ps r)) :
    Re sty mini ctx (.binding (.array sp ps r)) := by
  intro f x y h
  obtain ⟨sp', hsp⟩ := run_from h (by simp [itemsOf, BindingPattern.items, isTok_pu])
  simp only [itemsOf, BindingPattern.items, List.cons_append, List.append_assoc, run_pu, run_gapIf, run_demand] at h
  obtain ⟨m, h1, hd, h2⟩ := h
  rw [← List.append_assoc, run_gapMid] at h2
  obtain ⟨⟨ps', r', h3, h4, h5⟩, hc⟩ := ih (f := false) (x := m) ⟨hd, h2⟩
  refine ⟨⟨.array sp' ps' r', by simp only [BindingPattern.strip, h3, h4], fun v hv => .bindingArray h1.tok (h5 v hv) hsp⟩, fun h => ?_⟩
  simp only [coverPattern, Bool.and_eq_true] at h
  obtain ⟨⟨q, s, hq⟩, hl, hi⟩ := hc h.1 h.2
  refine .inr ⟨h1.seek, ⟨_, .assignArray h1.tok hq hsp⟩, fun hn => ?_, fun hn => ?_⟩
  · obtain ⟨d, hd⟩ := hl hn
    exact ⟨sp', _, .inr ⟨d, rfl⟩, .array h1.tok hd hsp⟩
  · obtain ⟨i, b, hb⟩ := hi hn
    exact ⟨i, b, .initArray h1.tok hb⟩

/-! ## Lists with a rest element -/

theorem run_rest {i : List Item} {l : List (List Item)} {r : Option BindingPattern}
    (h : Run sty mini f x (commaItems (i :: l) ++ restItems true r ++ is) y) :
    ∃ m, Run sty mini f x i m ∧ (l = [] ∧ r = none ∧ Run sty mini (lineEnd mini f i) m is y ∨
      ∃ o, Sym sty p!"," m o ∧ Run sty mini false o (commaItems l ++ restItems (!l.isEmpty) r ++ is) y) := by
  cases l with
  | nil =>
    rw [List.append_assoc, run_comma1] at h
    obtain ⟨m, h1, h2⟩ := h
    refine ⟨m, h1, ?_⟩
    cases r with
    | none => exact .inl ⟨rfl, rfl, h2⟩
    | some r =>
      obtain ⟨o, h3, h4⟩ := h2
      exact .inr ⟨o, T.tok h3, h4⟩
  | cons j l =>
    rw [List.append_assoc, run_comma2] at h
    obtain ⟨m, h1, o, h2, h3⟩ := h
    rw [← List.append_assoc] at h3
    exact ⟨m, h1, .inr ⟨o, h2.tok, h3⟩⟩

theorem re_bindingPropsEnd : Re sty mini ctx (.bindingProps [] none) := by
  intro f x y h
  obtain ⟨b, h1, rfl⟩ := h
  exact ⟨⟨[], none, rfl, rfl, fun v hv => .bindingPropsEnd (T.tok h1)⟩, fun _ _ => ⟨⟨_, _, .assignPropsEnd (T.tok h1)⟩,
    fun _ => ⟨_, .propsEnd (T.tok h1)⟩, fun h => nomatch h⟩⟩

theorem re_bindingPropsRest {r : BindingPattern} (ih : Re sty mini ctx (.binding r)) : Re sty mini ctx (.bindingProps [] (some r)) := by
  intro f x y h
  have h : Run sty mini f x (pu p!"..." :: (r.items ++ [pu p!"}"])) y := h
  obtain ⟨m, h1, h2⟩ := h
  obtain ⟨o, h3, b, h4, rfl⟩ := run_append.1 h2
  obtain ⟨⟨r', h5, h6⟩, -⟩ := ih h3
  refine ⟨⟨[], some r', rfl, by simp only [stripOptBindingPattern, h5], fun v hv => .bindingPropsRest (T.tok h1) (h6 v hv) (T.tok h4)⟩,
    fun _ hr => ?_⟩
  obtain ⟨⟨t, ht⟩, e, he⟩ := rest_target (h6 true fun _ => rfl) h5 hr
  exact ⟨⟨_, _, .assignPropsRest (T.tok h1) ht (T.tok h4)⟩, fun _ => ⟨_, .propsLast (.propSpread (T.tok h1) he) (T.tok h4)⟩, fun h => nomatch h⟩

theorem re_bindingPropsLast {d : BindingProp} (ih : Re sty mini ctx (.bindingProp d)) : Re sty mini ctx (.bindingProps [d] none) := by
  intro f x y h
  have h : Run sty mini f x (d.items ++ [] ++ [pu p!"}"]) y := h
  rw [List.append_nil] at h
  obtain ⟨o, h3, b, h4, rfl⟩ := run_append.1 h
  obtain ⟨⟨d', h5, h6⟩, hc⟩ := ih h3
  refine ⟨⟨[d'], none, by simp only [stripBindingProps, h5], rfl, fun v hv => .bindingPropsLast (h6 v hv) (T.tok h4)⟩, fun hd _ => ?_⟩
  simp only [coverProps, Bool.and_true] at hd
  simp only [initProps, Bool.or_false]
  obtain ⟨⟨q, hq⟩, hl, hi⟩ := hc hd
  refine ⟨⟨_, _, .assignPropsLast hq (T.tok h4)⟩, fun hn => ?_, fun hn => hi hn (close_ends (T.tok h4) (by simp))⟩
  obtain ⟨d, hd⟩ := hl hn
  exact ⟨_, .propsLast hd (T.tok h4)⟩

theorem re_bindingPropsMore {d : BindingProp} {l : List BindingProp} {r : Option BindingPattern} (ih : Re sty mini ctx (.bindingProp d))
    (ih' : Re sty mini ctx (.bindingProps l r)) : Re sty mini ctx (.bindingProps (d :: l) r) := by
  intro f x y h
  obtain ⟨m, h1, ⟨h2, rfl, h3⟩ | ⟨o, h2, h3⟩⟩ := run_rest (l := bindingPropItems l) h
  · cases l with
    | nil => exact re_bindingPropsLast ih h
    | cons => cases h2
  · obtain ⟨⟨d', h5, h6⟩, hc⟩ := ih h1
    obtain ⟨⟨l', r', h7, h8, h9⟩, hc'⟩ := ih' (show Run sty mini false o (commaItems (bindingPropItems l) ++ restItems (!l.isEmpty) r ++ [pu p!"}"]) y by
      cases l <;> exact h3)
    refine ⟨⟨d' :: l', r', by simp only [stripBindingProps, h5, h7], h8, fun v hv => .bindingPropsMore (h6 v hv) h2 (h9 v hv)⟩, fun hd hr => ?_⟩
    simp only [coverProps, Bool.and_eq_true] at hd
    obtain ⟨⟨q, hq⟩, hl, hi⟩ := hc hd.1
    obtain ⟨⟨q', s', hq'⟩, hl', hi'⟩ := hc' hd.2 hr
    simp only [initProps, Bool.or_eq_true, Bool.or_eq_false_iff]
    refine ⟨⟨_, _, .assignPropsMore hq h2 hq'⟩, fun hn => ?_, fun hn => ?_⟩
    · obtain ⟨d, hd⟩ := hl hn.1
      obtain ⟨ds, hds⟩ := hl' hn.2
      exact ⟨_, .propsMore hd h2 hds⟩
    · cases hn1 : initProp d with
      | true => exact hi hn1 (comma_ends h2)
      | false =>
        obtain ⟨d, hd⟩ := hl hn1
        obtain ⟨i, b, hb⟩ := hi' (hn.resolve_left (by simp [hn1]))
        exact ⟨_, _, .initPropsMore hd h2 hb⟩

theorem re_bindingElementsEnd : Re sty mini ctx (.bindingElements [] none) := by
  intro f x y h
  obtain ⟨-, b, h1, rfl⟩ := h
  exact ⟨⟨[], none, rfl, rfl, fun v hv => .bindingElementsEnd (T.tok h1)⟩, fun _ _ => ⟨⟨_, _, .assignElementsEnd (T.tok h1)⟩,
    fun _ => ⟨_, .elementsEnd (T.tok h1)⟩, fun h => nomatch h⟩⟩

theorem re_bindingElementsRest {r : BindingPattern} (ih : Re sty mini ctx (.binding r)) : Re sty mini ctx (.bindingElements [] (some r)) := by
  intro f x y h
  have h : Run sty mini f x (.demand true :: pu p!"..." :: (r.items ++ [pu p!"]"])) y := h
  obtain ⟨-, m, h1, h2⟩ := h
  obtain ⟨o, h3, b, h4, rfl⟩ := run_append.1 h2
  obtain ⟨⟨r', h5, h6⟩, -⟩ := ih h3
  refine ⟨⟨[], some r', rfl, by simp only [stripOptBindingPattern, h5], fun v hv => .bindingElementsRest (T.tok h1) (h6 v hv) (T.tok h4)⟩,
    fun _ hr => ?_⟩
  obtain ⟨⟨t, ht⟩, e, he⟩ := rest_target (h6 true fun _ => rfl) h5 hr
  exact ⟨⟨_, _, .assignElementsRest (T.tok h1) ht (T.tok h4)⟩, fun _ => ⟨_, .elementsLast (.elementSpread (T.tok h1) he) (T.tok h4)⟩,
    fun h => nomatch h⟩

theorem re_bindingElementsHole {l : List (Option BindingElement)} {r : Option BindingPattern} (ih : Re sty mini ctx (.bindingElements l r)) :
    Re sty mini ctx (.bindingElements (none :: l) r) := by
  intro f x y h
  have hh : ∃ m, Sym sty p!"," x m ∧ Run sty mini false m (itemsOf (.bindingElements l r)) y := by
    cases l with
    | nil =>
      cases r with
      | some r => exact absurd (show false = true from h.1) (by decide)
      | none =>
        obtain ⟨-, m, h1, h2⟩ := h
        exact ⟨m, T.tok h1, rfl, h2⟩
    | cons d l =>
      obtain ⟨hd, m, h1, h2⟩ := h
      exact ⟨m, T.tok h1, hd, h2⟩
  obtain ⟨m, h1, h2⟩ := hh
  obtain ⟨⟨l', r', h7, h8, h9⟩, hc⟩ := ih h2
  refine ⟨⟨none :: l', r', by simp only [stripOptBindingElements, stripOptBindingElement, h7], h8, fun v hv => .bindingElementsHole h1 (h9 v hv)⟩,
    fun hd hr => ?_⟩
  simp only [coverElements, coverOptElement, Bool.true_and] at hd
  simp only [initElements, initOptElement, Bool.false_or]
  obtain ⟨⟨q, s, hq⟩, hl, hi⟩ := hc hd hr
  refine ⟨⟨_, _, .assignElementsComma h1 hq⟩, fun hn => ?_, fun hn => ?_⟩
  · obtain ⟨d, hd⟩ := hl hn
    exact ⟨_, .elementsHole h1 hd⟩
  · obtain ⟨i, b, hb⟩ := hi hn
    exact ⟨_, _, .initElementsHole h1 hb⟩

theorem re_bindingElementsLast {d : BindingElement} (ih : Re sty mini ctx (.bindingElement d)) : Re sty mini ctx (.bindingElements [some d] none) := by
  intro f x y h
  have h : Run sty mini f x (.demand true :: (d.items ++ [] ++ [] ++ [] ++ [] ++ [pu p!"]"])) y := h
  simp only [List.append_nil] at h
  obtain ⟨-, h⟩ := h
  obtain ⟨o, h3, b, h4, rfl⟩ := run_append.1 h
  obtain ⟨⟨d', h5, h6⟩, hc, -⟩ := ih h3
  refine ⟨⟨[some d'], none, by simp only [stripOptBindingElements, stripOptBindingElement, h5], rfl,
    fun v hv => .bindingElementsLast (h6 v hv) (T.tok h4)⟩, fun hd hr => ?_⟩
  simp only [coverElements, coverOptElement, Bool.and_true] at hd
  simp only [initElements, initOptElement, Bool.or_false]
  obtain ⟨⟨q, hq⟩, hl, hi⟩ := hc hd
  refine ⟨⟨_, _, .assignElementsMore hq (by simp) (T.tok h4) (.assignElementsEnd (T.tok h4))⟩, fun hn => ?_, fun hn => ?_⟩
  · obtain ⟨d, hd⟩ := hl hn
    exact ⟨_, .elementsLast (.elementExpr hd) (T.tok h4)⟩
  · obtain ⟨i, hi⟩ := hi hn (close_ends (T.tok h4) (by simp))
    exact ⟨_, _, .initElementsHere hi⟩

theorem re_bindingElementsMore {d : BindingElement} {l : List (Option BindingElement)} {r : Option BindingPattern}
    (ih : Re sty mini ctx (.bindingElement d)) (ih' : Re sty mini ctx (.bindingElements l r)) : Re sty mini ctx (.bindingElements (some d :: l) r) := by
  intro f x y h
  have hh : (l = [] ∧ r = none) ∨ ∃ q m, Run sty mini f x d.items q ∧ Sym sty p!"," q m ∧ Run sty mini false m (itemsOf (.bindingElements l r)) y := by
    cases l with
    | nil =>
      cases r with
      | none => exact .inl ⟨rfl, rfl⟩
      | some r =>
        have h : Run sty mini f x (.demand true :: (d.items ++ [] ++ [] ++ [] ++ (pu p!"," :: .gap :: pu p!"..." :: r.items) ++ [pu p!"]"])) y := h
        simp only [List.append_nil, List.append_assoc] at h
        obtain ⟨-, h⟩ := h
        obtain ⟨q, h1, m, h2, h3⟩ := run_append.1 h
        exact .inr ⟨q, m, h1, T.tok h2, rfl, h3⟩
    | cons d' l =>
      have hd := h.1
      have h := h.2
      have h : Run sty mini f x (d.items ++ [pu p!","] ++ [.gap] ++ optElementItems (d' :: l) ++ restItems true r ++ [pu p!"]"]) y := h
      simp only [List.append_assoc] at h
      obtain ⟨q, h1, m, h2, h3⟩ := run_append.1 h
      refine .inr ⟨q, m, h1, T.tok h2, hd, ?_⟩
      show Run _ _ _ _ (_ ++ _ ++ _) _
      rw [List.append_assoc]
      exact h3
  rcases hh with ⟨rfl, rfl⟩ | ⟨q, m, h0, h1, h2⟩
  · exact re_bindingElementsLast ih h
  obtain ⟨⟨d', h5, h6⟩, hc, -⟩ := ih h0
  obtain ⟨⟨l', r', h7, h8, h9⟩, hc'⟩ := ih' h2
  refine ⟨⟨some d' :: l', r', by simp only [stripOptBindingElements, stripOptBindingElement, h5, h7], h8,
    fun v hv => .bindingElementsMore (h6 v hv) h1 (h9 v hv)⟩, fun hd hr => ?_⟩
  simp only [coverElements, coverOptElement, Bool.and_eq_true] at hd
  obtain ⟨⟨q, hq⟩, hl, hi⟩ := hc hd.1
  obtain ⟨⟨q', s', hq'⟩, hl', hi'⟩ := hc' hd.2 hr
  simp only [initElements, initOptElement, Bool.or_eq_true, Bool.or_eq_false_iff]
  refine ⟨⟨_, _, .assignElementsMore hq (by simp) h1 (.assignElementsComma h1 hq')⟩, fun hn => ?_, fun hn => ?_⟩
  · obtain ⟨d, hd⟩ := hl hn.1
    obtain ⟨ds, hds⟩ := hl' hn.2
    exact ⟨_, .elementsMore (.elementExpr hd) h1 hds⟩
  · cases hn1 : initElement d with
    | true =>
      obtain ⟨i, hi⟩ := hi hn1 (comma_ends h1)
      exact ⟨_, _, .initElementsHere hi⟩
    | false =>
      obtain ⟨d, hd⟩ := hl hn1
      obtain ⟨i, b, hb⟩ := hi' (hn.resolve_left (by simp [hn1]))
      exact ⟨_, _, .initElementsMore (.elementExpr hd) h1 hb⟩

theorem re_bindingSingle {i : Option Expr} (h1 : Real t) (h2 : IdentTok ctx t id) (ih : Re sty mini { ctx with in_ := true } (.initializer i)) :
    Re sty mini ctx (.bindingProp (.single sp id i)) := by
  intro f x y h
  have h : Run sty mini f x (word id.name :: initItems i) y := h
  obtain ⟨sp', hsp⟩ := run_from h (by simp [isTok_word])
  obtain ⟨m, h3, h7⟩ := run_word.1 h
  obtain ⟨u, h4, h5, -, h6⟩ := ident_again h1 h2 h3
  obtain ⟨i', h8, h9⟩ := ih h7
  refine ⟨⟨.single sp' ⟨u.span, id.name⟩ i', by simp only [BindingProp.strip, Ident.strip, h8], fun v hv => .bindingSingle h4 (h6 _ rfl) h9.on hsp⟩,
    fun hc => ?_⟩
  simp only [coverProp, Bool.and_eq_true] at hc
  have hns : ¬ specialProp u := by
    have hne := targetName_ne hc.1
    have hg : id.name ≠ c!"get" ∧ id.name ≠ c!"set" ∧ id.name ≠ c!"static" := by simpa using hc.2
    have hk := h6 _ rfl
    simp only [specialProp, List.mem_cons, List.not_mem_nil, or_false]
    rintro (h | h | h | h)
    · exact hne.1 (ident_key (id := ⟨u.span, id.name⟩) hk h)
    · exact hg.1 (ident_key (id := ⟨u.span, id.name⟩) hk h)
    · exact hg.2.1 (ident_key (id := ⟨u.span, id.name⟩) hk h)
    · exact hg.2.2 (ident_key (id := ⟨u.span, id.name⟩) hk h)
  refine ⟨⟨_, .assignSingle h4 (h6 _ rfl) h9.on hsp⟩, fun hn => ?_, fun hn _ => ?_⟩
  · simp only [initProp] at hn
    cases i with
    | some i => cases hn
    | none =>
      cases i' with
      | some i' => simp [stripOptExpr] at h8
      | none =>
        have h9 := h9.on
        cases h9
        exact ⟨_, .propIdent h4 (h6 _ rfl) hns⟩
  · simp only [initProp] at hn
    cases i with
    | none => cases hn
    | some i =>
      cases i' with
      | none => simp [stripOptExpr] at h8
      | some i' =>
        have h9 := h9.on
        cases h9 with
        | initializer h10 _ =>
          obtain ⟨w, h10, h11⟩ := h10
          exact ⟨_, _, .initPropsHere h4 (h6 _ rfl) hns h10 h11⟩

theorem re_bindingNamed {n : PropName} {d : BindingElement} (ih : Re sty mini ctx (.propName n)) (ih' : Re sty mini ctx (.bindingElement d)) :
    Re sty mini ctx (.bindingProp (.named sp n d)) := by
  intro f x y h
  have h : Run sty mini f x (n.items ++ [pu p!":", .gap] ++ d.items) y := h
  obtain ⟨sp', hsp⟩ := run_from h (by simp [isTok_pu])
  rw [List.append_assoc] at h
  obtain ⟨m, h1, o, h2, h3⟩ := run_append.1 h
  obtain ⟨n', h4, h5⟩ := ih h1
  obtain ⟨⟨e', h6, h7⟩, hc, -⟩ := ih' (run_gap.1 h3)
  refine ⟨⟨.named sp' n' e', by simp only [BindingProp.strip, h4, h6], fun v hv => .bindingNamed (h5 v hv) (T.tok h2) (h7 v hv) hsp⟩,
    fun h => ?_⟩
  simp only [coverProp] at h
  simp only [initProp]
  have h5 := h5 true fun _ => rfl
  obtain ⟨⟨⟨esp, q, i⟩, hq⟩, hl, hi⟩ := hc h
  refine ⟨⟨_, .assignNamed h5 (T.tok h2) hq hsp⟩, fun hn => ?_, fun hn he => ?_⟩
  · obtain ⟨d, hd⟩ := hl hn
    exact ⟨_, .propNamed h5 (T.tok h2) hd hsp⟩
  · obtain ⟨i, hi⟩ := hi hn he
    exact ⟨_, _, .initPropsValue h5 (T.tok h2) hi⟩

/-! ## Parameters -/

theorem re_bindingElement {d : BindingPattern} {i : Option Expr} (ih : Re sty mini ctx (.binding d))
    (ih' : Re sty mini { ctx with in_ := true } (.initializer i)) :
    Re sty mini ctx (.bindingElement (.mk sp d i)) := by
  intro f x y h
  have htok : (d.items ++ initItems i).any isTok = true := by
    cases d <;> simp [BindingPattern.items, isTok_pu, isTok_word]
  obtain ⟨sp', hsp⟩ := run_from h htok
  obtain ⟨m, h1, h2⟩ := run_append.1 h
  obtain ⟨⟨d', h3, h4⟩, hc⟩ := ih h1
  obtain ⟨i', h5, h6⟩ := ih' h2
  have hd := h4 true fun _ => rfl
  have hi := h6.on
  have cover : CoverElement sty { ctx with in_ := true } (.mk sp d i) x y := by
    intro h
    simp only [coverElement] at h
    simp only [initElement, Bool.and_eq_true, Option.isNone_iff_eq_none, Bool.and_eq_false_iff]
    rcases hc h with ⟨id, rfl⟩ | ⟨hs, ⟨q, hq⟩, hl, hn⟩
    · obtain ⟨j, h7, hok, hv, ht⟩ := name_target hd h3 h
      refine ⟨⟨_, .assignElement ht hi hsp⟩, fun _ => ?_, fun h => by cases h.2⟩
      cases i' with
      | none => cases hi; exact ⟨_, up1 h7⟩
      | some i' =>
        cases hi with
        | initializer h8 h9 =>
          obtain ⟨u, h8, h10⟩ := h8
          exact ⟨_, .assign (op := .assign) h7 hv hok h8 (by rw [h10]; rfl) h9 hsp⟩
    · refine ⟨⟨_, .assignElement (.targetPattern hq) hi hsp⟩, ?_, ?_⟩
      · cases i' with
        | none =>
          cases hi
          intro hp
          cases i with
          | some i => simp [stripOptExpr] at h5
          | none =>
            obtain ⟨lsp, l, -, hl⟩ := hl (hp.resolve_left (by simp))
            exact ⟨_, up1 (up17 hl)⟩
        | some i' =>
          intro _
          cases hi with
          | initializer h8 h9 =>
            cases hp : initPattern d with
            | false =>
              obtain ⟨lsp, l, hk, hl⟩ := hl hp
              exact ⟨_, .assignLiteral hs hl hk hq h8 h9 hsp⟩
            | true =>
              obtain ⟨k, b, hk⟩ := hn hp
              exact ⟨_, .assignInit hs hk hq h8 h9 hsp⟩
      · rintro ⟨rfl, hp⟩ he
        cases i' with
        | some i' => simp [stripOptExpr] at h5
        | none =>
          cases hi
          obtain ⟨k, b, hk⟩ := hn hp
          exact ⟨k, .stopInit hs hk hq he⟩
  refine ⟨⟨.mk sp' d' i', by simp only [BindingElement.strip, h3, h5], fun v hv => .bindingElement (h4 v hv) h6.on hsp⟩, cover, fun hs hn => ?_⟩
  have other : coverElement (.mk sp d i) = true → ∃ e, Derives sty { ctx with in_ := true } (.expr 1 e) x y := fun h => (cover h).2.1 hn
  cases d with
  | ident id =>
    cases i with
    | none =>
      obtain ⟨j, -, hj, -⟩ := name_expr hd h3 (by simpa [simpleParam] using hs)
      cases i' with
      | some i' => simp [stripOptExpr] at h5
      | none => cases hi; exact ⟨_, up1 hj⟩
    | some i => exact other hs
  | _ => exact other hs

theorem re_params {l : List BindingElement} {r : Option BindingPattern} (ih : Re sty mini ctx (.paramList l r)) :
    Re sty mini ctx (.params (.mk sp l r)) := by
  intro f x y h
  obtain ⟨sp', hsp⟩ := run_from h (by simp [itemsOf, FormalParams.items, isTok_pu])
  have h : Run sty mini f x (pu p!"(" :: itemsOf (.paramList l r)) y := h
  obtain ⟨m, h1, h2⟩ := run_pu.1 h
  obtain ⟨⟨l', r', h3, h4, h5⟩, h6⟩ := ih h2
  exact ⟨⟨.mk sp' l' r', by simp only [FormalParams.strip, h3, h4], fun v hv => .params h1.tok (h5 v hv) hsp⟩,
    fun hs => ⟨h1.seek, m, h1.tok, ⟨_, (h6 hs).1⟩, fun ha => (h6 hs).2 (by rcases r with _ | r; exact ha; cases r <;> exact ha)⟩⟩

theorem re_paramsEnd : Re sty mini ctx (.paramList [] none) := by
  intro f x y h
  have hf := (run_first h (by simp [itemsOf, isTok_pu])).1
  obtain ⟨b, h1, rfl⟩ := h
  exact ⟨⟨[], none, rfl, rfl, fun v hv => .paramsEnd (T.tok h1)⟩, fun _ => ⟨⟨hf, .inl ⟨rfl, T.tok h1⟩⟩, fun _ => ⟨[], .argsEnd (T.tok h1)⟩⟩⟩

theorem re_paramsRest {r : BindingPattern} (ih : Re sty mini ctx (.binding r)) : Re sty mini ctx (.paramList [] (some r)) := by
  intro f x y h
  have hf := run_first h (by simp [itemsOf, isTok_pu])
  have h : Run sty mini f x (pu p!"..." :: (r.items ++ [pu p!")"])) y := h
  obtain ⟨m, h1, h2⟩ := h
  obtain ⟨o, h3, b, h4, rfl⟩ := run_append.1 h2
  obtain ⟨⟨r', h5, h6⟩, -⟩ := ih h3
  refine ⟨⟨[], some r', rfl, by simp only [stripOptBindingPattern, h5], fun v hv => .paramsRest (T.tok h1) (h6 v hv) (T.tok h4)⟩, fun _ => ?_⟩
  obtain ⟨u, hu, huv⟩ := T.tok h1
  refine ⟨⟨hf.1, .inr (.inr ⟨.dots u, _, .stopsHere (.stopDots hf.2 hu huv)⟩)⟩, fun ha => ?_⟩
  cases r with
  | ident id =>
    obtain ⟨j, -, hj, -⟩ := name_expr (h6 true fun _ => rfl) h5 (by simpa [argumentParams] using ha)
    exact ⟨_, .argsLast (.argSpread (T.tok h1) (up1 hj)) (T.tok h4)⟩
  | _ => simp [argumentParams] at ha

theorem simple_cover {d : BindingElement} (hs : simpleParam d = true) (hn : initElement d = true) : coverElement d = true := by
  obtain ⟨sp, p, i⟩ := d
  cases p with
  | ident i => simp [initElement, initPattern] at hn
  | _ => exact hs

theorem re_paramsLast {d : BindingElement} (ih : Re sty mini ctx (.bindingElement d)) : Re sty mini ctx (.paramList [d] none) := by
  intro f x y h
  have hf := run_first h (by simp [itemsOf, isTok_pu])
  have h : Run sty mini f x (d.items ++ [] ++ [pu p!")"]) y := h
  rw [List.append_nil] at h
  obtain ⟨o, h3, b, h4, rfl⟩ := run_append.1 h
  obtain ⟨⟨d', h5, h6⟩, hc, h7⟩ := ih h3
  refine ⟨⟨[d'], none, by simp only [stripBindingElements, h5], rfl, fun v hv => .paramsLast (h6 v hv) (T.tok h4)⟩, fun hs => ?_⟩
  have hs : simpleParam d = true := by simpa [simpleParams] using hs
  cases hn : initElement d with
  | false =>
    obtain ⟨e, he⟩ := h7 hs hn
    exact ⟨⟨hf.1, .inr (.inl ⟨e, _, _, he, .inl rfl, T.tok h4⟩)⟩, fun _ => ⟨_, .argsLast (.argExpr he) (T.tok h4)⟩⟩
  | true =>
    obtain ⟨i, hi⟩ := (hc (simple_cover hs hn)).2.2 hn (close_ends (T.tok h4) (by simp))
    exact ⟨⟨hf.1, .inr (.inr ⟨_, _, .stopsHere hi⟩)⟩, fun ha => by simp [argumentParams, hn] at ha⟩

theorem re_paramsMore {d : BindingElement} {l : List BindingElement} {r : Option BindingPattern} (ih : Re sty mini ctx (.bindingElement d))
    (ih' : Re sty mini ctx (.paramList l r)) : Re sty mini ctx (.paramList (d :: l) r) := by
  intro f x y h
  have hf := run_first h (by simp [itemsOf, isTok_pu])
  obtain ⟨m, h1, h23⟩ := run_rest (l := bindingElementItems l) h
  by_cases hl : l = [] ∧ r = none
  · obtain ⟨rfl, rfl⟩ := hl
    exact re_paramsLast ih h
  obtain ⟨o, h2, h3⟩ : ∃ o, Sym sty p!"," m o ∧ Run sty mini false o (commaItems (bindingElementItems l) ++ restItems (!l.isEmpty) r ++ [pu p!")"]) y := by
    rcases h23 with ⟨h2, h3, -⟩ | ⟨o, h2, h3⟩
    · cases l with
      | nil => exact absurd ⟨rfl, h3⟩ hl
      | cons => cases h2
    · exact ⟨o, h2, by cases l <;> exact h3⟩
  obtain ⟨⟨d', h5, h6⟩, hcd, hd⟩ := ih h1
  obtain ⟨⟨l', r', h7, h8, h9⟩, hl'⟩ := ih' h3
  refine ⟨⟨d' :: l', r', by simp only [stripBindingElements, h5, h7], h8, fun v hv => .paramsMore (h6 v hv) h2 (h9 v hv)⟩, fun hs => ?_⟩
  have hs' : simpleParam d = true ∧ simpleParams (.mk nowhere l r) = true := by simpa [simpleParams] using hs
  cases hn : initElement d with
  | true =>
    obtain ⟨i, hi⟩ := (hcd (simple_cover hs'.1 hn)).2.2 hn (comma_ends h2)
    refine ⟨⟨hf.1, .inr (.inr ⟨_, _, .stopsHere hi⟩)⟩, fun ha => ?_⟩
    rcases r with _ | r
    · simp [argumentParams, hn] at ha
    · cases r <;> simp [argumentParams, hn] at ha
  | false =>
    obtain ⟨e, he⟩ := hd hs'.1 hn
    obtain ⟨⟨-, hc⟩, has⟩ := hl' hs'.2
    refine ⟨⟨hf.1, ?_⟩, fun ha => ?_⟩
    · rcases hc with ⟨hc, -⟩ | ⟨e2, q, o', h10, h11, h12⟩ | ⟨s, w, hw⟩
      · simp at hc; exact absurd hc hl
      · refine .inr (.inl ⟨e, m, o', he, .inr ?_, h12⟩)
        rcases h11 with rfl | ⟨es, h11⟩
        · exact ⟨_, .exprsLast h2 h10⟩
        · exact ⟨_, .exprsMore h2 h10 h11⟩
      · exact .inr (.inr ⟨s, w, .stopsMore he h2 hw⟩)
    · obtain ⟨as, has⟩ := has (by
        rcases r with _ | r
        · simp [argumentParams] at ha ⊢; exact ha.2
        · cases r <;> simp [argumentParams] at ha ⊢; exact ⟨ha.1.2, ha.2⟩)
      exact ⟨_, .argsMore (.argExpr he) h2 has⟩

end Fajt.Print
