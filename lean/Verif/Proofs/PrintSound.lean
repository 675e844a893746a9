import Verif.Proofs.PrintDecl
/-!
# A printed tree of the grammar is read again

By induction on the derivation in `Spec.Grammar`: a tree of the grammar is derived, up to spans, from every text that is read as its tokens.
-/
namespace Fajt.Print
open Fajt Spec Complete
set_option maxHeartbeats 1000000
set_option linter.unusedSectionVars false
variable [UnicodeID] {sty : SourceType} {mini : Bool} {ctx : Ctx} {E : GEnv} {e : Expr}

/-! ## Levels -/

/-- An expression of this level is read again. -/
def Rl (sty : SourceType) (mini : Bool) (ctx : Ctx) (l : Nat) (e : Expr) : Prop :=
  if l = 19 then Re sty mini ctx (.callE e) ∨ Re sty mini ctx (.expr 20 e) else Re sty mini ctx (.expr l e)

theorem Rl.re {l : Nat} (h : Rl sty mini ctx l e) (hl : l ≠ 19 := by decide) : Re sty mini ctx (.expr l e) := by
  unfold Rl at h; rwa [if_neg hl] at h

theorem Rl.of {l : Nat} (h : Re sty mini ctx (.expr l e)) (hl : l ≠ 19 := by decide) : Rl sty mini ctx l e := by
  unfold Rl; rwa [if_neg hl]

theorem Rl.step {l : Nat} (hl : l ≤ 20) (h : Rl sty mini ctx (l + 1) e) : Rl sty mini ctx l e := by
  by_cases h1 : l = 20
  · subst h1; exact .of (re_up (.inr rfl) h.re)
  · by_cases h2 : l = 19
    · subst h2; exact Or.inr h.re
    · by_cases h3 : l = 18
      · subst h3
        rcases (show Re sty mini ctx (.callE e) ∨ Re sty mini ctx (.expr 20 e) from h) with h | h
        · exact .of (re_callLhs h)
        · exact .of (re_newLhs (re_newMember h))
      · exact .of (re_up (.inl (by omega)) (h.re (by omega))) h2

theorem Rl.low {l k : Nat} (hl : l ≤ 21) (h : Rl sty mini ctx l e) (hk : k ≤ l) : Rl sty mini ctx k e := by
  induction l with
  | zero => obtain rfl : k = 0 := by omega
            exact h
  | succ l ih =>
    by_cases hkl : k = l + 1
    · rw [hkl]; exact h
    · exact ih (by omega) (.step (by omega) h) (by omega)

/-- An expression is read again; a plain target also where `in` is (not) allowed. -/
def Ro (sty : SourceType) (mini : Bool) (ctx : Ctx) (l : Nat) (e : Expr) : Prop :=
  l ≤ 21 ∧ Rl sty mini ctx l e ∧ (plainTarget e = true → ∀ v, Rl sty mini { ctx with in_ := v } l e)

theorem Ro.mk {l : Nat} (h : Re sty mini ctx (.expr l e)) (hl : l ≤ 21 := by decide) (hn : l ≠ 19 := by decide)
    (hp : plainTarget e = false := by simp [plainTarget]) : Ro sty mini ctx l e :=
  ⟨hl, .of h hn, fun h => by rw [hp] at h; cases h⟩

theorem Ro.all {l : Nat} (h : ∀ v, Re sty mini { ctx with in_ := v } (.expr l e)) (hl : l ≤ 21 := by decide) (hn : l ≠ 19 := by decide) :
    Ro sty mini ctx l e :=
  ⟨hl, .of (h ctx.in_) hn, fun _ v => .of (h v) hn⟩

theorem Ro.re {l : Nat} (h : Ro sty mini ctx l e) (hl : l ≠ 19 := by decide) : Re sty mini ctx (.expr l e) := h.2.1.re hl

/-! ## What is shown -/

/-- What is shown for a derived symbol. -/
def Sd (sty : SourceType) (mini : Bool) (ctx : Ctx) : GNode → Prop
  | .expr l e => Ro sty mini ctx l e
  | .newE e => Re sty mini ctx (.newE e) ∧ (plainTarget e = true → ∀ v, Re sty mini { ctx with in_ := v } (.newE e)) ∧
      (isPlainNew e = false → Re sty mini ctx (.expr 20 e))
  | .chain e => Re sty mini ctx (.chain e) ∧ plainTarget e = false
  | .args sp as => ∀ v, Re sty mini { ctx with in_ := v } (.args sp as)
  | .arg a => Re sty mini ctx (.arg a)
  | .template ps => Re sty mini ctx (.template ps)
  | .templateRest ps => ∃ e ps', ps = .expr e :: ps' ∧ Re sty mini ctx (.templateRest ps)
  | .memberProp p => ∀ v, Re sty mini { ctx with in_ := v } (.memberProp p)
  | .optProp o p => Re sty mini ctx (.optProp o p)
  | .propName n => Re sty mini ctx (.propName n)
  | .element a => a ≠ .elision ∧ Re sty mini ctx (.element a)
  | .propDef p => Re sty mini ctx (.prop p)
  | .classElement m => Re sty mini ctx (.classElement m) ∧ (ctx.staticMethod = false → Re sty mini ctx (.method m))
  | .method m => Re sty mini ctx (.method m) ∧
      ∀ sp n ps b g a, m = .mk sp (.computed n) .method ps b g a false → Re sty mini ctx (.prop (.method m))
  | .params p => Re sty mini ctx (.params p)
  | .body b => Re sty mini ctx (.body b)
  | .arrowParams true p => ∃ t id sp, Real t ∧ IdentTok ctx t id ∧ p = .mk sp [.mk sp (.ident id) none] none
  | .arrowParams false p => Re sty mini ctx (.params p)
  | .arrowBody b => Re sty mini ctx (.arrowBody b)
  | .classTail s ms => Re sty mini ctx (.classTail s ms)
  | .binding p => Re sty mini ctx (.binding p)
  | .bindingProp p => Re sty mini ctx (.bindingProp p)
  | .bindingElement e => Re sty mini ctx (.bindingElement e)
  | .initializer e => Re sty mini ctx (.initializer e)
  | .varDecl v => Re sty mini ctx (.varDecl v)
  | .varDecls vs => vs ≠ [] ∧ Re sty mini ctx (.varDecls vs)
  | .optExpr e => Re sty mini ctx (.optExpr e)
  | .stmt s => Re sty mini ctx (.stmt s) ∧ ∀ sp k ds, s = .variable (.mk sp k ds) →
      k = .var ∧ ds ≠ [] ∧ Re sty mini { ctx with in_ := true } (.varDecls ds)
  | .decl s => Re sty mini ctx (.decl s)
  | .item s => Re sty mini ctx (.item s)
  | .block b => Re sty mini ctx (.block b)
  | .catchClause c => Re sty mini ctx (.catchClause c)
  | .case c => Re sty mini ctx (.case c)
  | .forInit i => ∀ c : Ctx, { c with in_ := false } = ctx → Re sty mini c (.forInit (some i))
  | .forDecl d => Re sty mini ctx (.forDecl d)
  | .assignPattern _ | .target _ | .assignElement _ | .assignProp _ => True

/-! ## Lists -/

theorem re_argList {as : List Argument} (h : ∀ d ∈ as, Re sty mini ctx (.arg d)) : Re sty mini ctx (.argList as) := by
  induction as with
  | nil => exact re_argsEnd
  | cons d l ih => exact re_argsMore (h d (by simp)) (ih fun d hd => h d (by simp [hd]))

theorem re_elements {as : List ArrayElement} (h : ∀ d ∈ as, d ≠ .elision → Re sty mini ctx (.element d)) : Re sty mini ctx (.elements as) := by
  induction as with
  | nil => exact re_elementsEnd
  | cons d l ih =>
    have ih := ih fun d hd => h d (by simp [hd])
    by_cases hd : d = .elision
    · subst hd; exact re_elementsHole ih
    · exact re_elementsMore (h d (by simp) hd) ih

theorem re_props {as : List PropDef} (h : ∀ d ∈ as, Re sty mini ctx (.prop d)) : Re sty mini ctx (.props as) := by
  induction as with
  | nil => exact re_propsEnd
  | cons d l ih => exact re_propsMore (h d (by simp)) (ih fun d hd => h d (by simp [hd]))

theorem re_paramList {as : List BindingElement} {r : Option BindingPattern} (h : ∀ d ∈ as, Re sty mini ctx (.bindingElement d))
    (hr : ∀ p ∈ r, Re sty mini ctx (.binding p)) : Re sty mini ctx (.paramList as r) := by
  induction as with
  | nil =>
    cases r with
    | none => exact re_paramsEnd
    | some r => exact re_paramsRest (hr r rfl)
  | cons d l ih => exact re_paramsMore (h d (by simp)) (ih fun d hd => h d (by simp [hd]))

theorem re_bindingProps {as : List BindingProp} {r : Option BindingPattern} (h : ∀ d ∈ as, Re sty mini ctx (.bindingProp d))
    (hr : ∀ p ∈ r, Re sty mini ctx (.binding p)) : Re sty mini ctx (.bindingProps as r) := by
  induction as with
  | nil =>
    cases r with
    | none => exact re_bindingPropsEnd
    | some r => exact re_bindingPropsRest (hr r rfl)
  | cons d l ih => exact re_bindingPropsMore (h d (by simp)) (ih fun d hd => h d (by simp [hd]))

theorem re_bindingElements {as : List (Option BindingElement)} {r : Option BindingPattern}
    (h : ∀ d, some d ∈ as → Re sty mini ctx (.bindingElement d)) (hr : ∀ p ∈ r, Re sty mini ctx (.binding p)) : Re sty mini ctx (.bindingElements as r) := by
  induction as with
  | nil =>
    cases r with
    | none => exact re_bindingElementsEnd
    | some r => exact re_bindingElementsRest (hr r rfl)
  | cons d l ih =>
    have ih := ih fun d hd => h d (by simp [hd])
    cases d with
    | none => exact re_bindingElementsHole ih
    | some d => exact re_bindingElementsMore (h d (by simp)) ih

theorem re_exprs {as : List Expr} (hn : as ≠ []) (h : ∀ d ∈ as, Re sty mini ctx (.expr 1 d)) : Re sty mini ctx (.exprs as) := by
  induction as with
  | nil => exact absurd rfl hn
  | cons d l ih =>
    cases l with
    | nil => exact re_exprsLast (h d (by simp))
    | cons d' l => exact re_exprsMore (h d (by simp)) (ih (by simp) fun d hd => h d (by simp [hd]))

theorem re_sequence {as : List Expr} {sp : Span} (hn : 2 ≤ as.length) (h : ∀ d ∈ as, Re sty mini ctx (.expr 1 d)) :
    Re sty mini ctx (.expr 0 (.sequence sp as)) := by
  cases as with
  | nil => simp at hn
  | cons d l =>
    cases l with
    | nil => simp at hn
    | cons d' l => exact re_comma (h d (by simp)) (re_exprs (by simp) fun d hd => h d (by simp [hd]))

theorem re_varDecls {as : List VarDecl} (hn : as ≠ []) (h : ∀ d ∈ as, Re sty mini ctx (.varDecl d)) : Re sty mini ctx (.varDecls as) := by
  induction as with
  | nil => exact absurd rfl hn
  | cons d l ih =>
    cases l with
    | nil => exact re_varDeclsLast (h d (by simp))
    | cons d' l => exact re_varDeclsMore (h d (by simp)) (ih (by simp) fun d hd => h d (by simp [hd]))

theorem re_stmts {as : List Stmt} (h : ∀ d ∈ as, Re sty mini ctx (.item d)) : Re sty mini ctx (.stmts as) := by
  induction as with
  | nil => exact re_stmtsEnd
  | cons d l ih => exact re_stmtsMore (h d (by simp)) (ih fun d hd => h d (by simp [hd]))

theorem re_items {as : List Stmt} (h : ∀ d ∈ as, Re sty mini ctx (.item d)) : Re sty mini ctx (.items as) := by
  induction as with
  | nil => exact re_itemsEnd
  | cons d l ih => exact re_itemsMore (h d (by simp)) (ih fun d hd => h d (by simp [hd]))

theorem re_caseStmts {as : List Stmt} (h : ∀ d ∈ as, Re sty mini ctx (.item d)) : Re sty mini ctx (.caseStmts as) := by
  induction as with
  | nil => exact re_caseStmtsEnd
  | cons d l ih => exact re_caseStmtsMore (h d (by simp)) (ih fun d hd => h d (by simp [hd]))

theorem re_cases {as : List SwitchCase} (h : ∀ d ∈ as, Re sty mini ctx (.case d)) : Re sty mini ctx (.cases as) := by
  induction as with
  | nil => exact re_casesEnd
  | cons d l ih => exact re_casesMore (h d (by simp)) (ih fun d hd => h d (by simp [hd]))

theorem re_directives (ds : List LitString) : Re sty mini ctx (.directives ds) := by
  induction ds with
  | nil => exact re_directivesNil
  | cons d l ih => exact re_directivesMore ih

/-! ## Tokens of lists -/

theorem sepHoles_mem {α : Type} {k : Bool} {ps : List (Option (α × List Token))} {ts : List Token} (h : SepHoles k ps ts) :
    ∀ p, some p ∈ ps → ∀ t ∈ p.2, t ∈ ts := by
  induction h with
  | nil => simp
  | item _ ih =>
    intro p hp t ht
    rcases List.mem_append.1 hp with hp | hp
    · exact List.mem_append_left _ (ih p hp t ht)
    · cases List.mem_singleton.1 hp
      exact List.mem_append_right _ ht
  | comma _ _ ih => exact fun p hp t ht => List.mem_append_left _ (ih p hp t ht)
  | hole _ _ ih =>
    intro p hp t ht
    rcases List.mem_append.1 hp with hp | hp
    · exact List.mem_append_left _ (ih p hp t ht)
    · cases List.mem_singleton.1 hp

theorem toks_mem {α : Type} {ps : List (α × List Token)} : ∀ p ∈ ps, ∀ t ∈ p.2, t ∈ toks ps :=
  fun p hp _ ht => List.mem_flatten.2 ⟨p.2, List.mem_map.2 ⟨p, hp, rfl⟩, ht⟩

theorem sep_ne {α : Type} {k : Bool} {ps : List (α × List Token)} {ts : List Token} (h : Sep k ps ts) : k = false → ps ≠ [] := by
  cases h <;> simp

/-! ## Methods and classes -/

/-- The first token of the name of a method. -/
theorem name_head {n : PropName} {ts : List Token} (h : D E ctx (.propName n) ts) : ∃ t us, ts = t :: us ∧
    ctorTok t = hasName c!"constructor" n ∧ (isComputed n = true → t.value = .punct p!"[") := by
  cases h with
  | @nameIdent _ t i h2 =>
    refine ⟨t, [], rfl, ?_, nofun⟩
    cases h2 with
    | ident h3 => simp only [ctorTok, h3, hasName]; exact str_eq _ _
    | @keyword k h3 => simp [ctorTok, h3, hasName]; cases k <;> decide
  | nameString h2 => exact ⟨_, [], rfl, by simp only [ctorTok, h2, hasName]; exact str_eq _ _, nofun⟩
  | nameNumber h2 => exact ⟨_, [], rfl, by simp [ctorTok, h2, hasName], nofun⟩
  | nameComputed h2 => exact ⟨_, _, rfl, by simp [ctorTok, h2, hasName], fun _ => h2⟩

theorem ctor_head {d : MethodDef} {ts : List Token} (h : D E ctx (.classElement d) ts) (hc : ctorOk d = true) :
    ts.head?.any ctorTok = ctorFirst d := by
  cases h with
  | elementStatic _ h1 => simp [ctorTok, h1, ctorFirst]
  | elementPlain h =>
    cases h with
    | method h1 =>
      obtain ⟨t, us, rfl, h2, -⟩ := name_head h1
      simp only [List.cons_append, List.head?_cons, Option.any_some, h2]
      simp [ctorFirst, ctorOk] at hc ⊢
      cases hn : hasName c!"constructor" _ <;> simp_all
    | generatorMethod h1 => simp [ctorTok, h1, ctorFirst]
    | asyncMethod h1 => simp [ctorTok, h1, ctorFirst]
    | getter h1 => simp [ctorTok, h1, ctorFirst]
    | setter h1 => simp [ctorTok, h1, ctorFirst]

theorem bare_head {d : MethodDef} {ts : List Token} (h : D E ctx (.classElement d) ts) (hs : ctx.staticMethod = false)
    (ht : ∀ t ∈ ts.head?, t.value ≠ .punct p!"[") : bareComputed d = false ∧ ∃ sp n k ps b g a, d = .mk sp n k ps b g a false := by
  cases h with
  | elementStatic h => rw [hs] at h; cases h
  | elementPlain h =>
    refine ⟨?_, _, _, _, _, _, _, _, rfl⟩
    cases h with
    | method h1 =>
      obtain ⟨t, us, rfl, -, h2⟩ := name_head h1
      have ht := ht t (by simp)
      refine Bool.eq_false_iff.2 fun hb => ht (h2 ?_)
      simp [bareComputed] at hb
      exact hb.1.1
    | generatorMethod => simp [bareComputed]
    | asyncMethod => simp [bareComputed]
    | getter => simp [bareComputed]
    | setter => simp [bareComputed]

theorem re_classBody {hs : Bool} {ps : List (Option MethodDef × List Token)}
    (h : ∀ m us, (some m, us) ∈ ps → D E (elementCtx ctx hs us) (.classElement m) us ∧ Re sty mini (elementCtx ctx hs us) (.classElement m)) :
    Re sty mini ctx (.classBody hs ((trees ps).filterMap id)) := by
  induction ps with
  | nil => exact re_classEnd
  | cons p ps ih =>
    obtain ⟨m, us⟩ := p
    have ih := ih fun m us hm => h m us (by simp [hm])
    cases m with
    | none => exact ih
    | some m =>
      obtain ⟨h1, h2⟩ := h m us (by simp)
      exact re_classMore (sc := hs && us.head?.any ctorTok) (fun hc => by rw [ctor_head h1 hc]) h2 ih

/-! ## Small facts -/

/-- Whether a token is an identifier does not depend on `in` being allowed. -/
theorem ident_in {t : Token} {i : Ident} {v : Bool} (h : IdentTok ctx t i) : IdentTok { ctx with in_ := v } t i := by
  cases h with
  | ident h => exact .ident h
  | keyword h h' => exact .keyword h h'

/-- The two notations for a piece of a template agree. -/
theorem strPart_eq (s : Str) : strPart s = stringPart s := by
  cases s <;> rfl

/-! ## The induction -/

set_option hygiene false in
/-- The tokens of a part are among the tokens of the whole. -/
local macro "part" : term => `(by intro t ht; exact hr t (by simp [ht]))

theorem sound (hE : E.isModule → sty = .module) {g : GNode} {ts : List Token} (h : D E ctx g ts) : (∀ t ∈ ts, Real t) → Sd sty mini ctx g := by
  induction h with
  | weaken _ hk ih => intro hr; obtain ⟨h1, h2, h3⟩ := ih hr; exact ⟨by omega, h2.low h1 hk, fun hp v => (h3 hp v).low h1 hk⟩
  | this => intro hr; exact .all fun v => re_this
  | identRef h1 => intro hr; exact .all fun v => re_identRef (hr _ (by simp)) (ident_in h1)
  | null => intro hr; exact .mk re_null
  | true => intro hr; exact .mk re_true
  | false => intro hr; exact .mk re_false
  | string => intro hr; exact .mk re_string
  | number => intro hr; exact .mk re_number
  | regexp => intro hr; exact .mk re_regex
  | templateE _ _ ih => intro hr; exact .mk (re_template (ih hr))
  | array _ _ hs _ _ ih =>
    intro hr
    refine .mk (re_array (re_elements fun d hd hne => ?_))
    obtain ⟨p, hp, rfl⟩ := List.mem_map.1 hd
    cases p with
    | none => exact absurd rfl hne
    | some p => exact (ih p hp fun t ht => hr t (by simp [sepHoles_mem hs p hp t ht])).2
  | elementExpr _ ih => intro hr; exact ⟨nofun, re_elementExpr (ih hr).re⟩
  | elementSpread _ _ ih => intro hr; exact ⟨nofun, re_elementSpread (ih part).re⟩
  | object _ _ hs _ _ ih =>
    intro hr
    refine .mk (re_object (re_props fun d hd => ?_))
    obtain ⟨us, hd⟩ := mem_trees hd
    exact ih _ hd fun t ht => hr t (by simp [sep_mem hs _ hd t ht])
  | propIdent h1 => intro hr; exact re_propIdent (hr _ (by simp)) h1
  | propSpread _ _ ih => intro hr; exact re_propSpread (ih part).re
  | propNamed _ _ _ _ ih ih' => intro hr; exact re_propNamed (ih part) (ih' part).re
  | propMethod h1 h2 ih =>
    intro hr
    obtain ⟨hb, sp, n, k, ps, b, g, a, rfl⟩ := bare_head h1 rfl h2
    exact re_propMethod hb ((ih hr).2 rfl)
  | propComputedMethod _ ih => intro hr; exact (ih hr).2 _ _ _ _ _ _ rfl
  | nameIdent h1 => intro hr; exact re_nameIdent (hr _ (by simp)) h1
  | nameString => intro hr; exact re_nameString
  | nameNumber => intro hr; exact re_nameNumber
  | nameComputed _ _ _ ih => intro hr; exact re_nameComputed (ih part).re
  | paren _ _ _ _ ih => intro hr; exact .all fun v => re_paren (ih part).re
  | function _ _ hn _ _ _ ih ih' =>
    intro hr
    refine .mk (re_function ?_ (ih part) (ih' part))
    rintro j rfl
    obtain ⟨t, h1, rfl⟩ := hn
    exact ⟨t, hr t (by simp), h1⟩
  | asyncFunction _ _ _ _ hn _ _ _ ih ih' =>
    intro hr
    refine .mk (re_asyncFunction ?_ (ih part) (ih' part))
    rintro j rfl
    obtain ⟨t, h1, rfl⟩ := hn
    exact ⟨t, hr t (by simp), h1⟩
  | classE _ hn _ _ ih =>
    intro hr
    refine .mk (re_classE ?_ (ih part))
    rintro j rfl
    obtain ⟨t, h1, rfl⟩ := hn
    exact ⟨t, hr t (by simp), h1⟩
  | templatePlain => intro hr; exact re_templatePlain
  | templateHead _ _ ih =>
    intro hr
    obtain ⟨e, ps', rfl, h⟩ := ih part
    rw [strPart_eq]; exact re_templateHead h
  | templateMiddle _ _ _ ih ih' =>
    intro hr
    obtain ⟨e, ps', rfl, h⟩ := ih' part
    rw [strPart_eq]; exact ⟨_, _, rfl, re_templateMiddle (ih part).re h⟩
  | templateTail _ _ ih => intro hr; rw [strPart_eq]; exact ⟨_, _, rfl, re_templateTail (ih part).re⟩
  | @member ctx l e p _ _ _ hl _ _ _ ih ih' =>
    intro hr
    obtain ⟨h1, h2, h3⟩ := ih part
    have h4 := ih' part
    have key : ∀ v sp, Rl sty mini { ctx with in_ := v } l e → Rl sty mini { ctx with in_ := v } l (.member sp (.expr e) p) := by
      intro v sp h
      rcases hl with rfl | rfl
      · rcases (show Re _ _ _ (.callE e) ∨ Re _ _ _ (.expr 20 e) from h) with h | h
        · exact Or.inl (re_callMember h (h4 v))
        · exact Or.inr (re_member h (h4 v))
      · exact .of (re_member h.re (h4 v))
    exact ⟨h1, key ctx.in_ _ h2, fun hp v => key v _ (h3 (by simpa [plainTarget] using hp) v)⟩
  | superMember hm _ _ _ ih => intro hr; have h4 := ih part; exact .all fun v => re_superMember hm (h4 v)
  | memberName _ h1 => intro hr; exact fun v => re_memberName (hr _ (by simp)) h1
  | memberComputed _ _ _ ih => intro hr; exact fun v => re_memberComputed (ih part).re
  | tagged _ _ _ ih ih' => intro hr; exact .mk (re_tagged (ih part).re (ih' part))
  | taggedCall _ _ _ ih =>
    intro hr
    obtain ⟨-, h2, -⟩ := ih part
    refine ⟨by decide, ?_, by simp [plainTarget]⟩
    rcases h2 with h | h
    · exact Or.inl (re_callTagged h)
    · exact Or.inr (re_tagged h re_templatePlain)
  | newTarget _ _ h1 h2 => intro hr; exact .mk (re_newTarget (hr _ (by simp)) h1 h2)
  | importMeta _ _ h1 h2 => intro hr; exact .mk (re_importMeta (hr _ (by simp)) h1 h2)
  | @newArgs _ _ e _ _ _ _ _ _ _ _ _ ih ih' =>
    intro hr
    obtain ⟨-, -, h3⟩ := ih part
    cases hp : isPlainNew e with
    | false => exact .mk (re_newArgs (h3 hp) (ih' part _))
    | true =>
      refine .mk fun f x y h => ?_
      obtain ⟨h, -⟩ := h
      simp [hp] at h
  | newMember _ ih =>
    intro hr
    obtain ⟨-, h2, h3⟩ := ih hr
    exact ⟨re_newMember h2.re, fun hp v => re_newMember (h3 hp v).re, fun _ => h2.re⟩
  | newPlain _ _ _ ih => intro hr; exact ⟨re_newPlain (ih part).1, by simp [plainTarget], by simp [isPlainNew]⟩
  | newLhs _ ih =>
    intro hr
    obtain ⟨h2, h3, -⟩ := ih hr
    exact ⟨by decide, .of (re_newLhs h2), fun hp v => .of (re_newLhs (h3 hp v))⟩
  | @call ctx e _ asp as _ _ _ _ _ ih ih' =>
    intro hr
    obtain ⟨-, h2, h3⟩ := ih part
    have h4 := ih' part
    have key : ∀ v sp, Rl sty mini { ctx with in_ := v } 19 e → Rl sty mini { ctx with in_ := v } 19 (.call sp (.expr e) asp as) := by
      intro v sp h
      rcases h with h | h
      · exact Or.inl (re_callAgain h (h4 v))
      · exact Or.inl (re_call h (h4 v))
    exact ⟨by decide, key ctx.in_ _ h2, fun hp v => key v _ (h3 (by simpa [plainTarget] using hp) v)⟩
  | superCall hc _ _ _ ih => intro hr; exact .mk (re_superCall hc (ih part _))
  | importCall _ _ _ _ _ _ ih => intro hr; exact .mk (re_importCall (ih part).re)
  | args _ _ hs _ _ ih =>
    intro hr v
    refine re_args (re_argList fun d hd => ?_)
    obtain ⟨us, hd⟩ := mem_trees hd
    exact ih _ hd fun t ht => hr t (by simp [sep_mem hs _ hd t ht])
  | argExpr _ ih => intro hr; exact re_argExpr (ih hr).re
  | argSpread _ _ ih => intro hr; exact re_argSpread (ih part).re
  | chainFirstMember _ hn _ _ ih ih' => intro hr; exact ⟨re_chainFirstMember (ih part).re hn (ih' part), rfl⟩
  | chainFirstCall _ hn _ _ _ ih ih' => intro hr; exact ⟨re_chainFirstCall (ih part).re hn (ih' part _), rfl⟩
  | chainMember _ _ _ ih ih' => intro hr; exact ⟨re_chainMember (ih part).1 (ih' part), rfl⟩
  | chainOptCall _ _ _ _ ih ih' => intro hr; exact ⟨re_chainOptCall (ih part).1 (ih' part _), rfl⟩
  | chainCall _ _ _ ih ih' => intro hr; exact ⟨re_chainCall (ih part).1 (ih' part _), rfl⟩
  | chainExpr _ ih => intro hr; obtain ⟨h1, h2⟩ := ih hr; exact .mk (re_chainExpr h1) (hp := h2)
  | optName _ h1 => intro hr; exact re_optName (hr _ (by simp)) h1
  | optDotName _ h1 => intro hr; exact re_optDotName (hr _ (by simp)) h1
  | optComputed _ _ _ _ ih => intro hr; exact re_optComputed (ih part).re
  | optIndex _ _ _ ih => intro hr; exact re_optIndex (ih part).re
  | prefixUpdate _ _ h1 _ ih => intro hr; exact .mk (re_prefixUpdate (ih part).re h1)
  | postfixUpdate _ h1 _ _ _ ih => intro hr; exact .mk (re_postfixUpdate (ih part).re h1)
  | unary _ _ h1 _ ih => intro hr; exact .mk (re_unary (ih part).re h1)
  | await h1 _ _ _ ih => intro hr; exact .mk (re_await h1 (ih part).re)
  | @binary _ _ op _ _ _ _ _ _ _ h1 _ _ ih ih' =>
    intro hr
    have : binaryLevel op ≤ 14 := by cases op <;> decide
    exact .mk (re_binary ((ih part).re (by omega)) h1 ((ih' part).re (by omega))) (by omega) (by omega)
  | @logical _ _ op _ _ _ _ _ _ _ _ _ ih ih' =>
    intro hr
    have : logicalLevel op ≤ 5 := by cases op <;> decide
    exact .mk (re_logical ((ih part).re (by omega)) ((ih' part).re (by omega))) (by omega) (by omega)
  | conditional _ _ _ _ _ _ ih1 ih2 ih3 => intro hr; exact .mk (re_conditional (ih1 part).re (ih2 part).re (ih3 part).re)
  | assign _ h1 _ _ _ ih ih' => intro hr; exact .mk (re_assign (ih part).re h1 (ih' part).re)
  | assignPattern => intro hr; exact .mk re_assignPattern
  | yieldNone h1 => intro hr; exact .mk (re_yieldNone h1)
  | yield h1 _ _ _ _ ih => intro hr; exact .mk (re_yield h1 (ih part).re)
  | yieldStar h1 _ _ _ _ _ ih => intro hr; exact .mk (re_yieldStar h1 (ih part).re)
  | @arrow _ _ bp _ _ _ _ _ _ _ _ _ _ ih ih' =>
    intro hr
    have h1 := ih part
    cases bp with
    | true =>
      obtain ⟨t, id, sp, h1, h2, rfl⟩ := h1
      exact .mk (re_arrowIdent h1 h2 (ih' part))
    | false => exact .mk (re_arrow h1 (ih' part))
  | @asyncArrow _ _ _ bp _ _ _ _ _ _ _ _ _ _ _ ih ih' =>
    intro hr
    have h1 := ih part
    cases bp with
    | true =>
      obtain ⟨t, id, sp, h1, h2, rfl⟩ := h1
      exact .mk (re_asyncArrowIdent h1 h2 (ih' part))
    | false => exact .mk (re_asyncArrow h1 (ih' part))
  | arrowIdent h1 _ => intro hr; exact ⟨_, _, _, hr _ (by simp), h1, rfl⟩
  | arrowList _ ih => intro hr; exact ih hr
  | arrowExpr _ _ ih => intro hr; exact re_arrowExpr (ih hr).re
  | arrowBlock _ ih => intro hr; exact re_arrowBlock (ih hr)
  | comma _ hs hl _ ih =>
    intro hr
    refine .mk (re_sequence (by simpa [trees] using hl) fun d hd => ?_)
    obtain ⟨us, hd⟩ := mem_trees hd
    exact (ih _ hd fun t ht => hr t (by simp [sep_mem hs _ hd t ht])).re
  | params _ _ hs _ _ ih =>
    intro hr
    refine re_params (re_paramList (fun d hd => ?_) (by simp))
    obtain ⟨us, hd⟩ := mem_trees hd
    exact ih _ hd fun t ht => hr t (by simp [sep_mem hs _ hd t ht])
  | paramsRest _ _ hs _ _ _ _ ih ih' =>
    intro hr
    refine re_params (re_paramList (fun d hd => ?_) ?_)
    · obtain ⟨us, hd⟩ := mem_trees hd
      exact ih _ hd fun t ht => hr t (by simp [sep_mem hs _ hd t ht])
    · rintro p ⟨⟩; exact ih' part
  | body _ _ _ _ _ _ _ _ ih =>
    intro hr
    refine re_body (re_directives _) (re_stmts fun d hd => ?_)
    obtain ⟨us, hd⟩ := mem_trees hd
    exact ih _ hd fun t ht => hr t (by simp [toks_mem _ hd t ht])
  | elementPlain _ ih => intro hr; exact ⟨re_elementPlain (ih hr).1, fun _ => (ih hr).1⟩
  | elementStatic h1 _ _ ih => intro hr; exact ⟨re_elementStatic h1 (ih part).1, fun h => by rw [h1] at h; cases h⟩
  | method _ _ _ hb hok _ ih1 ih2 ih3 =>
    intro hr
    subst hb
    refine ⟨re_methodGen (ih1 part) (ih2 part) (ih3 part) hok fun h h' => ⟨h, h'⟩, ?_⟩
    rintro sp n ps b g a ⟨⟩
    exact re_propComputedMethod (ih1 part) (ih2 part) (ih3 part) hok
  | generatorMethod _ _ _ _ hb hok _ ih1 ih2 ih3 =>
    intro hr
    subst hb
    refine ⟨re_methodGen (ih1 part) (ih2 part) (ih3 part) hok nofun, ?_⟩
    rintro sp n ps b g a ⟨⟩ f x y h
    obtain ⟨h, -⟩ := h
    simp [computedOk, isComputed] at h
  | asyncMethod _ hst _ _ _ _ hb hok _ ih1 ih2 ih3 =>
    intro hr
    subst hb
    refine ⟨re_methodGen (ih1 part) (ih2 part) (ih3 part) hok nofun, ?_⟩
    rintro sp n ps b g a ⟨⟩ f x y h
    obtain ⟨h, -⟩ := h
    simp [computedOk, isComputed] at h
  | getter _ _ _ _ hb hok _ ih1 ih2 ih3 =>
    intro hr
    subst hb
    exact ⟨re_methodGen (ih1 part) (ih2 part) (ih3 part) hok fun h h' => ⟨h, h'⟩, by rintro sp n ps b g a ⟨⟩⟩
  | setter _ _ _ _ hb hok _ ih1 ih2 ih3 =>
    intro hr
    subst hb
    exact ⟨re_methodGen (ih1 part) (ih2 part) (ih3 part) hok fun h h' => ⟨h, h'⟩, by rintro sp n ps b g a ⟨⟩⟩
  | classTail _ hm _ _ ih =>
    intro hr
    exact re_classPlain (re_classBody fun m us h => ⟨hm m us h, (ih m us h fun t ht => hr t (by simp [toks_mem _ h t ht])).1⟩)
  | classHeritage _ _ _ hm _ _ ih ih' =>
    intro hr
    exact re_classExtends (ih part).re (re_classBody fun m us h => ⟨hm m us h, (ih' m us h fun t ht => hr t (by simp [toks_mem _ h t ht])).1⟩)
  | bindingIdent h1 => intro hr; exact re_bindingIdent (hr _ (by simp)) h1
  | bindingObject _ _ hs _ _ ih =>
    intro hr
    refine re_bindingObject (re_bindingProps (fun d hd => ?_) (by simp))
    obtain ⟨us, hd⟩ := mem_trees hd
    exact ih _ hd fun t ht => hr t (by simp [sep_mem hs _ hd t ht])
  | bindingObjectRest _ _ hs _ _ _ _ ih ih' =>
    intro hr
    refine re_bindingObject (re_bindingProps (fun d hd => ?_) ?_)
    · obtain ⟨us, hd⟩ := mem_trees hd
      exact ih _ hd fun t ht => hr t (by simp [sep_mem hs _ hd t ht])
    · rintro p ⟨⟩; exact ih' part
  | bindingArray _ _ hs _ _ ih =>
    intro hr
    refine re_bindingArray (re_bindingElements (fun d hd => ?_) (by simp))
    obtain ⟨p, hp, hd⟩ := List.mem_map.1 hd
    cases p with
    | none => cases hd
    | some p => cases hd; exact ih p hp fun t ht => hr t (by simp [sepHoles_mem hs p hp t ht])
  | bindingArrayRest _ _ hs _ _ _ _ ih ih' =>
    intro hr
    refine re_bindingArray (re_bindingElements (fun d hd => ?_) ?_)
    · obtain ⟨p, hp, hd⟩ := List.mem_map.1 hd
      cases p with
      | none => cases hd
      | some p => cases hd; exact ih p hp fun t ht => hr t (by simp [sepHoles_mem hs p hp t ht])
    · rintro p ⟨⟩; exact ih' part
  | bindingSingle h1 _ _ ih => intro hr; exact re_bindingSingle (hr _ (by simp)) h1 (ih part)
  | bindingNamed _ _ _ _ ih ih' => intro hr; exact re_bindingNamed (ih part) (ih' part)
  | bindingElement _ _ _ ih ih' => intro hr; exact re_bindingElement (ih part) (ih' part)
  | noInitializer => intro hr; exact re_noInitializer
  | initializer _ _ ih => intro hr; exact re_initializer (ih part).re
  | assignObject | assignObjectRest | assignArray | assignArrayRest | targetPattern | targetExpr | assignElement | assignSingle | assignNamed =>
    exact fun _ => trivial
  | varDecl _ _ h1 _ ih ih' => intro hr; exact re_varDecl (ih part) (ih' part) h1
  | varDecls _ hs ih =>
    intro hr
    have hne := sep_ne hs rfl
    have hne : trees _ ≠ [] := fun h => hne (List.map_eq_nil_iff.1 h)
    refine ⟨hne, re_varDecls hne fun d hd => ?_⟩
    obtain ⟨us, hd⟩ := mem_trees hd
    exact ih _ hd fun t ht => hr t (by simp [sep_mem hs _ hd t ht])
  | empty => intro hr; exact ⟨re_empty, nofun⟩
  | blockS _ ih => intro hr; exact ⟨re_blockS (ih hr), nofun⟩
  | block _ _ _ _ ih =>
    intro hr
    refine re_block (re_stmts fun d hd => ?_)
    obtain ⟨us, hd⟩ := mem_trees hd
    exact ih _ hd fun t ht => hr t (by simp [toks_mem _ hd t ht])
  | var _ _ _ _ ih =>
    intro hr
    obtain ⟨h1, h2⟩ := ih part
    refine ⟨re_var h1 h2, ?_⟩
    rintro sp k ds ⟨⟩
    exact ⟨rfl, h1, h2⟩
  | exprStmt _ _ _ _ ih => intro hr; exact ⟨re_exprStmt (ih part).re, nofun⟩
  | labeled h1 _ _ _ ih => intro hr; exact ⟨re_labeled (hr _ (by simp)) h1 (ih part).1, nofun⟩
  | «break» => intro hr; exact ⟨re_break, nofun⟩
  | breakLabel _ h1 => intro hr; exact ⟨re_breakLabel (hr _ (by simp)) h1, nofun⟩
  | «continue» => intro hr; exact ⟨re_continue, nofun⟩
  | continueLabel _ h1 => intro hr; exact ⟨re_continueLabel (hr _ (by simp)) h1, nofun⟩
  | «return» h1 => intro hr; exact ⟨re_return h1, nofun⟩
  | returnExpr h1 _ _ _ _ _ ih => intro hr; exact ⟨re_returnExpr h1 (ih part).re, nofun⟩
  | throw _ _ _ _ _ ih => intro hr; exact ⟨re_throw (ih part).re, nofun⟩
  | debugger => intro hr; exact ⟨re_debugger, nofun⟩
  | «if» _ _ _ _ _ _ ih ih' => intro hr; exact ⟨re_if (ih part).re (ih' part).1, nofun⟩
  | ifElse _ _ _ _ _ _ _ _ ih1 ih2 ih3 => intro hr; exact ⟨re_ifElse (ih1 part).re (ih2 part).1 (ih3 part).1, nofun⟩
  | «with» _ _ _ _ _ _ ih ih' => intro hr; exact ⟨re_with (ih part).re (ih' part).1, nofun⟩
  | tryCatch _ _ _ _ ih ih' => intro hr; exact ⟨re_tryCatch (ih part) (ih' part), nofun⟩
  | tryFinally _ _ _ _ _ ih ih' => intro hr; exact ⟨re_tryFinally (ih part) (ih' part), nofun⟩
  | tryBoth _ _ _ _ _ _ ih1 ih2 ih3 => intro hr; exact ⟨re_tryCatchFinally (ih1 part) (ih2 part) (ih3 part), nofun⟩
  | «catch» _ _ _ ih => intro hr; exact re_catch (ih part)
  | catchParam _ _ _ _ _ _ ih ih' => intro hr; exact re_catchParam (ih part) (ih' part)
  | switch _ _ _ _ _ _ _ _ ih ih' =>
    intro hr
    refine ⟨re_switch (ih part).re (re_cases fun d hd => ?_), nofun⟩
    obtain ⟨us, hd⟩ := mem_trees hd
    exact ih' _ hd fun t ht => hr t (by simp [toks_mem _ hd t ht])
  | case _ _ _ _ _ ih ih' =>
    intro hr
    refine re_case (ih part).re (re_caseStmts fun d hd => ?_)
    obtain ⟨us, hd⟩ := mem_trees hd
    exact ih' _ hd fun t ht => hr t (by simp [toks_mem _ hd t ht])
  | default _ _ _ _ ih =>
    intro hr
    refine re_default (re_caseStmts fun d hd => ?_)
    obtain ⟨us, hd⟩ := mem_trees hd
    exact ih _ hd fun t ht => hr t (by simp [toks_mem _ hd t ht])
  | doWhile _ _ _ _ _ _ _ _ ih ih' => intro hr; exact ⟨re_doWhile (ih' part).re (ih part).1, nofun⟩
  | «while» _ _ _ _ _ _ ih ih' => intro hr; exact ⟨re_while (ih part).re (ih' part).1, nofun⟩
  | forNone _ _ _ _ _ _ _ _ _ ih1 ih2 ih3 => intro hr; exact ⟨re_for re_noForInit (ih1 part) (ih2 part) (ih3 part).1, nofun⟩
  | «for» _ _ _ _ _ _ _ _ _ _ ih1 ih2 ih3 ih4 =>
    intro hr
    exact ⟨re_for (ih1 part _ rfl) (ih2 part) (ih3 part) (ih4 part).1, nofun⟩
  | noExpr => intro hr; exact re_noExpr
  | someExpr _ ih => intro hr; exact re_someExpr (ih hr).re
  | forInitExpr _ ih => intro hr c hc; subst hc; exact re_forInitExpr (ih hr).re
  | forInitDecl _ _ _ ih => intro hr c hc; subst hc; exact re_forInitDecl (ih part).2
  | forIn _ _ _ _ _ _ _ _ ih1 ih2 ih3 => intro hr; exact ⟨re_forIn (ih1 part) (ih2 part).re (ih3 part).1, nofun⟩
  | forOf _ _ _ _ _ _ _ _ ih1 ih2 ih3 => intro hr; exact ⟨re_forOf (ih1 part) (ih2 part).re (ih3 part).1, nofun⟩
  | forAwait _ h1 _ _ _ _ _ _ _ _ ih1 ih2 ih3 => intro hr; exact ⟨re_forAwait h1 (ih1 part) (ih2 part).re (ih3 part).1, nofun⟩
  | forDeclVar => intro hr; exact re_forDeclVar
  | forDeclPattern => intro hr; exact re_forDeclPattern
  | @forDeclExpr _ e _ _ h1 ih =>
    intro hr
    obtain ⟨-, -, h3⟩ := ih hr
    cases hp : plainTarget e with
    | true => exact re_forDeclExpr h1 (h3 hp false).re
    | false =>
      intro f x y h
      obtain ⟨h, -⟩ := h
      rw [hp] at h; cases h
  | itemStmt _ ih => intro hr; exact re_itemStmt (ih hr).1
  | itemDecl _ ih => intro hr; exact re_itemDecl (ih hr)
  | functionDecl _ _ hn _ _ _ _ ih ih' =>
    intro hr
    refine re_functionDecl ?_ (ih part) (ih' part)
    cases hn with
    | ident h1 => exact .inl ⟨_, hr _ (by simp), h1⟩
    | none h1 => exact .inr ⟨h1, rfl⟩
  | asyncFunctionDecl _ _ _ hn _ _ _ _ ih ih' =>
    intro hr
    refine re_asyncFunctionDecl ?_ (ih part) (ih' part)
    cases hn with
    | ident h1 => exact .inl ⟨_, hr _ (by simp), h1⟩
    | none h1 => exact .inr ⟨h1, rfl⟩
  | classDecl _ hn _ _ _ ih =>
    intro hr
    refine re_classDecl ?_ (ih part)
    cases hn with
    | ident h1 => exact .inl ⟨_, hr _ (by simp), h1⟩
    | none h1 => exact .inr ⟨h1, rfl⟩
  | lexical h1 _ _ _ _ ih => intro hr; obtain ⟨h2, h3⟩ := ih part; exact re_lexical h1 h2 h3
  | importModule h1 => intro hr; exact re_importModule (hE h1)
  | importFrom h1 _ h2 => intro hr; exact re_importFrom (hE h1) part h2
  | exportNamed h1 _ h2 => intro hr; exact re_exportNamed (hE h1) part h2
  | exportFrom h1 _ h2 => intro hr; exact re_exportFrom (hE h1) part h2
  | exportAll h1 => intro hr; exact re_exportAll (hE h1)
  | @exportAllAs _ _ _ _ n _ _ _ _ _ _ h1 _ _ _ h2 => intro hr; exact re_exportAllAs (hE h1) (hr n (by simp)) h2
  | @exportVar _ _ v _ _ h1 _ _ _ ih =>
    intro hr
    obtain ⟨sp, k, ds⟩ := v
    obtain ⟨rfl, h2, h3⟩ := (ih part).2 _ _ _ rfl
    exact re_exportVar (hE h1) h2 h3
  | exportDecl h1 _ _ _ ih => intro hr; exact re_exportDecl (hE h1) (ih part)
  | exportDefaultDecl h1 _ _ _ _ ih => intro hr; exact re_exportDefaultDecl (hE h1) (ih part)
  | exportDefaultExpr h1 _ _ _ _ _ ih => intro hr; exact re_exportDefaultExpr (hE h1) (ih part).re

end Fajt.Print
