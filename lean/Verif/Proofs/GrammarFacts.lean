import Verif.Spec.Grammar
import Verif.Props.StaticSemantics
import Verif.Model.Parser
/-!
# Facts about derivations
-/
namespace Fajt
open Spec
set_option linter.unusedSectionVars false
variable [UnicodeID]

/-- The span of the tree of a grammar symbol, for trees with a span that matters to the parser. -/
def nodeSpan : GNode → Option Span
  | .expr _ e | .newE e | .chain e => some e.span
  | .params p => some p.span
  | .binding p => some p.span
  | .assignPattern p => some p.span
  | .target t => some t.span
  | .args sp _ => some sp
  | _ => none

theorem Spans.one (t : Token) : Spans t.span [t] := ⟨t, t, rfl, rfl, rfl⟩

theorem Spec.IdentTok.span {ctx : Ctx} {t : Token} {id : Ident} (h : IdentTok ctx t id) : id.span = t.span := by
  cases h <;> rfl

theorem Spec.NameTok.span {t : Token} {id : Ident} (h : NameTok t id) : id.span = t.span := by
  cases h <;> rfl

theorem Spec.D.nodeSpan {E : GEnv} {ctx : Ctx} {g : GNode} {ts : List Token} (h : D E ctx g ts) :
    ∀ sp, nodeSpan g = some sp → Spans sp ts := by
  induction h <;> intro sp' hsp <;> first
    | (injection hsp with hsp; subst hsp; assumption)
    | (cases hsp; done)
    | (injection hsp with hsp; subst hsp; exact Spans.one _)
    | (injection hsp with hsp; subst hsp; show Spans (Ident.span _) _; rw [IdentTok.span (by assumption)]; exact Spans.one _)
    | (rename_i ih; exact ih _ hsp)
    | (rename_i ih _; exact ih _ hsp)
    | skip


/-- The expression of a grammar symbol. -/
def exprOf : GNode → Option Expr
  | .expr _ e | .newE e | .chain e => some e
  | _ => none

theorem Spec.D.names {E : GEnv} {ctx : Ctx} {g : GNode} {ts : List Token} (h : D E ctx g ts) :
    ∀ e, exprOf g = some e → ∀ id, Names e id → ∃ t ∈ ts, id.span = t.span := by
  induction h <;> intro e he id hn <;> first
    | (cases he; done)
    | (cases he; cases hn; done)
    | (rename_i ih; exact ih _ he _ hn)
    | (rename_i ih _; exact ih _ he _ hn)
    | skip
  case identRef h => cases he; cases hn; exact ⟨_, by simp, h.span⟩
  case paren h1 h2 h3 h4 ih =>
    cases he
    cases hn with
    | paren hn =>
      obtain ⟨t, ht, e⟩ := ih _ rfl _ hn
      exact ⟨t, by simp [ht], e⟩

theorem Spec.D.target {E : GEnv} {ctx : Ctx} {g : GNode} {ts : List Token} (h : D E ctx g ts) :
    ∀ e, exprOf g = some e → Target e → D E ctx (.expr 17 e) ts := by
  induction h <;> intro e he ht <;> first
    | (cases he; done)
    | (cases he; cases ht; done)
    | (rename_i ih; exact ih _ he ht)
    | (rename_i ih _; exact ih _ he ht)
    | skip
  case identRef h => cases he; exact (D.identRef h).weaken (by omega)
  case paren h1 h2 h3 h4 ih => cases he; exact (D.paren h1 h2 h3 h4).weaken (by omega)
  case member hl h1 h2 h3 _ _ =>
    cases he
    rcases hl with rfl | rfl <;> exact (D.member (by simp) h1 h2 h3).weaken (by omega)
  case superMember h1 h2 h3 h4 _ => cases he; exact (D.superMember h1 h2 h3 h4).weaken (by omega)

theorem Spec.D.target' {E : GEnv} {ctx : Ctx} {l : Nat} {e : Expr} {ts : List Token} (h : D E ctx (.expr l e) ts)
    (ht : Target e) : D E ctx (.expr 17 e) ts := h.target e rfl ht

theorem Spec.D.literalHead {E : GEnv} {ctx : Ctx} {g : GNode} {ts : List Token} (h : D E ctx g ts) :
    ∀ sp l, exprOf g = some (.literal sp l) → (∃ es, l = .array es) ∨ (∃ ps, l = .object ps) →
    ∃ t, ts.head? = some t ∧ (t.value = .punct p!"[" ∨ t.value = .punct p!"{") := by
  induction h <;> intro sp l he hl <;> first
    | (cases he; done)
    | (rename_i ih; exact ih _ _ he hl)
    | (rename_i ih _; exact ih _ _ he hl)
    | (cases he; rcases hl with ⟨_, hl⟩ | ⟨_, hl⟩ <;> cases hl; done)
    | skip
  case array h _ _ _ _ _ => exact ⟨_, rfl, .inl h⟩
  case object h _ _ _ _ _ => exact ⟨_, rfl, .inr h⟩

theorem isNestedNew_eq (e : Expr) : e.isNestedNew = nestedNew e := by
  rfl

theorem plainNames_eq (ps : FormalParams) : ps.boundNames = plainNames ps := by
  cases ps with
  | mk sp bs rest =>
    have hb : ∀ p : BindingPattern, p.boundNames = (plainName p).toList := by
      intro p; cases p <;> rfl
    unfold FormalParams.boundNames plainNames
    dsimp only
    rw [List.filterMap_append]
    congr 1
    · induction bs with
      | nil => rfl
      | cons b bs ih =>
        rw [List.flatMap_cons, List.map_cons, List.filterMap_cons, ih]
        obtain ⟨sp', p, i⟩ := b
        dsimp only [patternOf]
        rw [hb]
        cases plainName p <;> rfl
    · cases rest with
      | none => rfl
      | some p =>
        show p.boundNames = List.filterMap plainName [p]
        rw [hb]
        cases hp : plainName p <;> simp [hp]

theorem methodEarlyErrors_ok {k : MethodKind} {ps : FormalParams} {ds : List LitString}
    (h : Parser.methodEarlyErrors k ps ds = .ok ()) : ParamsOK k ps ds := by
  cases k with
  | method =>
    have h : ps.earlyErrorsMethod ds = .ok () := h
    have hu : ps.earlyErrorsUseStrict ds = .ok () := by
      unfold FormalParams.earlyErrorsMethod at h
      split at h
      · cases h
      · assumption
    exact ⟨(Props.C40_use_strict ps ds).1 hu, by
      rw [← plainNames_eq]; exact (Props.C34_method_parameters ps ds hu).1.1 h⟩
  | get =>
    cases ps
    exact (Props.C33_getter_check _ _ _).1 h
  | set =>
    cases ps
    exact (Props.C33_setter_check _ _ _ _).1 h

theorem methodEarlyErrors_err {k : MethodKind} {ps : FormalParams} {ds : List LitString} {e : PErr}
    (h : Parser.methodEarlyErrors k ps ds = .error e) : e.span = ps.span ∧ ∀ a, e.kind ≠ .arrowNotAllowed a := by
  have hu : ∀ {e}, ps.earlyErrorsUseStrict ds = .error e → e.span = ps.span ∧ ∀ a, e.kind ≠ .arrowNotAllowed a := by
    intro e h
    unfold FormalParams.earlyErrorsUseStrict at h
    split at h
    · cases h; exact ⟨rfl, fun _ => PErrKind.noConfusion⟩
    · cases h
  cases k with
  | method =>
    have h : ps.earlyErrorsMethod ds = .error e := h
    unfold FormalParams.earlyErrorsMethod at h
    split at h
    · next h' => cases h; exact hu h'
    · split at h
      · cases h; exact ⟨rfl, fun _ => PErrKind.noConfusion⟩
      · cases h
  | get =>
    have h : ps.earlyErrorsGetter = .error e := h
    unfold FormalParams.earlyErrorsGetter at h
    split at h
    split at h
    · cases h; exact ⟨rfl, fun _ => PErrKind.noConfusion⟩
    · cases h
  | set =>
    have h : ps.earlyErrorsSetter ds = .error e := h
    unfold FormalParams.earlyErrorsSetter at h
    split at h
    · next h' => cases h; exact hu h'
    · split at h
      · cases h; exact ⟨rfl, fun _ => PErrKind.noConfusion⟩
      · split at h
        · cases h; exact ⟨rfl, fun _ => PErrKind.noConfusion⟩
        · cases h

theorem earlyErrorsTarget_err {ctx : Ctx} {msg : Str} {e : Expr} {er : PErr} (h : e.earlyErrorsTarget ctx msg = .error er) :
    (er.span = e.span ∨ ∃ id, Names e id ∧ er.span = id.span) ∧ ∀ a, er.kind ≠ .arrowNotAllowed a := by
  have key : ∀ er, e.targetSimple ctx = .error er →
      (∃ id, Names e id ∧ er.span = id.span) ∧ ∀ a, er.kind ≠ .arrowNotAllowed a := by
    clear h
    induction e using Props.paren_induction with
    | hp sp e ih =>
      intro er h
      obtain ⟨⟨id, h1, h2⟩, h3⟩ := ih er h
      exact ⟨⟨id, .paren h1, h2⟩, h3⟩
    | ho e hp =>
      intro er h
      cases e <;> first
        | (cases h; done)
        | (exact absurd rfl (hp _ _))
        | skip
      unfold Expr.targetSimple at h
      split at h
      · cases h; exact ⟨⟨_, .ident _, rfl⟩, fun _ => PErrKind.noConfusion⟩
      · cases h
  unfold Expr.earlyErrorsTarget at h
  split at h
  · next h' => cases h; exact ⟨.inr (key _ h').1, (key _ h').2⟩
  · cases h
  · cases h; exact ⟨.inl rfl, fun _ => PErrKind.noConfusion⟩

theorem earlyErrorsDelete_err {ctx : Ctx} {e : Expr} {er : PErr} (h : e.earlyErrorsDelete ctx = .error er) :
    (∃ id, Names e id ∧ er.span = id.span) ∧ ∀ a, er.kind ≠ .arrowNotAllowed a := by
  refine ⟨(Props.C32_delete_check ctx e).2 er h, ?_⟩
  revert h
  induction e using Props.paren_induction with
  | hp sp e ih => exact ih
  | ho e hp =>
    intro h
    cases e <;> first
      | (cases h; done)
      | (exact absurd rfl (hp _ _))
      | skip
    unfold Expr.earlyErrorsDelete at h
    split at h
    · cases h
    · cases h; exact fun _ => PErrKind.noConfusion

end Fajt
