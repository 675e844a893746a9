import Verif.Model.StaticSemantics
import Verif.Spec.Ascii
import Verif.Spec.Static
/-!
# Early errors: C34 (duplicate detection), C40 (simple parameter lists) and the rules applied to assignment targets,
`delete` operands and accessor parameters (the checks behind C31, C32 and C33)
-/
namespace Fajt.Props
open Spec
set_option linter.unusedSectionVars false

/-! ## The order of strings -/

theorem strLe_refl (a : Str) : strLe a a = true := by
  induction a with
  | nil => rfl
  | cons c cs ih => simp [strLe, ih]

theorem strLe_total (a b : Str) : strLe a b = true ∨ strLe b a = true := by
  induction a generalizing b with
  | nil => exact .inl rfl
  | cons c cs ih =>
    cases b with
    | nil => exact .inr rfl
    | cons d ds =>
      unfold strLe
      rcases Nat.lt_trichotomy c.toNat d.toNat with h | h | h
      · simp [h]
      · simp [h, ih]
      · simp [h]

theorem strLe_antisymm {a b : Str} (h1 : strLe a b = true) (h2 : strLe b a = true) : a = b := by
  induction a generalizing b with
  | nil =>
    cases b with
    | nil => rfl
    | cons d ds => simp [strLe] at h2
  | cons c cs ih =>
    cases b with
    | nil => simp [strLe] at h1
    | cons d ds =>
      unfold strLe at h1 h2
      rcases Nat.lt_trichotomy c.toNat d.toNat with h | h | h
      · simp [h, Nat.lt_asymm h] at h2
      · have hc : c = d := Char.ext (UInt32.toNat_inj.1 h)
        simp [hc] at h1 h2
        rw [hc, ih h1 h2]
      · simp [h, Nat.lt_asymm h] at h1

theorem strLe_trans {a b c : Str} (h1 : strLe a b = true) (h2 : strLe b c = true) : strLe a c = true := by
  induction a generalizing b c with
  | nil => rfl
  | cons x xs ih =>
    cases b with
    | nil => simp [strLe] at h1
    | cons y ys =>
      cases c with
      | nil => simp [strLe] at h2
      | cons z zs =>
        unfold strLe at h1 h2 ⊢
        rcases Nat.lt_trichotomy x.toNat y.toNat with h | h | h
        · rcases Nat.lt_trichotomy y.toNat z.toNat with h' | h' | h'
          · simp [Nat.lt_trans h h']
          · simp [← h', h]
          · simp [h', Nat.lt_asymm h'] at h2
        · rw [h] at h1 ⊢
          rcases Nat.lt_trichotomy y.toNat z.toNat with h' | h' | h'
          · simp [h']
          · simp [h'] at h1 h2 ⊢; exact ih h1 h2
          · simp [h', Nat.lt_asymm h'] at h2
        · simp [h, Nat.lt_asymm h] at h1

/-! ## Sorting -/

/-- Sorted in the order of strings. -/
def Sorted (l : List Str) : Prop := l.Pairwise (fun a b => strLe a b = true)

theorem insertStr_perm (a : Str) (l : List Str) : (insertStr a l).Perm (a :: l) := by
  induction l with
  | nil => exact .refl _
  | cons b bs ih =>
    unfold insertStr
    split
    · exact .refl _
    · exact (ih.cons b).trans (.swap a b bs)

theorem insertStr_sorted {a : Str} {l : List Str} (h : Sorted l) : Sorted (insertStr a l) := by
  induction l with
  | nil => exact List.pairwise_singleton ..
  | cons b bs ih =>
    obtain ⟨hb, hbs⟩ := List.pairwise_cons.1 h
    unfold insertStr
    split
    · next hab =>
      refine List.pairwise_cons.2 ⟨fun x hx => ?_, h⟩
      rcases List.mem_cons.1 hx with rfl | hx
      · exact hab
      · exact strLe_trans hab (hb x hx)
    · next hab =>
      refine List.pairwise_cons.2 ⟨fun x hx => ?_, ih hbs⟩
      rcases List.mem_cons.1 ((insertStr_perm a bs).mem_iff.1 hx) with rfl | hx
      · exact (strLe_total x b).resolve_left (by simpa using hab)
      · exact hb x hx

theorem sortStrs_perm (l : List Str) : (sortStrs l).Perm l := by
  induction l with
  | nil => exact .refl _
  | cons a l ih => exact (insertStr_perm a _).trans (ih.cons a)

theorem sortStrs_sorted (l : List Str) : Sorted (sortStrs l) := by
  induction l with
  | nil => exact .nil
  | cons a l ih => exact insertStr_sorted ih

/-- The model of `sort_unstable` is not a choice of algorithm: every sorted permutation of the list is the same list. -/
theorem C34_sorting_unique (l r : List Str) (hp : r.Perm l) (hs : Sorted r) : r = sortStrs l :=
  List.Perm.eq_of_pairwise (fun _ _ _ _ => strLe_antisymm) hs (sortStrs_sorted l) (hp.trans (sortStrs_perm l).symm)

/-! ## C34 -/

theorem firstDuplicate_sorted {l : List Str} (hs : Sorted l) :
    (∀ d, firstDuplicate l = some d → 2 ≤ l.count d) ∧ (firstDuplicate l = none → l.Nodup) := by
  induction l with
  | nil => exact ⟨fun d h => by simp [firstDuplicate] at h, fun _ => .nil⟩
  | cons a l ih =>
    obtain ⟨ha, hl⟩ := List.pairwise_cons.1 hs
    obtain ⟨ih1, ih2⟩ := ih hl
    cases l with
    | nil => exact ⟨fun d h => by simp [firstDuplicate] at h, fun _ => by simp⟩
    | cons b r =>
      by_cases hab : a = b
      · subst hab
        refine ⟨fun d h => ?_, fun h => ?_⟩
        · simp [firstDuplicate] at h; subst h; simp
        · simp [firstDuplicate] at h
      · refine ⟨fun d h => ?_, fun h => ?_⟩
        · simp [firstDuplicate, hab] at h
          exact Nat.le_trans (ih1 d h) (List.count_le_count_cons ..)
        · simp [firstDuplicate, hab] at h
          refine List.nodup_cons.2 ⟨fun hm => hab ?_, ih2 h⟩
          rcases List.mem_cons.1 hm with h' | h'
          · exact h'
          · exact strLe_antisymm (ha b (List.mem_cons_self ..)) ((List.pairwise_cons.1 hl).1 a h')

/-- **C34**. The duplicate check (sort, then compare neighbours) reports a name only if that name occurs twice, and reports
nothing exactly when the names are pairwise different. -/
theorem C34_duplicates_exact (names : List Str) :
    (∀ d, firstDuplicate (sortStrs names) = some d → 2 ≤ names.count d) ∧
      (firstDuplicate (sortStrs names) = none ↔ names.Nodup) := by
  obtain ⟨h1, h2⟩ := firstDuplicate_sorted (sortStrs_sorted names)
  have hp := sortStrs_perm names
  refine ⟨fun d h => by rw [← hp.count_eq]; exact h1 d h, fun h => hp.nodup_iff.1 (h2 h), fun h => ?_⟩
  cases hf : firstDuplicate (sortStrs names) with
  | none => rfl
  | some d =>
    have := h1 d hf
    rw [hp.count_eq] at this
    have := List.nodup_iff_count.1 h d
    omega

/-- **C34**, at the interface: a method without the "use strict" conflict is rejected iff two of the plain names among its
parameters coincide; the message names one of them. -/
theorem C34_method_parameters (ps : FormalParams) (ds : List LitString)
    (hok : ps.earlyErrorsUseStrict ds = .ok ()) :
    (ps.earlyErrorsMethod ds = .ok () ↔ ps.boundNames.Nodup) ∧
      ∀ e, ps.earlyErrorsMethod ds = .error e → e.span = ps.span ∧
        ∃ d, 2 ≤ ps.boundNames.count d ∧
          e.kind = .syn (c!"Found duplicate parameter '" ++ d ++ c!"', duplicates not allowed here") := by
  obtain ⟨h1, h2⟩ := C34_duplicates_exact ps.boundNames
  unfold FormalParams.earlyErrorsMethod
  rw [hok]
  cases hf : firstDuplicate (sortStrs ps.boundNames) with
  | none =>
    refine ⟨⟨fun _ => h2.1 hf, fun _ => rfl⟩, fun e he => ?_⟩
    cases he
  | some d =>
    refine ⟨⟨fun h => ?_, fun h => ?_⟩, fun e he => ?_⟩
    · cases h
    · rw [h2.2 h] at hf; cases hf
    · cases he
      exact ⟨rfl, d, h1 d hf, rfl⟩

example : firstDuplicate (sortStrs [c!"b", c!"a", c!"c", c!"b"]) = some c!"b" := by decide +kernel
example : firstDuplicate (sortStrs [c!"b", c!"a", c!"c"]) = none := by decide +kernel

/-! ## C40 -/

theorem simple_bindings (bs : List BindingElement) :
    (bs.all fun
      | .mk _ pattern initializer => initializer.isNone && (match pattern with
        | .ident _ => true
        | _ => false)) = true ↔ ∃ params : List (Span × Ident), bs = params.map fun p => .mk p.1 (.ident p.2) none := by
  induction bs with
  | nil => exact ⟨fun _ => ⟨[], rfl⟩, fun _ => rfl⟩
  | cons b bs ih =>
    rw [List.all_cons, Bool.and_eq_true, ih]
    constructor
    · rintro ⟨h, params, rfl⟩
      obtain ⟨sp, pat, init⟩ := b
      cases init with
      | some _ => cases h
      | none =>
        cases pat with
        | ident id => exact ⟨(sp, id) :: params, rfl⟩
        | array => cases h
        | object => cases h
    · rintro ⟨params, h⟩
      cases params with
      | nil => cases h
      | cons p params =>
        cases h
        exact ⟨rfl, params, rfl⟩

/-- **C40**. A parameter list is simple iff it has no rest element and every binding is an identifier without
initialiser. -/
theorem C40_simple_parameters (ps : FormalParams) : ps.isSimple = true ↔ SimpleParams ps := by
  obtain ⟨sp, bs, rest⟩ := ps
  unfold FormalParams.isSimple
  rw [Bool.and_eq_true]
  refine (and_congr_right fun _ => simple_bindings bs).trans ?_
  constructor
  · rintro ⟨h, params, rfl⟩
    cases rest with
    | none => exact .intro sp params
    | some _ => cases h
  · intro h
    cases h with
    | intro _ params => exact ⟨rfl, params, rfl⟩

/-- **C40**, at the interface: a "use strict" directive is refused exactly for functions whose parameters are not simple. -/
theorem C40_use_strict (ps : FormalParams) (ds : List LitString) :
    ps.earlyErrorsUseStrict ds = .ok () ↔ UseStrictOK ps ds := by
  unfold UseStrictOK
  rw [← C40_simple_parameters]
  unfold FormalParams.earlyErrorsUseStrict containsStrict
  cases ps.isSimple
  · simp only [Bool.not_false, Bool.true_and]
    split
    · next h =>
      constructor
      · intro h'; cases h'
      · rintro (h' | h')
        · cases h'
        · obtain ⟨d, hd, he⟩ := List.any_eq_true.1 h
          exact absurd (by simpa using he) (h' d hd)
    · next h =>
      refine ⟨fun _ => .inr fun d hd he => h (List.any_eq_true.2 ⟨d, hd, by simpa using he⟩), fun _ => rfl⟩
  · simp

example : FormalParams.isSimple (.mk ⟨0, 6⟩ [.mk ⟨1, 2⟩ (.ident ⟨⟨1, 2⟩, c!"a"⟩) none, .mk ⟨4, 5⟩ (.ident ⟨⟨4, 5⟩, c!"b"⟩) none] none)
    = true := rfl
example : FormalParams.isSimple (.mk ⟨0, 6⟩ [] (some (.ident ⟨⟨4, 5⟩, c!"b"⟩))) = false := rfl

/-! ## Accessor parameters (the check of C33) -/

/-- **C33**, the check: a getter passes iff it has no parameter at all. -/
theorem C33_getter_check (sp : Span) (bs : List BindingElement) (rest : Option BindingPattern) :
    (FormalParams.mk sp bs rest).earlyErrorsGetter = .ok () ↔ bs = [] ∧ rest = none := by
  unfold FormalParams.earlyErrorsGetter
  cases bs <;> cases rest <;> simp

/-- **C33**, the check: a setter passes iff it has exactly one parameter, no rest parameter and no "use strict" directive
with a parameter that is not a plain name. -/
theorem C33_setter_check (sp : Span) (bs : List BindingElement) (rest : Option BindingPattern) (ds : List LitString) :
    (FormalParams.mk sp bs rest).earlyErrorsSetter ds = .ok () ↔
      (∃ b, bs = [b]) ∧ rest = none ∧ UseStrictOK (.mk sp bs rest) ds := by
  rw [← C40_use_strict]
  unfold FormalParams.earlyErrorsSetter
  cases h : (FormalParams.mk sp bs rest).earlyErrorsUseStrict ds with
  | error e => simp
  | ok u =>
    cases rest with
    | some r => simp
    | none =>
      match bs with
      | [] => simp
      | [b] => simp
      | b :: c :: r => simp

/-! ## Assignment targets (the check of C31) and `delete` (the check of C32) -/

variable [UnicodeID]

/-- Induction over the parentheses of an expression. -/
theorem paren_induction {P : Expr → Prop} (hp : ∀ sp e, P e → P (.paren sp e))
    (ho : ∀ e, (∀ sp e', e ≠ .paren sp e') → P e) : ∀ e, P e
  | .paren sp e => hp sp e (paren_induction hp ho e)
  | .arrow .. | .assign .. | .await .. | .binary .. | .call .. | .classE .. | .conditional .. | .function .. | .ident ..
  | .literal .. | .logical .. | .member .. | .metaProp .. | .new .. | .optCall .. | .optMember .. | .sequence ..
  | .tagged .. | .this .. | .unary .. | .update .. | .yield .. => ho _ (fun _ _ h => nomatch h)
termination_by structural e => e

theorem targetSimple_spec (ctx : Ctx) (e : Expr) :
    (e.targetSimple ctx = .ok true ↔ TargetOK ctx.strict e) ∧
      (e.targetSimple ctx = .ok false ↔ ¬ Target e) := by
  induction e using paren_induction with
  | hp sp e ih =>
    rw [show (Expr.paren sp e).targetSimple ctx = e.targetSimple ctx from rfl, ih.1, ih.2]
    have ht : Target (.paren sp e) ↔ Target e := ⟨fun h => by cases h; assumption, .paren⟩
    have hn : ∀ id, Names (.paren sp e) id ↔ Names e id := fun id => ⟨fun h => by cases h; assumption, .paren⟩
    simp [TargetOK, ht, hn]
  | ho e h =>
    cases e
    case paren => exact absurd rfl (h _ _)
    case ident id =>
      have ht : Target (.ident id) := .ident id
      have hn : ∀ id', Names (.ident id) id' ↔ id' = id :=
        fun id' => ⟨fun h => by cases h; rfl, fun h => h ▸ .ident id⟩
      unfold Expr.targetSimple
      simp only [TargetOK, ht, hn, true_and, not_true_eq_false, iff_false, forall_eq]
      split
      · next hc =>
        refine ⟨⟨fun h => (nomatch h), fun h => absurd (hc.2.elim .inr .inl) (h hc.1)⟩, fun h => nomatch h⟩
      · next hc =>
        refine ⟨⟨fun _ hs he => hc ⟨hs, he.elim .inr .inl⟩, fun _ => rfl⟩, fun h => nomatch h⟩
    case member sp o p =>
      have ht : Target (.member sp o p) := .member ..
      refine ⟨⟨fun _ => ⟨ht, fun _ id h => (nomatch h)⟩, fun _ => rfl⟩, fun h => (nomatch h), fun h => absurd ht h⟩
    all_goals
      refine ⟨⟨fun h => ?_, fun h => ?_⟩, fun _ h => ?_, fun _ => rfl⟩
      · exact nomatch (h : Except.ok false = Except.ok true)
      · exact nomatch h.1
      · exact nomatch h

/-- **C31**, the check made on the left side of an assignment and on the operand of `++`/`--`: it passes iff the expression
is a name or a member access, possibly in parentheses, and in strict code the name is not `eval` or `arguments`. -/
theorem C31_target_check (ctx : Ctx) (msg : Str) (e : Expr) :
    e.earlyErrorsTarget ctx msg = .ok () ↔
      TargetOK ctx.strict e := by
  rw [← (targetSimple_spec ctx e).1]
  unfold Expr.earlyErrorsTarget
  split
  · next h => rw [h]; exact ⟨fun h => (nomatch h), fun h => nomatch h⟩
  · next h => rw [h]; simp
  · next h => rw [h]; simp

/-- **C31**: the check made for assignments and the one made for updates agree up to the message. -/
theorem C31_checks_agree (ctx : Ctx) (e : Expr) : e.earlyErrorsLhs ctx = .ok () ↔ e.earlyErrorsUpdate ctx = .ok () := by
  unfold Expr.earlyErrorsLhs Expr.earlyErrorsUpdate
  rw [C31_target_check, C31_target_check]

/-- **C32**, the check made on the operand of `delete`: it fails iff the code is strict and the operand is a name, possibly
in parentheses; the error points at the name. -/
theorem C32_delete_check (ctx : Ctx) (e : Expr) :
    (e.earlyErrorsDelete ctx = .ok () ↔ DeleteOK ctx.strict e) ∧
      ∀ err, e.earlyErrorsDelete ctx = .error err → ∃ id, Names e id ∧ err.span = id.span := by
  induction e using paren_induction with
  | hp sp e ih =>
    rw [show (Expr.paren sp e).earlyErrorsDelete ctx = e.earlyErrorsDelete ctx from rfl]
    have hn : ∀ id, Names (.paren sp e) id ↔ Names e id := fun id => ⟨fun h => by cases h; assumption, .paren⟩
    simpa only [DeleteOK, hn] using ih
  | ho e h =>
    cases e
    case paren => exact absurd rfl (h _ _)
    case ident id =>
      have hn : Names (.ident id) id := .ident id
      unfold Expr.earlyErrorsDelete
      cases hs : ctx.strict
      · exact ⟨⟨fun _ h => (nomatch h), fun _ => rfl⟩, fun err h => nomatch h⟩
      · refine ⟨⟨fun h => (nomatch h), fun h => absurd hn (h rfl id)⟩, fun err h => ?_⟩
        cases h
        exact ⟨id, hn, rfl⟩
    all_goals exact ⟨⟨fun _ _ id h => (nomatch h), fun _ => rfl⟩, fun err h => nomatch h⟩

example : Target (.paren ⟨0, 3⟩ (.ident ⟨⟨1, 2⟩, c!"a"⟩)) := .paren (.ident _)
example : ¬ Target (.this ⟨0, 4⟩) := fun h => nomatch h

end Fajt.Props
