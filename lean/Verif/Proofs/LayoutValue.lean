import Verif.Proofs.LayoutStrip
/-!
# Layout: what the parser asks about trees

The questions that the parser asks about the trees it has built have the same answers when the trees differ in positions only.
-/
namespace Fajt
open Spec Complete
set_option linter.unusedSectionVars false
variable [UnicodeID]

namespace Layout
open Fajt.Parser

theorem directiveOf_strip (s : Stmt) : directiveOf s.strip = directiveOf s := by
  cases s <;> try rfl
  rename_i sp e
  cases e <;> try rfl
  rename_i sp l
  cases l <;> rfl

theorem directiveOf_eq {s s' : Stmt} (h : s.strip = s'.strip) : directiveOf s = directiveOf s' := by
  rw [← directiveOf_strip s, h, directiveOf_strip]

theorem isNestedNew_strip (e : Expr) : e.strip.isNestedNew = e.isNestedNew := by
  cases e <;> try rfl
  rename_i sp e a l
  cases e <;> rfl

theorem isNestedNew_eq {e e' : Expr} (h : e.strip = e'.strip) : e.isNestedNew = e'.isNestedNew := by
  rw [← isNestedNew_strip e, h, isNestedNew_strip]

theorem isElision_eq {e e' : ArrayElement} (h : e.strip = e'.strip) : e.isElision = e'.isElision := by
  have k : ∀ e : ArrayElement, e.strip.isElision = e.isElision := fun e => by cases e <;> rfl
  rw [← k e, h, k]

theorem isIdentRef_eq {e e' : PropDef} (h : e.strip = e'.strip) : e.isIdentRef = e'.isIdentRef := by
  have k : ∀ e : PropDef, e.strip.isIdentRef = e.isIdentRef := fun e => by cases e <;> rfl
  rw [← k e, h, k]

theorem patIsIdent_eq {e e' : BindingPattern} (h : e.strip = e'.strip) : e.isIdent = e'.isIdent := by
  have k : ∀ e : BindingPattern, e.strip.isIdent = e.isIdent := fun e => by cases e <;> rfl
  rw [← k e, h, k]

theorem identName_eq {e e' : Ident} (h : e.strip = e'.strip) : e.name = e'.name := by
  have k : ∀ e : Ident, e.strip.name = e.name := fun e => by cases e; rfl
  rw [← k e, h, k]

theorem directives_eq {e e' : Body} (h : e.strip = e'.strip) : e.directives = e'.directives := by
  have k : ∀ e : Body, e.strip.directives = e.directives := fun e => by cases e; rfl
  rw [← k e, h, k]

theorem isSome_eq {α β : Type} {f : α → β} {x x' : Option α} (h : x.map f = x'.map f) : x.isSome = x'.isSome := by
  cases x <;> cases x' <;> first | rfl | cases h

theorem isNone_eq {α β : Type} {f : α → β} {x x' : Option α} (h : x.map f = x'.map f) : x.isNone = x'.isNone := by
  cases x <;> cases x' <;> first | rfl | cases h

/-! ## Errors -/

/-- The outcome of a check: a value, or a message. -/
def synOf {α : Type} : Except PErr α → Option (Str ⊕ α)
  | .ok a => some (.inr a)
  | .error ⟨.syn m, _⟩ => some (.inl m)
  | _ => none

theorem synOf_same {W : World} {α : Type} {x x' : Except PErr α} {v : Str ⊕ α} (h : synOf x = some v) (h' : synOf x' = some v) :
    SameEx W Eq x x' := by
  unfold synOf at h h'
  split at h <;> split at h' <;> cases h <;> cases h'
  · rfl
  · exact ⟨rfl, nofun⟩

theorem targetSimple_syn (ctx : Ctx) : ∀ e : Expr, ∃ v, synOf (e.targetSimple ctx) = some v ∧ synOf (e.strip.targetSimple ctx) = some v
  | .ident id => by
    simp only [Expr.targetSimple, Expr.strip, Ident.strip]
    split <;> exact ⟨_, rfl, rfl⟩
  | .member .. => ⟨_, rfl, rfl⟩
  | .paren _ e => targetSimple_syn ctx e
  | .literal .. => ⟨_, rfl, rfl⟩
  | .this .. => ⟨_, rfl, rfl⟩
  | .binary .. => ⟨_, rfl, rfl⟩
  | .logical .. => ⟨_, rfl, rfl⟩
  | .assign .. => ⟨_, rfl, rfl⟩
  | .conditional .. => ⟨_, rfl, rfl⟩
  | .function .. => ⟨_, rfl, rfl⟩
  | .classE .. => ⟨_, rfl, rfl⟩
  | .arrow .. => ⟨_, rfl, rfl⟩
  | .unary .. => ⟨_, rfl, rfl⟩
  | .update .. => ⟨_, rfl, rfl⟩
  | .call .. => ⟨_, rfl, rfl⟩
  | .optCall .. => ⟨_, rfl, rfl⟩
  | .optMember .. => ⟨_, rfl, rfl⟩
  | .new .. => ⟨_, rfl, rfl⟩
  | .sequence .. => ⟨_, rfl, rfl⟩
  | .yield .. => ⟨_, rfl, rfl⟩
  | .await .. => ⟨_, rfl, rfl⟩
  | .metaProp .. => ⟨_, rfl, rfl⟩
  | .tagged .. => ⟨_, rfl, rfl⟩

theorem earlyErrorsTarget_syn (ctx : Ctx) (m : Str) (e : Expr) :
    ∃ v, synOf (e.earlyErrorsTarget ctx m) = some v ∧ synOf (e.strip.earlyErrorsTarget ctx m) = some v := by
  obtain ⟨v, h1, h2⟩ := targetSimple_syn ctx e
  unfold Expr.earlyErrorsTarget
  cases hx : e.targetSimple ctx with
  | ok b =>
    rw [hx] at h1
    cases h1
    cases hy : e.strip.targetSimple ctx with
    | ok b' =>
      rw [hy] at h2
      cases h2
      cases b <;> exact ⟨_, rfl, rfl⟩
    | error y =>
      rw [hy] at h2
      obtain ⟨k, sp⟩ := y
      cases k <;> cases h2
  | error y =>
    rw [hx] at h1
    obtain ⟨k, sp⟩ := y
    cases k <;> cases h1
    cases hy : e.strip.targetSimple ctx with
    | ok b' => rw [hy] at h2; cases h2
    | error y =>
      rw [hy] at h2
      obtain ⟨k, sp⟩ := y
      cases k <;> cases h2
      exact ⟨_, rfl, rfl⟩

section
variable {W : World} {ctx : Ctx} {e e' : Expr}

theorem sameOfStrip {α β : Type} {f : α → Except PErr β} {g : α → α} (h : ∀ x, ∃ v, synOf (f x) = some v ∧ synOf (f (g x)) = some v)
    {x x' : α} (hx : g x = g x') : SameEx W Eq (f x) (f x') := by
  obtain ⟨v, h1, h2⟩ := h x
  obtain ⟨w, h3, h4⟩ := h x'
  rw [hx, h4] at h2
  cases h2
  exact synOf_same h1 h3

theorem earlyErrorsTarget_same {m : Str} (h : e.strip = e'.strip) :
    SameEx W Eq (e.earlyErrorsTarget ctx m) (e'.earlyErrorsTarget ctx m) := sameOfStrip (earlyErrorsTarget_syn ctx m) h

theorem earlyErrorsLhs_same (h : e.strip = e'.strip) : SameEx W Eq (e.earlyErrorsLhs ctx) (e'.earlyErrorsLhs ctx) :=
  earlyErrorsTarget_same h

theorem earlyErrorsUpdate_same (h : e.strip = e'.strip) : SameEx W Eq (e.earlyErrorsUpdate ctx) (e'.earlyErrorsUpdate ctx) :=
  earlyErrorsTarget_same h
end

theorem earlyErrorsDelete_syn (ctx : Ctx) :
    ∀ e : Expr, ∃ v, synOf (e.earlyErrorsDelete ctx) = some v ∧ synOf (e.strip.earlyErrorsDelete ctx) = some v
  | .ident id => by
    simp only [Expr.earlyErrorsDelete, Expr.strip, Ident.strip]
    split <;> exact ⟨_, rfl, rfl⟩
  | .paren _ e => earlyErrorsDelete_syn ctx e
  | .member .. => ⟨_, rfl, rfl⟩
  | .literal .. => ⟨_, rfl, rfl⟩
  | .this .. => ⟨_, rfl, rfl⟩
  | .binary .. => ⟨_, rfl, rfl⟩
  | .logical .. => ⟨_, rfl, rfl⟩
  | .assign .. => ⟨_, rfl, rfl⟩
  | .conditional .. => ⟨_, rfl, rfl⟩
  | .function .. => ⟨_, rfl, rfl⟩
  | .classE .. => ⟨_, rfl, rfl⟩
  | .arrow .. => ⟨_, rfl, rfl⟩
  | .unary .. => ⟨_, rfl, rfl⟩
  | .update .. => ⟨_, rfl, rfl⟩
  | .call .. => ⟨_, rfl, rfl⟩
  | .optCall .. => ⟨_, rfl, rfl⟩
  | .optMember .. => ⟨_, rfl, rfl⟩
  | .new .. => ⟨_, rfl, rfl⟩
  | .sequence .. => ⟨_, rfl, rfl⟩
  | .yield .. => ⟨_, rfl, rfl⟩
  | .await .. => ⟨_, rfl, rfl⟩
  | .metaProp .. => ⟨_, rfl, rfl⟩
  | .tagged .. => ⟨_, rfl, rfl⟩

theorem earlyErrorsDelete_same {W : World} {ctx : Ctx} {e e' : Expr} (op : UnaryOp) (h : e.strip = e'.strip) :
    SameEx W Eq (if op = .delete then e.earlyErrorsDelete ctx else .ok ()) (if op = .delete then e'.earlyErrorsDelete ctx else .ok ()) := by
  split
  · exact sameOfStrip (earlyErrorsDelete_syn ctx) h
  · rfl

theorem patNames_strip (p : BindingPattern) : p.strip.boundNames = p.boundNames := by cases p <;> rfl

theorem isSimple_strip (ps : FormalParams) : ps.strip.isSimple = ps.isSimple := by
  obtain ⟨sp, bs, rest⟩ := ps
  simp only [FormalParams.strip, FormalParams.isSimple, stripOptBindingPattern_eq, stripBindingElements_eq, Option.isNone_map,
    List.all_map]
  congr 2
  funext b
  obtain ⟨sp, p, i⟩ := b
  cases p <;> cases i <;> rfl

theorem boundNames_strip (ps : FormalParams) : ps.strip.boundNames = ps.boundNames := by
  obtain ⟨sp, bs, rest⟩ := ps
  simp only [FormalParams.strip, FormalParams.boundNames, stripOptBindingPattern_eq, stripBindingElements_eq, List.flatMap_map]
  congr 1
  · congr 1
    funext b
    obtain ⟨sp, p, i⟩ := b
    cases p <;> rfl
  · cases rest
    · rfl
    · exact patNames_strip _

theorem useStrict_syn (ds : List LitString) (ps : FormalParams) :
    ∃ v, synOf (ps.earlyErrorsUseStrict ds) = some v ∧ synOf (ps.strip.earlyErrorsUseStrict ds) = some v := by
  unfold FormalParams.earlyErrorsUseStrict
  rw [isSimple_strip]
  split <;> exact ⟨_, rfl, rfl⟩

theorem methodEarlyErrors_syn (kind : MethodKind) (ds : List LitString) (ps : FormalParams) :
    ∃ v, synOf (methodEarlyErrors kind ps ds) = some v ∧ synOf (methodEarlyErrors kind ps.strip ds) = some v := by
  cases kind with
  | get =>
    obtain ⟨sp, bs, rest⟩ := ps
    simp only [methodEarlyErrors, FormalParams.earlyErrorsGetter, FormalParams.strip, stripOptBindingPattern_eq,
      stripBindingElements_eq, Option.isSome_map, List.isEmpty_map]
    split <;> exact ⟨_, rfl, rfl⟩
  | method =>
    simp only [methodEarlyErrors, FormalParams.earlyErrorsMethod, FormalParams.earlyErrorsUseStrict, isSimple_strip,
      boundNames_strip]
    by_cases h : (!ps.isSimple && containsStrict ds) = true
    · simp only [h, if_true]; exact ⟨_, rfl, rfl⟩
    · simp only [h]
      cases firstDuplicate (sortStrs ps.boundNames) <;> exact ⟨_, rfl, rfl⟩
  | set =>
    have hs := isSimple_strip ps
    obtain ⟨sp, bs, rest⟩ := ps
    simp only [FormalParams.strip, stripOptBindingPattern_eq, stripBindingElements_eq] at hs
    simp only [methodEarlyErrors, FormalParams.earlyErrorsSetter, FormalParams.earlyErrorsUseStrict, FormalParams.strip,
      stripOptBindingPattern_eq, stripBindingElements_eq, hs]
    by_cases h : (!(FormalParams.mk sp bs rest).isSimple && containsStrict ds) = true
    · simp only [h, if_true]; exact ⟨_, rfl, rfl⟩
    · simp only [h, if_false, Bool.false_eq_true, Option.isSome_map, List.length_map]
      by_cases h1 : rest.isSome = true
      · simp only [h1, if_true]; exact ⟨_, rfl, rfl⟩
      · by_cases h2 : bs.length = 1
        · simp only [h1, h2]; exact ⟨_, rfl, rfl⟩
        · simp only [h1, if_false, Bool.false_eq_true, ne_eq, h2, not_false_eq_true, if_true]; exact ⟨_, rfl, rfl⟩

theorem methodEarlyErrors_same {W : World} {kind : MethodKind} {ps ps' : FormalParams} {b b' : Body} (h : ps.strip = ps'.strip)
    (hb : b.strip = b'.strip) :
    SameEx W Eq (methodEarlyErrors kind ps b.directives) (methodEarlyErrors kind ps' b'.directives) := by
  rw [directives_eq hb]
  exact sameOfStrip (methodEarlyErrors_syn kind b'.directives) h

theorem isCoverRetry_eq {W : World} {e e' : PErr} (h : SameErr W e e') : e.kind.isCoverRetry = e'.kind.isCoverRetry := by
  have k : ∀ k : PErrKind, k.strip.isCoverRetry = k.isCoverRetry := fun k => by cases k <;> rfl
  rw [← k, h.1, k]

theorem isInitializedName_eq {W : World} {e e' : PErr} (h : SameErr W e e') :
    e.kind.isInitializedName = e'.kind.isInitializedName := by
  have k : ∀ k : PErrKind, k.strip.isInitializedName = k.isInitializedName := fun k => by cases k <;> rfl
  rw [← k, h.1, k]

end Layout
end Fajt
