import Verif.Model.Mutate
/-!
# Plans and their execution
-/
namespace Fajt

/-- The result of a plan when no node is changed. -/
def Plan.stay {α : Type} : Plan α → α
  | .ret a => a
  | .visit _ x c => (c x).stay

/-- The visits of a plan when no node is changed. -/
def Plan.visits {α : Type} : Plan α → List ((k : Kind) × k.Val)
  | .ret _ => []
  | .visit k x c => ⟨k, x⟩ :: (c x).visits

/-- Every visited node has the property `V`, if the visited nodes change according to `R`, and the result has the property `P`. -/
def Plan.wp {α : Type} (V : (k : Kind) → k.Val → Prop) (R : (k : Kind) → k.Val → k.Val → Prop) (P : α → Prop) : Plan α → Prop
  | .ret a => P a
  | .visit k x c => V k x ∧ ∀ y, R k x y → (c y).wp V R P

namespace Plan
variable {α β : Type}

@[simp] theorem stay_ret (a : α) : (Plan.ret a).stay = a := rfl
@[simp] theorem stay_visit (k : Kind) (x : k.Val) (c : k.Val → Plan α) : (Plan.visit k x c).stay = (c x).stay := rfl
@[simp] theorem visits_ret (a : α) : (Plan.ret a).visits = [] := rfl
@[simp] theorem visits_visit (k : Kind) (x : k.Val) (c : k.Val → Plan α) : (Plan.visit k x c).visits = ⟨k, x⟩ :: (c x).visits := rfl

@[simp] theorem stay_opt (k : Kind) (x : Option k.Val) (c : Option k.Val → Plan α) : (Plan.opt k x c).stay = (c x).stay := by
  cases x <;> rfl

@[simp] theorem stay_list (k : Kind) (x : List k.Val) (c : List k.Val → Plan α) : (Plan.list k x c).stay = (c x).stay := by
  induction x generalizing c with
  | nil => rfl
  | cons a l ih => exact ih _

@[simp] theorem stay_listOpt (k : Kind) (x : List (Option k.Val)) (c : List (Option k.Val) → Plan α) :
    (Plan.listOpt k x c).stay = (c x).stay := by
  induction x generalizing c with
  | nil => rfl
  | cons a l ih => rw [Plan.listOpt, stay_opt, ih]

@[simp] theorem stay_optList (k : Kind) (x : Option (List k.Val)) (c : Option (List k.Val) → Plan α) :
    (Plan.optList k x c).stay = (c x).stay := by
  cases x with
  | none => rfl
  | some l => exact stay_list _ _ _

@[simp] theorem visits_opt (k : Kind) (x : Option k.Val) (c : Option k.Val → Plan α) :
    (Plan.opt k x c).visits = x.toList.map (Sigma.mk k) ++ (c x).visits := by
  cases x <;> rfl

@[simp] theorem visits_list (k : Kind) (x : List k.Val) (c : List k.Val → Plan α) :
    (Plan.list k x c).visits = x.map (Sigma.mk k) ++ (c x).visits := by
  induction x generalizing c with
  | nil => rfl
  | cons a l ih => rw [Plan.list, visits_visit, ih]; rfl

@[simp] theorem visits_listOpt (k : Kind) (x : List (Option k.Val)) (c : List (Option k.Val) → Plan α) :
    (Plan.listOpt k x c).visits = (x.filterMap id).map (Sigma.mk k) ++ (c x).visits := by
  induction x generalizing c with
  | nil => rfl
  | cons a l ih =>
    rw [Plan.listOpt, visits_opt, ih]
    cases a <;> rfl

@[simp] theorem visits_optList (k : Kind) (x : Option (List k.Val)) (c : Option (List k.Val) → Plan α) :
    (Plan.optList k x c).visits = (x.getD []).map (Sigma.mk k) ++ (c x).visits := by
  cases x with
  | none => rfl
  | some l => exact visits_list _ _ _

theorem wp_mono {V V' R R'} {P Q : α → Prop} {p : Plan α} (h : p.wp V R P) (hV : ∀ k x, V k x → V' k x)
    (hR : ∀ k x y, R' k x y → R k x y) (hP : ∀ a, P a → Q a) : p.wp V' R' Q := by
  induction p with
  | ret a => exact hP a h
  | visit k x c ih => exact ⟨hV _ _ h.1, fun y hy => ih y (h.2 y (hR _ _ _ hy))⟩

/-- Options related elementwise. -/
inductive OptRel (r : β → β → Prop) : Option β → Option β → Prop
  | none : OptRel r none none
  | some {a b : β} : r a b → OptRel r (some a) (some b)

/-- Lists related elementwise. -/
inductive ListRel (r : β → β → Prop) : List β → List β → Prop
  | nil : ListRel r [] []
  | cons {a b : β} {as bs : List β} : r a b → ListRel r as bs → ListRel r (a :: as) (b :: bs)

theorem wp_ret {V R} {P : α → Prop} {a : α} (h : P a) : (Plan.ret a).wp V R P := h

theorem wp_visit {V R} {P : α → Prop} {k : Kind} {x : k.Val} {c : k.Val → Plan α} (h : V k x)
    (hc : ∀ y, R k x y → (c y).wp V R P) : (Plan.visit k x c).wp V R P := ⟨h, hc⟩

theorem wp_opt {V R} {P : α → Prop} {k : Kind} {x : Option k.Val} {c : Option k.Val → Plan α} (h : ∀ a ∈ x, V k a)
    (hc : ∀ y, OptRel (R k) x y → (c y).wp V R P) : (Plan.opt k x c).wp V R P := by
  cases x with
  | none => exact hc none .none
  | some a => exact ⟨h a rfl, fun b hb => hc _ (.some hb)⟩

theorem wp_list {V R} {P : α → Prop} {k : Kind} {x : List k.Val} {c : List k.Val → Plan α} (h : ∀ a ∈ x, V k a)
    (hc : ∀ y, ListRel (R k) x y → (c y).wp V R P) : (Plan.list k x c).wp V R P := by
  induction x generalizing c with
  | nil => exact hc [] .nil
  | cons a l ih =>
    exact ⟨h a (by simp), fun b hb => ih (fun a ha => h a (by simp [ha])) fun y hy => hc _ (.cons hb hy)⟩

theorem wp_listOpt {V R} {P : α → Prop} {k : Kind} {x : List (Option k.Val)} {c : List (Option k.Val) → Plan α}
    (h : ∀ a, some a ∈ x → V k a) (hc : ∀ y, ListRel (OptRel (R k)) x y → (c y).wp V R P) : (Plan.listOpt k x c).wp V R P := by
  induction x generalizing c with
  | nil => exact hc [] .nil
  | cons a l ih =>
    exact wp_opt (fun b hb => h b (by rw [← Option.mem_def.mp hb]; simp)) fun b hb =>
      ih (fun a ha => h a (by simp [ha])) fun y hy => hc _ (.cons hb hy)

theorem wp_optList {V R} {P : α → Prop} {k : Kind} {x : Option (List k.Val)} {c : Option (List k.Val) → Plan α}
    (h : ∀ l ∈ x, ∀ a ∈ l, V k a) (hc : ∀ y, OptRel (ListRel (R k)) x y → (c y).wp V R P) : (Plan.optList k x c).wp V R P := by
  cases x with
  | none => exact hc none .none
  | some l => exact wp_list (h l rfl) fun y hy => hc _ (.some hy)

/-- More fuel does not change a result. -/
theorem run_mono {σ : Type} {tr tr' : (k : Kind) → k.Val → σ → Option (k.Val × σ)}
    (h : ∀ k x s r, tr k x s = some r → tr' k x s = some r) {p : Plan α} {s : σ} {r : α × σ} (hr : p.run tr s = some r) :
    p.run tr' s = some r := by
  induction p generalizing s with
  | ret a => exact hr
  | visit k x c ih =>
    simp only [Plan.run] at hr ⊢
    cases hx : tr k x s with
    | none => rw [hx] at hr; cases hr
    | some y =>
      rw [hx] at hr
      rw [h _ _ _ _ hx]
      exact ih _ hr

/-- A plan whose visits end, ends. -/
theorem run_total {σ : Type} {tr : (k : Kind) → k.Val → σ → Option (k.Val × σ)} {V R} {P : α → Prop} {p : Plan α}
    (hp : p.wp V R P) (h : ∀ k x s, V k x → ∃ y s', tr k x s = some (y, s') ∧ R k x y) (s : σ) :
    ∃ a s', p.run tr s = some (a, s') ∧ P a := by
  induction p generalizing s with
  | ret a => exact ⟨a, s, rfl, hp⟩
  | visit k x c ih =>
    obtain ⟨y, s', h1, h2⟩ := h k x s hp.1
    obtain ⟨a, s'', h3, h4⟩ := ih y (hp.2 y h2) s'
    exact ⟨a, s'', by simp only [Plan.run, h1, h3], h4⟩

/-- The result of a plan that ends. -/
theorem run_rel {σ : Type} {tr : (k : Kind) → k.Val → σ → Option (k.Val × σ)} {V R} {P : α → Prop} {p : Plan α}
    (hp : p.wp V R P) (h : ∀ k x s y s', V k x → tr k x s = some (y, s') → R k x y) {s : σ} {a : α} {s' : σ}
    (hr : p.run tr s = some (a, s')) : P a := by
  induction p generalizing s with
  | ret b => cases hr; exact hp
  | visit k x c ih =>
    simp only [Plan.run] at hr
    cases hx : tr k x s with
    | none => rw [hx] at hr; cases hr
    | some y =>
      rw [hx] at hr
      exact ih _ (hp.2 _ (h _ _ _ _ _ hp.1 hx)) hr

end Plan

namespace MVisitor
variable {σ : Type} (v : MVisitor σ)

theorem traverse_succ (n : Nat) (k : Kind) (a : k.Val) (s : σ) : v.traverse (n + 1) k a s =
    match v.enter k a s with
    | (true, a, s) =>
      match (plan k a).run (v.traverse n) s with
      | some (a, s) => some (v.exit k a s)
      | none => none
    | (false, a, s) => some (v.exit k a s) := rfl

theorem traverse_mono_succ : ∀ (n : Nat) (k : Kind) (a : k.Val) (s : σ) (r : k.Val × σ), v.traverse n k a s = some r →
    v.traverse (n + 1) k a s = some r
  | 0, _, _, _, _, h => by cases h
  | n + 1, k, a, s, r, h => by
    rw [traverse_succ] at h ⊢
    rcases he : v.enter k a s with ⟨b, a', s'⟩
    rw [he] at h
    cases b with
    | false => exact h
    | true =>
      simp only at h ⊢
      cases hr : (plan k a').run (v.traverse n) s' with
      | none => rw [hr] at h; cases h
      | some x =>
        rw [hr] at h
        rw [Plan.run_mono (traverse_mono_succ n) hr]
        exact h

/-- More fuel does not change a result. -/
theorem traverse_mono {n m : Nat} (hnm : n ≤ m) {k : Kind} {a : k.Val} {s : σ} {r : k.Val × σ} (h : v.traverse n k a s = some r) :
    v.traverse m k a s = some r := by
  induction hnm with
  | refl => exact h
  | step _ ih => exact traverse_mono_succ v _ _ _ _ _ ih

/-- Termination and the relation between a node and what becomes of it. -/
theorem traverse_total (V : (k : Kind) → k.Val → Prop) (μ : (k : Kind) → k.Val → Nat) (R : (k : Kind) → k.Val → k.Val → Prop)
    (H : ∀ k a s, V k a → ∀ b a1 s1, v.enter k a s = (b, a1, s1) →
      (b = false → R k a (v.exit k a1 s1).1) ∧
      (b = true → (plan k a1).wp (fun j x => V j x ∧ μ j x < μ k a) R (fun a2 => ∀ s2, R k a (v.exit k a2 s2).1))) :
    ∀ n k (a : k.Val) s, V k a → μ k a < n → ∃ a' s', v.traverse n k a s = some (a', s') ∧ R k a a'
  | 0, _, _, _, _, h => absurd h (Nat.not_lt_zero _)
  | n + 1, k, a, s, hV, h => by
    rw [traverse_succ]
    rcases he : v.enter k a s with ⟨b, a1, s1⟩
    obtain ⟨h1, h2⟩ := H k a s hV b a1 s1 he
    cases b with
    | false => exact ⟨_, _, rfl, h1 rfl⟩
    | true =>
      obtain ⟨a2, s2, h3, h4⟩ := Plan.run_total (tr := v.traverse n) (h2 rfl)
        (fun j x s hx => traverse_total V μ R H n j x s hx.1 (by have := hx.2; omega)) s1
      exact ⟨_, _, by simp only [h3]; rfl, h4 s2⟩

/-- The relation between a node and what becomes of it, if the traversal ends. -/
theorem traverse_rel (V : (k : Kind) → k.Val → Prop) (R : (k : Kind) → k.Val → k.Val → Prop)
    (H : ∀ k a s, V k a → ∀ b a1 s1, v.enter k a s = (b, a1, s1) →
      (b = false → R k a (v.exit k a1 s1).1) ∧
      (b = true → (plan k a1).wp V R (fun a2 => ∀ s2, R k a (v.exit k a2 s2).1))) :
    ∀ n k (a : k.Val) s a' s', V k a → v.traverse n k a s = some (a', s') → R k a a'
  | 0, _, _, _, _, _, _, h => by cases h
  | n + 1, k, a, s, a', s', hV, h => by
    rw [traverse_succ] at h
    rcases he : v.enter k a s with ⟨b, a1, s1⟩
    rw [he] at h
    obtain ⟨h1, h2⟩ := H k a s hV b a1 s1 he
    cases b with
    | false =>
      simp only [Option.some.injEq] at h
      have := h1 rfl
      rw [h] at this
      exact this
    | true =>
      simp only at h
      cases hr : (plan k a1).run (v.traverse n) s1 with
      | none => rw [hr] at h; cases h
      | some r =>
        rw [hr] at h
        have := Plan.run_rel (h2 rfl) (fun j x s y s' hx => traverse_rel V R H n j x s y s' hx) hr r.2
        simp only [Option.some.injEq] at h
        rw [h] at this
        exact this

end MVisitor

end Fajt
