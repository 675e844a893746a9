import Verif.Proofs.ParseModule
/-!
# All functions together
-/
namespace Fajt
open Spec
set_option linter.unusedSectionVars false
variable [UnicodeID] [Blame]

section
variable {src : Str} {styp : SourceType} {n K K' : Nat} {x : Option Ctx} {s : PState} {p : Cursor}

theorem Hist.refuel {n' K'' : Nat} {c : Bool} {hs : List Token} {s' : PState} {p' : Cursor} (h : Hist ⟨src, styp, n, K, x, s, p⟩ c hs s' p') :
    Hist ⟨src, styp, n', K'', x, s, p⟩ c hs s' p' := ⟨h.at0, h.at1, h.chain, h.first, h.pos⟩

theorem ErrPost.refuel {n' K'' : Nat} {e : PErr} {s' : PState} (h : ErrPost ⟨src, styp, n, K, x, s, p⟩ e s') :
    ErrPost ⟨src, styp, n', K'', x, s, p⟩ e s' := by
  refine ⟨h.kept, h.span, fun a ha => ?_⟩
  obtain ⟨pre, ts, ctx, p', h1, h2, h3, h4, h5⟩ := h.arrow a ha
  exact ⟨pre, ts, ctx, p', h1.refuel, h2, h3, h4, h5⟩

theorem J.lift {α : Type} {m : P α} {Q Q' : α → PState → Prop} (h : J ⟨src, styp, n, K, x, s, p⟩ m s Q) (hK : K < K')
    (hQ : ∀ a s', Q a s' → Q' a s') : J ⟨src, styp, n + 1, K', x, s, p⟩ m s Q' := by
  unfold J at h ⊢
  cases hm : m s <;> rw [hm] at h
  · exact hQ _ _ h
  · exact ErrPost.refuel h
  · exact h
  · have h' : n < 8 * (byteLen src + 1 - p.pos) + K := h
    show n + 1 < 8 * (byteLen src + 1 - p.pos) + K'
    omega

theorem Post.refuel {α : Type} {Q : α → List Token → PState → Prop} {a : α} {s' : PState} {n' K'' : Nat}
    (h : Post ⟨src, styp, n, K, x, s, p⟩ Q a s') : Post ⟨src, styp, n', K'', x, s, p⟩ Q a s' := by
  obtain ⟨ts, p', h1, h2, h3⟩ := h
  exact ⟨ts, p', h1, h2.refuel, h3⟩

theorem Does.lift {α : Type} {m : P α} {Q : α → List Token → PState → Prop} (h : Does src styp n K x m Q) (hK : K < K') :
    Does src styp (n + 1) K' x m Q := fun s p hp => (h s p hp).lift hK fun _ _ h => Post.refuel h

theorem Does.oof {α : Type} {Q : α → List Token → PState → Prop} (hK : 0 < K) : Does src styp 0 K x (M.oof : P α) Q := by
  intro s p _
  show 0 < 8 * (byteLen src + 1 - p.pos) + K
  omega

/-- Every entry point of the parser does what is expected of it. -/
theorem mkRec_ok (src : Str) (styp : SourceType) (n : Nat) : RecOK src styp n (mkRec n) := by
  induction n with
  | zero =>
    refine ⟨rfl, fun _ _ => Does.oof (by omega), ?_, ?_, fun _ => Does.oof (by omega), fun _ => Does.oof (by omega), fun _ => Does.oof (by omega),
      fun _ => Does.oof (by omega), fun _ => Does.oof (by omega)⟩ <;>
    · intros
      show 0 < 8 * (byteLen src + 1 - _) + 1
      omega
  | succ n ih =>
    refine ⟨rfl, fun ctx x => Does.lift (bindingPattern_P ih ctx x) (by omega), ?_, ?_, fun ctx => Does.lift (newOrMember_D ih ctx) (by omega),
      fun ctx => Does.lift (unary_P ih ctx) (by omega), fun ctx => Does.lift (assignExpr_P ih ctx) (by omega),
      fun ctx => Does.lift (stmt_P ih ctx) (by omega), fun ctx => Does.lift (declOrStmt_P ih ctx) (by omega)⟩
    · intro ctx x s p hp hsp
      exact (assignPattern_D ih ctx x s p hp hsp).lift (by omega) fun _ _ h => h.refuel
    · intro ctx x s p hp
      refine (declaration_D ih ctx x s p hp).lift (by omega) ?_
      intro a s' h
      cases a with
      | none => exact h
      | some d => exact Post.refuel h

end
end Fajt
