import Verif.Proofs.ParseRules
import Verif.Proofs.GrammarFacts
/-!
# What the mutually recursive parse functions guarantee, and rules for lists
-/
namespace Fajt
open Spec
set_option linter.unusedSectionVars false
variable [UnicodeID] [Blame]

/-- The function reads at least one token, and the tokens are derived from the grammar symbol. -/
def Parses {α : Type} (src : Str) (styp : SourceType) (n K : Nat) (x : Option Ctx) (m : P α) (ctx : Ctx) (g : α → GNode) : Prop :=
  Does src styp n K x m fun a ts _ => G src styp ctx (g a) ts

/-- The result of a function that reads any number of tokens. -/
def Post {α : Type} (F : Frame) (Q : α → List Token → PState → Prop) (a : α) (s' : PState) : Prop :=
  ∃ ts p', ts ≠ [] ∧ Hist F true ts s' p' ∧ Q a ts s'

/-- `[` or `{`. -/
def StartsPattern (s : PState) : Prop :=
  ∀ t, s.cur = .ok t → t.value = .punct p!"[" ∨ t.value = .punct p!"{"

/-- The tokens after which a member expression goes on. -/
def NoMember (s : PState) : Prop :=
  valOf s ≠ some (.punct p!".") ∧ valOf s ≠ some (.punct p!"[") ∧ (∀ v, valOf s ≠ some (.templateHead v)) ∧
    ∀ v, valOf s ≠ some (.lit (.template v))

/-- What the recursive calls guarantee. -/
structure RecOK (src : Str) (styp : SourceType) (n : Nat) (r : Rec) : Prop where
  fuel : r.fuel = n
  bindingPattern : ∀ ctx x, Parses src styp n 1 x (r.bindingPattern ctx) ctx .binding
  assignPattern : ∀ ctx x s p, At src styp s p → StartsPattern s →
    J ⟨src, styp, n, 1, x, s, p⟩ (r.assignPattern ctx) s
      (Post ⟨src, styp, n, 1, x, s, p⟩ fun a ts _ => G src styp ctx (.assignPattern a) ts)
  declaration : ∀ ctx x s p, At src styp s p →
    J ⟨src, styp, n, 1, x, s, p⟩ (r.declaration ctx) s fun a s' => match a with
      | none => s' = s
      | some d => Post ⟨src, styp, n, 1, x, s, p⟩ (fun d ts _ => G src styp ctx (.decl d) ts) d s'
  newOrMember : ∀ ctx, Does src styp n 2 (some ctx) (r.newOrMember ctx) fun e ts s' =>
    (G src styp ctx (.expr 20 e) ts ∨ G src styp ctx (.newE e) ts ∧ valOf s' ≠ some (.punct p!"(")) ∧ NoMember s'
  unary : ∀ ctx, Parses src styp n 3 (some ctx) (r.unary ctx) ctx (.expr 15)
  assignExpr : ∀ ctx, Parses src styp n 4 none (r.assignExpr ctx) ctx (.expr 1)
  stmt : ∀ ctx, Parses src styp n 5 none (r.stmt ctx) ctx .stmt
  declOrStmt : ∀ ctx, Parses src styp n 6 none (r.declOrStmt ctx) ctx .item

/-! ## Lists -/

section
variable {F : Frame} {α β : Type} {s : PState}

theorem At.start {src : Str} {styp : SourceType} {p : Cursor} (h : At src styp s p) {n K : Nat} {x : Option Ctx} :
    Hist ⟨src, styp, n, K, x, s, p⟩ true [] s p := h.hist

theorem Hist.assoc {c : Bool} {p : Cursor} {a b d : List Token} (h : Hist F c (a ++ b ++ d) s p) : Hist F c (a ++ (b ++ d)) s p := by
  rw [← List.append_assoc]; exact h

/-- The items of a list that were read after `pre`. -/
def SepInv (P : α → List Token → Prop) (close : TokVal) (pre : List Token) (acc : List α) (hs : List Token) (s : PState) : Prop :=
  ∃ b ps us, hs = pre ++ us ∧ acc = trees ps ∧ (∀ p ∈ ps, P p.1 p.2) ∧ Sep b ps us ∧ (b = true ∨ valOf s = some close)

theorem SepInv.nil {P : α → List Token → Prop} {close : TokVal} {pre : List Token} : SepInv P close pre [] pre s :=
  ⟨true, [], [], by simp, rfl, by simp, .nil, .inl rfl⟩

theorem SepInv.open {P : α → List Token → Prop} {close : TokVal} {pre : List Token} {acc : List α} {hs : List Token}
    (h : SepInv P close pre acc hs s) (hv : valOf s ≠ some close) :
    ∃ ps us, hs = pre ++ us ∧ acc = trees ps ∧ (∀ p ∈ ps, P p.1 p.2) ∧ Sep true ps us := by
  obtain ⟨b, ps, us, h1, h2, h3, h4, h5⟩ := h
  rcases h5 with rfl | h5
  · exact ⟨ps, us, h1, h2, h3, h4⟩
  · exact absurd h5 hv

theorem trees_snoc (ps : List (α × List Token)) (a : α) (us : List Token) : trees (ps ++ [(a, us)]) = trees ps ++ [a] := by
  simp [trees]

theorem toks_snoc (ps : List (α × List Token)) (a : α) (us : List Token) : toks (ps ++ [(a, us)]) = toks ps ++ us := by
  simp [toks]

theorem all_snoc {P : α → List Token → Prop} {ps : List (α × List Token)} {a : α} {us : List Token}
    (h : ∀ p ∈ ps, P p.1 p.2) (ha : P a us) : ∀ p ∈ ps ++ [(a, us)], P p.1 p.2 := by
  intro p hp
  rcases List.mem_append.1 hp with hp | hp
  · exact h p hp
  · rw [List.mem_singleton.1 hp]; exact ha

/-- The end of an item: a comma or the closing token. -/
theorem J.listItem {P : α → List Token → Prop} {close : TokVal} {pre hs us : List Token} {acc : List α} {a : α} {p : Cursor}
    {s1 : PState} {Q : β → PState → Prop}
    (hi : SepInv P close pre acc hs s1) (hv : valOf s1 ≠ some close) (h : Hist F true (hs ++ us) s p) (hne : us ≠ [])
    (ha : P a us) :
    J F (Parser.consumeListDelimiter close >>= fun _ => Pure.pure (.inl (acc ++ [a]))) s
      (LoopPost F hs (SepInv P close pre) Q) := by
  obtain ⟨ps, vs, h1, h2, h3, h4⟩ := hi.open hv
  have hl : 0 < us.length := List.length_pos_iff.2 hne
  refine J.bind (J.consumeListDelimiter h ?_ ?_)
  · intro t s' p' ht h'
    refine J.again h' (by simp <;> omega) ⟨true, ps ++ [(a, us)], (vs ++ us) ++ [t], ?_, ?_, all_snoc h3 ha, .comma (.item h4) ht, .inl rfl⟩
    · rw [h1]; simp
    · rw [h2, trees_snoc]
  · intro hc
    refine J.again h (by simp; omega) ⟨false, ps ++ [(a, us)], vs ++ us, ?_, ?_, all_snoc h3 ha, .item h4, .inr hc⟩
    · rw [h1]; simp
    · rw [h2, trees_snoc]

/-- A list of any items without separators that were read after `pre`. -/
def ManyInv (P : α → List Token → Prop) (pre : List Token) (acc : List α) (hs : List Token) (_ : PState) : Prop :=
  ∃ ps, hs = pre ++ toks ps ∧ acc = trees ps ∧ ∀ p ∈ ps, P p.1 p.2

theorem ManyInv.nil {P : α → List Token → Prop} {pre : List Token} : ManyInv P pre [] pre s :=
  ⟨[], by simp [toks], rfl, by simp⟩

theorem ManyInv.snoc {P : α → List Token → Prop} {pre hs us : List Token} {acc : List α} {a : α} {s' : PState}
    (h : ManyInv P pre acc hs s) (ha : P a us) : ManyInv P pre (acc ++ [a]) (hs ++ us) s' := by
  obtain ⟨ps, h1, h2, h3⟩ := h
  exact ⟨ps ++ [(a, us)], by rw [h1, toks_snoc]; simp, by rw [h2, trees_snoc], all_snoc h3 ha⟩

theorem J.againSnoc {Inv : β → List Token → PState → Prop} {Q : α → PState → Prop} {b : β} {p : Cursor} {hs us : List Token}
    (h : Hist F true (hs ++ us) s p) (hne : us ≠ []) (hi : Inv b (hs ++ us) s) :
    J F (Pure.pure (.inl b)) s (LoopPost F hs Inv Q) :=
  J.again h (by have : 0 < us.length := List.length_pos_iff.2 hne; simp; omega) hi

end

end Fajt
