import Verif.Proofs.CodegenLength
import Verif.Spec.Ascii
/-!
# Minified code is contained in pretty code (C51)

C48 says that the two texts of a tree differ only in blanks, line feeds and semicolons.  C51 says in which direction: minifying only
leaves characters out (and writes a blank where the pretty text has a line feed), so minified code is never longer.
-/
set_option linter.unusedSectionVars false
namespace Fajt.Props
open Fajt Fajt.Gen

section
variable [UnicodeID]

/-- A line feed read as a blank, every other character as itself. -/
def unline (ch : Char) : Char := if ch = '\n' then ' ' else ch

theorem unline_layout (x : Char) (h : LayoutChar x) : unline x = unline ' ' := by
  rcases h with rfl | rfl <;> rfl

/-- **C51**. For every program, the characters of its minified text occur in its pretty text in the same order, where line feeds
count as blanks: minifying only leaves characters out, or turns a line feed into a blank. -/
theorem C51_minified_within_pretty (p : Program) :
    ((generateCode true p).map unline).Sublist ((generateCode false p).map unline) :=
  ((mini_text p).map unline).trans ((emb_program p).sublist unline_layout)

/-- **C51**. The same for the texts of a statement. -/
theorem C51_statement (s : Stmt) : ((generateStmt true s).map unline).Sublist ((generateStmt false s).map unline) :=
  (Stmt.gen_sim fit_sim s (fun _ _ => trivial) ⟨rfl, rfl⟩ fit_start).emb.sublist unline_layout

/-- **C51**. The same for the texts of an expression. -/
theorem C51_expression (e : Expr) : ((generateExpr true e).map unline).Sublist ((generateExpr false e).map unline) :=
  (Expr.gen_sim fit_sim e (fun _ _ => trivial) ⟨rfl, rfl⟩ fit_start).emb.sublist unline_layout

theorem byteLen_unline (s : Str) : byteLen (s.map unline) = byteLen s := by
  unfold byteLen
  rw [List.map_map]
  congr 1
  refine List.map_congr_left fun ch _ => ?_
  simp only [Function.comp, unline]
  split
  · next h => rw [h]; rfl
  · rfl

theorem byteLen_sublist {a b : Str} (h : a.Sublist b) : byteLen a ≤ byteLen b := by
  induction h with
  | slnil => exact Nat.le_refl _
  | cons x _ ih =>
    refine Nat.le_trans ih ?_
    simp [byteLen]
  | cons_cons x _ ih => simpa [byteLen] using ih

/-- **C51**. Minified code is never longer than pretty code, in characters. -/
theorem C51_not_longer (p : Program) : (generateCode true p).length ≤ (generateCode false p).length := by
  simpa using (C51_minified_within_pretty p).length_le

/-- **C51**. Minified code is never longer than pretty code, in bytes: the size of the written file. -/
theorem C51_not_larger (p : Program) : byteLen (generateCode true p) ≤ byteLen (generateCode false p) := by
  have := byteLen_sublist (C51_minified_within_pretty p)
  rwa [byteLen_unline, byteLen_unline] at this

end

section
attribute [local instance] asciiID

/-- `throw a`, then `b` (an expression statement). -/
private def throwThenB : Program where
  sourceType := .script
  span := ⟨0, 9⟩
  directives := []
  body := [.throw ⟨0, 7⟩ (.ident ⟨⟨6, 7⟩, c!"a"⟩), .expr ⟨8, 9⟩ (.ident ⟨⟨8, 9⟩, c!"b"⟩)]

/-- The line feed must count as a blank: minified code writes a blank between a `throw` statement and the next statement, where
pretty code has a line feed. -/
theorem C51_line_feed_becomes_blank :
    generateCode true throwThenB = c!"throw a b" ∧ generateCode false throwThenB = c!"throw a\nb;\n" ∧
    ¬ (generateCode true throwThenB).Sublist (generateCode false throwThenB) := by
  refine ⟨by decide +kernel, by decide +kernel, by decide +kernel⟩

/-- `if (a) { b; }`. -/
private def ifBlock : Program where
  sourceType := .script
  span := ⟨0, 13⟩
  directives := []
  body := [.«if» ⟨0, 13⟩ (.ident ⟨⟨4, 5⟩, c!"a"⟩) (.block (.mk ⟨7, 13⟩ [.expr ⟨9, 11⟩ (.ident ⟨⟨9, 10⟩, c!"b"⟩)])) none]

example : generateCode true ifBlock = c!"if(a){b}" ∧ generateCode false ifBlock = c!"if (a)\n    {\n        b;\n    }\n" := by
  refine ⟨by decide +kernel, by decide +kernel⟩
end

end Fajt.Props
