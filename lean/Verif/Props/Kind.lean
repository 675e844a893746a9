import Verif.Proofs.KindSim
import Verif.Props.Parser
import Verif.Props.Serde
/-!
# Scripts and modules (C60)

The kind of the source decides three things only: whether html comments are comments, whether `import` and `export` may start a statement,
and what the tree says about its kind.  In particular module code is not strict, and `await` is a name in it, unlike in ECMAScript.
-/
set_option linter.unusedSectionVars false
namespace Fajt.Props
open Fajt Spec Fajt.Kind
section
variable [UnicodeID]

/-- **C60**, when a text is plain: it has neither `<!` nor `-->`, neither the text `import` nor `export`, and no backslash (with which the two
words could be spelled otherwise). -/
theorem C60_plain (src : Str) (h1 : ¬ c!"<!" <:+: src) (h2 : ¬ c!"-->" <:+: src) (h3 : ¬ c!"import" <:+: src) (h4 : ¬ c!"export" <:+: src)
    (h5 : '\\' ∉ src) : PlainSource src := by
  refine ⟨h1, h2, fun w n hw hs => ?_⟩
  obtain rfl : w = n := spells_plain hs fun h => h5 (hw.subset h)
  exact ⟨fun e => h3 (e ▸ hw), fun e => h4 (e ▸ hw)⟩

/-- **C60**: a plain source is accepted as a script exactly if it is accepted as a module, and the trees differ in the kind of the source
only. -/
theorem C60_accepted (src : Str) (h : PlainSource src) (p : Program) :
    (Accepts .script src p → Accepts .module src { p with sourceType := .module }) ∧
    (Accepts .module src p → Accepts .script src { p with sourceType := .script }) := by
  constructor
  · intro ha
    have key := program_same h .script .module
    cases ha with
    | script hp =>
      rw [show Parser.parse Parser.program src .script = _ from hp] at key
      cases hq : Parser.parse Parser.program src .module with
      | ok q t => rw [hq] at key; obtain ⟨-, rfl⟩ := key; exact .module hq
      | _ => rw [hq] at key; exact key.elim
  · intro ha
    have key := program_same h .module .script
    cases ha with
    | module hp =>
      rw [show Parser.parse Parser.program src .module = _ from hp] at key
      cases hq : Parser.parse Parser.program src .script with
      | ok q t => rw [hq] at key; obtain ⟨-, rfl⟩ := key; exact .script hq
      | _ => rw [hq] at key; exact key.elim

/-- **C60**: a plain source is rejected as a script exactly if it is rejected as a module, with the same error, and the same panics occur. -/
theorem C60_rejected (src : Str) (h : PlainSource src) :
    (∀ e, (∃ s, Parser.parseScript src = .err e s) ↔ ∃ s, Parser.parseModule src = .err e s) ∧
    (∀ w, Parser.parseScript src = .panic w ↔ Parser.parseModule src = .panic w) := by
  have key := program_same h .script .module
  unfold Parser.parseScript Parser.parseModule
  revert key
  cases Parser.parse Parser.program src .script <;> cases Parser.parse Parser.program src .module <;> intro key <;>
    first | exact key.elim | (cases key; simp) | simp

/-- **C60** with C20: a plain ASCII source does not panic as a module either. -/
theorem C60_module_no_panic (src : Str) (h : PlainSource src) (ha : Ascii src) (w : Str) : Parser.parseModule src ≠ .panic w :=
  fun hw => C20_script_no_panic src ha w (((C60_rejected src h).2 w).2 hw)

/-- What two runs for an expression or a statement have in common: the tree or the error. -/
def SameTrees {T : Type} : Res PState PErr T → Res PState PErr T → Prop
  | .ok x _, .ok y _ => x = y
  | .err e _, .err e' _ => e = e'
  | .panic w, .panic w' => w = w'
  | .oof, .oof => True
  | _, _ => False

theorem ResR.trees {T : Type} {R : PState → PState → Prop} {Q : T → Prop} {x y : Res PState PErr T} (h : ResR R Q x y) : SameTrees x y := by
  revert h
  cases x <;> cases y <;> intro h <;> first | exact h.elim | exact h.1 | exact h | trivial

/-- **C60** for the other entry points: an expression or a statement with a plain text is parsed alike in scripts and modules. -/
theorem C60_parts (src : Str) (h : PlainSource src) :
    SameTrees (Parser.parseExpr src .script) (Parser.parseExpr src .module) ∧
    SameTrees (Parser.parseStmt src .script) (Parser.parseStmt src .module) :=
  ⟨ResR.trees (parse_agree (fun hr => expr_agree hr) h), ResR.trees (parse_agree (fun hr => declOrStmt_agree hr) h)⟩

end

section
attribute [local instance] asciiID

/-- The source is accepted. -/
def kindAccepted {T : Type} : Res PState PErr T → Bool
  | .ok .. => true
  | _ => false

/-- A plain source with a class, a template and a regular expression. -/
def kindSource : Str := c!"class A extends B { m() { return `a${b}`; } }\n/x-/.test(await);"

theorem kindSource_plain : PlainSource kindSource :=
  C60_plain _ (by decide +kernel) (by decide +kernel) (by decide +kernel) (by decide +kernel) (by decide +kernel)

example : kindAccepted (Parser.parseScript kindSource) = true := by decide +kernel
example : kindAccepted (Parser.parseModule kindSource) = true := by decide +kernel

/-- **C60**, each condition of `PlainSource` matters: html comments, `import` and `export`. -/
theorem C60_differences :
    kindAccepted (Parser.parseScript c!"<!-- a") = true ∧ kindAccepted (Parser.parseModule c!"<!-- a") = false ∧
    kindAccepted (Parser.parseScript c!"a\n--> b") = true ∧ kindAccepted (Parser.parseModule c!"a\n--> b") = false ∧
    kindAccepted (Parser.parseScript c!"import 'a'") = false ∧ kindAccepted (Parser.parseModule c!"import 'a'") = true ∧
    kindAccepted (Parser.parseScript c!"export { a }") = false ∧ kindAccepted (Parser.parseModule c!"export { a }") = true := by decide +kernel

/-- **C60** departure from ECMAScript, where module code is strict and `await` is reserved in it: these modules are accepted. -/
theorem C60_module_not_strict_counterexample :
    kindAccepted (Parser.parseModule c!"delete a") = true ∧ kindAccepted (Parser.parseScript c!"'use strict'; delete a") = false ∧
    kindAccepted (Parser.parseModule c!"eval = 1") = true ∧ kindAccepted (Parser.parseScript c!"'use strict'; eval = 1") = false ∧
    kindAccepted (Parser.parseModule c!"var yield") = true ∧ kindAccepted (Parser.parseScript c!"'use strict'; var yield") = false ∧
    kindAccepted (Parser.parseModule c!"var await") = true := by decide +kernel

end
end Fajt.Props
