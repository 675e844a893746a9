import Verif.Model.Cli
import Verif.Spec.Ascii
/-!
# Properties of the command line tool (C46)
-/
set_option linter.unusedSectionVars false
namespace Fajt.Props
open Fajt Fajt.Cli
variable [UnicodeID]

theorem endsWith_iff (s suffix : Str) : endsWith s suffix = true ↔ ∃ stem, s = stem ++ suffix := by
  unfold endsWith
  rw [List.isPrefixOf_iff_prefix, List.reverse_prefix]
  constructor
  · rintro ⟨stem, h⟩; exact ⟨stem, h.symm⟩
  · rintro ⟨stem, h⟩; exact ⟨stem, h.symm⟩

/-- **C46**, mode. A file is parsed as a module iff its name ends with `.mjs` or `.module.js`. -/
theorem C46_module_iff (fileName : Str) :
    isModule fileName = true ↔ ∃ stem, fileName = stem ++ c!".mjs" ∨ fileName = stem ++ c!".module.js" := by
  simp only [isModule, Bool.or_eq_true, endsWith_iff]
  constructor
  · rintro (⟨s, h⟩ | ⟨s, h⟩)
    · exact ⟨s, .inl h⟩
    · exact ⟨s, .inr h⟩
  · rintro ⟨s, h | h⟩
    · exact .inl ⟨s, h⟩
    · exact .inr ⟨s, h⟩

/-- The parser the tool uses for a file name. -/
def parserFor (fileName source : Str) : Res PState PErr Program :=
  if isModule fileName then Parser.parseModule source else Parser.parseScript source

/-- **C46**, acceptance. The tool ends with exit code 0 exactly when the file can be read and its content is accepted by the parser for
its kind; `--check` then prints `Parsed successfully!` and `--format` the generated code, and nothing goes to the error stream. -/
theorem C46_success (d : DebugFmt) (sh : Program → Str) (readFile : Str → Option Str) (args : Args) (out err : Str) :
    Cli.main d sh readFile args = .exit 0 out err ↔
      ∃ source p s, readFile args.fileName = some source ∧ parserFor args.fileName source = .ok p s ∧ err = [] ∧
        out = if args.check then c!"Parsed successfully!\n"
              else match args.format with
                | some f => generateCode (f = c!"minified") p ++ c!"\n"
                | none => sh p ++ c!"\n" := by
  unfold Cli.main parserFor
  cases hr : readFile args.fileName with
  | none => simp
  | some source =>
    simp only
    cases hp : (if isModule args.fileName = true then Parser.parseModule source else Parser.parseScript source) with
    | ok p s =>
      constructor
      · intro h
        refine ⟨source, p, s, rfl, hp, ?_⟩
        cases hc : args.check <;> simp only [hc, Bool.false_eq_true, if_true, if_false] at h ⊢
        · split at h <;> cases h <;> simp_all
        · cases h; exact ⟨rfl, rfl⟩
      · rintro ⟨_, p', s', h1, h2, rfl, rfl⟩
        cases h1
        rw [hp] at h2
        cases h2
        cases hc : args.check <;> simp only [Bool.false_eq_true, if_true, if_false]
        cases args.format <;> rfl
    | err e s =>
      simp only
      constructor
      · intro h
        split at h <;> cases h
      · rintro ⟨_, p', s', h1, h2, _⟩
        cases h1
        rw [hp] at h2
        cases h2
    | panic w =>
      simp only [reduceCtorEq, false_iff]
      rintro ⟨_, p', s', h1, h2, _⟩
      cases h1
      rw [hp] at h2
      cases h2
    | oof =>
      simp only [reduceCtorEq, false_iff]
      rintro ⟨_, p', s', h1, h2, _⟩
      cases h1
      rw [hp] at h2
      cases h2

/-- **C46**, rejection. When the parser rejects the content and the error can be displayed, the tool prints the report of the error to the
error stream, nothing to standard output, and ends with exit code 1. -/
theorem C46_failure (d : DebugFmt) (sh : Program → Str) (readFile : Str → Option Str) (args : Args) (source text : Str) (e : PErr)
    (s : PState) (hr : readFile args.fileName = some source) (hp : parserFor args.fileName source = .err e s)
    (he : Emitter.emit d args.fileName source e = some text) :
    Cli.main d sh readFile args = .exit 1 [] text := by
  unfold parserFor at hp
  unfold Cli.main
  simp only [hr, hp, he]

/-- Concrete runs: an accepted and a rejected file. -/
example : letI := asciiID
    Cli.main ⟨fun _ => [], fun _ => []⟩ (fun _ => []) (fun f => if f = c!"a.js" then some c!"a;" else none)
      { fileName := c!"a.js", format := some c!"minified" } = .exit 0 c!"a\n" [] := by decide +kernel
example : letI := asciiID
    Cli.main ⟨fun _ => [], fun _ => []⟩ (fun _ => []) (fun _ => some c!")") { fileName := c!"a.js" }
      = .exit 1 [] c!"Syntax error: Unexpected token `)`\n --> a.js:1:1\n  |\n1 | )\n  | ^ Unexpected token\n" := by
  decide +kernel

end Fajt.Props
