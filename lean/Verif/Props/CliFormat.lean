import Verif.Props.Cli
import Verif.Props.RoundTrip
/-!
# Formatting what the tool has formatted (C46)

The output of `fajt --format ..` is the generated code and a line feed.  When it is written to a file of the same kind and the tool is run again, with
any format, the result is what the first run would have printed with that format.  As for C44 the tokens of the tree have to fit.
-/
set_option linter.unusedSectionVars false
namespace Fajt.Props
open Fajt Fajt.Cli Spec

section
variable [UnicodeID]

theorem accepts_iff {fileName source : Str} {p : Program} :
    Accepts (if isModule fileName then .module else .script) source p ↔ ∃ s, parserFor fileName source = .ok p s := by
  unfold parserFor
  cases isModule fileName
  · simp only [Bool.false_eq_true, if_false]
    exact ⟨fun h => by cases h; exact ⟨_, ‹_›⟩, fun ⟨s, h⟩ => .script h⟩
  · simp only [if_true]
    exact ⟨fun h => by cases h; exact ⟨_, ‹_›⟩, fun ⟨s, h⟩ => .module h⟩

/-- **C46**, formatting twice. The tool has been run with `--format f` and printed `out`, and the tokens of the tree of the file fit.  Then, for a
file of the same kind with the contents `out`, the tool prints with `--format g` exactly what it prints with `--format g` for the
first file: if `f` and `g` are the same, this is `out` again. -/
theorem C46_format_again (d : DebugFmt) (sh : Program → Str) (readFile readFile' : Str → Option Str) (file file' f g source out err : Str)
    (hr : readFile file = some source) (hk : isModule file' = isModule file) (hr' : readFile' file' = some out)
    (hf : ∀ p s, parserFor file source = .ok p s → Print.Fits (f = c!"minified") p.items)
    (h : Cli.main d sh readFile { fileName := file, format := some f } = .exit 0 out err) :
    Cli.main d sh readFile' { fileName := file', format := some g } = Cli.main d sh readFile { fileName := file, format := some g } := by
  obtain ⟨source', p, s, h1, h2, rfl, h3⟩ := (C46_success ..).1 h
  simp only [Bool.false_eq_true, if_false] at h3
  cases hr.symm.trans h1
  obtain ⟨p', h4, h5⟩ := C44_round_trip_blanks (blanks := ['\n']) (accepts_iff.2 ⟨s, h2⟩) (hf p s h2) (by simp)
  rw [← hk] at h4
  obtain ⟨s', h6⟩ := accepts_iff.1 h4
  have e1 := (C46_success d sh readFile' { fileName := file', format := some g } (generateCode (g = c!"minified") p ++ c!"\n") []).2
    ⟨_, p', s', hr', by rw [h3]; exact h6, rfl, by simp only [Bool.false_eq_true, if_false]; rw [C50_spans_irrelevant h5]⟩
  have e2 := (C46_success d sh readFile { fileName := file, format := some g } (generateCode (g = c!"minified") p ++ c!"\n") []).2
    ⟨_, p, s, hr, h2, rfl, by simp⟩
  rw [e1, e2]

/-- **C46**, checking formatted code. `--check` succeeds for what `--format` has printed. -/
theorem C46_check_formatted (d : DebugFmt) (sh : Program → Str) (readFile readFile' : Str → Option Str) (file file' f source out err : Str)
    (format : Option Str) (hr : readFile file = some source) (hk : isModule file' = isModule file) (hr' : readFile' file' = some out)
    (hf : ∀ p s, parserFor file source = .ok p s → Print.Fits (f = c!"minified") p.items)
    (h : Cli.main d sh readFile { fileName := file, format := some f } = .exit 0 out err) :
    Cli.main d sh readFile' { check := true, fileName := file', format } = .exit 0 c!"Parsed successfully!\n" [] := by
  have h0 := C46_format_again d sh readFile readFile' file file' f f source out err hr hk hr' hf h
  rw [h] at h0
  obtain ⟨source', p, s, h1, h2, -, -⟩ := (C46_success ..).1 h0
  exact (C46_success ..).2 ⟨source', p, s, h1, h2, rfl, by simp⟩

end

section
attribute [local instance] asciiID

/-- Concrete case: a file that is not formatted, its minified code, and the code with indentation of both. -/
example : (match parserFor c!"a.js" c!"if (a)  { b( 1,2 ) ; }\nvar c = d in e" with
  | .ok p _ => Print.fits true p.items && Print.fits false p.items && generateCode true p != generateCode false p &&
      generateCode false p != c!"if (a)  { b( 1,2 ) ; }\nvar c = d in e"
  | _ => false) = true := by decide +kernel

/-- Without the condition that the tokens fit the tool does not accept its own output. -/
theorem C46_format_counterexample :
    Cli.main ⟨fun _ => [], fun _ => []⟩ (fun _ => []) (fun _ => some c!"a - -b") { fileName := c!"a.js", format := some c!"minified" }
      = .exit 0 c!"a--b\n" [] ∧
    Cli.main ⟨fun _ => [], fun _ => []⟩ (fun _ => []) (fun _ => some c!"a--b\n") { fileName := c!"a.js", check := true } ≠
      .exit 0 c!"Parsed successfully!\n" [] := by decide +kernel

end
end Fajt.Props
