import Verif.Proofs.PrintAgain
import Verif.Proofs.PrintCheck
import Verif.Proofs.CodegenStrip
import Verif.Props.Complete
import Verif.Spec.Ascii
/-!
# Printing and parsing back (C44)

The code generated for a program is parsed back to the same program if its tokens fit (`Spec.Printed`, `Spec.Fits`).  The text
generated for an accepted program does not always parse back: each counterexample gives a source, the text generated for it,
and what is wrong with that text.
-/
namespace Fajt.Props
open Fajt Fajt.Parser

/-- The result of parsing this source, as a script or as a module, apart from the spans. -/
def Yields [UnicodeID] (sty : SourceType) (source : Str) (p : Program) : Prop :=
  ∃ p', Accepts sty source p' ∧ p'.strip = p.strip

/-- **C44**.  As `C44_round_trip`, when blanks and line feeds have been appended to the code (as `println!` does). -/
theorem C44_round_trip_blanks [UnicodeID] {source blanks : Str} {sty : SourceType} {p : Program} {minified : Bool}
    (h : Accepts sty source p) (hf : Print.Fits minified p.items) (hb : ∀ c ∈ blanks, c = ' ' ∨ c = '\n') :
    Yields sty (generateCode minified p ++ blanks) p := by
  obtain ⟨ts, h1, h2⟩ := h.sound
  have h3 : p.sourceType = sty := h.sourceType
  obtain ⟨p', h4, h5⟩ := Print.program_again (Print.source_real h1) (fun h => h) h3 h2 hf hb
  obtain ⟨st, h6⟩ := C49_programs h5
  refine ⟨p', ?_, h4⟩
  cases sty with
  | script => exact .script h6
  | module => exact .module h6

/-- **C44**.  Take the tree `p` of an accepted source, a script or a module.  If the tokens of the tree fit (with or without
minification), then the code that is generated for the tree is accepted, and the result is `p`, except for the spans. -/
theorem C44_round_trip [UnicodeID] {source : Str} {sty : SourceType} {p : Program} {minified : Bool} (h : Accepts sty source p)
    (hf : Print.Fits minified p.items) : Yields sty (generateCode minified p) p := by
  have := C44_round_trip_blanks h hf (blanks := []) nofun
  rwa [List.append_nil] at this

/-- **C44**, with a test for `Fits` that is a computation. -/
theorem C44_round_trip_checked [UnicodeID] {source : Str} {sty : SourceType} {p : Program} {minified : Bool} (h : Accepts sty source p)
    (hf : Print.fits minified p.items = true) : Yields sty (generateCode minified p) p :=
  C44_round_trip h (Print.fits_spec hf)

/-- **C44**.  Printing, parsing and printing again gives the same text. -/
theorem C44_stable [UnicodeID] {source : Str} {sty : SourceType} {p : Program} {minified : Bool} (h : Accepts sty source p)
    (hf : Print.Fits minified p.items) :
    ∃ p', Accepts sty (generateCode minified p) p' ∧ generateCode minified p' = generateCode minified p := by
  obtain ⟨p', h1, h2⟩ := C44_round_trip h hf
  exact ⟨p', h1, generateCode_strip h2⟩

/-- **C44**.  Nothing is lost by minification: printing the parsed minified code with indentation gives the text that is
printed for the tree itself. -/
theorem C44_minified_and_back [UnicodeID] {source : Str} {sty : SourceType} {p : Program} (h : Accepts sty source p)
    (hf : Print.Fits true p.items) :
    ∃ p', Accepts sty (generateCode true p) p' ∧ generateCode false p' = generateCode false p := by
  obtain ⟨p', h1, h2⟩ := C44_round_trip h hf
  exact ⟨p', h1, generateCode_strip h2⟩

/-- **C50**.  Two trees that differ only in their spans give the same code, with and without minification. -/
theorem C50_spans_irrelevant [UnicodeID] {p q : Program} (h : p.strip = q.strip) (minified : Bool) :
    generateCode minified p = generateCode minified q :=
  generateCode_strip h

/-- **C50**.  Erasing all spans does not change the code. -/
theorem C50_erased [UnicodeID] (p : Program) (minified : Bool) : generateCode minified p.strip = generateCode minified p :=
  generateCode_erased p

attribute [local instance] asciiID

/-- Two different trees to which `C50_spans_irrelevant` applies. -/
example : (match parseScript c!"f(a, b) // c", parseScript c!" f (a,\n b);" with
  | .ok p _, .ok q _ => decide (p.span ≠ q.span ∧ p.body.length = 1 ∧ generateCode true p = c!"f(a,b);") && generateCode true p.strip == generateCode true q.strip
  | _, _ => false) = true := by decide +kernel

/-- The code generated for an accepted script. -/
def printed (minified : Bool) (source : Str) : Option Str :=
  match parseScript source with
  | .ok p _ => some (generateCode minified p)
  | _ => none

/-- `a - -b` minified is `a--b`, which is rejected. -/
theorem C44_minus_counterexample :
    printed true c!"a - -b" = some c!"a--b" ∧ printed true c!"a--b" = none := by decide +kernel

/-- `typeof _x` is printed as the identifier `typeof_x` (and `var $a` minified as `var$a`), because only alphanumeric characters count for
the blank between words. -/
theorem C44_typeof_counterexample :
    printed false c!"typeof _x" = some c!"typeof_x;\n" ∧ printed true c!"var $a = 1" = some c!"var$a=1" := by decide +kernel

/-- A string with an escaped quote is printed without the backslash, and the result is rejected. -/
theorem C44_quote_counterexample :
    printed false c!"x = \"a\\\"b\"" = some c!"x = \"a\"b\";\n" ∧ printed false c!"x = \"a\"b\";\n" = none := by decide +kernel

/-- Nothing is printed for an assignment pattern. -/
theorem C44_pattern_counterexample :
    printed false c!"[a] = b" = some c!" = b;\n" ∧ printed false c!" = b;\n" = none := by decide +kernel

/-- Nothing is printed for the variable of a `for-of` loop. -/
theorem C44_for_counterexample :
    printed false c!"for (var x of y) ;" = some c!"for (of y) ;\n" := by decide +kernel

/-- A division by a regular expression is printed as a comment when minified. -/
theorem C44_regexp_counterexample : printed true c!"a / /b/" = some c!"a//b/" ∧ printed true c!"a//b/" = some c!"a" := by decide +kernel

/-- Two unary signs are printed without a blank: `- -b` becomes `--b`, which is accepted with another meaning. -/
theorem C44_sign_counterexample : printed false c!"x = - -b" = some c!"x = --b;\n" ∧ printed false c!"+ +a" = some c!"++a;\n" := by
  decide +kernel

/-- The last hole of an array is lost, and a hole in front of the rest element of a pattern is doubled. -/
theorem C44_hole_counterexample :
    printed false c!"[a,,]" = some c!"[ a,  ];\n" ∧ printed false c!"[ a,  ];\n" = some c!"[ a ];\n" ∧
    printed false c!"var [, ...a] = b" = some c!"var [ ,, ...a ] = b;\n" := by decide +kernel

/-- No semicolon is printed after `throw`: the next statement can become a part of the operand. -/
theorem C44_throw_counterexample :
    printed false c!"throw a; (b)" = some c!"throw a\n(b);\n" ∧ printed false c!"throw a\n(b);\n" = some c!"throw a(b)\n" := by
  decide +kernel

/-- A getter inside a generator is printed with a star, and the result is rejected. -/
theorem C44_getter_counterexample :
    printed false c!"function *g() { ({ get a() {} }) }" = some c!"function* g() {\n    ({ *get a() {} });\n}\n" ∧
    printed false c!"function* g() {\n    ({ *get a() {} });\n}\n" = none := by decide +kernel

/-- A method with the name `async` (accepted in front of a line feed) is printed so that it is rejected. -/
theorem C44_async_counterexample :
    printed false c!"({ async\n() {} })" = some c!"({ async() {} });\n" ∧ printed false c!"({ async() {} });\n" = none := by
  decide +kernel

/-- An escaped backquote is printed without the backslash. -/
theorem C44_template_counterexample :
    printed false c!"`a\\`b`" = some c!"`a`b`;\n" ∧ printed false c!"`a`b`;\n" = none := by decide +kernel

/-- The superclass is glued to `extends`, and the name of a getter to `get`. -/
theorem C44_class_counterexample :
    printed false c!"class A extends _b {}" = some c!"class A extends_b {}\n" ∧ printed false c!"class A extends_b {}\n" = none ∧
    printed false c!"class A { get _a() {} }" = some c!"class A {\n    get_a() {}\n}\n" := by decide +kernel

/-- Minified code: `a + ++b` becomes `a+++b`, which is accepted with another meaning, and `a + +b` becomes `a++b`, which is rejected. -/
theorem C44_plus_counterexample :
    printed true c!"a + ++b" = some c!"a+++b" ∧ printed false c!"a+++b" = some c!"a++ + b;\n" ∧
    printed true c!"a + +b" = some c!"a++b" ∧ printed true c!"a++b" = none := by decide +kernel

/-- Minified code: an empty statement at the end of a block or a program is lost. -/
theorem C44_empty_counterexample :
    printed true c!"{ ; }" = some c!"{}" ∧ printed false c!"{ ; }" = some c!"{\n    ;\n}\n" ∧ printed false c!"{}" = some c!"{}\n" ∧
    printed true c!"a; ;" = some c!"a;" ∧ printed true c!"a;" = some c!"a" := by decide +kernel

/-- Minified code: nothing separates `export * from` from the next statement, and the result is rejected. -/
theorem C44_export_counterexample :
    (match parseModule c!"export * from 'a'; b()" with
      | .ok p _ => generateCode true p == c!"export*from'a'b();"
      | _ => false) = true ∧
    (match parseModule c!"export*from'a'b();" with
      | .ok _ _ => false
      | _ => true) = true := by decide +kernel

/-- The test `fits` is met by programs with many kinds of statements and expressions. -/
example : (match parseScript c!"'use strict'; function* f(a, { b, c: [d] = e }, ...r) { for (let i = 0; i < 3; i++) { yield a?.[i] } \
    return class { static async m(x) { await x } y() { return `${a} b` } } } \
    if (x) { a = b ? c : (d, e) } else try { new X(...y)[z] } catch ({ w }) { switch (v) { case 1: break; default: u /= /r/g } }" with
  | .ok p _ => Print.fits false p.items && Print.fits true p.items && p.body.length == 2
  | _ => false) = true := by decide +kernel

/-- The counterexamples for minified code fit only without minification. -/
example : ([c!"a - -b", c!"a + ++b", c!"{ ; }", c!"a; ;", c!"a / /b/"].map fun s => match parseScript s with
    | .ok p _ => (Print.fits false p.items, Print.fits true p.items)
    | _ => (false, false)) = List.replicate 5 (true, false) := by decide +kernel

/-- A module that fits. -/
example : (match parseModule c!"import a, { b as c } from 'x'; export default class A extends a {} \
    export const d = async (e) => { await e; throw c }; export { d as f }" with
  | .ok p _ => Print.fits false p.items && Print.fits true p.items && p.body.length == 4
  | _ => false) = true := by decide +kernel

/-- Patterns, with defaults and rest elements, are allowed as parameters of arrow functions. -/
example : (match parseScript c!"x = ({ a, b: [c] = d, ...r }, [e, , f = 1], { g = 2 }, ...[h]) => a; y = async ({ i, j: k }, [l]) => l" with
  | .ok p _ => Print.fits false p.items && Print.fits true p.items && p.body.length == 2
  | _ => false) = true := by decide +kernel

/-- The counterexamples do not fit. -/
example : ([c!"a - - b", c!"typeof _x", c!"x = \"a\\\"b\"", c!"[a] = b", c!"for (var x of y) ;", c!"x = - -b", c!"[a,,]",
    c!"var [, ...a] = b", c!"throw a; (b)", c!"function *g() { ({ get a() {} }) }", c!"({ async\n() {} })", c!"`a\\`b`",
    c!"class A extends _b {}"].map fun s => match parseScript s with
    | .ok p _ => Print.fits false p.items || Print.fits true p.items
    | _ => true).tail = List.replicate 12 false := by decide +kernel

end Fajt.Props
