import Verif.Proofs.ParseProgram
import Verif.Props.Emitter
import Verif.Props.Cli
/-!
# Properties of parsing as a whole (C19, C20, C21, C37, C46)

`Parser.parseScript` and `Parser.parseModule` model `parse_script` and `parse_module`.  Their result is `.ok`, `.err`, `.panic`
or `.oof`; the last one says that the recursion was deeper, or a loop ran longer, than the fuel `enoughFuel` allows.
-/
set_option linter.unusedSectionVars false
namespace Fajt.Props
open Fajt Spec Emitter
variable [UnicodeID]

/-! ## C19: termination -/

/-- **C19**. Every call of `parse_script` and `parse_module` ends: the depth of the recursion and the number of rounds of every loop are
bounded by `8 * (n + 2) + 16`, where `n` is the length of the source in bytes. -/
theorem C19_parse_terminates (src : Str) :
    Parser.parseScript src ≠ .oof ∧ Parser.parseModule src ≠ .oof ∧ Parser.enoughFuel src = 8 * (byteLen src + 2) + 16 := by
  refine ⟨?_, ?_, rfl⟩ <;> intro h
  · have := parse_program src .script
    rw [show Parser.parse Parser.program src .script = .oof from h] at this
    exact this
  · have := parse_program src .module
    rw [show Parser.parse Parser.program src .module = .oof from h] at this
    exact this

/-- **C19** for the other entry points, `parse::<Expr>` and `parse::<Stmt>`. -/
theorem C19_entry_points_terminate (src : Str) (styp : SourceType) :
    Parser.parseExpr src styp ≠ .oof ∧ Parser.parseStmt src styp ≠ .oof := by
  constructor <;> intro h
  · have := parse_expr src styp; rw [h] at this; exact this
  · have := parse_stmt src styp; rw [h] at this; exact this

/-! ## C20: no panics -/

/-- **C20**, every source. Parsing panics only for one of two reasons: some token of the source has a character that is not ASCII
immediately in front of it, or the source is parsed as a module and has a literal that is not a string behind the keyword `from`. -/
theorem C20_panic_cause (src w : Str) :
    (Parser.parseScript src = .panic w → TokenBehindWide src) ∧
    (Parser.parseModule src = .panic w → TokenBehindWide src ∨ FromNonString src) := by
  constructor <;> intro hw
  · have := parse_program src .script
    rw [show Parser.parse Parser.program src .script = .panic w from hw] at this
    exact this.resolve_right (fun h => nomatch h.1)
  · have := parse_program src .module
    rw [show Parser.parse Parser.program src .module = .panic w from hw] at this
    exact this.imp id And.right

/-- **C20** for the other entry points. -/
theorem C20_entry_points_panic_cause (src w : Str) (styp : SourceType)
    (hw : Parser.parseExpr src styp = .panic w ∨ Parser.parseStmt src styp = .panic w) :
    TokenBehindWide src ∨ styp = .module ∧ FromNonString src := by
  rcases hw with hw | hw
  · have := parse_expr src styp; rw [hw] at this; exact this
  · have := parse_stmt src styp; rw [hw] at this; exact this

theorem ascii_not_wide {src : Str} (h : Ascii src) : ¬ TokenBehindWide src := by
  rintro ⟨_, _, _, _, u, d, _, _, _, -, -, -, -, rfl, hd⟩
  have := h d (by simp)
  omega

/-- **C20**. Parsing an ASCII source as a script does not panic. -/
theorem C20_script_no_panic (src : Str) (h : Ascii src) (w : Str) : Parser.parseScript src ≠ .panic w :=
  fun hw => ascii_not_wide h ((C20_panic_cause src w).1 hw)

/-- **C20** for the other entry points. -/
theorem C20_entry_points_no_panic (src : Str) (h : Ascii src) (w : Str) :
    Parser.parseExpr src .script ≠ .panic w ∧ Parser.parseStmt src .script ≠ .panic w := by
  constructor <;> intro hw
  · exact (C20_entry_points_panic_cause src w .script (.inl hw)).elim (ascii_not_wide h) (fun h => nomatch h.1)
  · exact (C20_entry_points_panic_cause src w .script (.inr hw)).elim (ascii_not_wide h) (fun h => nomatch h.1)

/-- **C20** for modules. Parsing an ASCII source as a module panics only if there is a literal that is not a string behind the keyword
`from`. -/
theorem C20_module_no_panic (src : Str) (h : Ascii src) (hf : ¬ FromNonString src) (w : Str) : Parser.parseModule src ≠ .panic w :=
  fun hw => ((C20_panic_cause src w).2 hw).elim (ascii_not_wide h) hf

theorem spells_plain {w n : Str} (h : Spells w n) (hw : '\\' ∉ w) : w = n := by
  induction h with
  | nil => rfl
  | plain _ ih => rw [ih (fun h => hw (List.mem_cons_of_mem _ h))]
  | escape he _ _ => exact absurd (by cases he <;> simp) hw

/-- The keywords among the tokens of a text without backslashes are parts of the text. -/
theorem keyword_infix {pre src rest : Str} {fol fol' : Bool} {ts : List Token} (h : TokensTo pre fol src ts rest fol')
    (hb : '\\' ∉ src) {t : Token} (ht : t ∈ ts) {k : Keyword} (hk : t.value = .keyword k) : k.asStr <:+: src := by
  induction h with
  | nil => nomatch ht
  | @cons pre tr w rest rest' html fol fol1 fol2 fol' t' ts h1 h2 h3 h4 h5 h6 ih =>
    simp only [List.mem_append, not_or] at hb
    rcases List.mem_cons.mp ht with rfl | ht
    · rw [hk] at h4
      rcases h4 with ⟨⟨_, h4⟩, -⟩ | h4
      · cases h4 with
        | keyword h4 => rw [← spells_plain h4.spells hb.2.1]; exact ⟨tr, rest, by simp⟩
      · nomatch h4
    · obtain ⟨a, b, hab⟩ := ih hb.2.2 ht
      exact ⟨tr ++ w ++ a, b, by rw [← hab]; simp⟩

/-- **C20**, a simple sufficient condition: parsing an ASCII source in which neither the text `from` nor a backslash occurs does not
panic, neither as a script nor as a module. -/
theorem C20_no_from_no_panic (src : Str) (h : Ascii src) (hf : ¬ c!"from" <:+: src) (hb : '\\' ∉ src) (w : Str) :
    Parser.parseModule src ≠ .panic w := by
  refine C20_module_no_panic src h ?_ w
  rintro ⟨ts, t, u, l, rest, fol, h1, h2, -, -⟩
  exact hf (keyword_infix h1 hb (by simp) h2)

/-- Result kinds, for examples. -/
def isPanic {α : Type} : Res PState PErr α → Bool
  | .panic _ => true
  | _ => false

theorem isPanic_iff {α : Type} {r : Res PState PErr α} : isPanic r = true ↔ ∃ w, r = .panic w := by
  cases r <;> simp [isPanic]

/-- **C20**, counterexample for modules: `import a from 1` panics. -/
theorem C20_module_counterexample : letI := asciiID; isPanic (Parser.parseModule c!"import a from 1") = true := by
  decide +kernel

/-- **C20**, counterexample for sources with other characters: a regular expression after a no-break space panics. -/
theorem C20_nonascii_counterexample : letI := asciiID; isPanic (Parser.parseScript ('\u00a0' :: c!"/x/")) = true := by
  decide +kernel

/-- The hypothesis of C20 is met by non-trivial sources. -/
example : Ascii c!"class A extends B { m(x) { return `${x}`; } }" := by unfold Ascii; decide
example : Ascii c!"import './a.js'; export const b = 1; export default class {}" ∧
    ¬ c!"from" <:+: c!"import './a.js'; export const b = 1; export default class {}" ∧
    '\\' ∉ c!"import './a.js'; export const b = 1; export default class {}" := by unfold Ascii; decide

/-- The counterexamples have the causes the theorem names. -/
example : letI := asciiID; TokenBehindWide ('\u00a0' :: c!"/x/") ∧ FromNonString c!"import a from 1" := by
  letI := asciiID
  obtain ⟨w1, h1⟩ := isPanic_iff.mp C20_nonascii_counterexample
  obtain ⟨w2, h2⟩ := isPanic_iff.mp C20_module_counterexample
  exact ⟨(C20_panic_cause _ w1).1 h1,
    ((C20_panic_cause _ w2).2 h2).resolve_left (ascii_not_wide (by unfold Ascii; decide))⟩

/-! ## C21: soundness -/

/-- **C21**. The tree of an accepted source is derived by the grammar from the tokens of the source: the source consists of the
spellings of the tokens `ts`, separated by white space and comments, and `ts` derives the returned program. -/
theorem C21_script_sound (src : Str) (p : Program) (s : PState) (h : Parser.parseScript src = .ok p s) :
    p.sourceType = .script ∧
      ∃ ts, SourceTokens [] true src ts ∧ IsProgram (sourceEnv src .script) p ts := by
  have := parse_program src .script
  rw [show Parser.parse Parser.program src .script = .ok p s from h] at this
  exact this

/-- **C21** for modules. -/
theorem C21_module_sound (src : Str) (p : Program) (s : PState) (h : Parser.parseModule src = .ok p s) :
    p.sourceType = .module ∧
      ∃ ts, SourceTokens [] true src ts ∧ IsProgram (sourceEnv src .module) p ts := by
  have := parse_program src .module
  rw [show Parser.parse Parser.program src .module = .ok p s from h] at this
  exact this

/-- The tree of a result, for examples. -/
def resultOf {α : Type} : Res PState PErr α → Option α
  | .ok a _ => some a
  | _ => none

/-- A program that is accepted. -/
example : letI := asciiID
    (resultOf (Parser.parseScript c!"'use strict'; a = b + c * 2; if (a) { f(a, ...b) } else x => `t${x}`")).isSome = true := by
  decide +kernel

/-! ## C37: error spans -/

/-- **C37**. The span of the error of a rejected script is well formed and lies within the source (any source, not only ASCII). -/
theorem C37_script_error_span (src : Str) (e : PErr) (s : PState) (h : Parser.parseScript src = .err e s) :
    e.span.start ≤ e.span.stop ∧ e.span.stop ≤ byteLen src := by
  have := parse_program src .script
  rw [show Parser.parse Parser.program src .script = .err e s from h] at this
  exact this.resolve_right (fun h => nomatch h.1)

/-- **C37** for modules. The span of the error of a rejected module is well formed and lies within the source, except that the span of the
error "Expected statement" behind `export` or `export default` may run backwards from the next token to the keyword, both within the
source. -/
theorem C37_module_error_span (src : Str) (e : PErr) (s : PState) (h : Parser.parseModule src = .err e s) :
    e.span.start ≤ e.span.stop ∧ e.span.stop ≤ byteLen src ∨
    e.kind = .syn c!"Expected statement" ∧ BehindExport src e.span ∧ e.span.stop ≤ e.span.start ∧ e.span.start ≤ byteLen src := by
  have := parse_program src .module
  rw [show Parser.parse Parser.program src .module = .err e s from h] at this
  exact this.imp id And.right

/-- **C37**, a simple sufficient condition: the span of the error of a rejected module in which neither the text `export` nor a backslash
occurs is well formed and lies within the source. -/
theorem C37_no_export_error_span (src : Str) (hx : ¬ c!"export" <:+: src) (hb : '\\' ∉ src) (e : PErr) (s : PState)
    (h : Parser.parseModule src = .err e s) : e.span.start ≤ e.span.stop ∧ e.span.stop ≤ byteLen src := by
  refine (C37_module_error_span src e s h).resolve_right ?_
  rintro ⟨-, ⟨ts, t, u, rest, fol, h1, h2 | ⟨-, ts', x, rfl, h2⟩, -⟩, -⟩
  · exact hx (keyword_infix h1 hb (by simp) h2)
  · exact hx (keyword_infix h1 hb (by simp) h2)

/-- **C37** for the other entry points. -/
theorem C37_entry_points_error_span (src : Str) (styp : SourceType) (e : PErr) (s : PState)
    (h : Parser.parseExpr src styp = .err e s ∨ Parser.parseStmt src styp = .err e s) :
    e.span.start ≤ e.span.stop ∧ e.span.stop ≤ byteLen src ∨
    styp = .module ∧ e.kind = .syn c!"Expected statement" ∧ BehindExport src e.span ∧ e.span.stop ≤ e.span.start ∧
      e.span.start ≤ byteLen src := by
  rcases h with h | h
  · have := parse_expr src styp; rw [h] at this; exact this
  · have := parse_stmt src styp; rw [h] at this; exact this

theorem cut_at {src : Str} (h : Ascii src) {n : Nat} (hn : n ≤ byteLen src) :
    ∃ a b, src = a ++ b ∧ byteLen a = n := by
  induction src generalizing n with
  | nil => exact ⟨[], [], rfl, by simp at hn; simp [hn]⟩
  | cons c w ih =>
    cases n with
    | zero => exact ⟨[], c :: w, rfl, rfl⟩
    | succ n =>
      have hc : c.utf8Size = 1 := by
        have hlt : c.toNat < 128 := h c (by simp)
        have : c.val.toNat ≤ 127 := by have : c.toNat = c.val.toNat := rfl; omega
        unfold Char.utf8Size
        rw [if_pos (by rw [UInt32.le_iff_toNat_le]; exact this)]
      rw [byteLen_cons, hc] at hn
      obtain ⟨a, b, h1, h2⟩ := ih (fun x hx => h x (List.mem_cons_of_mem _ hx)) (n := n) (by omega)
      exact ⟨c :: a, b, by rw [h1]; rfl, by rw [byteLen_cons, hc, h2]; omega⟩

/-- In an ASCII text every well formed span cuts the text into three. -/
theorem ascii_cuts {src : Str} (h : Ascii src) {sp : Span} (h1 : sp.start ≤ sp.stop) (h2 : sp.stop ≤ byteLen src) : Cuts src sp := by
  obtain ⟨a, b, rfl, ha⟩ := cut_at h h2
  have ha' : Ascii a := fun c hc => h c (List.mem_append_left _ hc)
  obtain ⟨a', m, rfl, ha''⟩ := cut_at ha' (n := sp.start) (by omega)
  exact ⟨a', m, b, rfl, ha''.symm, ha.symm⟩

theorem report_no_panic (d : DebugFmt) (filename src : Str) (ha : Ascii src) (e : PErr)
    (h : e.span.start ≤ e.span.stop ∧ e.span.stop ≤ byteLen src) : ∃ text, emit d filename src e = some text := by
  obtain ⟨pre, mid, post, rfl, e1, e2⟩ := ascii_cuts ha h.1 h.2
  exact ⟨_, C38_output d filename pre mid post e e1 e2⟩

/-- **C37**, consequence: the error of a rejected ASCII script can be reported without a panic. -/
theorem C37_report_no_panic (d : DebugFmt) (filename src : Str) (ha : Ascii src) (e : PErr) (s : PState)
    (h : Parser.parseScript src = .err e s) : ∃ text, emit d filename src e = some text :=
  report_no_panic d filename src ha e (C37_script_error_span src e s h)

/-- **C37**, consequence: the error of a rejected ASCII module can be reported without a panic, unless it is "Expected statement". -/
theorem C37_module_report_no_panic (d : DebugFmt) (filename src : Str) (ha : Ascii src) (e : PErr) (s : PState)
    (h : Parser.parseModule src = .err e s) (hk : e.kind ≠ .syn c!"Expected statement") :
    ∃ text, emit d filename src e = some text :=
  report_no_panic d filename src ha e ((C37_module_error_span src e s h).resolve_right (fun h => hk h.1))

/-- The error of a result, for examples. -/
def errorOf {α : Type} : Res PState PErr α → Option PErr
  | .err e _ => some e
  | _ => none

/-- **C37**, counterexample for modules: the span of the error of `export let 1` is reversed. -/
theorem C37_module_counterexample : letI := asciiID
    (errorOf (Parser.parseModule c!"export let 1")).map PErr.span = some ⟨7, 6⟩ := by decide +kernel

/-- The error "Expected statement". -/
def isExpectedStatement (e : PErr) : Bool :=
  match e.kind with
  | .syn m => m == c!"Expected statement"
  | _ => false

/-- A rejected module with another error. -/
example : letI := asciiID
    (errorOf (Parser.parseModule c!"import a from './b.js'; import { c from d")).map (fun e => (e.span, isExpectedStatement e)) =
      some (⟨35, 39⟩, false) := by
  decide +kernel

/-- A rejected script with a non-trivial span. -/
example : letI := asciiID; (errorOf (Parser.parseScript c!"a = )")).map PErr.span = some ⟨4, 5⟩ := by decide +kernel

/-! ## C46: the command line tool -/

/-- **C46**, no panic. The tool never panics on a readable ASCII file that it treats as a script: it ends with exit code 0 or 1. -/
theorem C46_no_panic (d : DebugFmt) (sh : Program → Str) (readFile : Str → Option Str) (args : Cli.Args) (source : Str)
    (hr : readFile args.fileName = some source) (hm : Cli.isModule args.fileName = false) (ha : Ascii source) :
    ∃ code out err, Cli.main d sh readFile args = .exit code out err ∧ (code = 0 ∨ code = 1) := by
  unfold Cli.main
  simp only [hr, hm, Bool.false_eq_true, if_false]
  cases hp : Parser.parseScript source with
  | ok p s =>
    simp only
    split
    · exact ⟨_, _, _, rfl, .inl rfl⟩
    · split <;> exact ⟨_, _, _, rfl, .inl rfl⟩
  | err e s =>
    obtain ⟨text, ht⟩ := C37_report_no_panic d args.fileName source ha e s hp
    simp only [ht]
    exact ⟨_, _, _, rfl, .inr rfl⟩
  | panic w => exact absurd hp (C20_script_no_panic source ha w)
  | oof => exact absurd hp (C19_parse_terminates source).1

/-- **C46**, no panic on modules. The tool never panics on a readable ASCII file that it treats as a module, if no literal that is not a
string is behind the keyword `from` and the parser does not reject it with the error "Expected statement" behind `export`. -/
theorem C46_module_no_panic (d : DebugFmt) (sh : Program → Str) (readFile : Str → Option Str) (args : Cli.Args) (source : Str)
    (hr : readFile args.fileName = some source) (hm : Cli.isModule args.fileName = true) (ha : Ascii source)
    (hf : ¬ FromNonString source)
    (he : ∀ e s, Parser.parseModule source = .err e s → ¬ (e.kind = .syn c!"Expected statement" ∧ BehindExport source e.span)) :
    ∃ code out err, Cli.main d sh readFile args = .exit code out err ∧ (code = 0 ∨ code = 1) := by
  unfold Cli.main
  simp only [hr, hm, if_true]
  cases hp : Parser.parseModule source with
  | ok p s =>
    simp only
    split
    · exact ⟨_, _, _, rfl, .inl rfl⟩
    · split <;> exact ⟨_, _, _, rfl, .inl rfl⟩
  | err e s =>
    obtain ⟨text, ht⟩ := report_no_panic d args.fileName source ha e
      ((C37_module_error_span source e s hp).resolve_right (fun h => he e s hp ⟨h.1, h.2.1⟩))
    simp only [ht]
    exact ⟨_, _, _, rfl, .inr rfl⟩
  | panic w => exact absurd hp (C20_module_no_panic source ha hf w)
  | oof => exact absurd hp (C19_parse_terminates source).2.1

/-- **C46**, a simple sufficient condition for modules: no panic on a readable ASCII file in which neither `from` nor `export` nor a
backslash occurs. -/
theorem C46_plain_module_no_panic (d : DebugFmt) (sh : Program → Str) (readFile : Str → Option Str) (args : Cli.Args) (source : Str)
    (hr : readFile args.fileName = some source) (hm : Cli.isModule args.fileName = true) (ha : Ascii source)
    (hf : ¬ c!"from" <:+: source) (hx : ¬ c!"export" <:+: source) (hb : '\\' ∉ source) :
    ∃ code out err, Cli.main d sh readFile args = .exit code out err ∧ (code = 0 ∨ code = 1) := by
  refine C46_module_no_panic d sh readFile args source hr hm ha ?_ ?_
  · rintro ⟨ts, t, u, l, rest, fol, h1, h2, -, -⟩
    exact hf (keyword_infix h1 hb (by simp) h2)
  · rintro e s h ⟨-, ts, t, u, rest, fol, h1, h2 | ⟨-, ts', x, rfl, h2⟩, -⟩
    · exact hx (keyword_infix h1 hb (by simp) h2)
    · exact hx (keyword_infix h1 hb (by simp) h2)

/-- A rejected module meets the hypotheses. -/
example : letI := asciiID
    Cli.main noDebug (fun _ => []) (fun _ => some c!"import './a.js'; f(") { fileName := c!"a.mjs" } ≠ .panic ∧
    Cli.isModule c!"a.mjs" = true ∧ ¬ c!"from" <:+: c!"import './a.js'; f(" ∧ ¬ c!"export" <:+: c!"import './a.js'; f(" := by
  decide +kernel

/-- **C46**, counterexample for modules: the tool panics on `import a from 1` and on `export let 1`. -/
theorem C46_module_counterexample : letI := asciiID
    Cli.main noDebug (fun _ => []) (fun _ => some c!"import a from 1") { fileName := c!"a.mjs" } = .panic ∧
    Cli.main noDebug (fun _ => []) (fun _ => some c!"export let 1") { fileName := c!"a.mjs" } = .panic := by decide +kernel

/-- **C37**, **C46**, counterexample for sources that are not ASCII: `ü` in quotes is no problem, but an error right behind a no-break
space (which is white space) has a span that starts inside of the no-break space, and the tool panics when it reports the error. -/
theorem C46_nonascii_counterexample : letI := asciiID
    (errorOf (Parser.parseScript c!"if(a\u00a0b")).map PErr.span = some ⟨5, 7⟩ ∧
    Cli.main noDebug (fun _ => []) (fun _ => some c!"if(a\u00a0b") { fileName := c!"a.js" } = .panic ∧
    Cli.main noDebug (fun _ => []) (fun _ => some c!"if('ü' b") { fileName := c!"a.js" } ≠ .panic := by decide +kernel

end Fajt.Props
