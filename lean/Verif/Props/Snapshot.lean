import Verif.Proofs.Snapshot
import Verif.Props.Serde
/-!
# Trees as JSON text, and the snapshot runner (C58)

The test suite of fajt stores the tree of a source as JSON and the error as text in a Markdown file; an expectation that is missing is
written by the run, which then fails with "Output generated. Verify and rerun test.".
-/
set_option linter.unusedSectionVars false
namespace Fajt.Props
open Fajt Spec Fajt.Markdown Fajt.Spec.Markdown Fajt.Snapshot

/-- **C58**, JSON text. What the pretty printer writes, with white space behind it, is read back as the same value exactly if arrays and objects
are nested less than 128 deep; otherwise it is refused. -/
theorem C58_text (j : Json) (blanks : Str) (hb : ∀ c ∈ blanks, c = ' ' ∨ c = '\n' ∨ c = '\t' ∨ c = '\r') :
    (nesting j < 128 → JsonText.parse (JsonText.pretty 0 j ++ blanks) = some j) ∧
      (128 ≤ nesting j → JsonText.parse (JsonText.pretty 0 j ++ blanks) = none) := by
  have h := JsonText.parse_pretty j 0 (b := blanks) (fun c hc => by rcases hb c hc with rfl | rfl | rfl | rfl <;> decide)
  rw [h]
  exact ⟨fun hn => if_pos hn, fun hn => if_neg (by omega)⟩

/-- **C58**, JSON text: different values have different texts, however deep they are. -/
theorem C58_text_injective (j j' : Json) (h : JsonText.pretty 0 j = JsonText.pretty 0 j') : j = j' := by
  have h1 := JsonText.value_pretty j (JsonText.need j + JsonText.need j') (nesting j + nesting j' + 1) 0 [] (by omega)
  have h2 := JsonText.value_pretty j' (JsonText.need j + JsonText.need j') (nesting j + nesting j' + 1) 0 [] (by omega)
  rw [if_pos ⟨by omega, by omega⟩] at h1 h2
  rw [h, h2] at h1
  exact (Prod.mk.inj (Option.some.inj h1)).1.symm

/-- **C58**, JSON text: no line of it looks like a heading or a fence of a snapshot file. -/
theorem C58_text_lines (j : Json) : PlainLines (JsonText.pretty 0 j) := JsonText.plain_pretty j 0

section
variable [UnicodeID]

/-- **C58**, trees. The tree of an accepted source survives being written as JSON text and read back, if it is not too deep. -/
theorem C58_tree_text {sty : SourceType} {source : Str} {p : Program} (h : Accepts sty source p) (hl : byteLen source < usizeCard)
    (hn : nesting p.toJson < 128) : (JsonText.parse (JsonText.pretty 0 p.toJson)).map Program.fromJson = some (.ok p) := by
  have := (C58_text p.toJson [] nofun).1 hn
  rw [List.append_nil] at this
  rw [this]
  exact congrArg some (C53_accepted h hl)

/-! ## The language of the source -/

/-- **C58**, attributes.  The language of the source block consists of words; the value of an attribute is what is behind the colon in the first
word that starts with it; there is none if no word does. -/
theorem C58_attribute (ws : List Str) (hn : ws ≠ []) (hb : ∀ w ∈ ws, ' ' ∉ w) (name : Str) :
    (∀ pre v post, ws = pre ++ (name ++ ':' :: v) :: post → (∀ w ∈ pre, ¬ (name ++ c!":") <+: w) → ':' ∉ v →
      getAttribute ([' '].intercalate ws) (name ++ c!":") = some v) ∧
    ((∀ w ∈ ws, ¬ (name ++ c!":") <+: w) → getAttribute ([' '].intercalate ws) (name ++ c!":") = none) := by
  unfold getAttribute
  rw [splitChar_words hn hb]
  constructor
  · rintro pre v post rfl hp hv
    rw [List.find?_append, List.find?_eq_none.2 fun w hw => by simpa using hp w hw, Option.none_or, List.find?_cons_of_pos,
      Option.bind_some, (splitChar_last hv).2]
    rw [List.isPrefixOf_iff_prefix]
    exact ⟨v, by simp⟩
  · intro hp
    rw [List.find?_eq_none.2 fun w hw => by simpa using hp w hw]
    rfl

/-- **C58**, the kind of source: a module if the attribute `source` says so, otherwise a script. -/
theorem C58_source_type (language : Str) :
    getSourceType language = .module ↔ getAttribute language c!"source:" = some c!"module" := by
  unfold getSourceType
  cases h : getAttribute language c!"source:" with
  | none => simp
  | some v => by_cases hv : v = c!"module" <;> simp [hv]

/-! ## The runner -/

/-- Running a file with a source of one kind again, after it has been rewritten. -/
theorem rerun {T : Type} [Tree T] {dbg : DebugFmt} {data file : Str} {m : List Section} {b : CodeBlock} {sty : SourceType}
    (h : fromString data = some m) (hi : ∀ s ∈ m, ¬ Indented s) (hb : getBlock m c!"Source" = some b) (hne : b.contents ≠ [])
    (hr : parseAndTest T dbg m b.contents sty = .rewritten file) :
    (∃ t s, Tree.parse b.contents sty = (.ok t s : Res PState PErr T) ∧ (Tree.fromJson (Tree.toJson t) = .ok t →
      ∃ m', fromString file = some m' ∧ getBlock m' c!"Source" = some b ∧
        parseAndTest T dbg m' b.contents sty = if nesting (Tree.toJson t) < 128 then .pass else .fail)) ∨
    (∃ e s msg, Tree.parse b.contents sty = (.err e s : Res PState PErr T) ∧ Emitter.emit dbg c!"test.js" b.contents e = some msg ∧
      (PlainLines msg → ∃ m', fromString file = some m' ∧ getBlock m' c!"Source" = some b ∧ parseAndTest T dbg m' b.contents sty = .pass)) := by
  unfold parseAndTest at hr
  cases hp : (Tree.parse b.contents sty : Res PState PErr T) with
  | ok t s =>
    simp only [hp] at hr
    split at hr <;> cases hr
    next hc =>
    obtain ⟨t', h1, h2, h3, rfl⟩ | ⟨e, msg, h1, -⟩ := checkResult_rewritten hc
    · cases h1
      refine .inl ⟨t, s, rfl, fun ht => ?_⟩
      obtain ⟨m', h4, h5, h6⟩ := again_ast (dbg := dbg) (source := b.contents) h hi h2 h3 ht
      refine ⟨m', h4, block_kept h hb hne h5, ?_⟩
      unfold parseAndTest
      simp only [hp, h6]
      by_cases hn : nesting (Tree.toJson t) < 128 <;> simp [hn]
    · cases h1
  | err e s =>
    simp only [hp] at hr
    split at hr <;> cases hr
    next hc =>
    obtain ⟨t', h1, -⟩ | ⟨e', msg, h1, h2, h3, h4, rfl⟩ := checkResult_rewritten hc
    · cases h1
    · cases h1
      refine .inr ⟨e, s, msg, rfl, h2, fun hl => ?_⟩
      obtain ⟨m', h5, h6, h7⟩ := again_error (T := T) (source := b.contents) h hi h3 h4 h2 hl
      refine ⟨m', h5, block_kept h hb hne h6, ?_⟩
      unfold parseAndTest
      simp only [hp, h7]
  | panic w => simp only [hp] at hr; cases hr
  | oof => simp only [hp] at hr; cases hr

/-- What the language of the source block says about the kind of the source. -/
def kindOf (language : Str) : Str := (getAttribute language c!"parse:").getD c!"program"

theorem runTest_eq {dbg : DebugFmt} {data : Str} {m : List Section} {b : CodeBlock} (h : fromString data = some m)
    (hb : getBlock m c!"Source" = some b) : runTest dbg data =
      if kindOf b.language = c!"expr" then parseAndTest Expr dbg m b.contents (getSourceType b.language)
      else if kindOf b.language = c!"stmt" then parseAndTest Stmt dbg m b.contents (getSourceType b.language)
      else parseAndTest Program dbg m b.contents (getSourceType b.language) := by
  unfold runTest
  simp only [h, hb]
  rfl

theorem program_accepts {source : Str} {sty : SourceType} {p : Program} {s : PState} (h : Tree.parse source sty = .ok p s) :
    Accepts sty source p := by
  cases sty
  · exact .module h
  · exact .script h

/-- **C58**: an expectation that is missing is written.  If the source is accepted, the section for the tree has no block and there is no section
for an error, the run rewrites the file. -/
theorem C58_writes (dbg : DebugFmt) (data : Str) (m : List Section) (b : CodeBlock) (o : Section) (p : Program) (hm : fromString data = some m)
    (hb : getBlock m c!"Source" = some b) (hk : kindOf b.language ≠ c!"expr" ∧ kindOf b.language ≠ c!"stmt")
    (ho : getSection m c!"Output: ast" = some o) (hn : o.block = none) (he : getSection m c!"Output: error" = none)
    (ha : Accepts (getSourceType b.language) b.contents p) : ∃ file, runTest dbg data = .rewritten file := by
  have hp : ∃ s, (Tree.parse b.contents (getSourceType b.language) : Res PState PErr Program) = .ok p s := by
    generalize getSourceType b.language = sty at ha
    cases ha with
    | module h => exact ⟨_, h⟩
    | script h => exact ⟨_, h⟩
  obtain ⟨s, hp⟩ := hp
  rw [runTest_eq hm hb, if_neg hk.1, if_neg hk.2]
  unfold parseAndTest
  simp [hp, checkResult, checkAst, checkError, ho, hn, he, resultToString]

/-- **C58**, programs: a rewritten snapshot can be rerun.  A run has rewritten the file of a program (no `parse:expr` or `parse:stmt` in the
language of the source), the file has no indented marks (`Indented`, see C55) and the source is not empty.  Then either the source is
accepted, and the next run passes, unless the tree is nested 128 deep or more, in which case it fails; or the source is rejected, and the
next run passes if no line of the error looks like a heading or a fence. -/
theorem C58_rerun (dbg : DebugFmt) (data file : Str) (m : List Section) (b : CodeBlock) (h : runTest dbg data = .rewritten file)
    (hm : fromString data = some m) (hi : ∀ s ∈ m, ¬ Indented s) (hb : getBlock m c!"Source" = some b) (hne : b.contents ≠ [])
    (hk : kindOf b.language ≠ c!"expr" ∧ kindOf b.language ≠ c!"stmt") (hl : byteLen b.contents < usizeCard) :
    (∃ p, Accepts (getSourceType b.language) b.contents p ∧ (nesting p.toJson < 128 → runTest dbg file = .pass) ∧
      (128 ≤ nesting p.toJson → runTest dbg file = .fail)) ∨
    (∃ e s msg, Tree.parse b.contents (getSourceType b.language) = (.err e s : Res PState PErr Program) ∧
      Emitter.emit dbg c!"test.js" b.contents e = some msg ∧ (PlainLines msg → runTest dbg file = .pass)) := by
  rw [runTest_eq hm hb, if_neg hk.1, if_neg hk.2] at h
  rcases rerun hm hi hb hne h with ⟨t, s, h1, h2⟩ | ⟨e, s, msg, h1, h2, h3⟩
  · have ha := program_accepts h1
    obtain ⟨m', h4, h5, h6⟩ := h2 (C53_accepted ha hl)
    refine .inl ⟨t, ha, fun hn => ?_, fun hn => ?_⟩
    · rw [runTest_eq h4 h5, if_neg hk.1, if_neg hk.2, h6]; exact if_pos hn
    · rw [runTest_eq h4 h5, if_neg hk.1, if_neg hk.2, h6]; exact if_neg (Nat.not_lt.2 hn)
  · refine .inr ⟨e, s, msg, h1, h2, fun hp => ?_⟩
    obtain ⟨m', h4, h5, h6⟩ := h3 hp
    rw [runTest_eq h4 h5, if_neg hk.1, if_neg hk.2, h6]

/-- **C58**, expressions and statements: as `C58_rerun`, for trees with spans of numbers of type `usize`. -/
theorem C58_rerun_parts (dbg : DebugFmt) (data file : Str) (m : List Section) (b : CodeBlock) (h : runTest dbg data = .rewritten file)
    (hm : fromString data = some m) (hi : ∀ s ∈ m, ¬ Indented s) (hb : getBlock m c!"Source" = some b) (hne : b.contents ≠ []) :
    (kindOf b.language = c!"expr" → ∀ e s, Parser.parseExpr b.contents (getSourceType b.language) = .ok e s →
      (e.AllSpans fun sp => sp.start < usizeCard ∧ sp.stop < usizeCard) →
      (nesting e.toJson < 128 → runTest dbg file = .pass) ∧ (128 ≤ nesting e.toJson → runTest dbg file = .fail)) ∧
    (kindOf b.language = c!"stmt" → ∀ t s, Parser.parseStmt b.contents (getSourceType b.language) = .ok t s →
      (t.AllSpans fun sp => sp.start < usizeCard ∧ sp.stop < usizeCard) →
      (nesting t.toJson < 128 → runTest dbg file = .pass) ∧ (128 ≤ nesting t.toJson → runTest dbg file = .fail)) := by
  constructor
  · intro hk e s hp hs
    rw [runTest_eq hm hb, if_pos hk] at h
    rcases rerun hm hi hb hne h with ⟨t, s', h1, h2⟩ | ⟨e, s', msg, h1, -⟩
    · cases hp.symm.trans h1
      obtain ⟨m', h4, h5, h6⟩ := h2 (C53_round_trip_expr e hs)
      refine ⟨fun hn => ?_, fun hn => ?_⟩
      · rw [runTest_eq h4 h5, if_pos hk, h6]; exact if_pos hn
      · rw [runTest_eq h4 h5, if_pos hk, h6]; exact if_neg (Nat.not_lt.2 hn)
    · cases hp.symm.trans h1
  · intro hk e s hp hs
    have hk' : kindOf b.language ≠ c!"expr" := by rw [hk]; decide
    rw [runTest_eq hm hb, if_neg hk', if_pos hk] at h
    rcases rerun hm hi hb hne h with ⟨t, s', h1, h2⟩ | ⟨e, s', msg, h1, -⟩
    · cases hp.symm.trans h1
      obtain ⟨m', h4, h5, h6⟩ := h2 (C53_round_trip_stmt e hs)
      refine ⟨fun hn => ?_, fun hn => ?_⟩
      · rw [runTest_eq h4 h5, if_neg hk', if_pos hk, h6]; exact if_pos hn
      · rw [runTest_eq h4 h5, if_neg hk', if_pos hk, h6]; exact if_neg (Nat.not_lt.2 hn)
    · cases hp.symm.trans h1

/-- **C58**, what a test with an expected tree proves: it passes only if the source is accepted with a tree that has the serialised form of
the tree that is stored, and there is no expected error. -/
theorem C58_pass (dbg : DebugFmt) (data ast : Str) (m : List Section) (b : CodeBlock) (h : runTest dbg data = .pass)
    (hm : fromString data = some m) (hb : getBlock m c!"Source" = some b) (ha : getBlockContent m c!"Output: ast" = some ast)
    (hk : kindOf b.language ≠ c!"expr" ∧ kindOf b.language ≠ c!"stmt") :
    getSection m c!"Output: error" = none ∧ ∃ p q j, Accepts (getSourceType b.language) b.contents p ∧ JsonText.parse ast = some j ∧
      Program.fromJson j = .ok q ∧ p.toJson = q.toJson := by
  rw [runTest_eq hm hb, if_neg hk.1, if_neg hk.2] at h
  unfold parseAndTest at h
  unfold getBlockContent getBlock at ha
  cases hs : getSection m c!"Output: ast" with
  | none => rw [hs] at ha; cases ha
  | some s =>
    rw [hs] at ha
    cases hsb : s.block with
    | none => rw [Option.bind_some, hsb] at ha; cases ha
    | some c =>
      rw [Option.bind_some, hsb] at ha
      cases ha
      cases hp : (Tree.parse b.contents (getSourceType b.language) : Res PState PErr Program) with
      | ok p st =>
        simp only [hp, checkResult, checkAst, hs, hsb, assertAst] at h
        cases hj : JsonText.parse c.contents with
        | none => simp [hj] at h
        | some j =>
          cases hq : (Tree.fromJson j : Deser Program) with
          | ok q =>
            simp only [hj, hq] at h
            by_cases he : sameJson (Tree.toJson p) (Tree.toJson q) = true
            · refine ⟨?_, p, q, j, program_accepts hp, rfl, hq, (sameJson_iff _ _).1 he⟩
              cases hse : getSection m c!"Output: error" with
              | none => rfl
              | some s' => simp [he, checkError, hse, errorToMessage] at h
            · simp [he] at h
          | err w => simp [hj, hq] at h
          | panic => simp [hj, hq] at h
      | err e st =>
        simp only [hp, checkResult, checkAst, hs, hsb, assertAst] at h
        simp at h
      | panic w => simp [hp] at h
      | oof => simp [hp] at h

/-- **C58**, what a test with an expected error proves: it passes only if the source is rejected, the message the error reporter gives for it is
the one that is stored, and there is no expected tree. -/
theorem C58_pass_error (dbg : DebugFmt) (data msg : Str) (m : List Section) (b : CodeBlock) (h : runTest dbg data = .pass)
    (hm : fromString data = some m) (hb : getBlock m c!"Source" = some b) (ha : getBlockContent m c!"Output: error" = some msg)
    (hk : kindOf b.language ≠ c!"expr" ∧ kindOf b.language ≠ c!"stmt") :
    getSection m c!"Output: ast" = none ∧ ∃ e s, Tree.parse b.contents (getSourceType b.language) = (.err e s : Res PState PErr Program) ∧
      Emitter.emit dbg c!"test.js" b.contents e = some msg := by
  rw [runTest_eq hm hb, if_neg hk.1, if_neg hk.2] at h
  unfold parseAndTest at h
  unfold getBlockContent getBlock at ha
  cases hs : getSection m c!"Output: error" with
  | none => rw [hs] at ha; cases ha
  | some s =>
    rw [hs] at ha
    cases hsb : s.block with
    | none => rw [Option.bind_some, hsb] at ha; cases ha
    | some c =>
      rw [Option.bind_some, hsb] at ha
      cases ha
      cases hp : (Tree.parse b.contents (getSourceType b.language) : Res PState PErr Program) with
      | ok p st =>
        simp only [hp, checkResult, checkError, hs, errorToMessage] at h
        cases hc : checkAst m (.ok p : Except PErr Program) <;> simp [hc] at h
      | err e st =>
        simp only [hp, checkResult, checkError, hs, hsb, errorToMessage] at h
        cases hse : getSection m c!"Output: ast" with
        | none =>
          refine ⟨rfl, e, st, rfl, ?_⟩
          simp only [checkAst, hse] at h
          cases hmsg : Emitter.emit dbg c!"test.js" b.contents e with
          | none => simp [hmsg] at h
          | some t =>
            by_cases ht : t = c.contents
            · rw [ht]
            · simp [hmsg, ht] at h
        | some s' =>
          exfalso
          cases hb' : s'.block with
          | some b' => simp [checkAst, hse, hb', assertAst] at h
          | none =>
            simp only [checkAst, hse, hb'] at h
            cases hmsg : Emitter.emit dbg c!"test.js" b.contents e with
            | none => simp [hmsg] at h
            | some t =>
              by_cases ht : t = c.contents <;> simp [hmsg, ht, resultToString] at h
      | panic w => simp [hp] at h
      | oof => simp [hp] at h

/-- **C58**, what a passing test does not prove: a file that is not understood fails, but a file without a block for the source passes, and so
does a file of a program with neither a section for the tree nor one for the error, be the source accepted or rejected. -/
theorem C58_vacuous (dbg : DebugFmt) (data : Str) :
    (fromString data = none → runTest dbg data = .fail) ∧
    (∀ m, fromString data = some m → getBlock m c!"Source" = none → runTest dbg data = .pass) ∧
    (∀ m b, fromString data = some m → getBlock m c!"Source" = some b → kindOf b.language ≠ c!"expr" ∧ kindOf b.language ≠ c!"stmt" →
      getSection m c!"Output: ast" = none → getSection m c!"Output: error" = none →
      (∀ w, Tree.parse b.contents (getSourceType b.language) ≠ (.panic w : Res PState PErr Program)) → runTest dbg data = .pass) := by
  refine ⟨fun h => by simp [runTest, h], fun m h hb => by simp [runTest, h, hb], fun m b h hb hk h1 h2 h3 => ?_⟩
  rw [runTest_eq h hb, if_neg hk.1, if_neg hk.2]
  unfold parseAndTest
  cases hp : (Tree.parse b.contents (getSourceType b.language) : Res PState PErr Program) with
  | ok p s => simp [checkResult, checkAst, checkError, h1, h2]
  | err e s => simp [checkResult, checkAst, checkError, h1, h2]
  | panic w => exact absurd hp (h3 w)
  | oof =>
    exfalso
    generalize getSourceType b.language = sty at hp
    cases sty
    · exact (C19_parse_terminates b.contents).2.1 hp
    · exact (C19_parse_terminates b.contents).1 hp

end

section
attribute [local instance] asciiID

/-- The outcome of the run after a run that rewrote the file. -/
def secondRun (data : Str) : Option Snapshot.Outcome :=
  match runTest noDebug data with
  | .rewritten file => some (runTest noDebug file)
  | _ => none

/-- Concrete cases: files of an accepted program, a rejected one and an expression, all of them rewritten by a first run. -/
theorem C58_runs :
    secondRun c!"### Source\n```js\na\n```\n### Output: ast\n" = some .pass ∧
    secondRun c!"### Source\n```js\n)\n```\n### Output: error\n" = some .pass ∧
    secondRun c!"### Source\n```js parse:expr source:module\nawait\n```\n### Output: ast\n" = some .pass ∧
    runTest noDebug c!"### Source\n```js\na\n```\n### Output: error\n" = .fail ∧
    runTest noDebug c!"### Source\n```js\n)\n```\n### Output: ast\n" = .fail ∧
    runTest noDebug c!"### Source\n```js parse:expr\na\n```\n### Output: ast\n" = .rewritten (
      c!"### Source\n```js parse:expr\na\n```\n\n### Output: ast\n```json\n{\n  \"IdentRef\": {\n    \"span\": \"0:1\",\n    \"name\": \"a\"\n  }\n}\n```" ++ ['\n']) ∧
    runTest noDebug c!"### Source\n```js\n)\n```\n### Output: error\n" = .rewritten (c!"### Source\n```js\n)\n```\n\n### Output: error\n" ++
      c!"```txt\nSyntax error: Unexpected token `)`\n --> test.js:1:1\n  |\n1 | )\n  | ^ Unexpected token\n```\n") := by decide +kernel

/-- Concrete cases of the tests that prove nothing, and of a test with an expected error. -/
theorem C58_vacuous_runs :
    runTest noDebug c!"```js\na\n```\n" = .fail ∧
    runTest noDebug c!"### Sorce\n```js\n)\n```\n" = .pass ∧
    runTest noDebug c!"### Source\n```js\n)\n```\n" = .pass ∧
    runTest noDebug c!"### Source\n```js\n)\n```\n### Output: error\n```txt\n)\n```\n" = .fail := by decide +kernel

/-- The source of the departure: negations of an identifier. -/
def deepSource : Str := List.replicate 64 '!' ++ c!"a\n"

/-- The source is accepted with a tree that is nested too deep. -/
def deepTree : Res PState PErr Program → Bool
  | .ok p _ => decide (128 ≤ nesting p.toJson)
  | _ => false

/-- **C58** departure: the tree of an accepted program is written, but it is too deep to be read back, and the next run fails. -/
theorem C58_deep_counterexample :
    secondRun (c!"### Source\n```js\n" ++ deepSource ++ c!"```\n### Output: ast\n") = some .fail := by
  generalize hd : c!"### Source\n```js\n" ++ deepSource ++ c!"```\n### Output: ast\n" = data
  have hm : fromString data = some
      [⟨c!"Source", none, some ⟨c!"js", deepSource⟩⟩, ⟨c!"Output: ast", none, none⟩] := by
    rw [← hd]; decide +kernel
  obtain ⟨p, s, hp, hn⟩ : ∃ p s, Parser.parseScript deepSource = .ok p s ∧ 128 ≤ nesting p.toJson := by
    have hd : deepTree (Parser.parseScript deepSource) = true := by decide +kernel
    generalize Parser.parseScript deepSource = r at hd
    cases r with
    | ok p s => exact ⟨p, s, rfl, of_decide_eq_true hd⟩
    | err => cases hd
    | panic => cases hd
    | oof => cases hd
  have hi : ∀ s ∈ [(⟨c!"Source", none, some ⟨c!"js", deepSource⟩⟩ : Section), ⟨c!"Output: ast", none, none⟩], ¬ Indented s := by
    intro s hs
    simp only [List.mem_cons, List.not_mem_nil, or_false] at hs
    rcases hs with rfl | rfl <;> simp [Indented] <;> decide
  obtain ⟨file, hf⟩ := C58_writes noDebug data _ ⟨c!"js", deepSource⟩ ⟨c!"Output: ast", none, none⟩ p hm rfl (by decide) rfl rfl rfl (.script hp)
  rcases C58_rerun noDebug data file _ _ hf hm hi rfl (by decide) (by decide) (by decide) with ⟨q, hq, -, hr⟩ | ⟨e, s', msg, he, -⟩
  · have hq' : q = p := by
      have h1 : Accepts .script deepSource q := hq
      cases h1 with
      | script h => exact (Res.ok.inj (h.symm.trans hp)).1
    subst hq'
    unfold secondRun
    rw [hf]
    exact congrArg some (hr hn)
  · cases hp.symm.trans he

end
end Fajt.Props
