import Verif.Model.JsonText
import Verif.Model.Markdown
import Verif.Model.Parser
/-!
# The snapshot runner (`/repo/tests/verify_snapshots.rs`)

Every Markdown file in `/repo/tests/cases` is run: the source is parsed and compared with the expected tree and the expected error; an
expectation that is missing is written to the file.  Reading and writing the file is not modelled (the file is a string); the comparison of
the minified output is commented out in the code.
-/
namespace Fajt
namespace Snapshot
variable [UnicodeID]
open Markdown

/-- `/repo/tests/verify_snapshots.rs:91-93`: what the runner needs of a type of trees (`Parse + Serialize + DeserializeOwned + PartialEq`). -/
class Tree (T : Type) where
  /-- `fajt_parser::parse::<T>` -/
  parse : Str → SourceType → Res PState PErr T
  toJson : T → Json
  fromJson : Json → Deser T

/-- `/repo/parser/src/lib.rs:166-176`, `/repo/ast/src/expr.rs:6-47` `Expr`. -/
instance : Tree Expr := ⟨Parser.parseExpr, Expr.toJson, fun j => decode j (.enum .Expr)⟩

/-- `/repo/parser/src/lib.rs:178-186`, `/repo/ast/src/stmt.rs:8-41` `Stmt`. -/
instance : Tree Stmt := ⟨Parser.parseStmt, Stmt.toJson, fun j => decode j (.enum .Stmt)⟩

/-- `/repo/parser/src/lib.rs:188-203`, `/repo/ast/src/lib.rs:35-46` `Program`. -/
instance : Tree Program :=
  ⟨fun s t => match t with | .script => Parser.parseScript s | .module => Parser.parseModule s, Program.toJson, Program.fromJson⟩

mutual
/-- `PartialEq` for trees (used at `/repo/tests/verify_snapshots.rs:171`), as the equality of their serialised forms: trees with the same form
are the same (`C53_injective`). -/
def sameJson : Json → Json → Bool
  | .null, .null => true
  | .bool a, .bool b => a == b
  | .str a, .str b => a == b
  | .arr a, .arr b => sameItems a b
  | .obj a, .obj b => sameFields a b
  | _, _ => false
@[inherit_doc sameJson]
def sameItems : List Json → List Json → Bool
  | [], [] => true
  | v :: vs, w :: ws => sameJson v w && sameItems vs ws
  | _, _ => false
@[inherit_doc sameJson]
def sameFields : List (Str × Json) → List (Str × Json) → Bool
  | [], [] => true
  | (k, v) :: vs, (l, w) :: ws => k == l && sameJson v w && sameFields vs ws
  | _, _ => false
end

/-- What running a file does. -/
inductive Outcome where
  /-- the test passes -/
  | pass
  /-- the test panics and leaves the file alone -/
  | fail
  /-- the test writes the file and panics: "Output generated. Verify and rerun test." -/
  | rewritten (file : Str)
deriving DecidableEq

/-- `str::split` for a character (core library), used at `/repo/tests/verify_snapshots.rs:230,232`. -/
def splitChar (k : Char) : Str → List Str
  | [] => [[]]
  | c :: cs =>
    if c = k then [] :: splitChar k cs
    else match splitChar k cs with
      | h :: t => (c :: h) :: t
      | [] => [[c]]

/-- `/repo/tests/verify_snapshots.rs:228-233` `get_attribute`. -/
def getAttribute (language attr : Str) : Option Str :=
  ((splitChar ' ' language).find? (attr.isPrefixOf ·)).bind fun a => (splitChar ':' a).getLast?

/-- `/repo/tests/verify_snapshots.rs:220-226` `get_source_type`. -/
def getSourceType (language : Str) : SourceType :=
  if (getAttribute language c!"source:").getD c!"unknown" = c!"module" then .module else .script

/-- `/repo/tests/verify_snapshots.rs:165-175` `assert_ast`; `none`: panic. -/
def assertAst {T : Type} [Tree T] (result : Except PErr T) (astJson : Str) : Option Unit :=
  match result with
  | .error _ => none
  | .ok tree =>
    match JsonText.parse astJson with
    | none => none
    | some j =>
      match Tree.fromJson (T := T) j with
      | .ok expected => if sameJson (Tree.toJson tree) (Tree.toJson expected) then some () else none
      | _ => none

/-- `/repo/tests/verify_snapshots.rs:203-218` `error_to_message`; `none`: panic. -/
def errorToMessage {T : Type} (dbg : DebugFmt) (result : Except PErr T) (source : Str) : Option Str :=
  match result with
  | .ok _ => none
  | .error e => Emitter.emit dbg c!"test.js" source e

/-- `/repo/tests/verify_snapshots.rs:235-240` `result_to_string`; `none`: panic. -/
def resultToString {T : Type} [Tree T] (result : Except PErr T) : Option Str :=
  match result with
  | .ok tree => some (JsonText.pretty 0 (Tree.toJson tree))
  | .error _ => none

/-- `/repo/tests/verify_snapshots.rs:104-110`: whether the tree has to be written; `none`: panic. -/
def checkAst {T : Type} [Tree T] (test : List Section) (result : Except PErr T) : Option Bool :=
  match getSection test c!"Output: ast" with
  | none => some false
  | some s =>
    match s.block with
    | some b => (assertAst result b.contents).map fun _ => false
    | none => some true

/-- `/repo/tests/verify_snapshots.rs:112-120`: the error that has to be written; `none`: panic. -/
def checkError {T : Type} (dbg : DebugFmt) (test : List Section) (result : Except PErr T) (source : Str) : Option (Option Str) :=
  match getSection test c!"Output: error" with
  | none => some none
  | some s =>
    match errorToMessage dbg result source with
    | none => none
    | some msg =>
      match s.block with
      | some b => if msg = b.contents then some none else none
      | none => some (some msg)

/-- `/repo/tests/verify_snapshots.rs:104-162` after parsing; `none`: panic, `some none`: the end is reached, otherwise the file that is
written before the panic. -/
def checkResult {T : Type} [Tree T] (dbg : DebugFmt) (test : List Section) (result : Except PErr T) (source : Str) : Option (Option Str) := do
  let regenerateAst ← checkAst test result
  let regenerateError ← checkError dbg test result source
  let test := match regenerateError with
    | some msg => setBlockContent test c!"Output: error" c!"txt" msg
    | none => test
  let test ← if regenerateAst then (resultToString result).map (setBlockContent test c!"Output: ast" c!"json") else some test
  pure (if regenerateAst || regenerateError.isSome then some (fileOf (docStr test)) else none)

/-- `/repo/tests/verify_snapshots.rs:91-163` `parse_and_test`. -/
def parseAndTest (T : Type) [Tree T] (dbg : DebugFmt) (test : List Section) (source : Str) (sourceType : SourceType) : Outcome :=
  let outcome (r : Option (Option Str)) : Outcome := match r with
    | none => .fail
    | some none => .pass
    | some (some file) => .rewritten file
  match Tree.parse (T := T) source sourceType with
  | .ok tree _ => outcome (checkResult dbg test (.ok tree) source)
  | .err e _ => outcome (checkResult dbg test (.error e : Except PErr T) source)
  | .panic _ => .fail
  | .oof => .fail

/-- `/repo/tests/verify_snapshots.rs:74-89` `run_test`. -/
def runTest (dbg : DebugFmt) (data : Str) : Outcome :=
  match fromString data with
  | none => .fail
  | some test =>
    match getBlock test c!"Source" with
    | none => .pass
    | some block =>
      let parseType := (getAttribute block.language c!"parse:").getD c!"program"
      let sourceType := getSourceType block.language
      if parseType = c!"expr" then parseAndTest Expr dbg test block.contents sourceType
      else if parseType = c!"stmt" then parseAndTest Stmt dbg test block.contents sourceType
      else parseAndTest Program dbg test block.contents sourceType

end Snapshot
end Fajt
