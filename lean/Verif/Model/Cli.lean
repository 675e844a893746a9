import Verif.Model.Parser
import Verif.Model.Emitter
import Verif.Model.Codegen
/-!
# The command line tool (`/repo/src/main.rs`)

The file system is a function from names to contents (`none`: the file cannot be read, or is not UTF-8), the result of a run is what is
written and the exit code, or a panic.  `clap` (argument parsing) and writing to the terminal are not modelled; the `Debug` text of
a program (`{program:#?}`) is a parameter.
-/
namespace Fajt
namespace Cli
variable [UnicodeID]

/-- `/repo/src/main.rs:8-12` `Arguments`; `format` is the value of `--format` (main.rs:66-72 turns it into a generator
context that is minified iff the value is `minified`). -/
structure Args where
  check : Bool := false
  fileName : Str
  format : Option Str := none

/-- What a run of the tool does. -/
inductive Outcome where
  /-- normal end, or `std::process::exit` -/
  | exit (code : Nat) (stdout stderr : Str)
  /-- the thread panics -/
  | panic
deriving DecidableEq

/-- `str::ends_with`. -/
def endsWith (s suffix : Str) : Bool := suffix.reverse.isPrefixOf s.reverse

/-- `/repo/src/main.rs:18` `is_module`. -/
def isModule (fileName : Str) : Bool := endsWith fileName c!".mjs" || endsWith fileName c!".module.js"

/-- `/repo/src/main.rs:14-45` `main`.  `println!` appends a line feed. -/
def main (dbg : DebugFmt) (show_ : Program → Str) (readFile : Str → Option Str) (args : Args) : Outcome :=
  match readFile args.fileName with
  | none => .panic
  | some source =>
    match (if isModule args.fileName then Parser.parseModule source else Parser.parseScript source) with
    | .err e _ =>
      match Emitter.emit dbg args.fileName source e with
      | some text => .exit 1 [] text
      | none => .panic
    | .panic _ => .panic
    | .oof => .panic
    | .ok program _ =>
      if args.check then .exit 0 c!"Parsed successfully!\n" []
      else
        match args.format with
        | some f => .exit 0 (generateCode (f = c!"minified") program ++ c!"\n") []
        | none => .exit 0 (show_ program ++ c!"\n") []

end Cli
end Fajt
