import Verif.Model.Snapshot
import Verif.Spec.Ascii
open Fajt Fajt.Snapshot
def main (args : List String) : IO Unit := do
  let mut np := 0
  let mut rt := 0
  for f in args do
    let s ← IO.FS.readFile f
    match @runTest asciiID ⟨fun _ => [], fun _ => []⟩ s.toList with
    | .pass => np := np + 1
    | .fail => IO.println s!"FAIL {f}"
    | .rewritten _ => IO.println s!"REWRITE {f}"
    match Fajt.Markdown.fromString s.toList with
    | some m => match Fajt.Markdown.getBlockContent m c!"Output: ast" with
      | some a => match JsonText.parse a with
        | some j => if JsonText.pretty 0 j ++ ['\n'] == a then rt := rt + 1 else IO.println s!"TEXT {f}"
        | none => IO.println s!"NOPARSE {f}"
      | none => pure ()
    | none => pure ()
  IO.println s!"pass {np} of {args.length}, same text {rt}"
