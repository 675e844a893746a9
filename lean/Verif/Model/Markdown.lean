import Verif.Model.Emitter
/-!
# The snapshot files of the test suite (`/repo/testing/src`)

The crate `fajt_testing` reads and rewrites Markdown files that hold a program and its expected tree, output or error.  A function that
panics (`unwrap`, `expect`) returns `none`.  The regular expressions `(?m)^###` and ``(?m)^``` `` of the `regex` crate are modelled by
the two functions `findBol` and `splitBol`; files are strings (reading and writing them cannot fail in the model).
-/
namespace Fajt
namespace Markdown

/-- `/repo/testing/src/markdown/section.rs:10-14` `struct MarkdownBlock`. -/
structure CodeBlock where
  language : Str
  contents : Str
deriving DecidableEq, Repr

/-- `/repo/testing/src/markdown/section.rs:3-8` `struct MarkdownSection`. -/
structure Section where
  name : Str
  text : Option Str
  block : Option CodeBlock
deriving DecidableEq, Repr

/-- `char::is_whitespace` (core library): the Unicode property `White_Space`. -/
def isWhitespace (c : Char) : Bool :=
  let n := c.toNat
  (9 ≤ n && n ≤ 13) || n = 0x20 || n = 0x85 || n = 0xA0 || n = 0x1680 || (0x2000 ≤ n && n ≤ 0x200A)
    || n = 0x2028 || n = 0x2029 || n = 0x202F || n = 0x205F || n = 0x3000

/-- `str::trim` (core library). -/
def trim (s : Str) : Str := ((s.dropWhile isWhitespace).reverse.dropWhile isWhitespace).reverse

/-- `Regex::find` for the expression `(?m)^kkk` (used at `/repo/testing/src/markdown/section.rs:84-90`): the text before and after the
first place where `kkk` starts a line.  `bol` says whether the text starts a line; the code always searches from the beginning of a
`&str`, which counts as the start of a line. -/
def findBol (k : Char) : Bool → Str → Option (Str × Str)
  | _, [] => none
  | bol, c :: cs =>
    if bol && [k, k, k].isPrefixOf (c :: cs) then some ([], cs.drop 2)
    else (findBol k (c == '\n') cs).map fun p => (c :: p.1, p.2)

/-- `Regex::split` for `(?m)^kkk` (used at `/repo/testing/src/markdown/section.rs:18-19`): the pieces between the places where `kkk`
starts a line.  The first argument counts the characters of the current match that are still to be skipped. -/
def splitBol (k : Char) : Nat → Bool → Str → List Str
  | _, _, [] => [[]]
  | n + 1, _, _ :: cs => splitBol k n false cs
  | 0, bol, c :: cs =>
    if bol && [k, k, k].isPrefixOf (c :: cs) then [] :: splitBol k 2 false cs
    else match splitBol k 0 (c == '\n') cs with
      | h :: t => (c :: h) :: t
      | [] => [[c]]

/-- `s.split_once('\n')` (core library). -/
def splitOnceLF : Str → Option (Str × Str)
  | [] => none
  | c :: cs => if c = '\n' then some ([], cs) else (splitOnceLF cs).map fun p => (c :: p.1, p.2)

/-- `/repo/testing/src/markdown/section.rs:77-81` `split_title`. -/
def splitTitle (s : Str) : Option (Str × Str) := do
  let (titleLine, rest) ← splitOnceLF s
  pure (trim titleLine, trim rest)

/-- `/repo/testing/src/markdown/section.rs:83-108` `split_code_block`. -/
def splitCodeBlock (s : Str) : Option (Option Str × Option CodeBlock) :=
  match findBol '`' true s with
  | some (before, after) => do
    let (content, _) ← findBol '`' true after
    let (lang, contents) ← splitOnceLF content
    let text := trim before
    pure (if text = [] then none else some text, some ⟨trim lang, contents⟩)
  | none => some (if s = [] then none else some s, none)

/-- The closure of `/repo/testing/src/markdown/section.rs:21-26`. -/
def sectionOf (s : Str) : Option Section := do
  let (name, content) ← splitTitle s
  let (text, block) ← splitCodeBlock content
  pure ⟨name, text, block⟩

/-- `/repo/testing/src/markdown/section.rs:17-28` `MarkdownSection::from_string` and `/repo/testing/src/markdown.rs:14-17`
`Markdown::from_string`. -/
def fromString (data : Str) : Option (List Section) :=
  ((splitBol '#' 0 true data).filter (· ≠ [])).mapM sectionOf

/-- `/repo/testing/src/markdown/section.rs:35-55` `ToString for MarkdownBlock`. -/
def CodeBlock.toStr (b : CodeBlock) : Str :=
  c!"```" ++ b.language ++ c!"\n" ++ b.contents
    ++ (if b.contents.getLast? = some '\n' then [] else c!"\n") ++ c!"```"

/-- `/repo/testing/src/markdown/section.rs:57-75` `ToString for MarkdownSection`. -/
def Section.toStr (s : Section) : Str :=
  c!"### " ++ s.name ++ c!"\n"
    ++ (match s.text with | some t => t ++ c!"\n\n" | none => [])
    ++ (match s.block with | some b => b.toStr | none => [])

/-- `/repo/testing/src/markdown.rs:39-44` `ToString for Markdown`. -/
def docStr (m : List Section) : Str := List.intercalate c!"\n\n" (m.map Section.toStr)

/-- `/repo/testing/src/markdown.rs:19-21` `get_section`. -/
def getSection (m : List Section) (name : Str) : Option Section := m.find? (·.name = name)

/-- `/repo/testing/src/markdown.rs:23-26` `get_block`. -/
def getBlock (m : List Section) (name : Str) : Option CodeBlock := (getSection m name).bind (·.block)

/-- `/repo/testing/src/markdown.rs:28-30` `get_block_content`. -/
def getBlockContent (m : List Section) (name : Str) : Option Str := (getBlock m name).map (·.contents)

/-- `/repo/testing/src/markdown.rs:32-36` `set_block_content`: only the first section of that name is changed. -/
def setBlockContent : List Section → Str → Str → Str → List Section
  | [], _, _, _ => []
  | s :: m, name, language, contents =>
    if s.name = name then { s with block := some ⟨language, contents⟩ } :: m
    else s :: setBlockContent m name language contents

/-- What `/repo/testing/src/lib.rs:7-15` `write_string` leaves in the file. -/
def fileOf (s : Str) : Str := s ++ c!"\n"

end Markdown
end Fajt
