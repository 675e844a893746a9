import Verif.Model.Snapshot
/-!
# The files that become tests (`/repo/macros/src/for_each_file.rs`, `/repo/tests/verify_snapshots.rs:243-291`)

The macro `for_each_file` walks through a folder at compile time and calls a macro for every file; `generate_test_cases` turns the Markdown
files into tests.  Modelled: the walk over a tree of directory entries (in the order in which the file system lists them), the names.  Not modelled:
entries that cannot be read and names that are not Unicode (a panic), the parsing of the input of the macro, and that the compiler refuses two tests
with the same name in one module or a test that is named like a keyword.
-/
namespace Fajt
namespace TestFiles

/-- An entry of a directory, for `std::fs::DirEntry` (`/repo/macros/src/for_each_file.rs:56-62`). -/
inductive Entry where
  | file (name : Str)
  | dir (name : Str) (entries : List Entry)
  /-- neither a file nor a directory (a link, say) -/
  | other (name : Str)

/-- `/repo/macros/src/for_each_file.rs:13-17` `File`. -/
structure File where
  path : Str
  relativePath : Str
  extension : Str
deriving DecidableEq

/-- A text split at its last dot (core library `rsplitn(2, '.')`), for `Path::extension` at `/repo/macros/src/for_each_file.rs:85-86`. -/
def splitLastDot : Str → Option (Str × Str)
  | [] => none
  | c :: cs =>
    match splitLastDot cs with
    | some (stem, ext) => some (c :: stem, ext)
    | none => if c = '.' then some ([], cs) else none

/-- `Path::extension` of the standard library, used at `/repo/macros/src/for_each_file.rs:84-90`. -/
def extension (name : Str) : Option Str :=
  if name = c!".." then none
  else match splitLastDot name with
    | some (_ :: _, ext) => some ext
    | _ => none

/-- `/repo/macros/src/for_each_file.rs:81-97` `to_file`; `none`: panic (a file without an extension).  `path` is the path of the directory; the
path of the entry is that path, a slash and the name. -/
def toFile (path relativePath name : Str) : Option File :=
  match extension name with
  | none => none
  | some ext => some { path := path ++ '/' :: name, relativePath := relativePath ++ name, extension := ext }

mutual
/-- `/repo/macros/src/for_each_file.rs:53-79` `find_files`; `none`: panic. -/
def findFiles (path directoryPath : Str) : List Entry → Option (List File)
  | [] => some []
  | e :: es => do
    let files ← entryFiles path directoryPath e
    let more ← findFiles path directoryPath es
    pure (files ++ more)
/-- `/repo/macros/src/for_each_file.rs:56-76`, for one entry. -/
def entryFiles (path directoryPath : Str) : Entry → Option (List File)
  | .file name => (toFile path directoryPath name).map ([·])
  | .dir name entries =>
    let relativePath := name ++ c!"/"
    let dirPrefix := if directoryPath = [] then relativePath else directoryPath ++ relativePath
    findFiles (path ++ '/' :: name) dirPrefix entries
  | .other _ => some []
end

/-- `char::is_ascii_alphanumeric`, used at `/repo/macros/src/for_each_file.rs:104`. -/
def alnum (c : Char) : Bool :=
  ('a' ≤ c && c ≤ 'z') || ('A' ≤ c && c ≤ 'Z') || ('0' ≤ c && c ≤ '9')

/-- `/repo/macros/src/for_each_file.rs:99-106` `create_identifier`; `none`: `format_ident!` panics (the name is empty or starts with a digit).  The
name ends in a dot and the extension; the bytes that are cut off are counted as characters. -/
def createIdentifier (name ext : Str) : Option Str :=
  let name := (name.take (name.length - (ext.length + 1))).map fun c => if c = '-' ∨ c = '.' then '_' else c
  let name := name.flatMap fun c => if c = '/' then c!"__" else [c]
  match name.filter fun c => alnum c || c = '_' with
  | [] => none
  | c :: cs => if '0' ≤ c ∧ c ≤ '9' then none else some (c :: cs)

/-- A test that `generate_test_cases` makes (`/repo/tests/verify_snapshots.rs:243-258`). -/
structure Test where
  name : Str
  path : Str
  ignored : Bool
deriving DecidableEq

/-- `/repo/tests/verify_snapshots.rs:243-258` `generate_test_cases`. -/
def generateTestCases (extension path identifier : Str) : List Test :=
  if extension = c!"md" then [⟨identifier, path, false⟩]
  else if extension = c!"md_ignore" then [⟨identifier, path, true⟩]
  else []

/-- The invocations of the macro for some files (`/repo/macros/src/for_each_file.rs:41-50`); `none`: panic. -/
def invocations : List File → Option (List Test)
  | [] => some []
  | f :: fs => do
    let identifier ← createIdentifier f.relativePath f.extension
    let more ← invocations fs
    pure (generateTestCases f.extension f.path identifier ++ more)

/-- `/repo/macros/src/for_each_file.rs:34-51` `for_each_file` for `generate_test_cases`: the tests of a folder; `none`: panic. -/
def forEachFile (root : Str) (entries : List Entry) : Option (List Test) :=
  (findFiles root [] entries).bind invocations

end TestFiles
end Fajt
