import Verif.Model.TestFiles
/-!
# The files of a folder, and names for tests
-/
namespace Fajt.Spec.TestFiles
open Fajt.TestFiles

/-- There is a file `name` in the folder below the directories `dirs`. -/
inductive Located : List Entry → List Str → Str → Prop
  | here {es : List Entry} {name : Str} : Entry.file name ∈ es → Located es [] name
  | inside {es sub : List Entry} {d : Str} {dirs : List Str} {name : Str} :
      Entry.dir d sub ∈ es → Located sub dirs name → Located es (d :: dirs) name

/-- Directories, separated by slashes, and a name behind them. -/
def pathOf (dirs : List Str) (name : Str) : Str := dirs.flatMap (· ++ ['/']) ++ name

/-- The name of an entry. -/
def nameOf : Entry → Str
  | .file n => n
  | .dir n _ => n
  | .other n => n

/-- What every file system guarantees: the names in a directory are different, and have no slashes. -/
inductive Folder : List Entry → Prop
  | mk {es : List Entry} : (es.map nameOf).Nodup → (∀ e ∈ es, '/' ∉ nameOf e) → (∀ d sub, Entry.dir d sub ∈ es → Folder sub) → Folder es

/-- The words with dashes between them. -/
def dashed : List Str → Str
  | [] => []
  | [w] => w
  | w :: ws => w ++ '-' :: dashed ws

/-- A letter or a digit. -/
def Plain (c : Char) : Prop := c ∈ (c!"abcdefghijklmnopqrstuvwxyzABCDEFGHIJKLMNOPQRSTUVWXYZ0123456789")

/-- Words of letters and digits, separated by single dashes, perhaps behind an underscore. -/
def PlainName (n : Str) : Prop :=
  ∃ ws : List Str, ws ≠ [] ∧ (∀ w ∈ ws, w ≠ [] ∧ ∀ c ∈ w, Plain c) ∧ (n = dashed ws ∨ n = '_' :: dashed ws)

end Fajt.Spec.TestFiles
