import Verif.Model.Emitter
/-!
# Serialisation and translation of spans (`/repo/ast/src/span.rs`)

`usize` is 64 bits wide.  The serde plumbing (`Serializer`, `Deserializer`, `Visitor::expecting`) is not modelled: the model
is the string that is handed to the serializer and the visitor that receives a string.
-/
namespace Fajt

/-- The outcome of deserialising: a value, a serde error with its message, or a panic (`unwrap` of a failed parse). -/
inductive Deser (α : Type) where
  | ok (a : α)
  | err (msg : Str)
  | panic
deriving DecidableEq, Repr

/-- Number of values of a `usize`. -/
def usizeCard : Nat := 2 ^ 64

/-- `str::parse::<usize>` (core library): an optional `+`, at least one decimal digit, only decimal digits, no overflow. -/
def parseUsize (s : Str) : Option Nat :=
  let ds := if s.head? = some '+' then s.tail else s
  if ds = [] ∨ ¬ ds.all Char.isDigit then none
  else
    let n := ds.foldl (fun acc c => acc * 10 + (c.toNat - '0'.toNat)) 0
    if n < usizeCard then some n else none

/-- `str.split(':')` (core library): the first part and the other parts. -/
def splitColon : Str → Str × List Str
  | [] => ([], [])
  | c :: cs =>
    let (p, ps) := splitColon cs
    if c = ':' then ([], p :: ps) else (c :: p, ps)

/-- `/repo/ast/src/span.rs:32-39` `Serialize for Span`. -/
def Span.serialize (s : Span) : Str := natStr s.start ++ ':' :: natStr s.stop

/-- `/repo/ast/src/span.rs:55-71` `visit_str`. -/
def Span.deserialize (s : Str) : Deser Span :=
  match splitColon s with
  | (start, stop :: _) =>
    match parseUsize start, parseUsize stop with
    | some a, some b => .ok ⟨a, b⟩
    | _, _ => .panic
  | (_, []) => .err (s ++ c!" is not a valid span.")

/-- `/repo/ast/src/span.rs:20-25` `translate`, release build: the casts between `usize` and `isize` and the addition wrap
around. -/
def Span.translate (s : Span) (offset : Int) : Span :=
  ⟨((s.start + offset) % usizeCard).toNat, ((s.stop + offset) % usizeCard).toNat⟩

end Fajt
