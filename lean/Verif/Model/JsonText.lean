import Verif.Model.Serde
/-!
# The text of JSON

The test suite stores trees as JSON (`/repo/tests/verify_snapshots.rs:165-175,235-240`: `serde_json::from_str` and
`serde_json::to_string_pretty`).  Modelled from the documentation and sources of serde_json 1.0 (not part of `/repo`): the pretty printer, and
the reader for texts without numbers (no type of the tree reads a number; a text with one is refused here).  `from_str`
drives the deserialisers directly; the model reads a value first and deserialises it then (`Verif.Model.Serde`).  Simplification: the limit of 128
for the nesting counts also in fields that are skipped.
-/
namespace Fajt
namespace JsonText

/-- A hexadecimal digit (lower case), for serde_json's `ser::CharEscape::AsciiControl`, used by `/repo/tests/verify_snapshots.rs:239`. -/
def hexDigit (n : Nat) : Char := (c!"0123456789abcdef").getD n '0'

/-- The characters that stand for a character in a string (serde_json `ser.rs` `ESCAPE`), used by `/repo/tests/verify_snapshots.rs:239`. -/
def escapeChar (c : Char) : Str :=
  if c = '"' then c!"\\\""
  else if c = '\\' then c!"\\\\"
  else if c.toNat = 8 then c!"\\b"
  else if c.toNat = 12 then c!"\\f"
  else if c = '\n' then c!"\\n"
  else if c = '\r' then c!"\\r"
  else if c = '\t' then c!"\\t"
  else if c.toNat < 32 then ['\\', 'u', '0', '0', hexDigit (c.toNat / 16), hexDigit (c.toNat % 16)]
  else [c]

/-- A string with its quotes (serde_json `format_escaped_str`), used by `/repo/tests/verify_snapshots.rs:239`. -/
def quoted (s : Str) : Str := '"' :: (s.flatMap escapeChar ++ ['"'])

/-- A new line with indentation (serde_json `PrettyFormatter`: two blanks per level), used by `/repo/tests/verify_snapshots.rs:239`. -/
def newLine (ind : Nat) : Str := '\n' :: List.replicate (2 * ind) ' '

mutual
/-- `serde_json::to_string_pretty` at a level of indentation, used by `/repo/tests/verify_snapshots.rs:239`. -/
def pretty (ind : Nat) : Json → Str
  | .null => c!"null"
  | .bool true => c!"true"
  | .bool false => c!"false"
  | .str s => quoted s
  | .arr [] => c!"[]"
  | .arr (v :: vs) => '[' :: (newLine (ind + 1) ++ (pretty (ind + 1) v ++ (prettyItems (ind + 1) vs ++ (newLine ind ++ [']']))))
  | .obj [] => c!"{}"
  | .obj ((k, v) :: kvs) => '{' :: (newLine (ind + 1) ++ (quoted k ++ (':' :: ' ' :: (pretty (ind + 1) v ++
      (prettyFields (ind + 1) kvs ++ (newLine ind ++ ['}']))))))
/-- The elements of an array behind the first (serde_json `PrettyFormatter::begin_array_value`), used by `/repo/tests/verify_snapshots.rs:239`. -/
def prettyItems (ind : Nat) : List Json → Str
  | [] => []
  | v :: vs => ',' :: (newLine ind ++ (pretty ind v ++ prettyItems ind vs))
/-- The fields of an object behind the first (serde_json `PrettyFormatter::begin_object_key`), used by `/repo/tests/verify_snapshots.rs:239`. -/
def prettyFields (ind : Nat) : List (Str × Json) → Str
  | [] => []
  | (k, v) :: kvs => ',' :: (newLine ind ++ (quoted k ++ (':' :: ' ' :: (pretty ind v ++ prettyFields ind kvs))))
end

/-- White space of JSON (serde_json `parse_whitespace`), used by `/repo/tests/verify_snapshots.rs:170`. -/
def isBlank (c : Char) : Bool := c == ' ' || c == '\n' || c == '\t' || c == '\r'

@[inherit_doc isBlank]
def ws (s : Str) : Str := s.dropWhile isBlank

/-- The value of a hexadecimal digit (serde_json `read.rs` `decode_hex_val`), used by `/repo/tests/verify_snapshots.rs:170`. -/
def hexVal? (c : Char) : Option Nat :=
  let n := c.toNat
  if 48 ≤ n ∧ n ≤ 57 then some (n - 48)
  else if 97 ≤ n ∧ n ≤ 102 then some (n - 87)
  else if 65 ≤ n ∧ n ≤ 70 then some (n - 55)
  else none

/-- Four hexadecimal digits (serde_json `decode_hex_escape`), used by `/repo/tests/verify_snapshots.rs:170`. -/
def hex4 : Str → Option (Nat × Str)
  | a :: b :: c :: d :: r => do
    let a ← hexVal? a
    let b ← hexVal? b
    let c ← hexVal? c
    let d ← hexVal? d
    pure (((a * 16 + b) * 16 + c) * 16 + d, r)
  | _ => none

/-- The character of an escape behind `\u` (serde_json `parse_unicode_escape`: surrogates only in pairs), used by
`/repo/tests/verify_snapshots.rs:170`. -/
def unicodeEscape (s : Str) : Option (Char × Str) := do
  let (n, r) ← hex4 s
  if 0xD800 ≤ n ∧ n ≤ 0xDBFF then
    match r with
    | '\\' :: 'u' :: r =>
      let (m, r) ← hex4 r
      if 0xDC00 ≤ m ∧ m ≤ 0xDFFF then pure (Char.ofNat (0x10000 + (n - 0xD800) * 0x400 + (m - 0xDC00)), r) else none
    | _ => none
  else if 0xDC00 ≤ n ∧ n ≤ 0xDFFF then none
  else pure (Char.ofNat n, r)

/-- An escape behind the backslash (serde_json `parse_escape`), used by `/repo/tests/verify_snapshots.rs:170`. -/
def escape : Str → Option (Char × Str)
  | [] => none
  | c :: r =>
    if c = '"' ∨ c = '\\' ∨ c = '/' then some (c, r)
    else if c = 'b' then some (Char.ofNat 8, r)
    else if c = 'f' then some (Char.ofNat 12, r)
    else if c = 'n' then some ('\n', r)
    else if c = 'r' then some ('\r', r)
    else if c = 't' then some ('\t', r)
    else if c = 'u' then unicodeEscape r
    else none

/-- The rest of a string (serde_json `parse_str`), used by `/repo/tests/verify_snapshots.rs:170`.  The number bounds the recursion. -/
def string : Nat → Str → Option (Str × Str)
  | 0, _ => none
  | _ + 1, [] => none
  | n + 1, c :: r =>
    if c = '"' then some ([], r)
    else if c = '\\' then do
      let (c, r) ← escape r
      let (s, r) ← string n r
      pure (c :: s, r)
    else if c.toNat < 32 then none
    else do
      let (s, r) ← string n r
      pure (c :: s, r)

/-- The text without the given beginning (serde_json `parse_ident`), used by `/repo/tests/verify_snapshots.rs:170`. -/
def expect : Str → Str → Option Str
  | [], s => some s
  | c :: w, d :: s => if c = d then expect w s else none
  | _ :: _, [] => none

mutual
/-- `serde_json::from_str`, a value in front of a rest (serde_json `deserialize_any`), used by `/repo/tests/verify_snapshots.rs:170`.  The
first number bounds the recursion of the model, the second is serde_json's `remaining_depth`. -/
def value : Nat → Nat → Str → Option (Json × Str)
  | 0, _, _ => none
  | n + 1, d, s =>
    match ws s with
    | 'n' :: r => do
      let r ← expect c!"ull" r
      pure (.null, r)
    | 't' :: r => do
      let r ← expect c!"rue" r
      pure (.bool true, r)
    | 'f' :: r => do
      let r ← expect c!"alse" r
      pure (.bool false, r)
    | '"' :: r => do
      let (s, r) ← string (r.length + 1) r
      pure (.str s, r)
    | '[' :: r =>
      if d ≤ 1 then none
      else match ws r with
        | ']' :: r => some (.arr [], r)
        | r => do
          let (vs, r) ← items n (d - 1) r
          pure (.arr vs, r)
    | '{' :: r =>
      if d ≤ 1 then none
      else match ws r with
        | '}' :: r => some (.obj [], r)
        | r => do
          let (kvs, r) ← fields n (d - 1) r
          pure (.obj kvs, r)
    | _ => none
/-- The elements of an array (serde_json `SeqAccess`), used by `/repo/tests/verify_snapshots.rs:170`. -/
def items : Nat → Nat → Str → Option (List Json × Str)
  | 0, _, _ => none
  | n + 1, d, s => do
    let (v, r) ← value n d s
    match ws r with
    | ',' :: r =>
      let (vs, r) ← items n d r
      pure (v :: vs, r)
    | ']' :: r => pure ([v], r)
    | _ => none
/-- The fields of an object (serde_json `MapAccess`), used by `/repo/tests/verify_snapshots.rs:170`. -/
def fields : Nat → Nat → Str → Option (List (Str × Json) × Str)
  | 0, _, _ => none
  | n + 1, d, s =>
    match ws s with
    | '"' :: r => do
      let (k, r) ← string (r.length + 1) r
      match ws r with
      | ':' :: r =>
        let (v, r) ← value n d r
        match ws r with
        | ',' :: r =>
          let (kvs, r) ← fields n d r
          pure ((k, v) :: kvs, r)
        | '}' :: r => pure ([(k, v)], r)
        | _ => none
      | _ => none
    | _ => none
end

/-- `serde_json::from_str`, used by `/repo/tests/verify_snapshots.rs:170`: behind the value there is only white space.  The nesting is
limited by 128 (serde_json `remaining_depth`). -/
def parse (s : Str) : Option Json :=
  match value (s.length + 1) 128 s with
  | some (j, r) => if ws r = [] then some j else none
  | none => none

end JsonText
end Fajt
