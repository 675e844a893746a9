import Verif.Model.Reader
/-!
# The lexer (`/repo/lexer/src`)

`fajt_lexer::Lexer` holds the whole source, a lexer state, a peeking character reader and the flag `first_on_line`.
The functions below run in the monad `L` over the `Cursor`; the lexer state is an argument, because no lexer function
changes it.
-/
namespace Fajt

/-- `/repo/lexer/src/code_point.rs:12-20` `is_ecma_whitespace`. -/
def isWS (c : Char) : Bool :=
  let n := c.toNat
  n == 0x09 || n == 0x0B || n == 0x0C || n == 0x20 || n == 0xA0 || n == 0xFEFF || n == 0x1680 ||
    (0x2000 ≤ n && n ≤ 0x200A) || n == 0x202F || n == 0x205F || n == 0x3000

/-- `/repo/lexer/src/code_point.rs:22-24` `is_ecma_line_terminator`. -/
def isLT (c : Char) : Bool :=
  let n := c.toNat
  n == 0x0A || n == 0x0D || n == 0x2028 || n == 0x2029

/-- Properties of characters that come from Unicode tables: the crate `unicode_id` (`/repo/lexer/src/code_point.rs:1,27,32`)
and `char::is_alphanumeric` (`/repo/codegen/src/lib.rs`).  The tables themselves are not modelled; only the laws below are
used. -/
class UnicodeID where
  /-- `UnicodeID::is_id_start` -/
  idStart : Char → Bool
  /-- `UnicodeID::is_id_continue` -/
  idContinue : Char → Bool
  /-- `char::is_alphanumeric` -/
  alphanumeric : Char → Bool
  /-- ID_Start ⊆ ID_Continue -/
  start_continue : ∀ c, idStart c = true → idContinue c = true
  /-- on ASCII: letters -/
  ascii_start : ∀ c, c.toNat < 128 → idStart c = c.isAlpha
  /-- on ASCII: letters, digits and `_` -/
  ascii_continue : ∀ c, c.toNat < 128 → idContinue c = (c.isAlphanum || c == '_')
  /-- ID_Continue contains no white space and no line terminator -/
  blank : ∀ c, (isWS c || isLT c) = true → idContinue c = false
  /-- on ASCII: letters and digits -/
  ascii_alphanumeric : ∀ c, c.toNat < 128 → alphanumeric c = c.isAlphanum

variable [UnicodeID]

/-- `/repo/lexer/src/code_point.rs:26-28` `is_start_of_identifier`. -/
def isIdStart (c : Char) : Bool := c.isAlpha || c == '_' || c == '$' || UnicodeID.idStart c

/-- `/repo/lexer/src/code_point.rs:30-33` `is_part_of_identifier`. -/
def isIdPart (c : Char) : Bool :=
  c.isDigit || c.isAlpha || c == '_' || c == '$' || c.toNat == 0x200C || c.toNat == 0x200D || UnicodeID.idContinue c

/-- `'0'..='9' | 'a'..='f' | 'A'..='F'` / `char::is_ascii_hexdigit`. -/
def isHex (c : Char) : Bool := c.isDigit || ('a' ≤ c && c ≤ 'f') || ('A' ≤ c && c ≤ 'F')

/-- `/repo/lexer/src/lib.rs:461-465` `LexerState`. -/
structure LexState where
  html : Bool
  regex : Bool
  template : Bool
deriving DecidableEq, Repr, Inhabited

/-- `/repo/lexer/src/lib.rs:490-498` `LexerState::default`. -/
def LexState.default : LexState := ⟨true, false, false⟩

/-- `/repo/lexer/src/lib.rs:475-480` `LexerState::regex_allowed`. -/
def LexState.regexAllowed : LexState := { LexState.default with regex := true }

/-- `/repo/lexer/src/lib.rs:482-487` `LexerState::inside_template`. -/
def LexState.insideTemplate : LexState := { LexState.default with template := true }

/-- `/repo/lexer/src/error.rs:18-27` `ErrorKind` of the lexer. -/
inductive LexErrKind where
  | invalidOrUnexpectedToken (t : Token)
  | forbiddenIdentifier (k : Keyword)
  | unrecognizedCodePoint (n : Nat)
  | syntaxError (msg : Str)
  | unexpectedEndOfStream
  | endOfStream
deriving DecidableEq, Repr

/-- `/repo/lexer/src/error.rs:12-16` `Error` of the lexer. -/
structure LexErr where
  span : Span
  kind : LexErrKind
deriving DecidableEq, Repr

/-- `/repo/lexer/src/error.rs:30-35` -/
def LexErr.endOfStream : LexErr := ⟨Span.empty, .endOfStream⟩
/-- `/repo/lexer/src/error.rs:37-42` -/
def LexErr.unexpectedEndOfStream : LexErr := ⟨Span.empty, .unexpectedEndOfStream⟩
/-- `/repo/lexer/src/error.rs:58-63` -/
def LexErr.syntax (msg : Str) (a b : Nat) : LexErr := ⟨⟨a, b⟩, .syntaxError msg⟩

/-- The lexer monad. -/
abbrev L (α : Type) := M Cursor LexErr α

/-- A loop `loop { .. }` with loop-carried values `β`: `.inl b` continues, `.inr a` breaks with `a`.  Fuel bounds the
number of iterations. -/
def loop {σ ε α β : Type} (body : β → M σ ε (β ⊕ α)) : Nat → β → M σ ε α
  | 0, _ => M.oof
  | n + 1, b => do
    match ← body b with
    | .inl b' => loop body n b'
    | .inr a => pure a

namespace Lexer

/-- `self.reader.consume()?`: at the end the character reader's `EndOfStream` becomes `UnexpectedEndOfStream`
(`/repo/lexer/src/error.rs:101-107`). -/
def consume : L Char := fun s =>
  match s.rest with
  | [] => .err LexErr.unexpectedEndOfStream s
  | c :: cs => .ok c (s.advance c cs)

/-- `self.reader.consume().unwrap()`. -/
def consumeUnwrap : L Char := fun s =>
  match s.rest with
  | [] => .panic c!"called `Result::unwrap()` on an `Err` value"
  | c :: cs => .ok c (s.advance c cs)

/-- `self.reader.current()?`. -/
def current : L Char := fun s =>
  match s.rest with
  | [] => .err LexErr.unexpectedEndOfStream s
  | c :: _ => .ok c s

/-- `self.reader.current().ok()`. -/
def cur? : L (Option Char) := M.gets Cursor.cur

/-- `self.reader.peek().ok()`. -/
def peek? : L (Option Char) := M.gets Cursor.peek

/-- `self.reader.position()`. -/
def position : L Nat := M.gets Cursor.pos

/-- `self.first_on_line = b`. -/
def setFol (b : Bool) : L Unit := M.modify fun s => { s with fol := b }

/-- Upper bound for the iterations of a loop that consumes at least one character each time but the last. -/
def fuel : L Nat := M.gets fun s => s.rest.length + 1

/-- `/repo/common/src/io/char_reader.rs:14-30` `read_while`. -/
def readWhileGo (check : Char → Bool) : List Char → Cursor → Str × Cursor
  | [], s => ([], s)
  | c :: cs, s =>
    if check c then
      let (r, s') := readWhileGo check cs (s.advance c cs)
      (c :: r, s')
    else ([], s)

@[inherit_doc readWhileGo]
def readWhile (check : Char → Bool) : L Str := fun s =>
  let (r, s') := readWhileGo check s.rest s
  .ok r s'

/-- `/repo/lexer/src/lib.rs:432-453` `skip_whitespaces`. -/
def skipWhitespacesGo : List Char → Cursor → Cursor
  | [], s => s
  | c :: cs, s =>
    if isLT c then skipWhitespacesGo cs ({ s with fol := true }.advance c cs)
    else if isWS c then skipWhitespacesGo cs (s.advance c cs)
    else s

@[inherit_doc skipWhitespacesGo]
def skipWhitespaces : L Unit := fun s => .ok () (skipWhitespacesGo s.rest s)

/-- `/repo/lexer/src/lib.rs:297-305` `skip_rest_of_line`. -/
def skipRestOfLine : L Unit := do
  let _ ← readWhile fun c => !isLT c
  if (← cur?).isSome then
    let _ ← consumeUnwrap

/-- `/repo/lexer/src/lib.rs:290-295` `skip_single_line_comment`. -/
def skipSingleLineComment : L Unit := do
  let _ ← consumeUnwrap
  let _ ← consumeUnwrap
  skipRestOfLine

/-- `/repo/lexer/src/lib.rs:307-336` `skip_multi_line_comment` (the collected content is never used and dropped here). -/
def skipMultiLineComment : L Unit := do
  let spanStart ← position
  let _ ← consume
  let _ ← consume
  loop (fun () => do
    if (← cur?) = some '*' ∧ (← peek?) = some '/' then
      let _ ← consume
      let _ ← consume
      return .inr ()
    if (← cur?).isNone then
      M.throw (LexErr.syntax c!"Unterminated comment" spanStart (spanStart + 2))
    let c ← consume
    if isLT c then setFol true
    return .inl ()) (← fuel) ()

/-- `/repo/lexer/src/lib.rs:258-288` `skip_comments_and_white_spaces`. -/
def skipCommentsAndWhiteSpaces (st : LexState) : L Unit := do
  loop (fun () => do
    skipWhitespaces
    let c ← cur?
    let p ← peek?
    if c = some '/' ∧ p = some '/' then
      skipSingleLineComment
      setFol true
      return .inl ()
    else if c = some '<' ∧ p = some '!' then
      if !st.html then
        let position ← position
        M.throw (LexErr.syntax c!"HTML comments are not allowed in this context" position (position + 2))
      skipSingleLineComment
      setFol true
      return .inl ()
    else if c = some '/' ∧ p = some '*' then
      skipMultiLineComment
      return .inl ()
    else return .inr ()) (← fuel) ()
  skipWhitespaces

/-! ## Numbers (`/repo/lexer/src/number.rs`) -/

/-- `str::contains("__")`. -/
def hasDoubleUnderscore : Str → Bool
  | '_' :: '_' :: _ => true
  | _ :: cs => hasDoubleUnderscore cs
  | [] => false

/-- `/repo/lexer/src/number.rs:130-153` `read_number_string`. -/
def readNumberString (spanStart : Nat) (check : Char → Bool) : L Str := do
  let str ← readWhile fun c => check c || c == '_'
  if hasDoubleUnderscore str then do
    M.throw (LexErr.syntax c!"Number cannot contain multiple adjacent underscores" spanStart (← position))
  else if str.getLast? = some '_' then do
    M.throw (LexErr.syntax c!"Number cannot end with underscore" spanStart (← position))
  else return str

/-- `/repo/lexer/src/number.rs:112-128` `expect_read_number_string`. -/
def expectReadNumberString (spanStart : Nat) (check : Char → Bool) : L Str := do
  let str ← readNumberString spanStart check
  if str.isEmpty then
    let position ← position
    M.throw (LexErr.syntax c!"Expected number" position position)
  return str

/-- `/repo/lexer/src/number.rs:40-79` `read_hex_string`, `read_octal_string`, `read_binary_string`: the same code three
times, with a different digit test. -/
def readPrefixedString (check : Char → Bool) : L Str := do
  let spanStart ← position
  let a ← consume
  let b ← consume
  let digits ← expectReadNumberString spanStart check
  return a :: b :: digits

/-- `/repo/lexer/src/number.rs:89-95`: the optional fraction of `read_decimal_string`. -/
def readFraction (spanStart : Nat) : L Str := do
  if (← cur?) = some '.' then do
    let dot ← consume
    let digits ← readNumberString spanStart Char.isDigit
    return dot :: digits
  else return []

/-- `/repo/lexer/src/number.rs:100-102`: the optional sign of the exponent in `read_decimal_string`. -/
def readSign : L Str := do
  let c ← cur?
  if c = some '-' ∨ c = some '+' then do
    let sign ← consume
    return [sign]
  else return []

/-- `/repo/lexer/src/number.rs:97-107`: the optional exponent of `read_decimal_string`. -/
def readExponent (spanStart : Nat) : L Str := do
  let c ← cur?
  if c = some 'e' ∨ c = some 'E' then do
    let e ← consume
    let sign ← readSign
    let digits ← expectReadNumberString spanStart Char.isDigit
    return e :: (sign ++ digits)
  else return []

/-- `/repo/lexer/src/number.rs:81-110` `read_decimal_string`. -/
def readDecimalString : L Str := do
  let spanStart ← position
  let integer ← readNumberString spanStart Char.isDigit
  let fraction ← readFraction spanStart
  let exponent ← readExponent spanStart
  return integer ++ (fraction ++ exponent)

/-- `/repo/lexer/src/number.rs:8-27`: the choice of the base in `read_number_literal`. -/
def readNumberText : L Str := do
  let current ← current
  let peek ← peek?
  if current = '0' ∧ (peek = some 'x' ∨ peek = some 'X') then readPrefixedString isHex
  else if current = '0' ∧ (peek = some 'o' ∨ peek = some 'O') then readPrefixedString fun c => '0' ≤ c && c ≤ '7'
  else if current = '0' ∧ (peek = some 'b' ∨ peek = some 'B') then readPrefixedString fun c => c == '0' || c == '1'
  else if current = '0' ∧ peek.any Char.isDigit then do
    let position ← position
    M.throw (LexErr.syntax c!"Zero prefixed numbers are deprecated and not supported" position (position + 1))
  else readDecimalString

/-- `/repo/lexer/src/number.rs:8-38` `read_number_literal`. -/
def readNumberLiteral : L TokVal := do
  let str ← readNumberText
  if (← cur?).any isIdStart then do
    let position ← position
    M.throw (LexErr.syntax c!"Number cannot be followed by identifier without separation" position position)
  else return .lit (.number str)

/-! ## Strings (`/repo/lexer/src/string.rs`) -/

/-- `/repo/lexer/src/string.rs:40-49` `read_escape_sequence`: the characters it pushes. -/
def readEscapeSequence : L Str := do
  let c ← consume
  if c = '\r' ∧ (← cur?) = some '\n' then
    let d ← consume
    return [c, d]
  return [c]

/-- `/repo/lexer/src/string.rs:18-38,51-61` `read_until_unescaped_delimiter`, `validate_character`.  The loop carries the
characters pushed so far. -/
def readUntilUnescapedDelimiter (delimiter : Char) : L Str := do
  loop (fun acc => do
    let c ← consume
    if c = '\\' then
      return .inl (acc ++ (← readEscapeSequence))
    else if c = delimiter then
      return .inr acc
    else
      if c = '\r' ∨ c = '\n' then
        let charPos := (← position) - 1
        M.throw (LexErr.syntax c!"String contained unescaped new line" charPos charPos)
      return .inl (acc ++ [c])) (← fuel) []

/-- `/repo/lexer/src/string.rs:5-17` `read_string_literal`. -/
def readStringLiteral : L TokVal := do
  let delimiter ← consume
  let value ← readUntilUnescapedDelimiter delimiter
  return .lit (.string ⟨value, delimiter⟩)

/-! ## Regular expressions (`/repo/lexer/src/regexp.rs`) -/

/-- `/repo/lexer/src/regexp.rs:43-57` `read_regexp_group_body`. -/
def readRegexpGroupBody : L Str := do
  loop (fun acc => do
    let c ← consume
    let acc := acc ++ [c]
    if c = ']' then return .inr acc
    else if c = '\\' then return .inl (acc ++ [← consume])
    else return .inl acc) (← fuel) []

/-- `/repo/lexer/src/regexp.rs:8-41` `read_regexp_literal`. -/
def readRegexpLiteral : L TokVal := do
  let spanStart ← position
  let start ← consume
  let body ← loop (fun acc => do
    let c ← consume
    let acc := acc ++ [c]
    if c = '\n' then
      M.throw (LexErr.syntax c!"Unterminated regular expression literal" spanStart ((← position) - 1))
    else if c = '/' then return .inr acc
    else if c = '\\' then
      if !isLT (← current) then return .inl (acc ++ [← consume]) else return .inl acc
    else if c = '[' then return .inl (acc ++ (← readRegexpGroupBody))
    else return .inl acc) (← fuel) [start]
  let flags ← readWhile isIdPart
  return .lit (.regexp (body ++ flags))

/-! ## Identifiers and unicode escapes (`/repo/lexer/src/unicode_escape_sequence.rs`) -/

/-- Value of a hexadecimal digit, as in `u32::from_str_radix(_, 16)`. -/
def hexDigitVal (c : Char) : Nat :=
  if c.isDigit then c.toNat - '0'.toNat
  else if 'a' ≤ c && c ≤ 'f' then c.toNat - 'a'.toNat + 10
  else c.toNat - 'A'.toNat + 10

/-- `u32::from_str_radix(hex, 16)` without the overflow check: an overflowing value is above `0x10FFFF` and rejected
by the same test (`unicode_escape_sequence.rs:75-84`). -/
def hexVal (s : Str) : Nat := s.foldl (fun n c => n * 16 + hexDigitVal c) 0

/-- `/repo/lexer/src/unicode_escape_sequence.rs:98-109` `read_hex_char`. -/
def readHexChar (spanStart : Nat) : L Char := do
  let c ← consume
  if isHex c then return c
  else M.throw (LexErr.syntax c!"Invalid escape sequence" spanStart (← position))

/-- `/repo/lexer/src/unicode_escape_sequence.rs:61-85` `read_code_point`. -/
def readCodePoint (spanStart : Nat) : L Nat := do
  let _ ← consume
  let hex ← loop (fun acc => do
    let acc := acc ++ [← readHexChar spanStart]
    if (← current) = '}' then
      let _ ← consume
      return .inr acc
    else return .inl acc) (← fuel) []
  if hexVal hex ≤ 0x10FFFF then return hexVal hex
  else M.throw (LexErr.syntax c!"Invalid escape sequence" spanStart (← position))

/-- `/repo/lexer/src/unicode_escape_sequence.rs:87-96` `read_4digit_hex`. -/
def read4DigitHex (spanStart : Nat) : L Nat := do
  let a ← readHexChar spanStart
  let b ← readHexChar spanStart
  let c ← readHexChar spanStart
  let d ← readHexChar spanStart
  return hexVal [a, b, c, d]

/-- `char::try_from(u32)`: surrogates (and values above `0x10FFFF`) are not characters. -/
def charOfNat? (n : Nat) : Option Char := if n.isValidChar then some (Char.ofNat n) else none

/-- `/repo/lexer/src/unicode_escape_sequence.rs:45-48`: the two forms of `read_unicode_escape_sequence`. -/
def readEscapeDigits (spanStart : Nat) : L Nat := do
  if (← current) = '{' then readCodePoint spanStart else read4DigitHex spanStart

/-- `/repo/lexer/src/unicode_escape_sequence.rs:31-59` `read_unicode_escape_sequence`. -/
def readUnicodeEscapeSequence : L Char := do
  let spanStart ← position
  let _ ← consume
  let u ← consume
  if u ≠ 'u' then do
    M.throw (LexErr.syntax c!"Invalid escape sequence" spanStart (← position))
  else do
    let codePoint ← readEscapeDigits spanStart
    match charOfNat? codePoint with
    | some c => return c
    | none =>
      let position ← position
      M.throw ⟨⟨position, position⟩, .unrecognizedCodePoint codePoint⟩

/-- `/repo/lexer/src/unicode_escape_sequence.rs:8-29` `read_and_expand_unicode_escape_sequence`. -/
def readAndExpandUnicodeEscapeSequence (isStart : Bool) : L Char := do
  let spanStart ← position
  let c ← readUnicodeEscapeSequence
  let valid := if isStart then isIdStart c else isIdPart c
  if !valid then
    M.throw (LexErr.syntax c!"Invalid escape sequence" spanStart (← position))
  return c

/-- `/repo/lexer/src/lib.rs:349-364` `read_identifier_or_keyword_expand_unicode`. -/
def readIdentifierWord : L Str := do
  loop (fun word => do
    match ← cur? with
    | some c =>
      if isIdPart c then return .inl (word ++ [← consume])
      else if c = '\\' then return .inl (word ++ [← readAndExpandUnicodeEscapeSequence word.isEmpty])
      else return .inr word
    | none => return .inr word) (← fuel) []

/-- `/repo/lexer/src/lib.rs:338-347` `read_identifier_or_keyword`. -/
def readIdentifierOrKeyword : L TokVal := do
  let word ← readIdentifierWord
  match Keyword.fromStr word with
  | some k => return .keyword k
  | none => return .ident word

/-! ## Templates -/

/-- `/repo/lexer/src/lib.rs:409-430` `read_until_end_of_template_literal_part`: the text and whether it ended with `${`. -/
def readTemplatePart : L (Str × Bool) := do
  loop (fun (acc, escape) => do
    let c ← consume
    if !escape && c == '`' then return .inr (acc, false)
    else if !escape && c == '$' then do
      let d ← current
      if d = '{' then do
        let _ ← consume
        return .inr (acc, true)
      else return .inl (acc ++ [c], false)
    else
      let escape' := c == '\\' && !escape
      return .inl (if !escape' then acc ++ [c] else acc, escape')) (← fuel) ([], false)

/-- `/repo/lexer/src/lib.rs:366-380` `read_template_literal_head`. -/
def readTemplateLiteralHead : L TokVal := do
  let _ ← consume
  let (value, subst) ← readTemplatePart
  if subst then return .templateHead value else return .lit (.template value)

/-- `/repo/lexer/src/lib.rs:382-407` `read_template_literal_middle_or_tail`.  The flag `first_on_line` of the lexer is
left as it is. -/
def readTemplateLiteralMiddleOrTail : L Token := do
  let spanStart ← position
  let start ← consume
  if start ≠ '}' then
    M.throw (LexErr.syntax c!"Expected '}' in template expression" spanStart (spanStart + 1))
  let (value, subst) ← readTemplatePart
  let value := if subst then TokVal.templateMiddle value else TokVal.templateTail value
  return { value, fol := false, span := ⟨spanStart, ← position⟩ }

/-! ## Tokens -/

/-- `produce!(self, 1, ..)` (`/repo/lexer/src/lib.rs:41-64`). -/
def produce1 (p : Punct) : L TokVal := do let _ ← consume; return .punct p
/-- `produce!(self, 2, ..)`. -/
def produce2 (p : Punct) : L TokVal := do let _ ← consume; let _ ← consume; return .punct p
/-- `produce!(self, peek: c ? p ; q)`. -/
def producePeek (c : Char) (p q : Punct) : L TokVal := do
  if (← peek?) = some c then produce2 p else produce1 q

/-- The arms of the `match current` of `Lexer::read` (`/repo/lexer/src/lib.rs:121-233`) that are not in `readValue`: `c` is
the current character, `p` the next one, `start` the position before `c`.  The arms that test only the current character are
grouped where that does not change the first matching arm. -/
def readArms (start : Nat) (c : Char) (p : Option Char) : L TokVal :=
  match c with
  | '=' => producePeek '>' p!"=>" p!"="
  | '<' => produce1 p!"<"
  | '>' => produce1 p!">"
  | '^' => produce1 p!"^"
  | '%' => produce1 p!"%"
  | ';' => produce1 p!";"
  | '{' => produce1 p!"{"
  | '}' => produce1 p!"}"
  | ',' => produce1 p!","
  | '[' => produce1 p!"["
  | ']' => produce1 p!"]"
  | '(' => produce1 p!"("
  | ')' => produce1 p!")"
  | '~' => produce1 p!"~"
  | ':' => produce1 p!":"
  | '!' => produce1 p!"!"
  | '&' => producePeek '&' p!"&&" p!"&"
  | '|' => producePeek '|' p!"||" p!"|"
  | '+' => producePeek '+' p!"++" p!"+"
  | '-' => producePeek '-' p!"--" p!"-"
  | '?' => do
    let _ ← consume
    let c ← cur?
    let p ← peek?
    if c = some '.' ∧ !(p.any Char.isDigit) then do let _ ← consume; return .punct p!"?."
    else if c = some '?' then do let _ ← consume; return .punct p!"??"
    else return .punct p!"?"
  | '*' =>
    if p = some '*' then do
      let _ ← consume
      producePeek '=' p!"**=" p!"**"
    else produce1 p!"*"
  | '.' =>
    if p = some '.' then do
      let _ ← consume
      if (← peek?) = some '.' then produce2 p!"..."
      else do
        let stop ← position
        let fol ← M.gets Cursor.fol
        M.throw ⟨⟨start, stop⟩, .invalidOrUnexpectedToken { value := .punct p!".", fol, span := ⟨start, stop⟩ }⟩
    else if p.any Char.isDigit then readNumberLiteral
    else produce1 p!"."
  | '/' => produce1 p!"/"
  | '"' => readStringLiteral
  | '\'' => readStringLiteral
  | '`' => readTemplateLiteralHead
  | '\\' => readIdentifierOrKeyword
  | c =>
    if c.isDigit then readNumberLiteral
    else if isIdStart c then readIdentifierOrKeyword
    else do
      let c ← consume
      M.throw ⟨⟨start, start + c.utf8Size⟩, .unrecognizedCodePoint c.toNat⟩

/-- The arms for `/` in the regexp state and for a character followed by `=`, and those for `<<`, `>>` and `!=`
(`/repo/lexer/src/lib.rs:121-233`); see `readArms` for the others. -/
def readArms2 (st : LexState) (start : Nat) (c : Char) (p : Option Char) : L TokVal :=
  if c = '/' ∧ st.regex then readRegexpLiteral
  else if p = some '=' ∧ c ∈ ['/', '*', '%', '+', '-', '|', '^', '&', '<', '>', '='] then
    match c with
    | '/' => produce2 p!"/="
    | '*' => produce2 p!"*="
    | '%' => produce2 p!"%="
    | '+' => produce2 p!"+="
    | '-' => produce2 p!"-="
    | '|' => produce2 p!"|="
    | '^' => produce2 p!"^="
    | '&' => produce2 p!"&="
    | '<' => produce2 p!"<="
    | '>' => produce2 p!">="
    | _ => do let _ ← consume; producePeek '=' p!"===" p!"=="
  else if c = '<' ∧ p = some '<' then do
    let _ ← consume
    producePeek '=' p!"<<=" p!"<<"
  else if c = '>' ∧ p = some '>' then do
    let _ ← consume
    match ← peek? with
    | some '>' => do
      let _ ← consume
      producePeek '=' p!">>>=" p!">>>"
    | some '=' => produce2 p!">>="
    | _ => produce1 p!">>"
  else if c = '!' ∧ p = some '=' then do
    let _ ← consume
    producePeek '=' p!"!==" p!"!="
  else readArms start c p

/-- The `match current` of `Lexer::read` (`/repo/lexer/src/lib.rs:121-233`), with `start` the position before it. -/
def readValue (st : LexState) (start : Nat) : L TokVal := do
  let c ← current
  let p ← peek?
  readArms2 st start c p

/-- `/repo/lexer/src/lib.rs:108-256` `Lexer::read`.  The fuel bounds the recursion for html close comments (`-->`). -/
def readGo (st : LexState) : Nat → L Token
  | 0 => M.oof
  | n + 1 => do
    if st.template then readTemplateLiteralMiddleOrTail
    else do
      skipCommentsAndWhiteSpaces st
      if (← cur?).isNone then M.throw LexErr.endOfStream
      let start ← position
      let value ← readValue st start
      let stop ← position
      let fol ← M.gets Cursor.fol
      if fol = true ∧ value = .punct p!"--" ∧ (← cur?) = some '>' then
        if !st.html then
          M.throw (LexErr.syntax c!"HTML comments are not allowed in this context" start (start + 3))
        skipRestOfLine
        setFol true
        readGo st n
      else do
        setFol false
        return { value, fol, span := ⟨start, stop⟩ }

@[inherit_doc readGo]
def read (st : LexState) : L Token := fun s => readGo st (s.rest.length + 1) s

end Lexer

/-- `/repo/lexer/src/lib.rs:67-73` `struct Lexer`. -/
structure LexerS where
  data : Str
  st : LexState
  cursor : Cursor
deriving DecidableEq, Repr

namespace LexerS

/-- `/repo/lexer/src/lib.rs:75-84` `Lexer::new`. -/
def new (data : Str) : LexerS := ⟨data, LexState.default, ⟨data, 0, 0, true⟩⟩

/-- `/repo/lexer/src/lib.rs:570-577` `PeekRead<Token>::next` (and `Lexer::read` itself): the position in the returned pair is
`token.span.end` and is recomputed from the token where it is needed. -/
def next : M LexerS LexErr Token := fun lx =>
  match Lexer.read lx.st lx.cursor with
  | .ok t c => .ok t { lx with cursor := c }
  | .err e c => .err e { lx with cursor := c }
  | .panic w => .panic w
  | .oof => .oof

/-- `&data[offset..]`: `none` (a panic) when `offset` is not a character boundary or out of range. -/
def dropBytes : Str → Nat → Option Str
  | s, 0 => some s
  | [], _ + 1 => none
  | c :: cs, n + 1 => if c.utf8Size ≤ n + 1 then dropBytes cs (n + 1 - c.utf8Size) else none

/-- `/repo/lexer/src/lib.rs:503-515` `Seek::seek(SeekFrom::Start(pos))` and `rewind_before`
(`/repo/lexer/src/lib.rs:522-526`). -/
def rewindBefore (t : Token) (lx : LexerS) : Option LexerS :=
  match dropBytes lx.data t.span.start with
  | none => none
  | some rest => some { lx with cursor := ⟨rest, t.span.start, t.span.start, t.fol⟩ }

/-- `/repo/lexer/src/lib.rs:558-567` `read_with_state`: on error the early return `?` skips restoring the state. -/
def readWithState (st : LexState) : M LexerS LexErr Token := fun lx =>
  match next { lx with st := st } with
  | .ok t lx' => .ok t { lx' with st := lx.st }
  | r => r

/-- `/repo/lexer/src/lib.rs:90-106` `read_all`. -/
def readAll : M LexerS LexErr (List Token) := fun lx =>
  loop (fun (acc : List Token) => M.attempt next
      (fun t => return .inl (acc ++ [t]))
      (fun e => if e.kind ≠ .endOfStream then M.throw e else return .inr acc))
    (lx.cursor.rest.length + 1) [] lx

end LexerS
end Fajt
