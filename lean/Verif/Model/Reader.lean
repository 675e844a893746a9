import Verif.Model.Token
/-!
# `PeekReader` (`/repo/common/src/io.rs`) and the character reader (`/repo/common/src/io/char_reader.rs`)

`PeekReader` is modelled literally and generically here.  The lexer model (`Verif.Model.Lexer`) works on the simpler
`Cursor` below; `Verif.Proofs.Reader` proves that a `PeekReader` over `CharIndices` and a `Cursor` are indistinguishable.
-/
namespace Fajt

/-- `/repo/common/src/io.rs:34-43` `struct PeekReader<T, I>`. -/
structure PeekReader (I ε T : Type) where
  inner : I
  current : Except ε (Nat × T)
  next : Except ε (Nat × T)
  position : Nat
  offset : Nat

namespace PeekReader
variable {I ε T : Type}

/-- `/repo/common/src/io.rs:81-92` `PeekReader::with_offset`.  `nextI` is the inner reader's `PeekRead::next`. -/
def withOffset (nextI : I → Except ε (Nat × T) × I) (inner : I) (offset : Nat) : PeekReader I ε T :=
  let (current, inner1) := nextI inner
  let (next, inner2) := nextI inner1
  { inner := inner2, current, next, position := offset, offset }

/-- `/repo/common/src/io.rs:77-79` `PeekReader::new`. -/
def new (nextI : I → Except ε (Nat × T) × I) (inner : I) : PeekReader I ε T := withOffset nextI inner 0

/-- `/repo/common/src/io.rs:100-102` `current()`. -/
def cur (r : PeekReader I ε T) : Except ε T := r.current.map Prod.snd

/-- `/repo/common/src/io.rs:105-107` `peek()`. -/
def peek (r : PeekReader I ε T) : Except ε T := r.next.map Prod.snd

/-- `/repo/common/src/io.rs:112-126` `consume()`: note that the items shift even when the current item is an error. -/
def consume (nextI : I → Except ε (Nat × T) × I) (r : PeekReader I ε T) : Except ε T × PeekReader I ε T :=
  let (n, inner') := nextI r.inner
  let r' := { r with inner := inner', current := r.next, next := n }
  match r.current with
  | .ok (position, item) => (.ok item, { r' with position := position + r.offset })
  | .error e => (.error e, r')

end PeekReader

/-- `std::str::CharIndices` over the rest of a string: byte offset of the next character and the characters left. -/
structure CharIndices where
  offset : Nat
  chars : List Char
deriving Repr

/-- `/repo/common/src/io/char_reader.rs:33-42` `PeekRead<char> for CharIndices`.  The position paired with a character is
its byte offset plus its **UTF-16** length.  The only error is `EndOfStream`, modelled as `()`. -/
def CharIndices.nextItem (i : CharIndices) : Except Unit (Nat × Char) × CharIndices :=
  match i.chars with
  | [] => (.error (), i)
  | c :: cs => (.ok (i.offset + lenUtf16 c, c), ⟨i.offset + c.utf8Size, cs⟩)

/-- What the lexer can observe of its `PeekReader<char, CharIndices>`: the characters not yet consumed, the byte offset of
the first of them in the whole source, and `position()`.  The field `fol` is `Lexer.first_on_line`
(`/repo/lexer/src/lib.rs:71`). -/
structure Cursor where
  rest : List Char
  off : Nat
  pos : Nat
  fol : Bool
deriving DecidableEq, Repr, Inhabited

/-- The effect of consuming the character `c`, with `cs` following it (`/repo/common/src/io.rs:112-126`). -/
def Cursor.advance (s : Cursor) (c : Char) (cs : List Char) : Cursor :=
  { s with rest := cs, off := s.off + c.utf8Size, pos := s.off + lenUtf16 c }

/-- `/repo/common/src/io.rs:100-102` `current()`, with `.ok()`. -/
def Cursor.cur (s : Cursor) : Option Char := s.rest.head?

/-- `/repo/common/src/io.rs:105-107` `peek()`, with `.ok()`. -/
def Cursor.peek (s : Cursor) : Option Char := s.rest.tail.head?

end Fajt
