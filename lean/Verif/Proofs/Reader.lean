import Verif.Model.Reader
/-!
# The peeking reader

`PeekReader` over any inner reader delivers the inner items in order, whatever the interleaving of `current`, `peek` and
`consume`; and over characters it is the `Cursor` of the lexer model.
-/
namespace Fajt
namespace PeekReader
variable {I ε T : Type}

/-- The inner reader after `n` items have been taken from it. -/
def innerAfter (nextI : I → Except ε (Nat × T) × I) (i : I) : Nat → I
  | 0 => i
  | n + 1 => (nextI (innerAfter nextI i n)).2

/-- The `n`-th item of the inner reader. -/
def item (nextI : I → Except ε (Nat × T) × I) (i : I) (n : Nat) : Except ε (Nat × T) := (nextI (innerAfter nextI i n)).1

/-- The position after `n` items have been consumed: the end position of the last item that was not an error. -/
def endPos (nextI : I → Except ε (Nat × T) × I) (i : I) (offset : Nat) : Nat → Nat
  | 0 => offset
  | n + 1 => match item nextI i n with
    | .ok (p, _) => p + offset
    | .error _ => endPos nextI i offset n

/-- The reader after `n` calls of `consume`. -/
def after (nextI : I → Except ε (Nat × T) × I) (i : I) (offset : Nat) : Nat → PeekReader I ε T
  | 0 => withOffset nextI i offset
  | n + 1 => (consume nextI (after nextI i offset n)).2

theorem after_eq (nextI : I → Except ε (Nat × T) × I) (i : I) (offset n : Nat) :
    after nextI i offset n =
      { inner := innerAfter nextI i (n + 2), current := item nextI i n, next := item nextI i (n + 1),
        position := endPos nextI i offset n, offset } := by
  induction n with
  | zero => rfl
  | succ n ih =>
    rw [after, ih]
    unfold consume
    simp only [endPos]
    cases h : item nextI i n with
    | error e => rfl
    | ok p => rfl

end PeekReader

/-- The peek reader of the lexer that corresponds to a cursor; `base` is the offset the reader was created with. -/
def Cursor.reader (base : Nat) (s : Cursor) : PeekReader CharIndices Unit Char :=
  let i : CharIndices := ⟨s.off - base, s.rest⟩
  let (c, i1) := i.nextItem
  let (n, i2) := i1.nextItem
  { inner := i2, current := c, next := n, position := s.pos, offset := base }

theorem Cursor.reader_cur (base : Nat) (s : Cursor) : (s.reader base).cur.toOption = s.cur := by
  unfold Cursor.reader Cursor.cur PeekReader.cur CharIndices.nextItem
  cases s.rest <;> rfl

theorem Cursor.reader_peek (base : Nat) (s : Cursor) : (s.reader base).peek.toOption = s.peek := by
  unfold Cursor.reader Cursor.peek PeekReader.peek CharIndices.nextItem
  rcases s.rest with _ | ⟨c, _ | ⟨d, r⟩⟩ <;> rfl

theorem Cursor.reader_consume (base : Nat) (s : Cursor) (hb : base ≤ s.off) :
    PeekReader.consume CharIndices.nextItem (s.reader base) =
      match s.rest with
      | [] => (.error (), s.reader base)
      | c :: cs => (.ok c, (s.advance c cs).reader base) := by
  obtain ⟨rest, off, pos, fol⟩ := s
  simp only at hb
  rcases rest with _ | ⟨c, _ | ⟨d, _ | ⟨e, r⟩⟩⟩
  · rfl
  · simp [Cursor.reader, PeekReader.consume, CharIndices.nextItem, Cursor.advance]; omega
  · simp [Cursor.reader, PeekReader.consume, CharIndices.nextItem, Cursor.advance]; omega
  · simp [Cursor.reader, PeekReader.consume, CharIndices.nextItem, Cursor.advance]; omega

end Fajt
