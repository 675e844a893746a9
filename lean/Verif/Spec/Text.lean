import Verif.Spec.Source
import Verif.Spec.Nodes
/-!
# Trees and the text of the source
-/
namespace Fajt.Spec
open Fajt

/-- There is no line terminator between the positions. -/
def NoLineBreak (src : Str) (a b : Nat) : Prop :=
  ∃ pre mid post, src = pre ++ (mid ++ post) ∧ posAfter 0 0 pre = a ∧ posAfter 0 0 (pre ++ mid) = b ∧ ∀ c ∈ mid, isLT c = false

variable [UnicodeID]

/-- After `pre` stands the text `w` of the token `t`, and the token has the span of this text. -/
def TokAt (src : Str) (t : Token) (pre w rest : Str) : Prop :=
  src = pre ++ (w ++ rest) ∧ w ≠ [] ∧ ((∃ regex, Lexeme regex t.value w rest) ∨ Continuation t.value w) ∧
    t.span = ⟨posAfter 0 0 pre, posAfter 0 0 (pre ++ w)⟩

/-- After the position, apart from trivia, stands the text. -/
def Followed (src : Str) (a : Nat) (w : Str) : Prop :=
  ∃ pre tr post, ∃ html fol fol', src = pre ++ (tr ++ (w ++ post)) ∧ posAfter 0 0 pre = a ∧ Trivia html fol tr (w ++ post) fol'

/-- The same, and there is no line terminator in between. -/
def FollowedOnLine (src : Str) (a : Nat) (w : Str) : Prop :=
  ∃ pre tr post, ∃ html fol fol', src = pre ++ (tr ++ (w ++ post)) ∧ posAfter 0 0 pre = a ∧ Trivia html fol tr (w ++ post) fol' ∧
    ∀ c ∈ tr, isLT c = false

/-- The statement that ends at the position is followed by a semicolon, or a semicolon may be inserted there. -/
def StatementEnd (src : Str) (a : Nat) : Prop := Followed src a c!";" ∨ AsiAfter src a

/-- The last token of the span is a semicolon, or a semicolon may be inserted after it. -/
def EndsStatement (src : Str) (sp : Span) : Prop :=
  AsiAfter src sp.stop ∨ ∃ pre rest, src = pre ++ (c!";" ++ rest) ∧ posAfter 0 0 (pre ++ c!";") = sp.stop

/-- The span consists of the text of whole tokens: it begins where the first one begins and ends where the last one ends. -/
def CoversTokens (src : Str) (sp : Span) : Prop :=
  ∃ (a b : Token) (pa wa ra pb wb rb : Str), TokAt src a pa wa ra ∧ TokAt src b pb wb rb ∧
    pa.length ≤ pb.length ∧ sp = ⟨a.span.start, b.span.stop⟩

end Fajt.Spec
