import Verif.Spec.Lexical
/-!
# Sources for which two tables of identifier characters are alike
-/
namespace Fajt.Spec

/-- The two tables agree on the characters of the text that are not ASCII, and the text has no unicode escape. -/
structure SameChars (i j : UnicodeID) (src : Str) : Prop where
  chars : ∀ c ∈ src, 128 ≤ c.toNat → i.idStart c = j.idStart c ∧ i.idContinue c = j.idContinue c
  noEscape : ¬ c!"\\u" <:+: src

end Fajt.Spec
