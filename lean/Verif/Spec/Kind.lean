import Verif.Spec.Lexical
/-!
# Sources that are alike as scripts and as modules
-/
namespace Fajt.Spec

/-- The text has no mark of a html comment, and no part of it spells `import` or `export`. -/
structure PlainSource (src : Str) : Prop where
  htmlOpen : ¬ c!"<!" <:+: src
  htmlClose : ¬ c!"-->" <:+: src
  words : ∀ w n, w <:+: src → Spells w n → n ≠ c!"import" ∧ n ≠ c!"export"

end Fajt.Spec
