import Verif.Spec.PanicCauses
/-!
# What a source that makes a debug build panic looks like
-/
namespace Fajt.Spec

/-- Behind some tokens there is the keyword `async`, followed by the keyword `function` on another line. -/
def AsyncBreak [UnicodeID] (src : Str) : Prop :=
  ∃ (ts : List Token) (t u : Token) (rest : Str) (fol : Bool),
    TokensTo [] true src (ts ++ [t, u]) rest fol ∧ t.value = .keyword k!"async" ∧ u.value = .keyword k!"function" ∧ u.fol = true

/-- What can make the parser of a debug build panic. -/
def DebugCause [UnicodeID] (src : Str) (styp : SourceType) : Prop := PanicCause src styp ∨ AsyncBreak src

end Fajt.Spec
