import Verif.Model.Lexer
/-!
# A concrete instance of the character tables

The theorems hold for every instance of `UnicodeID` (every table of identifier characters with the laws of Unicode stated
there).  The examples that show that hypotheses can be met, and the counterexamples, are computed with the instance below,
in which the identifier characters are the ASCII ones.
-/
namespace Fajt

/-- Identifier characters restricted to ASCII (a model of the laws in `UnicodeID`; used in examples only). -/
@[reducible] def asciiID : UnicodeID where
  idStart c := c.isAlpha
  idContinue c := c.isAlphanum || c == '_'
  alphanumeric c := c.isAlphanum
  start_continue c h := by simp [Char.isAlphanum, h]
  ascii_start _ _ := rfl
  ascii_continue _ _ := rfl
  ascii_alphanumeric _ _ := rfl
  blank c h := by
    unfold isWS isLT at h
    simp only [Bool.or_eq_true, Bool.and_eq_true, beq_iff_eq, decide_eq_true_eq] at h
    have hu : ∀ d : Char, c = d → c.toNat = d.toNat := fun d hd => by rw [hd]
    simp only [Char.isAlphanum, Char.isAlpha, Char.isUpper, Char.isLower, Char.isDigit, Bool.or_eq_false_iff,
      Bool.and_eq_false_iff, decide_eq_false_iff_not, beq_eq_false_iff_ne, UInt32.not_le]
    have e : c.toNat = c.val.toNat := rfl
    simp only [UInt32.lt_iff_toNat_lt, ge_iff_le, UInt32.le_iff_toNat_le]
    refine ⟨⟨⟨?_, ?_⟩, ?_⟩, ?_⟩
    · simp; omega
    · simp; omega
    · simp; omega
    · intro hc
      have := hu _ hc
      have h95 : '_'.toNat = 95 := rfl
      omega

end Fajt
