import Verif.Proofs.CompleteBase
/-!
# Completeness: derivations do not change the source
-/

namespace Fajt
open Spec
set_option linter.unusedSectionVars false
variable [UnicodeID]
namespace Complete
section
variable {sty : SourceType} {a b c m o : Point} {t : Token} {ctx : Ctx} {v : TokVal}

theorem tok_src (h : Tok sty v a b) : src b = src a := by obtain ⟨t, h, -⟩ := h; exact next_src h
theorem optTok_src {p : Bool} (h : OptTok sty v p a b) : src b = src a := by
  unfold OptTok at h
  split at h
  · exact tok_src h
  · rw [h]
theorem optName_src {id : Option Ident} (h : OptName sty ctx id a b) : src b = src a := by
  unfold OptName at h
  split at h
  · obtain ⟨t, h, -⟩ := h; exact next_src h
  · rw [h]
theorem nameAt_src {id : Ident} {vs : List TokVal} (h : NameAt sty ctx vs id a b) : src b = src a := by
  rcases h with ⟨t, h, -⟩ | ⟨-, rfl, -⟩
  · exact next_src h
  · rfl
theorem endOfStmt_src (h : EndOfStmt sty a b) : src b = src a := by
  rcases h with h | ⟨rfl, -⟩
  · exact tok_src h
  · rfl
theorem regexAt_src {w : Str} (h : RegexAt sty w t a b) : src b = src a := reads_src h.1
theorem continues_src (h : Continues sty a t b) : src b = src a := by cases h; simp [src]
theorem semi_src {p : Point → Prop} (h : Tok sty v a b ∨ (b = a ∧ p a)) : src b = src a := by
  rcases h with h | ⟨rfl, -⟩
  · exact tok_src h
  · rfl
theorem importItem_src {i : NamedImport} (h : ImportItem sty ctx i a b) : src b = src a := by
  cases h <;> grind [→ next_src, → tok_src]
theorem exportItem_src {i : NamedExport} (h : ExportItem sty i a b) : src b = src a := by
  cases h <;> grind [→ next_src, → tok_src]
theorem commaList_src {α : Type} {p : α → Point → Point → Prop} {xs : List α} (hp : ∀ x a b, p x a b → src b = src a)
    (h : CommaList sty p xs a b) : src b = src a := by
  induction h <;> grind [→ tok_src]
theorem importNames_src {ns : Option Ident} {is : Option (List NamedImport)} (h : ImportNames sty ctx ns is a b) : src b = src a := by
  cases h with
  | «namespace» h1 h2 h3 => rw [next_src h3, tok_src h2, tok_src h1]
  | named h1 h2 => rw [commaList_src (fun _ _ _ h => importItem_src h) h2, tok_src h1]
theorem importWhat_src {d ns : Option Ident} {is : Option (List NamedImport)} (h : ImportWhat sty ctx d ns is a b) : src b = src a := by
  cases h with
  | default h1 h2 => exact next_src h1
  | both h1 h2 h3 h4 => rw [importNames_src h4, tok_src h3, next_src h1]
  | names h => exact importNames_src h
theorem imports_src {xs : List NamedImport} (h : CommaList sty (ImportItem sty ctx) xs a b) : src b = src a :=
  commaList_src (fun _ _ _ h => importItem_src h) h
theorem exports_src {xs : List NamedExport} (h : CommaList sty (ExportItem sty) xs a b) : src b = src a :=
  commaList_src (fun _ _ _ h => exportItem_src h) h

theorem derives_src {g : CNode} (h : Derives sty ctx g a b) : src b = src a := by
  induction h
  all_goals grind [→ next_src, → tok_src, → optTok_src, → optName_src, → nameAt_src, → endOfStmt_src, → regexAt_src, → continues_src, → importWhat_src, → imports_src, → exports_src]
end
end Complete
end Fajt
