import Verif.Proofs.PrintSound
import Verif.Proofs.NodeProps
/-!
# A printed program is read again
-/
namespace Fajt.Print
open Fajt Spec Complete
set_option linter.unusedSectionVars false
variable [UnicodeID] {sty : SourceType} {mini : Bool} {ctx : Ctx} {E : GEnv}

/-- The tokens of a source are real ones. -/
theorem source_real {pre src : Str} {fol : Bool} {ts : List Token} (h : SourceTokens pre fol src ts) : ∀ t ∈ ts, Real t := by
  induction h with
  | nil => simp
  | cons _ _ _ hl _ _ ih =>
    intro t ht
    rcases List.mem_cons.1 ht with rfl | ht
    · rcases hl with ⟨⟨_, hl⟩, -⟩ | hl
      · exact lexeme_real hl
      · intro n hn
        rw [hn] at hl
        cases hl
    · exact ih t ht

theorem stmt_tok (s : Stmt) (hs : ∀ sp e, s ≠ .expr sp e) : s.items.any isTok = true := by
  cases s with
  | expr => exact absurd rfl (hs _ _)
  | exportDecl d => cases d <;> simp [Stmt.items, ExportDecl.items, isTok_word]
  | block d => cases d; simp [Stmt.items, Block.items, block_tok]
  | «variable» d => cases d; simp [Stmt.items, VarStmt.items, isTok_word]
  | importDecl => simp [Stmt.items, importDeclItems, isTok_word]
  | _ => simp [Stmt.items, isTok_word, isTok_pu]

/-- A token follows. -/
def hasNext : Item → Bool
  | .tok _ | .more => true
  | _ => false

theorem hasNext_tok {i : Item} (h : isTok i = true) : hasNext i = true := by cases i <;> first | rfl | cases h

theorem run_some {f : Bool} {a z : Point} {is : List Item} (h : Run sty mini f a is z) (ht : is.any hasNext = true) : ∃ t b, Next sty a t b := by
  induction is generalizing f with
  | nil => simp at ht
  | cons i is ih =>
    cases i with
    | tok l =>
      obtain ⟨b, h1, -⟩ := h
      obtain ⟨t, c, h2, -⟩ := step_next h1
      exact ⟨t, c, h2⟩
    | more => exact h.1
    | next | next2 | lexed | demand => exact ih h.2 (by simpa [hasNext] using ht)
    | semi =>
      obtain ⟨b, h1 | ⟨rfl, -, -⟩, h2⟩ := h
      · obtain ⟨t, c, h2, -⟩ := step_next h1
        exact ⟨t, c, h2⟩
      · exact ih h2 (by simpa [hasNext] using ht)
    | _ => exact ih (f := _) h (by simpa [hasNext] using ht)

theorem hasNext_any {is : List Item} (h : is.any isTok = true) : is.any hasNext = true := by
  obtain ⟨i, h1, h2⟩ := List.any_eq_true.1 h
  exact List.any_eq_true.2 ⟨i, h1, hasNext_tok h2⟩

theorem stmt_next (s : Stmt) : s.items.any hasNext = true := by
  cases s with
  | expr => simp [Stmt.items, stmtStart, hasNext]
  | _ => exact hasNext_any (stmt_tok _ nofun)

/-- A program that fits is read again, also with blanks and line feeds behind it. -/
theorem program_again {ts : List Token} {p : Program} (hr : ∀ t ∈ ts, Real t) (hE : E.isModule → sty = .module) (hs : p.sourceType = sty)
    (h : IsProgram E p ts) (hf : Fits mini p.items) {x : Str} (hx : Blanks x) :
    ∃ p', p'.strip = p.strip ∧ DerivesProgram sty (generateCode mini p ++ x) p' := by
  obtain ⟨z, h1, h2⟩ := program_run (sty := sty) hf hx
  obtain ⟨ps, qs, rfl, -, -, h3, h4, -⟩ := h.parts
  have h1' := h1
  have h1 : Run sty mini true _ (directiveItems p.directives ++ ([notString] ++ stmtItems p.body)) z := h1
  rw [← List.append_assoc] at h1
  obtain ⟨o, h5, h6⟩ := run_append.1 h1
  have h7 := re_directives (ctx := {}) _ h5
  have h10 : Re sty mini (afterDirectives {} p.directives) (.items p.body) := by
    rw [h4]
    refine re_items fun d hd => ?_
    obtain ⟨us, hd⟩ := mem_trees hd
    exact sound hE (h3 _ hd) fun t ht => hr t (by simp [toks_mem _ hd t ht])
  obtain ⟨ss, h8, h9⟩ := h10 h6 h2
  by_cases hn : ∃ t c, Next sty ⟨[], generateCode mini p ++ x, true⟩ t c
  · obtain ⟨t, c, hn⟩ := hn
    exact ⟨⟨p.sourceType, _, p.directives, ss⟩, by simp only [Program.strip, h8], hs, o, z, h7.same, h9.same, .inl ⟨t, c, hn, rfl⟩⟩
  · have h0 : p.items.any hasNext = false := by
      cases ht : p.items.any hasNext with
      | false => rfl
      | true => exact absurd (run_some h1' ht) hn
    obtain ⟨hd, hb⟩ : p.directives = [] ∧ p.body = [] := by
      unfold Program.items at h0
      constructor
      · cases hd : p.directives with
        | nil => rfl
        | cons d ds => simp [hd, directiveItems, strItem, hasNext] at h0
      · cases hd : p.body with
        | nil => rfl
        | cons d ds => simp [hd, stmtItems, stmt_next] at h0
    rw [hd, hb] at h1
    obtain ⟨-, rfl⟩ := h1
    exact ⟨⟨p.sourceType, ⟨0, 0⟩, p.directives, ss⟩, by simp only [Program.strip, h8], hs, o, _, h7.same, h9.same, .inr ⟨h2, rfl⟩⟩

end Fajt.Print
