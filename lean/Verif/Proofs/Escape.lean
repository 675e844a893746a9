import Verif.Spec.Escape
import Verif.Spec.Lexical
import Verif.Proofs.LexFns
/-!
# Bodies of strings and templates, in terms of escapes; digit runs
-/
namespace Fajt
open Spec
set_option linter.unusedSectionVars false
variable [UnicodeID]

def pend (b : Bool) (u : Str) : Bool := u.foldl (fun pending c => !pending && c == '\\') b

theorem unescape_plain {c : Char} (h : c ≠ '\\') (w : Str) : unescape (c :: w) = c :: unescape w := by
  cases w <;> simp [unescape, h]

theorem stringBody_value {q : Char} {w v : Str} (h : StringBody q w v) : v = unescape w := by
  induction h with
  | nil => rfl
  | plain h1 _ _ _ _ ih => rw [unescape_plain h1, ih]
  | escape _ ih => simp [unescape, ih]
  | escapeCRLF _ ih => simp [unescape, unescape_plain, ih]

theorem templateBody_value {w v : Str} (h : TemplateBody w v) : v = unescape w := by
  induction h with
  | nil => rfl
  | plain h1 _ _ _ ih => rw [unescape_plain h1, ih]
  | escape _ ih => simp [unescape, ih]

theorem append_cons_eq {α : Type} {a : α} {w u : List α} {c : α} {v : List α} (h : a :: w = u ++ c :: v) :
    (u = [] ∧ a = c ∧ w = v) ∨ ∃ u', u = a :: u' ∧ w = u' ++ c :: v := by
  cases u with
  | nil => simp at h; exact .inl ⟨rfl, h.1, h.2⟩
  | cons x u => simp at h; exact .inr ⟨u, by rw [h.1], h.2⟩

/-- Every quote, carriage return and line feed of a string body is escaped, except for the line feed of an escaped CR LF. -/
theorem stringBody_escaped {q : Char} {w v : Str} (h : StringBody q w v) (hq : q ≠ '\\') :
    ∀ u c x, w = u ++ c :: x → c = q ∨ c = '\r' ∨ c = '\n' →
      Escaped u ∨ (c = '\n' ∧ ∃ u', u = u' ++ ['\r'] ∧ Escaped u') := by
  induction h with
  | nil => intro u c x h; simp at h
  | @plain a w v h1 h2 h3 h4 _ ih =>
    intro u c x h hc
    rcases append_cons_eq h with ⟨rfl, rfl, rfl⟩ | ⟨u', rfl, hw⟩
    · rcases hc with h | h | h
      · exact absurd h h2
      · exact absurd h h3
      · exact absurd h h4
    · have e : ∀ y, Escaped (a :: y) ↔ Escaped y := by
        intro y; unfold Escaped; simp [show (a == '\\') = false by simpa using h1]
      rcases ih u' c x hw hc with h | ⟨hnl, y, rfl, h'⟩
      · exact .inl ((e _).2 h)
      · exact .inr ⟨hnl, a :: y, rfl, (e _).2 h'⟩
  | @escape a w v _ ih =>
    intro u c x h hc
    rcases append_cons_eq h with ⟨rfl, rfl, rfl⟩ | ⟨u', rfl, hw⟩
    · rcases hc with h | h | h
      · exact absurd h.symm hq
      · simp at h
      · simp at h
    · rcases append_cons_eq hw with ⟨rfl, rfl, rfl⟩ | ⟨u'', rfl, hw2⟩
      · exact .inl rfl
      · have e : ∀ y, Escaped ('\\' :: a :: y) ↔ Escaped y := by
          intro y; unfold Escaped; simp
        rcases ih u'' c x hw2 hc with h | ⟨hnl, y, rfl, h'⟩
        · exact .inl ((e _).2 h)
        · exact .inr ⟨hnl, '\\' :: a :: y, rfl, (e _).2 h'⟩
  | @escapeCRLF w v _ ih =>
    intro u c x h hc
    rcases append_cons_eq h with ⟨rfl, rfl, rfl⟩ | ⟨u', rfl, hw⟩
    · rcases hc with h | h | h
      · exact absurd h.symm hq
      · simp at h
      · simp at h
    · rcases append_cons_eq hw with ⟨rfl, rfl, rfl⟩ | ⟨u'', rfl, hw2⟩
      · exact .inl rfl
      · rcases append_cons_eq hw2 with ⟨rfl, rfl, rfl⟩ | ⟨u3, rfl, hw3⟩
        · exact .inr ⟨rfl, ['\\'], rfl, rfl⟩
        · have e : ∀ y, Escaped ('\\' :: '\r' :: '\n' :: y) ↔ Escaped y := by
            intro y; unfold Escaped; simp
          rcases ih u3 c x hw3 hc with h | ⟨hnl, y, rfl, h'⟩
          · exact .inl ((e _).2 h)
          · exact .inr ⟨hnl, '\\' :: '\r' :: '\n' :: y, rfl, (e _).2 h'⟩

/-- In a template body every backtick, and the `$` of every `${`, is escaped - unless the brace is. -/
theorem templateBody_escaped {w v : Str} (h : TemplateBody w v) :
    ∀ u c x, w = u ++ c :: x → c = '`' ∨ (c = '$' ∧ x.head? = some '{') → Escaped u := by
  induction h with
  | nil => intro u c x h; simp at h
  | @plain a w v h1 h2 h3 _ ih =>
    intro u c x h hc
    rcases append_cons_eq h with ⟨rfl, rfl, rfl⟩ | ⟨u', rfl, hw⟩
    · rcases hc with h | h
      · exact absurd h h2
      · exact absurd h h3
    · have e : ∀ y, Escaped (a :: y) ↔ Escaped y := by
        intro y; unfold Escaped; simp [show (a == '\\') = false by simpa using h1]
      exact (e _).2 (ih u' c x hw hc)
  | @escape a w v _ ih =>
    intro u c x h hc
    rcases append_cons_eq h with ⟨rfl, rfl, rfl⟩ | ⟨u', rfl, hw⟩
    · rcases hc with h | h
      · simp at h
      · simp at h
    · rcases append_cons_eq hw with ⟨rfl, rfl, rfl⟩ | ⟨u'', rfl, hw2⟩
      · rfl
      · have e : ∀ y, Escaped ('\\' :: a :: y) ↔ Escaped y := by
          intro y; unfold Escaped; simp
        exact (e _).2 (ih u'' c x hw2 hc)

/-! ## Separators in numbers -/

/-- No two adjacent underscores, none at the end. -/
structure Seps (w : Str) : Prop where
  single : ∀ u v, w ≠ u ++ '_' :: '_' :: v
  last : w.getLast? ≠ some '_'

theorem Seps.cons {c : Char} {w : Str} (hc : c ≠ '_') (h : Seps w) : Seps (c :: w) := by
  refine ⟨?_, ?_⟩
  · intro u v he
    rcases append_cons_eq he with ⟨rfl, rfl, rfl⟩ | ⟨u', rfl, hw⟩
    · exact hc rfl
    · exact h.single u' v hw
  · cases w with
    | nil => simp [hc]
    | cons d w => simpa using h.last

theorem Seps.append {v w : Str} (hv : Seps v) (hw : Seps w) : Seps (v ++ w) := by
  induction v with
  | nil => exact hw
  | cons c v ih =>
    by_cases hc : c = '_'
    · subst hc
      cases v with
      | nil => exact absurd rfl hv.last
      | cons d v =>
        have hd : d ≠ '_' := by rintro rfl; exact hv.single [] v rfl
        have ht : Seps (d :: v) := ⟨fun u x he => hv.single ('_' :: u) x (by rw [he]; rfl), by simpa using hv.last⟩
        have := ih ht
        refine ⟨?_, by simpa using this.last⟩
        intro u x he
        rcases append_cons_eq he with ⟨rfl, -, h2⟩ | ⟨u', rfl, hw'⟩
        · simp at h2; exact hd h2.1
        · exact this.single u' x hw'
    · refine Seps.cons hc (ih ?_)
      refine ⟨fun u x he => hv.single (c :: u) x (by rw [he]; rfl), ?_⟩
      cases v with
      | nil => simp
      | cons d v => simpa using hv.last

theorem DigitRun.seps {p : Char → Bool} {w : Str} (h : DigitRun p w) : Seps w := ⟨h.single, h.last⟩

theorem numberText_seps {w rest : Str} (h : NumberText w rest) : Seps w := by
  cases h with
  | hex hx hd _ _ => exact .cons (by decide) (.cons (by rcases hx with rfl | rfl <;> decide) (DigitRun.seps hd))
  | oct hx hd _ _ => exact .cons (by decide) (.cons (by rcases hx with rfl | rfl <;> decide) (DigitRun.seps hd))
  | bin hx hd _ _ => exact .cons (by decide) (.cons (by rcases hx with rfl | rfl <;> decide) (DigitRun.seps hd))
  | @dec i f e _ hi hn hf he hst hz =>
    have hnil : Seps [] := ⟨by simp, by simp⟩
    refine (DigitRun.seps hi).append (Seps.append ?_ ?_)
    · rcases hf with ⟨rfl, -⟩ | ⟨ds, rfl, hd, -⟩
      · exact hnil
      · exact .cons (by decide) (DigitRun.seps hd)
    · rcases he with ⟨rfl, -⟩ | ⟨x, sg, ds, rfl, hx, hsg, hd, -⟩
      · exact hnil
      · refine .cons (by rcases hx with rfl | rfl <;> decide) ?_
        rcases hsg with rfl | rfl | rfl
        · exact DigitRun.seps hd
        · exact .cons (by decide) (DigitRun.seps hd)
        · exact .cons (by decide) (DigitRun.seps hd)

end Fajt
