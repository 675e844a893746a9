import Verif.Props.Lexer
import Verif.Props.Emitter
import Verif.Proofs.ParseBase
/-!
# Positions in sources that are not ASCII (C04, C17)

fajt computes the position behind a character as the byte offset of the character plus its length in UTF-16.  So exactly the
positions immediately behind a character that is not ASCII are wrong.
-/
set_option linter.unusedSectionVars false
namespace Fajt.Props
open Fajt Spec
variable [UnicodeID]

/-- The text `u` is empty or ends with an ASCII character. -/
def EndsAscii (u : Str) : Prop := ∀ c ∈ u.getLast?, c.toNat < 128

theorem posAfter_eq_iff (u : Str) : posAfter 0 0 u = byteLen u ↔ EndsAscii u := by
  rcases List.eq_nil_or_concat u with rfl | ⟨v, d, rfl⟩
  · simp [posAfter, EndsAscii]
  · rw [List.concat_eq_append, posAfter_snoc]
    simp only [EndsAscii, byteLen_append, byteLen_cons, byteLen_nil, List.getLast?_append, List.getLast?_singleton,
      Option.some_or, Option.mem_def, Option.some.injEq, forall_eq']
    constructor
    · intro h
      refine Classical.byContradiction fun hd => ?_
      have := lenUtf16_lt hd
      omega
    · intro hd
      rw [lenUtf16_ascii hd, utf8Size_ascii hd]

/-- **C04**, every source. A token `t` is read from a part `w` of the source, its lexeme, between `u` and `rest`.  The start of its span
is the byte offset of `w` exactly if `u` is empty or ends with an ASCII character, the end of its span is the byte offset behind `w`
exactly if `w` ends with an ASCII character, and if both do then the span cuts out `w` of the bytes of the source. -/
theorem C04_span_any_source (src : Str) (st : LexState) (ht : st.template = false) (ts : List Token)
    (h : tokensOf (LexerS.readAll (start src st)) = some ts) (t : Token) (hm : t ∈ ts) :
    ∃ u w rest, src = u ++ (w ++ rest) ∧ w ≠ [] ∧ Lexeme st.regex t.value w rest ∧
      (t.span.start = byteLen u ↔ EndsAscii u) ∧ (t.span.stop = byteLen (u ++ w) ↔ EndsAscii w) ∧
      (EndsAscii u → EndsAscii w → Emitter.slice src t.span.start t.span.stop = some w) := by
  obtain ⟨u, w, rest, h1, -, hw, hlex, hsp, -⟩ := tokens_mem ((tokensOf_iff src st ht ts).1 h) hm
  simp only [List.nil_append] at h1
  have e : EndsAscii (u ++ w) ↔ EndsAscii w := by
    unfold EndsAscii
    rcases List.eq_nil_or_concat w with rfl | ⟨v, d, rfl⟩
    · exact absurd rfl hw
    · simp [List.getLast?_append]
  refine ⟨u, w, rest, h1, hw, hlex, ?_, ?_, ?_⟩
  · rw [hsp]; exact posAfter_eq_iff u
  · rw [hsp]; exact (posAfter_eq_iff _).trans e
  · intro hu hww
    rw [hsp]
    show Emitter.slice src (posAfter 0 0 u) (posAfter 0 0 (u ++ w)) = some w
    rw [(posAfter_eq_iff u).2 hu, (posAfter_eq_iff _).2 (e.2 hww), h1, ← List.append_assoc]
    exact slice_eq u w rest

/-- **C17**, every source. Rewinding a lexer over the source to a token it delivered panics exactly if the character immediately in front
of the token is not ASCII; otherwise the same token and the same tokens after it are delivered again. -/
theorem C17_rewind_any_source (src : Str) (st : LexState) (ht : st.template = false) (l r : List Token) (t : Token)
    (h : tokensOf (LexerS.readAll (start src st)) = some (l ++ t :: r)) (c : Cursor) :
    ∃ u w rest, src = u ++ (w ++ rest) ∧ Lexeme st.regex t.value w rest ∧
      (¬ EndsAscii u → LexerS.rewindBefore t ⟨src, st, c⟩ = none) ∧
      (EndsAscii u → ∃ lx, LexerS.rewindBefore t ⟨src, st, c⟩ = some lx ∧ tokensOf (LexerS.readAll lx) = some (t :: r)) := by
  obtain ⟨u, x, h1, h2, h3⟩ := tokens_from ((tokensOf_iff src st ht _).1 h)
  simp only [List.nil_append] at h1
  have hx : ∃ w rest, x = w ++ rest ∧ Lexeme st.regex t.value w rest := by
    cases h3 with
    | @cons _ tr w rest _ _ _ htr hfl hnt hw hlex hsp h' =>
      have : posAfter 0 0 (u ++ tr) = posAfter 0 0 u := by rw [← h2, hsp]
      have htr0 : tr = [] := by
        refine Classical.byContradiction fun hne => ?_
        have e1 := lt_posAfter (byteLen u) (posAfter 0 0 u) tr hne
        have e2 := posAfter_le 0 0 u (Nat.le_refl 0)
        rw [posAfter_append] at this
        simp only [Nat.zero_add] at this e2
        omega
      subst htr0
      exact ⟨w, rest, rfl, hlex⟩
  obtain ⟨w, rest, rfl, hlex⟩ := hx
  refine ⟨u, w, rest, h1, hlex, ?_, ?_⟩
  · intro hu
    unfold LexerS.rewindBefore
    rcases List.eq_nil_or_concat u with rfl | ⟨v, d, rfl⟩
    · exact absurd (by simp [EndsAscii]) hu
    · rw [List.concat_eq_append] at h1 h2 hu
      have hd : ¬ d.toNat < 128 := fun hd => hu (by simp [EndsAscii, hd])
      rw [posAfter_snoc] at h2
      simp only
      rw [h2, h1, List.append_assoc, List.singleton_append, dropBytes_inside v (w ++ rest) d _ (lenUtf16_pos d) (lenUtf16_lt hd)]
  · intro hu
    have hpos : t.span.start = byteLen u := by rw [h2]; exact (posAfter_eq_iff u).2 hu
    refine ⟨⟨src, st, ⟨w ++ rest, t.span.start, t.span.start, t.fol⟩⟩, ?_, ?_⟩
    · unfold LexerS.rewindBefore
      simp only
      rw [hpos, h1, dropBytes_append]
    · obtain ⟨lx', h'⟩ := readAll_complete st ht h3 ⟨src, st, ⟨w ++ rest, t.span.start, t.span.start, t.fol⟩⟩ rfl
        ⟨by rw [hpos], by rw [h2]⟩ rfl rfl _ (Nat.lt_succ_self _) []
      rw [tokensOf_eq]
      exact ⟨lx', by rw [readAll_eq, h']; rfl⟩

/-- A source in which the wide characters are inside a string and a comment: all spans are right. -/
example : letI := asciiID
    (tokensOf (LexerS.readAll (start c!"a = 'åä€'; // ö\nb" .default))).map (·.map fun t => (t.span.start, t.span.stop)) = some
      [(0, 1), (2, 3), (4, 13), (13, 14), (21, 22)] ∧
    Emitter.slice c!"a = 'åä€'; // ö\nb" 4 13 = some c!"'åä€'" := by decide +kernel

end Fajt.Props
