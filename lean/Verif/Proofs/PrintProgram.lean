import Verif.Proofs.PrintTree
/-!
# The generated code of a program is read as its tokens
-/
namespace Fajt.Print
open Fajt Spec Complete
set_option linter.unusedSectionVars false
variable [UnicodeID]

/-! ## Minified code as tokens -/

theorem sound_of {last : Option Lex} {is : List Item} {s : Lay} (h : Writable s (minified last is)) : Sound is := by
  induction is generalizing s last with
  | nil => exact nofun
  | cons i is ih =>
    have hc : SoundItem i → Sound is → Sound (i :: is) := fun h1 h2 j hj => by
      rcases List.mem_cons.1 hj with rfl | hj
      · exact h1
      · exact h2 j hj
    cases i with
    | tok l =>
      obtain ⟨-, h1, h2⟩ := h
      exact hc h1.1 (ih h2)
    | semi =>
      unfold minified at h
      split at h
      · exact hc trivial (ih h.2.2.2)
      · exact hc trivial (ih h.2)
    | single b => exact hc h.1 (ih h.2)
    | blank | next | next2 | more | lexed | demand => exact hc trivial (ih h.2)
    | gap | nl | «open» | sep | still | close => exact hc trivial (ih h)

/-- The end of a program in minified code. -/
def finish (u : Str) : Str :=
  if u.getLast? = some ';' then (if u.dropLast.getLast? = some ')' then u else u.dropLast) else u

theorem last_split {u : Str} {x : Char} (h : u.getLast? = some x) : u = u.dropLast ++ [x] := by
  obtain ⟨v, rfl⟩ := List.getLast?_eq_some_iff.1 h
  simp

/-- The blanks end with a blank. -/
theorem blanks_last {b : Str} (hb : Blanks b) (hne : b ≠ []) (w : Str) : ∃ x, (w ++ b).getLast? = some x ∧ (x = ' ' ∨ x = '\n') := by
  obtain ⟨x, hx⟩ : ∃ x, b.getLast? = some x := by
    rw [← Option.isSome_iff_exists, List.getLast?_isSome]; exact hne
  exact ⟨x, by rw [List.getLast?_append, hx]; rfl, hb x (List.mem_of_getLast? hx)⟩

/-- The last character of a text and the last token. -/
theorem Core.paren_eq {w b : Str} {s : Lay} {ts : List (Lex × Bool)} (h : Core w b s ts) {last : Option Lex}
    (hl : last = if b = [] then s.last else none) : paren last = ((w ++ b).getLast? == some ')') := by
  subst hl
  by_cases hb : b = []
  · subst hb
    simp only [List.append_nil, if_true]
    rw [h.last]
    cases hk : ts.getLast? with
    | none =>
      have : ts = [] := by simpa using hk
      subst this
      rw [h.laid.nil_of]; rfl
    | some k => simp [paren, (h.laid.wf k hk).2]
  · rw [if_neg hb]
    obtain ⟨x, hx, hx'⟩ := blanks_last h.blanks hb w
    rw [hx]
    rcases hx' with rfl | rfl <;> rfl

theorem ending_cons {p : Bool} {i : Item} {is : List Item} (h : ∀ l, i ≠ .tok l) (h1 : i ≠ .semi) (h2 : i ≠ .blank) (h3 : i ≠ .close) :
    ending p (i :: is) = ending p is := by
  cases i <;> simp_all [ending]

/-- The text of a token in minified code. -/
theorem emit_tok {w b : Str} {s : Lay} {ts : List (Lex × Bool)} (h : Core w b s ts) {l : Lex} (ht : s.Takes (.tok l)) :
    ∃ b', emit1 (w ++ b) (.tok l) = w ++ (b' ++ l.text) ∧ (l.text = [';'] → b' = b) ∧
      Core (w ++ (b' ++ l.text)) [] (s.next (.tok l)) (ts ++ [(l, s.line)]) := by
  by_cases hb : b = []
  · subst hb
    have key : Gen.isAlnum w.getLast? = s.last.any (fun k => k.text.getLast?.any UnicodeID.alphanumeric) := by
      rw [h.last]
      cases hk : ts.getLast? with
      | none =>
        have : ts = [] := by simpa using hk
        subst this
        rw [h.laid.nil_of]; rfl
      | some k =>
        rw [(h.laid.wf k hk).2]
        simp only [Option.map_some, Option.any_some]
        cases k.1.text.getLast? <;> rfl
    have key2 : Gen.isAlnum l.text.head? = l.text.head?.any UnicodeID.alphanumeric := by cases l.text.head? <;> rfl
    simp only [emit1, List.append_nil, key, key2]
    by_cases hs : (s.last.any (fun k => k.text.getLast?.any UnicodeID.alphanumeric) && l.text.head?.any UnicodeID.alphanumeric) = true
    · rw [if_pos hs]
      rw [Bool.and_eq_true] at hs
      refine ⟨[' '], rfl, fun hl => ?_, h.tok ht (.inr ⟨rfl, rfl, fun hk => ?_⟩) (by simp)⟩
      · rw [hl] at hs
        have : UnicodeID.alphanumeric ';' = false := alnum_of (by decide) (by decide)
        simp [this] at hs
      · have := (ht.1.eof [] rfl)
        simp only [hk] at this
        obtain ⟨r, hr⟩ := continuation_brace this
        rw [hr] at hs
        have : UnicodeID.alphanumeric '}' = false := alnum_of (by decide) (by decide)
        simp [this] at hs
    · rw [if_neg hs]
      refine ⟨[], rfl, fun _ => rfl, h.tok ht (.inl rfl) (fun _ k hk => ?_)⟩
      have hk' : s.last = some k := hk
      rw [hk'] at hs
      simpa [bothAlnum] using hs
  · obtain ⟨x, hx, hx'⟩ := blanks_last h.blanks hb w
    have : Gen.isAlnum (some x) = false := alnum_blank hx'
    refine ⟨b, by simp [emit1, hx, this], fun _ => rfl, h.tok ht (.inl rfl) (fun h0 => absurd h0 hb)⟩

/-- The text of the items in minified code, with the end of a program, consists of their tokens.  `pend`: a semicolon has been
written that will be removed. -/
theorem minified_text : ∀ (is : List Item) (pend : Bool) (last : Option Lex) (w b : Str) (s : Lay) (ts : List (Lex × Bool)),
    Core w b s ts → (last = if b = [] then s.last else none) → Writable s (minified last is) → Lookahead s.line (minified last is) →
    (pend = false → ∀ v, w ++ b = v ++ [';'] → ending (v.getLast? == some ')') is = false) →
    (pend = true → b = [] ∧ w.getLast? ≠ some ';' ∧ ending (paren last) is = true) →
    ∃ w' b', finish (emit (w ++ b ++ if pend then [';'] else []) is) = w' ++ b' ∧ Laid w' (ts ++ flags s.line (minified last is)) ∧ Blanks b'
  | [], false, last, w, b, s, ts, hc, hl, hw, ha, hA, hB => by
    refine ⟨w, b, ?_, by simpa [minified, flags] using hc.laid, hc.blanks⟩
    simp only [Bool.false_eq_true, if_false, List.append_nil, emit, List.foldl_nil, finish]
    by_cases h : (w ++ b).getLast? = some ';'
    · have := hA rfl _ (last_split h)
      simp only [ending, Bool.not_eq_eq_eq_not, Bool.not_false, beq_iff_eq] at this
      rw [if_pos h, if_pos this]
    · rw [if_neg h]
  | [], true, last, w, b, s, ts, hc, hl, hw, ha, hA, hB => by
    obtain ⟨rfl, h1, h2⟩ := hB rfl
    refine ⟨w, [], ?_, by simpa [minified, flags] using hc.laid, nofun⟩
    rw [hc.paren_eq hl] at h2
    simp only [List.append_nil, ending, Bool.not_eq_eq_eq_not, Bool.not_true, beq_eq_false_iff_ne, ne_eq] at h2
    simp [finish, emit, h2]
  | .tok l :: is, true, last, w, b, s, ts, hc, hl, hw, ha, hA, hB => by
    have := (hB rfl).2.2
    simp [ending] at this
  | .semi :: is, true, last, w, b, s, ts, hc, hl, hw, ha, hA, hB => by
    have := (hB rfl).2.2
    simp [ending] at this
  | .blank :: is, true, last, w, b, s, ts, hc, hl, hw, ha, hA, hB => by
    have := (hB rfl).2.2
    simp [ending] at this
  | .tok l :: is, false, last, w, b, s, ts, hc, hl, hw, ha, hA, hB => by
    obtain ⟨-, h1, h2⟩ := hw
    obtain ⟨h3, h4⟩ := ha
    obtain ⟨b', h5, h6, h7⟩ := emit_tok hc h1
    have hd : l.text.getLast? = some ';' → l.text = [';'] ∧ ending (paren last) is = false := fun hx => by
      simpa [AheadOk, hx] using h3
    have := minified_text is false (some l) _ [] _ _ h7 rfl h2 h4.2 (fun _ v hv => ?_) nofun
    · obtain ⟨w', b'', h8, h9, h10⟩ := this
      refine ⟨w', b'', ?_, by simpa [minified, flags, lineAfter, Lay.next] using h9, h10⟩
      simpa [emit, h5] using h8
    · have hx : l.text.getLast? = some ';' := by
        obtain ⟨y, hy⟩ : ∃ y, l.text.getLast? = some y := by
          rw [← Option.isSome_iff_exists, List.getLast?_isSome]; exact h1.1.ne
        have := congrArg List.getLast? hv
        rw [List.append_nil, ← List.append_assoc, List.getLast?_append, hy] at this
        simpa [hy] using this
      obtain ⟨h8, h9⟩ := hd hx
      rw [h6 h8, h8, List.append_nil, ← List.append_assoc] at hv
      have := List.append_inj_left' hv rfl
      rw [← this, ← hc.paren_eq hl]
      exact h9
  | .semi :: is, false, last, w, b, s, ts, hc, hl, hw, ha, hA, hB => by
    unfold minified at hw ha
    by_cases he : ending (paren last) is = true
    · rw [if_pos he] at hw ha
      obtain ⟨-, -, -, h2⟩ := hw
      obtain ⟨h3, -, -, h4⟩ := ha
      simp only [AheadOk] at h3
      obtain ⟨k, rfl, hk⟩ : ∃ k, last = some k ∧ k.text.getLast? ≠ some ';' := by
        cases last with
        | none => simp at h3
        | some k => exact ⟨k, rfl, by simpa using h3⟩
      have hb : b = [] := by
        by_cases hb : b = []
        · exact hb
        · rw [if_neg hb] at hl; cases hl
      subst hb
      have hw : w.getLast? ≠ some ';' := by
        simp only [if_true] at hl
        rw [hc.last] at hl
        cases hts : ts.getLast? with
        | none => rw [hts] at hl; simp at hl
        | some x =>
          rw [hts] at hl
          simp at hl
          subst hl
          rw [(hc.laid.wf x hts).2]
          exact hk
      obtain ⟨w', b', h5, h6, h7⟩ := minified_text is true (some k) w [] s ts hc hl h2 h4 nofun (fun _ => ⟨rfl, hw, he⟩)
      refine ⟨w', b', ?_, ?_, h7⟩
      · simpa [emit, emit1] using h5
      · unfold minified
        rw [if_pos he]
        exact h6
    · rw [if_neg he] at hw ha
      obtain ⟨h1, h2⟩ := hw
      have h7 : Core (w ++ (b ++ [';'])) [] (s.next (pu p!";")) (ts ++ [(⟨.plain, .punct p!";", p!";".asStr⟩, s.line)]) := by
        refine hc.tok h1 (.inl rfl) (fun _ k _ => ?_)
        have : UnicodeID.alphanumeric ';' = false := alnum_of (by decide) (by decide)
        simp [bothAlnum, Punct.asStr, this]
      have := minified_text is false (some ⟨.plain, .punct p!";", p!";".asStr⟩) _ [] _ _ h7 rfl h2 ha.2 (fun _ v hv => ?_) nofun
      · obtain ⟨w', b'', h8, h9, h10⟩ := this
        refine ⟨w', b'', ?_, ?_, h10⟩
        · simpa [emit, emit1] using h8
        · unfold minified
          rw [if_neg he]
          simpa [flags, pu, lineAfter, Lay.next] using h9
      · rw [List.append_nil, ← List.append_assoc] at hv
        have := List.append_inj_left' hv rfl
        rw [← this, ← hc.paren_eq hl]
        simpa using he
  | .blank :: is, false, last, w, b, s, ts, hc, hl, hw, ha, hA, hB => by
    have h7 : Core w (b ++ [' ']) (s.next .blank) ts := by
      refine ⟨hc.laid, fun x hx => ?_, hc.last, fun h => ?_, fun h => by simp [Lay.next], hc.first⟩
      · rcases List.mem_append.1 hx with hx | hx
        · exact hc.blanks x hx
        · exact .inl (by simpa using hx)
      · have := hc.line h
        simpa [Lay.next] using this
    obtain ⟨w', b', h5, h6, h8⟩ := minified_text is false none w _ _ ts h7 (by simp) hw.2 ha.2
      (fun _ v hv => by
        have := congrArg List.getLast? hv
        simp [← List.append_assoc] at this) nofun
    exact ⟨w', b', by simpa [emit, emit1] using h5, h6, h8⟩
  | .close :: is, false, last, w, b, s, ts, hc, hl, hw, ha, hA, hB => by
    have h1 : (w ++ b).getLast? ≠ some ';' := fun h => by
      have := hA rfl _ (last_split h)
      simp [ending] at this
    obtain ⟨w', b', h5, h6, h8⟩ := minified_text is false last w b s ts hc hl hw ha
      (fun _ v hv => by rw [hv] at h1; simp at h1) nofun
    refine ⟨w', b', ?_, h6, h8⟩
    have e : emit1 (w ++ b ++ []) .close = w ++ b := by simp only [emit1, List.append_nil]; rw [if_neg h1]
    simp only [Bool.false_eq_true, if_false] at h5 ⊢
    show finish (emit (emit1 _ _) is) = _
    rw [e]
    simpa using h5
  | .close :: is, true, last, w, b, s, ts, hc, hl, hw, ha, hA, hB => by
    obtain ⟨rfl, h1, h2⟩ := hB rfl
    obtain ⟨w', b', h5, h6, h8⟩ := minified_text is false last w [] s ts hc hl hw ha
      (fun _ v hv => by rw [List.append_nil] at hv; rw [hv] at h1; simp at h1) nofun
    refine ⟨w', b', ?_, h6, h8⟩
    simpa [emit, emit1] using h5
  | .gap :: is, pend, last, w, b, s, ts, hc, hl, hw, ha, hA, hB => minified_text is pend last w b s ts hc hl hw ha hA hB
  | .nl :: is, pend, last, w, b, s, ts, hc, hl, hw, ha, hA, hB => minified_text is pend last w b s ts hc hl hw ha hA hB
  | .open :: is, pend, last, w, b, s, ts, hc, hl, hw, ha, hA, hB => minified_text is pend last w b s ts hc hl hw ha hA hB
  | .sep :: is, pend, last, w, b, s, ts, hc, hl, hw, ha, hA, hB => minified_text is pend last w b s ts hc hl hw ha hA hB
  | .still :: is, pend, last, w, b, s, ts, hc, hl, hw, ha, hA, hB => minified_text is pend last w b s ts hc hl hw ha hA hB
  | .single x :: is, pend, last, w, b, s, ts, hc, hl, hw, ha, hA, hB => minified_text is pend last w b s ts hc hl hw.2 ha.2 hA hB
  | .next q :: is, pend, last, w, b, s, ts, hc, hl, hw, ha, hA, hB => minified_text is pend last w b s ts hc hl hw.2 ha.2 hA hB
  | .next2 q :: is, pend, last, w, b, s, ts, hc, hl, hw, ha, hA, hB => minified_text is pend last w b s ts hc hl hw.2 ha.2 hA hB
  | .more :: is, pend, last, w, b, s, ts, hc, hl, hw, ha, hA, hB => minified_text is pend last w b s ts hc hl hw.2 ha.2 hA hB
  | .lexed :: is, pend, last, w, b, s, ts, hc, hl, hw, ha, hA, hB => minified_text is pend last w b s ts hc hl hw.2 ha.2 hA hB
  | .demand x :: is, pend, last, w, b, s, ts, hc, hl, hw, ha, hA, hB => minified_text is pend last w b s ts hc hl hw.2 ha.2 hA hB

/-! ## Programs -/

/-- The generated code consists of the tokens of the items. -/
theorem program_laid {mini : Bool} {p : Program} (h : Fits mini p.items) :
    ∃ w b, generateCode mini p = w ++ b ∧ Laid w (flags true (written mini p.items)) ∧ Blanks b := by
  have hc : ({ minified := mini } : GCtx).minified = mini := rfl
  have h0 : At mini {} [] ({} : Gen) [] := by
    cases mini with
    | true => exact fun _ => rfl
    | false =>
      intro _
      refine ⟨[], [], rfl, ⟨.nil, nofun, rfl, ?_, ?_, fun _ => rfl⟩, ?_, ?_, ?_, ?_⟩ <;> simp [pretty, Gen.pos, Lay.run, byteLen]
  have h1 : At mini {} [] (stmtsGen { minified := mini } p.body (({} : Gen).directives { minified := mini } p.directives)) p.items := by
    have h2 := directives_at p.directives hc h0
    have := stmts_writes p.body hc h2
    refine At.notes ?_ this
    simp [Program.items, bare, notString, isNote]
  cases mini with
  | false =>
    obtain ⟨w, b, hd, hc, -⟩ := h1 h.1
    exact ⟨w, b, hd, by simpa [written] using hc.laid, hc.blanks⟩
  | true =>
    have h2 := h1 (sound_of h.1)
    obtain ⟨w, b, h3, h4, h5⟩ := minified_text p.items false none [] [] {} [] ⟨.nil, nofun, rfl, nofun, nofun, fun _ => rfl⟩ rfl h.1 h.2
      (fun _ v hv => by simp at hv) nofun
    refine ⟨w, b, ?_, by simpa [written] using h4, h5⟩
    simp only [Bool.false_eq_true, if_false, List.append_nil] at h3
    rw [← h2] at h3
    rw [← h3]
    unfold generateCode Program.gen finish
    simp only [if_true, Gen.removeLast]
    generalize stmtsGen _ _ _ = g
    by_cases hx : g.data.getLast? = some ';'
    · simp only [hx, if_true]
      by_cases hy : g.data.dropLast.getLast? = some ')'
      · simp only [hy, if_true]
        rw [push_mini rfl]
        exact (last_split hx).symm
      · simp [hy]
    · simp [hx]

theorem program_run {sty : SourceType} {mini : Bool} {p : Program} (h : Fits mini p.items)
    {x : Str} (hx : Blanks x) : ∃ z, Run sty mini true ⟨[], generateCode mini p ++ x, true⟩ p.items z ∧ AtEnd sty z := by
  obtain ⟨w, b0, hd, hlaid, hblanks0⟩ := program_laid h
  have hblanks : Blanks (b0 ++ x) := fun c hc => (List.mem_append.1 hc).elim (hblanks0 c) (hx c)
  generalize hbx : b0 ++ x = b at hblanks
  have hd : generateCode mini p ++ x = w ++ b := by rw [hd, List.append_assoc, hbx]
  have hb : ∀ k ∈ (flags true (written mini p.items)).getLast?, k.1.Ok b.head? := by
    intro k hk
    have hw := (hlaid.wf k hk).1
    rcases b with _ | ⟨x, b⟩
    · exact hw.eof
    · rcases hblanks x (by simp) with rfl | rfl
      · exact hw.blank
      · exact hw.line
  have hch := hlaid.chain (sty := sty) b hb
  have he : AtEnd sty ⟨w, b, (flags true (written mini p.items)).isEmpty⟩ := ⟨_, by simpa using blank_trivia hblanks _ []⟩
  refine ⟨_, run_written (run_of ?_ he ?_ h.2), he⟩
  · rw [← hd] at hch; exact hch
  · intro t c ht
    have := (atEnd_cur (sty := sty) 0).1 he
    rw [stateAt_cur ht] at this
    simp at this
end Fajt.Print
