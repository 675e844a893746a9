import Verif.Proofs.PrintLex
import Verif.Model.Codegen
/-!
# The generator writes the items of the tree

Every function of the generator (in pretty mode) appends the items of the tree it is given: if they can be written, the text is
afterwards a sequence of token texts with blanks between them.
-/
namespace Fajt.Print
open Fajt Spec
set_option linter.unusedSectionVars false
variable [UnicodeID]

/-- The flag after the items. -/
def lineEnd0 (f : Bool) (is : List Item) : Bool := is.foldl lineAfter f

/-- Writing items one after the other. -/
def Lay.run (s : Lay) (is : List Item) : Lay := is.foldl Lay.next s

theorem run_snoc (s : Lay) (is js : List Item) : s.run (is ++ js) = (s.run is).run js := by simp [Lay.run]

theorem line_run (s : Lay) (is : List Item) : (s.run is).line = lineEnd0 s.line is := by
  induction is generalizing s with
  | nil => rfl
  | cons i is ih =>
    show ((s.next i).run is).line = lineEnd0 (lineAfter s.line i) is
    rw [ih]
    congr 1
    cases i <;> rfl

theorem writable_append {s : Lay} {is js : List Item} : Writable s (is ++ js) ↔ Writable s is ∧ Writable (s.run is) js := by
  induction is generalizing s with
  | nil => simp [Writable, Lay.run]
  | cons i is ih =>
    simp only [List.cons_append, Writable, ih, and_assoc]
    rfl

theorem flags_append {f : Bool} {is js : List Item} : flags f (is ++ js) = flags f is ++ flags (lineEnd0 f is) js := by
  induction is generalizing f with
  | nil => rfl
  | cons i is ih =>
    cases i with
    | tok l => simp only [List.cons_append, flags, ih]; rfl
    | _ => simp only [List.cons_append, flags, ih]; rfl

/-- The text in front of the blanks `b`, with the state `s`. -/
structure Core (w b : Str) (s : Lay) (ts : List (Lex × Bool)) : Prop where
  laid : Laid w ts
  blanks : Blanks b
  last : s.last = ts.getLast?.map (·.1)
  line : s.last ≠ none → b.contains '\n' = s.line
  gap : s.last ≠ none → (b = [] ↔ s.gap = false)
  first : s.last = none → s.line = true

/-- The state of the generator after complete tokens. -/
def St (g : Gen) (s : Lay) (ts : List (Lex × Bool)) : Prop :=
  ∃ w b, g.data = w ++ b ∧ Core w b s ts ∧ g.lastNewLine ≤ g.pos ∧ (g.lastNewLine = g.pos → s.last = none ∨ s.line = true) ∧
    g.lastBlockStart ≤ g.pos ∧ (g.lastBlockStart = g.pos → b = [] ∨ s.open = true)

/-- The state of the generator in a token of which `u` has been written. -/
def Mid (g : Gen) (s : Lay) (ts : List (Lex × Bool)) (u : Str) : Prop :=
  ∃ w b, g.data = w ++ b ++ u ∧ Core w b s ts ∧ g.lastNewLine < g.pos ∧ g.lastBlockStart < g.pos

/-- After writing the items. -/
def At0 (s : Lay) (ts : List (Lex × Bool)) (g : Gen) (js : List Item) : Prop :=
  Writable s js → St g (s.run js) (ts ++ flags s.line js)

/-- In a token after the items. -/
def MidAt0 (s : Lay) (ts : List (Lex × Bool)) (g : Gen) (js : List Item) (u : Str) : Prop :=
  Writable s js → Mid g (s.run js) (ts ++ flags s.line js) u

/-- The action writes the items. -/
def Writes0 (f : GAct) (is : List Item) : Prop := ∀ s ts g js, At0 s ts g js → At0 s ts (f g) (js ++ is)

theorem At0.cast {s : Lay} {ts : List (Lex × Bool)} {g : Gen} {js ks : List Item} (h : js = ks) (h' : At0 s ts g js) : At0 s ts g ks := h ▸ h'

theorem writes_of {f : GAct} {is : List Item} (h : ∀ g s ts, St g s ts → Writable s is → St (f g) (s.run is) (ts ++ flags s.line is)) :
    Writes0 f is := by
  intro s ts g js hat hw
  rw [writable_append] at hw
  have := h g _ _ (hat hw.1) hw.2
  rw [run_snoc, flags_append, ← List.append_assoc, ← line_run]
  exact this

theorem Writes0.id : Writes0 id [] := fun s ts g js h => by simpa using h

theorem St.congr {g g' : Gen} {s : Lay} {ts : List (Lex × Bool)} (h : St g s ts) (h1 : g'.data = g.data)
    (h2 : g'.lastNewLine = g.lastNewLine) (h3 : g'.lastBlockStart = g.lastBlockStart) : St g' s ts := by
  unfold St Gen.pos at *
  rw [h1, h2, h3]
  exact h

theorem At0.congr {s : Lay} {ts : List (Lex × Bool)} {g g' : Gen} {js : List Item} (h : At0 s ts g js) (h1 : g'.data = g.data)
    (h2 : g'.lastNewLine = g.lastNewLine) (h3 : g'.lastBlockStart = g.lastBlockStart) : At0 s ts g' js := fun hw => (h hw).congr h1 h2 h3

theorem Writes0.child {f : GAct} {is : List Item} (h : Writes0 f is) : Writes0 (Gen.child f) is :=
  fun s ts g js hg => (h s ts g js hg).congr rfl rfl rfl

/-! ## Primitives -/

theorem alnum_blank {c : Char} (h : c = ' ' ∨ c = '\n') : UnicodeID.alphanumeric c = false := by
  rcases h with rfl | rfl <;> rw [UnicodeID.ascii_alphanumeric _ (by decide)] <;> decide

theorem byteLen_append (a b : Str) : byteLen (a ++ b) = byteLen a + byteLen b := by
  induction a with
  | nil => simp [byteLen]
  | cons c a ih => simp [byteLen] at *; omega

theorem byteLen_pos {a : Str} (h : a ≠ []) : 0 < byteLen a := by
  cases a with
  | nil => exact absurd rfl h
  | cons c a => simp [byteLen]; have := c.utf8Size_pos; omega

/-- Indentation keeps the state. -/
theorem indent_core {c : GCtx} (hc : c.minified = false) {g : Gen} {s : Lay} {ts : List (Lex × Bool)} (h : St g s ts) :
    ∃ w b, (g.indent c).data = w ++ b ∧ Core w b s ts ∧ (g.indent c).lastNewLine = g.lastNewLine ∧
      (g.indent c).lastBlockStart = g.lastBlockStart ∧ g.lastNewLine ≤ (g.indent c).pos ∧ g.lastBlockStart ≤ (g.indent c).pos ∧
      (g.lastBlockStart = (g.indent c).pos → b = [] ∨ s.open = true) := by
  obtain ⟨w, b, hd, hcore, h1, h2, h3, h4⟩ := h
  unfold Gen.indent
  simp only [hc, Bool.false_eq_true, if_false]
  split
  · exact ⟨w, b, hd, hcore, rfl, rfl, h1, h3, h4⟩
  · rename_i hcol
    have hcol' : g.lastNewLine = g.pos := by
      simp only [Gen.colPos, Gen.askCol, Gen.pos, ne_eq, Decidable.not_not] at hcol h1 ⊢
      omega
    have hrep : ∀ n, Blanks (List.replicate n ' ') := fun n x hx => by simp at hx; exact .inl hx.2
    have hb : Blanks (b ++ List.replicate c.indentation ' ') := fun x hx => by
      rcases List.mem_append.1 hx with h | h
      · exact hcore.blanks x h
      · exact hrep _ x h
    have hrepc : ∀ n, (List.replicate n ' ').contains '\n' = false := fun n => by simp [List.mem_replicate]
    refine ⟨w, b ++ List.replicate c.indentation ' ', ?_, ⟨hcore.laid, hb, hcore.last, fun hn => ?_, fun hn => ?_, hcore.first⟩, rfl, rfl,
      ?_, ?_, ?_⟩
    · simp [Gen.push, Gen.askCol, hd]
    · rw [← hcore.line hn]
      have := hrepc c.indentation
      simp only [List.contains_eq_mem, List.mem_append, decide_eq_false_iff_not, decide_eq_decide] at this ⊢
      simp [this]
    · have hl : s.line = true := (h2 hcol').resolve_left hn
      have hb0 : b ≠ [] := by
        rintro rfl
        have := hcore.line hn
        simp [hl] at this
      rw [← hcore.gap hn]
      simp [hb0]
    · simp only [Gen.push, Gen.askCol, Gen.pos, byteLen_append] at h1 ⊢; omega
    · simp only [Gen.push, Gen.askCol, Gen.pos, byteLen_append] at h3 ⊢; omega
    · intro hp
      simp only [Gen.push, Gen.askCol, Gen.pos, byteLen_append] at hp h3 h4
      have hr : byteLen (List.replicate c.indentation ' ') = 0 := by omega
      have hr' : List.replicate c.indentation ' ' = [] := by
        by_cases he : List.replicate c.indentation ' ' = []
        · exact he
        · have := byteLen_pos he; omega
      rw [hr', List.append_nil]
      exact h4 (by omega)

theorem Laid.wf {w : Str} {ts : List (Lex × Bool)} (h : Laid w ts) : ∀ k ∈ ts.getLast?, k.1.WF ∧ w.getLast? = k.1.text.getLast? := by
  cases h with
  | nil => nofun
  | @snoc w b ts l h1 h2 h3 =>
    intro k hk
    simp at hk
    subst hk
    refine ⟨h3, ?_⟩
    rw [← List.append_assoc, List.getLast?_append]
    obtain ⟨x, hx⟩ : ∃ x, l.text.getLast? = some x := by
      rw [← Option.isSome_iff_exists, List.getLast?_isSome]; exact h3.ne
    simp [hx]

/-- A complete token. -/
theorem Core.tok {w b : Str} {s : Lay} {ts : List (Lex × Bool)} (h : Core w b s ts) {l : Lex} (ht : s.Takes (.tok l)) {b' : Str}
    (hb : b' = b ∨ (b = [] ∧ b' = [' '] ∧ l.kind ≠ .cont)) (hj : b' = [] → ∀ k ∈ s.last, bothAlnum k.text l.text = false) :
    Core (w ++ (b' ++ l.text)) [] (s.next (.tok l)) (ts ++ [(l, s.line)]) := by
  obtain ⟨h1, h2, h3⟩ := ht
  have hb' : Blanks b' := by
    rcases hb with rfl | ⟨-, rfl, -⟩
    · exact h.blanks
    · intro x hx; simp at hx; exact .inl hx
  have hcn : b'.contains '\n' = b.contains '\n' := by
    rcases hb with rfl | ⟨rfl, rfl, -⟩
    · rfl
    · decide
  have hf : (ts.isEmpty || b'.contains '\n') = s.line := by
    rw [hcn]
    cases hts : ts with
    | nil => simp; exact h.first (by rw [h.last, hts]; rfl)
    | cons x xs =>
      simp only [List.isEmpty_cons, Bool.false_or]
      exact h.line (by rw [h.last, hts]; simp [List.getLast?_cons])
  refine ⟨?_, nofun, by simp [Lay.next], ?_, ?_, nofun⟩
  · rw [← hf]
    refine .snoc h.laid hb' h1 (fun hk => ?_) (fun k hk => ?_)
    · obtain ⟨h4, h5⟩ := h2 hk
      have hb0 := (h.gap (by rintro h6; simp [h6] at h4)).2 h5
      refine ⟨?_, fun hts => ?_⟩
      · rcases hb with rfl | ⟨-, -, h6⟩
        · exact hb0
        · exact absurd hk h6
      · rw [h.last, hts] at h4; simp at h4
    · obtain ⟨hwf, -⟩ := h.laid.wf k hk
      have hk' : s.last = some k.1 := by rw [h.last, hk]; rfl
      cases hb0 : b' with
      | nil =>
        have : b = [] := by
          rcases hb with rfl | ⟨h6, -⟩
          · exact hb0
          · exact h6
        have := (h.gap (by simp [hk'])).1 this
        rcases h3 k.1 hk' this with h6 | h6
        · rw [hj hb0 k.1 hk'] at h6; cases h6
        · exact h6
      | cons x xs =>
        rcases hb' x (by simp [hb0]) with rfl | rfl
        · exact hwf.blank
        · exact hwf.line
  · intro _; rfl
  · intro _; simp [Lay.next]

theorem string_writes {c : GCtx} (hc : c.minified = false) {l : Lex} (hk : l.kind ≠ .cont) : Writes0 (Gen.string c l.text) [.tok l] := by
  refine writes_of fun g s ts h hw => ?_
  obtain ⟨w, b, hd, hcore, h1, h2, h3, h4, -⟩ := indent_core hc h
  have ht := hw.1
  have hne := ht.1.ne
  have hpos := byteLen_pos hne
  have hres : (ts ++ flags s.line [.tok l]) = ts ++ [(l, s.line)] := rfl
  rw [hres]
  have hlastw : ∀ k ∈ s.last, w.getLast? = k.text.getLast? := fun k hk' => by
    rw [hcore.last] at hk'
    simp only [Option.mem_def, Option.map_eq_some_iff] at hk'
    obtain ⟨x, hx, rfl⟩ := hk'
    exact (hcore.laid.wf x hx).2
  have key : ∀ b', (b' = b ∨ (b = [] ∧ b' = [' '] ∧ l.kind ≠ .cont)) → (b' = [] → ∀ k ∈ s.last, bothAlnum k.text l.text = false) →
      (g.string c l.text).data = w ++ (b' ++ l.text) → St (g.string c l.text) (s.next (.tok l)) (ts ++ [(l, s.line)]) := by
    intro b' hb' hj hd'
    have hlen : byteLen (g.indent c).data < byteLen (g.string c l.text).data := by
      rw [hd, hd']
      simp only [byteLen_append]
      rcases hb' with rfl | ⟨rfl, rfl, -⟩
      · omega
      · simp [byteLen] at *; omega
    have hl1 : (g.string c l.text).lastNewLine = g.lastNewLine := by
      rw [← h1]; unfold Gen.string; dsimp only; split <;> rfl
    have hl2 : (g.string c l.text).lastBlockStart = g.lastBlockStart := by
      rw [← h2]; unfold Gen.string; dsimp only; split <;> rfl
    unfold Gen.pos at h3 h4
    refine ⟨w ++ (b' ++ l.text), [], by simp [hd'], hcore.tok ht hb' hj, ?_, ?_, ?_, ?_⟩
    · rw [hl1]; unfold Gen.pos; omega
    · rw [hl1]; unfold Gen.pos; intro h; omega
    · rw [hl2]; unfold Gen.pos; omega
    · rw [hl2]; unfold Gen.pos; intro h; omega
  cases hm : Gen.mustAddSpaceBefore l.text (g.indent c) with
  | true =>
    have hb0 : b = [] := by
      rcases List.eq_nil_or_concat b with h | ⟨b1, x, rfl⟩
      · exact h
      · simp only [Gen.mustAddSpaceBefore, hd, Bool.and_eq_true] at hm
        rw [List.concat_eq_append, ← List.append_assoc, List.getLast?_concat] at hm
        simp only [Gen.isAlnum] at hm
        rw [alnum_blank (hcore.blanks x (by simp))] at hm
        simp at hm
    refine key [' '] (.inr ⟨hb0, rfl, hk⟩) nofun ?_
    simp [Gen.string, hm, Gen.push, hd, hb0]
  | false =>
    refine key b (.inl rfl) (fun hb0 k hk' => ?_) ?_
    · subst hb0
      simp only [Gen.mustAddSpaceBefore, hd, List.append_nil] at hm
      rw [hlastw k hk'] at hm
      unfold bothAlnum
      rw [← hm]
      cases k.text.getLast? <;> cases l.text.head? <;> simp [Gen.isAlnum]
    · simp [Gen.string, hm, Gen.push, hd]

theorem char_string {c : GCtx} {ch : Char} (h : UnicodeID.alphanumeric ch = false) : Gen.char c ch = Gen.string c [ch] := by
  funext g
  simp [Gen.char, Gen.string, Gen.mustAddSpaceBefore, Gen.isAlnum, h]

theorem char_writes {c : GCtx} (hc : c.minified = false) {l : Lex} {ch : Char} (ht : l.text = [ch]) (h : UnicodeID.alphanumeric ch = false)
    (hk : l.kind ≠ .cont) : Writes0 (Gen.char c ch) [.tok l] := by
  rw [char_string h, ← ht]
  exact string_writes hc hk

theorem indent_writes {c : GCtx} (hc : c.minified = false) : Writes0 (Gen.indent c) [] := by
  refine writes_of fun g s ts h _ => ?_
  obtain ⟨w, b, hd, hcore, h1, h2, h3, h4, h5⟩ := indent_core hc h
  obtain ⟨w', b', hd', hcore', h1', h2', h3', h4'⟩ := h
  have hle : byteLen g.data ≤ byteLen (g.indent c).data := by
    unfold Gen.indent
    simp only [hc, Bool.false_eq_true, if_false]
    split
    · exact Nat.le_refl _
    · simp [Gen.push, Gen.askCol]
  refine ⟨w, b, hd, by simpa [flags, Lay.run] using hcore, by rw [h1]; exact h3, ?_, by rw [h2]; exact h4, by rw [h2]; exact h5⟩
  rw [h1]
  intro h
  unfold Gen.pos at *
  exact h2' (by omega)

theorem blank_writes {c : GCtx} (hc : c.minified = false) {x : Char} (hx : x = ' ' ∨ x = '\n') {g : Gen} {s : Lay} {ts : List (Lex × Bool)}
    (h : St g s ts) : ∃ w b, (g.char c x).data = w ++ (b ++ [x]) ∧ Core w b s ts ∧ (g.char c x).lastNewLine < (g.char c x).pos ∧
      (g.char c x).lastBlockStart < (g.char c x).pos ∧ Blanks (b ++ [x]) := by
  obtain ⟨w, b, hd, hcore, h1, h2, h3, h4, -⟩ := indent_core hc h
  have hlen : byteLen [x] = 1 := by rcases hx with rfl | rfl <;> decide
  refine ⟨w, b, ?_, hcore, ?_, ?_, fun y hy => ?_⟩
  · simp [Gen.char, Gen.push, hd]
  · show (g.indent c).lastNewLine < byteLen ((g.indent c).data ++ [x])
    rw [byteLen_append, hlen, h1]
    unfold Gen.pos at h3; omega
  · show (g.indent c).lastBlockStart < byteLen ((g.indent c).data ++ [x])
    rw [byteLen_append, hlen, h2]
    unfold Gen.pos at h4; omega
  · rcases List.mem_append.1 hy with h | h
    · exact hcore.blanks y h
    · simp at h; exact h ▸ hx

theorem space_writes {c : GCtx} (hc : c.minified = false) : Writes0 (Gen.space c) [.gap] := by
  refine writes_of fun g s ts h _ => ?_
  obtain ⟨w, b, hd, hcore, h1, h2, h3⟩ := blank_writes hc (x := ' ') (.inl rfl) h
  have e : Gen.space c g = g.char c ' ' := by simp [Gen.space, hc]
  rw [e]
  refine ⟨w, b ++ [' '], hd, ⟨by simpa [flags] using hcore.laid, h3, by simpa [flags, Lay.run, Lay.next] using hcore.last,
    fun hn => ?_, fun hn => ?_, ?_⟩, by omega, fun h => by omega, by omega, fun h => by omega⟩
  · have := hcore.line hn
    simp only [Lay.run, List.foldl, Lay.next]
    rw [← this]
    simp
  · simp [Lay.run, Lay.next]
  · exact hcore.first

theorem nl_st {c : GCtx} (hc : c.minified = false) {g : Gen} {s s' : Lay} {ts : List (Lex × Bool)} (h : St g s ts)
    (h1 : s'.last = s.last) (h2 : s'.line = true) (h3 : s.last ≠ none → s'.gap = true) : St (g.newLine c) s' ts := by
  obtain ⟨w, b, hd, hcore, h4, h5, h6⟩ := blank_writes hc (x := '\n') (.inr rfl) h
  have e : g.newLine c = { g.char c '\n' with lastNewLine := (g.char c '\n').pos } := by simp [Gen.newLine, hc]
  rw [e]
  refine ⟨w, b ++ ['\n'], hd, ⟨hcore.laid, h6, by rw [h1]; exact hcore.last, fun _ => by simp [h2], fun hn => ?_, fun _ => h2⟩, ?_⟩
  · rw [h3 (h1 ▸ hn)]; simp
  · refine ⟨Nat.le_refl _, fun _ => .inr h2, ?_, fun h => ?_⟩
    · exact Nat.le_of_lt h5
    · exact absurd h (Nat.ne_of_lt h5)

theorem newLine_writes {c : GCtx} (hc : c.minified = false) : Writes0 (Gen.newLine c) [.nl] :=
  writes_of fun g s ts h _ => by
    have := nl_st hc h (s' := s.next .nl) rfl rfl fun _ => rfl
    simpa [flags, Lay.run] using this

theorem exitStmt_writes {c : GCtx} (hc : c.minified = false) : Writes0 (Gen.exitStmt c) [.nl] :=
  writes_of fun g s ts h hw => by
    unfold Gen.exitStmt
    split
    · have := nl_st hc h (s' := s.next .nl) rfl rfl fun _ => rfl
      simpa [flags, Lay.run] using this
    · rename_i hp
      obtain ⟨w, b, hd, hcore, h1, h2, h3, h4⟩ := h
      have hp' : g.lastNewLine = g.pos := by simpa using hp
      have ho : s.open = false := hw.1
      have hl : s.line = true := by
        rcases h2 hp' with h | h
        · exact hcore.first h
        · exact h
      refine ⟨w, b, hd, ⟨by simpa [flags] using hcore.laid, hcore.blanks, by simpa [flags, Lay.run, Lay.next] using hcore.last,
        fun hn => ?_, fun hn => ?_, fun _ => rfl⟩, h1, fun _ => .inr rfl, h3, fun h => ?_⟩
      · have := hcore.line hn
        rw [hl] at this
        exact this
      · have := hcore.line hn
        rw [hl] at this
        have hb : b ≠ [] := by rintro rfl; simp at this
        simp [Lay.run, Lay.next, hb]
      · rcases h4 h with h | h
        · exact .inl h
        · rw [ho] at h; cases h

theorem separation_writes {c : GCtx} (hc : c.minified = false) : Writes0 (Gen.separation c) [.sep] :=
  writes_of fun g s ts h hw => by
    have hs : s.run [.sep] = s := rfl
    rw [hs]
    simp only [flags, List.append_nil]
    have hl : s.line = true := hw.1
    unfold Gen.separation
    split
    · exact h.congr rfl rfl rfl
    · split
      · refine nl_st hc h rfl hl fun hn => ?_
        obtain ⟨w, b, hd, hcore, -⟩ := h
        have := hcore.line hn
        rw [hl] at this
        have hb : b ≠ [] := by rintro rfl; simp at this
        rcases hg : s.gap with _ | _
        · exact absurd ((hcore.gap hn).2 hg) hb
        · rfl
      · exact h

theorem still_writes {c : GCtx} (hc : c.minified = false) : Writes0 (Gen.string c []) [.still] :=
  writes_of fun g s ts h hw => by
    have hl : s.line = false := hw.1
    have hs : s.run [.still] = s := rfl
    rw [hs]
    simp only [flags, List.append_nil]
    have hcol : g.lastNewLine ≠ g.pos := by
      obtain ⟨w, b, hd, hcore, h1, h2, h3, h4⟩ := h
      intro hp
      rcases h2 hp with h | h
      · rw [hcore.first h] at hl; cases hl
      · rw [h] at hl; cases hl
    have hle : g.lastNewLine ≤ g.pos := by
      obtain ⟨w, b, hd, hcore, h1, h2, h3, h4⟩ := h
      exact h1
    have e : (g.indent c) = g.askCol := by
      unfold Gen.indent
      simp only [hc, Bool.false_eq_true, if_false]
      rw [if_pos]
      unfold Gen.colPos Gen.askCol Gen.pos at *
      dsimp only
      omega
    refine h.congr ?_ ?_ ?_ <;> simp [Gen.string, e, Gen.mustAddSpaceBefore, Gen.isAlnum, Gen.askCol, Gen.push]

/-! ## Notes -/

/-- Restrictions on lookahead and conditions on trees. -/
def isNote : Item → Bool
  | .next _ | .next2 _ | .more | .lexed | .demand _ => true
  | _ => false

/-- The items without notes. -/
def bare (is : List Item) : List Item := is.filter fun i => !isNote i

theorem bare_append (is js : List Item) : bare (is ++ js) = bare is ++ bare js := by simp [bare]

theorem bare_facts (is : List Item) : (∀ s, Writable s (bare is) ↔ Writable s is) ∧ (∀ s : Lay, s.run (bare is) = s.run is) ∧
    (∀ f, flags f (bare is) = flags f is) := by
  induction is with
  | nil => simp [bare, Writable]
  | cons i is ih =>
    obtain ⟨h1, h2, h3⟩ := ih
    cases i with
    | next | next2 | more | lexed | demand =>
      refine ⟨fun s => ?_, fun s => ?_, fun f => ?_⟩
      · show Writable s (bare is) ↔ _
        rw [h1]; simp [Writable, Lay.Takes, Lay.next]
      · exact h2 s
      · exact h3 f
    | _ =>
      refine ⟨fun s => ?_, fun s => ?_, fun f => ?_⟩
      · show s.Takes _ ∧ Writable _ (bare is) ↔ s.Takes _ ∧ Writable _ is
        rw [h1]
      · exact h2 _
      · first | exact h3 _ | exact congrArg (List.cons _) (h3 _)

/-- Notes can be added anywhere. -/
theorem At0.notes {s : Lay} {ts : List (Lex × Bool)} {g : Gen} {js ks : List Item} (h : bare js = bare ks) (h' : At0 s ts g js) : At0 s ts g ks := by
  obtain ⟨h1, h2, h3⟩ := bare_facts js
  obtain ⟨h4, h5, h6⟩ := bare_facts ks
  intro hw
  rw [← h5, ← h6, ← h, h2, h3]
  refine h' ?_
  rw [← h1, h, h4]
  exact hw

theorem Writes0.notes {f : GAct} {js ks : List Item} (h : bare js = bare ks) (h' : Writes0 f js) : Writes0 f ks :=
  fun s ts g is hg => (h' s ts g is hg).notes (by rw [bare_append, bare_append, h])

/-! ## Compound pieces -/

theorem alnum_of {ch : Char} (h : ch.toNat < 128) (h' : ch.isAlphanum = false) : UnicodeID.alphanumeric ch = false := by
  rw [UnicodeID.ascii_alphanumeric _ h, h']

/-- The column is not zero after a token. -/
theorem push_string {c : GCtx} {u : Str} (hu : u ≠ []) {v : Str} {g : Gen} :
    (g.string c (u ++ v)).data = (g.string c u).data ++ v ∧ (g.string c (u ++ v)).lastNewLine = (g.string c u).lastNewLine ∧
    (g.string c (u ++ v)).lastBlockStart = (g.string c u).lastBlockStart := by
  have h1 : (u ++ v).head? = u.head? := by cases u with
    | nil => exact absurd rfl hu
    | cons => rfl
  unfold Gen.string
  simp only [Gen.mustAddSpaceBefore, h1]
  split <;> simp only [if_true, *] <;> simp [Gen.push]

theorem indent_far {c : GCtx} {g : Gen} (h : g.lastNewLine < g.pos) : (g.indent c).data = g.data ∧
    (g.indent c).lastNewLine = g.lastNewLine ∧ (g.indent c).lastBlockStart = g.lastBlockStart := by
  unfold Gen.indent
  split
  · exact ⟨rfl, rfl, rfl⟩
  · rw [if_pos]
    · exact ⟨rfl, rfl, rfl⟩
    · unfold Gen.colPos Gen.askCol Gen.pos at *
      dsimp only
      omega

theorem string_far {c : GCtx} (hc : c.minified = false) {u : Str} (hu : u ≠ []) {g : Gen} {s : Lay} {ts : List (Lex × Bool)} (hg : St g s ts) :
    (g.string c u).lastNewLine < (g.string c u).pos := by
  obtain ⟨w, b, hd, hcore, h1, h2, h3, h4, -⟩ := indent_core hc hg
  have := byteLen_pos hu
  unfold Gen.string Gen.pos at *
  dsimp only
  split <;> simp only [Gen.push, byteLen_append] <;> simp [byteLen] at * <;> omega

theorem string_last {c : GCtx} {u : Str} (hu : u ≠ []) {g : Gen} : (g.string c u).data.getLast? = u.getLast? := by
  obtain ⟨x, hx⟩ : ∃ x, u.getLast? = some x := by
    rw [← Option.isSome_iff_exists, List.getLast?_isSome]; exact hu
  unfold Gen.string
  dsimp only
  split <;> simp [Gen.push, List.getLast?_append, List.getLast?_cons, hx]

/-- A text with something behind it. -/
theorem St.push {c : GCtx} {u v : Str} (hu : u ≠ []) {g g' : Gen} {s' : Lay} {ts' : List (Lex × Bool)} (h : St g' s' ts') (h1 : g'.data = (g.string c u).data ++ v)
    (h2 : g'.lastNewLine = (g.string c u).lastNewLine) (h3 : g'.lastBlockStart = (g.string c u).lastBlockStart) :
    St (g.string c (u ++ v)) s' ts' := by
  obtain ⟨h4, h5, h6⟩ := push_string (c := c) hu (v := v) (g := g)
  exact h.congr (by rw [h4, h1]) (by rw [h5, h2]) (by rw [h6, h3])

theorem split_writes {c : GCtx} (hc : c.minified = false) {u v : Str} {is js : List Item} {f : GAct} (hu : u ≠ [])
    (h1 : Writes0 (Gen.string c u) is) (h2 : Writes0 f js)
    (h3 : ∀ g : Gen, g.lastNewLine < g.pos → g.data.getLast? = u.getLast? → (f g).data = g.data ++ v ∧ (f g).lastNewLine = g.lastNewLine ∧ (f g).lastBlockStart = g.lastBlockStart) :
    Writes0 (Gen.string c (u ++ v)) (is ++ js) := by
  intro s ts g ks hg hw
  have hw' := hw
  rw [writable_append] at hw'
  have h4 := hg hw'.1
  have h5 := h2 _ _ _ _ (h1 _ _ _ _ hg)
  rw [List.append_assoc] at h5
  obtain ⟨h6, h7, h8⟩ := h3 (g.string c u) (string_far hc hu h4) (string_last hu)
  exact (h5 hw).push hu h6 h7 h8

theorem char_far {c : GCtx} {x : Char} (g : Gen) (h : g.lastNewLine < g.pos) : (g.char c x).data = g.data ++ [x] ∧
    (g.char c x).lastNewLine = g.lastNewLine ∧ (g.char c x).lastBlockStart = g.lastBlockStart := by
  obtain ⟨h1, h2, h3⟩ := indent_far (c := c) h
  exact ⟨by simp [Gen.char, Gen.push, h1], h2, h3⟩

/-- A text that ends with a blank. -/
theorem spaced_writes {c : GCtx} (hc : c.minified = false) {u : Str} {l : Lex} (hu : l.text = u) (hn : u ≠ []) (hk : l.kind ≠ .cont) :
    Writes0 (Gen.string c (u ++ [' '])) [.tok l, .gap] := by
  refine split_writes hc hn (is := [.tok l]) (hu ▸ string_writes hc hk) (space_writes hc) fun g hg _ => ?_
  have : Gen.space c g = g.char c ' ' := by simp [Gen.space, hc]
  rw [this]
  exact char_far g hg

/-- A text that ends with a punctuator of one character. -/
theorem punct_writes {c : GCtx} (hc : c.minified = false) {u : Str} {x : Char} {l k : Lex} (hu : l.text = u) (hn : u ≠ []) (hk : l.kind ≠ .cont)
    (hx : k.text = [x]) (hx' : UnicodeID.alphanumeric x = false) (hk' : k.kind ≠ .cont) :
    Writes0 (Gen.string c (u ++ [x])) [.tok l, .tok k] :=
  split_writes hc hn (is := [.tok l]) (hu ▸ string_writes hc hk) (char_writes hc hx hx' hk') fun g hg _ => char_far g hg

theorem Writes0.comp {f h : GAct} {is js : List Item} (h1 : Writes0 f is) (h2 : Writes0 h js) : Writes0 (fun g => h (f g)) (is ++ js) :=
  fun s ts g ks hg => by rw [← List.append_assoc]; exact h2 _ _ _ _ (h1 _ _ _ _ hg)

theorem exportDefault_writes {c : GCtx} (hc : c.minified = false) :
    Writes0 (Gen.string c c!"export default") [word c!"export", .gap, word c!"default"] := by
  have h1 := spaced_writes hc (l := ⟨.plain, nameVal c!"export", c!"export"⟩) rfl (by decide) nofun
  have h2 := string_writes hc (l := ⟨.plain, nameVal c!"default", c!"default"⟩) nofun
  refine split_writes hc (u := c!"export" ++ [' ']) (v := c!"default") (by decide) h1 h2 fun g hg hl => ?_
  obtain ⟨h1, h2, h3⟩ := indent_far (c := c) hg
  have hm : Gen.mustAddSpaceBefore c!"default" (g.indent c) = false := by
    simp only [Gen.mustAddSpaceBefore, h1, hl]
    have : Gen.isAlnum (List.getLast? (c!"export" ++ [' '])) = false := alnum_blank (.inl rfl)
    rw [this]; rfl
  refine ⟨?_, ?_, ?_⟩ <;> simp [Gen.string, hm, Gen.push, h1, h2, h3]

/-! ## Tokens in pieces -/

theorem char_mid {c : GCtx} (hc : c.minified = false) {x : Char} {s : Lay} {ts : List (Lex × Bool)} {g : Gen} {js : List Item}
    (h : At0 s ts g js) : MidAt0 s ts (g.char c x) js [x] := by
  intro hw
  obtain ⟨w, b, hd, hcore, h1, h2, h3, h4, -⟩ := indent_core hc (h hw)
  have hlen := byteLen_pos (a := [x]) (by simp)
  refine ⟨w, b, by simp [Gen.char, Gen.push, hd], hcore, ?_, ?_⟩
  · show (g.indent c).lastNewLine < byteLen ((g.indent c).data ++ [x])
    rw [byteLen_append, h1]
    unfold Gen.pos at h3; omega
  · show (g.indent c).lastBlockStart < byteLen ((g.indent c).data ++ [x])
    rw [byteLen_append, h2]
    unfold Gen.pos at h4; omega

theorem mid_push {g : Gen} {s : Lay} {ts : List (Lex × Bool)} {u : Str} (h : Mid g s ts u) {g' : Gen} {v : Str}
    (h1 : g'.data = g.data ++ v) (h2 : g'.lastNewLine = g.lastNewLine) (h3 : g'.lastBlockStart = g.lastBlockStart) : Mid g' s ts (u ++ v) := by
  obtain ⟨w, b, hd, hcore, h4, h5⟩ := h
  unfold Gen.pos at *
  refine ⟨w, b, by simp [h1, hd], hcore, ?_, ?_⟩
  · unfold Gen.pos; rw [h1, h2, byteLen_append]; omega
  · unfold Gen.pos; rw [h1, h3, byteLen_append]; omega

theorem mid_char {c : GCtx} {g : Gen} {s : Lay} {ts : List (Lex × Bool)} {js : List Item} {u : Str} (h : MidAt0 s ts g js u) (x : Char) :
    MidAt0 s ts (g.char c x) js (u ++ [x]) := by
  intro hw
  have h' := h hw
  have hlt : g.lastNewLine < g.pos := by
    obtain ⟨w, b, hd, hcore, h4, h5⟩ := h'
    exact h4
  obtain ⟨h1, h2, h3⟩ := char_far (c := c) (x := x) g hlt
  exact mid_push h' h1 h2 h3

theorem mid_string {c : GCtx} {g : Gen} {s : Lay} {ts : List (Lex × Bool)} {js : List Item} {u : Str} (h : MidAt0 s ts g js u) (v : Str)
    (hne : u ≠ []) (hj : bothAlnum u v = false) : MidAt0 s ts (g.string c v) js (u ++ v) := by
  intro hw
  have h' := h hw
  obtain ⟨w, b, hd, hcore, h4, h5⟩ := id h'
  obtain ⟨h1, h2, h3⟩ := indent_far (c := c) h4
  have hl : g.data.getLast? = u.getLast? := by
    obtain ⟨x, hx⟩ : ∃ x, u.getLast? = some x := by
      rw [← Option.isSome_iff_exists, List.getLast?_isSome]; exact hne
    rw [hd, List.getLast?_append, hx]; rfl
  have hm : Gen.mustAddSpaceBefore v (g.indent c) = false := by
    simp only [Gen.mustAddSpaceBefore, h1, hl]
    rw [← hj]
    unfold bothAlnum
    cases u.getLast? <;> cases v.head? <;> simp [Gen.isAlnum]
  refine mid_push h' ?_ ?_ ?_ <;> simp [Gen.string, hm, Gen.push, h1, h2, h3]

theorem mid_tok {g : Gen} {s : Lay} {ts : List (Lex × Bool)} {js : List Item} {l : Lex} (h : MidAt0 s ts g js l.text)
    (hx : Gen.isAlnum l.text.head? = false) : At0 s ts g (js ++ [.tok l]) := by
  intro hw
  rw [writable_append] at hw
  obtain ⟨w, b, hd, hcore, h4, h5⟩ := h hw.1
  rw [run_snoc, flags_append, ← List.append_assoc, ← line_run]
  refine ⟨w ++ (b ++ l.text), [], by simp [hd], hcore.tok hw.2.1 (.inl rfl) fun _ k _ => ?_, by omega, fun h => by omega, by omega, fun h => by omega⟩
  unfold bothAlnum
  cases hh : l.text.head? with
  | none => simp
  | some x => rw [hh] at hx; simp only [Gen.isAlnum] at hx; simp [hx]

theorem alnum_quote {q : Char} (h : q = '"' ∨ q = '\'') : UnicodeID.alphanumeric q = false := by
  rcases h with rfl | rfl <;> exact alnum_of (by decide) (by decide)

theorem litString_writes {c : GCtx} (hc : c.minified = false) (v : LitString) : Writes0 (Gen.litString c v) [strItem v] := by
  intro s ts g js hg hw
  have hq : v.delimiter = '"' ∨ v.delimiter = '\'' := by
    have hw' := hw
    rw [writable_append] at hw'
    have := (hw'.2.1.1.eof [] rfl).2
    simp only at this
    generalize ht : v.delimiter :: v.value ++ [v.delimiter] = w at this
    generalize hv : TokVal.lit (.string v) = tv at this
    cases this with
    | string h _ => simp at hv; subst hv; exact h
    | _ => simp at hv
  have hn := alnum_quote hq
  have h1 := char_mid hc (x := v.delimiter) hg
  have h2 := mid_string (c := c) h1 v.value (by simp) (by simp [bothAlnum, hn])
  have h3 := mid_char (c := c) h2 v.delimiter
  have h4 : MidAt0 s ts (Gen.litString c v g) js (v.delimiter :: v.value ++ [v.delimiter]) := by
    simpa [Gen.litString, Gen.quote] using h3
  exact mid_tok (l := ⟨.plain, .lit (.string v), v.delimiter :: v.value ++ [v.delimiter]⟩) h4 (by simp [Gen.isAlnum, hn]) hw

/-! ## Blocks -/

theorem block_writes {c : GCtx} (hc : c.minified = false) {f : GAct} {lines : List Item} (h : Writes0 f lines)
    (hopen : ∀ s : Lay, (s.run lines).open = false) :
    Writes0 (fun g => (Gen.child f (g.startBlock c)).endBlock c) (pu p!"{" :: .open :: lines ++ [pu p!"}"]) := by
  have hb : UnicodeID.alphanumeric '{' = false := alnum_of (by decide) (by decide)
  have hb' : UnicodeID.alphanumeric '}' = false := alnum_of (by decide) (by decide)
  have h1 : Writes0 (Gen.startBlock c) [pu p!"{", .open] := by
    refine writes_of fun g s ts hg hw => ?_
    have h2 := char_writes hc (l := ⟨.plain, .punct p!"{", p!"{".asStr⟩) rfl hb nofun s ts g [] (by
      intro _; simpa [Lay.run, flags] using hg) ⟨hw.1, trivial⟩
    obtain ⟨w, b, hd, hcore, h3, h4, h5, h6⟩ := h2
    have hb0 : b = [] := (hcore.gap (by simp [Lay.run, Lay.next])).2 rfl
    subst hb0
    have hlt : (g.char c '{').lastNewLine < (g.char c '{').pos := by
      rcases Nat.lt_or_eq_of_le h3 with h | h
      · exact h
      · rcases h4 h with h | h <;> simp [Lay.run, Lay.next] at h
    obtain ⟨h7, h8, h9⟩ := char_far (c := c) (x := '\n') (g.char c '{') hlt
    refine ⟨w, ['\n'], ?_, ⟨?_, fun x hx => by simp at hx; exact .inr hx, ?_, fun _ => rfl, fun _ => by simp [Lay.run, Lay.next, pu], fun _ => rfl⟩,
      ?_, fun _ => .inr rfl, ?_, fun _ => .inr rfl⟩
    · simp only [Gen.startBlock, Gen.newLine, hc, Bool.false_eq_true, if_false]
      rw [h7, hd]; simp
    · simpa [flags, lineAfter, pu] using hcore.laid
    · simp [flags, pu, Lay.run, Lay.next]
    · simp only [Gen.startBlock, Gen.newLine, hc, Bool.false_eq_true, if_false, Gen.pos]; exact Nat.le_refl _
    · simp only [Gen.startBlock, Gen.newLine, hc, Bool.false_eq_true, if_false, Gen.pos]; exact Nat.le_refl _
  intro s ts g js hg
  have h2 := h.child _ _ _ _ (h1 _ _ _ _ hg)
  intro hw
  have hw2 : Writable s (js ++ [pu p!"{", .open] ++ lines) := by
    rw [show js ++ (pu p!"{" :: .open :: lines ++ [pu p!"}"]) = (js ++ [pu p!"{", .open] ++ lines) ++ [pu p!"}"] by simp] at hw
    exact (writable_append.1 hw).1
  have h3 := h2 hw2
  have h4 : (Gen.child f (g.startBlock c)).endBlock c = (Gen.child f (g.startBlock c)).char c '}' := by
    generalize Gen.child f (g.startBlock c) = g1 at h3
    unfold Gen.endBlock
    simp only [hc, Bool.not_false, Bool.and_true, Bool.false_eq_true, if_false]
    split
    · rename_i hat
      obtain ⟨w, b, hd, hcore, h5, h6, h7, h8⟩ := h3
      have hb0 : b = [] := by
        rcases h8 (by simpa [Gen.atBlockStart] using hat) with h | h
        · exact h
        · rw [run_snoc, hopen] at h; cases h
      subst hb0
      have : g1.data.getLast? ≠ some '\n' := by
        rw [hd, List.append_nil]
        intro h
        exact (hcore.laid.ascii _ h).2 rfl
      simp [Gen.removeLast, this]
    · rfl
  have h5 := char_writes hc (l := ⟨.plain, .punct p!"}", p!"}".asStr⟩) rfl hb' nofun _ _ _ _ h2
  rw [← h4] at h5
  have := h5 (by simpa [pu] using hw)
  simpa [pu] using this

theorem empty_block_writes {c : GCtx} (hc : c.minified = false) {f : GAct} (hf : ∀ g, (f g).data = g.data ∧ (f g).lastBlockStart = g.lastBlockStart ∧ (f g).lastNewLine = g.lastNewLine) :
    Writes0 (fun g => (Gen.child f (g.startBlock c)).endBlock c) [pu p!"{", pu p!"}"] := by
  have hb : UnicodeID.alphanumeric '{' = false := alnum_of (by decide) (by decide)
  have hb' : UnicodeID.alphanumeric '}' = false := alnum_of (by decide) (by decide)
  intro s ts g js hg hw
  have h1 := char_writes hc (l := ⟨.plain, .punct p!"{", p!"{".asStr⟩) rfl hb nofun _ _ _ _ hg
  have h2 := char_writes hc (l := ⟨.plain, .punct p!"}", p!"}".asStr⟩) rfl hb' nofun _ _ _ _ h1
  have hw2 : Writable s (js ++ [pu p!"{"]) := by
    rw [show js ++ [pu p!"{", pu p!"}"] = (js ++ [pu p!"{"]) ++ [pu p!"}"] by simp] at hw
    exact (writable_append.1 hw).1
  have h3 := h1 hw2
  have hlt : (g.char c '{').lastNewLine < (g.char c '{').pos := by
    obtain ⟨w, b, hd, hcore, h3, h4, h5, h6⟩ := h3
    rcases Nat.lt_or_eq_of_le h3 with h | h
    · exact h
    · rw [run_snoc] at h4; rcases h4 h with h | h <;> simp [Lay.run, Lay.next] at h
  obtain ⟨h7, h8, h9⟩ := char_far (c := c) (x := '\n') (g.char c '{') hlt
  obtain ⟨k1, k2, k3⟩ := hf (g.startBlock c)
  have h4 := h2 (by simpa [pu] using hw)
  have e1 : (g.startBlock c).data = (g.char c '{').data ++ ['\n'] := by
    simp only [Gen.startBlock, Gen.newLine, hc, Bool.false_eq_true, if_false, h7]
  have e2 : (Gen.child f (g.startBlock c)).atBlockStart = true := by
    show decide ((f (g.startBlock c)).lastBlockStart = byteLen (f (g.startBlock c)).data) = true
    rw [k1, k2]
    simp [Gen.startBlock, Gen.newLine, hc, Gen.pos]
  have e3 : (Gen.child f (g.startBlock c)).data = (g.char c '{').data ++ ['\n'] := by
    show (f (g.startBlock c)).data = _
    rw [k1, e1]
  have e4 : (Gen.child f (g.startBlock c)).endBlock c =
      ({ (Gen.child f (g.startBlock c)) with data := (g.char c '{').data, lastNewLine := 0 } : Gen).char c '}' := by
    unfold Gen.endBlock
    simp [hc, e2, Gen.removeLast, e3]
  dsimp only
  rw [e4]
  have hpos : 0 < byteLen (g.char c '{').data := by unfold Gen.pos at hlt; omega
  obtain ⟨m1, m2, m3⟩ := char_far (c := c) (x := '}') (g.char c '{') hlt
  obtain ⟨n1, n2, n3⟩ := char_far (c := c) (x := '}')
    ({ (Gen.child f (g.startBlock c)) with data := (g.char c '{').data, lastNewLine := 0 } : Gen) hpos
  obtain ⟨w, b, hd, hcore, h5, -, -, -⟩ := h4
  have hb0 : b = [] := (hcore.gap (by simp [Lay.run, Lay.next])).2 (by simp [Lay.run, Lay.next])
  subst hb0
  refine ⟨w, [], ?_, by simpa [pu] using hcore, ?_, ?_, ?_, fun _ => .inl rfl⟩
  · rw [n1, ← hd, m1]
  · rw [n2]; exact Nat.zero_le _
  · rw [n2]; unfold Gen.pos; rw [n1, byteLen_append]; intro h; simp only at h; omega
  · rw [n3]
    have : (g.startBlock c).lastBlockStart = byteLen ((g.char c '{').data ++ ['\n']) := by
      rw [← e1]; simp [Gen.startBlock, Gen.newLine, hc, Gen.pos]
    show (f (g.startBlock c)).lastBlockStart ≤ byteLen _
    rw [k2, this, n1, byteLen_append, byteLen_append]
    exact Nat.le_refl _

end Fajt.Print
