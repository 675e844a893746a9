import Verif.Proofs.PrintGen
/-!
# The generator writes items in either form

In minified mode the generator's buffer is a function of the items; in pretty mode `PrintGen` describes it.
-/
namespace Fajt.Print
open Fajt Spec
set_option linter.unusedSectionVars false
variable [UnicodeID]

/-! ## Minified code as a text -/

/-- The text after an item in minified mode. -/
def emit1 (u : Str) : Item → Str
  | .tok l => u ++ ((if Gen.isAlnum u.getLast? && Gen.isAlnum l.text.head? then [' '] else []) ++ l.text)
  | .semi => u ++ [';']
  | .blank => u ++ [' ']
  | .close => if u.getLast? = some ';' then u.dropLast else u
  | _ => u

/-- The text of the items in minified mode. -/
def emit (u : Str) (is : List Item) : Str := is.foldl emit1 u

theorem emit_append (u : Str) (is js : List Item) : emit u (is ++ js) = emit (emit u is) js := by simp [emit]

/-- The tokens are well-formed and the strings of templates are in one piece. -/
def SoundItem : Item → Prop
  | .tok l => l.WF
  | .single b => b = true
  | _ => True

/-- All items are sound. -/
def Sound (is : List Item) : Prop := ∀ i ∈ is, SoundItem i

theorem sound_append {is js : List Item} : Sound (is ++ js) ↔ Sound is ∧ Sound js := by
  simp only [Sound, List.mem_append]
  exact ⟨fun h => ⟨fun i hi => h i (.inl hi), fun i hi => h i (.inr hi)⟩, fun h i hi => hi.elim (h.1 i) (h.2 i)⟩

theorem pretty_append (is js : List Item) : pretty (is ++ js) = pretty is ++ pretty js := by
  induction is with
  | nil => rfl
  | cons i is ih => cases i <;> simp [pretty, ih]

/-! ## Either form -/

/-- After writing the items. -/
def At : Bool → Lay → List (Lex × Bool) → Gen → List Item → Prop
  | false, s, ts, g, js => At0 s ts g (pretty js)
  | true, _, _, g, js => Sound js → g.data = emit [] js

/-- In a token after the items. -/
def MidAt : Bool → Lay → List (Lex × Bool) → Gen → List Item → Str → Prop
  | false, s, ts, g, js, u => MidAt0 s ts g (pretty js) u
  | true, _, _, g, js, u => Sound js → g.data = emit [] js ++ u

/-- The action writes the items. -/
def Writes (mini : Bool) (f : GAct) (is : List Item) : Prop := ∀ s ts g js, At mini s ts g js → At mini s ts (f g) (js ++ is)

section
variable {mini : Bool} {s : Lay} {ts : List (Lex × Bool)} {g g' : Gen} {js ks is : List Item} {c : GCtx} {f : GAct} {u v : Str}

theorem At.cast (h : js = ks) (h' : At mini s ts g js) : At mini s ts g ks := h ▸ h'

theorem Writes.id : Writes mini id [] := fun s ts g js h => by simpa using h

theorem At.congr (h : At mini s ts g js) (h1 : g'.data = g.data) (h2 : g'.lastNewLine = g.lastNewLine)
    (h3 : g'.lastBlockStart = g.lastBlockStart) : At mini s ts g' js := by
  cases mini with
  | false => exact At0.congr h h1 h2 h3
  | true => exact fun hs => h1.trans (h hs)

theorem Writes.child (h : Writes mini f is) : Writes mini (Gen.child f) is := fun s ts g js hg => (h s ts g js hg).congr rfl rfl rfl

/-- What is written in both forms. -/
theorem writes_both (h1 : mini = false → Writes0 f (pretty is)) (h2 : mini = true → Sound is → ∀ g, (f g).data = emit g.data is) :
    Writes mini f is := by
  intro s ts g js hg
  cases mini with
  | false =>
    show At0 _ _ _ (pretty _)
    rw [pretty_append]
    exact h1 rfl _ _ _ _ hg
  | true =>
    intro hs
    rw [sound_append] at hs
    rw [emit_append, h2 rfl hs.2, hg hs.1]

theorem Writes.comp {h : GAct} {is js : List Item} (h1 : Writes mini f is) (h2 : Writes mini h js) :
    Writes mini (fun g => h (f g)) (is ++ js) :=
  fun s ts g ks hg => by rw [← List.append_assoc]; exact h2 _ _ _ _ (h1 _ _ _ _ hg)

/-! ## Notes -/

theorem bare_pretty (is : List Item) : bare (pretty is) = pretty (bare is) := by
  induction is with
  | nil => rfl
  | cons i is ih => cases i <;> simp_all [pretty, bare, isNote, pu]

theorem emit_bare (u : Str) (is : List Item) : emit u (bare is) = emit u is := by
  induction is generalizing u with
  | nil => rfl
  | cons i is ih =>
    cases i with
    | next | next2 | more | lexed | demand => exact ih u
    | _ => exact ih _

theorem sound_bare (is : List Item) : Sound (bare is) ↔ Sound is := by
  constructor
  · intro h i hi
    cases i with
    | tok l => exact h _ (by simp [bare, hi, isNote])
    | single b => exact h _ (by simp [bare, hi, isNote])
    | _ => trivial
  · exact fun h i hi => h i (by simp [bare] at hi; exact hi.1)

/-- Notes can be added anywhere. -/
theorem At.notes (h : bare js = bare ks) (h' : At mini s ts g js) : At mini s ts g ks := by
  cases mini with
  | false => exact At0.notes (by rw [bare_pretty, bare_pretty, h]) h'
  | true =>
    intro hs
    rw [← emit_bare, ← h, emit_bare]
    refine h' ?_
    rw [← sound_bare, h, sound_bare]
    exact hs

theorem Writes.notes (h : bare js = bare ks) (h' : Writes mini f js) : Writes mini f ks :=
  fun s ts g is hg => (h' s ts g is hg).notes (by rw [bare_append, bare_append, h])

/-! ## Primitives -/

theorem indent_mini (hc : c.minified = true) : g.indent c = g := by simp [Gen.indent, hc]

theorem push_mini (hc : c.minified = true) (x : Char) : (g.char c x).data = g.data ++ [x] := by
  simp [Gen.char, indent_mini hc, Gen.push]

theorem string_mini (hc : c.minified = true) {l : Lex} : (g.string c l.text).data = emit1 g.data (.tok l) := by
  simp only [Gen.string, indent_mini hc, Gen.mustAddSpaceBefore, emit1]
  split <;> simp [Gen.push]

theorem string_nil (hc : c.minified = true) : (g.string c []).data = g.data := by
  simp [Gen.string, indent_mini hc, Gen.mustAddSpaceBefore, Gen.isAlnum, Gen.push]

theorem string_both (hc : c.minified = mini) {l : Lex} (hk : l.kind ≠ .cont) : Writes mini (Gen.string c l.text) [.tok l] :=
  writes_both (fun h => string_writes (h ▸ hc) hk) fun h _ _ => string_mini (h ▸ hc)

theorem char_both (hc : c.minified = mini) {l : Lex} {ch : Char} (ht : l.text = [ch]) (h : UnicodeID.alphanumeric ch = false)
    (hk : l.kind ≠ .cont) : Writes mini (Gen.char c ch) [.tok l] := by
  rw [char_string h, ← ht]
  exact string_both hc hk

theorem indent_both (hc : c.minified = mini) : Writes mini (Gen.indent c) [] :=
  writes_both (fun h => indent_writes (h ▸ hc)) fun h _ g => by rw [indent_mini (h ▸ hc)]; rfl

theorem space_both (hc : c.minified = mini) : Writes mini (Gen.space c) [.gap] :=
  writes_both (fun h => space_writes (h ▸ hc)) fun h _ g => by subst h; simp [Gen.space, hc, emit, emit1]

theorem newLine_both (hc : c.minified = mini) : Writes mini (Gen.newLine c) [.nl] :=
  writes_both (fun h => newLine_writes (h ▸ hc)) fun h _ g => by subst h; simp [Gen.newLine, hc, emit, emit1]

theorem exitStmt_both (hc : c.minified = mini) : Writes mini (Gen.exitStmt c) [.nl] :=
  writes_both (fun h => exitStmt_writes (h ▸ hc)) fun h _ g => by subst h; simp [Gen.exitStmt, Gen.newLine, hc, emit, emit1]

theorem separation_both (hc : c.minified = mini) : Writes mini (Gen.separation c) [.sep] :=
  writes_both (fun h => separation_writes (h ▸ hc)) fun h _ g => by
    subst h
    simp only [Gen.separation, Gen.newLine, hc, if_true, ite_self, emit, emit1, List.foldl]
    split <;> rfl

theorem still_both (hc : c.minified = mini) : Writes mini (Gen.string c []) [.still] :=
  writes_both (fun h => still_writes (h ▸ hc)) fun h _ _ => string_nil (h ▸ hc)

theorem semi_both (hc : c.minified = mini) : Writes mini (Gen.char c ';') [.semi] :=
  writes_both (fun h => char_writes (h ▸ hc) (l := ⟨.plain, .punct p!";", p!";".asStr⟩) rfl (alnum_of (by decide) (by decide)) nofun)
    fun h _ g => push_mini (h ▸ hc) ';'

theorem string_mini' (hc : c.minified = true) (l : Lex) (hn : l.text ≠ []) (v : Str) :
    (g.string c (l.text ++ v)).data = emit1 g.data (.tok l) ++ v := by
  rw [(push_string hn).1, string_mini hc]

/-- A text that ends with a blank. -/
theorem spaced_both (hc : c.minified = mini) {l : Lex} (hu : l.text = u) (hn : u ≠ []) (hk : l.kind ≠ .cont) :
    Writes mini (Gen.string c (u ++ [' '])) [.tok l, .blank] :=
  writes_both (fun h => spaced_writes (h ▸ hc) hu hn hk) fun h _ g => by
    subst hu; rw [string_mini' (h ▸ hc) l hn]; rfl

/-- A text that ends with a punctuator of one character. -/
theorem punct_both (hc : c.minified = mini) {x : Char} {l k : Lex} (hu : l.text = u) (hn : u ≠ []) (hk : l.kind ≠ .cont)
    (hx : k.text = [x]) (hx' : UnicodeID.alphanumeric x = false) (hk' : k.kind ≠ .cont) :
    Writes mini (Gen.string c (u ++ [x])) [.tok l, .tok k] :=
  writes_both (fun h => punct_writes (h ▸ hc) hu hn hk hx hx' hk') fun h _ g => by
    subst hu; rw [string_mini' (h ▸ hc) l hn]
    show _ = emit1 (emit1 g.data (.tok l)) (.tok k)
    generalize emit1 g.data (.tok l) = w
    simp [emit1, hx, Gen.isAlnum, hx']

theorem debugger_both (hc : c.minified = mini) : Writes mini (Gen.string c c!"debugger;") [word c!"debugger", .semi] :=
  writes_both
    (fun h => punct_writes (h ▸ hc) (l := ⟨.plain, nameVal c!"debugger", c!"debugger"⟩) (k := ⟨.plain, .punct p!";", p!";".asStr⟩) rfl
      (by decide) nofun rfl (alnum_of (by decide) (by decide)) nofun)
    fun h _ g => string_mini' (h ▸ hc) ⟨.plain, nameVal c!"debugger", c!"debugger"⟩ (by decide) [';']

theorem exportDefault_both (hc : c.minified = mini) :
    Writes mini (Gen.string c c!"export default") [word c!"export", .blank, word c!"default"] :=
  writes_both (fun h => exportDefault_writes (h ▸ hc)) fun h _ g => by
    show (g.string c (c!"export" ++ c!" default")).data = _
    rw [string_mini' (h ▸ hc) ⟨.plain, nameVal c!"export", c!"export"⟩ (by decide)]
    show _ = emit1 (emit1 g.data (.tok ⟨.plain, nameVal c!"export", c!"export"⟩) ++ [' ']) (.tok ⟨.plain, nameVal c!"default", c!"default"⟩)
    generalize emit1 g.data (.tok ⟨.plain, nameVal c!"export", c!"export"⟩) = w
    have : Gen.isAlnum (some ' ') = false := alnum_blank (.inl rfl)
    simp [emit1, this]

/-! ## Tokens in pieces -/

theorem char_midB (hc : c.minified = mini) {x : Char} (h : At mini s ts g js) : MidAt mini s ts (g.char c x) js [x] := by
  cases mini with
  | false => exact char_mid hc h
  | true => exact fun hs => by rw [push_mini hc, h hs]

theorem mid_charB (hc : c.minified = mini) (h : MidAt mini s ts g js u) (x : Char) : MidAt mini s ts (g.char c x) js (u ++ [x]) := by
  cases mini with
  | false => exact mid_char h x
  | true => exact fun hs => by rw [push_mini hc, h hs]; simp

theorem mid_stringB (hc : c.minified = mini) (h : MidAt mini s ts g js u) (v : Str) (hne : u ≠ []) (hj : bothAlnum u v = false) :
    MidAt mini s ts (g.string c v) js (u ++ v) := by
  cases mini with
  | false => exact mid_string h v hne hj
  | true =>
    intro hs
    have h1 := h hs
    have hl : g.data.getLast? = u.getLast? := by
      obtain ⟨x, hx⟩ : ∃ x, u.getLast? = some x := by
        rw [← Option.isSome_iff_exists, List.getLast?_isSome]; exact hne
      rw [h1, List.getLast?_append, hx]; rfl
    have hm : Gen.mustAddSpaceBefore v g = false := by
      simp only [Gen.mustAddSpaceBefore, hl]
      rw [← hj]
      unfold bothAlnum
      cases u.getLast? <;> cases v.head? <;> simp [Gen.isAlnum]
    simp [Gen.string, indent_mini hc, hm, Gen.push, h1]

theorem mid_tokB {l : Lex} (h : MidAt mini s ts g js l.text) (hx : Gen.isAlnum l.text.head? = false) : At mini s ts g (js ++ [.tok l]) := by
  cases mini with
  | false =>
    show At0 _ _ _ (pretty _)
    rw [pretty_append]
    exact mid_tok h hx
  | true =>
    intro hs
    rw [sound_append] at hs
    rw [h hs.1, emit_append]
    simp [emit, emit1, hx]

theorem litString_both (hc : c.minified = mini) (v : LitString) : Writes mini (Gen.litString c v) [strItem v] :=
  writes_both (fun h => litString_writes (h ▸ hc) v) fun h hs g => by
    subst h
    have hw : Lex.WF _ := hs (strItem v) (by simp)
    have hq : v.delimiter = '"' ∨ v.delimiter = '\'' := by
      have := (hw.eof [] rfl).2
      simp only at this
      generalize ht : v.delimiter :: v.value ++ [v.delimiter] = w at this
      generalize hv : TokVal.lit (.string v) = tv at this
      cases this with
      | string h _ => simp at hv; subst hv; exact h
      | _ => simp at hv
    have hn := alnum_quote hq
    have h1 : Gen.mustAddSpaceBefore v.value (g.char c v.delimiter) = false := by
      simp [Gen.mustAddSpaceBefore, push_mini hc, Gen.isAlnum, hn]
    have h2 : ((g.char c v.delimiter).string c v.value).data = g.data ++ [v.delimiter] ++ v.value := by
      simp [Gen.string, indent_mini hc, h1, Gen.push, push_mini hc]
    simp [Gen.litString, Gen.quote, push_mini hc, h2, emit, emit1, strItem, Gen.isAlnum, hn]

/-! ## Blocks -/

theorem startBlock_mini (hc : c.minified = true) : (g.startBlock c).data = g.data ++ ['{'] := by
  simp [Gen.startBlock, Gen.newLine, hc, push_mini hc]

theorem endBlock_mini (hc : c.minified = true) : (g.endBlock c).data = emit1 g.data .close ++ ['}'] := by
  simp only [Gen.endBlock, hc, Bool.not_true, Bool.and_false, Bool.false_eq_true, if_false, if_true, push_mini hc, Gen.removeLast, emit1]
  split <;> rfl

theorem brace_tok {w : Str} (x : Char) (p : Punct) (hx : p.asStr = [x]) (h : UnicodeID.alphanumeric x = false) :
    emit1 w (pu p) = w ++ [x] := by
  simp [emit1, pu, hx, Gen.isAlnum, h]

theorem writes0_of {lines : List Item} (h : Writes false f lines) : Writes0 f (pretty lines) :=
  writes_of fun g s ts hg hw => by
    have := h s ts g [] (fun _ => by simpa [pretty, Lay.run, flags] using hg)
    exact this (by simpa using hw)

theorem block_both (hc : c.minified = mini) {lines : List Item} (h : Writes mini f lines)
    (hopen : ∀ s : Lay, (s.run (pretty lines)).open = false) :
    Writes mini (fun g => (Gen.child f (g.startBlock c)).endBlock c) (pu p!"{" :: .open :: lines ++ [.close, pu p!"}"]) := by
  cases mini with
  | false =>
    have := block_writes hc (writes0_of h) hopen
    intro s ts g js hg
    show At0 _ _ _ (pretty _)
    rw [pretty_append]
    have e : pretty (pu p!"{" :: .open :: lines ++ [.close, pu p!"}"]) = pu p!"{" :: .open :: pretty lines ++ [pu p!"}"] := by
      simp [pretty, pu, pretty_append]
    rw [e]
    exact this _ _ _ _ hg
  | true =>
    intro s ts g js hg hs
    have hs' := sound_append.1 hs
    have hl : Sound lines := fun i hi => hs'.2 i (by simp [hi])
    have hb : Sound [pu p!"{"] := fun i hi => hs'.2 i (by simp at hi ⊢; exact .inl hi)
    have h2 : (g.startBlock c).data = emit [] (js ++ [pu p!"{", .open]) := by
      rw [startBlock_mini hc, emit_append, hg hs'.1]
      exact (brace_tok '{' _ rfl (alnum_of (by decide) (by decide))).symm
    have h3 := h.child s ts (g.startBlock c) (js ++ [pu p!"{", .open]) (fun _ => h2) (by
      rw [show js ++ [pu p!"{", .open] ++ lines = js ++ [pu p!"{"] ++ [.open] ++ lines by simp]
      exact sound_append.2 ⟨sound_append.2 ⟨sound_append.2 ⟨hs'.1, hb⟩, fun i hi => by simp at hi; subst hi; trivial⟩, hl⟩)
    dsimp only
    rw [endBlock_mini hc, h3, ← brace_tok '}' p!"}" rfl (alnum_of (by decide) (by decide))]
    rw [show js ++ (pu p!"{" :: .open :: lines ++ [.close, pu p!"}"]) = (js ++ [pu p!"{", .open] ++ lines) ++ [.close, pu p!"}"] by simp]
    rw [emit_append _ (js ++ [pu p!"{", .open] ++ lines)]
    rfl

theorem empty_both (hc : c.minified = mini)
    (hf : ∀ g, (f g).data = g.data ∧ (f g).lastBlockStart = g.lastBlockStart ∧ (f g).lastNewLine = g.lastNewLine) :
    Writes mini (fun g => (Gen.child f (g.startBlock c)).endBlock c) [pu p!"{", pu p!"}"] :=
  writes_both (fun h => empty_block_writes (h ▸ hc) hf) fun h _ g => by
    subst h
    have : (Gen.child f (g.startBlock c)).data = g.data ++ ['{'] := by
      rw [← startBlock_mini hc, ← (hf (g.startBlock c)).1]; rfl
    rw [endBlock_mini hc, this]
    show _ = emit1 (emit1 g.data (pu p!"{")) (pu p!"}")
    rw [brace_tok '{' p!"{" rfl (alnum_of (by decide) (by decide)), brace_tok '}' p!"}" rfl (alnum_of (by decide) (by decide))]
    simp [emit1]

end
end Fajt.Print
