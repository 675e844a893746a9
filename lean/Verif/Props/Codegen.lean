import Verif.Proofs.CodegenSim
import Verif.Proofs.LexLogic
import Verif.Spec.Ascii
/-!
# Properties of the code generator (C43, C48)

C43: generating code is total and its arithmetic never underflows; minified output has no line feeds; pretty output consists of
complete lines.  C48: the pretty and the minified text of a tree differ only in blanks, line feeds and semicolons.

Generation is a total function in the model (structural recursion on the tree), so termination needs no theorem.
-/
set_option linter.unusedSectionVars false
namespace Fajt.Props
open Fajt Fajt.Gen
variable [UnicodeID]

/-! ## The column arithmetic -/

/-- `last_new_line` is zero or the position behind a line feed of the buffer. -/
def LineStart (g : Gen) : Prop :=
  g.lastNewLine = 0 ∨ ∃ pre post, g.data = pre ++ '\n' :: post ∧ g.lastNewLine = byteLen (pre ++ ['\n'])

theorem LineStart.le {g : Gen} (h : LineStart g) : g.lastNewLine ≤ byteLen g.data := by
  rcases h with h | ⟨pre, post, h1, h2⟩
  · omega
  · rw [h1, h2]
    simp [byteLen]

theorem LineStart.push {g : Gen} (s : Str) (h : LineStart g) : LineStart (g.push s) := by
  rcases h with h | ⟨pre, post, h1, h2⟩
  · exact .inl h
  · exact .inr ⟨pre, post ++ s, by simp [Gen.push, h1], h2⟩

theorem LineStart.removeSemi {g : Gen} (h : LineStart g) : LineStart (g.removeLast ';').2 := by
  unfold Gen.removeLast
  split
  · next hl =>
    rcases h with h | ⟨pre, post, h1, h2⟩
    · exact .inl h
    · refine .inr ⟨pre, post.dropLast, ?_, h2⟩
      rw [h1] at hl ⊢
      have hp : post ≠ [] := by
        rintro rfl
        simp at hl
      simp [List.dropLast_append_of_ne_nil, List.dropLast_cons_of_ne_nil hp]
  · exact h

/-- The invariant of the column arithmetic. -/
def Sound (g : Gen) : Prop := g.underflow = false ∧ LineStart g

theorem Sound.askCol {g : Gen} (h : Sound g) : Sound g.askCol := by
  refine ⟨?_, h.2⟩
  have := h.2.le
  simp only [Gen.askCol, h.1, Gen.pos, Bool.false_or]
  exact decide_eq_false (Nat.not_lt.2 this)

theorem Sound.indent {g : Gen} (c : GCtx) (h : Sound g) : Sound (g.indent c) := by
  unfold Gen.indent
  split
  · exact h
  · simp only
    split
    · exact h.askCol
    · exact ⟨h.askCol.1, h.askCol.2.push _⟩

theorem Sound.char {g : Gen} (c : GCtx) (ch : Char) (h : Sound g) : Sound (g.char c ch) :=
  ⟨(h.indent c).1, (h.indent c).2.push _⟩

theorem Sound.newLine {g : Gen} (c : GCtx) (h : Sound g) : Sound (g.newLine c) := by
  unfold Gen.newLine
  split
  · exact h
  · refine ⟨(h.char c '\n').1, .inr ⟨(g.indent c).data, [], by simp [Gen.char, Gen.push], ?_⟩⟩
    simp [Gen.char, Gen.push, Gen.pos]

theorem Sound.endBlock {g : Gen} (c : GCtx) (h : Sound g) : Sound (g.endBlock c) := by
  unfold Gen.endBlock
  refine Sound.char c '}' ?_
  have hb : ∀ g : Gen, Sound g → Sound (g.removeLast ';').2 := fun g h =>
    ⟨by unfold Gen.removeLast; split <;> exact h.1, h.2.removeSemi⟩
  have ha : Sound (if g.atBlockStart && !c.minified then
      match g.removeLast '\n' with
      | (true, g) => { g with lastNewLine := 0 }
      | (false, g) => g
    else g) := by
    unfold Gen.removeLast
    split
    · split
      · next h' =>
        split at h' <;> cases h'
        exact ⟨h.1, .inl rfl⟩
      · next h' =>
        split at h' <;> cases h'
        exact h
    · exact h
  split
  · exact hb _ ha
  · exact ha

/-- Every run keeps the invariant. -/
theorem sound_sim : Sim (fun c c' => c = c') (fun _ => True) (fun g g' => g = g' ∧ Sound g) where
  printable := fun _ _ _ => trivial
  indented := by rintro _ _ rfl; rfl
  unaligned := by rintro _ _ rfl; rfl
  aligned := by rintro _ _ _ _ rfl ⟨rfl, _⟩; rfl
  char := by rintro ch - c _ rfl g _ ⟨rfl, h⟩; exact ⟨rfl, h.char c ch⟩
  string := by
    rintro s - c _ rfl g _ ⟨rfl, h⟩
    refine ⟨rfl, ?_⟩
    simp only [Gen.string]
    split
    · exact ⟨(h.indent c).1, (h.indent c).2.push _⟩
    · exact ⟨(h.indent c).1, (h.indent c).2.push _⟩
  space := by
    rintro c _ rfl g _ ⟨rfl, h⟩
    refine ⟨rfl, ?_⟩
    unfold Gen.space
    split
    · exact h
    · exact h.char c ' '
  newLine := by rintro c _ rfl g _ ⟨rfl, h⟩; exact ⟨rfl, h.newLine c⟩
  startBlock := by rintro c _ rfl g _ ⟨rfl, h⟩; exact ⟨rfl, (h.char c '{').newLine c⟩
  endBlock := by rintro c _ rfl g _ ⟨rfl, h⟩; exact ⟨rfl, h.endBlock c⟩
  separation := by
    rintro c _ rfl g _ ⟨rfl, h⟩
    refine ⟨rfl, ?_⟩
    unfold Gen.separation
    split
    · exact h
    · split
      · exact h.newLine c
      · exact h
  exitStmt := by
    rintro c _ rfl g _ ⟨rfl, h⟩
    refine ⟨rfl, ?_⟩
    unfold Gen.exitStmt
    split
    · exact h.newLine c
    · exact h
  removeSemi := by
    rintro g _ ⟨rfl, h⟩
    exact ⟨rfl, by unfold Gen.removeLast; split <;> exact h.1, h.2.removeSemi⟩
  askCol := by rintro g _ ⟨rfl, h⟩; exact ⟨rfl, h.askCol⟩
  skip := by rintro g _ ⟨rfl, h⟩; exact ⟨rfl, h⟩
  child := by
    rintro f f' g _ ⟨rfl, h⟩ ⟨h1, h2⟩
    refine ⟨?_, h2⟩
    unfold Gen.child
    rw [h1]

theorem stmts_sound (c : GCtx) (p : Program) :
    Sound (stmtsGen c p.body ((Gen.directives c p.directives) {})) := by
  have h0 : Sound ({} : Gen) := ⟨rfl, .inl rfl⟩
  have h1 := sound_sim.directives (c := c) rfl (l := p.directives) (fun _ _ => trivial) (g := {}) ⟨rfl, h0⟩
  exact (stmtsGen_sim sound_sim p.body (fun _ _ => trivial) rfl h1).2

theorem program_sound (c : GCtx) (p : Program) : Sound (p.gen c {}) := by
  have h2 := stmts_sound c p
  have h3 : Sound ((stmtsGen c p.body ((Gen.directives c p.directives) {})).removeLast ';').2 :=
    ⟨by unfold Gen.removeLast; split <;> exact h2.1, h2.2.removeSemi⟩
  unfold Program.gen
  simp only
  split
  · split
    · next heq =>
      rw [heq] at h3
      split
      · exact h3.char c ';'
      · exact h3
    · next heq => rw [heq] at h3; exact h3
  · exact h2

/-- **C43**, arithmetic. While code is generated for any program, in any mode, the subtraction in `col_pos` never has a negative
result: the remembered start of the line never lies behind the end of the output. -/
theorem C43_no_underflow (minified : Bool) (p : Program) : (p.gen { minified } {}).underflow = false :=
  (program_sound _ p).1

/-- The flag is not vacuous: it is set when the remembered line start is beyond the output. -/
example : (Gen.char { minified := false } 'x' { lastNewLine := 1 }).underflow = true := by decide

/-! ## Minified output -/

theorem mem_indent {c : GCtx} (hc : c.minified = true) (g : Gen) : g.indent c = g := by
  unfold Gen.indent
  simp [hc]

theorem newLine_min {c : GCtx} (hc : c.minified = true) (g : Gen) : g.newLine c = g := by
  unfold Gen.newLine
  simp [hc]

theorem removeLast_data (ch : Char) (g : Gen) : (g.removeLast ch).2.data = g.data ∨ (g.removeLast ch).2.data ++ [ch] = g.data := by
  unfold Gen.removeLast
  split
  · next h =>
    right
    obtain ⟨ys, hy⟩ := List.getLast?_eq_some_iff.1 h
    simp [hy]
  · exact .inl rfl

/-- The output has no line feed. -/
def OneLine (g : Gen) : Prop := '\n' ∉ g.data

theorem OneLine.removeLast {g : Gen} (ch : Char) (h : OneLine g) : OneLine (g.removeLast ch).2 := by
  unfold OneLine at *
  rcases removeLast_data ch g with h1 | h1
  · rw [h1]; exact h
  · rw [← h1] at h
    intro h2
    exact h (by simp [h2])

theorem OneLine.char {g : Gen} {c : GCtx} (hc : c.minified = true) {ch : Char} (hch : ch ≠ '\n') (h : OneLine g) :
    OneLine (g.char c ch) := by
  unfold OneLine at *
  simp [Gen.char, mem_indent hc, Gen.push, h, hch.symm]

theorem oneLine_sim : Sim (fun c c' => c = c' ∧ c.minified = true) (fun ch => ch ≠ '\n') (fun g g' => g = g' ∧ OneLine g) where
  printable := by rintro ch h1 h2 rfl; exact absurd h1 (by decide)
  indented := by rintro _ _ ⟨rfl, h⟩; exact ⟨rfl, h⟩
  unaligned := by rintro _ _ ⟨rfl, h⟩; exact ⟨rfl, h⟩
  aligned := by rintro _ _ _ _ ⟨rfl, h⟩ ⟨rfl, _⟩; exact ⟨rfl, h⟩
  char := by rintro ch hch c _ ⟨rfl, hc⟩ g _ ⟨rfl, h⟩; exact ⟨rfl, h.char hc hch⟩
  string := by
    rintro s hs c _ ⟨rfl, hc⟩ g _ ⟨rfl, h⟩
    refine ⟨rfl, ?_⟩
    have hs' : '\n' ∉ s := fun hm => hs _ hm rfl
    unfold OneLine at *
    simp only [Gen.string, mem_indent hc]
    split <;> simp [Gen.push, h, hs']
  space := by
    rintro c _ ⟨rfl, hc⟩ g _ ⟨rfl, h⟩
    refine ⟨rfl, ?_⟩
    unfold Gen.space
    simpa [hc] using h
  newLine := by rintro c _ ⟨rfl, hc⟩ g _ ⟨rfl, h⟩; exact ⟨rfl, by rw [newLine_min hc]; exact h⟩
  startBlock := by
    rintro c _ ⟨rfl, hc⟩ g _ ⟨rfl, h⟩
    refine ⟨rfl, ?_⟩
    simp only [Gen.startBlock, newLine_min hc]
    exact h.char hc (by decide)
  endBlock := by
    rintro c _ ⟨rfl, hc⟩ g _ ⟨rfl, h⟩
    refine ⟨rfl, ?_⟩
    unfold Gen.endBlock
    simp only [hc, Bool.not_true, Bool.and_false, Bool.false_eq_true, if_false, if_true]
    exact (h.removeLast ';').char hc (by decide)
  separation := by
    rintro c _ ⟨rfl, hc⟩ g _ ⟨rfl, h⟩
    refine ⟨rfl, ?_⟩
    unfold Gen.separation
    split
    · exact h
    · split
      · rw [newLine_min hc]; exact h
      · exact h
  exitStmt := by
    rintro c _ ⟨rfl, hc⟩ g _ ⟨rfl, h⟩
    refine ⟨rfl, ?_⟩
    unfold Gen.exitStmt
    split
    · rw [newLine_min hc]; exact h
    · exact h
  removeSemi := by rintro g _ ⟨rfl, h⟩; exact ⟨rfl, h.removeLast _⟩
  askCol := by rintro g _ ⟨rfl, h⟩; exact ⟨rfl, h⟩
  skip := by rintro g _ ⟨rfl, h⟩; exact ⟨rfl, h⟩
  child := by
    rintro f f' g _ ⟨rfl, h⟩ ⟨h1, h2⟩
    refine ⟨?_, h2⟩
    unfold Gen.child
    rw [h1]

/-- **C43**, minified output. If no name, literal or delimiter of a program contains a line feed, then its minified text contains none:
it is a single line. -/
theorem C43_minified_single_line (p : Program) (h : '\n' ∉ p.text) : '\n' ∉ generateCode true p := by
  have ht : ∀ ch ∈ p.text, ch ≠ '\n' := fun ch hch e => h (e ▸ hch)
  simp only [Program.text, List.forall_mem_append] at ht
  have h0 : OneLine ({} : Gen) := by simp [OneLine]
  have hc : ({ minified := true } : GCtx).minified = true := rfl
  have h1 := oneLine_sim.directives (c := { minified := true }) ⟨rfl, rfl⟩ (l := p.directives) ht.1 (g := {}) ⟨rfl, h0⟩
  have h2 := (stmtsGen_sim oneLine_sim p.body ht.2 ⟨rfl, hc⟩ h1).2
  have h3 := h2.removeLast ';'
  show OneLine _
  unfold Program.gen
  simp only [if_true]
  split
  · next heq =>
    rw [heq] at h3
    split
    · exact h3.char hc (by decide)
    · exact h3
  · next heq => rw [heq] at h3; exact h3

/-! ## Pretty output consists of complete lines -/

/-- The output contains a character other than `;` and line feed. -/
def Solid (g : Gen) : Prop := ∃ ch ∈ g.data, ch ≠ ';' ∧ ch ≠ '\n'

theorem Solid.push {g : Gen} (s : Str) (h : Solid g) : Solid (g.push s) := by
  obtain ⟨ch, h1, h2⟩ := h
  exact ⟨ch, by simp [Gen.push, h1], h2⟩

theorem Solid.removeLast {g : Gen} {ch : Char} (hch : ch = ';' ∨ ch = '\n') (h : Solid g) : Solid (g.removeLast ch).2 := by
  obtain ⟨x, h1, h2⟩ := h
  refine ⟨x, ?_, h2⟩
  rcases removeLast_data ch g with hd | hd
  · rw [hd]; exact h1
  · rw [← hd] at h1
    rcases List.mem_append.1 h1 with h1 | h1
    · exact h1
    · rw [List.mem_singleton] at h1
      subst h1
      rcases hch with rfl | rfl
      · exact absurd rfl h2.1
      · exact absurd rfl h2.2

theorem Solid.indent {g : Gen} (c : GCtx) (h : Solid g) : Solid (g.indent c) := by
  unfold Gen.indent
  split
  · exact h
  · simp only
    split
    · exact h
    · exact Solid.push (g := g.askCol) _ h

theorem Solid.char {g : Gen} (c : GCtx) (ch : Char) (h : Solid g) : Solid (g.char c ch) := (h.indent c).push _

theorem Solid.newLine {g : Gen} (c : GCtx) (h : Solid g) : Solid (g.newLine c) := by
  unfold Gen.newLine
  split
  · exact h
  · exact h.char c '\n'

/-- Equal states that satisfy `Solid`. -/
def SolidR (g g' : Gen) : Prop := g = g' ∧ Solid g

/-- Equal contexts. -/
def SameC (c c' : GCtx) : Prop := c = c'

theorem solid_sim : Sim SameC (fun _ => True) SolidR where
  printable := fun _ _ _ => trivial
  indented := by rintro _ _ rfl; rfl
  unaligned := by rintro _ _ rfl; rfl
  aligned := by rintro _ _ _ _ rfl ⟨rfl, _⟩; rfl
  char := by rintro ch - c _ rfl g _ ⟨rfl, h⟩; exact ⟨rfl, h.char c ch⟩
  string := by
    rintro s - c _ rfl g _ ⟨rfl, h⟩
    refine ⟨rfl, ?_⟩
    simp only [Gen.string]
    split
    · exact (h.indent c).push _
    · exact (h.indent c).push _
  space := by
    rintro c _ rfl g _ ⟨rfl, h⟩
    refine ⟨rfl, ?_⟩
    unfold Gen.space
    split
    · exact h
    · exact h.char c ' '
  newLine := by rintro c _ rfl g _ ⟨rfl, h⟩; exact ⟨rfl, h.newLine c⟩
  startBlock := by rintro c _ rfl g _ ⟨rfl, h⟩; exact ⟨rfl, (h.char c '{').newLine c⟩
  endBlock := by
    rintro c _ rfl g _ ⟨rfl, h⟩
    refine ⟨rfl, ?_⟩
    unfold Gen.endBlock
    refine Solid.char c '}' ?_
    have ha : Solid (if g.atBlockStart && !c.minified then
        match g.removeLast '\n' with
        | (true, g) => { g with lastNewLine := 0 }
        | (false, g) => g
      else g) := by
      have hr := h.removeLast (.inr rfl)
      split
      · split
        · next heq => rw [heq] at hr; exact hr
        · next heq => rw [heq] at hr; exact hr
      · exact h
    split
    · exact ha.removeLast (.inl rfl)
    · exact ha
  separation := by
    rintro c _ rfl g _ ⟨rfl, h⟩
    refine ⟨rfl, ?_⟩
    unfold Gen.separation
    split
    · exact h
    · split
      · exact h.newLine c
      · exact h
  exitStmt := by
    rintro c _ rfl g _ ⟨rfl, h⟩
    refine ⟨rfl, ?_⟩
    unfold Gen.exitStmt
    split
    · exact h.newLine c
    · exact h
  removeSemi := by rintro g _ ⟨rfl, h⟩; exact ⟨rfl, h.removeLast (.inl rfl)⟩
  askCol := by rintro g _ ⟨rfl, h⟩; exact ⟨rfl, h⟩
  skip := by rintro g _ ⟨rfl, h⟩; exact ⟨rfl, h⟩
  child := by
    rintro f f' g _ ⟨rfl, h⟩ ⟨h1, h2⟩
    refine ⟨?_, h2⟩
    unfold Gen.child
    rw [h1]

theorem char_ne_nil (c : GCtx) (ch : Char) (g : Gen) : (g.char c ch).data ≠ [] := by simp [Gen.char, Gen.push]

theorem string_solid (c : GCtx) (ch : Char) (s : Str) (h : ch ≠ ';' ∧ ch ≠ '\n') (g : Gen) : SolidR (g.string c (ch :: s)) (g.string c (ch :: s)) := by
  refine ⟨rfl, ch, ?_, h⟩
  simp only [Gen.string]
  split <;> simp [Gen.push]

theorem char_solid (c : GCtx) (ch : Char) (h : ch ≠ ';' ∧ ch ≠ '\n') (g : Gen) : SolidR (g.char c ch) (g.char c ch) :=
  ⟨rfl, ch, by simp [Gen.char, Gen.push], h⟩

theorem Solid.ne_nil {g : Gen} (h : Solid g) : g.data ≠ [] := by
  obtain ⟨_, h, _⟩ := h
  exact List.ne_nil_of_mem h

/-- Behind a complete line. -/
def AtLineEnd (g : Gen) : Prop := g.lastNewLine = g.pos ∧ g.data ≠ []

theorem newLine_end {c : GCtx} (hc : c.minified = false) (g : Gen) : AtLineEnd (g.newLine c) := by
  unfold Gen.newLine
  simp only [hc, Bool.false_eq_true, if_false]
  exact ⟨rfl, char_ne_nil _ _ _⟩

theorem exitStmt_end {c : GCtx} (hc : c.minified = false) {g : Gen} (h : g.data ≠ []) : AtLineEnd (g.exitStmt c) := by
  unfold Gen.exitStmt
  split
  · exact newLine_end hc g
  · next h' => exact ⟨by simpa using h', h⟩

theorem endBlock_ne_nil (c : GCtx) (g : Gen) : (g.endBlock c).data ≠ [] := by
  unfold Gen.endBlock
  exact char_ne_nil _ _ _

theorem parenthesize_ne_nil (c : GCtx) (op : Char) (b : Bool) (f : GAct) (g : Gen) : (g.parenthesize c op b f).data ≠ [] := by
  unfold Gen.parenthesize
  exact char_ne_nil _ _ _

theorem string_ne_nil (c : GCtx) (ch : Char) (s : Str) (g : Gen) : (g.string c (ch :: s)).data ≠ [] := by
  simp only [Gen.string]
  split <;> simp [Gen.push]

theorem solid_end {c : GCtx} (hc : c.minified = false) {g : Gen} (h : SolidR g g) : AtLineEnd (g.exitStmt c) :=
  exitStmt_end hc h.2.ne_nil

/-- After a statement the output ends with a complete line. -/
theorem stmt_end {c : GCtx} (hc : c.minified = false) (s : Stmt) (g : Gen) : AtLineEnd (s.gen c g) := by
  have K := solid_sim
  have hcc : SameC c c := rfl
  have tr : ∀ {l : Str}, ∀ ch ∈ l, (fun _ : Char => True) ch := fun _ _ => trivial
  cases s with
  | block b => cases b; simp only [Stmt.gen, Block.gen]; exact exitStmt_end hc (endBlock_ne_nil _ _)
  | «break» => simp only [Stmt.gen]; exact exitStmt_end hc (char_ne_nil _ _ _)
  | «continue» => simp only [Stmt.gen]; exact exitStmt_end hc (char_ne_nil _ _ _)
  | debugger => simp only [Stmt.gen]; exact exitStmt_end hc (string_ne_nil _ _ _ _)
  | doWhile => simp only [Stmt.gen]; exact exitStmt_end hc (parenthesize_ne_nil _ _ _ _ _)
  | empty => simp only [Stmt.gen]; exact exitStmt_end hc (char_ne_nil _ _ _)
  | expr => simp only [Stmt.gen]; exact exitStmt_end hc (char_ne_nil _ _ _)
  | «for» sp i t u b =>
    have h1 := string_solid c 'f' c!"or" (by decide) g
    have h2 := b.gen_sim K tr
    have h3 := genForInit_sim K i tr
    have h4 := genOpt_sim K t tr
    have h5 := genOpt_sim K u tr
    simp only [Stmt.gen]
    refine solid_end hc ?_
    gsim K [h2, h3, h4, h5]
  | forIn sp l r b =>
    have h1 := string_solid c 'f' c!"or" (by decide) g
    have h2 := b.gen_sim K tr
    have h3 := l.gen_sim K tr
    have h4 := r.gen_sim K tr
    simp only [Stmt.gen]
    refine solid_end hc ?_
    gsim K [h2, h3, h4]
  | forOf sp l r b =>
    have h1 := string_solid c 'f' c!"or" (by decide) g
    have h2 := b.gen_sim K tr
    have h3 := l.gen_sim K tr
    have h4 := r.gen_sim K tr
    simp only [Stmt.gen]
    refine solid_end hc ?_
    gsim K [h2, h3, h4]
  | «if» sp x t a =>
    have h1 := string_solid c 'i' c!"f" (by decide) g
    have h2 := x.gen_sim K tr
    have h3 := t.gen_sim K tr
    have h4 := genElse_sim K a tr
    simp only [Stmt.gen]
    refine solid_end hc ?_
    gsim K [h2, h3, h4]
  | labeled sp l b =>
    have h1 := char_solid c ':' (by decide) (g.ident c l)
    have h2 := b.gen_sim K tr
    simp only [Stmt.gen]
    refine solid_end hc ?_
    gsim K [h2]
  | «return» => simp only [Stmt.gen]; exact exitStmt_end hc (char_ne_nil _ _ _)
  | switch => simp only [Stmt.gen]; exact exitStmt_end hc (endBlock_ne_nil _ _)
  | throw sp a =>
    have h1 := string_solid c 't' c!"hrow" (by decide) g
    have h2 := a.gen_sim K tr
    simp only [Stmt.gen]
    refine solid_end hc ?_
    gsim K [h2]
  | «try» sp b h f =>
    have h1 := string_solid c 't' c!"ry" (by decide) g
    have h2 := b.gen_sim K tr
    have h3 := genCatch_sim K h tr
    have h4 := genFinally_sim K f tr
    simp only [Stmt.gen]
    refine solid_end hc ?_
    gsim K [h2, h3, h4]
  | «variable» v =>
    obtain ⟨sp, k, ds⟩ := v
    have h1 : SolidR (g.string c k.asStr) (g.string c k.asStr) := by
      cases k <;> exact string_solid c _ _ (by decide) g
    have h2 := varDeclsGen_sim K ds tr
    simp only [Stmt.gen, VarStmt.gen]
    refine solid_end hc ?_
    gsim K [h2]
  | «while» sp t b =>
    have h1 := string_solid c 'w' c!"hile" (by decide) g
    have h2 := t.gen_sim K tr
    have h3 := b.gen_sim K tr
    simp only [Stmt.gen]
    refine solid_end hc ?_
    gsim K [h2, h3]
  | «with» sp x b =>
    have h1 := string_solid c 'w' c!"ith(" (by decide) g
    have h2 := x.gen_sim K tr
    have h3 := b.gen_sim K tr
    simp only [Stmt.gen]
    refine solid_end hc ?_
    gsim K [h2, h3]
  | classDecl => simp only [Stmt.gen]; exact exitStmt_end hc (endBlock_ne_nil _ _)
  | functionDecl sp a gn i ps b =>
    obtain ⟨_, _, _⟩ := b
    simp only [Stmt.gen, Body.gen]
    exact exitStmt_end hc (endBlock_ne_nil _ _)
  | importDecl => simp only [Stmt.gen]; exact exitStmt_end hc (char_ne_nil _ _ _)
  | exportDecl d =>
    simp only [Stmt.gen]
    refine solid_end hc ?_
    cases d with
    | decl sp d =>
      have h1 := string_solid c 'e' c!"xport" (by decide) g
      have h2 := d.gen_sim K tr
      simp only [ExportDecl.gen]
      gsim K [h2]
    | defaultExpr sp e =>
      have h1 := string_solid c 'e' c!"xport default" (by decide) g
      have h2 := e.gen_sim K tr
      simp only [ExportDecl.gen]
      gsim K [h2]
    | defaultDecl sp d =>
      have h1 := string_solid c 'e' c!"xport default" (by decide) g
      have h2 := d.gen_sim K tr
      simp only [ExportDecl.gen]
      gsim K [h2]
    | named sp ns src =>
      have h1 := string_solid c 'e' c!"xport" (by decide) g
      have h2 := K.namedExports (l := ns) tr hcc
      simp only [ExportDecl.gen]
      cases src with
      | none => gsim K [h2]
      | some s =>
        have h3 := fun {g g'} (h : SolidR g g') => K.litString (s := s) tr hcc h
        simp only
        gsim K [h2, h3]
    | «namespace» sp a src =>
      have h1 := string_solid c 'e' c!"xport" (by decide) g
      have h2 := fun {g g'} (h : SolidR g g') => K.litString (s := src) tr hcc h
      have h3 := fun {g g'} (h : SolidR g g') => K.asAlias (i := a) tr hcc h
      simp only [ExportDecl.gen]
      gsim K [h2, h3]

theorem stmts_end {c : GCtx} (hc : c.minified = false) : ∀ (ss : List Stmt) (g : Gen), ss ≠ [] ∨ AtLineEnd g →
    AtLineEnd (stmtsGen c ss g)
  | [], g, h => by
    simp only [stmtsGen, id]
    exact h.resolve_left (by simp)
  | s :: ss, g, _ => by
    simp only [stmtsGen]
    exact stmts_end hc ss _ (.inr (stmt_end hc s g))

theorem directives_end {c : GCtx} (hc : c.minified = false) : ∀ (ds : List LitString) (g : Gen), ds ≠ [] ∨ AtLineEnd g →
    AtLineEnd (g.directives c ds)
  | [], g, h => h.resolve_left (by simp)
  | d :: ds, g, _ => directives_end hc ds _ (.inr (newLine_end hc _))

/-- **C43**, pretty output. The pretty text of a program with at least one directive or statement ends with a line feed; that of an
empty program is empty. -/
theorem C43_pretty_lines (p : Program) :
    (p.directives ≠ [] ∨ p.body ≠ [] → (generateCode false p).getLast? = some '\n') ∧
    (p.directives = [] → p.body = [] → generateCode false p = []) := by
  constructor
  · intro h
    have hs := stmts_sound { minified := false } p
    have he : AtLineEnd (stmtsGen { minified := false } p.body ((Gen.directives { minified := false } p.directives) {})) := by
      apply stmts_end rfl
      by_cases hb : p.body = []
      · exact .inr (directives_end rfl _ _ (.inl (h.resolve_right (by simp [hb]))))
      · exact .inl hb
    show (stmtsGen _ _ _).data.getLast? = _
    rcases hs.2 with h0 | ⟨pre, post, h1, h2⟩
    · have := he.1
      rw [h0] at this
      exfalso
      apply he.2
      simp only [Gen.pos, byteLen] at this
      cases hd : (stmtsGen { minified := false } p.body ((Gen.directives { minified := false } p.directives) {})).data with
      | nil => rfl
      | cons a l =>
        rw [hd] at this
        have := Char.utf8Size_pos a
        simp at *
        omega
    · have h3 := he.1
      rw [h2, Gen.pos, h1] at h3
      have : post = [] := by
        cases post with
        | nil => rfl
        | cons a l =>
          have := Char.utf8Size_pos a
          simp [byteLen] at h3
          omega
      rw [h1, this]
      simp
  · intro h1 h2
    simp [generateCode, Program.gen, h1, h2, stmtsGen, Gen.directives]

/-! ## Minified and pretty output -/

/-- A text without blanks, line feeds and semicolons. -/
def essence (s : Str) : Str := s.filter fun ch => ch != ' ' && ch != '\n' && ch != ';'

theorem essence_append (a b : Str) : essence (a ++ b) = essence a ++ essence b := by simp [essence]

/-- Same text up to blanks, line feeds and semicolons. -/
def SameText (g g' : Gen) : Prop := essence g.data = essence g'.data

theorem essence_indent (c : GCtx) (g : Gen) : essence (g.indent c).data = essence g.data := by
  unfold Gen.indent
  split
  · rfl
  · simp only
    split
    · rfl
    · simp only [Gen.push, essence_append]
      rw [show essence (List.replicate c.indentation ' ') = [] from ?_]
      · simp [Gen.askCol]
      · simp [essence]

theorem essence_char (c : GCtx) (ch : Char) (g : Gen) : essence (g.char c ch).data = essence g.data ++ essence [ch] := by
  simp [Gen.char, Gen.push, essence_append, essence_indent]

theorem essence_string (c : GCtx) (s : Str) (g : Gen) : essence (g.string c s).data = essence g.data ++ essence s := by
  simp only [Gen.string]
  split
  · simp only [Gen.push, essence_append, essence_indent]
    rfl
  · simp only [Gen.push, essence_append, essence_indent]

theorem essence_newLine (c : GCtx) (g : Gen) : essence (g.newLine c).data = essence g.data := by
  unfold Gen.newLine
  split
  · rfl
  · simp only [essence_char]
    rw [show essence ['\n'] = [] from rfl, List.append_nil]

theorem essence_space (c : GCtx) (g : Gen) : essence (g.space c).data = essence g.data := by
  unfold Gen.space
  split
  · rfl
  · rw [essence_char, show essence [' '] = [] from rfl, List.append_nil]

theorem essence_removeLast (ch : Char) (hch : essence [ch] = []) (g : Gen) :
    essence (g.removeLast ch).2.data = essence g.data := by
  rcases removeLast_data ch g with h | h
  · rw [h]
  · rw [← h, essence_append, hch, List.append_nil]

theorem essence_endBlock (c : GCtx) (g : Gen) : essence (g.endBlock c).data = essence g.data ++ ['}'] := by
  unfold Gen.endBlock
  rw [essence_char]
  congr 1
  have h1 := essence_removeLast '\n' rfl g
  have ha : essence (if g.atBlockStart && !c.minified then
        match g.removeLast '\n' with
        | (true, g) => { g with lastNewLine := 0 }
        | (false, g) => g
      else g : Gen).data = essence g.data := by
    split
    · split
      · next heq => rw [heq] at h1; exact h1
      · next heq => rw [heq] at h1; exact h1
    · rfl
  split
  · rw [essence_removeLast ';' rfl]; exact ha
  · exact ha

theorem essence_separation (c : GCtx) (g : Gen) : essence (g.separation c).data = essence g.data := by
  unfold Gen.separation
  split
  · rfl
  · split
    · exact essence_newLine c g
    · rfl

theorem essence_exitStmt (c : GCtx) (g : Gen) : essence (g.exitStmt c).data = essence g.data := by
  unfold Gen.exitStmt
  split
  · exact essence_newLine c g
  · rfl

theorem sameText_sim : Sim (fun _ _ => True) (fun _ => True) SameText where
  printable := fun _ _ _ => trivial
  indented := fun _ => trivial
  unaligned := fun _ => trivial
  aligned := fun _ _ => trivial
  char := fun _ _ _ _ _ _ h => by simp only [SameText, essence_char] at *; rw [h]
  string := fun _ _ _ _ _ _ h => by simp only [SameText, essence_string] at *; rw [h]
  space := fun _ _ _ _ _ h => by simp only [SameText, essence_space] at *; exact h
  newLine := fun _ _ _ _ _ h => by simp only [SameText, essence_newLine] at *; exact h
  startBlock := fun _ _ _ _ _ h => by
    simp only [SameText, Gen.startBlock, essence_newLine, essence_char] at *
    rw [h]
  endBlock := fun _ _ _ _ _ h => by simp only [SameText, essence_endBlock] at *; rw [h]
  separation := fun _ _ _ _ _ h => by simp only [SameText, essence_separation] at *; exact h
  exitStmt := fun _ _ _ _ _ h => by simp only [SameText, essence_exitStmt] at *; exact h
  removeSemi := fun h => by
    simp only [SameText] at *
    rw [essence_removeLast ';' rfl, essence_removeLast ';' rfl]
    exact h
  askCol := fun h => h
  skip := fun h => h
  child := fun _ h => h

theorem essence_generate (minified : Bool) (p : Program) : essence (generateCode minified p) =
    essence (stmtsGen { minified } p.body ((Gen.directives { minified } p.directives) {})).data := by
  unfold generateCode Program.gen
  simp only
  split
  · have h := essence_removeLast ';' rfl (stmtsGen { minified } p.body ((Gen.directives { minified } p.directives) {}))
    split
    · next heq =>
      rw [heq] at h
      split
      · rw [essence_char, h, show essence [';'] = [] from rfl, List.append_nil]
      · exact h
    · next heq => rw [heq] at h; exact h
  · rfl

/-- **C48**. The minified and the pretty text of every program consist of the same characters in the same order, apart from blanks,
line feeds and semicolons: minifying changes nothing else. -/
theorem C48_minified_same_text (p : Program) : essence (generateCode true p) = essence (generateCode false p) := by
  rw [essence_generate, essence_generate]
  have h1 := sameText_sim.directives (c := { minified := true }) (c' := { minified := false }) trivial (l := p.directives)
    (fun _ _ => trivial) (g := {}) (g' := {}) rfl
  exact stmtsGen_sim sameText_sim p.body (fun _ _ => trivial) trivial h1

end Fajt.Props
