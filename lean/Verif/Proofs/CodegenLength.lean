import Verif.Proofs.CodegenSim
import Verif.Proofs.LexLogic
/-!
# The minified text fits into the pretty text

`Emb m p`: the text `m` results from `p` by dropping blanks, line feeds and semicolons and by writing a blank for a line feed.  It
is built from the front, so that the two runs of the code generator can extend it character by character.
-/
set_option linter.unusedSectionVars false
namespace Fajt
variable [UnicodeID]
open Gen

/-- Layout characters. -/
def LayoutChar (ch : Char) : Prop := ch = ' ' ∨ ch = '\n'

/-- `m` results from `p` by dropping layout characters and semicolons and by writing a blank for a layout character.  The flag tells
that the last character of `p` is a dropped semicolon. -/
inductive Emb : Bool → Str → Str → Prop
  | nil : Emb false [] []
  | both {m p} (ch) : Emb false m p → Emb false (m ++ [ch]) (p ++ [ch])
  | close {m p} : Emb true m p → Emb false (m ++ ['}']) (p ++ ['}'])
  | blank {b m p x} : Emb b m p → LayoutChar x → Emb false m (p ++ [x])
  | fill {b m p x} : Emb b m p → LayoutChar x → Emb false (m ++ [' ']) (p ++ [x])
  | drop {b m p} : Emb b m p → Emb true m (p ++ [';'])

theorem concat_eq {α} {a b : List α} {x y : α} (h : a ++ [x] = b ++ [y]) : a = b ∧ x = y := by
  have := List.append_inj' h rfl
  exact ⟨this.1, by simpa using this.2⟩

theorem getLast?_append_nonempty {α} (a : List α) {b : List α} (hb : b ≠ []) : (a ++ b).getLast? = b.getLast? := by
  obtain ⟨b', y, rfl⟩ : ∃ b' y, b = b' ++ [y] := ⟨b.dropLast, b.getLast hb, (List.dropLast_concat_getLast hb).symm⟩
  rw [← List.append_assoc]
  simp

theorem concat_ne_nil {α} {a : List α} {x : α} : a ++ [x] ≠ [] := by simp

/-- The last semicolon of the first text can be dropped. -/
theorem Emb.unsemi : ∀ {b m p m'}, Emb b m p → m = m' ++ [';'] → ∃ b', Emb b' m' p
  | _, _, _, _, .nil, h => absurd h.symm concat_ne_nil
  | _, _, _, _, .both _ e, h => by
    obtain ⟨rfl, rfl⟩ := concat_eq h
    exact ⟨_, e.drop⟩
  | _, _, _, _, .close _, h => by have := (concat_eq h).2; cases this
  | _, _, _, _, .blank e l, h => by
    obtain ⟨_, e'⟩ := e.unsemi h
    exact ⟨_, e'.blank l⟩
  | _, _, _, _, .fill _ _, h => by have := (concat_eq h).2; cases this
  | _, _, _, _, .drop e, h => by
    obtain ⟨_, e'⟩ := e.unsemi h
    exact ⟨_, e'.drop⟩

theorem Emb.of_true {m p} (e : Emb true m p) : ∃ p', p = p' ++ [';'] := by
  cases e
  exact ⟨_, rfl⟩

theorem LayoutChar.ne_semi {x} (h : LayoutChar x) : x ≠ ';' := by rintro rfl; rcases h with h | h <;> cases h
theorem LayoutChar.ne_close {x} (h : LayoutChar x) : x ≠ '}' := by rintro rfl; rcases h with h | h <;> cases h

/-- A last semicolon of the second text is the last semicolon of the first. -/
theorem Emb.semi_inv {m p} (e : Emb false m (p ++ [';'])) : ∃ m', m = m' ++ [';'] ∧ Emb false m' p := by
  generalize hp : p ++ [';'] = q at e
  cases e with
  | nil => exact absurd hp concat_ne_nil
  | both ch e =>
    obtain ⟨rfl, rfl⟩ := concat_eq hp
    exact ⟨_, rfl, e⟩
  | close e => have := (concat_eq hp).2; cases this
  | blank e l => exact absurd (concat_eq hp).2.symm l.ne_semi
  | fill e l => exact absurd (concat_eq hp).2.symm l.ne_semi

/-- Either the texts end with the same character, or there is room for a blank. -/
theorem Emb.room {m p} (e : Emb false m p) : m.getLast? = p.getLast? ∨ Emb false (m ++ [' ']) p ∨ m.getLast? = some ' ' := by
  cases e with
  | nil => exact .inl rfl
  | both ch e => exact .inl (by simp)
  | close e => exact .inl (by simp)
  | blank e l => exact .inr (.inl (e.fill l))
  | fill e l => exact .inr (.inr (by simp))

theorem Emb.append {m p} (e : Emb false m p) : ∀ {b m' p'}, Emb b m' p' → Emb b (m ++ m') (p ++ p')
  | _, _, _, .nil => by simpa using e
  | _, _, _, .both ch e' => by simpa using (e.append e').both ch
  | _, _, _, .close e' => by simpa using (e.append e').close
  | _, _, _, .blank e' l => by simpa using (e.append e').blank l
  | _, _, _, .fill e' l => by simpa using (e.append e').fill l
  | _, _, _, .drop e' => by simpa using (e.append e').drop

theorem Emb.of_nil {b m} (e : Emb b m []) : m = [] := by
  generalize hp : ([] : Str) = q at e
  cases e with
  | nil => rfl
  | _ => exact absurd hp.symm concat_ne_nil

/-- Text written on both sides. -/
theorem Emb.text {m p} (e : Emb false m p) : ∀ s : Str, Emb false (m ++ s) (p ++ s)
  | [] => by simpa using e
  | ch :: s => by simpa using (e.both ch).text s

theorem Emb.blanks {m p} (e : Emb false m p) : ∀ n, Emb false m (p ++ List.replicate n ' ')
  | 0 => by simpa using e
  | n + 1 => by
    rw [List.replicate_succ', ← List.append_assoc]
    exact (e.blanks n).blank (.inl rfl)

theorem Emb.close_blanks {b m p} (e : Emb b m p) : ∀ n, Emb false (m ++ ['}']) (p ++ List.replicate n ' ' ++ ['}'])
  | 0 => by
    cases b
    · simpa using e.both '}'
    · simpa using e.close
  | n + 1 => by
    have h := (e.blank (x := ' ') (.inl rfl)).blanks n
    have := h.both '}'
    simpa [List.replicate_succ] using this

/-- Where the last block starts in the pretty text, and the corresponding place of the minified text. -/
inductive Opened : Str → Str → Prop
  | start : Opened [] []
  | opened {m p} (n) : Emb false m p → Opened (m ++ ['{']) (p ++ ['{'] ++ List.replicate n ' ' ++ ['\n'])
  | closed {m p} : Emb false (m ++ ['}']) (p ++ ['}']) → Opened (m ++ ['}']) (p ++ ['}'])

theorem Opened.emb {m p} : Opened m p → Emb false m p
  | .start => .nil
  | .opened n e => ((e.both '{').blanks n).blank (x := '\n') (.inr rfl)
  | .closed e => e

theorem Opened.not_semi {m p m'} : Opened m p → m ≠ m' ++ [';']
  | .start, h => concat_ne_nil h.symm
  | .opened _ _, h => by have := (concat_eq h).2; cases this
  | .closed _, h => by have := (concat_eq h).2; cases this

theorem Opened.not_semi' {m p p'} : Opened m p → p ≠ p' ++ [';']
  | .start, h => concat_ne_nil h.symm
  | .opened _ _, h => by have := (concat_eq h).2; cases this
  | .closed _, h => by have := (concat_eq h).2; cases this

theorem isAlnum_ascii {ch : Char} (h : ch.toNat < 128) : isAlnum (some ch) = ch.isAlphanum := UnicodeID.ascii_alphanumeric ch h

theorem Opened.not_alnum {m p} : Opened m p → isAlnum m.getLast? = false
  | .start => rfl
  | .opened _ _ => by
    rw [List.getLast?_concat, isAlnum_ascii (by decide)]
    decide
  | .closed _ => by
    rw [List.getLast?_concat, isAlnum_ascii (by decide)]
    decide

/-- The relation between the minified and the pretty run. -/
def Fit (g g' : Gen) : Prop :=
  ∃ m1 m2 q r, g.data = m1 ++ m2 ∧ g'.data = q ++ r ∧ byteLen q = g'.lastBlockStart ∧ Opened m1 q ∧ Emb false m2 r

theorem Fit.emb {g g' : Gen} (h : Fit g g') : Emb false g.data g'.data := by
  obtain ⟨m1, m2, q, r, h1, h2, -, ho, he⟩ := h
  rw [h1, h2]
  exact ho.emb.append he

/-- The contexts of the two runs. -/
def MiniPretty (c c' : GCtx) : Prop := c.minified = true ∧ c'.minified = false

theorem indent_mini {c : GCtx} (h : c.minified = true) (g : Gen) : g.indent c = g := by simp [Gen.indent, h]

theorem indent_pretty (c : GCtx) (g : Gen) : ∃ n, (g.indent c).data = g.data ++ List.replicate n ' ' ∧
    (g.indent c).lastBlockStart = g.lastBlockStart := by
  unfold Gen.indent
  split
  · exact ⟨0, by simp, rfl⟩
  · simp only
    split
    · exact ⟨0, by simp [Gen.askCol], rfl⟩
    · exact ⟨c.indentation, rfl, rfl⟩

/-- Both sides write after the last block start. -/
theorem Fit.extend {g g' h h' : Gen} (f : Fit g g') (hl : h'.lastBlockStart = g'.lastBlockStart)
    (k : ∀ m1 m2 q r, g.data = m1 ++ m2 → g'.data = q ++ r → Opened m1 q → Emb false m2 r →
      ∃ m2' r', h.data = m1 ++ m2' ∧ h'.data = q ++ r' ∧ Emb false m2' r') : Fit h h' := by
  obtain ⟨m1, m2, q, r, h1, h2, h3, ho, he⟩ := f
  obtain ⟨m2', r', h1', h2', he'⟩ := k m1 m2 q r h1 h2 ho he
  exact ⟨m1, m2', q, r', h1', h2', by rw [hl]; exact h3, ho, he'⟩

theorem Fit.char {c c' : GCtx} (hc : MiniPretty c c') {g g' : Gen} (f : Fit g g') (ch : Char) :
    Fit (g.char c ch) (g'.char c' ch) := by
  obtain ⟨n, hn, hl⟩ := indent_pretty c' g'
  refine f.extend (by simpa [Gen.char, Gen.push] using hl) fun m1 m2 q r h1 h2 ho he => ?_
  refine ⟨m2 ++ [ch], r ++ List.replicate n ' ' ++ [ch], ?_, ?_, (he.blanks n).both ch⟩
  · simp [Gen.char, Gen.push, indent_mini hc.1, h1]
  · simp [Gen.char, Gen.push, hn, h2]

theorem Fit.layout {c' : GCtx} {g g' : Gen} (f : Fit g g') {ch : Char} (l : LayoutChar ch) :
    Fit g (g'.char c' ch) := by
  obtain ⟨n, hn, hl⟩ := indent_pretty c' g'
  refine f.extend (by simpa [Gen.char, Gen.push] using hl) fun m1 m2 q r h1 h2 ho he => ?_
  refine ⟨m2, r ++ List.replicate n ' ' ++ [ch], h1, ?_, (he.blanks n).blank l⟩
  simp [Gen.char, Gen.push, hn, h2]

theorem Fit.newLine {c c' : GCtx} (hc : MiniPretty c c') {g g' : Gen} (f : Fit g g') : Fit (g.newLine c) (g'.newLine c') := by
  simp only [Gen.newLine, hc.1, hc.2, if_true, Bool.false_eq_true, if_false]
  exact f.layout (c' := c') (ch := '\n') (.inr rfl)

theorem Fit.string {c c' : GCtx} (hc : MiniPretty c c') {g g' : Gen} (f : Fit g g') (s : Str) :
    Fit (g.string c s) (g'.string c' s) := by
  obtain ⟨n, hn, hl⟩ := indent_pretty c' g'
  refine f.extend (by simp only [Gen.string]; split <;> exact hl) fun m1 m2 q r h1 h2 ho he => ?_
  simp only [Gen.string, indent_mini hc.1, Gen.mustAddSpaceBefore, hn, h1, h2]
  have hb := he.blanks n
  generalize hr : r ++ List.replicate n ' ' = r' at hb
  rw [List.append_assoc, hr]
  have hpush : ∀ (g : Gen) s, (g.push s).data = g.data ++ s := fun _ _ => rfl
  by_cases hm : (isAlnum (m1 ++ m2).getLast? && isAlnum s.head?) = true
  · -- the minified run writes a blank
    rw [if_pos hm]
    simp only [Bool.and_eq_true] at hm
    have hne : m2 ≠ [] := by
      rintro rfl
      rw [List.append_nil, ho.not_alnum] at hm
      exact absurd hm.1 (by decide)
    have hlast : (m1 ++ m2).getLast? = m2.getLast? := by
      rw [getLast?_append_nonempty _ hne]
    by_cases hp : (isAlnum (q ++ r').getLast? && isAlnum s.head?) = true
    · rw [if_pos hp]
      exact ⟨m2 ++ (' ' :: s), r' ++ (' ' :: s), by simp [hpush, h1], by simp [hpush, hn, h2, ← hr], hb.text _⟩
    · rw [if_neg hp]
      rcases hb.room with hq | hq | hq
      · exfalso
        have hr0 : r' ≠ [] := by
          rintro rfl
          exact hne hb.of_nil
        rw [getLast?_append_nonempty _ hr0, ← hq, ← hlast, hm.1, hm.2] at hp
        exact hp rfl
      · refine ⟨m2 ++ (' ' :: s), r' ++ s, by simp [hpush, h1], by simp [hpush, hn, h2, ← hr], ?_⟩
        simpa using hq.text s
      · rw [hlast, hq, isAlnum_ascii (by decide)] at hm
        exact absurd hm.1 (by decide)
  · rw [if_neg hm]
    by_cases hp : (isAlnum (q ++ r').getLast? && isAlnum s.head?) = true
    · rw [if_pos hp]
      refine ⟨m2 ++ s, r' ++ (' ' :: s), by simp [hpush, h1], by simp [hpush, hn, h2, ← hr], ?_⟩
      simpa using (hb.blank (x := ' ') (.inl rfl)).text s
    · rw [if_neg hp]
      exact ⟨m2 ++ s, r' ++ s, by simp [hpush, h1], by simp [hpush, hn, h2, ← hr], hb.text s⟩

theorem removeLast_cases (ch : Char) (g : Gen) :
    (∃ d, g.data = d ++ [ch] ∧ g.removeLast ch = (true, { g with data := d })) ∨
    ((∀ d, g.data ≠ d ++ [ch]) ∧ g.removeLast ch = (false, g)) := by
  unfold Gen.removeLast
  split
  · next h =>
    obtain ⟨d, hd⟩ := List.getLast?_eq_some_iff.1 h
    exact .inl ⟨d, hd, by simp [hd]⟩
  · next h =>
    refine .inr ⟨fun d hd => h (by simp [hd]), rfl⟩

theorem suffix_concat {α} {a b d : List α} {x : α} (h : a ++ b = d ++ [x]) (hb : b ≠ []) : ∃ b', b = b' ++ [x] ∧ d = a ++ b' := by
  obtain ⟨b', y, rfl⟩ : ∃ b' y, b = b' ++ [y] := ⟨b.dropLast, b.getLast hb, (List.dropLast_concat_getLast hb).symm⟩
  rw [← List.append_assoc] at h
  obtain ⟨rfl, rfl⟩ := concat_eq h
  exact ⟨b', rfl, rfl⟩

theorem Fit.removeSemi {g g' : Gen} (f : Fit g g') : Fit (g.removeLast ';').2 (g'.removeLast ';').2 := by
  have hl : (g'.removeLast ';').2.lastBlockStart = g'.lastBlockStart := by
    rcases removeLast_cases ';' g' with ⟨d, -, h⟩ | ⟨-, h⟩ <;> rw [h]
  refine f.extend hl fun m1 m2 q r h1 h2 ho he => ?_
  rcases removeLast_cases ';' g' with ⟨d', hd', h'⟩ | ⟨hd', h'⟩
  · rw [h']
    have hr : r ≠ [] := by
      rintro rfl
      rw [h2, List.append_nil] at hd'
      exact ho.not_semi' hd'
    obtain ⟨r', rfl, rfl⟩ := suffix_concat (h2.symm.trans hd') hr
    obtain ⟨m2', rfl, he'⟩ := he.semi_inv
    rcases removeLast_cases ';' g with ⟨d, hd, h⟩ | ⟨hd, h⟩
    · rw [h]
      obtain ⟨rfl, -⟩ := concat_eq (show m1 ++ m2' ++ [';'] = d ++ [';'] by rw [← hd, h1]; simp)
      exact ⟨m2', r', rfl, rfl, he'⟩
    · exact absurd (show g.data = (m1 ++ m2') ++ [';'] by rw [h1]; simp) (hd _)
  · rw [h']
    rcases removeLast_cases ';' g with ⟨d, hd, h⟩ | ⟨hd, h⟩
    · rw [h]
      have hm : m2 ≠ [] := by
        rintro rfl
        rw [h1, List.append_nil] at hd
        exact ho.not_semi hd
      obtain ⟨m2', rfl, rfl⟩ := suffix_concat (h1.symm.trans hd) hm
      obtain ⟨b, he'⟩ := he.unsemi rfl
      refine ⟨m2', r, rfl, h2, ?_⟩
      cases b
      · exact he'
      · obtain ⟨p', hp'⟩ := he'.of_true
        exact absurd (show g'.data = (q ++ p') ++ [';'] by rw [h2, hp']; simp) (hd' _)
    · rw [h]
      exact ⟨m2, r, h1, h2, he⟩

theorem Fit.startBlock {c c' : GCtx} (hc : MiniPretty c c') {g g' : Gen} (f : Fit g g') :
    Fit (g.startBlock c) (g'.startBlock c') := by
  obtain ⟨n, hn, -⟩ := indent_pretty c' g'
  obtain ⟨k, hk, -⟩ := indent_pretty c' (g'.char c' '{')
  have e := f.emb.blanks n
  rw [← hn] at e
  refine ⟨_, [], _, [], ?_, ?_, ?_, .opened k e, .nil⟩
  · simp [Gen.startBlock, Gen.newLine, hc.1, Gen.char, Gen.push, indent_mini hc.1]
  · simp only [Gen.startBlock, Gen.newLine, hc.2, Bool.false_eq_true, if_false]
    rw [Gen.char]
    simp only [Gen.push, hk]
    simp [Gen.char, Gen.push]
  · simp only [Gen.startBlock, Gen.newLine, hc.2, Bool.false_eq_true, if_false, Gen.pos]
    rw [Gen.char]
    simp only [Gen.push, hk]
    simp [Gen.char, Gen.push]

theorem byteLen_pos_of_concat (s : Str) (ch : Char) : byteLen (s ++ [ch]) ≠ 0 := by
  have : 0 < ch.utf8Size := Char.utf8Size_pos ch
  simp [byteLen]
  omega

theorem Fit.endBlock {c c' : GCtx} (hc : MiniPretty c c') {g g' : Gen} (f : Fit g g') :
    Fit (g.endBlock c) (g'.endBlock c') := by
  simp only [Gen.endBlock, hc.1, hc.2, Bool.not_true, Bool.and_false, Bool.false_eq_true, if_false, if_true, Bool.not_false,
    Bool.and_true]
  by_cases hb : g'.atBlockStart = true ∧ ∃ d, g'.data = d ++ ['\n']
  · -- an empty block
    obtain ⟨hb, d, hd⟩ := hb
    rw [if_pos hb]
    obtain ⟨m1, m2, q, r, h1, h2, h3, ho, he⟩ := f
    have hb' : g'.lastBlockStart = byteLen g'.data := of_decide_eq_true hb
    obtain rfl : r = [] := by
      rw [← h3, h2, byteLen_append] at hb'
      have h0 : byteLen r = 0 := by omega
      rcases List.eq_nil_or_concat r with rfl | ⟨r', x, rfl⟩
      · rfl
      · rw [List.concat_eq_append] at h0
        exact absurd h0 (byteLen_pos_of_concat _ _)
    obtain rfl := he.of_nil
    rw [List.append_nil] at h1 h2
    rw [h2] at hd
    cases ho with
    | start => exact absurd hd.symm concat_ne_nil
    | closed _ => have := (concat_eq hd).2; cases this
    | @opened m p n e =>
      obtain ⟨rfl, -⟩ := concat_eq hd
      have hg : g.removeLast ';' = (false, g) := by
        rcases removeLast_cases ';' g with ⟨d, hd, -⟩ | ⟨-, h⟩
        · rw [h1] at hd
          have := (concat_eq hd).2
          cases this
        · exact h
      have hg' : g'.removeLast '\n' = (true, { g' with data := p ++ ['{'] ++ List.replicate n ' ' }) := by
        rcases removeLast_cases '\n' g' with ⟨d, hd, h⟩ | ⟨hd, -⟩
        · rw [h2] at hd
          obtain ⟨rfl, -⟩ := concat_eq hd
          exact h
        · exact absurd h2 (hd _)
      rw [hg, hg']
      have hi : ∀ k : Gen, k.lastNewLine = 0 → byteLen k.data ≠ 0 → (k.indent c').data = k.data := by
        intro k hk0 hk1
        unfold Gen.indent
        split
        · rfl
        · simp only [Gen.colPos, Gen.askCol, Gen.pos, hk0, Nat.sub_zero, ne_eq, hk1, not_false_eq_true, if_true]
      have hpos : byteLen (p ++ ['{'] ++ List.replicate n ' ') ≠ 0 := by
        rw [byteLen_append]
        have := byteLen_pos_of_concat p '{'
        omega
      refine ⟨m ++ ['{'] ++ ['}'], [], p ++ ['{'] ++ List.replicate n ' ' ++ ['}'], [], ?_, ?_, ?_,
        .closed (((e.both '{').blanks n).both '}'), .nil⟩
      · simp [Gen.char, Gen.push, indent_mini hc.1, h1]
      · simp only [Gen.char, Gen.push]
        rw [hi _ rfl hpos, List.append_nil]
      · simp only [Gen.char, Gen.push]
        rw [(indent_pretty c' _).choose_spec.2]
        simp only
        rw [← h3]
        simp only [byteLen_append]
        rfl
  · have goal : Fit (((g.removeLast ';').2).char c '}') (g'.char c' '}') := by
      rcases removeLast_cases ';' g with ⟨d, hd, h⟩ | ⟨hd, h⟩
      · rw [h]
        obtain ⟨n, hn, hl⟩ := indent_pretty c' g'
        refine f.extend (by simpa [Gen.char, Gen.push] using hl) fun m1 m2 q r h1 h2 ho he => ?_
        have hm : m2 ≠ [] := by
          rintro rfl
          rw [h1, List.append_nil] at hd
          exact ho.not_semi hd
        obtain ⟨m2', rfl, rfl⟩ := suffix_concat (h1.symm.trans hd) hm
        obtain ⟨b, he'⟩ := he.unsemi rfl
        refine ⟨m2' ++ ['}'], r ++ List.replicate n ' ' ++ ['}'], ?_, ?_, he'.close_blanks n⟩
        · simp [Gen.char, Gen.push, indent_mini hc.1]
        · simp [Gen.char, Gen.push, hn, h2]
      · rw [h]
        exact f.char hc '}'
    split
    · next ha =>
      rcases removeLast_cases '\n' g' with ⟨d, hd, -⟩ | ⟨-, h⟩
      · exact absurd ⟨ha, d, hd⟩ hb
      · rw [h]
        exact goal
    · exact goal

theorem Fit.congr {g g' h h' : Gen} (f : Fit g g') (h1 : h.data = g.data) (h2 : h'.data = g'.data)
    (h3 : h'.lastBlockStart = g'.lastBlockStart) : Fit h h' := by
  unfold Fit
  rw [h1, h2, h3]
  exact f

theorem newLine_mini {c : GCtx} (h : c.minified = true) (g : Gen) : g.newLine c = g := by simp [Gen.newLine, h]

/-- The minified and the pretty run keep the relation. -/
theorem fit_sim : Sim MiniPretty (fun _ => True) Fit where
  printable := fun _ _ _ => trivial
  indented := fun h => h
  unaligned := fun h => h
  aligned := fun h _ => h
  char := fun _ _ _ hc _ _ f => f.char hc _
  string := fun _ _ _ hc _ _ f => f.string hc _
  space := fun _ _ hc _ _ f => by
    simp only [Gen.space, hc.1, hc.2, if_true, Bool.false_eq_true, if_false]
    exact f.layout (.inl rfl)
  newLine := fun _ _ hc _ _ f => f.newLine hc
  startBlock := fun _ _ hc _ _ f => f.startBlock hc
  endBlock := fun _ _ hc _ _ f => f.endBlock hc
  separation := fun c c' hc g g' f => by
    have h0 : (Gen.separation c g).data = g.data := by
      simp only [Gen.separation, newLine_mini hc.1]
      split
      · rfl
      · split <;> rfl
    have hn := f.newLine hc
    rw [newLine_mini hc.1] at hn
    generalize Gen.separation c g = k at h0 ⊢
    unfold Gen.separation
    split
    · exact f.congr h0 rfl rfl
    · split
      · exact hn.congr h0 rfl rfl
      · exact f.congr h0 rfl rfl
  exitStmt := fun _ _ hc g g' f => by
    have hn := f.newLine hc
    simp only [Gen.exitStmt, newLine_mini hc.1, ite_self] at hn ⊢
    split
    · exact hn
    · exact f
  removeSemi := fun f => f.removeSemi
  askCol := fun f => f
  skip := fun f => f
  child := fun _ f => f


theorem fit_start : Fit {} {} := ⟨[], [], [], [], rfl, rfl, rfl, .start, .nil⟩

/-- The two texts of a program. -/
theorem emb_program (p : Program) : Emb false (stmtsGen { minified := true } p.body ((Gen.directives { minified := true } p.directives) {})).data
    (generateCode false p) := by
  have hc : MiniPretty { minified := true } { minified := false } := ⟨rfl, rfl⟩
  have h1 := fit_sim.directives hc (l := p.directives) (fun _ _ => trivial) fit_start
  exact (stmtsGen_sim fit_sim p.body (fun _ _ => trivial) hc h1).emb

theorem Emb.sublist {f : Char → Char} (hf : ∀ x, LayoutChar x → f x = f ' ') : ∀ {b m p}, Emb b m p → (m.map f).Sublist (p.map f)
  | _, _, _, .nil => by simp
  | _, _, _, .both _ e => by
    simp only [List.map_append]
    exact (e.sublist hf).append (List.Sublist.refl _)
  | _, _, _, .close e => by
    simp only [List.map_append]
    exact (e.sublist hf).append (List.Sublist.refl _)
  | _, _, _, .blank e _ => by
    rw [List.map_append]
    exact (e.sublist hf).trans (List.sublist_append_left _ _)
  | _, _, _, .fill e l => by
    simp only [List.map_append, List.map_cons, List.map_nil, hf _ l]
    exact (e.sublist hf).append (List.Sublist.refl _)
  | _, _, _, .drop e => by
    rw [List.map_append]
    exact (e.sublist hf).trans (List.sublist_append_left _ _)

/-- Minified generation ends with dropping a semicolon, or not. -/
theorem mini_text (p : Program) :
    (generateCode true p).Sublist (stmtsGen { minified := true } p.body ((Gen.directives { minified := true } p.directives) {})).data := by
  unfold generateCode Program.gen
  simp only [if_true]
  generalize stmtsGen { minified := true } p.body ((Gen.directives { minified := true } p.directives) {}) = g
  rcases removeLast_cases ';' g with ⟨d, hd, h⟩ | ⟨-, h⟩
  · rw [h, hd]
    simp only
    split
    · simp only [Gen.char, Gen.push, indent_mini]
      exact List.Sublist.refl _
    · exact List.sublist_append_left _ _
  · rw [h]
    exact List.Sublist.refl _

end Fajt
