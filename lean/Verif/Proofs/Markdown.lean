import Verif.Spec.Markdown
/-!
# Proofs about the snapshot files
-/
namespace Fajt.Markdown
open Fajt.Spec.Markdown

/-! ## trimming -/

theorem dropWhile_ws_append {w s : Str} (h : ∀ c ∈ w, isWhitespace c = true) :
    (w ++ s).dropWhile isWhitespace = s.dropWhile isWhitespace := by
  induction w with
  | nil => rfl
  | cons c w ih =>
    rw [List.cons_append, List.dropWhile_cons, if_pos (h c (by simp))]
    exact ih fun d hd => h d (by simp [hd])

/-- Neither end of `s` is white space. -/
def Tight (s : Str) : Prop :=
  (∀ c, s.head? = some c → isWhitespace c = false) ∧ (∀ c, s.getLast? = some c → isWhitespace c = false)

theorem dropWhile_head {s : Str} (h : ∀ c, s.head? = some c → isWhitespace c = false) : s.dropWhile isWhitespace = s := by
  cases s with
  | nil => rfl
  | cons c s => rw [List.dropWhile_cons, if_neg (by rw [h c rfl]; simp)]

theorem trim_tight {s : Str} (h : Tight s) : trim s = s := by
  unfold trim
  rw [dropWhile_head h.1, dropWhile_head (s := s.reverse) (by intro c hc; rw [List.head?_reverse] at hc; exact h.2 c hc),
    List.reverse_reverse]

theorem trim_append {v s w : Str} (hv : ∀ c ∈ v, isWhitespace c = true) (hs : Tight s) (hw : ∀ c ∈ w, isWhitespace c = true) :
    trim (v ++ s ++ w) = s := by
  unfold trim
  rw [List.append_assoc, dropWhile_ws_append hv]
  cases s with
  | nil =>
    have := dropWhile_ws_append (s := []) hw
    rw [List.append_nil] at this
    rw [List.nil_append, this]; rfl
  | cons c s =>
    rw [dropWhile_head (s := (c :: s) ++ w) (by intro d hd; exact hs.1 d (by simpa using hd)), List.reverse_append,
      dropWhile_ws_append (by intro d hd; exact hw d (by simpa using hd))]
    rw [dropWhile_head (s := (c :: s).reverse) (by intro c hc; rw [List.head?_reverse] at hc; exact hs.2 c hc),
      List.reverse_reverse]

theorem head_dropWhile (s : Str) : ∀ c, (s.dropWhile isWhitespace).head? = some c → isWhitespace c = false := by
  induction s with
  | nil => intro c h; cases h
  | cons d s ih =>
    rw [List.dropWhile_cons]
    split
    · exact ih
    · next h => intro c hc; cases hc; simpa using h

theorem split_ws_front (s : Str) : ∃ v, s = v ++ s.dropWhile isWhitespace ∧ ∀ c ∈ v, isWhitespace c = true := by
  refine ⟨s.takeWhile isWhitespace, (List.takeWhile_append_dropWhile).symm, fun c hc => ?_⟩
  have := List.all_takeWhile (l := s) (p := isWhitespace)
  rw [List.all_eq_true] at this
  exact this c hc

theorem trim_split (s : Str) : ∃ v w, s = v ++ trim s ++ w ∧ (∀ c ∈ v, isWhitespace c = true) ∧
    (∀ c ∈ w, isWhitespace c = true) ∧ Tight (trim s) := by
  obtain ⟨v, h1, h2⟩ := split_ws_front s
  obtain ⟨w, h3, h4⟩ := split_ws_front (s.dropWhile isWhitespace).reverse
  have h5 : s.dropWhile isWhitespace = trim s ++ w.reverse := by
    have := congrArg List.reverse h3
    rw [List.reverse_reverse, List.reverse_append] at this
    exact this
  refine ⟨v, w.reverse, ?_, h2, fun c hc => h4 c (by simpa using hc), ?_, ?_⟩
  · rw [List.append_assoc, ← h5]; exact h1
  · intro c hc
    apply head_dropWhile s c
    rw [h5, List.head?_append, hc]; rfl
  · intro c hc
    unfold trim at hc
    rw [List.getLast?_reverse] at hc
    exact head_dropWhile _ c hc

theorem tight_of_trim {s : Str} (h : trim s = s) : Tight s := by
  obtain ⟨_, _, _, _, _, h4⟩ := trim_split s
  rwa [h] at h4

theorem trim_trim (s : Str) : trim (trim s) = trim s := by
  obtain ⟨_, _, _, _, _, h⟩ := trim_split s
  exact trim_tight h

/-! ## looking for marks at the start of a line -/

/-- No match in `s` when `s` starts a line (`b`) or not. -/
def Clean (k : Char) (b : Bool) (s : Str) : Prop := findBol k b s = none

theorem clean_cons {k c : Char} {b : Bool} {s : Str} :
    Clean k b (c :: s) ↔ ¬ (b = true ∧ [k, k, k].isPrefixOf (c :: s) = true) ∧ Clean k (c == '\n') s := by
  unfold Clean
  rw [findBol]
  split
  · next h =>
    rw [Bool.and_eq_true] at h
    exact ⟨fun h' => (by cases h'), fun h' => absurd h h'.1⟩
  · next h =>
    rw [Option.map_eq_none_iff]
    simp only [Bool.and_eq_true] at h
    exact ⟨fun h' => ⟨h, h'⟩, fun h' => h'.2⟩

@[simp] theorem clean_nil (k : Char) (b : Bool) : Clean k b [] := rfl

/-- Lines are independent. -/
theorem prefix_lf {k : Char} (hk : k ≠ '\n') (x y : Str) : [k, k, k].isPrefixOf (x ++ '\n' :: y) = [k, k, k].isPrefixOf x := by
  have hk' : (k == '\n') = false := by simp [hk]
  match x with
  | [] => simp [List.isPrefixOf, hk']
  | [a] => simp [List.isPrefixOf, hk']
  | [a, b] => simp [List.isPrefixOf, hk']
  | a :: b :: c :: t => simp [List.isPrefixOf]

theorem findBol_lf {k : Char} (hk : k ≠ '\n') {b : Bool} {x : Str} (h : Clean k b x) (y : Str) :
    findBol k b (x ++ '\n' :: y) = (findBol k true y).map fun p => (x ++ '\n' :: p.1, p.2) := by
  induction x generalizing b with
  | nil =>
    rw [List.nil_append, findBol, if_neg]
    · rfl
    · have := prefix_lf hk [] y
      rw [List.nil_append] at this
      rw [this]; simp [List.isPrefixOf]
  | cons c x ih =>
    rw [clean_cons] at h
    rw [List.cons_append, findBol, if_neg, ih h.2, Option.map_map]
    · rfl
    · rw [← List.cons_append, prefix_lf hk, Bool.and_eq_true]; exact h.1

theorem clean_lf {k : Char} (hk : k ≠ '\n') {b : Bool} {x y : Str} :
    Clean k b (x ++ '\n' :: y) ↔ Clean k b x ∧ Clean k true y := by
  constructor
  · intro h
    have hx : Clean k b x := by
      clear hk
      induction x generalizing b with
      | nil => exact clean_nil _ _
      | cons c x ih =>
        rw [List.cons_append, clean_cons] at h
        rw [clean_cons]
        refine ⟨fun h' => h.1 ⟨h'.1, ?_⟩, ih h.2⟩
        rw [List.isPrefixOf_iff_prefix] at h' ⊢
        exact h'.2.trans (by rw [← List.cons_append]; exact List.prefix_append _ _)
    refine ⟨hx, ?_⟩
    unfold Clean at h ⊢
    rw [findBol_lf hk hx, Option.map_eq_none_iff] at h
    exact h
  · rintro ⟨hx, hy⟩
    unfold Clean at hy ⊢
    rw [findBol_lf hk hx, hy]; rfl

theorem clean_oneLine {k : Char} {s : Str} (h : '\n' ∉ s) : Clean k false s := by
  induction s with
  | nil => exact clean_nil _ _
  | cons c s ih =>
    rw [clean_cons]
    simp only [List.mem_cons, not_or] at h
    refine ⟨by simp, ?_⟩
    rw [show (c == '\n') = false by simp; exact fun h' => h.1 h'.symm]
    exact ih h.2

theorem clean_mono {k : Char} {s : Str} (h : Clean k true s) : Clean k false s := by
  cases s with
  | nil => exact clean_nil _ _
  | cons c s => rw [clean_cons] at h ⊢; exact ⟨by simp, h.2⟩

theorem clean_true {k : Char} {s : Str} (h : Clean k false s) (h2 : ¬ [k, k, k] <+: s) : Clean k true s := by
  cases s with
  | nil => exact clean_nil _ _
  | cons c s =>
    rw [clean_cons] at h ⊢
    exact ⟨fun h' => h2 (List.isPrefixOf_iff_prefix.1 h'.2), h.2⟩

theorem clean_prefix {k : Char} {b : Bool} {x y : Str} (h : Clean k b (x ++ y)) : Clean k b x := by
  induction x generalizing b with
  | nil => exact clean_nil _ _
  | cons c x ih =>
    rw [List.cons_append, clean_cons] at h
    rw [clean_cons]
    refine ⟨fun h' => h.1 ⟨h'.1, ?_⟩, ih h.2⟩
    rw [List.isPrefixOf_iff_prefix] at h' ⊢
    exact h'.2.trans (by rw [← List.cons_append]; exact List.prefix_append _ _)

/-- A suffix of a clean text is clean, as a text that does not start a line. -/
theorem clean_suffix {k : Char} {b : Bool} {x y : Str} (h : Clean k b (x ++ y)) : Clean k false y := by
  induction x generalizing b with
  | nil =>
    cases b
    · exact h
    · exact clean_mono h
  | cons c x ih =>
    rw [List.cons_append, clean_cons] at h
    exact ih h.2

theorem clean_iff {k : Char} (hk : k ≠ '\n') {s : Str} : Clean k true s ↔ ¬ StartsLine [k, k, k] s := by
  constructor
  · rintro h ⟨pre, post, rfl, hp⟩
    have key : ∀ t, ¬ Clean k true ([k, k, k] ++ t) := by
      intro t ht
      rw [show [k, k, k] ++ t = k :: k :: k :: t from rfl, clean_cons] at ht
      exact ht.1 ⟨rfl, by simp [List.isPrefixOf]⟩
    rcases hp with rfl | ⟨q, rfl⟩
    · exact key _ (by simpa using h)
    · rw [show q ++ ['\n'] ++ [k, k, k] ++ post = q ++ '\n' :: ([k, k, k] ++ post) by simp, clean_lf hk] at h
      exact key _ h.2
  · intro h
    unfold Clean
    have gen : ∀ (s : Str) (b : Bool) (p : Str × Str), findBol k b s = some p →
        s = p.1 ++ [k, k, k] ++ p.2 ∧ ((p.1 = [] ∧ b = true) ∨ ∃ q, p.1 = q ++ ['\n']) := by
      intro s
      induction s with
      | nil => intro b p h; cases h
      | cons c s ih =>
        intro b p h
        rw [findBol] at h
        split at h
        · next h1 =>
          rw [Bool.and_eq_true, List.isPrefixOf_iff_prefix] at h1
          obtain ⟨hb, t, ht⟩ := h1
          cases h
          refine ⟨?_, .inl ⟨rfl, hb⟩⟩
          cases ht
          simp
        · rw [Option.map_eq_some_iff] at h
          obtain ⟨p', h1, rfl⟩ := h
          obtain ⟨h2, h3⟩ := ih _ _ h1
          refine ⟨by rw [h2]; simp, .inr ?_⟩
          rcases h3 with ⟨h3, h4⟩ | ⟨q, h3⟩
          · refine ⟨[], ?_⟩
            have : c = '\n' := by simpa using h4
            simp [h3, this]
          · exact ⟨c :: q, by simp [h3]⟩
    cases hf : findBol k true s with
    | none => rfl
    | some p =>
      obtain ⟨h1, h2⟩ := gen s true p hf
      exact absurd ⟨p.1, p.2, h1, by rcases h2 with ⟨h2, _⟩ | h2 <;> simp_all⟩ h

theorem findBol_some {k : Char} {s : Str} {b : Bool} {p : Str × Str} (h : findBol k b s = some p) :
    s = p.1 ++ [k, k, k] ++ p.2 ∧ ((p.1 = [] ∧ b = true) ∨ ∃ q, p.1 = q ++ ['\n']) ∧ Clean k b p.1 := by
  induction s generalizing b p with
  | nil => cases h
  | cons c s ih =>
    rw [findBol] at h
    split at h
    · next h1 =>
      rw [Bool.and_eq_true, List.isPrefixOf_iff_prefix] at h1
      obtain ⟨hb, t, ht⟩ := h1
      cases h
      refine ⟨?_, .inl ⟨rfl, hb⟩, clean_nil _ _⟩
      cases ht
      simp
    · next h0 =>
      rw [Option.map_eq_some_iff] at h
      obtain ⟨p', h1, rfl⟩ := h
      obtain ⟨h2, h3, h4⟩ := ih h1
      refine ⟨by rw [h2]; simp, .inr ?_, ?_⟩
      · rcases h3 with ⟨h3, h4⟩ | ⟨q, h3⟩
        · refine ⟨[], ?_⟩
          have : c = '\n' := by simpa using h4
          simp [h3, this]
        · exact ⟨c :: q, by simp [h3]⟩
      · rw [clean_cons]
        refine ⟨fun h' => ?_, h4⟩
        rw [Bool.and_eq_true] at h0
        refine h0 ⟨h'.1, ?_⟩
        rw [List.isPrefixOf_iff_prefix] at h' ⊢
        rw [h2]
        exact h'.2.trans ⟨[k, k, k] ++ p'.2, by simp⟩

theorem findBol_here (k : Char) (s : Str) : findBol k true ([k, k, k] ++ s) = some ([], s) := by
  rw [show [k, k, k] ++ s = k :: k :: k :: s from rfl, findBol, if_pos (by simp [List.isPrefixOf])]
  simp

/-! ## splitting -/

theorem splitBol_clean {k : Char} {b : Bool} {s : Str} (h : Clean k b s) : splitBol k 0 b s = [s] := by
  induction s generalizing b with
  | nil => rw [splitBol]
  | cons c s ih =>
    rw [clean_cons] at h
    rw [splitBol, if_neg (by rw [Bool.and_eq_true]; exact h.1), ih h.2]

theorem splitBol_lf {k : Char} (hk : k ≠ '\n') {b : Bool} {x : Str} (h : Clean k b x) (y : Str) :
    splitBol k 0 b (x ++ '\n' :: [k, k, k] ++ y) = (x ++ ['\n']) :: splitBol k 0 false y := by
  induction x generalizing b with
  | nil =>
    rw [show [] ++ '\n' :: [k, k, k] ++ y = '\n' :: k :: k :: k :: y from rfl, splitBol, if_neg (by
      have hk' : (k == '\n') = false := by simp [hk]
      simp [List.isPrefixOf, hk']), splitBol, if_pos (by simp [List.isPrefixOf])]
    rfl
  | cons c x ih =>
    rw [clean_cons] at h
    have h1 := prefix_lf hk (c :: x) ([k, k, k] ++ y)
    rw [show c :: x ++ '\n' :: [k, k, k] ++ y = c :: (x ++ '\n' :: [k, k, k] ++ y) by simp, splitBol, if_neg (by
      rw [Bool.and_eq_true]
      have e : c :: x ++ '\n' :: ([k, k, k] ++ y) = c :: (x ++ '\n' :: [k, k, k] ++ y) := by simp
      rw [e] at h1; rw [h1]; exact h.1), ih h.2]
    rfl

theorem splitBol_start {k : Char} (y : Str) : splitBol k 0 true ([k, k, k] ++ y) = [] :: splitBol k 0 false y := by
  rw [show [k, k, k] ++ y = k :: k :: k :: y from rfl, splitBol, if_pos (by simp [List.isPrefixOf])]
  rfl

/-- Every piece of a split is clean: the first as the text before it, the others as texts that do not start a line. -/
theorem splitBol_pieces {k : Char} {n : Nat} {b : Bool} {s : Str} :
    ∃ h t, splitBol k n b s = h :: t ∧ (n = 0 → Clean k b h ∧ ∃ r, h ++ r = s) ∧ Clean k false h ∧ ∀ x ∈ t, Clean k false x := by
  induction s generalizing n b with
  | nil => exact ⟨[], [], by rw [splitBol], fun _ => ⟨clean_nil _ _, [], rfl⟩, clean_nil _ _, by simp⟩
  | cons c s ih =>
    cases n with
    | succ n =>
      obtain ⟨h, t, h1, h2, h3, h4⟩ := ih (n := n) (b := false)
      exact ⟨h, t, by rw [splitBol]; exact h1, by simp, h3, h4⟩
    | zero =>
      rw [splitBol]
      split
      · obtain ⟨h, t, h1, h2, h3, h4⟩ := ih (n := 2) (b := false)
        refine ⟨[], _, rfl, fun _ => ⟨clean_nil _ _, c :: s, rfl⟩, clean_nil _ _, ?_⟩
        rw [h1]
        intro x hx
        rcases List.mem_cons.1 hx with rfl | hx
        · exact h3
        · exact h4 x hx
      · next h0 =>
        obtain ⟨h, t, h1, h2, h3, h4⟩ := ih (n := 0) (b := c == '\n')
        rw [h1]
        obtain ⟨h5, r, h6⟩ := h2 rfl
        have hb : ∀ b', ¬ (b' && [k, k, k].isPrefixOf (c :: s)) = true → Clean k b' (c :: h) := by
          intro b' hb'
          rw [clean_cons]
          refine ⟨fun h' => hb' ?_, h5⟩
          rw [Bool.and_eq_true]
          refine ⟨h'.1, ?_⟩
          rw [List.isPrefixOf_iff_prefix] at h' ⊢
          rw [← h6]
          exact h'.2.trans ⟨r, by simp⟩
        exact ⟨c :: h, t, rfl, fun _ => ⟨hb _ h0, r, by simp [h6]⟩, hb false (by simp), h4⟩

theorem splitOnceLF_append {x : Str} (h : '\n' ∉ x) (y : Str) : splitOnceLF (x ++ '\n' :: y) = some (x, y) := by
  induction x with
  | nil => simp [splitOnceLF]
  | cons c x ih =>
    simp only [List.mem_cons, not_or] at h
    rw [List.cons_append, splitOnceLF, if_neg (fun h' => h.1 h'.symm), ih h.2]
    rfl

theorem splitOnceLF_some {s x y : Str} (h : splitOnceLF s = some (x, y)) : s = x ++ '\n' :: y ∧ '\n' ∉ x := by
  induction s generalizing x y with
  | nil => cases h
  | cons c s ih =>
    rw [splitOnceLF] at h
    split at h
    · next hc => cases h; exact ⟨by simp [hc], by simp⟩
    · next hc =>
      rw [Option.map_eq_some_iff] at h
      obtain ⟨⟨a, b⟩, h1, h2⟩ := h
      cases h2
      obtain ⟨rfl, h3⟩ := ih h1
      exact ⟨rfl, by simp only [List.mem_cons, not_or]; exact ⟨fun h' => hc h'.symm, h3⟩⟩

/-! ## writing and reading back -/

theorem hash_ne : ('#' : Char) ≠ '\n' := by decide
theorem tick_ne : ('`' : Char) ≠ '\n' := by decide

theorem plain_hash {t : Str} (h : PlainLines t) : Clean '#' true t := (clean_iff hash_ne).2 h.1
theorem plain_tick {t : Str} (h : PlainLines t) : Clean '`' true t := (clean_iff tick_ne).2 h.2

theorem endLine_eq (t : Str) : ∃ u, endLine t = u ++ ['\n'] ∧ (endLine t = t ∨ u = t) := by
  unfold endLine
  split
  · next h =>
    obtain ⟨u, hu⟩ : ∃ u, t = u ++ ['\n'] := by
      rw [List.getLast?_eq_some_iff] at h; exact h
    exact ⟨u, hu, .inl rfl⟩
  · exact ⟨t, rfl, .inr rfl⟩

theorem blockStr_eq (b : CodeBlock) : b.toStr = c!"```" ++ b.language ++ c!"\n" ++ endLine b.contents ++ c!"```" := by
  unfold CodeBlock.toStr endLine
  split <;> simp

theorem clean_endLine {k : Char} (hk : k ≠ '\n') {t : Str} (h : Clean k true t) : ∃ u, endLine t = u ++ ['\n'] ∧ Clean k true u := by
  obtain ⟨u, h1, h2⟩ := endLine_eq t
  refine ⟨u, h1, ?_⟩
  rcases h2 with h2 | rfl
  · rw [← h2, h1, clean_lf hk] at h; exact h.1
  · exact h

/-- The text of a section as it is written. -/
def textStr : Option Str → Str
  | some t => t ++ c!"\n\n"
  | none => []

/-- The block of a section as it is written. -/
def blkStr : Option CodeBlock → Str
  | some b => b.toStr
  | none => []

/-- The text that follows the title line of a written section. -/
def bodyStr (s : Section) : Str :=
  textStr s.text ++ blkStr s.block

theorem sectionStr_eq (s : Section) : s.toStr = c!"###" ++ (' ' :: s.name ++ '\n' :: bodyStr s) := by
  obtain ⟨n, t, b⟩ := s
  cases t <;> cases b <;> simp [Section.toStr, bodyStr, textStr, blkStr]

theorem clean_block {b : CodeBlock} (h : BlockOk b) : Clean '#' true b.toStr := by
  obtain ⟨u, h1, h2⟩ := clean_endLine hash_ne (plain_hash h.contents)
  rw [blockStr_eq, h1, show c!"```" ++ b.language ++ c!"\n" ++ (u ++ ['\n']) ++ c!"```"
    = (c!"```" ++ b.language) ++ '\n' :: (u ++ '\n' :: c!"```") by simp, clean_lf hash_ne, clean_lf hash_ne]
  refine ⟨?_, h2, by rfl⟩
  apply clean_true
  · apply clean_oneLine
    intro h'
    simp only [List.mem_append] at h'
    rcases h' with h' | h'
    · revert h'; decide
    · exact h.oneLine h'
  · rintro ⟨t, ht⟩
    simp at ht

theorem clean_body {s : Section} (h : SectionOk s) : Clean '#' true (bodyStr s) := by
  have hb : Clean '#' true (blkStr s.block) := by
    cases hb : s.block with
    | some b => exact clean_block (h.block b hb)
    | none => exact clean_nil _ _
  unfold bodyStr
  cases ht : s.text with
  | some t =>
    unfold textStr
    rw [show ∀ z : Str, t ++ c!"\n\n" ++ z = t ++ '\n' :: ([] ++ '\n' :: z) by simp, clean_lf hash_ne, clean_lf hash_ne]
    exact ⟨plain_hash (h.text t ht).2.2, clean_nil _ _, hb⟩
  | none => exact hb

theorem clean_piece {s : Section} (h : SectionOk s) : Clean '#' false (' ' :: s.name ++ '\n' :: bodyStr s) := by
  rw [clean_lf hash_ne]
  refine ⟨clean_oneLine ?_, clean_body h⟩
  intro h'
  rcases List.mem_cons.1 h' with h' | h'
  · revert h'; decide
  · exact h.oneLine h'

theorem ws_lf : ∀ c ∈ c!"\n\n", isWhitespace c = true := by decide

theorem tick_tight {x : Str} : Tight (c!"```" ++ x ++ c!"```") := by
  constructor
  · intro c hc
    cases hc
    decide
  · intro c hc
    rw [List.getLast?_append] at hc
    cases hc
    decide

theorem splitCodeBlock_block {b : CodeBlock} (h : BlockOk b) (tx : Option Str)
    (ht : ∀ t, tx = some t → t ≠ [] ∧ trim t = t ∧ PlainLines t) :
    splitCodeBlock (textStr tx ++ b.toStr)
      = some (tx, some { b with contents := endLine b.contents }) := by
  obtain ⟨u, h1, h2⟩ := clean_endLine tick_ne (plain_tick h.contents)
  have hin : findBol '`' true (b.language ++ c!"\n" ++ endLine b.contents ++ c!"```")
      = some (b.language ++ '\n' :: endLine b.contents, []) := by
    have hc : Clean '`' true (b.language ++ '\n' :: u) := by
      rw [clean_lf tick_ne]
      exact ⟨clean_true (clean_oneLine h.oneLine) h.noFence, h2⟩
    have := findBol_lf tick_ne hc c!"```"
    rw [h1, show b.language ++ c!"\n" ++ (u ++ ['\n']) ++ c!"```" = b.language ++ '\n' :: u ++ '\n' :: c!"```" by simp, this]
    rw [show findBol '`' true c!"```" = some ([], []) by decide]
    simp
  have hmain : ∀ pre : Str, findBol '`' true (pre ++ b.toStr) = some (pre, b.language ++ c!"\n" ++ endLine b.contents ++ c!"```") →
      splitCodeBlock (pre ++ b.toStr)
        = some (if trim pre = [] then none else some (trim pre), some { b with contents := endLine b.contents }) := by
    intro pre hp
    unfold splitCodeBlock
    rw [hp]
    simp only
    rw [hin]
    simp only [Option.bind_eq_bind, Option.bind_some]
    rw [splitOnceLF_append h.oneLine]
    simp [h.trimmed]
  have hfront : findBol '`' true b.toStr = some ([], b.language ++ c!"\n" ++ endLine b.contents ++ c!"```") := by
    rw [blockStr_eq, List.append_assoc, List.append_assoc, List.append_assoc]
    have := findBol_here '`' (b.language ++ (c!"\n" ++ (endLine b.contents ++ c!"```")))
    rw [show [('`' : Char), '`', '`'] = c!"```" from rfl] at this
    rw [this]
    simp
  cases tx with
  | none =>
    simp only [textStr, List.nil_append]
    have := hmain [] (by simpa using hfront)
    rw [List.nil_append] at this
    rw [this]
    rfl
  | some t =>
    obtain ⟨h3, h4, h5⟩ := ht t rfl
    simp only [textStr]
    rw [hmain (t ++ c!"\n\n") ?_]
    · have : trim (t ++ c!"\n\n") = t := by
        have := trim_append (v := []) (by simp) (tight_of_trim h4) ws_lf
        simpa using this
      rw [this, if_neg h3]
    · have hc : Clean '`' true (t ++ '\n' :: []) := by
        rw [clean_lf tick_ne]; exact ⟨plain_tick h5, clean_nil _ _⟩
      have := findBol_lf tick_ne hc b.toStr
      rw [show t ++ c!"\n\n" ++ b.toStr = t ++ '\n' :: [] ++ '\n' :: b.toStr by simp, this, hfront]
      simp

theorem sectionOf_written {s : Section} (h : SectionOk s) {ws : Str} (hw : ∀ c ∈ ws, isWhitespace c = true) :
    sectionOf (' ' :: s.name ++ '\n' :: bodyStr s ++ ws) = some (closeSection s) := by
  have hname : '\n' ∉ ' ' :: s.name := by
    intro h'
    rcases List.mem_cons.1 h' with h' | h'
    · revert h'; decide
    · exact h.oneLine h'
  have htn : trim (' ' :: s.name) = s.name := by
    have := trim_append (v := c!" ") (w := []) (by decide) (tight_of_trim h.trimmed) (by simp)
    simpa using this
  have hbody : ∃ core, trim (bodyStr s ++ ws) = core ∧
      splitCodeBlock core = some (s.text, s.block.map fun b => { b with contents := endLine b.contents }) := by
    obtain ⟨name, text, block⟩ := s
    cases block with
    | some b =>
      have hb := h.block b rfl
      have hsc := splitCodeBlock_block hb text h.text
      refine ⟨_, ?_, hsc⟩
      have htight : Tight (textStr text ++ b.toStr) := by
        have hbt : Tight b.toStr := by
          rw [blockStr_eq]
          have := tick_tight (x := b.language ++ c!"\n" ++ endLine b.contents)
          simpa using this
        have hne : b.toStr ≠ [] := by rw [blockStr_eq]; simp
        cases text with
        | none => simpa [textStr] using hbt
        | some t =>
          obtain ⟨h3, h4, _⟩ := h.text t rfl
          have htt := tight_of_trim h4
          constructor
          · intro c hc
            apply htt.1 c
            cases t with
            | nil => exact absurd rfl h3
            | cons d t => simpa [textStr] using hc
          · intro c hc
            apply hbt.2 c
            rw [List.getLast?_append] at hc
            obtain ⟨z, hz⟩ : ∃ z, b.toStr.getLast? = some z := by
              cases hz : b.toStr.getLast? with
              | none => exact absurd (List.getLast?_eq_none_iff.1 hz) hne
              | some z => exact ⟨z, rfl⟩
            rw [hz] at hc ⊢
            simpa using hc
      have := trim_append (v := []) (by simp) htight hw
      simpa [bodyStr, blkStr] using this
    | none =>
      cases text with
      | none =>
        refine ⟨[], ?_, rfl⟩
        have := trim_append (v := []) (s := []) (by simp) ⟨by simp, by simp⟩ hw
        simpa [bodyStr, textStr, blkStr] using this
      | some t =>
        obtain ⟨h3, h4, h5⟩ := h.text t rfl
        refine ⟨t, ?_, ?_⟩
        · have := trim_append (v := []) (w := c!"\n\n" ++ ws) (by simp) (tight_of_trim h4) (by
            intro c hc
            rcases List.mem_append.1 hc with hc | hc
            · exact ws_lf c hc
            · exact hw c hc)
          simpa [bodyStr, textStr, blkStr] using this
        · unfold splitCodeBlock
          rw [show findBol '`' true t = none from plain_tick h5]
          simp [h3]
  obtain ⟨core, hc1, hc2⟩ := hbody
  unfold sectionOf splitTitle
  rw [List.append_assoc, show ' ' :: s.name ++ ('\n' :: bodyStr s ++ ws) = ' ' :: s.name ++ '\n' :: (bodyStr s ++ ws) from rfl,
    splitOnceLF_append hname]
  simp only [Option.bind_eq_bind, Option.bind_some, Option.pure_def]
  rw [htn, hc1, hc2]
  rfl

theorem intercalate_cons2 (a b : Section) (m : List Section) :
    docStr (a :: b :: m) = a.toStr ++ c!"\n\n" ++ docStr (b :: m) := by
  unfold docStr
  rw [List.map_cons, List.map_cons, List.intercalate_cons_cons]

theorem docStr_start (s : Section) (m : List Section) : ∃ r, docStr (s :: m) = c!"###" ++ r := by
  cases m with
  | nil => exact ⟨_, by unfold docStr; rw [List.map_cons, List.map_nil, List.intercalate_singleton, sectionStr_eq]⟩
  | cons b m => exact ⟨_, by rw [intercalate_cons2, sectionStr_eq, List.append_assoc, List.append_assoc]⟩

theorem mapM_cons_some {α β : Type} {f : α → Option β} {a : α} {l : List α} {b : β} {r : List β} (h1 : f a = some b)
    (h2 : l.mapM f = some r) : (a :: l).mapM f = some (b :: r) := by
  rw [List.mapM_cons, h1, h2]; rfl

theorem clean_ws {k : Char} (hk : isWhitespace k = false) {b : Bool} {ws : Str} (hw : ∀ c ∈ ws, isWhitespace c = true) : Clean k b ws := by
  induction ws generalizing b with
  | nil => exact clean_nil _ _
  | cons c ws ih =>
    rw [clean_cons]
    refine ⟨fun h => ?_, ih fun d hd => hw d (by simp [hd])⟩
    have h2 := h.2
    rw [List.isPrefixOf_iff_prefix] at h2
    obtain ⟨t, ht⟩ := h2
    cases ht
    have := hw k (by simp)
    rw [hk] at this
    cases this

/-- A clean text followed by white space is clean. -/
theorem clean_append_ws {k : Char} (hk : isWhitespace k = false) {b : Bool} {x ws : Str} (h : Clean k b x)
    (hw : ∀ c ∈ ws, isWhitespace c = true) : Clean k b (x ++ ws) := by
  induction x generalizing b with
  | nil => exact clean_ws hk hw
  | cons c x ih =>
    rw [clean_cons] at h
    rw [List.cons_append, clean_cons]
    refine ⟨fun h' => ?_, ih h.2⟩
    apply h.1
    refine ⟨h'.1, ?_⟩
    have h2 := h'.2
    rw [List.isPrefixOf_iff_prefix] at h2 ⊢
    have key : ∀ (n : Nat) (x : Str), List.replicate n k <+: x ++ ws → List.replicate n k <+: x := by
      intro n
      induction n with
      | zero => intro x _; exact List.nil_prefix
      | succ n ihn =>
        intro x hx
        cases x with
        | nil =>
          rw [List.nil_append] at hx
          obtain ⟨t, ht⟩ := hx
          have := hw k (by rw [← ht]; simp [List.replicate_succ])
          rw [hk] at this; cases this
        | cons d x =>
          rw [List.replicate_succ, List.cons_append, List.cons_prefix_cons] at hx
          rw [List.replicate_succ, List.cons_prefix_cons]
          exact ⟨hx.1, ihn x hx.2⟩
    exact key 3 (c :: x) (by simpa using h2)

/-- Splitting a written document gives back the sections. -/
theorem split_written (s : Section) (m : List Section) (h : ∀ x ∈ s :: m, SectionOk x) {ws : Str}
    (hw : ∀ c ∈ ws, isWhitespace c = true) :
    ((splitBol '#' 0 true (docStr (s :: m) ++ ws)).filter (· ≠ [])).mapM sectionOf = some ((s :: m).map closeSection) := by
  have gen : ∀ (m : List Section) (s : Section), (∀ x ∈ s :: m, SectionOk x) → ∃ r, docStr (s :: m) ++ ws = c!"###" ++ r ∧
      ((splitBol '#' 0 false r).filter (· ≠ [])).mapM sectionOf = some ((s :: m).map closeSection) := by
    intro m
    induction m with
    | nil =>
      intro s h
      refine ⟨' ' :: s.name ++ '\n' :: bodyStr s ++ ws, ?_, ?_⟩
      · unfold docStr
        rw [List.map_cons, List.map_nil, List.intercalate_singleton, sectionStr_eq]
        simp
      · rw [splitBol_clean (clean_append_ws (by decide) (clean_piece (h s (by simp))) hw)]
        rw [List.filter_cons, if_pos (by simp), List.filter_nil]
        exact mapM_cons_some (sectionOf_written (h s (by simp)) hw) rfl
    | cons b m ih =>
      intro s h
      obtain ⟨r, h1, h2⟩ := ih b fun x hx => h x (by simp only [List.mem_cons] at hx ⊢; exact .inr hx)
      refine ⟨' ' :: s.name ++ '\n' :: bodyStr s ++ c!"\n\n" ++ c!"###" ++ r, ?_, ?_⟩
      · rw [intercalate_cons2, List.append_assoc, h1, sectionStr_eq]
        simp
      · have hc : Clean '#' false (' ' :: s.name ++ '\n' :: bodyStr s ++ ['\n']) :=
          clean_append_ws (by decide) (clean_piece (h s (by simp))) (by decide)
        have := splitBol_lf hash_ne hc r
        rw [show ' ' :: s.name ++ '\n' :: bodyStr s ++ c!"\n\n" ++ c!"###" ++ r
          = ' ' :: s.name ++ '\n' :: bodyStr s ++ ['\n'] ++ '\n' :: ['#', '#', '#'] ++ r by simp, this]
        rw [List.filter_cons, if_pos (by simp)]
        refine mapM_cons_some ?_ h2
        have := sectionOf_written (h s (by simp)) ws_lf
        rw [← this]
        simp
  obtain ⟨r, h1, h2⟩ := gen m s h
  rw [h1]
  have := splitBol_start (k := '#') r
  rw [show ['#', '#', '#'] = c!"###" from rfl] at this
  rw [this, List.filter_cons, if_neg (by simp)]
  exact h2

/-! ## documents that were read -/

theorem clean_of_trim {k : Char} {b : Bool} {s : Str} (h : Clean k b s) : Clean k false (trim s) := by
  obtain ⟨v, w, h1, _, _, _⟩ := trim_split s
  rw [h1] at h
  exact clean_suffix (clean_prefix h)

theorem splitTitle_spec {s name content : Str} (h : splitTitle s = some (name, content)) :
    ∃ a b, s = a ++ '\n' :: b ∧ '\n' ∉ a ∧ name = trim a ∧ content = trim b := by
  unfold splitTitle at h
  cases h1 : splitOnceLF s with
  | none => rw [h1] at h; cases h
  | some p =>
    obtain ⟨a, b⟩ := p
    rw [h1] at h
    cases h
    obtain ⟨h2, h3⟩ := splitOnceLF_some h1
    exact ⟨a, b, h2, h3, rfl, rfl⟩

theorem not_mem_trim {a : Str} (h : '\n' ∉ a) : '\n' ∉ trim a := by
  obtain ⟨v, w, h1, _, _, _⟩ := trim_split a
  intro h'
  apply h
  rw [h1]
  simp [h']

/-- A section that was read can be written, unless its text starts with a heading mark or its language with a fence. -/
theorem sectionOf_ok {p : Str} {s : Section} (hp : Clean '#' false p) (h : sectionOf p = some s)
    (h1 : ∀ t, s.text = some t → ¬ c!"###" <+: t) (h2 : ∀ b, s.block = some b → ¬ c!"```" <+: b.language) : SectionOk s := by
  unfold sectionOf at h
  cases ht : splitTitle p with
  | none => rw [ht] at h; cases h
  | some q =>
    obtain ⟨name, content⟩ := q
    rw [ht] at h
    obtain ⟨a, b, hab, ha, rfl, rfl⟩ := splitTitle_spec ht
    subst hab
    have hb := ((clean_lf hash_ne).1 hp).2
    simp only [Option.bind_eq_bind, Option.bind_some] at h
    cases hc : splitCodeBlock (trim b) with
    | none => rw [hc] at h; cases h
    | some q =>
      obtain ⟨text, block⟩ := q
      rw [hc] at h
      cases h
      have hbt : Clean '#' false (trim b) := clean_of_trim hb
      have htight : Tight (trim b) := tight_of_trim (trim_trim b)
      refine ⟨not_mem_trim ha, trim_trim a, ?_, ?_⟩
      · intro t ht
        simp only at ht
        subst ht
        have hsharp : ∀ x : Str, Clean '#' false x → ¬ c!"###" <+: x → Clean '#' true x := fun x hx hn => clean_true hx hn
        have h1' := h1 t rfl
        unfold splitCodeBlock at hc
        cases hf : findBol '`' true (trim b) with
        | none =>
          rw [hf] at hc
          simp only [Option.some.injEq, Prod.mk.injEq] at hc
          split at hc
          · cases hc.1
          · next hne =>
            have e : trim b = t := by simpa using hc.1
            rw [e] at hne hbt hf
            exact ⟨hne, by rw [← e]; exact trim_trim b, (clean_iff hash_ne).1 (hsharp t hbt h1'), (clean_iff tick_ne).1 hf⟩
        | some q =>
          obtain ⟨before, after⟩ := q
          rw [hf] at hc
          obtain ⟨e1, _, e3⟩ := findBol_some hf
          simp only at e1 e3 hc
          have htx : (if trim before = [] then none else some (trim before)) = some t := by
            revert hc
            cases findBol '`' true after with
            | none => intro hc; cases hc
            | some r =>
              simp only [Option.bind_eq_bind, Option.bind_some]
              cases splitOnceLF r.1 with
              | none => intro hc; cases hc
              | some r2 =>
                intro hc
                simp only [Option.bind_some, Option.pure_def, Option.some.injEq, Prod.mk.injEq] at hc
                exact hc.1
          split at htx
          · cases htx
          · next hne =>
            have e : trim before = t := by simpa using htx
            have hfirst : ∃ w, before = t ++ w := by
              obtain ⟨v, w, k1, k2, k3, k4⟩ := trim_split before
              cases v with
              | nil => exact ⟨w, by rw [← e]; simpa using k1⟩
              | cons c v =>
                exfalso
                have hw := k2 c (by simp)
                have := htight.1 c (by rw [e1, k1]; simp)
                rw [hw] at this; cases this
            obtain ⟨w, hw⟩ := hfirst
            refine ⟨by rw [← e]; exact hne, by rw [← e]; exact trim_trim before, (clean_iff hash_ne).1 (hsharp t ?_ h1'),
              (clean_iff tick_ne).1 ?_⟩
            · rw [e1, hw, List.append_assoc, List.append_assoc] at hbt
              exact clean_prefix hbt
            · rw [hw] at e3
              exact clean_prefix e3
      · intro blk hblk
        simp only at hblk
        subst hblk
        have h2' := h2 blk rfl
        unfold splitCodeBlock at hc
        cases hf : findBol '`' true (trim b) with
        | none => rw [hf] at hc; cases hc
        | some q =>
          obtain ⟨before, after⟩ := q
          rw [hf] at hc
          obtain ⟨e1, _, e3⟩ := findBol_some hf
          simp only at e1 e3 hc
          cases hg : findBol '`' true after with
          | none => rw [hg] at hc; cases hc
          | some r =>
            obtain ⟨inner, rest⟩ := r
            rw [hg] at hc
            obtain ⟨g1, _, g3⟩ := findBol_some hg
            simp only [Option.bind_eq_bind, Option.bind_some] at g1 g3 hc
            cases hs : splitOnceLF inner with
            | none => rw [hs] at hc; cases hc
            | some r2 =>
              obtain ⟨lang, contents⟩ := r2
              rw [hs] at hc
              obtain ⟨s1, s2⟩ := splitOnceLF_some hs
              simp only [Option.bind_some, Option.pure_def, Option.some.injEq, Prod.mk.injEq] at hc
              obtain ⟨_, hc⟩ := hc
              subst hc
              refine ⟨not_mem_trim s2, trim_trim lang, h2', ?_, ?_⟩
              · apply (clean_iff hash_ne).1
                rw [e1, g1, s1] at hbt
                have := clean_suffix (x := before ++ ['`', '`', '`']) (y := lang ++ '\n' :: contents ++ ['`', '`', '`'] ++ rest)
                  (by simpa using hbt)
                have := clean_prefix (x := lang ++ '\n' :: contents) (y := ['`', '`', '`'] ++ rest) (by simpa using this)
                rw [clean_lf hash_ne] at this
                exact this.2
              · apply (clean_iff tick_ne).1
                rw [s1, clean_lf tick_ne] at g3
                exact g3.2

theorem mapM_mem {α β : Type} {f : α → Option β} {l : List α} {r : List β} (h : l.mapM f = some r) {b : β} (hb : b ∈ r) :
    ∃ a ∈ l, f a = some b := by
  induction l generalizing r with
  | nil => cases h; cases hb
  | cons a l ih =>
    rw [List.mapM_cons] at h
    cases h1 : f a with
    | none => rw [h1] at h; cases h
    | some x =>
      cases h2 : l.mapM f with
      | none => rw [h1, h2] at h; cases h
      | some y =>
        rw [h1, h2] at h
        cases h
        rcases List.mem_cons.1 hb with rfl | hb
        · exact ⟨a, by simp, h1⟩
        · obtain ⟨a', h3, h4⟩ := ih h2 hb
          exact ⟨a', by simp [h3], h4⟩

theorem fromString_ok {d : Str} {m : List Section} (h : fromString d = some m) {s : Section} (hs : s ∈ m)
    (h1 : ∀ t, s.text = some t → ¬ c!"###" <+: t) (h2 : ∀ b, s.block = some b → ¬ c!"```" <+: b.language) : SectionOk s := by
  unfold fromString at h
  obtain ⟨p, hp, hps⟩ := mapM_mem h hs
  have hp := (List.mem_filter.1 hp).1
  obtain ⟨x, t, e, _, h3, h4⟩ := splitBol_pieces (k := '#') (n := 0) (b := true) (s := d)
  rw [e] at hp
  have hc : Clean '#' false p := by
    rcases List.mem_cons.1 hp with rfl | hp
    · exact h3
    · exact h4 p hp
  exact sectionOf_ok hc hps h1 h2

end Fajt.Markdown
