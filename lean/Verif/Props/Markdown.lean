import Verif.Proofs.Markdown
import Verif.Props.Emitter
import Verif.Props.Span
/-!
# C55, C56: snapshot files
-/
namespace Fajt.Props
open Fajt.Markdown Fajt.Spec.Markdown

/-- **C55** (written documents are read back). Every document of well-formed sections is read back from its text, followed by any white
space, with the same names, texts and blocks in the same order; a block whose contents do not end in a line feed gets one. -/
theorem C55_roundtrip (m : List Section) (hm : m ≠ []) (h : ∀ s ∈ m, SectionOk s) (ws : Str)
    (hw : ∀ c ∈ ws, isWhitespace c = true) : fromString (docStr m ++ ws) = some (m.map closeSection) := by
  cases m with
  | nil => exact absurd rfl hm
  | cons s m => exact split_written s m h hw

theorem closeSection_toStr (s : Section) : (closeSection s).toStr = s.toStr := by
  obtain ⟨n, t, b⟩ := s
  cases b with
  | none => rfl
  | some b =>
    have : endLine (endLine b.contents) = endLine b.contents := by
      obtain ⟨u, h, _⟩ := endLine_eq b.contents
      rw [h]; simp [endLine]
    simp [Section.toStr, closeSection, blockStr_eq, this]

/-- The two kinds of sections that cannot be written back: the text starts with `###`, or the language starts with a fence (both come from
lines that are indented in the file). -/
def Indented (s : Section) : Prop :=
  (∃ t, s.text = some t ∧ c!"###" <+: t) ∨ (∃ b, s.block = some b ∧ c!"```" <+: b.language)

theorem read_ok {file : Str} {m : List Section} (h : fromString file = some m) (hi : ∀ s ∈ m, ¬ Indented s) :
    ∀ s ∈ m, SectionOk s := by
  intro s hs
  refine fromString_ok h hs (fun t ht hp => hi s hs (.inl ⟨t, ht, hp⟩)) (fun b hb hp => hi s hs (.inr ⟨b, hb, hp⟩))

/-- **C55** (rewriting a file keeps its sections). A file that was read with at least one section, and none with an indented mark, is
written so that reading it again gives the same sections: the same names, texts, languages and contents (an empty block gets an
empty line). -/
theorem C55_reread (file : Str) (m : List Section) (h : fromString file = some m) (hm : m ≠ []) (hi : ∀ s ∈ m, ¬ Indented s) :
    fromString (fileOf (docStr m)) = some (m.map closeSection) :=
  C55_roundtrip m hm (read_ok h hi) c!"\n" (by decide)

/-- **C55** (contents that were read end a line). The block contents of a file that was read are empty or end in a line feed, so that
rewriting adds nothing to them unless they are empty. -/
theorem C55_contents_end (file : Str) (m : List Section) (h : fromString file = some m) (s : Section) (hs : s ∈ m) (b : CodeBlock)
    (hb : s.block = some b) : b.contents = [] ∨ b.contents.getLast? = some '\n' := by
  unfold fromString at h
  obtain ⟨p, _, hp⟩ := mapM_mem h hs
  unfold sectionOf at hp
  cases ht : splitTitle p with
  | none => rw [ht] at hp; cases hp
  | some q =>
    rw [ht] at hp
    simp only [Option.bind_eq_bind, Option.bind_some] at hp
    cases hc : splitCodeBlock q.2 with
    | none => rw [hc] at hp; cases hp
    | some r =>
      rw [hc] at hp
      cases hp
      simp only at hb
      unfold splitCodeBlock at hc
      cases hf : findBol '`' true q.2 with
      | none => rw [hf] at hc; cases hc; cases hb
      | some x =>
        rw [hf] at hc
        simp only at hc
        cases hg : findBol '`' true x.2 with
        | none => rw [hg] at hc; cases hc
        | some y =>
          rw [hg] at hc
          simp only [Option.bind_eq_bind, Option.bind_some] at hc
          cases hs2 : splitOnceLF y.1 with
          | none => rw [hs2] at hc; cases hc
          | some z =>
            obtain ⟨lang, contents⟩ := z
            rw [hs2] at hc
            cases hc
            cases hb
            obtain ⟨e1, _⟩ := splitOnceLF_some hs2
            obtain ⟨_, e2, _⟩ := findBol_some hg
            simp only
            rcases e2 with ⟨e2, _⟩ | ⟨u, e2⟩
            · rw [e2] at e1; simp at e1
            · rw [e2] at e1
              cases hl : contents.getLast? with
              | none => exact .inl (List.getLast?_eq_none_iff.1 hl)
              | some c =>
                right
                have := congrArg List.getLast? e1
                simp [List.getLast?_append, List.getLast?_cons, hl] at this
                rw [this]

/-- **C55** (the second rewriting is the identity). What is written for a file that was read is a fixed point: it is read, and writing it
again gives the same characters. -/
theorem C55_fixpoint (file : Str) (m : List Section) (h : fromString file = some m) (hm : m ≠ []) (hi : ∀ s ∈ m, ¬ Indented s) :
    ∃ m', fromString (fileOf (docStr m)) = some m' ∧ fileOf (docStr m') = fileOf (docStr m) := by
  refine ⟨_, C55_reread file m h hm hi, ?_⟩
  unfold fileOf docStr
  rw [List.map_map]
  congr 2
  exact List.map_congr_left fun s _ => closeSection_toStr s

/-! Non-vacuity and the cases outside the hypotheses. -/

example : fromString c!"### Source\nsome text\n```js parse:expr\n a\n```\ndropped\n### Output: ast\n"
    = some [⟨c!"Source", some c!"some text", some ⟨c!"js parse:expr", c!" a\n"⟩⟩, ⟨c!"Output: ast", none, none⟩] := by decide +kernel
example : docStr [⟨c!"Source", some c!"some text", some ⟨c!"js", c!"a"⟩⟩, ⟨c!"Output: ast", none, none⟩]
    = c!"### Source\nsome text\n\n```js\na\n```\n\n### Output: ast\n" := by decide +kernel

/-- **C55**, counterexample outside the hypotheses: an indented `###` at the start of the text of a section becomes a heading. -/
theorem C55_indented_heading_counterexample :
    fromString c!"### A\n  ### b\n" = some [⟨c!"A", some c!"### b", none⟩] ∧
    fromString (fileOf (docStr [⟨c!"A", some c!"### b", none⟩])) = some [⟨c!"A", none, none⟩, ⟨c!"b", none, none⟩] := by
  decide +kernel

/-- **C55**, counterexample outside the hypotheses: a language that starts with a fence makes the rewritten file unreadable (the reader
panics). -/
theorem C55_fenced_language_counterexample :
    fromString c!"### A\n``` ```js\na\n```\n" = some [⟨c!"A", none, some ⟨c!"```js", c!"a\n"⟩⟩] ∧
    fromString (fileOf (docStr [⟨c!"A", none, some ⟨c!"```js", c!"a\n"⟩⟩])) = none := by
  decide +kernel

/-- **C55**, counterexamples outside the hypotheses: an empty document gets a nameless section, and an empty block an empty line. -/
theorem C55_empty_counterexample :
    (fromString [] = some [] ∧ fromString (fileOf (docStr [])) = some [⟨[], none, none⟩]) ∧
    (fromString c!"### A\n```js\n```\n" = some [⟨c!"A", none, some ⟨c!"js", []⟩⟩] ∧
      fromString (fileOf (docStr [⟨c!"A", none, some ⟨c!"js", []⟩⟩])) = some [⟨c!"A", none, some ⟨c!"js", c!"\n"⟩⟩]) := by
  decide +kernel

/-- **C55**, the reader panics on a title without a line feed, on a block that is not closed and on one closed in its first line. -/
theorem C55_panic_witnesses :
    fromString c!"### A" = none ∧ fromString c!"### A\n```js\na\n" = none ∧ fromString c!"### A\n``````\n" = none := by
  decide +kernel

/-! ## C56 -/

/-- **C56** (setting a block). Only the first section of that name changes, only in its block; nothing changes without such a section. -/
theorem C56_set (m : List Section) (name language contents : Str) :
    (∀ pre s post, m = pre ++ s :: post → s.name = name → (∀ x ∈ pre, x.name ≠ name) →
      setBlockContent m name language contents = pre ++ { s with block := some ⟨language, contents⟩ } :: post) ∧
    ((∀ s ∈ m, s.name ≠ name) → setBlockContent m name language contents = m) := by
  constructor
  · rintro pre s post rfl hs hpre
    induction pre with
    | nil => rw [List.nil_append, setBlockContent, if_pos hs]; rfl
    | cons x pre ih =>
      rw [List.cons_append, setBlockContent, if_neg (hpre x (by simp)), ih fun y hy => hpre y (by simp [hy])]
      rfl
  · intro h
    induction m with
    | nil => rfl
    | cons s m ih => rw [setBlockContent, if_neg (h s (by simp)), ih fun x hx => h x (by simp [hx])]

theorem set_mem {m : List Section} {name language contents : Str} {s : Section} (h : s ∈ setBlockContent m name language contents) :
    s ∈ m ∨ ∃ s0 ∈ m, s = { s0 with block := some ⟨language, contents⟩ } := by
  induction m with
  | nil => cases h
  | cons x m ih =>
    rw [setBlockContent] at h
    split at h
    · rcases List.mem_cons.1 h with rfl | h
      · exact .inr ⟨x, by simp, rfl⟩
      · exact .inl (by simp [h])
    · rcases List.mem_cons.1 h with rfl | h
      · exact .inl (by simp)
      · rcases ih h with h | ⟨s0, h1, h2⟩
        · exact .inl (by simp [h])
        · exact .inr ⟨s0, by simp [h1], h2⟩

theorem get_set_same {m : List Section} {name language contents : Str} {s : Section} (h : getSection m name = some s) :
    getSection (setBlockContent m name language contents) name = some { s with block := some ⟨language, contents⟩ } := by
  unfold getSection at h ⊢
  induction m with
  | nil => cases h
  | cons x m ih =>
    rw [setBlockContent]
    split
    · next hx => rw [List.find?_cons, show decide (x.name = name) = true by simp [hx]] at h; cases h; simp [hx]
    · next hx =>
      rw [List.find?_cons, show decide (x.name = name) = false by simp [hx]] at h ⊢
      exact ih h

theorem get_set_other {m : List Section} {name name' language contents : Str} (hn : name' ≠ name) :
    getSection (setBlockContent m name language contents) name' = getSection m name' := by
  unfold getSection
  induction m with
  | nil => rfl
  | cons x m ih =>
    rw [setBlockContent]
    split
    · next hx =>
      have : ¬ x.name = name' := fun h' => hn (h'.symm.trans hx)
      rw [List.find?_cons, List.find?_cons]
      simp [this]
    · rw [List.find?_cons, List.find?_cons, ih]

theorem get_close (m : List Section) (name : Str) : getSection (m.map closeSection) name = (getSection m name).map closeSection := by
  unfold getSection
  rw [List.find?_map]
  rfl

/-- **C56** (regenerating an output). When a file that was read has a section of the given name, setting the block of that section and
writing the file gives a file in which that section has exactly these contents, and every other section is as before (an empty
block gets an empty line). -/
theorem C56_regenerate (file : Str) (m : List Section) (h : fromString file = some m) (hi : ∀ s ∈ m, ¬ Indented s)
    (name language contents : Str) (hn : (getSection m name).isSome) (hb : BlockOk ⟨language, contents⟩)
    (hc : contents.getLast? = some '\n') :
    ∃ m', fromString (fileOf (docStr (setBlockContent m name language contents))) = some m' ∧
      getBlock m' name = some ⟨language, contents⟩ ∧
      (∀ other, other ≠ name → getSection m' other = (getSection m other).map closeSection) ∧
      m'.map (·.name) = m.map (·.name) ∧ m'.map (·.text) = m.map (·.text) := by
  obtain ⟨s, hs⟩ := Option.isSome_iff_exists.1 hn
  have hok := read_ok h hi
  refine ⟨(setBlockContent m name language contents).map closeSection, ?_, ?_, ?_, ?_, ?_⟩
  · apply C55_roundtrip _ _ _ c!"\n" (by decide)
    · cases m with
      | nil => cases hs
      | cons x m => rw [setBlockContent]; split <;> simp
    · intro x hx
      rcases set_mem hx with hx | ⟨s0, h1, rfl⟩
      · exact hok x hx
      · have := hok s0 h1
        exact ⟨this.oneLine, this.trimmed, this.text, fun b hb' => by cases hb'; exact hb⟩
  · unfold getBlock
    rw [get_close, get_set_same hs]
    simp [closeSection, endLine, hc]
  · intro other ho
    rw [get_close, get_set_other ho]
  · rw [List.map_map]
    clear h hi hn hb hs hok
    induction m with
    | nil => rfl
    | cons x m ih => rw [setBlockContent]; split <;> simp_all [closeSection]
  · rw [List.map_map]
    clear h hi hn hb hs hok
    induction m with
    | nil => rfl
    | cons x m ih => rw [setBlockContent]; split <;> simp_all [closeSection]

theorem emit_ends {d : DebugFmt} {filename source msg : Str} {e : PErr} (h : Emitter.emit d filename source e = some msg) :
    msg.getLast? = some '\n' := by
  unfold Emitter.emit at h
  cases h1 : Emitter.lineBoundaries source e.span with
  | none => rw [h1] at h; cases h
  | some ls =>
    cases h2 : Emitter.lineNumber source e.span with
    | none => rw [h1, h2] at h; cases h
    | some n =>
      rw [h1, h2] at h
      simp only [Option.bind_eq_bind, Option.bind_some] at h
      have hd : ∀ (head : Str) (r : Option Str), ((Emitter.kindDescription source e).bind fun label =>
          (Emitter.diagnostic source e label n ls).bind fun diag => Option.some (head ++ diag)) = r → r = some msg →
          msg.getLast? = some '\n' := by
        intro head r h3 h4
        subst h3
        cases h5 : Emitter.kindDescription source e with
        | none => rw [h5] at h4; cases h4
        | some label =>
          rw [h5] at h4
          simp only [Option.bind_some] at h4
          cases h6 : Emitter.diagnostic source e label n ls with
          | none => rw [h6] at h4; cases h4
          | some diag =>
            rw [h6] at h4
            cases h4
            have : ∃ u, diag = u ++ c!"\n" := by
              unfold Emitter.diagnostic at h6
              simp only [Option.bind_eq_bind] at h6
              split at h6
              · cases h6
              · simp only [Option.pure_def] at h6
                cases h7 : Emitter.slice source ls.start ls.stop with
                | none => rw [h7] at h6; cases h6
                | some line =>
                  rw [h7] at h6
                  simp only [Option.bind_some] at h6
                  cases h8 : Emitter.splitAtByte (e.span.start - ls.start) line with
                  | none => rw [h8] at h6; cases h6
                  | some q => rw [h8] at h6; cases h6; exact ⟨_, rfl⟩
            obtain ⟨u, rfl⟩ := this
            simp [List.getLast?_append]
      have hhead : ∀ head : Str, (∃ u, head = u ++ c!"\n") → some head = some msg → msg.getLast? = some '\n' := by
        rintro head ⟨u, rfl⟩ h3
        cases h3
        simp [List.getLast?_append]
      split at h
      · refine hhead _ ?_ h
        split
        · exact ⟨_, by rw [← List.append_assoc]⟩
        · exact ⟨_, by rw [← List.append_assoc]⟩
      · exact hd _ _ rfl h

theorem txtOk : '\n' ∉ c!"txt" ∧ trim c!"txt" = c!"txt" ∧ ¬ c!"```" <+: c!"txt" := by decide

/-- **C56** (regenerating an expected error). The text that the error reporter writes can be stored as the expected error of a snapshot
and is read back exactly, so that the comparison with the same error succeeds, if no line of it starts with `###` or a fence. -/
theorem C56_error_snapshot (file : Str) (m : List Section) (h : fromString file = some m) (hi : ∀ s ∈ m, ¬ Indented s)
    (hn : (getSection m c!"Output: error").isSome) (d : DebugFmt) (source msg : Str) (e : PErr)
    (he : Emitter.emit d c!"test.js" source e = some msg) (hp : PlainLines msg) :
    ∃ m', fromString (fileOf (docStr (setBlockContent m c!"Output: error" c!"txt" msg))) = some m' ∧
      getBlockContent m' c!"Output: error" = some msg ∧
      getSection m' c!"Source" = (getSection m c!"Source").map closeSection := by
  obtain ⟨m', h1, h2, h3, _⟩ := C56_regenerate file m h hi c!"Output: error" c!"txt" msg hn
    ⟨txtOk.1, txtOk.2.1, txtOk.2.2, hp⟩ (emit_ends he)
  exact ⟨m', h1, by unfold getBlockContent; rw [h2]; rfl, h3 _ (by decide)⟩

theorem clean_first {k c : Char} {s : Str} (hk : k ≠ c) (h : '\n' ∉ c :: s) : Clean k true (c :: s) := by
  refine clean_true (clean_oneLine h) ?_
  rintro ⟨t, ht⟩
  simp at ht
  exact hk ht.1

/-- **C56** (errors within a line can be stored). The report of an error whose span lies within one line has no line that starts with
`###` or a fence, if the texts it quotes are one line each. -/
theorem C56_error_plain (d : DebugFmt) (filename pre mid post : Str) (e : PErr) (h1 : e.span.start = byteLen pre)
    (h2 : e.span.stop = byteLen (pre ++ mid)) (hmid : '\n' ∉ mid) (hf : '\n' ∉ filename) (hmsg : '\n' ∉ Emitter.errStr d e)
    (hlab : '\n' ∉ labelText mid e) :
    ∃ msg, Emitter.emit d filename (pre ++ mid ++ post) e = some msg ∧ PlainLines msg := by
  refine ⟨_, C38_output d filename pre mid post e h1 h2, ?_⟩
  have hk : ∀ k : Char, (k = '#' ∨ k = '`') → Clean k true (headerText d filename pre mid e ++
      (match e.kind with | .endOfStream => [] | _ => diagnosticText pre mid post (labelText mid e))) := by
    intro k hk
    have hkn : k ≠ '\n' := by rcases hk with rfl | rfl <;> decide
    have hks : k ≠ ' ' := by rcases hk with rfl | rfl <;> decide
    have hkS : k ≠ 'S' := by rcases hk with rfl | rfl <;> decide
    have hkL : k ≠ 'L' := by rcases hk with rfl | rfl <;> decide
    have hnum : ∀ n : Nat, '\n' ∉ natStr n := fun n hn => absurd (natStr_digits n _ hn) (by decide)
    have hmsg' : Clean k true (Emitter.errStr d e) := by
      have : ∃ c s, Emitter.errStr d e = c :: s ∧ (c = 'S' ∨ c = 'L') := by
        unfold Emitter.errStr
        cases e.kind with
        | expectedIdent v => simp only; cases h : Emitter.tokenStr v <;> exact ⟨'S', _, rfl, .inl rfl⟩
        | unexpectedToken v x => simp only; cases h : Emitter.tokenStr v <;> exact ⟨'S', _, rfl, .inl rfl⟩
        | lexer le => exact ⟨'L', _, rfl, .inr rfl⟩
        | _ => exact ⟨'S', _, rfl, .inl rfl⟩
      obtain ⟨c, s, e1, hc⟩ := this
      rw [e1] at hmsg ⊢
      exact clean_first (by rcases hc with rfl | rfl <;> assumption) hmsg
    have hhead : ∀ y, Clean k true y → Clean k true (headerText d filename pre mid e ++ y) := by
      intro y hy
      unfold headerText
      split
      · rw [show Emitter.errStr d e ++ c!"\n" ++ (c!" --> " ++ filename ++ c!"\n") ++ y
          = Emitter.errStr d e ++ '\n' :: ((' ' :: (c!"--> " ++ filename)) ++ '\n' :: y) by simp, clean_lf hkn, clean_lf hkn]
        exact ⟨hmsg', clean_first hks (by simp [hf]), hy⟩
      · rw [show Emitter.errStr d e ++ c!"\n" ++ (c!" --> " ++ filename ++ c!":" ++ natStr ((pre ++ mid).count '\n' + 1) ++ c!":"
            ++ natStr (byteLen (lastLine pre) + 1) ++ c!"\n") ++ y
          = Emitter.errStr d e ++ '\n' :: ((' ' :: (c!"--> " ++ filename ++ c!":" ++ natStr ((pre ++ mid).count '\n' + 1) ++ c!":"
            ++ natStr (byteLen (lastLine pre) + 1))) ++ '\n' :: y) by simp, clean_lf hkn, clean_lf hkn]
        exact ⟨hmsg', clean_first hks (by simp [hf, hnum]), hy⟩
    apply hhead
    have hdiag : Clean k true (diagnosticText pre mid post (labelText mid e)) := by
      have hexp : ∀ w : Str, '\n' ∉ w → '\n' ∉ Emitter.expandTabs w := by
        intro w hw hx
        unfold Emitter.expandTabs at hx
        rw [List.mem_flatMap] at hx
        obtain ⟨c, hc, hx⟩ := hx
        split at hx
        · revert hx; decide
        · simp at hx; exact hw (hx ▸ hc)
      have hline : '\n' ∉ lastLine pre ++ mid ++ lineRest post := by
        simp only [List.mem_append, not_or]
        refine ⟨⟨lastLine_no_lf pre, hmid⟩, ?_⟩
        intro h
        have := List.all_takeWhile (l := post) (p := (· ≠ '\n'))
        rw [List.all_eq_true] at this
        have := this _ h
        simp at this
      unfold diagnosticText
      simp only
      obtain ⟨c, num, hn⟩ : ∃ c num, natStr ((pre ++ mid).count '\n' + 1) = c :: num := by
        cases hn : natStr ((pre ++ mid).count '\n' + 1) with
        | nil => exact absurd hn Nat.toDigits_ne_nil
        | cons c num => exact ⟨c, num, rfl⟩
      have hdig := natStr_digits ((pre ++ mid).count '\n' + 1)
      have hno := hnum ((pre ++ mid).count '\n' + 1)
      rw [hn] at hdig hno ⊢
      have hkc : k ≠ c := by
        rintro rfl
        have := hdig k (by simp)
        rcases hk with rfl | rfl <;> exact absurd this (by decide)
      have hpadn : '\n' ∉ Emitter.padRight (c :: num) ((c :: num).length + 1) := by
        unfold Emitter.padRight
        rw [List.mem_append, not_or]
        refine ⟨hno, fun h => ?_⟩
        have := List.eq_of_mem_replicate h
        revert this; decide
      have hpadc : ∃ r, Emitter.padRight (c :: num) ((c :: num).length + 1) = c :: r := ⟨_, rfl⟩
      obtain ⟨r, hr⟩ := hpadc
      rw [hr] at hpadn ⊢
      have hp1 : ∃ r1, Emitter.padRight c!" " ((c :: num).length + 1) = ' ' :: r1 ∧ '\n' ∉ r1 := by
        refine ⟨_, rfl, fun h => ?_⟩
        have := List.eq_of_mem_replicate h
        revert this; decide
      obtain ⟨r1, hr1, hr1'⟩ := hp1
      have hp2 : ∃ r2, Emitter.padRight [] ((c :: num).length + 1) = ' ' :: r2 ∧ '\n' ∉ r2 := by
        refine ⟨List.replicate (c :: num).length ' ', ?_, fun h => ?_⟩
        · unfold Emitter.padRight; rw [← List.replicate_succ]; rfl
        · have := List.eq_of_mem_replicate h
          revert this; decide
      obtain ⟨r2, hr2, hr2'⟩ := hp2
      have hp3 : ∀ n, '\n' ∉ Emitter.padRight [] n := by
        intro n h
        unfold Emitter.padRight at h
        rw [List.nil_append] at h
        have := List.eq_of_mem_replicate h
        revert this; decide
      have hcar : ∀ n, '\n' ∉ List.replicate n '^' := by
        intro n h
        have := List.eq_of_mem_replicate h
        revert this; decide
      rw [hr1, hr2]
      obtain ⟨L, hL⟩ : ∃ L, L = Emitter.expandTabs (lastLine pre ++ mid ++ lineRest post) := ⟨_, rfl⟩
      have hLn : '\n' ∉ L := by rw [hL]; exact hexp _ hline
      rw [← hL]
      obtain ⟨P, hP⟩ : ∃ P, P = Emitter.padRight [] (byteLen (lastLine pre) + (lastLine pre).count '\t' * 3)
        ++ List.replicate (max 1 (byteLen mid)) '^' := ⟨_, rfl⟩
      have hPn : '\n' ∉ P := by rw [hP, List.mem_append, not_or]; exact ⟨hp3 _, hcar _⟩
      have key : Clean k true ((' ' :: (r1 ++ c!"|")) ++ '\n' :: ((c :: (r ++ c!"| " ++ L)) ++ '\n' ::
          ((' ' :: (r2 ++ c!"| " ++ P ++ c!" " ++ labelText mid e)) ++ '\n' :: []))) := by
        rw [clean_lf hkn, clean_lf hkn, clean_lf hkn]
        refine ⟨clean_first hks (by simp [hr1']), clean_first hkc ?_, clean_first hks (by simp [hr2', hPn, hlab]), clean_nil _ _⟩
        simp only [List.mem_cons, not_or] at hpadn
        simp [hpadn, hLn]
      rw [hP] at key
      simpa using key
    cases hkd : e.kind <;> first | exact clean_nil _ _ | exact hdiag
  exact ⟨(clean_iff hash_ne).1 (hk '#' (.inl rfl)), (clean_iff tick_ne).1 (hk '`' (.inr rfl))⟩

/-! Non-vacuity. -/

example : fromString (fileOf (docStr (setBlockContent
      [⟨c!"Source", none, some ⟨c!"js", c!"a\n\tb+c"⟩⟩, ⟨c!"Output: error", none, none⟩] c!"Output: error" c!"txt"
      c!"Syntax error: bad\n --> f.js:2:3\n  |\n2 |     b+c\n  |      ^ \n")))
    = some [⟨c!"Source", none, some ⟨c!"js", c!"a\n\tb+c\n"⟩⟩, ⟨c!"Output: error", none, some ⟨c!"txt",
      c!"Syntax error: bad\n --> f.js:2:3\n  |\n2 |     b+c\n  |      ^ \n"⟩⟩] := by decide +kernel
example : '\n' ∉ labelText c!"+" ⟨.syn c!"bad", ⟨4, 5⟩⟩ ∧ '\n' ∉ Emitter.errStr noDebug ⟨.syn c!"bad", ⟨4, 5⟩⟩ := by decide

/-- **C56**, counterexample outside the hypotheses: the report of an error over several lines quotes them as they are, and a quoted line that
starts with a fence cuts the stored report short. -/
theorem C56_multiline_counterexample :
    ∃ msg, Emitter.emit noDebug c!"test.js" c!"'a\\\n```'x" ⟨.syn c!"bad", ⟨0, 8⟩⟩ = some msg ∧
      ¬ PlainLines msg ∧
      fromString (fileOf (docStr (setBlockContent [⟨c!"Output: error", none, none⟩] c!"Output: error" c!"txt" msg)))
        = some [⟨c!"Output: error", none, some ⟨c!"txt", c!"Syntax error: bad\n --> test.js:2:1\n  |\n2 | 'a\\\n"⟩⟩] := by
  refine ⟨c!"Syntax error: bad\n --> test.js:2:1\n  |\n2 | 'a\\\n```'x\n  | ^^^^^^^^ \n", by decide +kernel, ?_, by decide +kernel⟩
  intro h
  exact h.2 ⟨c!"Syntax error: bad\n --> test.js:2:1\n  |\n2 | 'a\\\n", c!"'x\n  | ^^^^^^^^ \n", by decide +kernel,
    .inr ⟨c!"Syntax error: bad\n --> test.js:2:1\n  |\n2 | 'a\\", by decide +kernel⟩⟩

end Fajt.Props
