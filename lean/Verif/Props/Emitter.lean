import Verif.Model.Emitter
import Verif.Proofs.LexLogic
/-!
# C38: error reporting never panics and locates the error
-/
namespace Fajt.Props
open Emitter

/-- A span that cuts the source into three pieces: both ends are character boundaries inside the source, in order. -/
def Cuts (source : Str) (sp : Span) : Prop :=
  ∃ pre mid post, source = pre ++ mid ++ post ∧ sp.start = byteLen pre ∧ sp.stop = byteLen (pre ++ mid)

theorem splitAtByte_append (p q : Str) : splitAtByte (byteLen p) (p ++ q) = some (p, q) := by
  induction p with
  | nil => rw [byteLen_nil, List.nil_append]; cases q <;> simp [splitAtByte]
  | cons c p ih =>
    have hc := utf8Size_pos c
    obtain ⟨n, hn⟩ : ∃ n, byteLen (c :: p) = n + 1 := ⟨c.utf8Size - 1 + byteLen p, by rw [byteLen_cons]; omega⟩
    rw [hn, List.cons_append]
    unfold splitAtByte
    rw [byteLen_cons] at hn
    rw [if_pos (by omega), show n + 1 - c.utf8Size = byteLen p by omega, ih]
    rfl

theorem splitAtByte_some {n : Nat} {s a b : Str} (h : splitAtByte n s = some (a, b)) : s = a ++ b ∧ byteLen a = n := by
  induction s generalizing n a b with
  | nil =>
    cases n with
    | zero => simp [splitAtByte] at h; obtain ⟨rfl, rfl⟩ := h; exact ⟨rfl, rfl⟩
    | succ n => simp [splitAtByte] at h
  | cons c s ih =>
    cases n with
    | zero => simp [splitAtByte] at h; obtain ⟨rfl, rfl⟩ := h; exact ⟨rfl, rfl⟩
    | succ n =>
      unfold splitAtByte at h
      split at h
      · next hc =>
        rw [Option.map_eq_some_iff] at h
        obtain ⟨⟨a', b'⟩, h1, h2⟩ := h
        cases h2
        obtain ⟨rfl, h4⟩ := ih h1
        exact ⟨rfl, by rw [byteLen_cons]; simp only at h4 ⊢; omega⟩
      · cases h

theorem slice_eq (p m q : Str) : Emitter.slice (p ++ m ++ q) (byteLen p) (byteLen (p ++ m)) = some m := by
  unfold Emitter.slice
  rw [splitAtByte_append]
  show (splitAtByte (byteLen p) (p ++ m)).bind _ = _
  rw [splitAtByte_append]
  rfl

/-- The part of a text before its last line. -/
def linesBefore (w : Str) : Str := (w.reverse.dropWhile (· ≠ '\n')).reverse

/-- The last line of a text (up to its end). -/
def lastLine (w : Str) : Str := (w.reverse.takeWhile (· ≠ '\n')).reverse

/-- The rest of the current line. -/
def lineRest (w : Str) : Str := w.takeWhile (· ≠ '\n')

theorem lines_split (w : Str) : w = linesBefore w ++ lastLine w := by
  unfold linesBefore lastLine
  rw [← List.reverse_append, List.takeWhile_append_dropWhile, List.reverse_reverse]

theorem lastLine_no_lf (w : Str) : '\n' ∉ lastLine w := by
  intro h
  have := List.all_takeWhile (l := w.reverse) (p := (· ≠ '\n'))
  rw [List.all_eq_true] at this
  have := this _ (List.mem_reverse.1 h)
  simp at this

theorem afterLastLF_eq (w : Str) : afterLastLF w = byteLen (linesBefore w) := by
  unfold afterLastLF
  have : byteLen w = byteLen (linesBefore w) + byteLen (lastLine w) := by rw [← byteLen_append, ← lines_split]
  have h2 : byteLen ((w.reverse.takeWhile (· ≠ '\n')).reverse) = byteLen (lastLine w) := rfl
  omega

theorem lineRest_split (w : Str) : w = lineRest w ++ w.dropWhile (· ≠ '\n') := by
  unfold lineRest; rw [List.takeWhile_append_dropWhile]

/-- What the emitter writes below the header, for a span cutting the source into `pre`, `mid`, `post`. -/
def diagnosticText (pre mid post label : Str) : Str :=
  let num := natStr ((pre ++ mid).count '\n' + 1)
  let pad := num.length + 1
  padRight c!" " pad ++ c!"|\n"
    ++ padRight num pad ++ c!"| " ++ expandTabs (lastLine pre ++ mid ++ lineRest post) ++ c!"\n"
    ++ padRight [] pad ++ c!"| " ++ padRight [] (byteLen (lastLine pre) + (lastLine pre).count '\t' * 3)
    ++ List.replicate (max 1 (byteLen mid)) '^' ++ c!" " ++ label ++ c!"\n"

/-- The header the emitter writes. -/
def headerText (d : DebugFmt) (filename pre mid : Str) (e : PErr) : Str :=
  errStr d e ++ c!"\n" ++
    (if e.span.start = 0 ∧ e.span.stop = 0 then c!" --> " ++ filename ++ c!"\n"
     else c!" --> " ++ filename ++ c!":" ++ natStr ((pre ++ mid).count '\n' + 1) ++ c!":"
      ++ natStr (byteLen (lastLine pre) + 1) ++ c!"\n")

theorem lineBoundaries_eq {pre mid post : Str} {sp : Span} (h1 : sp.start = byteLen pre) (h2 : sp.stop = byteLen (pre ++ mid)) :
    lineBoundaries (pre ++ mid ++ post) sp =
      some ⟨byteLen (linesBefore pre), byteLen (lineRest post) + byteLen (pre ++ mid)⟩ := by
  unfold lineBoundaries
  rw [h1, h2, List.append_assoc, splitAtByte_append, ← List.append_assoc]
  show (splitAtByte _ _).bind _ = _
  rw [splitAtByte_append, ← afterLastLF_eq]
  rfl

theorem diagnostic_eq {pre mid post : Str} {e : PErr} (h1 : e.span.start = byteLen pre)
    (h2 : e.span.stop = byteLen (pre ++ mid)) (label : Str) :
    diagnostic (pre ++ mid ++ post) e label ((pre ++ mid).count '\n' + 1)
      ⟨byteLen (linesBefore pre), byteLen (lineRest post) + byteLen (pre ++ mid)⟩
      = some (diagnosticText pre mid post label) := by
  have hp : byteLen pre = byteLen (linesBefore pre) + byteLen (lastLine pre) := by rw [← byteLen_append, ← lines_split]
  have hle : ¬ e.span.stop < e.span.start := by rw [h1, h2, byteLen_append]; omega
  have hs : Emitter.slice (pre ++ mid ++ post) (byteLen (linesBefore pre)) (byteLen (lineRest post) + byteLen (pre ++ mid))
      = some (lastLine pre ++ mid ++ lineRest post) := by
    have := slice_eq (linesBefore pre) (lastLine pre ++ mid ++ lineRest post) (post.dropWhile (· ≠ '\n'))
    have e1 : linesBefore pre ++ (lastLine pre ++ mid ++ lineRest post) = pre ++ mid ++ lineRest post := by
      rw [← List.append_assoc, ← List.append_assoc, ← lines_split]
    rw [e1] at this
    rw [show pre ++ mid ++ lineRest post ++ post.dropWhile (· ≠ '\n') = pre ++ mid ++ post by
      rw [List.append_assoc, ← lineRest_split]] at this
    rw [← this]
    congr 1
    simp only [byteLen_append]; omega
  have hb : e.span.start - byteLen (linesBefore pre) = byteLen (lastLine pre) := by omega
  have hm : e.span.stop - e.span.start = byteLen mid := by rw [h1, h2, byteLen_append]; omega
  unfold diagnostic
  simp only [if_neg hle, hs, hb, hm]
  show (Option.bind (splitAtByte _ _) _) = _
  rw [show lastLine pre ++ mid ++ lineRest post = lastLine pre ++ (mid ++ lineRest post) by simp, splitAtByte_append]
  show some _ = _
  simp [diagnosticText]

/-- What the emitter writes next to the carets, for an error on the text `mid`. -/
def labelText (mid : Str) (e : PErr) : Str :=
  match e.kind with
  | .forbiddenIdent name => c!"`" ++ name ++ c!"` is not allowed as an identifier in this context"
  | .unexpectedToken _ none => c!"Unexpected token"
  | .unexpectedToken _ (some (.keyword k)) => c!"Unexpected token, found `" ++ mid ++ c!"`, expected `" ++ k.asStr ++ c!"`"
  | .unexpectedToken _ (some (.punct p)) => c!"Unexpected token, found `" ++ mid ++ c!"`, expected `" ++ p.asStr ++ c!"`"
  | .unexpectedToken _ (some (.ident s)) => c!"Unexpected token, found `" ++ mid ++ c!"`, expected `" ++ s ++ c!"`"
  | .unexpectedToken _ (some (.lit _)) => c!"Unexpected token, found `" ++ mid ++ c!"`, expected `literal`"
  | .unexpectedToken _ (some _) => c!"Unexpected token, found `" ++ mid ++ c!"`, expected ``"
  | .expectedIdent (.keyword k) => c!"Unexpected token, found `" ++ k.asStr ++ c!"`, expected identifier"
  | .expectedIdent (.punct p) => c!"Unexpected token, found `" ++ p.asStr ++ c!"`, expected identifier"
  | .expectedIdent (.ident s) => c!"Unexpected token, found `" ++ s ++ c!"`, expected identifier"
  | .expectedIdent (.lit _) => c!"Unexpected token, found `literal`, expected identifier"
  | .expectedIdent _ => c!"Unexpected token, found ``, expected identifier"
  | _ => []

theorem kindDescription_eq {pre mid post : Str} {e : PErr} (h1 : e.span.start = byteLen pre)
    (h2 : e.span.stop = byteLen (pre ++ mid)) : kindDescription (pre ++ mid ++ post) e = some (labelText mid e) := by
  unfold kindDescription labelText
  rw [h1, h2, slice_eq]
  cases e.kind with
  | unexpectedToken v ex =>
    cases ex with
    | none => rfl
    | some v => cases v <;> simp [tokenStr]
  | expectedIdent v => cases v <;> simp [tokenStr]
  | _ => rfl

theorem kindDescription_some {source : Str} {e : PErr} (h : Cuts source e.span) : ∃ label, kindDescription source e = some label := by
  obtain ⟨pre, mid, post, rfl, h1, h2⟩ := h
  unfold kindDescription
  split
  · exact ⟨_, rfl⟩
  · exact ⟨_, rfl⟩
  · rw [h1, h2, slice_eq]; exact ⟨_, rfl⟩
  · exact ⟨_, rfl⟩
  · exact ⟨_, rfl⟩

theorem lineNumber_eq {pre mid post : Str} {sp : Span} (h2 : sp.stop = byteLen (pre ++ mid)) :
    lineNumber (pre ++ mid ++ post) sp = some ((pre ++ mid).count '\n' + 1) := by
  unfold lineNumber
  rw [h2, splitAtByte_append]
  rfl

/-- **C38** (exact output). For an error whose span cuts the source, the emitter returns the header and, unless the error
is the end of the stream, the diagnostic for the line of the error, labelled with what was found and expected. -/
theorem C38_output (d : DebugFmt) (filename pre mid post : Str) (e : PErr) (h1 : e.span.start = byteLen pre)
    (h2 : e.span.stop = byteLen (pre ++ mid)) :
    emit d filename (pre ++ mid ++ post) e = some (headerText d filename pre mid e ++
      (match e.kind with | .endOfStream => [] | _ => diagnosticText pre mid post (labelText mid e))) := by
  have hl := kindDescription_eq (post := post) h1 h2
  have hc : e.span.start - byteLen (linesBefore pre) + 1 = byteLen (lastLine pre) + 1 := by
    have hp : byteLen pre = byteLen (linesBefore pre) + byteLen (lastLine pre) := by rw [← byteLen_append, ← lines_split]
    omega
  unfold emit
  rw [lineBoundaries_eq h1 h2, lineNumber_eq h2]
  simp only [Option.bind_eq_bind, Option.bind_some, hc, hl, diagnostic_eq h1 h2]
  cases e.kind <;> simp [headerText, Span.isEmpty]

/-- **C38** (no panic). The emitter returns a text for every error whose span cuts the source; and only then, unless the
error is the end of the stream. -/
theorem C38_no_panic_iff (d : DebugFmt) (filename source : Str) (e : PErr) (hk : e.kind ≠ .endOfStream) :
    (∃ text, emit d filename source e = some text) ↔ Cuts source e.span := by
  constructor
  · rintro ⟨text, h⟩
    unfold emit at h
    cases hb : lineBoundaries source e.span with
    | none => rw [hb] at h; cases h
    | some ls =>
      unfold lineBoundaries at hb
      cases h1 : splitAtByte e.span.start source with
      | none => rw [h1] at hb; cases hb
      | some p1 =>
        cases h2 : splitAtByte e.span.stop source with
        | none => rw [h1, h2] at hb; cases hb
        | some p2 =>
          obtain ⟨a, b⟩ := p1
          obtain ⟨a', b'⟩ := p2
          obtain ⟨e1, l1⟩ := splitAtByte_some h1
          obtain ⟨e2, l2⟩ := splitAtByte_some h2
          have hle : e.span.start ≤ e.span.stop := by
            rcases Nat.lt_or_ge e.span.stop e.span.start with hlt | hge
            · exfalso
              rw [hb] at *
              unfold lineBoundaries at h
              rw [h1, h2] at h
              unfold lineNumber at h
              rw [h2] at h
              simp only [Option.bind_eq_bind, Option.bind_some] at h
              have hd : ∀ l n ls, diagnostic source e l n ls = none := by
                intro l n ls
                unfold diagnostic
                simp only [if_pos hlt]
                rfl
              simp only [hd] at h
              cases hkd : e.kind <;> simp_all
            · exact hge
          have hpre : ∃ mid, a' = a ++ mid := by
            have : a ++ b = a' ++ b' := e1.symm.trans e2
            rcases List.append_eq_append_iff.1 this with ⟨m, hm, -⟩ | ⟨m, hm, -⟩
            · exact ⟨m, hm⟩
            · have : byteLen m = 0 := by
                have := congrArg byteLen hm
                rw [byteLen_append] at this
                omega
              cases m with
              | nil => exact ⟨[], by simpa using hm.symm⟩
              | cons c m => rw [byteLen_cons] at this; have := utf8Size_pos c; omega
          obtain ⟨mid, rfl⟩ := hpre
          exact ⟨a, mid, b', e2, l1.symm, l2.symm⟩
  · rintro ⟨pre, mid, post, rfl, h1, h2⟩
    exact ⟨_, C38_output d filename pre mid post e h1 h2⟩

theorem expandTabs_append (a b : Str) : expandTabs (a ++ b) = expandTabs a ++ expandTabs b := by
  unfold expandTabs; exact List.flatMap_append ..

theorem expandTabs_length {w : Str} (h : Ascii w) : (expandTabs w).length = byteLen w + w.count '\t' * 3 := by
  induction w with
  | nil => rfl
  | cons c w ih =>
    have hw : Ascii w := fun x hx => h x (List.mem_cons_of_mem _ hx)
    have hc := h c (List.mem_cons_self ..)
    have h1 : expandTabs (c :: w) = (if c = '\t' then c!"    " else [c]) ++ expandTabs w := rfl
    have h8 : c.utf8Size = 1 := by
      have := byteLen_ascii (w := [c]) (fun x hx => by simp at hx; rw [hx]; exact hc)
      simpa using this
    rw [h1, List.length_append, ih hw, byteLen_cons, List.count_cons, h8]
    by_cases ht : c = '\t'
    · subst ht; simp; omega
    · simp [ht]; omega

/-- **C38** (location). When the span lies within one line and the text of that line before it is ASCII, the reported line is
one plus the number of line feeds before the span, the reported column one plus the number of characters before it on its
line, and the row of carets starts in the column in which the marked text is displayed (tabs displayed as four spaces),
with one caret per byte of the marked text (at least one). -/
theorem C38_location (d : DebugFmt) (filename pre mid post : Str) (e : PErr) (h1 : e.span.start = byteLen pre)
    (h2 : e.span.stop = byteLen (pre ++ mid)) (hk : e.kind ≠ .endOfStream) (h0 : ¬ (e.span.start = 0 ∧ e.span.stop = 0))
    (hline : '\n' ∉ mid) (hascii : Ascii (lastLine pre)) :
    ∃ gutter gutter' code,
      emit d filename (pre ++ mid ++ post) e = some (errStr d e ++ c!"\n --> " ++ filename ++ c!":"
        ++ natStr (1 + pre.count '\n') ++ c!":" ++ natStr (1 + (lastLine pre).length) ++ c!"\n"
        ++ gutter' ++ c!"|\n"
        ++ (gutter ++ expandTabs (lastLine pre)) ++ expandTabs mid ++ code ++ c!"\n"
        ++ (gutter' ++ c!"| " ++ List.replicate (expandTabs (lastLine pre)).length ' ')
        ++ List.replicate (max 1 (byteLen mid)) '^' ++ c!" " ++ labelText mid e ++ c!"\n")
      ∧ gutter = padRight (natStr (1 + pre.count '\n')) gutter'.length ++ c!"| "
      ∧ (gutter ++ expandTabs (lastLine pre)).length
          = (gutter' ++ c!"| " ++ List.replicate (expandTabs (lastLine pre)).length ' ').length := by
  have h := C38_output d filename pre mid post e h1 h2
  have hcount : (pre ++ mid).count '\n' + 1 = 1 + pre.count '\n' := by
    rw [List.count_append, List.count_eq_zero.2 hline]; omega
  have hlen : (expandTabs (lastLine pre)).length = byteLen (lastLine pre) + (lastLine pre).count '\t' * 3 :=
    expandTabs_length hascii
  obtain ⟨n, hn⟩ : ∃ n, n = natStr (1 + pre.count '\n') := ⟨_, rfl⟩
  have pad0 : ∀ k, padRight [] k = List.replicate k ' ' := fun k => by simp [padRight]
  have pad1 : padRight c!" " (n.length + 1) = List.replicate (n.length + 1) ' ' := by
    simp [padRight, ← List.replicate_succ]
  refine ⟨padRight n (n.length + 1) ++ c!"| ", List.replicate (n.length + 1) ' ', expandTabs (lineRest post), ?_, ?_, ?_⟩
  · refine h.trans (congrArg some ?_)
    have hk' : ∀ x : Str, (match e.kind with | .endOfStream => [] | _ => x) = x := by
      intro x; cases hk' : e.kind <;> first | rfl | exact absurd hk' hk
    refine (congrArg _ (hk' _)).trans ?_
    unfold headerText diagnosticText
    rw [if_neg h0]
    simp only [hcount, pad0, expandTabs_append, hlen, byteLen_ascii hascii, ← hn, pad1]
    rw [Nat.add_comm (lastLine pre).length 1]
    simp only [List.append_assoc, List.cons_append, List.nil_append]
  · rw [List.length_replicate, ← hn]
  · simp [padRight]; omega

/-! Non-vacuity, and the cases outside the hypotheses. -/

/-- The debug format used in the examples. -/
def noDebug : DebugFmt := ⟨fun _ => [], fun _ => []⟩

example : Cuts c!"a\n\tb+c" ⟨4, 5⟩ := ⟨c!"a\n\tb", c!"+", c!"c", rfl, by decide, by decide⟩
example : emit noDebug c!"f.js" c!"a\n\tb+c" ⟨.syn c!"bad", ⟨4, 5⟩⟩
    = some c!"Syntax error: bad\n --> f.js:2:3\n  |\n2 |     b+c\n  |      ^ \n" := by decide +kernel

/-- **C38**, counterexample outside the hypotheses: for a span over two lines the reported line is that of its end, although
the reported column is that of its start. -/
theorem C38_multiline_counterexample : emit noDebug c!"f" c!"ab\ncd" ⟨.syn c!"x", ⟨1, 4⟩⟩
    = some c!"Syntax error: x\n --> f:2:2\n  |\n2 | ab\ncd\n  |  ^^^ \n" := by decide +kernel

/-- **C38**, counterexample outside the hypotheses: a non-ASCII character before the span shifts the carets. -/
theorem C38_nonascii_counterexample : emit noDebug c!"f" c!"é+" ⟨.syn c!"x", ⟨2, 3⟩⟩
    = some c!"Syntax error: x\n --> f:1:3\n  |\n1 | é+\n  |   ^ \n" := by decide +kernel

/-- **C38**, counterexample outside the hypotheses: a reversed span makes the emitter panic. -/
theorem C38_reversed_counterexample : emit noDebug c!"f" c!"export let 1" ⟨.syn c!"x", ⟨7, 6⟩⟩ = none := by decide +kernel

end Fajt.Props
