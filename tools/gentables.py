import re,sys
sys.argv=['x']
# ---- lexer ----
src=open('/verif/lean/Verif/Model/Lexer.lean').read()
i=src.index('namespace Lexer\n')
parts=re.split(r'(?m)^(?=def |/--|namespace|end |open |variable|@\[|/-!)',src[i:])
lex=[]
for p in parts:
    m=re.match(r'def (\S+)((?:\s*\([^:=]*?:[^=]*?\))*)\s*:\s*L (.*?) :=(.*)',p,re.S)
    if not m:
        if re.match(r'def [^\n]*: L ',p): print('skipped',p.split('\n')[0])
        continue
    lex.append((m.group(1),m.group(2).strip(),m.group(4)))
def argnames(a):
    res=[]
    for g in re.findall(r'\(([^:\)]*):',a): res+=g.split()
    return res
if __name__=='__main__':
    for l in lex: print(l[0],'|',l[1])
LHDR='''import Verif.Spec.SameChars
import Lean.Elab.Tactic.ElabTerm
/-!
# The tables of identifier characters: lexer

`Tw m m'`: on a text on which two tables agree, the two computations do the same.  Written by `tools/gentables.py`.
-/
namespace Fajt.Tables
open Lean Elab Tactic Meta Fajt.Spec
set_option linter.unusedSectionVars false
set_option linter.unusedVariables false
set_option linter.unusedSimpArgs false

theorem _root_.Fajt.Spec.SameChars.mono {i j : UnicodeID} {v w : Str} (h : SameChars i j w) (hv : v <:+: w) : SameChars i j v :=
  ⟨fun c hc => h.chars c (hv.subset hc), fun h' => h.noEscape (h'.trans hv)⟩

/-- The tables agree on the character. -/
structure OnChar (i j : UnicodeID) (c : Char) : Prop where
  start : @isIdStart i c = @isIdStart j c
  part : @isIdPart i c = @isIdPart j c

theorem _root_.Fajt.Spec.SameChars.onChar {i j : UnicodeID} {w : Str} (h : SameChars i j w) {c : Char} (hc : c ∈ w) : OnChar i j c := by
  have key : i.idStart c = j.idStart c ∧ i.idContinue c = j.idContinue c := by
    by_cases ha : c.toNat < 128
    · exact ⟨(i.ascii_start c ha).trans (j.ascii_start c ha).symm, (i.ascii_continue c ha).trans (j.ascii_continue c ha).symm⟩
    · exact h.chars c hc (Nat.le_of_not_lt ha)
  constructor
  · unfold isIdStart; rw [key.1]
  · unfold isIdPart; rw [key.2]

/-- The two runs end alike, at a text on which the tables agree. -/
def TwR (i j : UnicodeID) {α : Type} : Res Cursor LexErr α → Res Cursor LexErr α → Prop
  | .ok x s, .ok y s' => x = y ∧ s = s' ∧ SameChars i j s.rest
  | .err e s, .err e' s' => e = e' ∧ s = s' ∧ SameChars i j s.rest
  | .panic w, .panic w' => w = w'
  | .oof, .oof => True
  | _, _ => False

/-- The two computations do the same where the tables agree. -/
def Tw (i j : UnicodeID) {α : Type} (m m' : L α) : Prop := ∀ s, SameChars i j s.rest → TwR i j (m s) (m' s)

section
variable {i j : UnicodeID} {α β : Type}

theorem Tw.pure (x : α) : Tw i j (Pure.pure x) (Pure.pure x) := fun _ h => ⟨rfl, rfl, h⟩
theorem Tw.throw (e : LexErr) : Tw i j (M.throw e : L α) (M.throw e) := fun _ h => ⟨rfl, rfl, h⟩
theorem Tw.panic (w : Str) : Tw i j (M.panic w : L α) (M.panic w) := fun _ _ => rfl
theorem Tw.oof : Tw i j (M.oof : L α) M.oof := fun _ _ => trivial
theorem Tw.gets (f : Cursor → α) : Tw i j (M.gets f) (M.gets f) := fun _ h => ⟨rfl, rfl, h⟩

theorem Tw.bind {m m' : L α} {f f' : α → L β} (h1 : Tw i j m m') (h2 : ∀ x, Tw i j (f x) (f' x)) : Tw i j (m >>= f) (m' >>= f') := by
  intro s hs
  show TwR _ _ (M.bind m f s) (M.bind m' f' s)
  unfold M.bind
  have := h1 s hs
  revert this
  cases m s <;> cases m' s <;> intro this <;> try exact this.elim
  · obtain ⟨rfl, rfl, h⟩ := this; exact h2 _ _ h
  · exact this
  · exact this
  · trivial

theorem Tw.ite {p : Prop} [Decidable p] {x x' y y' : L α} (h1 : Tw i j x x') (h2 : Tw i j y y') :
    Tw i j (if p then x else y) (if p then x' else y') := by split <;> assumption

theorem Tw.loop {f f' : β → L (β ⊕ α)} (h : ∀ x, Tw i j (f x) (f' x)) {n : Nat} {x : β} :
    Tw i j (Fajt.loop f n x) (Fajt.loop f' n x) := by
  induction n generalizing x with
  | zero => exact Tw.oof
  | succ n ih =>
    refine Tw.bind (h x) fun y => ?_
    cases y
    · exact ih
    · exact Tw.pure _

/-- The current character, with what is known of it. -/
theorem Tw.cur {f f' : Option Char → L β} (h : ∀ x, (∀ c, x = some c → OnChar i j c) → Tw i j (f x) (f' x)) :
    Tw i j (Lexer.cur? >>= f) (Lexer.cur? >>= f') := by
  intro s hs
  refine h _ (fun c hc => hs.onChar ?_) s hs
  unfold Cursor.cur at hc
  cases hr : s.rest with
  | nil => rw [hr] at hc; cases hc
  | cons d t => rw [hr] at hc; cases hc; exact List.mem_cons_self ..

@[inherit_doc Tw.cur]
theorem Tw.current {f f' : Char → L β} (h : ∀ x, OnChar i j x → Tw i j (f x) (f' x)) :
    Tw i j (Lexer.current >>= f) (Lexer.current >>= f') := by
  intro s hs
  show TwR _ _ (M.bind _ _ s) (M.bind _ _ s)
  unfold M.bind Lexer.current
  cases hr : s.rest with
  | nil => exact ⟨rfl, rfl, hs⟩
  | cons c t => exact h c (hs.onChar (by rw [hr]; exact List.mem_cons_self ..)) s hs
end

/-- Use the theorem about the function at the head of the goal. -/
elab "tw_known" : tactic => withMainContext do
  let g ← getMainGoal
  let t ← whnfR (← instantiateMVars (← g.getType))
  unless t.isAppOf ``Tw do throwError "not a Tw"
  let args := t.getAppArgs
  let .const n _ := (args[args.size - 2]!.headBeta).getAppFn | throwError "no head"
  let .str p b := n | throwError "no name"
  let lem := `Fajt.Tables ++ Name.mkSimple (b ++ "_tw")
  let c ← mkConstWithFreshMVarLevels lem
  let gs ← withReducible (g.apply c)
  replaceMainGoal gs

/-- Name the result of the first of two computations. -/
elab "tw_intro" : tactic => withMainContext do
  let t ← whnfR (← instantiateMVars (← (← getMainGoal).getType))
  unless t.isForall do throwError "no quantifier"
  let (_, g) ← (← getMainGoal).intro1
  replaceMainGoal [g]

/-- One step. -/
macro "tw_step" : tactic => `(tactic| first
  | with_reducible exact Tw.pure _
  | with_reducible exact Tw.throw _
  | with_reducible exact Tw.panic _
  | with_reducible exact Tw.oof
  | with_reducible exact Tw.gets _
  | (tw_known <;> assumption)
  | tw_intro
  | with_reducible (refine Tw.bind ?_ ?_)
  | with_reducible (refine Tw.loop ?_)
  | with_reducible (refine Tw.ite ?_ ?_)
  | split)

/-- Prove that two computations do the same. -/
macro "tw" : tactic => `(tactic| repeat' tw_step)

section
open Lexer
variable {i j : UnicodeID}

theorem advance_same {s : Cursor} {c : Char} {cs : List Char} (h : SameChars i j s.rest) (hr : s.rest = c :: cs) :
    SameChars i j (s.advance c cs).rest := h.mono ⟨[c], [], by rw [hr]; simp [Cursor.advance]⟩

theorem consume_tw : Tw i j Lexer.consume Lexer.consume := by
  intro s h
  unfold Lexer.consume
  cases hr : s.rest with
  | nil => exact ⟨rfl, rfl, h⟩
  | cons c cs => exact ⟨rfl, rfl, advance_same h hr⟩

theorem consumeUnwrap_tw : Tw i j Lexer.consumeUnwrap Lexer.consumeUnwrap := by
  intro s h
  unfold Lexer.consumeUnwrap
  cases hr : s.rest with
  | nil => exact rfl
  | cons c cs => exact ⟨rfl, rfl, advance_same h hr⟩

theorem current_tw : Tw i j Lexer.current Lexer.current := by
  intro s h
  unfold Lexer.current
  cases s.rest with
  | nil => exact ⟨rfl, rfl, h⟩
  | cons c cs => exact ⟨rfl, rfl, h⟩

theorem cur?_tw : Tw i j Lexer.cur? Lexer.cur? := Tw.gets _
theorem peek?_tw : Tw i j Lexer.peek? Lexer.peek? := Tw.gets _
theorem position_tw : Tw i j Lexer.position Lexer.position := Tw.gets _
theorem fuel_tw : Tw i j Lexer.fuel Lexer.fuel := Tw.gets _
theorem setFol_tw {b : Bool} : Tw i j (Lexer.setFol b) (Lexer.setFol b) := fun s h => ⟨rfl, rfl, h⟩

theorem readWhileGo_tw {check check' : Char → Bool} (w : Str) (s : Cursor) (hs : s.rest = w) (h : SameChars i j w)
    (hc : ∀ c, OnChar i j c → check c = check' c) : readWhileGo check w s = readWhileGo check' w s ∧ SameChars i j (readWhileGo check w s).2.rest := by
  induction w generalizing s with
  | nil => exact ⟨rfl, by unfold readWhileGo; rw [hs]; exact h⟩
  | cons c w ih =>
    have h1 := hc c (h.onChar (List.mem_cons_self ..))
    obtain ⟨h2, h3⟩ := ih (s.advance c w) rfl (h.mono ⟨[c], [], by simp⟩)
    unfold readWhileGo
    rw [← h1]
    split
    · rw [← h2]; exact ⟨rfl, h3⟩
    · exact ⟨rfl, by rw [hs]; exact h⟩

theorem readWhileOn_tw {check check' : Char → Bool} (hc : ∀ c, OnChar i j c → check c = check' c) :
    Tw i j (Lexer.readWhile check) (Lexer.readWhile check') := by
  intro s h
  obtain ⟨h1, h2⟩ := readWhileGo_tw s.rest s rfl h hc
  unfold Lexer.readWhile
  rw [← h1]
  exact ⟨rfl, rfl, h2⟩

theorem readWhile_tw {check : Char → Bool} : Tw i j (Lexer.readWhile check) (Lexer.readWhile check) := readWhileOn_tw fun _ _ => rfl

theorem skipWhitespacesGo_tw (w : Str) (s : Cursor) (hs : s.rest = w) : (skipWhitespacesGo w s).rest <:+: w := by
  induction w generalizing s with
  | nil => unfold skipWhitespacesGo; rw [hs]; exact List.infix_rfl
  | cons c w ih =>
    unfold skipWhitespacesGo
    have hw : w <:+: c :: w := ⟨[c], [], by simp⟩
    split
    · exact (ih _ rfl).trans hw
    · split
      · exact (ih _ rfl).trans hw
      · rw [hs]; exact List.infix_rfl

theorem skipWhitespaces_tw : Tw i j Lexer.skipWhitespaces Lexer.skipWhitespaces :=
  fun s h => ⟨rfl, rfl, h.mono (skipWhitespacesGo_tw s.rest s rfl)⟩

'''
skip={'consume','consumeUnwrap','current','cur?','peek?','position','setFol','fuel','readWhile','skipWhitespaces','read'}
sp={'readNumberLiteral':'''  refine Tw.bind readNumberText_tw fun t => Tw.cur fun x hx => ?_
  have : x.any (@isIdStart i) = x.any (@isIdStart j) := by
    cases x with
    | none => rfl
    | some c => exact (hx c rfl).start
  rw [this]
  tw
''','readRegexpLiteral':'''  repeat' (first | exact readWhileOn_tw fun _ h => h.part | tw_step)
''','readIdentifierWord':'''  refine Tw.bind fuel_tw fun n => Tw.loop fun word => ?_
  intro s hs
  cases hr : s.rest with
  | nil =>
    have hc : s.cur = none := by unfold Cursor.cur; rw [hr]; rfl
    have key : ∀ f : Option Char → L (Str ⊕ Str), (Lexer.cur? >>= f) s = f none s := by
      intro f; show M.bind _ _ s = _; unfold M.bind Lexer.cur? M.gets; simp only [hc]
    rw [key, key]
    exact Tw.pure _ s hs
  | cons c t =>
    have hc : s.cur = some c := by unfold Cursor.cur; rw [hr]; rfl
    have key : ∀ f : Option Char → L (Str ⊕ Str), (Lexer.cur? >>= f) s = f (some c) s := by
      intro f; show M.bind _ _ s = _; unfold M.bind Lexer.cur? M.gets; simp only [hc]
    rw [key, key]
    have hx := hs.onChar (c := c) (by rw [hr]; exact List.mem_cons_self ..)
    dsimp only
    rw [hx.part]
    by_cases h1 : @isIdPart j c = true
    · rw [if_pos h1, if_pos h1]
      exact Tw.bind consume_tw (fun _ => Tw.pure _) s hs
    · rw [if_neg h1, if_neg h1]
      by_cases h2 : c = '\\\\'
      · subst h2
        rw [if_pos rfl, if_pos rfl]
        obtain ⟨e, s', h3, h5, h4⟩ := escape_err hs hr (b := word.isEmpty)
        show TwR i j (M.bind _ _ s) (M.bind _ _ s)
        simp only [M.bind, bind, h3, h5]
        exact ⟨rfl, rfl, h4⟩
      · rw [if_neg h2, if_neg h2]
        exact Tw.pure _ s hs
''','readArms':'''  split
  all_goals first | (tw; done) | skip
  refine Tw.ite ?_ ?_
  · tw
  · rw [h.start]
    tw
''','readValue':'''  refine Tw.current fun c hc => Tw.bind peek?_tw fun p => ?_
  exact readArms2_tw hc
'''}
ESC='''/-- There is no escape, so the read of one fails. -/
theorem escape_err {s : Cursor} {b : Bool} {t : Str} (hs : SameChars i j s.rest) (hr : s.rest = '\\\\' :: t) :
    ∃ e s', (letI := i; Lexer.readAndExpandUnicodeEscapeSequence b) s = .err e s' ∧
      (letI := j; Lexer.readAndExpandUnicodeEscapeSequence b) s = .err e s' ∧ SameChars i j s'.rest := by
  have key : match Lexer.readUnicodeEscapeSequence s with
      | .err e s' => SameChars i j s'.rest
      | _ => False := by
    unfold Lexer.readUnicodeEscapeSequence
    cases t with
    | nil =>
      simp only [M.bind_def, M.bind, Lexer.position, M.gets, Lexer.consume, hr, Cursor.advance]
      exact hs.mono (List.nil_infix)
    | cons u t =>
      have hu : u ≠ 'u' := by
        rintro rfl
        exact hs.noEscape ⟨[], t, by rw [hr]; rfl⟩
      simp only [M.bind_def, M.bind, Lexer.position, M.gets, Lexer.consume, hr, Cursor.advance, M.throw, ne_eq, hu, not_false_eq_true, if_true]
      exact hs.mono ⟨['\\\\', u], [], by rw [hr]; simp⟩
  revert key
  cases hk : Lexer.readUnicodeEscapeSequence s <;> intro key <;> try exact key.elim
  rename_i e s'
  refine ⟨e, s', ?_, ?_, key⟩ <;>
  · unfold Lexer.readAndExpandUnicodeEscapeSequence
    simp only [M.bind_def, M.bind, Lexer.position, M.gets, hk]

'''.replace('\\\\','\\\\')
drop={'readAndExpandUnicodeEscapeSequence'}
b=''
for name,args,body in lex:
    if name in skip: continue
    ia=args.replace('(','{').replace(')','}')
    an=' '.join(argnames(args))
    h='(h : OnChar i j c) ' if name in('readArms','readArms2') else ''
    if name in drop: continue
    call=f'Lexer.{name} {an}'.strip()
    if name=='readIdentifierWord': b+=ESC
    b+=f'theorem {name}_tw {ia} {h}: Tw i j (letI := i; {call}) (letI := j; {call}) := by\n  unfold Lexer.{name}\n'.replace('  :',' :')
    b+=sp.get(name,'  tw\n')+'\n'
LT='''/-- `readGo` for every fuel. -/
theorem readGo_tw {st : LexState} {n : Nat} : Tw i j (letI := i; readGo st n) (letI := j; readGo st n) := by
  induction n with
  | zero => exact Tw.oof
  | succ n ih =>
    unfold Lexer.readGo
    repeat' (first | exact ih | tw_step)

theorem read_tw {st : LexState} : Tw i j (letI := i; Lexer.read st) (letI := j; Lexer.read st) := fun s h => readGo_tw s h

end
end Fajt.Tables
'''
open('/verif/lean/Verif/Proofs/TablesLex.lean','w').write(LHDR+b+LT)
