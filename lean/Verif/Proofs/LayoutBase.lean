import Verif.Proofs.LayoutSource
import Verif.Spec.Layout
import Verif.Proofs.ParseRules
/-!
# Layout: two runs of the parser in step

`Lock W V m m'`: started in states that stand before the same token of two sources with the same tokens, `m` and `m'` end in
the same way, in such states again, with results related by `V` (unless one of them runs out of fuel).
-/
namespace Fajt
open Spec Complete
set_option linter.unusedSectionVars false
variable [UnicodeID]

namespace Layout

/-- Two sources that the lexer cannot tell apart. -/
structure World where
  sty : SourceType
  S : Str
  S' : Str
  states : LexState → Prop
  R : LexState → Cursor → Cursor → Prop
  T : Token → Token → Prop
  tw : Twins sty S S' states R T

/-- Corresponding results of the lexer. -/
def SameNext (W : World) : Except LexErr Token → Except LexErr Token → Prop
  | .ok t, .ok t' => W.T t t'
  | .error e, .error e' => stripLexErr e.kind = stripLexErr e'.kind
  | _, _ => False

/-- Both parsers stand at corresponding places. -/
structure Rel (W : World) (s s' : PState) : Prop where
  cur0 : SameNext W s.cur s'.cur
  nxt0 : SameNext W s.nxt s'.nxt
  lx : ∃ st c c', W.states st ∧ W.R st c c' ∧ s.lx = ⟨W.S, st, c⟩ ∧ s'.lx = ⟨W.S', st, c'⟩
  styp : s.sourceType = W.sty
  styp' : s'.sourceType = W.sty

/-- Positions of the same token. -/
def SamePos (W : World) (p p' : Nat) : Prop := ∃ t t', W.T t t' ∧ p = t.span.start ∧ p' = t'.span.start

/-- The same token. -/
def SameTok (W : World) (t t' : Token) : Prop := W.T t t'

/-- Errors that differ in positions only. -/
def SameErr (W : World) (e e' : PErr) : Prop :=
  e.kind.strip = e'.kind.strip ∧ (∀ x, e.kind = .arrowNotAllowed x → SamePos W e.span.start e'.span.start)

/-- An error of the lexer, in a source without `for` statements.  Nothing goes on after it. -/
def Fatal (W : World) (e : PErr) : Prop :=
  (∀ {t t'}, W.T t t' → t.value ≠ .keyword k!"for") ∧ ∃ x, e = PErr.lexer x

theorem Fatal.kind {W : World} {e : PErr} (h : Fatal W e) :
    e.kind.isCoverRetry = false ∧ e.kind.isInitializedName = false ∧ ∀ x, e.kind ≠ .arrowNotAllowed x := by
  obtain ⟨-, x, rfl⟩ := h
  unfold PErr.lexer
  split <;> exact ⟨rfl, rfl, nofun⟩

/-- Results that differ in positions only. -/
def SameRes (W : World) {α : Type} (V : α → α → Prop) : Res PState PErr α → Res PState PErr α → Prop
  | .oof, _ => True
  | _, .oof => True
  | .ok x s, .ok x' s' => V x x' ∧ Rel W s s'
  | .err e s, .err e' s' => SameErr W e e' ∧ (Rel W s s' ∨ Fatal W e)
  | .panic w, .panic w' => w = w'
  | _, _ => False

/-- Two parser functions in step. -/
def Lock (W : World) {α : Type} (V : α → α → Prop) (m m' : P α) : Prop :=
  ∀ s s', Rel W s s' → SameRes W V (m s) (m' s')

/-- Two parser functions in step, before a token. -/
def LockT (W : World) {α : Type} (V : α → α → Prop) (m m' : P α) : Prop :=
  ∀ s s', Rel W s s' → (∃ t, s.cur = .ok t) → SameRes W V (m s) (m' s')

/-- The same under `f`. -/
def On {α β : Type} (f : α → β) (x y : α) : Prop := f x = f y

/-- Pairs. -/
def Both {α β : Type} (V : α → α → Prop) (U : β → β → Prop) (x y : α × β) : Prop := V x.1 y.1 ∧ U x.2 y.2

/-- Options. -/
def Opt {α : Type} (V : α → α → Prop) : Option α → Option α → Prop
  | none, none => True
  | some x, some y => V x y
  | _, _ => False

/-- What a loop does next. -/
def Step {α β : Type} (V : β → β → Prop) (U : α → α → Prop) : β ⊕ α → β ⊕ α → Prop
  | .inl x, .inl y => V x y
  | .inr x, .inr y => U x y
  | _, _ => False

section
variable {W : World} {α β γ : Type} {V : α → α → Prop} {U : β → β → Prop}

theorem SameRes.oofR {r : Res PState PErr α} : SameRes W V r .oof := by cases r <;> trivial

theorem Lock.oofL {m : P α} : Lock W V M.oof m := fun _ _ _ => trivial
theorem Lock.oofR {m : P α} : Lock W V m M.oof := fun _ _ _ => SameRes.oofR

theorem Lock.pure {x x' : α} (h : V x x') : Lock W V (Pure.pure x) (Pure.pure x') := fun _ _ hs => ⟨h, hs⟩

theorem Lock.throw {e e' : PErr} (h : SameErr W e e') : Lock W V (M.throw e : P α) (M.throw e') :=
  fun _ _ hs => ⟨h, .inl hs⟩

theorem Lock.lockT {m m' : P α} (h : Lock W V m m') : LockT W V m m' := fun s s' hs _ => h s s' hs

theorem Lock.panic {w : Str} : Lock W V (M.panic w : P α) (M.panic w) := fun _ _ _ => rfl

theorem Lock.bind {m m' : P α} {f f' : α → P β} (h1 : Lock W V m m') (h2 : ∀ x x', V x x' → Lock W U (f x) (f' x')) :
    Lock W U (m >>= f) (m' >>= f') := by
  intro s s' hs
  have h := h1 s s' hs
  simp only [M.bind_def, M.bind]
  cases hm : m s <;> cases hm' : m' s' <;> simp only [hm, hm', SameRes] at h ⊢ <;> first
    | exact h2 _ _ h.1 _ _ h.2
    | exact h
    | exact SameRes.oofR
    | skip

theorem Lock.attempt {m m' : P α} {f f' : α → P β} {g g' : PErr → P β} (h1 : Lock W V m m')
    (h2 : ∀ x x', V x x' → Lock W U (f x) (f' x'))
    (h3 : ∀ e e', SameErr W e e' → Lock W U (g e) (g' e'))
    (h4 : ∀ e e', SameErr W e e' → Fatal W e → ∀ s s', SameRes W U (g e s) (g' e' s')) :
    Lock W U (M.attempt m f g) (M.attempt m' f' g') := by
  intro s s' hs
  have h := h1 s s' hs
  simp only [M.attempt]
  cases hm : m s <;> cases hm' : m' s' <;> simp only [hm, hm', SameRes] at h ⊢ <;> first
    | exact h2 _ _ h.1 _ _ h.2
    | exact h.2.elim (h3 _ _ h.1 _ _) fun hf => h4 _ _ h.1 hf _ _
    | exact h
    | exact SameRes.oofR
    | skip

theorem LockT.attempt {m m' : P α} {f f' : α → P β} {g g' : PErr → P β} (h1 : LockT W V m m')
    (h2 : ∀ x x', V x x' → Lock W U (f x) (f' x'))
    (h3 : ∀ e e', SameErr W e e' → Lock W U (g e) (g' e'))
    (h4 : ∀ e e', SameErr W e e' → Fatal W e → ∀ s s', SameRes W U (g e s) (g' e' s')) :
    LockT W U (M.attempt m f g) (M.attempt m' f' g') := by
  intro s s' hs ht
  have h := h1 s s' hs ht
  simp only [M.attempt]
  cases hm : m s <;> cases hm' : m' s' <;> simp only [hm, hm', SameRes] at h ⊢ <;> first
    | exact h2 _ _ h.1 _ _ h.2
    | exact h.2.elim (h3 _ _ h.1 _ _) fun hf => h4 _ _ h.1 hf _ _
    | exact h
    | exact SameRes.oofR
    | skip

theorem Lock.ite {p p' : Prop} [Decidable p] [Decidable p'] {A A' B B' : P α} (hp : p ↔ p') (h1 : p → Lock W V A A')
    (h2 : ¬ p → Lock W V B B') : Lock W V (if p then A else B) (if p' then A' else B') := by
  by_cases h : p
  · rw [if_pos h, if_pos (hp.1 h)]; exact h1 h
  · rw [if_neg h, if_neg (fun h' => h (hp.2 h'))]; exact h2 h

theorem Lock.weaken {V' : α → α → Prop} {m m' : P α} (h : Lock W V m m') (hv : ∀ x x', V x x' → V' x x') : Lock W V' m m' := by
  intro s s' hs
  have h := h s s' hs
  cases hm : m s <;> cases hm' : m' s' <;> simp only [hm, hm', SameRes] at h ⊢ <;> first
    | exact ⟨hv _ _ h.1, h.2⟩
    | exact h

theorem Lock.loop {V : β → β → Prop} {U : α → α → Prop} {body body' : β → P (β ⊕ α)}
    (h : ∀ x x', V x x' → Lock W (Step V U) (body x) (body' x')) {n n' : Nat} {x x' : β} (hx : V x x') :
    Lock W U (Fajt.loop body n x) (Fajt.loop body' n' x') := by
  induction n generalizing n' x x' with
  | zero => exact Lock.oofL
  | succ n ih =>
    cases n' with
    | zero => exact Lock.oofR
    | succ n' =>
      refine Lock.bind (h x x' hx) fun y y' hy => ?_
      cases y <;> cases y' <;> simp only [Step] at hy
      · exact ih hy
      · exact Lock.pure hy

theorem Lock.gets {f f' : PState → α} (h : ∀ s s', Rel W s s' → V (f s) (f' s')) : Lock W V (M.gets f : P α) (M.gets f') :=
  fun s s' hs => ⟨h s s' hs, hs⟩

theorem Lock.thenTry {b : Bool} {m m' : P α} (h : Lock W V m m') :
    Lock W (Opt V) (Parser.thenTry b m) (Parser.thenTry b m') := by
  unfold Parser.thenTry
  refine Lock.ite Iff.rfl (fun _ => ?_) fun _ => ?_
  · exact Lock.bind h fun x x' hx => Lock.pure hx
  · exact Lock.pure trivial
end

/-! ## Tokens -/

section
variable {W : World} {t t' : Token}

theorem SameTok.value (h : SameTok W t t') : t.value = t'.value := (W.tw.token h).1

theorem SameTok.fol (h : SameTok W t t') : t.fol = t'.fol := (W.tw.token h).2

theorem SameTok.start (h : SameTok W t t') : SamePos W t.span.start t'.span.start := ⟨t, t', h, rfl, rfl⟩

theorem SamePos.iff {p p' q q' : Nat} (h1 : SamePos W p p') (h2 : SamePos W q q') : p = q ↔ p' = q' := by
  obtain ⟨t, t', h, rfl, rfl⟩ := h1
  obtain ⟨u, u', h', rfl, rfl⟩ := h2
  exact W.tw.one h h'

/-! ## Primitive functions -/

open Parser

variable {s s' : PState}

theorem SameNext.cases {x x' : Except LexErr Token} (h : SameNext W x x') :
    (∃ e e', x = .error e ∧ x' = .error e' ∧ stripLexErr e.kind = stripLexErr e'.kind) ∨
    ∃ t t', x = .ok t ∧ x' = .ok t' ∧ SameTok W t t' := by
  cases x <;> cases x' <;> simp only [SameNext] at h
  · exact .inl ⟨_, _, rfl, rfl, h⟩
  · exact .inr ⟨_, _, rfl, rfl, h⟩

/-- What the parsers see. -/
theorem Rel.cur (h : Rel W s s') :
    (∃ e e', s.cur = .error e ∧ s'.cur = .error e' ∧ stripLexErr e.kind = stripLexErr e'.kind) ∨
    ∃ t t', s.cur = .ok t ∧ s'.cur = .ok t' ∧ SameTok W t t' := h.cur0.cases

theorem Rel.nxt (h : Rel W s s') :
    (∃ e e', s.nxt = .error e ∧ s'.nxt = .error e' ∧ stripLexErr e.kind = stripLexErr e'.kind) ∨
    ∃ t t', s.nxt = .ok t ∧ s'.nxt = .ok t' ∧ SameTok W t t' := h.nxt0.cases

theorem eos_strip {k k' : LexErrKind} (h : stripLexErr k = stripLexErr k') : k = .endOfStream ↔ k' = .endOfStream := by
  cases k <;> cases k' <;> simp [stripLexErr] at h ⊢

/-- Errors of the lexer that differ in positions only. -/
theorem SameErr.lexer {e e' : LexErr} (h : stripLexErr e.kind = stripLexErr e'.kind) : SameErr W (PErr.lexer e) (PErr.lexer e') := by
  obtain ⟨sp, k⟩ := e
  obtain ⟨sp', k'⟩ := e'
  cases k <;> cases k' <;> simp only [stripLexErr, reduceCtorEq] at h <;>
    exact ⟨by simp only [PErr.lexer, PErrKind.strip, stripLexErr, h] <;> simpa using h, nofun⟩

/-- Reading at corresponding places. -/
theorem pull_both {st : LexState} {c c' : Cursor} (hm : W.states st) (h : W.R st c c') :
    ∃ x x' d d', LexerS.pull ⟨W.S, st, c⟩ = .ok x ⟨W.S, st, d⟩ ∧ LexerS.pull ⟨W.S', st, c'⟩ = .ok x' ⟨W.S', st, d'⟩ ∧
      SameNext W x x' ∧ W.R st d d' := by
  have hr := W.tw.read hm h
  unfold LexerS.pull M.attempt LexerS.next
  dsimp only
  cases h1 : Lexer.read st c <;> cases h2 : Lexer.read st c' <;> simp only [h1, h2, SameRead] at hr ⊢
  · exact ⟨_, _, _, _, rfl, rfl, hr.1, hr.2⟩
  · exact ⟨_, _, _, _, rfl, rfl, hr.1, hr.2⟩

theorem consume_eq {x : Except LexErr Token} {lx : LexerS} (h : LexerS.pull s.lx = .ok x lx) :
    consume s = match s.cur with
      | .ok t => .ok t { s with lx := lx, cur := s.nxt, nxt := x, pos := t.span.stop }
      | .error e => .err (PErr.lexer e) { s with lx := lx, cur := s.nxt, nxt := x } := by
  unfold consume
  simp only [M.bind_def, M.bind, liftLx, h, M.get, M.set]
  cases s.cur <;> rfl

theorem consume_lock : Lock W (SameTok W) consume consume := by
  intro s s' hs
  obtain ⟨st, c, c', h1, h2, h3, h4⟩ := hs.lx
  obtain ⟨x, x', d, d', e1, e2, e3, e4⟩ := pull_both h1 h2
  rw [← h3] at e1
  rw [← h4] at e2
  rw [consume_eq e1, consume_eq e2]
  rcases hs.cur with ⟨e, e', h5, h6, h7⟩ | ⟨t, t', h5, h6, h7⟩
  · rw [h5, h6]
    exact ⟨SameErr.lexer h7, .inl ⟨hs.nxt0, e3, ⟨st, d, d', h1, e4, rfl, rfl⟩, hs.styp, hs.styp'⟩⟩
  · rw [h5, h6]
    exact ⟨h7, hs.nxt0, e3, ⟨st, d, d', h1, e4, rfl, rfl⟩, hs.styp, hs.styp'⟩

theorem current_lock : Lock W (SameTok W) current current := by
  intro s s' h
  unfold current
  rcases h.cur with ⟨e, e', h1, h2, h3⟩ | ⟨t, t', h1, h2, h3⟩
  · rw [h1, h2]; exact ⟨SameErr.lexer h3, .inl h⟩
  · rw [h1, h2]; exact ⟨h3, h⟩

/-- `current` before something that needs a token. -/
theorem current_lockT {β : Type} {U : β → β → Prop} {f f' : Token → P β} (h : ∀ t t', SameTok W t t' → LockT W U (f t) (f' t')) :
    Lock W U (current >>= f) (current >>= f') := by
  intro s s' hs
  simp only [M.bind_def, M.bind, current]
  rcases hs.cur with ⟨e, e', h1, h2, h3⟩ | ⟨t, t', h1, h2, h3⟩
  · rw [h1, h2]; exact ⟨SameErr.lexer h3, .inl hs⟩
  · rw [h1, h2]; exact h t t' h3 s s' hs ⟨t, h1⟩

/-- A question before something that needs a token. -/
theorem gets_lockT {α β : Type} {V : α → α → Prop} {U : β → β → Prop} {g g' : PState → α} {f f' : α → P β}
    (hg : ∀ s s', Rel W s s' → (∃ t, s.cur = .ok t) → V (g s) (g' s'))
    (h : ∀ x x', V x x' → LockT W U (f x) (f' x')) : LockT W U (M.gets g >>= f) (M.gets g' >>= f') := by
  intro s s' hs ht
  simp only [M.bind_def, M.bind, M.gets]
  exact h _ _ (hg s s' hs ht) s s' hs ht

theorem rewindTo_lock {t t' : Token} (ht : SameTok W t t') : Lock W (fun _ _ => True) (rewindTo t) (rewindTo t') := by
  intro s s' hs
  obtain ⟨st, c, c', h1, -, h3, h4⟩ := hs.lx
  have hb := W.tw.back ht
  cases h5 : LexerS.dropBytes W.S t.span.start <;> cases h6 : LexerS.dropBytes W.S' t'.span.start <;> simp only [h5, h6] at hb
  · have e1 : s.lx.rewindBefore t = none := by unfold LexerS.rewindBefore; rw [h3]; simp only [h5]
    have e2 : s'.lx.rewindBefore t' = none := by unfold LexerS.rewindBefore; rw [h4]; simp only [h6]
    unfold rewindTo
    rw [M.seq_ok (m := M.get) rfl, M.seq_ok (m := M.get) rfl, e1, e2]
    rfl
  · rename_i r r'
    have e1 : s.lx.rewindBefore t = some ⟨W.S, st, ⟨r, t.span.start, t.span.start, t.fol⟩⟩ := by
      unfold LexerS.rewindBefore; rw [h3]; simp only [h5]
    have e2 : s'.lx.rewindBefore t' = some ⟨W.S', st, ⟨r', t'.span.start, t'.span.start, t'.fol⟩⟩ := by
      unfold LexerS.rewindBefore; rw [h4]; simp only [h6]
    obtain ⟨x, x', d, d', a1, a2, a3, a4⟩ := pull_both h1 (hb st h1)
    obtain ⟨y, y', g, g', b1, b2, b3, b4⟩ := pull_both h1 a4
    rw [rewindTo_eq e1 a1 b1, rewindTo_eq e2 a2 b2]
    exact ⟨trivial, a3, b3, ⟨st, g, g', h1, b4, rfl, rfl⟩, hs.styp, hs.styp'⟩

/-- Reading always ends, with a token or an error. -/
theorem read_total (st : LexState) {c : Cursor} {S : Str} (h : Place S c) :
    (∃ t d, Lexer.read st c = .ok t d ∧ Place S d) ∨ ∃ e d, Lexer.read st c = .err e d ∧ Place S d := by
  rcases read_at S st c h with ⟨t, d, h1, h2⟩ | ⟨e, d, h1, -, h3⟩
  · exact .inl ⟨t, d, h1, h2.place h⟩
  · exact .inr ⟨e, d, h1, h3⟩

theorem pull_total (D : Str) (st : LexState) {c : Cursor} {S : Str} (h : Place S c) :
    ∃ x d, LexerS.pull ⟨D, st, c⟩ = .ok x ⟨D, st, d⟩ ∧ Place S d := by
  unfold LexerS.pull M.attempt LexerS.next
  rcases read_total st h with ⟨t, d, h1, h2⟩ | ⟨e, d, h1, h2⟩ <;> simp only [h1]
  · exact ⟨_, d, rfl, h2⟩
  · exact ⟨_, d, rfl, h2⟩

/-- The place to which the lexer goes back is a place of some source. -/
theorem place_back (r : Str) (n : Nat) (f : Bool) : ∃ S, Place S ⟨r, n, n, f⟩ := by
  have h : Ascii (List.replicate n 'a') := fun c hc => by rw [(List.mem_replicate.1 hc).2]; decide
  have hl : byteLen (List.replicate n 'a') = n := by
    unfold byteLen
    rw [List.map_replicate, List.sum_replicate_nat]
    show n * 1 = n
    omega
  exact ⟨_, List.replicate n 'a', rfl, by rw [hl], by rw [posAfter_ascii 0 h, hl, Nat.zero_add]⟩

/-- Tokens can be read again in this state. -/
def World.Again (W : World) (E : Cursor → Cursor → Prop) (st : LexState) : Prop :=
  ∀ t t', W.T t t' → SameAgain W.S W.S' W.states W.R W.T E st t t'

/-- Reading the current token again, in another state. -/
theorem reread_both {E : Cursor → Cursor → Prop} {st0 : LexState} (hm0 : W.Again E st0) (hs : Rel W s s') :
    (∃ w, rereadWithState st0 s = .panic w ∧ rereadWithState st0 s' = .panic w) ∨
    (∃ s1 s1', rereadWithState st0 s = .ok () s1 ∧ rereadWithState st0 s' = .ok () s1' ∧ Rel W s1 s1') ∨
    ∃ s1 s1' e e' n n' d d' S S', rereadWithState st0 s = .ok () s1 ∧ rereadWithState st0 s' = .ok () s1' ∧
      s1.cur = .error e ∧ s1'.cur = .error e' ∧ stripLexErr e.kind = stripLexErr e'.kind ∧ E d d' ∧ Place S d ∧ Place S' d' ∧
      s1.sourceType = W.sty ∧ s1'.sourceType = W.sty ∧ s1.nxt = n ∧ s1'.nxt = n' ∧
      (∃ g, LexerS.pull ⟨W.S, st0, d⟩ = .ok n g ∧ s1.lx = g) ∧ (∃ g', LexerS.pull ⟨W.S', st0, d'⟩ = .ok n' g' ∧ s1'.lx = g') := by
  obtain ⟨st, c, c', h1, -, h3, h4⟩ := hs.lx
  rcases hs.cur with ⟨e, e', h5, h6, h7⟩ | ⟨t, t', h5, h6, h7⟩
  · refine .inr (.inl ⟨s, s', ?_, ?_, hs⟩)
    · unfold rereadWithState
      rw [M.seq_ok (m := M.get) rfl, h5]
      rfl
    · unfold rereadWithState
      rw [M.seq_ok (m := M.get) rfl, h6]
      rfl
  have hb := hm0 _ _ h7
  unfold SameAgain at hb
  cases h8 : LexerS.dropBytes W.S t.span.start <;> cases h9 : LexerS.dropBytes W.S' t'.span.start <;> simp only [h8, h9] at hb
  · have e1 : s.lx.rewindBefore t = none := by unfold LexerS.rewindBefore; rw [h3]; simp only [h8]
    have e2 : s'.lx.rewindBefore t' = none := by unfold LexerS.rewindBefore; rw [h4]; simp only [h9]
    refine .inl ⟨c!"byte index is not a char boundary", ?_, ?_⟩
    · unfold rereadWithState
      rw [M.seq_ok (m := M.get) rfl, h5]
      dsimp only
      rw [e1]
      rfl
    · unfold rereadWithState
      rw [M.seq_ok (m := M.get) rfl, h6]
      dsimp only
      rw [e2]
      rfl
  · rename_i r r'
    have e1 : s.lx.rewindBefore t = some ⟨W.S, st, ⟨r, t.span.start, t.span.start, t.fol⟩⟩ := by
      unfold LexerS.rewindBefore; rw [h3]; simp only [h8]
    have e2 : s'.lx.rewindBefore t' = some ⟨W.S', st, ⟨r', t'.span.start, t'.span.start, t'.fol⟩⟩ := by
      unfold LexerS.rewindBefore; rw [h4]; simp only [h9]
    obtain ⟨S, pS⟩ := place_back r t.span.start t.fol
    obtain ⟨S', pS'⟩ := place_back r' t'.span.start t'.fol
    rcases read_total st0 pS with ⟨u, d, k1, q1⟩ | ⟨e, d, k1, q1⟩ <;> rcases read_total st0 pS' with ⟨u', d', k2, q2⟩ | ⟨e', d', k2, q2⟩ <;>
      simp only [k1, k2] at hb
    · have a1 : M.attempt (LexerS.readWithState st0) (fun t => Pure.pure (Except.ok t))
          (fun e => Pure.pure (Except.error e)) ⟨W.S, st, ⟨r, t.span.start, t.span.start, t.fol⟩⟩ =
            .ok (Except.ok u : Except LexErr Token) ⟨W.S, st, d⟩ := by
        unfold M.attempt LexerS.readWithState LexerS.next; simp only [k1]; rfl
      have a2 : M.attempt (LexerS.readWithState st0) (fun t => Pure.pure (Except.ok t))
          (fun e => Pure.pure (Except.error e)) ⟨W.S', st, ⟨r', t'.span.start, t'.span.start, t'.fol⟩⟩ =
            .ok (Except.ok u' : Except LexErr Token) ⟨W.S', st, d'⟩ := by
        unfold M.attempt LexerS.readWithState LexerS.next; simp only [k2]; rfl
      obtain ⟨y, y', g, g', b1, b2, b3, b4⟩ := pull_both h1 (hb.2 st h1)
      exact .inr (.inl ⟨_, _, rereadWithState_eq h5 e1 a1 b1, rereadWithState_eq h6 e2 a2 b2, hb.1, b3,
        ⟨st, g, g', h1, b4, rfl, rfl⟩, hs.styp, hs.styp'⟩)
    · have a1 : M.attempt (LexerS.readWithState st0) (fun t => Pure.pure (Except.ok t))
          (fun e => Pure.pure (Except.error e)) ⟨W.S, st, ⟨r, t.span.start, t.span.start, t.fol⟩⟩ =
            .ok (Except.error e : Except LexErr Token) ⟨W.S, st0, d⟩ := by
        unfold M.attempt LexerS.readWithState LexerS.next; simp only [k1]; rfl
      have a2 : M.attempt (LexerS.readWithState st0) (fun t => Pure.pure (Except.ok t))
          (fun e => Pure.pure (Except.error e)) ⟨W.S', st, ⟨r', t'.span.start, t'.span.start, t'.fol⟩⟩ =
            .ok (Except.error e' : Except LexErr Token) ⟨W.S', st0, d'⟩ := by
        unfold M.attempt LexerS.readWithState LexerS.next; simp only [k2]; rfl
      obtain ⟨y, g, b1, -⟩ := pull_total W.S st0 q1
      obtain ⟨y', g', b2, -⟩ := pull_total W.S' st0 q2
      exact .inr (.inr ⟨_, _, e, e', y, y', d, d', S, S', rereadWithState_eq h5 e1 a1 b1, rereadWithState_eq h6 e2 a2 b2, rfl, rfl,
        hb.1, hb.2, q1, q2, hs.styp, hs.styp', rfl, rfl, ⟨_, b1, rfl⟩, ⟨_, b2, rfl⟩⟩)

theorem rereadWithState_lock : Lock W (fun _ _ => True) (rereadWithState LexState.regexAllowed) (rereadWithState LexState.regexAllowed) := by
  intro s s' hs
  rcases reread_both (fun _ _ h => W.tw.regexp h) hs with ⟨w, h1, h2⟩ | ⟨s1, s1', h1, h2, h3⟩ |
    ⟨s1, s1', e, e', n, n', d, d', S, S', h1, h2, h3, h4, h5, h6, h7, h8, h9, h10, h11, h12, ⟨g, p1, p2⟩, ⟨g', p3, p4⟩⟩
  · rw [h1, h2]; exact rfl
  · rw [h1, h2]; exact ⟨trivial, h3⟩
  · rw [h1, h2]
    obtain ⟨y, y', q, q', b1, b2, b3, b4⟩ := pull_both h6.1 h6.2
    rw [p1] at b1
    rw [p3] at b2
    cases b1
    cases b2
    refine ⟨trivial, ?_, ?_, ⟨_, q, q', h6.1, b4, p2, p4⟩, h9, h10⟩
    · rw [h3, h4]; exact h5
    · rw [h11, h12]; exact b3

/-- Reading the current token again as the continuation of a template. -/
theorem continuation_lock (hh : ∃ t t' s, W.T t t' ∧ t.value = .templateHead s) :
    Lock W (SameTok W) (rereadWithState LexState.insideTemplate >>= fun _ => consume)
      (rereadWithState LexState.insideTemplate >>= fun _ => consume) := by
  intro s s' hs
  obtain ⟨u, u', z, hu, hz⟩ := hh
  obtain ⟨E, hE, hE2⟩ := W.tw.template hu hz
  rcases reread_both (fun _ _ h => hE h) hs with ⟨w, h1, h2⟩ | ⟨s1, s1', h1, h2, h3⟩ |
    ⟨s1, s1', e, e', n, n', d, d', S, S', h1, h2, h3, h4, h5, h6, h7, h8, h9, h10, h11, h12, ⟨g, p1, p2⟩, ⟨g', p3, p4⟩⟩
  · simp only [M.bind_def, M.bind, h1, h2]; exact rfl
  · rw [M.seq_ok h1, M.seq_ok h2]; exact consume_lock _ _ h3
  · rw [M.seq_ok h1, M.seq_ok h2]
    rcases hE2 with hE2 | hE2
    · obtain ⟨y, y', q, q', b1, b2, b3, b4⟩ := pull_both (hE2 h6).1 (hE2 h6).2
      rw [p1] at b1
      rw [p3] at b2
      cases b1
      cases b2
      refine consume_lock _ _ ⟨?_, ?_, ⟨_, q, q', (hE2 h6).1, b4, p2, p4⟩, h9, h10⟩
      · rw [h3, h4]; exact h5
      · rw [h11, h12]; exact b3
    obtain ⟨y, q, b1, b2⟩ := pull_total W.S LexState.insideTemplate h7
    obtain ⟨y', q', b3, b4⟩ := pull_total W.S' LexState.insideTemplate h8
    rw [b1] at p1
    rw [b3] at p3
    cases p1
    cases p3
    obtain ⟨z1, q1, b5, -⟩ := pull_total W.S LexState.insideTemplate b2
    obtain ⟨z2, q2, b6, -⟩ := pull_total W.S' LexState.insideTemplate b4
    rw [← p2] at b5
    rw [← p4] at b6
    rw [consume_eq b5, consume_eq b6, h3, h4]
    exact ⟨SameErr.lexer h5, .inr ⟨hE2, e, rfl⟩⟩

/-! ## Queries -/

theorem position_lock : Lock W (fun _ _ => True) position position := Lock.gets fun _ _ _ => trivial

/-- The positions before a token. -/
theorem position_same (h : Rel W s s') (ht : ∃ t, s.cur = .ok t) :
    SamePos W (match s.cur with | .ok t => t.span.start | .error _ => s.pos) (match s'.cur with | .ok t => t.span.start | .error _ => s'.pos) := by
  obtain ⟨u, hu⟩ := ht
  rcases h.cur with ⟨e, e', h1, h2, h3⟩ | ⟨t, t', h1, h2, h3⟩
  · rw [hu] at h1; cases h1
  · rw [h1, h2]; exact h3.start

theorem spanFrom_lock {p p' : Nat} : Lock W (fun sp sp' : Span => sp.start = p ∧ sp'.start = p') (spanFrom p) (spanFrom p') :=
  Lock.gets fun _ _ _ => ⟨rfl, rfl⟩

theorem cur?_lock : Lock W (Opt (SameTok W)) cur? cur? := Lock.gets fun s s' h => by
  rcases h.cur with ⟨e, e', h1, h2, he⟩ | ⟨t, t', h1, h2, h3⟩
  · rw [h1, h2]; trivial
  · rw [h1, h2]; exact h3

theorem peek?_lock : Lock W (Opt (SameTok W)) peek? peek? := Lock.gets fun s s' h => by
  rcases h.nxt with ⟨e, e', h1, h2, he⟩ | ⟨t, t', h1, h2, h3⟩
  · rw [h1, h2]; trivial
  · rw [h1, h2]; exact h3

theorem curVal?_lock : Lock W Eq curVal? curVal? := Lock.gets fun s s' h => by
  rcases h.cur with ⟨e, e', h1, h2, he⟩ | ⟨t, t', h1, h2, h3⟩
  · rw [h1, h2]; rfl
  · rw [h1, h2]; exact congrArg some h3.value

theorem isEnd_lock : Lock W Eq isEnd isEnd := Lock.gets fun s s' h => by
  rcases h.cur with ⟨e, e', h1, h2, he⟩ | ⟨t, t', h1, h2, h3⟩
  · rw [h1, h2]; simp only [eos_strip he]
  · rw [h1, h2]

theorem curMatches_lock {v : TokVal} : Lock W Eq (curMatches v) (curMatches v) := Lock.gets fun s s' h => by
  rcases h.cur with ⟨e, e', h1, h2, he⟩ | ⟨t, t', h1, h2, h3⟩
  · rw [h1, h2]
  · rw [h1, h2]; simp only [h3.value]

theorem curMatchesString_lock : Lock W Eq curMatchesString curMatchesString := Lock.gets fun s s' h => by
  rcases h.cur with ⟨e, e', h1, h2, he⟩ | ⟨⟨v, f, sp⟩, ⟨v', f', sp'⟩, h1, h2, h3⟩
  · rw [h1, h2]
  · rw [h1, h2]
    have := h3.value
    simp only at this
    subst this
    cases v <;> first | rfl | (rename_i l; cases l <;> rfl)

theorem curMatchesIdentOrLiteral_lock {v : Str} : Lock W Eq (curMatchesIdentOrLiteral v) (curMatchesIdentOrLiteral v) :=
  Lock.gets fun s s' h => by
  rcases h.cur with ⟨e, e', h1, h2, he⟩ | ⟨⟨v, f, sp⟩, ⟨v', f', sp'⟩, h1, h2, h3⟩
  · rw [h1, h2]
  · rw [h1, h2]
    have := h3.value
    simp only at this
    subst this
    cases v <;> first | rfl | (rename_i l; cases l <;> rfl)

theorem peekMatches_lock {v : TokVal} : Lock W Eq (peekMatches v) (peekMatches v) := Lock.gets fun s s' h => by
  rcases h.nxt with ⟨e, e', h1, h2, he⟩ | ⟨t, t', h1, h2, h3⟩
  · rw [h1, h2]
  · rw [h1, h2]; simp only [h3.value]

theorem followedByNewLine_lock : Lock W Eq followedByNewLine followedByNewLine := Lock.gets fun s s' h => by
  rcases h.nxt with ⟨e, e', h1, h2, he⟩ | ⟨t, t', h1, h2, h3⟩
  · rw [h1, h2]
  · rw [h1, h2]; exact h3.fol

theorem firstOnLine_lock : Lock W Eq firstOnLine firstOnLine := Lock.gets fun s s' h => by
  rcases h.cur with ⟨e, e', h1, h2, he⟩ | ⟨t, t', h1, h2, h3⟩
  · rw [h1, h2]
  · rw [h1, h2]; exact h3.fol

theorem isIdentTok_same (h : SameTok W t t') (k : KwCtx) : isIdentTok (.ok t) k = isIdentTok (.ok t') k := by
  obtain ⟨v, f, sp⟩ := t
  obtain ⟨v', f', sp'⟩ := t'
  have := h.value
  simp only at this
  subst this
  cases v <;> rfl

theorem peekIsIdent_lock {ctx : Ctx} : Lock W Eq (peekIsIdent ctx) (peekIsIdent ctx) := Lock.gets fun s s' h => by
  rcases h.nxt with ⟨e, e', h1, h2, he⟩ | ⟨t, t', h1, h2, h3⟩
  · rw [h1, h2]; rfl
  · rw [h1, h2]; exact isIdentTok_same h3 _

theorem isIdent_lock {ctx : Ctx} : Lock W Eq (isIdent ctx) (isIdent ctx) := Lock.gets fun s s' h => by
  rcases h.cur with ⟨e, e', h1, h2, he⟩ | ⟨t, t', h1, h2, h3⟩
  · rw [h1, h2]; rfl
  · rw [h1, h2]; exact isIdentTok_same h3 _

theorem isIdentName_lock : Lock W Eq isIdentName isIdentName := Lock.gets fun s s' h => by
  rcases h.cur with ⟨e, e', h1, h2, he⟩ | ⟨⟨v, f, sp⟩, ⟨v', f', sp'⟩, h1, h2, h3⟩
  · rw [h1, h2]
  · rw [h1, h2]
    have := h3.value
    simp only at this
    subst this
    cases v <;> rfl

theorem isScript_lock : Lock W Eq isScript isScript := Lock.gets fun s s' h => by
  rw [h.styp, h.styp']

theorem sourceType_lock : Lock W Eq (M.gets fun s => s.sourceType : P SourceType) (M.gets fun s => s.sourceType) := Lock.gets fun s s' h => by
  rw [h.styp, h.styp']

theorem currentUnwrapStart_lock : Lock W (fun _ _ => True) currentUnwrapStart currentUnwrapStart := by
  intro s s' h
  unfold currentUnwrapStart
  rcases h.cur with ⟨e, e', h1, h2, he⟩ | ⟨t, t', h1, h2, h3⟩
  · rw [h1, h2]; rfl
  · rw [h1, h2]; exact ⟨trivial, h⟩

end
end Layout
end Fajt
