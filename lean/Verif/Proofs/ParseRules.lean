import Verif.Proofs.ParseLogic
/-!
# More rules: helpers of the parser, automatic semicolons, calls
-/
namespace Fajt
open Spec
set_option linter.unusedSectionVars false
variable [UnicodeID] [Blame]

theorem Spec.D.cast {E : GEnv} {ctx : Ctx} {g : GNode} {ts ts' : List Token} (h : D E ctx g ts) (e : ts = ts') :
    D E ctx g ts' := e ▸ h

/-- A function that reads tokens: what it guarantees in every state. -/
def Does {α : Type} (src : Str) (styp : SourceType) (n K : Nat) (x : Option Ctx) (m : P α)
    (Q : α → List Token → PState → Prop) : Prop :=
  ∀ s p, At src styp s p → J ⟨src, styp, n, K, x, s, p⟩ m s fun a s' =>
    ∃ ts p', ts ≠ [] ∧ Hist ⟨src, styp, n, K, x, s, p⟩ true ts s' p' ∧ Q a ts s'

/-- The first token that a call reads is the current token, maybe read in another way. -/
def Begins (s : PState) (ts : List Token) : Prop := ∀ t, ts.head? = some t → ∃ t0, s.cur = .ok t0 ∧ Reread t0 t

section
variable {F : Frame} {α β : Type} {s : PState}

theorem Does.call {K : Nat} {x : Option Ctx} {hs : List Token} {p : Cursor} {c : Bool} {m : P α}
    {Q : α → List Token → PState → Prop} {R : α → PState → Prop}
    (hm : Does F.src F.styp F.n K x m Q) (h : Hist F c hs s p) (hc : CallOK F hs K x)
    (k : ∀ a ts s' p', Q a ts s' → ts ≠ [] → Begins s ts → Hist F true (hs ++ ts) s' p' → R a s') : J F m s R := by
  refine J.call (Q := fun a ts s' => ts ≠ [] ∧ Q a ts s') (c' := true) h ?_ hc ?_
  · refine (hm s p h.at1).mono ?_
    rintro a s' ⟨ts, p', h1, h2, h3⟩
    exact ⟨ts, p', h2, h1, h3⟩
  · rintro a ts s' p' ⟨h1, h2⟩ h3 h4
    refine k a ts s' p' h2 h1 ?_ ?_
    · intro t ht
      exact h3.first t (by simp [firstTok, ht])
    · have : (true && (c || !ts.isEmpty)) = true := by cases c <;> simp [h1]
      rwa [this] at h4

theorem Does.mono {src : Str} {styp : SourceType} {n K : Nat} {x : Option Ctx} {m : P α}
    {Q R : α → List Token → PState → Prop} (hm : Does src styp n K x m Q) (h : ∀ a ts s, Q a ts s → R a ts s) :
    Does src styp n K x m R := by
  intro s p hp
  refine (hm s p hp).mono ?_
  rintro a s' ⟨ts, p', h1, h2, h3⟩
  exact ⟨ts, p', h1, h2, h _ _ _ h3⟩

theorem Begins.fol {ts : List Token} {t0 : Token} (h : Begins s ts) (h0 : s.cur = .ok t0) (hf : t0.fol = false) :
    ∀ u ∈ ts.head?, u.fol = false := by
  intro u hu
  obtain ⟨t1, h1, h2⟩ := h u hu
  rw [h0] at h1
  cases h1
  cases hx : u.fol with
  | false => rfl
  | true => rw [h2.fol hx] at hf; cases hf

theorem Begins.start {ts : List Token} {t0 : Token} (h : Begins s ts) (h0 : s.cur = .ok t0) :
    ∀ u ∈ ts.head?, t0.span.start = u.span.start := by
  intro u hu
  obtain ⟨t1, h1, h2⟩ := h u hu
  rw [h0] at h1
  cases h1
  exact h2.start.symm

theorem Begins.val {ts : List Token} {t0 : Token} (h : Begins s ts) (h0 : s.cur = .ok t0) {v : TokVal}
    (hv : v.stable = true) (hne : t0.value ≠ v) : ∀ u ∈ ts.head?, u.value ≠ v := by
  intro u hu he
  obtain ⟨t1, h1, h2⟩ := h u hu
  rw [h0] at h1
  cases h1
  have := h2.same' (by rw [he]; exact hv)
  rw [← this] at hne
  exact hne he

theorem Begins.append {ts us : List Token} (h : Begins s ts) (hne : ts ≠ []) : Begins s (ts ++ us) := by
  intro t ht
  cases ts with
  | nil => exact absurd rfl hne
  | cons a ts => exact h t (by simpa using ht)

/-! ### Reading the state -/

theorem J.ifCur {v : TokVal} {m1 m2 : P α} {Q : α → PState → Prop} (h1 : valOf s = some v → J F m1 s Q)
    (h2 : valOf s ≠ some v → J F m2 s Q) :
    J F (Parser.curMatches v >>= fun b => if b = true then m1 else m2) s Q :=
  J.bind (J.curMatches (fun h => h1 h) (fun h => h2 h))

theorem J.ifPeek {v : TokVal} {m1 m2 : P α} {Q : α → PState → Prop} (h1 : peekOf s = some v → J F m1 s Q)
    (h2 : peekOf s ≠ some v → J F m2 s Q) :
    J F (Parser.peekMatches v >>= fun b => if b = true then m1 else m2) s Q :=
  J.bind (J.peekMatches (fun h => h1 h) (fun h => h2 h))

theorem J.ifMaybe {v : TokVal} {hs : List Token} {p : Cursor} {c : Bool} (h : Hist F c hs s p) {m1 m2 : P α}
    {Q : α → PState → Prop}
    (h1 : ∀ t s' p', s.cur = .ok t → t.value = v → s'.cur = s.nxt → Hist F true (hs ++ [t]) s' p' → J F m1 s' Q)
    (h2 : valOf s ≠ some v → J F m2 s Q) :
    J F (Parser.maybeConsume v >>= fun b => if b = true then m1 else m2) s Q :=
  J.bind (J.maybeConsume h (fun t s' p' a b c d => h1 t s' p' a b c d) (fun h => h2 h))

/-- Is the current token the first of its line? -/
def folOf (s : PState) : Bool :=
  match s.cur with
  | .ok t => t.fol
  | .error _ => false

theorem J.firstOnLine {Q : Bool → PState → Prop} (h : Q (folOf s) s) : J F Parser.firstOnLine s Q := h

/-- Is the next token the first of its line? -/
def nextFol (s : PState) : Bool :=
  match s.nxt with
  | .ok t => t.fol
  | .error _ => false

theorem J.followedByNewLine {Q : Bool → PState → Prop} (h : Q (nextFol s) s) : J F Parser.followedByNewLine s Q := h

theorem J.isIdent {ctx : Ctx} {Q : Bool → PState → Prop} (h : Q (Parser.isIdentTok s.cur ctx.kw) s) :
    J F (Parser.isIdent ctx) s Q := h

theorem J.peekIsIdent {ctx : Ctx} {Q : Bool → PState → Prop} (h : Q (Parser.isIdentTok s.nxt ctx.kw) s) :
    J F (Parser.peekIsIdent ctx) s Q := h

theorem J.cur? {Q : Option Token → PState → Prop} (h : Q s.cur.toOption s) : J F Parser.cur? s Q := h

theorem J.peek? {Q : Option Token → PState → Prop} (h : Q s.nxt.toOption s) : J F Parser.peek? s Q := h

/-- Any reading of the state. -/
theorem J.any {f : PState → α} {Q : α → PState → Prop} (h : ∀ a, Q a s) : J F (M.gets f) s Q := h _

theorem J.isEnd {Q : Bool → PState → Prop}
    (h1 : ∀ e, s.cur = .error e → e.kind = .endOfStream → Q true s)
    (h2 : (∀ e, s.cur = .error e → e.kind ≠ .endOfStream) → Q false s) : J F Parser.isEnd s Q := by
  show Q (match s.cur with | .ok _ => false | .error e => decide (e.kind = .endOfStream)) s
  cases hc : s.cur with
  | ok t => exact h2 (fun e he => by rw [hc] at he; cases he)
  | error e =>
    show Q (decide (e.kind = .endOfStream)) s
    by_cases hk : e.kind = .endOfStream
    · rw [decide_eq_true hk]; exact h1 e hc hk
    · rw [decide_eq_false hk]; exact h2 (fun e' he => by rw [hc] at he; cases he; exact hk)

theorem J.canInsertSemicolon {Q : Bool → PState → Prop}
    (h1 : ((∃ e, s.cur = .error e ∧ e.kind = .endOfStream) ∨ valOf s = some (.punct p!"}") ∨
      ∃ t, s.cur = .ok t ∧ t.fol = true) → Q true s)
    (h2 : folOf s = false → valOf s ≠ some (.punct p!"}") → (∀ e, s.cur = .error e → e.kind ≠ .endOfStream) → Q false s) :
    J F Parser.canInsertSemicolon s Q := by
  unfold Parser.canInsertSemicolon
  refine J.bind (J.isEnd (fun e he hk => ?_) (fun hk => ?_))
  · refine J.bind (J.curMatches (fun hv => ?_) (fun hv => ?_)) <;>
    · refine J.bind (J.firstOnLine ?_)
      exact h1 (.inl ⟨e, he, hk⟩)
  · refine J.bind (J.curMatches (fun hv => ?_) (fun hv => ?_))
    · refine J.bind (J.firstOnLine ?_)
      exact h1 (.inr (.inl hv))
    · refine J.bind (J.firstOnLine ?_)
      show Q (folOf s) s
      cases hf : folOf s with
      | false => exact h2 hf hv hk
      | true =>
        refine h1 (.inr (.inr ?_))
        unfold folOf at hf
        cases hc : s.cur with
        | ok t => rw [hc] at hf; exact ⟨t, rfl, hf⟩
        | error e => rw [hc] at hf; cases hf

theorem J.stmtEnded {Q : Bool → PState → Prop} (h1 : Q true s)
    (h2 : ∀ t, s.cur = .ok t → t.fol = false → t.value ≠ .punct p!";" → t.value ≠ .punct p!"}" → Q false s) :
    J F Parser.stmtEnded s Q := by
  unfold Parser.stmtEnded
  refine J.bind (J.curVal ?_)
  unfold valOf
  cases hc : s.cur with
  | error e => exact h1
  | ok t =>
    show J F (if t.value = .punct p!";" then _ else _) s Q
    refine J.ite (fun _ => h1) (fun hv => ?_)
    refine J.canInsertSemicolon (fun _ => h1) (fun hf hb _ => ?_)
    refine h2 t hc ?_ hv ?_
    · rw [folOf, hc] at hf; exact hf
    · rw [valOf_ok hc] at hb; simpa using hb

theorem J.isIdentName {Q : Bool → PState → Prop} (h1 : Q true s) (h2 : Q false s) : J F Parser.isIdentName s Q := by
  show Q (match s.cur with
    | .ok { value := .ident _, .. } => true
    | .ok { value := .keyword _, .. } => true
    | _ => false) s
  split <;> assumption

theorem J.curMatchesString' {Q : Bool → PState → Prop}
    (h1 : ∀ t l, s.cur = .ok t → t.value = .lit (.string l) → Q true s)
    (h2 : (∀ t l, s.cur = .ok t → t.value ≠ .lit (.string l)) → Q false s) :
    J F Parser.curMatchesString s Q := by
  show Q (match s.cur with | .ok { value := .lit (.string _), .. } => true | _ => false) s
  split
  · rename_i l _ _ hc
    exact h1 _ l hc rfl
  · rename_i hno
    refine h2 fun t l ht hl => ?_
    obtain ⟨v, f, sp⟩ := t
    cases hl
    exact hno _ _ _ ht

theorem J.curMatchesString {Q : Bool → PState → Prop}
    (h1 : ∀ t l, s.cur = .ok t → t.value = .lit (.string l) → Q true s) (h2 : Q false s) :
    J F Parser.curMatchesString s Q := by
  show Q (match s.cur with | .ok { value := .lit (.string _), .. } => true | _ => false) s
  split
  · rename_i l _ _ hc
    exact h1 _ l hc rfl
  · exact h2

/-! ### Semicolons -/

theorem Chain.last {src : Str} {p p' : Cursor} {ts : List Token} (h : Chain p ts p') (hp : Place src p) (hne : ts ≠ []) :
    ∃ q t, Place src q ∧ Step q t p' := by
  induction h with
  | nil => exact absurd rfl hne
  | @cons p p1 p2 t ts hs hc ih =>
    cases ts with
    | nil => cases hc; exact ⟨_, _, hp, hs⟩
    | cons u us => exact ih (hs.place hp) (by simp)

theorem getLast?_snoc {α : Type} (l : List α) (a : α) : (l ++ [a]).getLast? = some a := by simp

theorem Spec.Continuation.last {v : TokVal} {w : Str} (h : Continuation v w) :
    w.getLast? = some '`' ∨ w.getLast? = some '{' := by
  cases h with
  | @middle w v hb =>
    right
    rw [show '}' :: w ++ ['$', '{'] = ('}' :: w ++ ['$']) ++ ['{'] by simp]
    exact getLast?_snoc _ _
  | tail hb => left; exact getLast?_snoc _ _

theorem getLast?_append_ne {α : Type} {l m : List α} (h : m ≠ []) : (l ++ m).getLast? = m.getLast? := by
  obtain ⟨b, hb⟩ := getLast?_ne h
  rw [List.getLast?_append, hb]; rfl

/-- Behind a token the lexer is at the start of a line only after templates. -/
theorem Step.folText {src : Str} {p p' : Cursor} {t : Token} (h : Step p t p') (hp : Place src p) (hf : p'.fol = true) :
    ∃ pre, src = pre ++ p'.rest ∧ Behind pre p' ∧ (pre.getLast? = some '`' ∨ pre.getLast? = some '{') := by
  obtain ⟨html, tr, c, h1, h2, ⟨⟨w, h3, h4, h5⟩, -, -⟩, -⟩ := h
  obtain ⟨pre, e1, e2⟩ := hp
  refine ⟨pre ++ tr ++ w, ?_, (e2.eats h1).eats h3, ?_⟩
  · rw [e1, h1.rest, h3.rest]; simp
  · rcases h5 with ⟨-, h5⟩ | h5
    · rw [h5] at hf; cases hf
    · rw [getLast?_append_ne h4]; exact h5.last

theorem Step.brace {p p' : Cursor} {t : Token} (h : Step p t p') (hv : t.value = .punct p!"}") :
    ∃ html tr c, Eats p tr c ∧ Trivia html p.fol tr c.rest c.fol ∧ c.rest.head? = some '}' := by
  obtain ⟨html, tr, c, h1, h2, ⟨⟨w, h3, h4, h5⟩, -, -⟩, -⟩ := h
  refine ⟨html, tr, c, h1, h2, ?_⟩
  rw [hv] at h5
  rcases h5 with ⟨⟨regex, h5⟩, -⟩ | h5
  · cases h5 with
    | punct hp hr => rw [h3.rest]; rfl
  · cases h5

theorem Hist.asi {hs : List Token} {p : Cursor} {c : Bool} (h : Hist F c hs s p) (hne : hs ≠ [])
    (hi : (∃ e, s.cur = .error e ∧ e.kind = .endOfStream) ∨ valOf s = some (.punct p!"}") ∨
      ∃ t, s.cur = .ok t ∧ t.fol = true) : AsiAfter F.src (lastEnd hs) := by
  have hcur := h.at1.cur
  obtain ⟨pre, e1, e2⟩ := h.place
  rw [h.chain.lastEnd hne]
  have epos : posAfter 0 0 pre = p.pos := e2.pos.symm
  rcases hi with ⟨e, he, hk⟩ | hb | ⟨t, ht, hf⟩
  · rw [he] at hcur
    obtain ⟨html, f, htr⟩ := hcur.1.2 hk
    exact ⟨pre, p.rest, [], html, _, f, by rw [e1]; simp, epos, htr, .inl rfl⟩
  · obtain ⟨t, ht, hv⟩ := valOf_some hb
    rw [ht] at hcur
    obtain ⟨p1, hs1, -⟩ := hcur
    obtain ⟨html, tr, c', h1, h2, h3⟩ := hs1.brace hv
    exact ⟨pre, tr, c'.rest, html, _, _, by rw [e1, h1.rest], epos, h2, .inr (.inl h3)⟩
  · rw [ht] at hcur
    obtain ⟨p1, hs1, -⟩ := hcur
    obtain ⟨html, tr, c', h1, h2, ⟨⟨w, h3, h4, h5⟩, -, -⟩, h6⟩ := hs1
    have hcf : c'.fol = true := by
      rcases h6 with h6 | h6
      · rw [← h6]; exact hf
      · rw [h6.1] at hf; cases hf
    have hne' : c'.rest ≠ [] := by rw [h3.rest]; simp [h4]
    have hfl := trivia_flag h2 hne'
    rw [hcf] at hfl
    cases hlt : tr.any isLT with
    | true => exact ⟨pre, tr, c'.rest, html, _, _, by rw [e1, h1.rest], epos, h2, .inr (.inr (.inl hlt))⟩
    | false =>
      rw [hlt] at hfl
      have hpf : p.fol = true := by simpa using hfl.symm
      obtain ⟨q, t', hq, hst⟩ := h.chain.last h.at0.place hne
      obtain ⟨pre', e3, e4, e5⟩ := hst.folText hq hpf
      exact ⟨pre', tr, c'.rest, html, _, _, by rw [e3, h1.rest], e4.pos.symm, h2, .inr (.inr (.inr ⟨hpf, e5⟩))⟩

theorem J.consumeOptionalSemicolon {hs : List Token} {p : Cursor} (h : Hist F true hs s p) (hne : hs ≠ [])
    {Q : Unit → PState → Prop}
    (k : ∀ us s' p', Semi (sourceEnv F.src F.styp) hs us → Hist F true (hs ++ us) s' p' → Q () s') :
    J F Parser.consumeOptionalSemicolon s Q := by
  unfold Parser.consumeOptionalSemicolon
  refine J.ifMaybe h (fun t s' p' _ h2 _ h4 => k [t] s' p' (.inr ⟨t, h2, rfl⟩) h4) (fun _ => ?_)
  refine J.bind (J.canInsertSemicolon (fun hi => ?_) (fun _ _ _ => ?_))
  · exact k [] s p (.inl ⟨rfl, h.asi hne hi⟩) (by simpa using h)
  · exact J.consumeThrow h (fun t => ⟨rfl, fun _ => PErrKind.noConfusion⟩)

theorem J.optSemi {hs : List Token} {p : Cursor} (h : Hist F true hs s p) {Q : Bool → PState → Prop}
    (k : ∀ b us s' p', OptSemi us → Hist F true (hs ++ us) s' p' → Q b s') :
    J F (Parser.maybeConsume (.punct p!";")) s Q :=
  J.maybeConsume h (fun t s' p' _ h2 _ h4 => k true [t] s' p' (.inr ⟨t, h2, rfl⟩) h4)
    (fun _ => k false [] s p (.inl rfl) (by simpa using h))

/-! ### Operators and checks -/

theorem J.consumeUnwrap {hs : List Token} {p : Cursor} {c : Bool} (h : Hist F c hs s p) {t : Token} (ht : s.cur = .ok t)
    {Q : Unit → PState → Prop}
    (k : ∀ s' p', s'.cur = s.nxt → Hist F true (hs ++ [t]) s' p' → Q () s') : J F Parser.consumeUnwrap s Q := by
  obtain ⟨s', hs', hq⟩ : ∃ s', Parser.consume s = .ok t s' ∧ Q () s' := by
    have hj := J.consume h (Q := fun t' s' => t' = t ∧ Q () s') (by
      intro t' s' p' h1 h2 h3
      rw [ht] at h1
      cases h1
      exact ⟨rfl, k s' p' h2 h3⟩)
    have hne : ∀ e s', Parser.consume s ≠ .err e s' := by
      intro e s' he
      have hl := pull_at s.lx (by rw [h.at1.data]; exact h.at1.lexPlace)
      unfold Parser.consume at he
      rcases hl with ⟨u, q, h1, -⟩ | ⟨u, q, h1, -⟩ <;>
      · rw [M.seq_ok (pull_ok h1)] at he
        rw [M.seq_ok (m := M.get) rfl, M.seq_ok (m := M.set _) rfl] at he
        dsimp only at he
        rw [ht] at he
        cases he
    have hno : ∀ w, Parser.consume s ≠ .panic w ∧ Parser.consume s ≠ .oof := by
      intro w
      have hl := pull_at s.lx (by rw [h.at1.data]; exact h.at1.lexPlace)
      unfold Parser.consume
      rcases hl with ⟨u, q, h1, -⟩ | ⟨u, q, h1, -⟩ <;>
      · rw [M.seq_ok (pull_ok h1)]
        rw [M.seq_ok (m := M.get) rfl, M.seq_ok (m := M.set _) rfl]
        dsimp only
        rw [ht]
        constructor <;> intro he <;> cases he
    unfold J at hj
    cases hr : Parser.consume s with
    | ok t' s' => rw [hr] at hj; obtain ⟨rfl, hq⟩ := hj; exact ⟨s', rfl, hq⟩
    | err e s' => exact absurd hr (hne e s')
    | panic w => exact absurd hr (hno w).1
    | oof => exact absurd hr (hno []).2
  unfold J Parser.consumeUnwrap M.attempt
  rw [hs']
  exact hq

theorem J.optionalOperator {γ : Type} {f : TokVal → Option γ} {hs : List Token} {p : Cursor} {c : Bool} (h : Hist F c hs s p)
    {Q : Option γ → PState → Prop}
    (k1 : ∀ t op s' p', s.cur = .ok t → f t.value = some op → Hist F true (hs ++ [t]) s' p' → Q (some op) s')
    (k2 : Q none s) : J F (Parser.optionalOperator f) s Q := by
  unfold Parser.optionalOperator
  refine J.bind (J.curVal ?_)
  split
  · rename_i op hop
    unfold valOf at hop
    cases hc : s.cur with
    | error e => rw [hc] at hop; cases hop
    | ok t =>
      rw [hc] at hop
      refine J.bind (J.consumeUnwrap h hc ?_)
      intro s' p' _ h'
      exact k1 t op s' p' hc hop h'
  · exact k2

theorem J.ofExcept {x : Except PErr α} {Q : α → PState → Prop} (h1 : ∀ a, x = .ok a → Q a s)
    (h2 : ∀ e, x = .error e → ErrPost F e s) : J F (M.ofExcept x) s Q := by
  cases x with
  | ok a => exact h1 a rfl
  | error e => exact h2 e rfl

end

theorem CallOK.later {F : Frame} {hs : List Token} {K : Nat} {x : Option Ctx} (h : hs ≠ []) (hk : K ≤ F.K + 8) :
    CallOK F hs K x := .inr ⟨h, hk⟩

/-! ## Tactics -/

/-- One statement of a function: the rule `t` with the names of what it provides. -/
macro "jb " t:term " with " ps:(ppSpace colGt rintroPat)* : tactic =>
  `(tactic| (refine J.bind ($t ?_); rintro $ps*))

/-- Statements that read positions. -/
macro "jp" : tactic => `(tactic| repeat first | refine J.bind (J.position ?_) | refine J.bind (J.spanFrom ?_))

/-- The side condition of calls. -/
macro "jc" : tactic => `(tactic| first
  | exact .inl ⟨rfl, by simp, .inl rfl⟩
  | exact .inl ⟨rfl, by simp, .inr rfl⟩
  | (refine CallOK.later ?_ ?_ <;> first | assumption | omega | (simp; done) | (simp [*]; done) | (dsimp only; omega)))

/-- A call of a function: its guarantee, the history before it, and the names of what it provides. -/
macro "jd " d:term " at " h:term " with " ps:(ppSpace colGt rintroPat)* : tactic =>
  `(tactic| (refine J.bind (Does.call $d $h (by jc) ?_); rintro $ps*))

/-- A call at the end of a function. -/
macro "je " d:term " at " h:term " with " ps:(ppSpace colGt rintroPat)* : tactic =>
  `(tactic| (refine Does.call $d $h (by jc) ?_; rintro $ps*))

end Fajt
