import Verif.Spec.Layout
/-!
# A check that two sources cannot be told apart by the lexer

`explore` collects corresponding places and tokens; `closed` checks that they are closed under everything the parser can do.
Only `closed` is trusted to be sound, which is proved below.
-/
namespace Fajt
open Spec
set_option linter.unusedSectionVars false
variable [UnicodeID]

namespace Layout

/-- Corresponding places. -/
abbrev Place2 := LexState × Cursor × Cursor

/-- Corresponding tokens. -/
abbrev Token2 := Token × Token

/-- Reading at a pair of places. -/
def closedRead (rs : List Place2) (ts : List Token2) (p : Place2) : Bool :=
  match Lexer.read p.1 p.2.1, Lexer.read p.1 p.2.2 with
  | .ok t c, .ok t' c' => decide ((t, t') ∈ ts) && decide ((p.1, c, c') ∈ rs)
  | .err e c, .err e' c' => decide (stripLexErr e.kind = stripLexErr e'.kind) && decide ((p.1, c, c') ∈ rs)
  | _, _ => false

/-- Going back to a pair of tokens. -/
def closedBack (src src' : Str) (sts : List LexState) (rs : List Place2) (t : Token2) : Bool :=
  match LexerS.dropBytes src t.1.span.start, LexerS.dropBytes src' t.2.span.start with
  | some r, some r' => sts.all fun st =>
      decide ((st, ⟨r, t.1.span.start, t.1.span.start, t.1.fol⟩, ⟨r', t.2.span.start, t.2.span.start, t.2.fol⟩) ∈ rs)
  | none, none => true
  | _, _ => false

/-- Reading a pair of tokens again; `strict`: the lexer goes on after an error. -/
def closedAgain (src src' : Str) (sts : List LexState) (rs : List Place2) (ts : List Token2) (strict : Bool) (again : LexState)
    (t : Token2) : Bool :=
  match LexerS.dropBytes src t.1.span.start, LexerS.dropBytes src' t.2.span.start with
  | some r, some r' =>
    match Lexer.read again ⟨r, t.1.span.start, t.1.span.start, t.1.fol⟩, Lexer.read again ⟨r', t.2.span.start, t.2.span.start, t.2.fol⟩ with
    | .ok u c, .ok u' c' => decide ((u, u') ∈ ts) && sts.all fun st => decide ((st, c, c') ∈ rs)
    | .err e c, .err e' c' => decide (stripLexErr e.kind = stripLexErr e'.kind) &&
        (!strict || (decide (again ∈ sts) && decide ((again, c, c') ∈ rs)))
    | _, _ => false
  | none, none => true
  | _, _ => false

/-- The head of a template. -/
def isHead : TokVal → Bool
  | .templateHead _ => true
  | _ => false

/-- The places and tokens are closed under everything the parser can do. -/
def closed (sty : SourceType) (src src' : Str) (sts : List LexState) (rs : List Place2) (ts : List Token2) : Bool :=
  decide ((⟨decide (sty = .script), false, false⟩ : LexState) ∈ sts) &&
  decide ((⟨decide (sty = .script), false, false⟩, ⟨src, 0, 0, true⟩, ⟨src', 0, 0, true⟩) ∈ rs) &&
  rs.all (closedRead rs ts) &&
  ts.all (fun t => decide (t.1.value = t.2.value) && decide (t.1.fol = t.2.fol)) &&
  ts.all (closedBack src src' sts rs) &&
  ts.all (fun t => ts.all fun u => decide (t.1.span.start = u.1.span.start ↔ t.2.span.start = u.2.span.start)) &&
  ts.all (closedAgain src src' sts rs ts true LexState.regexAllowed) &&
  (!ts.any (fun t => isHead t.1.value) ||
    ts.all (closedAgain src src' sts rs ts true LexState.insideTemplate) ||
    (ts.all (fun t => decide (t.1.value ≠ .keyword k!"for")) && ts.all (closedAgain src src' sts rs ts false LexState.insideTemplate)))

theorem closed_sound {sty : SourceType} {src src' : Str} {sts : List LexState} {rs : List Place2} {ts : List Token2}
    (h : closed sty src src' sts rs ts = true) : SameForLexer sty src src' := by
  unfold closed at h
  simp only [Bool.and_eq_true] at h
  obtain ⟨⟨⟨⟨⟨⟨⟨h1, h2⟩, h3⟩, h4⟩, h5⟩, h6⟩, h7⟩, h8⟩ := h
  have again : ∀ (E : Cursor → Cursor → Prop) strict st, ts.all (closedAgain src src' sts rs ts strict st) = true →
      (∀ c c', (strict = true → st ∈ sts ∧ (st, c, c') ∈ rs) → E c c') → ∀ {t t'}, (t, t') ∈ ts →
      SameAgain src src' (· ∈ sts) (fun st c c' => (st, c, c') ∈ rs) (fun t t' => (t, t') ∈ ts) E st t t' := by
    intro E strict st hst hE t t' ht
    have := List.all_eq_true.1 hst _ ht
    unfold closedAgain at this
    unfold SameAgain
    dsimp only at this
    cases k1 : LexerS.dropBytes src t.span.start <;> cases k2 : LexerS.dropBytes src' t'.span.start <;>
      simp only [k1, k2, reduceCtorEq] at this ⊢
    rename_i r r'
    cases k3 : Lexer.read st ⟨r, t.span.start, t.span.start, t.fol⟩ <;>
      cases k4 : Lexer.read st ⟨r', t'.span.start, t'.span.start, t'.fol⟩ <;>
      simp only [k3, k4, reduceCtorEq, Bool.and_eq_true, decide_eq_true_eq, List.all_eq_true] at this ⊢
    · exact this
    · refine ⟨this.1, hE _ _ fun hs => ?_⟩
      have := this.2
      rw [hs] at this
      simpa using this
  refine ⟨(· ∈ sts), fun st c c' => (st, c, c') ∈ rs, fun t t' => (t, t') ∈ ts, by simpa using h1, by simpa using h2, ?_, ?_, ?_,
    ?_, fun ht => again _ true _ h7 (fun c c' h => h rfl) ht, ?_⟩
  · intro st c c' _ hr
    have := List.all_eq_true.1 h3 _ hr
    unfold closedRead at this
    dsimp only at this
    cases k1 : Lexer.read st c <;> cases k2 : Lexer.read st c' <;> simp only [k1, k2, Bool.and_eq_true, decide_eq_true_eq, reduceCtorEq] at this
    · exact this
    · exact this
  · intro t t' ht
    have := List.all_eq_true.1 h4 _ ht
    simpa using this
  · intro t t' ht
    have := List.all_eq_true.1 h5 _ ht
    unfold closedBack at this
    dsimp only at this
    cases k1 : LexerS.dropBytes src t.span.start <;> cases k2 : LexerS.dropBytes src' t'.span.start <;>
      simp only [k1, k2, reduceCtorEq] at this ⊢
    simpa using this
  · intro t t' u u' ht hu
    have := List.all_eq_true.1 (List.all_eq_true.1 h6 _ ht) _ hu
    simpa using this
  · intro u u' s hu hs
    simp only [Bool.or_eq_true, Bool.not_eq_true', List.any_eq_false] at h8
    rcases h8 with (h8 | h8) | h8
    · have := h8 _ hu
      simp only [hs, isHead, not_true] at this
    · exact ⟨_, fun ht => again _ true _ h8 (fun c c' h => h rfl) ht, .inl fun h => h⟩
    · simp only [Bool.and_eq_true, List.all_eq_true] at h8
      exact ⟨fun _ _ => True, fun ht => again _ false _ (List.all_eq_true.2 h8.2) (fun _ _ _ => trivial) ht,
        .inr fun ht => by simpa using h8.1 _ ht⟩

/-- What is still to be looked at. -/
inductive Job where
  | place (p : Place2)
  | token (t : Token2)

/-- The jobs that come from going back to a pair of tokens and reading it again. -/
def jobsOf (src src' : Str) (sts agains : List LexState) (t : Token2) : List Job :=
  match LexerS.dropBytes src t.1.span.start, LexerS.dropBytes src' t.2.span.start with
  | some r, some r' =>
    let c : Cursor := ⟨r, t.1.span.start, t.1.span.start, t.1.fol⟩
    let c' : Cursor := ⟨r', t.2.span.start, t.2.span.start, t.2.fol⟩
    sts.map (fun st => Job.place (st, c, c')) ++ agains.flatMap fun again =>
      match Lexer.read again c, Lexer.read again c' with
      | .ok u d, .ok u' d' => .token (u, u') :: sts.map fun st => .place (st, d, d')
      | .err _ d, .err _ d' => if again ∈ sts then [.place (again, d, d')] else []
      | _, _ => []
  | _, _ => []

/-- Collects corresponding places and tokens. -/
def exploreGo (src src' : Str) (sts agains : List LexState) : Nat → List Job → List Place2 → List Token2 → List Place2 × List Token2
  | 0, _, rs, ts => (rs, ts)
  | _ + 1, [], rs, ts => (rs, ts)
  | n + 1, .place p :: js, rs, ts =>
    if p ∈ rs then exploreGo src src' sts agains n js rs ts
    else match Lexer.read p.1 p.2.1, Lexer.read p.1 p.2.2 with
      | .ok t d, .ok t' d' => exploreGo src src' sts agains n (.place (p.1, d, d') :: .token (t, t') :: js) (p :: rs) ts
      | .err _ d, .err _ d' => exploreGo src src' sts agains n (.place (p.1, d, d') :: js) (p :: rs) ts
      | _, _ => (rs, ts)
  | n + 1, .token t :: js, rs, ts =>
    if t ∈ ts then exploreGo src src' sts agains n js rs ts
    else exploreGo src src' sts agains n (jobsOf src src' sts agains t ++ js) rs (t :: ts)

/-- The check. -/
def sameForLexer (sty : SourceType) (src src' : Str) (sts agains : List LexState) : Bool :=
  let e := exploreGo src src' sts agains (40 * (src.length + src'.length + 1))
    [.place (⟨decide (sty = .script), false, false⟩, ⟨src, 0, 0, true⟩, ⟨src', 0, 0, true⟩)] [] []
  closed sty src src' sts e.1 e.2

theorem sameForLexer_sound {sty : SourceType} {src src' : Str} {sts agains : List LexState}
    (h : sameForLexer sty src src' sts agains = true) : SameForLexer sty src src' := closed_sound h

end Layout
end Fajt
