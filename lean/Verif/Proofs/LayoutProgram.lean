import Verif.Proofs.LayoutModule
import Verif.Proofs.Complete
import Verif.Proofs.PrintLex
import Verif.Props.Parser
/-!
# Layout: whole sources

Sources with the same tokens lead to the same outcome.
-/
namespace Fajt
open Spec Complete
set_option linter.unusedSectionVars false
variable [UnicodeID]

namespace Layout
open Fajt.Parser

theorem locks (W : World) (n n' : Nat) : Locks W (mkRec n) (mkRec n') := by
  induction n generalizing n' with
  | zero => exact ⟨fun _ => Lock.oofL, fun _ => Lock.oofL, fun _ => Lock.oofL, fun _ => Lock.oofL, fun _ => Lock.oofL,
      fun _ => Lock.oofL, fun _ => Lock.oofL, fun _ => Lock.oofL⟩
  | succ n ih =>
    cases n' with
    | zero => exact ⟨fun _ => Lock.oofR, fun _ => Lock.oofR, fun _ => Lock.oofR, fun _ => Lock.oofR, fun _ => Lock.oofR,
        fun _ => Lock.oofR, fun _ => Lock.oofR, fun _ => Lock.oofR⟩
    | succ n' =>
      have hr := ih n'
      exact ⟨fun _ => assignExpr_lock hr, fun _ => unary_lock hr, fun _ => newOrMember_lock hr, fun _ => bindingPattern_lock hr,
        fun _ => assignPattern_lock hr, fun _ => stmt_lock hr, fun _ => declOrStmt_lock hr, fun _ => declaration_lock hr⟩

/-- What the lexer finds at corresponding places. -/
theorem lexAt_both {W : World} {c c' : Cursor} (h : W.R (lexSt W.sty) c c') :
    SameNext W (lexAt W.sty c).1 (lexAt W.sty c').1 ∧ W.R (lexSt W.sty) (lexAt W.sty c).2 (lexAt W.sty c').2 := by
  have hr := W.tw.read W.tw.plain h
  unfold lexAt
  show SameNext W (lexVal (Lexer.read (lexSt W.sty) c)).1 _ ∧ _
  change SameRead _ _ (Lexer.read (lexSt W.sty) c) (Lexer.read (lexSt W.sty) c') at hr
  cases h1 : Lexer.read (lexSt W.sty) c <;> cases h2 : Lexer.read (lexSt W.sty) c' <;> simp only [h1, h2, SameRead] at hr
  · exact hr
  · exact hr

theorem rel_start (W : World) : Rel W (stateAt W.sty ⟨[], W.S, true⟩ 0) (stateAt W.sty ⟨[], W.S', true⟩ 0) := by
  have h1 := lexAt_both (W := W) (c := cursor ⟨[], W.S, true⟩) (c' := cursor ⟨[], W.S', true⟩) W.tw.start
  have h2 := lexAt_both h1.2
  exact ⟨h1.1, h2.1, ⟨_, _, _, W.tw.plain, h2.2, rfl, rfl⟩, rfl, rfl⟩

theorem parse_same {α : Type} {f : α → α} {p : Rec → P α} {sty : SourceType} {src src' : Str}
    (hp : ∀ (W : World) (r r' : Rec), Locks W r r' → Lock W (On f) (p r) (p r')) (h : SameForLexer sty src src')
    (h1 : parse p src sty ≠ .oof) (h2 : parse p src' sty ≠ .oof) : ending f (parse p src sty) = ending f (parse p src' sty) := by
  obtain ⟨states, R, T, tw⟩ := h
  have hl := hp ⟨sty, src, src', states, R, T, tw⟩ _ _ (locks _ (enoughFuel src) (enoughFuel src')) _ _ (rel_start _)
  unfold parse at h1 h2 ⊢
  rw [start_eq] at h1 h2 ⊢
  rw [start_eq]
  dsimp only at h1 h2 hl ⊢
  revert hl h1 h2
  generalize p (mkRec (enoughFuel src)) (stateAt sty ⟨[], src, true⟩ 0) = x
  generalize p (mkRec (enoughFuel src')) (stateAt sty ⟨[], src', true⟩ 0) = y
  intro h1 h2 hl
  cases x <;> cases y <;> simp only [SameRes, ne_eq, not_true, reduceCtorEq] at hl h1 h2
  · exact congrArg Ending.tree hl.1
  · exact congrArg Ending.refused hl.1.1
  · exact congrArg Ending.panicked hl

/-! ## Sources with the same plain tokens -/

theorem plain_slash {v : TokVal} (h : PlainToken v) : ¬ slash v ∧ ∀ s, v ≠ .templateHead s := by
  cases v <;> first | exact h.elim | exact ⟨h, nofun⟩ | exact ⟨nofun, nofun⟩

theorem seq_read {sty : SourceType} {S : Str} {ts : List Token} (h : SeqOf sty S ts) (i : Nat) :
    Lexer.read (lexSt sty) (after sty (begin S) i) = match look ts i with
      | .ok t => .ok t (after sty (begin S) (i + 1))
      | .error e => .err e (after sty (begin S) (i + 1)) := by
  have h1 := h.res i
  have h2 := after_succ sty (begin S) i
  unfold lexAt at h1 h2
  rcases read_at S (lexSt sty) _ (h.place i) with ⟨t, c', h3, -⟩ | ⟨e, c', h3, -, -⟩ <;> rw [h3] at h1 h2 ⊢ <;>
    simp only [lexVal] at h1 h2 <;> rw [← h1, h2]

theorem same_get {ts ts' : List Token} (h : ts.map (fun t => (t.value, t.fol)) = ts'.map (fun t => (t.value, t.fol))) (i : Nat) :
    (ts[i]? = none ∧ ts'[i]? = none) ∨
    ∃ t t', ts[i]? = some t ∧ ts'[i]? = some t' ∧ t.value = t'.value ∧ t.fol = t'.fol := by
  have h := congrArg (fun l => l[i]?) h
  simp only [List.getElem?_map] at h
  cases h1 : ts[i]? <;> cases h2 : ts'[i]? <;> rw [h1, h2] at h <;> simp at h
  · exact .inl ⟨rfl, rfl⟩
  · exact .inr ⟨_, _, rfl, rfl, h.1, h.2⟩

theorem start_inj {sty : SourceType} {S : Str} {ts : List Token} (h : SeqOf sty S ts) {i j : Nat} {t u : Token}
    (h1 : ts[i]? = some t) (h2 : ts[j]? = some u) : t.span.start = u.span.start ↔ i = j := by
  obtain ⟨hi, rfl⟩ := List.getElem?_eq_some_iff.1 h1
  obtain ⟨hj, rfl⟩ := List.getElem?_eq_some_iff.1 h2
  constructor
  · intro he
    rcases Nat.lt_trichotomy i j with hij | hij | hij
    · have h3 := (List.pairwise_iff_getElem.1 h.order) i j hi hj hij
      have h4 := h.wide _ (List.getElem_mem hi)
      omega
    · exact hij
    · have h3 := (List.pairwise_iff_getElem.1 h.order) j i hj hi hij
      have h4 := h.wide _ (List.getElem_mem hj)
      omega
  · rintro rfl; rfl

theorem sameForLexer_of_tokens {sty : SourceType} {src src' : Str} (h : SameTokens sty src src') : SameForLexer sty src src' := by
  obtain ⟨ts, ts', h1, h2, h3, h4, h5, h6⟩ := h
  have ha : SeqOf sty src ts := SeqOf.intro h1 h5
  have hb : SeqOf sty src' ts' := SeqOf.intro h2 h6
  let T : Token → Token → Prop := fun t t' => ∃ j : Nat, ts[j]? = some t ∧ ts'[j]? = some t'
  let R : LexState → Cursor → Cursor → Prop := fun st c c' => st = lexSt sty ∧
    ((∃ i, c = after sty (begin src) i ∧ c' = after sty (begin src') i) ∨
      ∃ t t' r r', T t t' ∧ LexerS.dropBytes src t.span.start = some r ∧ LexerS.dropBytes src' t'.span.start = some r' ∧
        c = ⟨r, t.span.start, t.span.start, t.fol⟩ ∧ c' = ⟨r', t'.span.start, t'.span.start, t'.fol⟩)
  have plain : ∀ {t t'}, T t t' → (¬ slash t.value ∧ ¬ slash t'.value) ∧ ∀ s, t.value ≠ .templateHead s := by
    rintro t t' ⟨j, k1, k2⟩
    have := plain_slash (h4 t (List.mem_of_getElem? k1))
    rcases same_get h3 j with ⟨k3, -⟩ | ⟨u, u', k3, k4, k5, -⟩
    · rw [k3] at k1; cases k1
    · rw [k3] at k1; rw [k4] at k2; cases k1; cases k2
      rw [← k5]
      exact ⟨⟨this.1, this.1⟩, this.2⟩
  have again : ∀ {t t'}, T t t' → ∃ j r r', LexerS.dropBytes src t.span.start = some r ∧
      LexerS.dropBytes src' t'.span.start = some r' ∧ ∀ st : LexState, st.template = false →
      Lexer.read st ⟨r, t.span.start, t.span.start, t.fol⟩ = .ok t (after sty (begin src) (j + 1)) ∧
      Lexer.read st ⟨r', t'.span.start, t'.span.start, t'.fol⟩ = .ok t' (after sty (begin src') (j + 1)) := by
    rintro t t' ht
    obtain ⟨⟨p1, p2⟩, -⟩ := plain ht
    obtain ⟨j, k1, k2⟩ := ht
    obtain ⟨r, a1, -, a3⟩ := ha.seek j t k1
    obtain ⟨r', b1, -, b3⟩ := hb.seek j t' k2
    exact ⟨j, r, r', a1, b1, fun st hst => ⟨a3 st hst fun _ => p1, b3 st hst fun _ => p2⟩⟩
  refine ⟨fun st => st = lexSt sty, R, T, rfl, ⟨rfl, .inl ⟨0, rfl, rfl⟩⟩, ?_, ?_, ?_, ?_, ?_, ?_⟩
  · rintro st c c' rfl ⟨-, hr⟩
    rcases hr with ⟨i, rfl, rfl⟩ | ⟨t, t', r, r', ht, k1, k2, rfl, rfl⟩
    · rw [seq_read ha, seq_read hb]
      unfold look
      rcases same_get h3 i with ⟨k1, k2⟩ | ⟨t, t', k1, k2, -⟩
      · rw [k1, k2]
        exact ⟨rfl, rfl, .inl ⟨_, rfl, rfl⟩⟩
      · rw [k1, k2]
        exact ⟨⟨i, k1, k2⟩, rfl, .inl ⟨_, rfl, rfl⟩⟩
    · obtain ⟨j, q, q', a1, a2, a3⟩ := again ht
      rw [a1] at k1; rw [a2] at k2; cases k1; cases k2
      rw [(a3 _ rfl).1, (a3 _ rfl).2]
      exact ⟨ht, rfl, .inl ⟨_, rfl, rfl⟩⟩
  · rintro t t' ⟨j, k1, k2⟩
    rcases same_get h3 j with ⟨k3, -⟩ | ⟨u, u', k3, k4, k5⟩
    · rw [k3] at k1; cases k1
    · rw [k3] at k1; rw [k4] at k2; cases k1; cases k2; exact k5
  · intro t t' ht
    obtain ⟨j, q, q', a1, a2, -⟩ := again ht
    rw [a1, a2]
    rintro st rfl
    exact ⟨rfl, .inr ⟨t, t', q, q', ht, a1, a2, rfl, rfl⟩⟩
  · rintro t t' u u' ⟨i, k1, k2⟩ ⟨j, k3, k4⟩
    rw [start_inj ha k1 k3, start_inj hb k2 k4]
  · intro t t' ht
    obtain ⟨j, q, q', a1, a2, a3⟩ := again ht
    unfold SameAgain
    rw [a1, a2]
    dsimp only
    rw [(a3 _ rfl).1, (a3 _ rfl).2]
    exact ⟨ht, by rintro st rfl; exact ⟨rfl, .inl ⟨_, rfl, rfl⟩⟩⟩
  · intro u u' s hu hs
    exact absurd hs ((plain hu).2 s)

/-! ## ASCII sources -/

theorem tokens_addressable {html regex : Bool} {pre src : Str} {fol : Bool} {ts : List Token}
    (h : Tokens html regex pre fol src ts) (ha : Ascii (pre ++ src)) : Addressable (pre ++ src) ts := by
  induction h with
  | nil => exact nofun
  | @cons pre tr w rest fol t ts h1 h2 h3 h4 h5 h6 h7 ih =>
    have e : pre ++ (tr ++ (w ++ rest)) = pre ++ tr ++ w ++ rest := by simp only [List.append_assoc]
    intro u hu
    rcases List.mem_cons.1 hu with rfl | hu
    · refine ⟨pre ++ tr, w ++ rest, by simp only [List.append_assoc], ?_⟩
      rw [h6]
      have hp : Ascii (pre ++ tr) := fun c hc => ha c (by rw [← List.append_assoc]; exact List.mem_append_left _ hc)
      have := posAfter_ascii 0 hp
      rw [this, Nat.zero_add]
    · rw [e] at ha ⊢
      exact ih ha u hu

/-! ## Leading trivia -/

theorem tokens_shift {html regex : Bool} {pre src : Str} {fol : Bool} {ts : List Token}
    (h : Tokens html regex pre fol src ts) (pre' : Str) :
    ∃ ts', Tokens html regex pre' fol src ts' ∧ ts.map (fun t => (t.value, t.fol)) = ts'.map (fun t => (t.value, t.fol)) := by
  induction h generalizing pre' with
  | nil h => exact ⟨[], .nil h, rfl⟩
  | @cons pre tr w rest fol t ts h1 h2 h3 h4 h5 h6 h7 ih =>
    obtain ⟨ts', h8, h9⟩ := ih (pre' ++ tr ++ w)
    refine ⟨{ t with span := ⟨posAfter 0 0 (pre' ++ tr), posAfter 0 0 (pre' ++ tr ++ w)⟩ } :: ts', .cons h1 h2 h3 h4 h5 rfl h8, ?_⟩
    simp only [List.map_cons, h9]

theorem trivia_true {html : Bool} {w rest : Str} {b f : Bool} (h : Trivia html b w rest f) : b = true → f = true := by
  induction h with
  | nil => exact id
  | ws _ _ ih => exact ih
  | lt _ _ ih => exact fun _ => ih rfl
  | line _ _ ih => exact fun _ => ih rfl
  | htmlOpen _ _ _ ih => exact fun _ => ih rfl
  | htmlClose _ _ _ ih => exact fun _ => ih rfl
  | block _ _ ih => exact fun h => ih (by rw [h]; rfl)

theorem trivia_append {html : Bool} {v w rest : Str} {f g h : Bool} (h1 : Trivia html f v (w ++ rest) g) (h2 : Trivia html g w rest h) :
    Trivia html f (v ++ w) rest h := by
  generalize hr : w ++ rest = r at h1
  induction h1 with
  | nil => exact h2
  | ws k _ ih => exact .ws k (ih h2 hr)
  | lt k _ ih => exact .lt k (ih h2 hr)
  | line k _ ih =>
    subst hr
    rw [List.append_assoc]
    exact .line (by rw [List.append_assoc]; exact k) (ih h2 rfl)
  | htmlOpen e k _ ih =>
    subst hr
    rw [List.append_assoc]
    exact .htmlOpen e (by rw [List.append_assoc]; exact k) (ih h2 rfl)
  | htmlClose e k _ ih =>
    subst hr
    rw [List.append_assoc]
    exact .htmlClose e (by rw [List.append_assoc]; exact k) (ih h2 rfl)
  | block k _ ih =>
    subst hr
    have := Trivia.block k (ih h2 rfl)
    simpa only [List.append_assoc, List.cons_append] using this

theorem tokens_leading {html regex : Bool} {tr src : Str} {ts : List Token} {f : Bool} (ht : Trivia html true tr src f)
    (h : Tokens html regex [] true src ts) :
    ∃ ts', Tokens html regex [] true (tr ++ src) ts' ∧ ts.map (fun t => (t.value, t.fol)) = ts'.map (fun t => (t.value, t.fol)) := by
  cases trivia_true ht rfl
  cases h with
  | @nil _ _ _ g h =>
    refine ⟨[], .nil (trivia_append ?_ h), rfl⟩
    rw [List.append_nil]; exact ht
  | @cons _ tr0 w rest _ t ts h1 h2 h3 h4 h5 h6 h7 =>
    obtain ⟨ts', h8, h9⟩ := tokens_shift h7 ([] ++ (tr ++ tr0) ++ w)
    have := Tokens.cons (regex := regex) (pre := []) (trivia_append ht h1) (t := { t with span := ⟨posAfter 0 0 ([] ++ (tr ++ tr0)), posAfter 0 0 ([] ++ (tr ++ tr0) ++ w)⟩ })
      (by simpa using h2) h3 h4 h5 rfl h8
    refine ⟨_, by simpa only [List.append_assoc] using this, ?_⟩
    simp only [List.map_cons, h9]

end Layout
end Fajt
