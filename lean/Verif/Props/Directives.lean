import Verif.Props.ParserTree
/-!
# Directives (C36)
-/
set_option linter.unusedSectionVars false
namespace Fajt.Props
open Fajt Spec
variable [UnicodeID]

/-- The lists have the same length and their elements are related pairwise. -/
inductive Each {α β : Type} (R : α → β → Prop) : List α → List β → Prop
  | nil : Each R [] []
  | cons {a : α} {b : β} {as : List α} {bs : List β} : R a b → Each R as bs → Each R (a :: as) (b :: bs)

/-- The tokens of a directive: a string, and perhaps `;`. -/
def DirectiveTokens (d : LitString) (us : List Token) : Prop :=
  ∃ t, t.value = .lit (.string d) ∧ (us = [t] ∨ ∃ c, c.value = .punct p!";" ∧ us = [t, c])

/-- The tokens `us` are those of the directives `ds`, one after the other, and then those of the statements `ss`, one after the other.  If
the first of the statements could be a directive, too, then another statement, which is no directive, can be read at this place as well. -/
def Prologue (src : Str) (styp : SourceType) (ds : List LitString) (ss : List Stmt) (us : List Token) : Prop :=
  ∃ dts sts : List (List Token), us = dts.flatten ++ sts.flatten ∧ Each DirectiveTokens ds dts ∧
    Each (fun s ts => ∃ ctx, Derived (sourceEnv src styp) ctx (.stmt s) ts) ss sts ∧
    ∀ s d, ss.head? = some s → IsDirective s d → OtherStatement src styp (stmtSpan s).start

theorem string_tokens {E : GEnv} {ctx : Ctx} {g : GNode} {us : List Token} (h : D E ctx g us) :
    ∀ sp d, exprOf g = some (.literal sp (.string d)) → ∃ t, t.value = .lit (.string d) ∧ us = [t] := by
  induction h <;> intro sp d he <;> first
    | (cases he; done)
    | (rename_i ih; exact ih _ _ he)
    | (rename_i ih _; exact ih _ _ he)
    | skip
  case string h => cases he; exact ⟨_, h, rfl⟩

theorem directive_tokens {E : GEnv} {ctx : Ctx} {s : Stmt} {d : LitString} {us : List Token} (h : D E ctx (.item s) us) (hd : IsDirective s d) :
    DirectiveTokens d us := by
  cases hd
  cases h with
  | itemStmt h =>
    cases h with
    | exprStmt h1 h2 h3 h4 =>
      obtain ⟨t, h5, rfl⟩ := string_tokens h1 _ _ rfl
      rcases h2 with ⟨rfl, -⟩ | ⟨c, hc, rfl⟩
      · exact ⟨t, h5, .inl rfl⟩
      · exact ⟨t, h5, .inr ⟨c, hc, rfl⟩⟩
  | itemDecl h => cases h

theorem each_append {α β : Type} {R : α → β → Prop} {as as' : List α} {bs bs' : List β} (h : Each R as bs)
    (h' : Each R as' bs') : Each R (as ++ as') (bs ++ bs') := by
  induction h with
  | nil => exact h'
  | cons h _ ih => exact .cons h ih

theorem trees_append' {α : Type} (ps qs : List (α × List Token)) : trees (ps ++ qs) = trees ps ++ trees qs := by simp [trees]

theorem directives_tokens {E : GEnv} {ctx : Ctx} {ss : List Stmt} {ds : List LitString} (hd : Directives ss ds) :
    ∀ ps : List (Stmt × List Token), ss = trees ps → (∀ p ∈ ps, D E ctx (.item p.1) p.2) → Each DirectiveTokens ds (ps.map Prod.snd) := by
  induction hd with
  | nil =>
    intro ps h1 _
    have : ps = [] := by simpa [trees] using h1.symm
    subst this
    exact .nil
  | @snoc ss ds s d h1 h2 ih =>
    intro ps h3 h4
    rcases List.eq_nil_or_concat ps with rfl | ⟨ps', q, rfl⟩
    · simp [trees] at h3
    · rw [List.concat_eq_append] at h3 h4
      rw [trees_append'] at h3
      obtain ⟨e1, e2⟩ := List.append_inj' h3 rfl
      cases e2
      rw [List.concat_eq_append, List.map_append]
      refine each_append (ih ps' e1 fun p hp => h4 p (by simp [hp])) (.cons (directive_tokens (h4 q (by simp)) h2) .nil)

theorem prologue_of {src : Str} {styp : SourceType} {ctx ctx' : Ctx} {ps qs : List (Stmt × List Token)} {ds : List LitString}
    (h1 : ∀ p ∈ ps, D (sourceEnv src styp) ctx (.item p.1) p.2) (h2 : Directives (trees ps) ds)
    (h3 : ∀ q ∈ qs, D (sourceEnv src styp) ctx' (.item q.1) q.2) (h4 : BehindDirectives (sourceEnv src styp) (toks qs)) :
    Prologue src styp ds (trees qs) (toks ps ++ toks qs) := by
  refine ⟨ps.map Prod.snd, qs.map Prod.snd, rfl, directives_tokens h2 ps rfl h1, ?_, ?_⟩
  · clear h4
    induction qs with
    | nil => exact .nil
    | cons q qs ih =>
      exact .cons ⟨_, _, rfl, h3 q (by simp)⟩ (ih fun q hq => h3 q (by simp [hq]))
  · intro s d hs hd
    cases qs with
    | nil => simp [trees] at hs
    | cons q qs =>
      simp only [trees, List.map_cons, List.head?_cons, Option.some.injEq] at hs
      subst hs
      have h5 := h3 q (by simp)
      obtain ⟨t, ht, h6⟩ := directive_tokens h5 hd
      have h7 := h5.span _ rfl (stmtSpan q.1) rfl
      have hh : q.2.head? = some t := by rcases h6 with h6 | ⟨c, -, h6⟩ <;> rw [h6] <;> rfl
      obtain ⟨a, b, ha, hb, e⟩ := h7
      rw [hh] at ha
      cases ha
      rw [e]
      refine h4 t ?_ _ ht
      rcases h6 with h6 | ⟨c, -, h6⟩ <;> simp [toks, h6]

/-- **C36**, scripts and modules: the tokens of the source are those of the directives, in this order, followed by those of the statements
in the body; and the directives end before a string literal only where another statement can be read. -/
theorem C36_program {styp : SourceType} {src : Str} {p : Program} (h : Accepts styp src p) :
    ∃ ts, SourceTokens [] true src ts ∧ Prologue src styp p.directives p.body ts := by
  obtain ⟨ts, h1, h2⟩ := h.sound
  obtain ⟨ps, qs, rfl, h3, h4, h5, h6, h7⟩ := h2.parts
  exact ⟨_, h1, h6 ▸ prologue_of h3 h4 h5 h7⟩

/-- **C36**, functions, methods and arrow functions: the same between the braces of the body. -/
theorem C36_bodies {styp : SourceType} {src : Str} {p : Program} (h : Accepts styp src p) {sp : Span} {ds : List LitString} {ss : List Stmt}
    {ms : List Node} (hp : Path p (.body (.mk sp ds ss) :: ms)) :
    ∃ ts us lb rb, SourceTokens [] true src ts ∧ lb :: us ++ [rb] <:+: ts ∧ Spans sp (lb :: us ++ [rb]) ∧
      lb.value = .punct p!"{" ∧ rb.value = .punct p!"}" ∧ Prologue src styp ds ss us := by
  obtain ⟨ts, ctx, us, g, h1, h2, h3, h4, -⟩ := h.at hp
  cases g <;> cases h3
  cases h4 with
  | body h5 h6 h7 h8 h9 h10 h11 =>
    exact ⟨ts, _, _, _, h1, by simpa using h2, by simpa using h11, h5, h10, prologue_of h6 h7 h8 h9⟩

/-- Directives and statements of scripts and functions. -/
example : letI := asciiID
    scriptHas c!"'a'\n\"use strict\"; 'b' + c; 'd'" (fun p => p.directives.length == 2 && useStrict p.directives && match p.body with
      | [.expr _ (.binary ..), .expr _ (.literal _ (.string _))] => true
      | _ => false) = true ∧
    scriptHas c!"function f() { 'a'; 'b'\n'c' }" (fun p => match p.body with
      | [.functionDecl _ _ _ _ _ (.mk _ [_, _, _] [])] => true
      | _ => false) = true := by decide +kernel

/-- **C36** departure: the directives are not always the longest possible initial part.  In this script the first statement is read as a
division.  When it turns out not to be a directive, it is read again; but now (because an error was caught while the lexer was in the
state in which regular expressions are allowed) `/` is the start of a regular expression, and the first statement of the body is `"a"`. -/
theorem C36_maximality_counterexample : letI := asciiID
    scriptHas c!"\"a\"\n/ d(/[0]+\"/,/*\"; (/* */function(){ for (f(function(){ b\n/c(/[/}/] }).x of y) ; })" (fun p =>
      p.directives.isEmpty && match p.body with
      | [.expr _ (.literal _ (.string _)), .expr _ (.binary _ _ (.member ..) _), .expr _ (.paren _ (.function ..))] => true
      | _ => false) = true := by decide +kernel

end Fajt.Props
