import Verif.Proofs.Complete
import Verif.Props.Parser
import Verif.Spec.Ascii
/-!
# C45: texts that the parser must accept

`Spec.Core` is a grammar on texts: `Derives sty ctx g a b` says that the text between two points of a source is derived from
the symbol `g`.  It does not mention the parser.  The theorems of this file say that the parser accepts what is derived and
returns the tree of the derivation.
-/
namespace Fajt
open Spec
set_option linter.unusedSectionVars false
variable [UnicodeID]

namespace Props
open Complete Parser

/-- A parser function that runs from the start of a source, and does not run out of fuel, succeeds. -/
theorem parse_of_run {α : Type} {f : Rec → P α} {source : Str} {sty : SourceType} {x : α} {b : Point} {q : Nat}
    (h : ∀ n, Run sty (f (mkRec n)) ⟨[], source, true⟩ 0 x b q) (hoof : parse f source sty ≠ .oof) :
    ∃ s, parse f source sty = .ok x s := by
  unfold parse at hoof ⊢
  rw [start_eq] at hoof ⊢
  rcases h (enoughFuel source) with h | h
  · exact absurd h hoof
  · exact ⟨_, h⟩

/-- **C45**.  Every text that is derived from the expression grammar and is not continued by the token that follows it is
accepted, and the result is the tree of the derivation. -/
theorem C45_expressions {source : Str} {sty : SourceType} {e : Expr} {b : Point}
    (h : Derives sty { in_ := true } (.expr 0 e) ⟨[], source, true⟩ b) (he : Ends sty { in_ := true } 0 b) :
    ∃ s, parseExpr source sty = .ok e s :=
  parse_of_run (fun n => ExprOK.parse (complete h) he n 0) (C19_entry_points_terminate source sty).1

/-- A text has at most one derivation as an expression: two derivations end with the same tree. -/
theorem C45_unambiguous {source : Str} {sty : SourceType} {e e' : Expr} {b b' : Point}
    (h : Derives sty { in_ := true } (.expr 0 e) ⟨[], source, true⟩ b) (he : Ends sty { in_ := true } 0 b)
    (h' : Derives sty { in_ := true } (.expr 0 e') ⟨[], source, true⟩ b') (he' : Ends sty { in_ := true } 0 b') : e = e' := by
  obtain ⟨s, hs⟩ := C45_expressions h he
  obtain ⟨s', hs'⟩ := C45_expressions h' he'
  rw [hs] at hs'
  injection hs'

/-! ## C49: statements and programs -/

/-- **C49**.  Every text that is derived from the statement grammar is accepted, and the result is the tree of the
derivation. -/
theorem C49_statements {source : Str} {sty : SourceType} {s : Stmt} {b : Point}
    (h : Derives sty {} (.item s) ⟨[], source, true⟩ b) : ∃ st, parseStmt source sty = .ok s st :=
  parse_of_run (fun n => ItemOK.run (complete h) n 0) (C19_entry_points_terminate source sty).2

/-- **C49**.  Every text that is derived from the program grammar is accepted, as a script or as a module, and the result is
the tree of the derivation. -/
theorem C49_programs {source : Str} {sty : SourceType} {p : Program} (h : DerivesProgram sty source p) :
    ∃ st, parse program source sty = .ok p st := by
  obtain ⟨ty, sp, ds, ss⟩ := p
  obtain ⟨rfl, m, b, h1, h2, h3⟩ := h
  have hd : DirsOK ty {} ds ⟨[], source, true⟩ m := complete h1
  have hi : ItemsOK ty { strict := containsStrict ds } ss m b := complete h2
  obtain ⟨q', hq, hr⟩ := hd 0
  have hq' : ss = [] → q' = b.fin := fun hs => by
    obtain ⟨rfl, he⟩ := hi.nil hs
    rcases hq rfl with h | ⟨t, c, hn⟩
    · exact h
    · have := stateAt_cur hn 0
      rw [(atEnd_cur 0).1 he] at this; cases this
  have hoof : parse program source ty ≠ .oof := by
    cases ty
    · exact (C19_parse_terminates source).2.1
    · exact (C19_parse_terminates source).1
  refine parse_of_run (b := b) (q := b.fin) (fun n => ?_) hoof
  have hty : Run ty (M.gets fun s => s.sourceType) b b.fin ty b b.fin := Run.gets rfl
  rcases h3 with h3 | ⟨h3, h4⟩
  · obtain ⟨t, c, hn, hsp⟩ := h3
    have hsp : sp = _ := hsp
    rw [hsp]
    exact Run.bind (run_position hn) (Run.bind (hr n _ []) (Run.bind (hi.run n _ _ [] hq') (Run.bind (run_spanFrom _)
      (Run.bind hty (Run.pure _)))))
  · have h4 : sp = ⟨0, 0⟩ := h4
    rw [h4]
    have hpos : Run ty position ⟨[], source, true⟩ 0 0 ⟨[], source, true⟩ 0 := Run.gets (by
      rw [(atEnd_cur 0).1 h3]; rfl)
    have hno : ∀ t c, ¬ Next ty ⟨[], source, true⟩ t c := fun t c hn => by
      have := stateAt_cur hn 0
      rw [(atEnd_cur 0).1 h3] at this; cases this
    have hm : m = ⟨[], source, true⟩ := by
      cases h1 with
      | directivesEnd _ => rfl
      | directivesStop hn => exact absurd hn (hno _ _)
      | directivesMore hn => exact absurd hn (hno _ _)
    have hb : b = m := by
      cases ss with
      | nil => exact (hi.nil rfl).1
      | cons x xs =>
        obtain ⟨t, c, hn⟩ := hi.head nofun
        rw [hm] at hn
        exact absurd hn (hno _ _)
    have hf : 0 = b.fin := by rw [hb, hm]; rfl
    have hsp : Run ty (spanFrom 0) b b.fin ⟨0, 0⟩ b b.fin := by
      have := run_spanFrom (sty := ty) (a := b) (q := b.fin) 0
      rwa [← hf] at this ⊢
    exact Run.bind hpos (Run.bind (hr n _ []) (Run.bind (hi.run n _ _ [] hq') (Run.bind hsp
      (Run.bind hty (Run.pure _)))))

/-- A text has at most one derivation as a program. -/
theorem C49_unambiguous {source : Str} {sty : SourceType} {p p' : Program} (h : DerivesProgram sty source p)
    (h' : DerivesProgram sty source p') : p = p' := by
  obtain ⟨s, hs⟩ := C49_programs h
  obtain ⟨s', hs'⟩ := C49_programs h'
  rw [hs] at hs'
  injection hs'

end Props
end Fajt

/-! ## A text that is derived

`x = f(a).b * -2` -/

namespace Fajt.Props
open Fajt Spec Complete
local instance : UnicodeID := asciiID

/-- The lexer tells what the next token is. -/
theorem next_of_read {sty : SourceType} {a b : Point} {t : Token}
    (h : (match Lexer.read (lexSt sty) (cursor a) with
      | .ok t' c' => decide (t' = t ∧ c' = cursor b ∧ src a = src b)
      | _ => false) = true) : Next sty a t b := by
  split at h
  · rename_i t' c' he
    simp only [decide_eq_true_eq] at h
    obtain ⟨rfl, rfl, h3⟩ := h
    rcases next_or_none sty a with ⟨u, d, hn⟩ | ⟨hn, e, he'⟩
    · rw [next_read hn] at he
      injection he with h1 h2
      rw [← h1, ← cursor_inj (by rw [next_src hn, h3]) h2]
      exact hn
    · unfold lexAt at he'
      rw [he] at he'
      cases he'
  · cases h

theorem ends_of_eof {sty : SourceType} {ctx : Ctx} {a : Point} {k : Nat} (h : a.rest = []) : Ends sty ctx k a := by
  intro t b hn
  obtain ⟨pre, rest, fol⟩ := a
  subst h
  generalize ha : (⟨pre, [], fol⟩ : Point) = a at hn
  cases hn with
  | intro _ _ hw _ _ => simp at ha; exact absurd ha.2.1.2.1 hw

/-- The point after the first `k` characters of the example. -/
def exPt (k : Nat) : Point := ⟨c!"x = f(a).b * -2".take k, c!"x = f(a).b * -2".drop k, k = 0⟩

/-- A token of the example. -/
def exTok (v : TokVal) (i j : Nat) : Token := ⟨v, i = 0, ⟨i, j⟩⟩

/-- The tree of the example. -/
def exTree : Expr :=
  .assign ⟨0, 15⟩ .assign (.expr (.ident ⟨⟨0, 1⟩, c!"x"⟩))
    (.binary ⟨4, 15⟩ .mul
      (.member ⟨4, 10⟩ (.expr (.call ⟨4, 8⟩ (.expr (.ident ⟨⟨4, 5⟩, c!"f"⟩)) ⟨5, 8⟩ [.expr (.ident ⟨⟨6, 7⟩, c!"a"⟩)]))
        (.ident ⟨⟨9, 10⟩, c!"b"⟩))
      (.unary ⟨13, 15⟩ .minus (.literal ⟨14, 15⟩ (.number c!"2"))))

theorem ex_derives : Derives .script { in_ := true } (.expr 0 exTree) (exPt 0) (exPt 15) := by
  have e0 : Next .script (exPt 0) (exTok (.ident c!"x") 0 1) (exPt 1) := next_of_read (by decide +kernel)
  have e1 : Next .script (exPt 1) (exTok (.punct p!"=") 2 3) (exPt 3) := next_of_read (by decide +kernel)
  have e2 : Next .script (exPt 3) (exTok (.ident c!"f") 4 5) (exPt 5) := next_of_read (by decide +kernel)
  have e3 : Next .script (exPt 5) (exTok (.punct p!"(") 5 6) (exPt 6) := next_of_read (by decide +kernel)
  have e4 : Next .script (exPt 6) (exTok (.ident c!"a") 6 7) (exPt 7) := next_of_read (by decide +kernel)
  have e5 : Next .script (exPt 7) (exTok (.punct p!")") 7 8) (exPt 8) := next_of_read (by decide +kernel)
  have e6 : Next .script (exPt 8) (exTok (.punct p!".") 8 9) (exPt 9) := next_of_read (by decide +kernel)
  have e7 : Next .script (exPt 9) (exTok (.ident c!"b") 9 10) (exPt 10) := next_of_read (by decide +kernel)
  have e8 : Next .script (exPt 10) (exTok (.punct p!"*") 11 12) (exPt 12) := next_of_read (by decide +kernel)
  have e9 : Next .script (exPt 12) (exTok (.punct p!"-") 13 14) (exPt 14) := next_of_read (by decide +kernel)
  have e10 : Next .script (exPt 14) (exTok (.lit (.number c!"2")) 14 15) (exPt 15) :=
    next_of_read (by decide +kernel)
  have up : ∀ {l e a b}, Derives .script { in_ := true } (.expr (l + 1) e) a b → l ≤ 17 ∨ l = 20 →
      Derives .script { in_ := true } (.expr l e) a b := fun h hl => .up hl h
  have down : ∀ {e a b}, Derives .script { in_ := true } (.expr 21 e) a b →
      Derives .script { in_ := true } (.expr 18 e) a b := fun h => .newLhs (.newMember (.up (by decide) h))
  have hx : Derives .script { in_ := true } (.expr 17 (.ident ⟨⟨0, 1⟩, c!"x"⟩)) (exPt 0) (exPt 1) :=
    up (down (.identRef e0 (.ident rfl) nofun)) (by decide)
  have hf : Derives .script { in_ := true } (.expr 20 (.ident ⟨⟨4, 5⟩, c!"f"⟩)) (exPt 3) (exPt 5) :=
    up (.identRef e2 (.ident rfl) nofun) (by decide)
  have ha : Derives .script { in_ := true } (.expr 17 (.ident ⟨⟨6, 7⟩, c!"a"⟩)) (exPt 6) (exPt 7) :=
    up (down (.identRef e4 (.ident rfl) nofun)) (by decide)
  have h2 : Derives .script { in_ := true } (.expr 17 (.literal ⟨14, 15⟩ (.number c!"2"))) (exPt 14) (exPt 15) :=
    up (down (.number e10 rfl)) (by decide)
  have a1 : Derives .script { in_ := true } (.expr 1 (.ident ⟨⟨6, 7⟩, c!"a"⟩)) (exPt 6) (exPt 7) := by
    iterate 15 refine up ?_ (by decide)
    exact up ha (by decide)
  have hcall := Derives.call (ctx := { in_ := true }) (sp := ⟨4, 8⟩) (asp := ⟨5, 8⟩) hf
    (.args ⟨_, e3, rfl⟩ (.argsLast (.argExpr a1) ⟨_, e5, rfl⟩) ⟨_, _, e3, rfl⟩) ⟨_, _, e2, rfl⟩
  have hm := Derives.callMember (sp := ⟨4, 10⟩) hcall (.memberName ⟨_, e6, rfl⟩ e7 (.ident rfl)) ⟨_, _, e2, rfl⟩
  have hm' := up (.callLhs hm) (by decide)
  have hneg := Derives.unary (op := .minus) (sp := ⟨13, 15⟩) e9 rfl (up (up h2 (by decide)) (by decide)) nofun ⟨_, _, e9, rfl⟩
  have hmul := Derives.binary (op := .mul) (sp := ⟨4, 15⟩) (up (up (up (up hm' (by decide)) (by decide)) (by decide)) (by decide))
    e8 rfl nofun (up hneg (by decide)) ⟨_, _, e2, rfl⟩
  refine up (.assign hx ?_ ?_ e1 rfl ?_ ⟨_, _, e0, rfl⟩) (by decide)
  · exact (look_iff e0).2 nofun
  · exact ⟨.ident _, nofun⟩
  · iterate 12 refine up ?_ (by decide)
    exact hmul

/-- The theorem applies to the example. -/
example : ∃ s, Parser.parseExpr c!"x = f(a).b * -2" .script = .ok exTree s := C45_expressions ex_derives (ends_of_eof rfl)

end Fajt.Props

/-! ## A program that is derived

`"use strict"; function f(a, b = 1) { return a } while (x) { let y = f(x); }` -/

namespace Fajt.Props
open Fajt Spec Complete
local instance : UnicodeID := asciiID

/-- The text of the example. -/
def progText : Str := c!"\"use strict\"; function f(a, b = 1) { return a } while (x) { let y = f(x); }"

/-- The point after the first `k` characters of the example. -/
def progPt (k : Nat) : Point := ⟨progText.take k, progText.drop k, k = 0⟩

/-- The tree of the example. -/
def progTree : Program :=
  ⟨.script, ⟨0, 75⟩, [⟨c!"use strict", '"'⟩],
    [.functionDecl ⟨14, 47⟩ false false ⟨⟨23, 24⟩, c!"f"⟩
      (.mk ⟨24, 34⟩ [.mk ⟨25, 26⟩ (.ident ⟨⟨25, 26⟩, c!"a"⟩) none,
        .mk ⟨28, 33⟩ (.ident ⟨⟨28, 29⟩, c!"b"⟩) (some (.literal ⟨32, 33⟩ (.number c!"1")))] none)
      (.mk ⟨35, 47⟩ [] [.return ⟨37, 45⟩ (some (.ident ⟨⟨44, 45⟩, c!"a"⟩))]),
     .while ⟨48, 75⟩ (.ident ⟨⟨55, 56⟩, c!"x"⟩) (.block (.mk ⟨58, 75⟩
      [.variable (.mk ⟨60, 73⟩ .let_ [.mk ⟨64, 72⟩ (.ident ⟨⟨64, 65⟩, c!"y"⟩)
        (some (.call ⟨68, 72⟩ (.expr (.ident ⟨⟨68, 69⟩, c!"f"⟩)) ⟨69, 72⟩ [.expr (.ident ⟨⟨70, 71⟩, c!"x"⟩)]))])]))]⟩

theorem up_all {sty : SourceType} {ctx : Ctx} {e : Expr} {a b : Point} (h : Derives sty ctx (.expr 18 e) a b) {l : Nat} (hl : l ≤ 18) :
    Derives sty ctx (.expr l e) a b := by
  obtain ⟨k, rfl⟩ : ∃ k, l = 18 - k := ⟨18 - l, by omega⟩
  clear hl
  induction k with
  | zero => exact h
  | succ k ih =>
    by_cases hk : k < 18
    · have : 18 - k = 18 - (k + 1) + 1 := by omega
      rw [this] at ih
      exact .up (.inl (by omega)) ih
    · rwa [show 18 - (k + 1) = 18 - k by omega]

theorem up_primary {sty : SourceType} {ctx : Ctx} {e : Expr} {a b : Point} (h : Derives sty ctx (.expr 21 e) a b) {l : Nat}
    (hl : l ≤ 18) : Derives sty ctx (.expr l e) a b := up_all (.newLhs (.newMember (.up (.inr rfl) h))) hl

theorem ends_sym {sty : SourceType} {ctx : Ctx} {p : Punct} {a b : Point} {k : Nat} (h : Sym sty p a b)
    (hp : p ∈ [p!")", p!";", p!":", p!"]", p!"}"]) : Ends sty ctx k a := Complete.ends_sym h hp

theorem prog_derives : DerivesProgram .script progText progTree := by
  have e0 : Next .script (progPt 0) (exTok (.lit (.string ⟨c!"use strict", '"'⟩)) 0 12) (progPt 12) := next_of_read (by decide +kernel)
  have e1 : Next .script (progPt 12) (exTok (.punct p!";") 12 13) (progPt 13) := next_of_read (by decide +kernel)
  have e2 : Next .script (progPt 13) (exTok (.keyword k!"function") 14 22) (progPt 22) := next_of_read (by decide +kernel)
  have e3 : Next .script (progPt 22) (exTok (.ident c!"f") 23 24) (progPt 24) := next_of_read (by decide +kernel)
  have e4 : Next .script (progPt 24) (exTok (.punct p!"(") 24 25) (progPt 25) := next_of_read (by decide +kernel)
  have e5 : Next .script (progPt 25) (exTok (.ident c!"a") 25 26) (progPt 26) := next_of_read (by decide +kernel)
  have e6 : Next .script (progPt 26) (exTok (.punct p!",") 26 27) (progPt 27) := next_of_read (by decide +kernel)
  have e7 : Next .script (progPt 27) (exTok (.ident c!"b") 28 29) (progPt 29) := next_of_read (by decide +kernel)
  have e8 : Next .script (progPt 29) (exTok (.punct p!"=") 30 31) (progPt 31) := next_of_read (by decide +kernel)
  have e9 : Next .script (progPt 31) (exTok (.lit (.number c!"1")) 32 33) (progPt 33) := next_of_read (by decide +kernel)
  have e10 : Next .script (progPt 33) (exTok (.punct p!")") 33 34) (progPt 34) := next_of_read (by decide +kernel)
  have e11 : Next .script (progPt 34) (exTok (.punct p!"{") 35 36) (progPt 36) := next_of_read (by decide +kernel)
  have e12 : Next .script (progPt 36) (exTok (.keyword k!"return") 37 43) (progPt 43) := next_of_read (by decide +kernel)
  have e13 : Next .script (progPt 43) (exTok (.ident c!"a") 44 45) (progPt 45) := next_of_read (by decide +kernel)
  have e14 : Next .script (progPt 45) (exTok (.punct p!"}") 46 47) (progPt 47) := next_of_read (by decide +kernel)
  have e15 : Next .script (progPt 47) (exTok (.keyword k!"while") 48 53) (progPt 53) := next_of_read (by decide +kernel)
  have e16 : Next .script (progPt 53) (exTok (.punct p!"(") 54 55) (progPt 55) := next_of_read (by decide +kernel)
  have e17 : Next .script (progPt 55) (exTok (.ident c!"x") 55 56) (progPt 56) := next_of_read (by decide +kernel)
  have e18 : Next .script (progPt 56) (exTok (.punct p!")") 56 57) (progPt 57) := next_of_read (by decide +kernel)
  have e19 : Next .script (progPt 57) (exTok (.punct p!"{") 58 59) (progPt 59) := next_of_read (by decide +kernel)
  have e20 : Next .script (progPt 59) (exTok (.keyword k!"let") 60 63) (progPt 63) := next_of_read (by decide +kernel)
  have e21 : Next .script (progPt 63) (exTok (.ident c!"y") 64 65) (progPt 65) := next_of_read (by decide +kernel)
  have e22 : Next .script (progPt 65) (exTok (.punct p!"=") 66 67) (progPt 67) := next_of_read (by decide +kernel)
  have e23 : Next .script (progPt 67) (exTok (.ident c!"f") 68 69) (progPt 69) := next_of_read (by decide +kernel)
  have e24 : Next .script (progPt 69) (exTok (.punct p!"(") 69 70) (progPt 70) := next_of_read (by decide +kernel)
  have e25 : Next .script (progPt 70) (exTok (.ident c!"x") 70 71) (progPt 71) := next_of_read (by decide +kernel)
  have e26 : Next .script (progPt 71) (exTok (.punct p!")") 71 72) (progPt 72) := next_of_read (by decide +kernel)
  have e27 : Next .script (progPt 72) (exTok (.punct p!";") 72 73) (progPt 73) := next_of_read (by decide +kernel)
  have e28 : Next .script (progPt 73) (exTok (.punct p!"}") 74 75) (progPt 75) := next_of_read (by decide +kernel)
  refine ⟨rfl, progPt 13, progPt 75, ?_, ?_, .inl ⟨_, _, e0, rfl⟩⟩
  · refine .directivesMore e0 rfl (ends_sym ⟨_, e1, rfl⟩ (by decide)) (.inl ⟨_, e1, rfl⟩) (.directivesEnd ((look_iff e2).2 nofun))
  · refine .itemsMore (.itemDecl (.functionDecl (o := progPt 22) ⟨_, e2, rfl⟩ rfl (.inl ⟨_, e3, .ident rfl⟩) (.params ⟨_, e4, rfl⟩
      (.paramsMore (.bindingElement (.bindingIdent e5 (.ident rfl)) .noInitializer ⟨_, _, e5, rfl⟩) ⟨_, e6, rfl⟩
        (.paramsLast (.bindingElement (.bindingIdent e7 (.ident rfl)) (.initializer ⟨_, e8, rfl⟩
          (up_primary (.number e9 rfl) (by decide))) ⟨_, _, e7, rfl⟩) ⟨_, e10, rfl⟩)) ⟨_, _, e4, rfl⟩)
      (.body ⟨_, e11, rfl⟩ (.directivesEnd ((look_iff e12).2 nofun)) (.stmtsMore (.itemStmt (.returnExpr rfl ⟨_, e12, rfl⟩
        ((look_iff e13).2 rfl) (up_primary (.identRef e13 (.ident rfl) nofun) (by decide)) (ends_sym ⟨_, e14, rfl⟩ (by decide))
        (.inr ⟨rfl, .inr ⟨_, _, e14, nofun, .inl rfl⟩⟩) ⟨_, _, e12, rfl⟩)) (.stmtsEnd ⟨_, e14, rfl⟩)) ⟨_, _, e11, rfl⟩)
      ⟨_, _, e2, rfl⟩)) ?_
    refine .itemsMore (.itemStmt (.while ⟨_, e15, rfl⟩ ⟨_, e16, rfl⟩ (up_primary (.identRef e17 (.ident rfl) nofun) (by decide))
      ⟨_, e18, rfl⟩ (.blockS (.block ⟨_, e19, rfl⟩ (.stmtsMore (.itemDecl (.lexical (k := .let_) e20 nofun rfl (.varDeclsLast
        (.varDecl (.bindingIdent e21 (.ident rfl)) (.initializer ⟨_, e22, rfl⟩ (up_all (.callLhs (.call
          (.up (.inr rfl) (.identRef e23 (.ident rfl) nofun)) (.args ⟨_, e24, rfl⟩ (.argsLast (.argExpr
            (up_primary (.identRef e25 (.ident rfl) nofun) (by decide))) ⟨_, e26, rfl⟩) ⟨_, _, e24, rfl⟩) ⟨_, _, e23, rfl⟩))
          (by decide))) nofun ⟨_, _, e21, rfl⟩)) (ends_sym ⟨_, e27, rfl⟩ (by decide)) (.inl ⟨_, e27, rfl⟩) ⟨_, _, e20, rfl⟩))
        (.stmtsEnd ⟨_, e28, rfl⟩)) ⟨_, _, e19, rfl⟩)) ⟨_, _, e15, rfl⟩)) (.itemsEnd ?_)
    exact ⟨false, .nil⟩

/-- The theorem applies to the example. -/
example : ∃ s, Parser.parse Parser.program progText .script = .ok progTree s := C49_programs prog_derives

end Fajt.Props
