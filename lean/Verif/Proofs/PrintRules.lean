import Verif.Proofs.PrintMini
/-!
# The generator writes the items of every tree
-/
namespace Fajt.Print
open Fajt Spec
set_option linter.unusedSectionVars false
set_option linter.unusedSimpArgs false
set_option linter.unusedVariables false
variable [UnicodeID]

/-! ## Rules -/

section
variable {mini : Bool} {s : Lay} {ts : List (Lex × Bool)} {g : Gen} {js : List Item} {c : GCtx}

theorem At.space (hc : c.minified = mini) (h : At mini s ts g js) : At mini s ts (g.space c) (js ++ [.gap]) := space_both hc _ _ _ _ h
theorem At.newLine (hc : c.minified = mini) (h : At mini s ts g js) : At mini s ts (g.newLine c) (js ++ [.nl]) := newLine_both hc _ _ _ _ h
theorem At.exitStmt (hc : c.minified = mini) (h : At mini s ts g js) : At mini s ts (g.exitStmt c) (js ++ [.nl]) := exitStmt_both hc _ _ _ _ h
theorem At.separation (hc : c.minified = mini) (h : At mini s ts g js) : At mini s ts (g.separation c) (js ++ [.sep]) := separation_both hc _ _ _ _ h
theorem At.word (hc : c.minified = mini) (h : At mini s ts g js) (u : Str) : At mini s ts (g.string c u) (js ++ [Print.word u]) :=
  string_both hc (l := ⟨.plain, nameVal u, u⟩) nofun _ _ _ _ h
theorem At.litString (hc : c.minified = mini) (h : At mini s ts g js) (v : LitString) : At mini s ts (g.litString c v) (js ++ [strItem v]) :=
  litString_both hc v _ _ _ _ h
theorem At.num (hc : c.minified = mini) (h : At mini s ts g js) (u : Str) : At mini s ts (g.string c u) (js ++ [numItem u]) :=
  string_both hc (l := ⟨.plain, .lit (.number u), u⟩) nofun _ _ _ _ h
theorem At.regex (hc : c.minified = mini) (h : At mini s ts g js) (u : Str) : At mini s ts (g.string c u) (js ++ [regexItem u]) :=
  string_both hc (l := ⟨.regex, .lit (.regexp u), u⟩) nofun _ _ _ _ h
theorem At.ident (hc : c.minified = mini) (h : At mini s ts g js) (i : Ident) : At mini s ts (g.ident c i) (js ++ [Print.word i.name]) := h.word hc _

theorem punct_asStr {u : Str} {p : Punct} (h : Punct.fromStr u = some p) : p.asStr = u := by
  unfold Punct.fromStr at h
  simpa using List.find?_some h

theorem At.oper (hc : c.minified = mini) (h : At mini s ts g js) (u : Str) : At mini s ts (g.operator c u) (js ++ [Print.oper u]) := by
  unfold Print.oper Gen.operator
  cases hp : Punct.fromStr u with
  | none => exact h.word hc u
  | some p =>
    have := string_both hc (l := ⟨.plain, .punct p, p.asStr⟩) nofun _ _ _ _ h
    rw [punct_asStr hp] at this
    simpa [pu, punct_asStr hp] using this

theorem At.punct (hc : c.minified = mini) (h : At mini s ts g js) (p : Punct) {u : Str} (hu : u = p.asStr) : At mini s ts (g.string c u) (js ++ [pu p]) := by
  subst hu
  exact string_both hc (l := ⟨.plain, .punct p, p.asStr⟩) nofun _ _ _ _ h

theorem At.ch (hc : c.minified = mini) (h : At mini s ts g js) (p : Punct) {x : Char} (hx : p.asStr = [x]) (h1 : x.toNat < 128)
    (h2 : x.isAlphanum = false) : At mini s ts (g.char c x) (js ++ [pu p]) :=
  char_both hc (l := ⟨.plain, .punct p, p.asStr⟩) hx (alnum_of h1 h2) nofun _ _ _ _ h

theorem At.comma (hc : c.minified = mini) (h : At mini s ts g js) : At mini s ts (g.char c ',') (js ++ [pu p!","]) :=
  h.ch hc _ rfl (by decide) (by decide)
theorem At.semi (hc : c.minified = mini) (h : At mini s ts g js) : At mini s ts (g.char c ';') (js ++ [.semi]) := semi_both hc _ _ _ _ h
theorem At.puSemi (hc : c.minified = mini) (h : At mini s ts g js) : At mini s ts (g.char c ';') (js ++ [pu p!";"]) :=
  h.ch hc _ rfl (by decide) (by decide)
theorem At.colon (hc : c.minified = mini) (h : At mini s ts g js) : At mini s ts (g.char c ':') (js ++ [pu p!":"]) :=
  h.ch hc _ rfl (by decide) (by decide)
theorem At.dot (hc : c.minified = mini) (h : At mini s ts g js) : At mini s ts (g.char c '.') (js ++ [pu p!"."]) :=
  h.ch hc _ rfl (by decide) (by decide)
theorem At.star (hc : c.minified = mini) (h : At mini s ts g js) : At mini s ts (g.char c '*') (js ++ [pu p!"*"]) :=
  h.ch hc _ rfl (by decide) (by decide)
theorem At.eq (hc : c.minified = mini) (h : At mini s ts g js) : At mini s ts (g.char c '=') (js ++ [pu p!"="]) :=
  h.ch hc _ rfl (by decide) (by decide)
theorem At.quest (hc : c.minified = mini) (h : At mini s ts g js) : At mini s ts (g.char c '?') (js ++ [pu p!"?"]) :=
  h.ch hc _ rfl (by decide) (by decide)
theorem At.parenL (hc : c.minified = mini) (h : At mini s ts g js) : At mini s ts (g.char c '(') (js ++ [pu p!"("]) :=
  h.ch hc _ rfl (by decide) (by decide)
theorem At.parenR (hc : c.minified = mini) (h : At mini s ts g js) : At mini s ts (g.char c ')') (js ++ [pu p!")"]) :=
  h.ch hc _ rfl (by decide) (by decide)
theorem At.brackL (hc : c.minified = mini) (h : At mini s ts g js) : At mini s ts (g.char c '[') (js ++ [pu p!"["]) :=
  h.ch hc _ rfl (by decide) (by decide)
theorem At.brackR (hc : c.minified = mini) (h : At mini s ts g js) : At mini s ts (g.char c ']') (js ++ [pu p!"]"]) :=
  h.ch hc _ rfl (by decide) (by decide)
theorem At.braceL (hc : c.minified = mini) (h : At mini s ts g js) : At mini s ts (g.char c '{') (js ++ [pu p!"{"]) :=
  h.ch hc _ rfl (by decide) (by decide)
theorem At.braceR (hc : c.minified = mini) (h : At mini s ts g js) : At mini s ts (g.char c '}') (js ++ [pu p!"}"]) :=
  h.ch hc _ rfl (by decide) (by decide)
theorem At.dots (hc : c.minified = mini) (h : At mini s ts g js) : At mini s ts (g.string c c!"...") (js ++ [pu p!"..."]) := h.punct hc _ rfl
theorem At.fat (hc : c.minified = mini) (h : At mini s ts g js) : At mini s ts (g.string c c!"=>") (js ++ [pu p!"=>"]) := h.punct hc _ rfl
theorem At.optDot (hc : c.minified = mini) (h : At mini s ts g js) : At mini s ts (g.string c c!"?.") (js ++ [pu p!"?."]) := h.punct hc _ rfl
theorem At.doSp (hc : c.minified = mini) (h : At mini s ts g js) : At mini s ts (g.string c c!"do ") (js ++ [Print.word c!"do", .blank]) :=
  spaced_both hc (l := ⟨.plain, nameVal c!"do", c!"do"⟩) rfl (by decide) nofun _ _ _ _ h
theorem At.asyncSp (hc : c.minified = mini) (h : At mini s ts g js) : At mini s ts (g.string c c!"async ") (js ++ [Print.word c!"async", .blank]) :=
  spaced_both hc (l := ⟨.plain, nameVal c!"async", c!"async"⟩) rfl (by decide) nofun _ _ _ _ h
theorem At.caseSp (hc : c.minified = mini) (h : At mini s ts g js) : At mini s ts (g.string c c!"case ") (js ++ [Print.word c!"case", .blank]) :=
  spaced_both hc (l := ⟨.plain, nameVal c!"case", c!"case"⟩) rfl (by decide) nofun _ _ _ _ h
theorem At.debuggerS (hc : c.minified = mini) (h : At mini s ts g js) :
    At mini s ts (g.string c c!"debugger;") (js ++ [Print.word c!"debugger", .semi]) := debugger_both hc _ _ _ _ h
theorem At.withP (hc : c.minified = mini) (h : At mini s ts g js) :
    At mini s ts (g.string c c!"with(") (js ++ [Print.word c!"with", pu p!"("]) :=
  punct_both hc (l := ⟨.plain, nameVal c!"with", c!"with"⟩) (k := ⟨.plain, .punct p!"(", p!"(".asStr⟩) rfl (by decide) nofun rfl
    (alnum_of (by decide) (by decide)) nofun _ _ _ _ h
theorem At.exportDefault (hc : c.minified = mini) (h : At mini s ts g js) :
    At mini s ts (g.string c c!"export default") (js ++ [Print.word c!"export", .blank, Print.word c!"default"]) :=
  exportDefault_both hc _ _ _ _ h

/-- `?` and `.` make one token. -/
theorem At.questDot (hc : c.minified = mini) (h : At mini s ts g js) : At mini s ts ((g.char c '?').char c '.') (js ++ [pu p!"?."]) := by
  have h1 : UnicodeID.alphanumeric '?' = false := alnum_of (by decide) (by decide)
  have h2 := mid_charB hc (char_midB hc (x := '?') h) '.'
  exact mid_tokB (l := ⟨.plain, .punct p!"?.", p!"?.".asStr⟩) h2 (by simpa [Punct.asStr, Gen.isAlnum] using h1)

theorem At.child {f : GAct} {ks : List Item} (h : At mini s ts (f g) ks) : At mini s ts (Gen.child f g) ks := h.congr rfl rfl rfl
theorem At.askCol {ks : List Item} (h : At mini s ts g ks) : At mini s ts g.askCol ks := h.congr rfl rfl rfl
theorem At.skip {ks : List Item} {b : Bool} (h : At mini s ts g ks) : At mini s ts { g with skipNextSeparation := b } ks := h.congr rfl rfl rfl

theorem At.noted {ks : List Item} (h' : At mini s ts g js) (h : bare js = bare ks) : At mini s ts g ks := h'.notes h

theorem At.by {f : GAct} {is : List Item} (hf : Writes mini f is) (h : At mini s ts g js) : At mini s ts (f g) (js ++ is) := hf _ _ _ _ h

end

/-- The action writes the items in every context. -/
abbrev WritesC (f : GCtx → GAct) (is : List Item) : Prop :=
  ∀ ⦃mini : Bool⦄ ⦃c : GCtx⦄, c.minified = mini → ∀ ⦃s ts g js⦄, At mini s ts g js → At mini s ts (f c g) (js ++ is)

/-- The actions write the lists of items. -/
inductive Each (mini : Bool) : List GAct → List (List Item) → Prop
  | nil : Each mini [] []
  | cons {f : GAct} {fs : List GAct} {is : List Item} {iss : List (List Item)} : Writes mini f is → Each mini fs iss → Each mini (f :: fs) (is :: iss)

/-- The actions write the lists of items in every context. -/
abbrev EachC (fs : GCtx → List GAct) (iss : List (List Item)) : Prop :=
  ∀ ⦃mini : Bool⦄ ⦃c : GCtx⦄, c.minified = mini → Each mini (fs c) iss

theorem WritesC.at {f : GCtx → GAct} {is : List Item} (h : WritesC f is) {mini : Bool} {c : GCtx} (hc : c.minified = mini) : Writes mini (f c) is :=
  fun _ _ _ _ hg => h hc hg

theorem Each.comma {mini : Bool} {c : GCtx} (hc : c.minified = mini) : ∀ {fs : List GAct} {iss : List (List Item)}, Each mini fs iss →
    Writes mini (Gen.commaSep c fs) (commaItems iss)
  | _, _, .nil => Writes.id
  | _, _, .cons h .nil => h
  | _, _, .cons h (.cons h1 h2) => by
    intro s ts g js hg
    have := Each.comma hc (.cons h1 h2) _ _ _ _ (At.space hc (At.comma hc (h _ _ _ _ hg)))
    simpa [commaItems, Gen.commaSep] using this

theorem At.commas {mini : Bool} {s : Lay} {ts : List (Lex × Bool)} {g : Gen} {js : List Item} {c : GCtx} {fs : List GAct} {iss : List (List Item)}
    (hc : c.minified = mini) (h : Each mini fs iss) (hg : At mini s ts g js) : At mini s ts (Gen.commaSep c fs g) (js ++ commaItems iss) := h.comma hc _ _ _ _ hg

theorem At.block {mini : Bool} {s : Lay} {ts : List (Lex × Bool)} {g : Gen} {js : List Item} {c : GCtx} {f : GAct} {lines : List Item}
    (hc : c.minified = mini) (h : Writes mini f lines) (h0 : lines = [] → ∀ g, f g = g)
    (h1 : lines ≠ [] → ∀ s : Lay, (s.run (pretty lines)).open = false) (hg : At mini s ts g js) :
    At mini s ts ((Gen.child f (g.startBlock c)).endBlock c) (js ++ blockItems lines) := by
  unfold blockItems
  cases lines with
  | nil => exact empty_both hc (fun g => by rw [h0 rfl]; exact ⟨rfl, rfl, rfl⟩) _ _ _ _ hg
  | cons x xs => exact block_both hc h (h1 (by simp)) _ _ _ _ hg

section
variable (q : TokVal → Bool → Bool) (q2 : TokVal → TokVal → Bool) (b : Bool) (l : Lex) (is : List Item) (p : Punct) (u : Str) (v : LitString)
@[simp] theorem bare_nil : bare [] = [] := rfl
@[simp] theorem bare_next : bare (.next q :: is) = bare is := rfl
@[simp] theorem bare_lineEnds : bare (lineEnds :: is) = bare is := rfl
@[simp] theorem bare_next2 : bare (.next2 q2 :: is) = bare is := rfl
@[simp] theorem bare_more : bare (.more :: is) = bare is := rfl
@[simp] theorem bare_lexed : bare (.lexed :: is) = bare is := rfl
@[simp] theorem bare_demand : bare (.demand b :: is) = bare is := rfl
@[simp] theorem bare_gap : bare (.gap :: is) = .gap :: bare is := rfl
@[simp] theorem bare_blank : bare (.blank :: is) = .blank :: bare is := rfl
@[simp] theorem bare_semi : bare (.semi :: is) = .semi :: bare is := rfl
@[simp] theorem bare_close : bare (.close :: is) = .close :: bare is := rfl
@[simp] theorem bare_nl : bare (.nl :: is) = .nl :: bare is := rfl
@[simp] theorem bare_open : bare (.open :: is) = .open :: bare is := rfl
@[simp] theorem bare_sep : bare (.sep :: is) = .sep :: bare is := rfl
@[simp] theorem bare_still : bare (.still :: is) = .still :: bare is := rfl
@[simp] theorem bare_single : bare (.single b :: is) = .single b :: bare is := rfl
@[simp] theorem bare_pu : bare (pu p :: is) = pu p :: bare is := rfl
@[simp] theorem bare_word : bare (word u :: is) = word u :: bare is := rfl
@[simp] theorem bare_str : bare (strItem v :: is) = strItem v :: bare is := rfl
@[simp] theorem bare_num : bare (numItem u :: is) = numItem u :: bare is := rfl
@[simp] theorem bare_regex : bare (regexItem u :: is) = regexItem u :: bare is := rfl
@[simp] theorem bare_oper : bare (oper u :: is) = oper u :: bare is := by
  unfold oper; split <;> rfl
end

/-- One step of the rules. -/
macro "gw1" : tactic => `(tactic|
  with_reducible first
  | assumption
  | apply At.space | apply At.newLine | apply At.exitStmt | apply At.separation
  | apply At.questDot
  | apply At.comma | apply At.semi | apply At.colon | apply At.dot | apply At.star | apply At.eq | apply At.quest
  | apply At.parenL | apply At.parenR | apply At.brackL | apply At.brackR | apply At.braceL | apply At.braceR
  | apply At.dots | apply At.fat | apply At.optDot | apply At.doSp | apply At.asyncSp | apply At.caseSp | apply At.debuggerS | apply At.withP
  | apply At.exportDefault
  | apply At.litString | apply At.ident | apply At.oper | apply At.word
  | apply At.commas | apply At.child | apply At.askCol)

/-- Follow the generator with the rules and the given hypotheses, then compare the items. -/
syntax "gw" "[" ident,* "]" "[" Lean.Parser.Tactic.simpLemma,* "]" : tactic
macro_rules
  | `(tactic| gw [$hs:ident,*] [$ls,*]) => `(tactic|
      (apply At.noted
       · (repeat' first $[| with_reducible apply $hs]* | gw1 | (show GCtx.minified _ = _; assumption))
       · (simp [bare_append, notNext, sameLine, notString, yieldEnd, throwEnd, caseEnd, stmtStart, exportStart, gapIf, $ls,*])))

theorem nameItems_at {mini : Bool} {s : Lay} {ts : List (Lex × Bool)} {g : Gen} {js : List Item} {c : GCtx} (hc : c.minified = mini) (i : Ident)
    (hg : At mini s ts g js) : At mini s ts (g.ident c i) (js ++ nameItems i.name) := by
  unfold nameItems
  split
  · rename_i h
    unfold Gen.ident
    rw [h]
    exact still_both hc _ _ _ _ hg
  · exact hg.ident hc i

theorem optIdent_at {mini : Bool} {s : Lay} {ts : List (Lex × Bool)} {g : Gen} {js : List Item} {c : GCtx} (hc : c.minified = mini) (i : Option Ident)
    (hg : At mini s ts g js) : At mini s ts (g.optIdent c i) (js ++ optNameItems i) := by
  cases i with
  | none => simpa [optNameItems, Gen.optIdent] using hg
  | some i => exact hg.ident hc i

theorem directives_at : ∀ (ds : List LitString), WritesC (fun c g => g.directives c ds) (directiveItems ds)
  | [], _, c, hc, s, ts, g, js, hg => by simpa [directiveItems, Gen.directives] using hg
  | d :: ds, _, c, hc, s, ts, g, js, hg => by
    have := directives_at ds hc (((hg.litString hc d).semi hc).newLine hc)
    simpa [directiveItems, Gen.directives] using this

theorem namedImport_at (n : NamedImport) : WritesC (fun c => Gen.namedImport c n) (importItems n) := fun mini c hc s ts g js hg => by
  unfold Gen.namedImport importItems
  cases ha : n.alias <;> simp only [Gen.asAlias, id] <;> gw [] []

theorem namedExport_at (n : NamedExport) : WritesC (fun c => Gen.namedExport c n) (exportItems n) := fun mini c hc s ts g js hg => by
  unfold Gen.namedExport exportItems
  cases ha : n.aliasOf <;> simp only <;> gw [] []

theorem each_map {α : Type} (f : GCtx → α → GAct) (i : α → List Item) (h : ∀ a, WritesC (fun c => f c a) (i a)) :
    ∀ l : List α, EachC (fun c => l.map (f c)) (l.map i)
  | [], _, _, _ => .nil
  | a :: l, _, _, hc => .cons ((h a).at hc) (each_map f i h l hc)

theorem braces_at {α : Type} (f : GCtx → α → GAct) (i : α → List Item) (h : ∀ a, WritesC (fun c => f c a) (i a)) (l : List α) :
    WritesC (fun c => Gen.parenthesize c '{' (!l.isEmpty) (Gen.commaSep c (l.map (f c)))) (braces (l.map i)) := fun mini c hc s ts g js hg => by
  have h0 := each_map f i h l hc
  unfold Gen.parenthesize braces
  cases l with
  | nil =>
    simp only [List.isEmpty_nil, Bool.not_true, Bool.false_eq_true, if_false, Gen.closing]
    gw [h0] [List.map_nil, List.isEmpty_nil]
  | cons a l =>
    simp only [List.isEmpty_cons, Bool.not_false, if_true, Gen.closing]
    gw [h0] []

theorem importDecl_at (d ns : Option Ident) (n : Option (List NamedImport)) (v : LitString) :
    WritesC (fun c g => g.importDecl c d ns n v) (importDeclItems d ns n v) := fun mini c hc s ts g js hg => by
  have h0 := fun l : List NamedImport => braces_at Gen.namedImport importItems namedImport_at l
  unfold Gen.importDecl importDeclItems
  cases d <;> cases ns <;> cases n <;> simp only [Option.isSome_none, Option.isSome_some, Bool.false_eq_true, if_false, if_true,
    Bool.or_false, Bool.or_true, Bool.true_or, Bool.false_or] <;> gw [h0] []

end Fajt.Print
