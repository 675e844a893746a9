import Verif.Model.Codegen
import Verif.Spec.TreeText
/-!
# Two runs of the code generator side by side

A relation between generator states that is kept by the primitive operations (for related contexts) is kept by the generation of
every tree.  The properties of the code generator are instances (unary invariants: relate a state with itself).
-/
set_option linter.unusedSectionVars false
set_option linter.unusedVariables false
set_option linter.unusedSimpArgs false
namespace Fajt
variable [UnicodeID]
open Gen

/-- Two actions keep the relation. -/
abbrev Pres (R : Gen → Gen → Prop) (f f' : GAct) : Prop := ∀ g g', R g g' → R (f g) (f' g')

/-- Two actions that depend on the context keep the relation in related contexts. -/
abbrev Pres₁ (C : GCtx → GCtx → Prop) (R : Gen → Gen → Prop) (f f' : GCtx → GAct) : Prop :=
  ∀ ⦃c c'⦄, C c c' → ∀ ⦃g g'⦄, R g g' → R (f c g) (f' c' g')

/-- Two lists related element by element. -/
inductive All2 {α : Type} (P : α → α → Prop) : List α → List α → Prop
  | nil : All2 P [] []
  | cons {a b l m} : P a b → All2 P l m → All2 P (a :: l) (b :: m)

/-- The primitive operations keep `R` in contexts related by `C`, if all characters written satisfy `T`. -/
structure Sim (C : GCtx → GCtx → Prop) (T : Char → Prop) (R : Gen → Gen → Prop) : Prop where
  printable : ∀ ch : Char, 32 ≤ ch.toNat → ch.toNat < 127 → T ch
  indented : ∀ {c c'}, C c c' → C c.indented c'.indented
  unaligned : ∀ {c c'}, C c c' → C c.unaligned c'.unaligned
  aligned : ∀ {c c' g g'}, C c c' → R g g' → C (c.aligned g.colPos) (c'.aligned g'.colPos)
  char : ∀ {ch}, T ch → Pres₁ C R (Gen.char · ch) (Gen.char · ch)
  string : ∀ {s}, (∀ ch ∈ s, T ch) → Pres₁ C R (Gen.string · s) (Gen.string · s)
  space : Pres₁ C R Gen.space Gen.space
  newLine : Pres₁ C R Gen.newLine Gen.newLine
  startBlock : Pres₁ C R Gen.startBlock Gen.startBlock
  endBlock : Pres₁ C R Gen.endBlock Gen.endBlock
  separation : Pres₁ C R Gen.separation Gen.separation
  exitStmt : Pres₁ C R Gen.exitStmt Gen.exitStmt
  removeSemi : ∀ {g g'}, R g g' → R (g.removeLast ';').2 (g'.removeLast ';').2
  askCol : ∀ {g g'}, R g g' → R g.askCol g'.askCol
  skip : ∀ {g g'}, R g g' → R { g with skipNextSeparation := true } { g' with skipNextSeparation := true }
  child : ∀ {f f' g g'}, R g g' → R (f g) (f' g') → R (Gen.child f g) (Gen.child f' g')

/-- The characters of the fixed texts of the generator. -/
def Printable (s : Str) : Bool := s.all fun ch => decide (32 ≤ ch.toNat) && decide (ch.toNat < 127)

variable {C : GCtx → GCtx → Prop} {T : Char → Prop} {R : Gen → Gen → Prop}

theorem Sim.lit (K : Sim C T R) {s : Str} (h : Printable s = true) : ∀ ch ∈ s, T ch := by
  intro ch hch
  have := List.all_eq_true.1 h ch hch
  simp only [Bool.and_eq_true, decide_eq_true_eq] at this
  exact K.printable ch this.1 this.2

theorem Sim.litChar (K : Sim C T R) {ch : Char} (h : Printable [ch] = true) : T ch := K.lit h ch (by simp)

theorem Sim.strLit (K : Sim C T R) {s : Str} (h : Printable s = true) {c c'} (hc : C c c') {g g'} (hg : R g g') :
    R (g.string c s) (g'.string c' s) := K.string (K.lit h) hc hg

theorem Sim.chLit (K : Sim C T R) {ch : Char} (h : Printable [ch] = true) {c c'} (hc : C c c') {g g'} (hg : R g g') :
    R (g.char c ch) (g'.char c' ch) := K.char (K.litChar h) hc hg

theorem Sim.op (K : Sim C T R) {s : Str} (h : Printable s = true) {c c'} (hc : C c c') {g g'} (hg : R g g') :
    R (g.operator c s) (g'.operator c' s) := K.string (K.lit h) hc hg

theorem Sim.ite (K : Sim C T R) {p : Prop} [Decidable p] {a b a' b' : Gen} (h1 : R a a') (h2 : R b b') :
    R (if p then a else b) (if p then a' else b') := by split <;> assumption

theorem Sim.ident (K : Sim C T R) {i : Ident} (h : ∀ ch ∈ i.name, T ch) : Pres₁ C R (Gen.ident · i) (Gen.ident · i) :=
  fun _ _ hc _ _ hg => K.string h hc hg

theorem Sim.optIdent (K : Sim C T R) {i : Option Ident} (h : ∀ ch ∈ optIdentText i, T ch) :
    Pres₁ C R (Gen.optIdent · i) (Gen.optIdent · i) := fun _ _ hc _ _ hg => by
  cases i with
  | none => exact hg
  | some i => exact K.ident h hc hg

theorem Sim.asAlias (K : Sim C T R) {i : Option Ident} (h : ∀ ch ∈ optIdentText i, T ch) :
    Pres₁ C R (Gen.asAlias · i) (Gen.asAlias · i) := fun _ _ hc _ _ hg => by
  cases i with
  | none => exact hg
  | some i => exact K.ident h hc (K.space hc (K.strLit rfl hc (K.space hc hg)))

theorem Sim.litString (K : Sim C T R) {s : LitString} (h : ∀ ch ∈ s.text, T ch) :
    Pres₁ C R (Gen.litString · s) (Gen.litString · s) := fun _ _ hc _ _ hg => by
  simp only [LitString.text, List.forall_mem_cons] at h
  exact K.char h.1 hc (K.string h.2 hc (K.char h.1 hc hg))

theorem Sim.commaSep (K : Sim C T R) {c c'} (hc : C c c') : ∀ {l l' : List GAct}, All2 (Pres R) l l' →
    ∀ {g g'}, R g g' → R (Gen.commaSep c l g) (Gen.commaSep c' l' g')
  | _, _, .nil, _, _, hg => hg
  | _, _, .cons h .nil, _, _, hg => h _ _ hg
  | _, _, .cons h (.cons h1 h2), _, _, hg =>
    K.commaSep hc (.cons h1 h2) (K.space hc (K.chLit rfl hc (h _ _ hg)))

theorem closing_printable (ch : Char) : Printable [closing ch] = true := by
  unfold closing
  split <;> rfl

theorem Sim.parenthesize (K : Sim C T R) {op : Char} (ho : Printable [op] = true) {b : Bool} {f f' : GAct} {c c'} (hc : C c c')
    (hf : Pres R f f') {g g'} (hg : R g g') :
    R (Gen.parenthesize c op b f g) (Gen.parenthesize c' op b f' g') := by
  unfold Gen.parenthesize
  refine K.chLit (closing_printable op) hc ?_
  cases b
  · exact hf _ _ (K.chLit ho hc hg)
  · exact K.space hc (hf _ _ (K.space hc (K.chLit ho hc hg)))

theorem Sim.directives (K : Sim C T R) {c c'} (hc : C c c') : ∀ {l : List LitString}, (∀ ch ∈ l.flatMap LitString.text, T ch) →
    ∀ {g g'}, R g g' → R (g.directives c l) (g'.directives c' l)
  | [], _, _, _, hg => hg
  | d :: ds, h, _, _, hg => by
    simp only [List.flatMap_cons, List.forall_mem_append] at h
    exact K.directives hc h.2 (K.newLine hc (K.chLit rfl hc (K.litString h.1 hc hg)))

theorem forall₂_map {α} (f f' : α → GAct) : ∀ l : List α, (∀ a ∈ l, Pres R (f a) (f' a)) →
    All2 (Pres R) (l.map f) (l.map f')
  | [], _ => .nil
  | a :: l, h => .cons (h a (by simp)) (forall₂_map f f' l fun b hb => h b (by simp [hb]))

theorem Sim.namedImport (K : Sim C T R) {n : NamedImport} (h : ∀ ch ∈ n.text, T ch) {c c'} (hc : C c c') :
    Pres R (Gen.namedImport c n) (Gen.namedImport c' n) := fun _ _ hg => by
  simp only [NamedImport.text, List.forall_mem_append] at h
  exact K.asAlias h.2 hc (K.ident h.1 hc hg)

theorem Sim.namedExport (K : Sim C T R) {n : NamedExport} (h : ∀ ch ∈ n.text, T ch) {c c'} (hc : C c c') :
    Pres R (Gen.namedExport c n) (Gen.namedExport c' n) := fun g g' hg => by
  simp only [NamedExport.text, List.forall_mem_append] at h
  unfold Gen.namedExport
  refine K.ident h.1 hc ?_
  cases ha : n.aliasOf with
  | none => exact hg
  | some a =>
    refine K.space hc (K.strLit rfl hc (K.space hc (K.ident ?_ hc hg)))
    simpa [ha, optIdentText] using h.2

theorem printable_binaryOp (o : BinaryOp) : Printable o.asStr = true := by cases o <;> rfl
theorem printable_logicalOp (o : LogicalOp) : Printable o.asStr = true := by cases o <;> rfl
theorem printable_unaryOp (o : UnaryOp) : Printable o.asStr = true := by cases o <;> rfl
theorem printable_updateOp (o : UpdateOp) : Printable o.asStr = true := by cases o <;> rfl
theorem printable_assignOp (o : AssignOp) : Printable o.asStr = true := by cases o <;> rfl
theorem printable_varKind (o : VarKind) : Printable o.asStr = true := by cases o <;> rfl

/-- One run of the rules. -/
macro "gsim1" K:ident : tactic => `(tactic|
  with_reducible first
  | assumption
  | apply Eq.refl
  | apply printable_binaryOp | apply printable_logicalOp | apply printable_unaryOp | apply printable_updateOp
  | apply printable_assignOp | apply printable_varKind
  | apply Sim.indented $K | apply Sim.unaligned $K | apply Sim.aligned $K
  | apply Sim.strLit $K | apply Sim.chLit $K | apply Sim.op $K | apply Sim.space $K | apply Sim.newLine $K
  | apply Sim.startBlock $K | apply Sim.endBlock $K | apply Sim.separation $K | apply Sim.exitStmt $K | apply Sim.removeSemi $K
  | apply Sim.askCol $K | apply Sim.skip $K | apply Sim.ite $K
  | apply Sim.ident $K | apply Sim.optIdent $K | apply Sim.asAlias $K | apply Sim.litString $K | apply Sim.commaSep $K
  | apply Sim.parenthesize $K | apply Sim.directives $K | apply Sim.child $K | apply Sim.string $K
  | (intro _ _ hg))

/-- Apply the rules and the given induction hypotheses as long as possible. -/
syntax "gsim" ident "[" ident,* "]" : tactic
macro_rules
  | `(tactic| gsim $K:ident [$hs:ident,*]) => `(tactic|
      repeat' first | (with_reducible apply Sim.string $K (by assumption)) | gsim1 $K | (show Printable _ = true; exact Eq.refl true) $[| with_reducible apply $hs]* | (simp_all [optIdentText]; done) | split)

theorem Sim.namedImports (K : Sim C T R) {l : List NamedImport} (hn : ∀ ch ∈ importsText (some l), T ch) {c c'} (hc : C c c') :
    Pres R (Gen.commaSep c (l.map (Gen.namedImport c))) (Gen.commaSep c' (l.map (Gen.namedImport c'))) := fun _ _ hg =>
  K.commaSep hc (forall₂_map _ _ l fun a ha => K.namedImport (fun ch h =>
    hn ch (by simp only [importsText, List.mem_flatMap]; exact ⟨a, ha, h⟩)) hc) hg

theorem Sim.namedExports (K : Sim C T R) {l : List NamedExport} (hn : ∀ ch ∈ l.flatMap NamedExport.text, T ch) {c c'} (hc : C c c') :
    Pres R (Gen.commaSep c (l.map (Gen.namedExport c))) (Gen.commaSep c' (l.map (Gen.namedExport c'))) := fun _ _ hg =>
  K.commaSep hc (forall₂_map _ _ l fun a ha => K.namedExport (fun ch h =>
    hn ch (by simp only [List.mem_flatMap]; exact ⟨a, ha, h⟩)) hc) hg

theorem Sim.importDecl (K : Sim C T R) {d ns : Option Ident} {n : Option (List NamedImport)} {src : LitString}
    (hd : ∀ ch ∈ optIdentText d, T ch) (hns : ∀ ch ∈ optIdentText ns, T ch) (hn : ∀ ch ∈ importsText n, T ch)
    (hs : ∀ ch ∈ src.text, T ch) {c c'} (hc : C c c') {g g'} (hg : R g g') :
    R (g.importDecl c d ns n src) (g'.importDecl c' d ns n src) := by
  cases n with
  | none =>
    cases ns <;> cases d <;> simp only [Gen.importDecl, optIdentText] at * <;> gsim K []
  | some l =>
    have h0 := K.namedImports hn hc
    cases ns <;> cases d <;> simp only [Gen.importDecl, optIdentText] at * <;> gsim K []

mutual

theorem Expr.gen_sim {C T R} (K : Sim C T R) : ∀ x : Expr, (∀ ch ∈ x.text, T ch) → Pres₁ C R (fun c => x.gen c) (fun c => x.gen c)
  | .arrow x0 x1 x2 x3 x4, h, c, c', hc, g, g', hg => by
    simp only [Expr.text, List.forall_mem_append] at h
    repeat (rcases h with ⟨h, _⟩)
    have h0 := x3.gen_sim K (by assumption)
    have h1 := x3.genBindings_sim K (by assumption)
    have h2 := x4.gen_sim K (by assumption)
    simp only [Expr.gen]
    gsim K [h0, h1, h2]
  | .assign x0 x1 x2 x3, h, c, c', hc, g, g', hg => by
    simp only [Expr.text, List.forall_mem_append] at h
    repeat (rcases h with ⟨h, _⟩)
    have h0 := x2.gen_sim K (by assumption)
    have h1 := x3.gen_sim K (by assumption)
    simp only [Expr.gen]
    gsim K [h0, h1]
  | .await x0 x1, h, c, c', hc, g, g', hg => by
    simp only [Expr.text, List.forall_mem_append] at h
    repeat (rcases h with ⟨h, _⟩)
    have h0 := x1.gen_sim K (by assumption)
    simp only [Expr.gen]
    gsim K [h0]
  | .binary x0 x1 x2 x3, h, c, c', hc, g, g', hg => by
    simp only [Expr.text, List.forall_mem_append] at h
    repeat (rcases h with ⟨h, _⟩)
    have h0 := x2.gen_sim K (by assumption)
    have h1 := x3.gen_sim K (by assumption)
    simp only [Expr.gen]
    gsim K [h0, h1]
  | .call x0 x1 x2 x3, h, c, c', hc, g, g', hg => by
    simp only [Expr.text, List.forall_mem_append] at h
    repeat (rcases h with ⟨h, _⟩)
    have h0 := x1.gen_sim K (by assumption)
    have h1 := argActs_sim K x3 (by assumption)
    simp only [Expr.gen]
    gsim K [h0, h1]
  | .classE x0 x1 x2 x3, h, c, c', hc, g, g', hg => by
    simp only [Expr.text, List.forall_mem_append] at h
    repeat (rcases h with ⟨h, _⟩)
    have h0 := genExtends_sim K x2 (by assumption)
    have h1 := genSpaced_sim K x2 (by assumption)
    have h2 := genOpt_sim K x2 (by assumption)
    have h3 := genInit_sim K x2 (by assumption)
    have h4 := genCaseTest_sim K x2 (by assumption)
    have h5 := elementsGen_sim K x3 (by assumption)
    simp only [Expr.gen]
    gsim K [h0, h1, h2, h3, h4, h5]
  | .conditional x0 x1 x2 x3, h, c, c', hc, g, g', hg => by
    simp only [Expr.text, List.forall_mem_append] at h
    repeat (rcases h with ⟨h, _⟩)
    have h0 := x1.gen_sim K (by assumption)
    have h1 := x2.gen_sim K (by assumption)
    have h2 := x3.gen_sim K (by assumption)
    simp only [Expr.gen]
    gsim K [h0, h1, h2]
  | .function x0 x1 x2 x3 x4 x5, h, c, c', hc, g, g', hg => by
    simp only [Expr.text, List.forall_mem_append] at h
    repeat (rcases h with ⟨h, _⟩)
    have h0 := x4.gen_sim K (by assumption)
    have h1 := x4.genBindings_sim K (by assumption)
    have h2 := x5.gen_sim K (by assumption)
    simp only [Expr.gen]
    gsim K [h0, h1, h2]
  | .ident x0, h, c, c', hc, g, g', hg => by
    simp only [Expr.text, List.forall_mem_append] at h
    repeat (rcases h with ⟨h, _⟩)
    simp only [Expr.gen]
    gsim K []
  | .literal x0 x1, h, c, c', hc, g, g', hg => by
    simp only [Expr.text, List.forall_mem_append] at h
    repeat (rcases h with ⟨h, _⟩)
    have h0 := x1.gen_sim K (by assumption)
    simp only [Expr.gen]
    gsim K [h0]
  | .logical x0 x1 x2 x3, h, c, c', hc, g, g', hg => by
    simp only [Expr.text, List.forall_mem_append] at h
    repeat (rcases h with ⟨h, _⟩)
    have h0 := x2.gen_sim K (by assumption)
    have h1 := x3.gen_sim K (by assumption)
    simp only [Expr.gen]
    gsim K [h0, h1]
  | .member x0 x1 x2, h, c, c', hc, g, g', hg => by
    simp only [Expr.text, List.forall_mem_append] at h
    repeat (rcases h with ⟨h, _⟩)
    have h0 := x1.gen_sim K (by assumption)
    have h1 := x2.gen_sim K (by assumption)
    simp only [Expr.gen]
    gsim K [h0, h1]
  | .metaProp x0 x1 x2, h, c, c', hc, g, g', hg => by
    simp only [Expr.text, List.forall_mem_append] at h
    repeat (rcases h with ⟨h, _⟩)
    simp only [Expr.gen]
    gsim K []
  | .new x0 x1 x2 x3, h, c, c', hc, g, g', hg => by
    simp only [Expr.text, List.forall_mem_append] at h
    repeat (rcases h with ⟨h, _⟩)
    have h0 := x1.gen_sim K (by assumption)
    have h1 := argActs_sim K x3 (by assumption)
    simp only [Expr.gen]
    gsim K [h0, h1]
  | .optCall x0 x1 x2 x3 x4, h, c, c', hc, g, g', hg => by
    simp only [Expr.text, List.forall_mem_append] at h
    repeat (rcases h with ⟨h, _⟩)
    have h0 := x1.gen_sim K (by assumption)
    have h1 := argActs_sim K x3 (by assumption)
    simp only [Expr.gen]
    gsim K [h0, h1]
  | .optMember x0 x1 x2 x3, h, c, c', hc, g, g', hg => by
    simp only [Expr.text, List.forall_mem_append] at h
    repeat (rcases h with ⟨h, _⟩)
    have h0 := x1.gen_sim K (by assumption)
    have h1 := x2.gen_sim K (by assumption)
    simp only [Expr.gen]
    gsim K [h0, h1]
  | .paren x0 x1, h, c, c', hc, g, g', hg => by
    simp only [Expr.text, List.forall_mem_append] at h
    repeat (rcases h with ⟨h, _⟩)
    have h0 := x1.gen_sim K (by assumption)
    simp only [Expr.gen]
    gsim K [h0]
  | .sequence x0 x1, h, c, c', hc, g, g', hg => by
    simp only [Expr.text, List.forall_mem_append] at h
    repeat (rcases h with ⟨h, _⟩)
    have h0 := exprActs_sim K x1 (by assumption)
    simp only [Expr.gen]
    gsim K [h0]
  | .tagged x0 x1 x2, h, c, c', hc, g, g', hg => by
    simp only [Expr.text, List.forall_mem_append] at h
    repeat (rcases h with ⟨h, _⟩)
    have h0 := x1.gen_sim K (by assumption)
    have h1 := partsGen_sim K x2 (by assumption)
    simp only [Expr.gen]
    gsim K [h0, h1]
  | .this x0, h, c, c', hc, g, g', hg => by
    simp only [Expr.text, List.forall_mem_append] at h
    repeat (rcases h with ⟨h, _⟩)
    simp only [Expr.gen]
    gsim K []
  | .unary x0 x1 x2, h, c, c', hc, g, g', hg => by
    simp only [Expr.text, List.forall_mem_append] at h
    repeat (rcases h with ⟨h, _⟩)
    have h0 := x2.gen_sim K (by assumption)
    simp only [Expr.gen]
    gsim K [h0]
  | .update x0 x1 x2 x3, h, c, c', hc, g, g', hg => by
    simp only [Expr.text, List.forall_mem_append] at h
    repeat (rcases h with ⟨h, _⟩)
    have h0 := x3.gen_sim K (by assumption)
    simp only [Expr.gen]
    gsim K [h0]
  | .yield x0 x1 x2, h, c, c', hc, g, g', hg => by
    simp only [Expr.text, List.forall_mem_append] at h
    repeat (rcases h with ⟨h, _⟩)
    have h0 := genExtends_sim K x1 (by assumption)
    have h1 := genSpaced_sim K x1 (by assumption)
    have h2 := genOpt_sim K x1 (by assumption)
    have h3 := genInit_sim K x1 (by assumption)
    have h4 := genCaseTest_sim K x1 (by assumption)
    simp only [Expr.gen]
    gsim K [h0, h1, h2, h3, h4]
termination_by structural x => x

theorem Literal.gen_sim {C T R} (K : Sim C T R) : ∀ x : Literal, (∀ ch ∈ x.text, T ch) → Pres₁ C R (fun c => x.gen c) (fun c => x.gen c)
  | .null, h, c, c', hc, g, g', hg => by
    simp only [Literal.text, List.forall_mem_append] at h
    repeat (rcases h with ⟨h, _⟩)
    simp only [Literal.gen]
    gsim K []
  | .boolean x0, h, c, c', hc, g, g', hg => by
    simp only [Literal.text, List.forall_mem_append] at h
    repeat (rcases h with ⟨h, _⟩)
    cases x0
    all_goals simp only [Literal.gen]
    all_goals gsim K []
  | .string x0, h, c, c', hc, g, g', hg => by
    simp only [Literal.text, List.forall_mem_append] at h
    repeat (rcases h with ⟨h, _⟩)
    simp only [Literal.gen]
    gsim K []
  | .number x0, h, c, c', hc, g, g', hg => by
    simp only [Literal.text, List.forall_mem_append] at h
    repeat (rcases h with ⟨h, _⟩)
    simp only [Literal.gen]
    gsim K []
  | .array x0, h, c, c', hc, g, g', hg => by
    simp only [Literal.text, List.forall_mem_append] at h
    repeat (rcases h with ⟨h, _⟩)
    have h0 := arrayActs_sim K x0 (by assumption)
    simp only [Literal.gen]
    gsim K [h0]
  | .object x0, h, c, c', hc, g, g', hg => by
    simp only [Literal.text, List.forall_mem_append] at h
    repeat (rcases h with ⟨h, _⟩)
    have h0 := propActs_sim K x0 (by assumption)
    simp only [Literal.gen]
    gsim K [h0]
  | .regexp x0, h, c, c', hc, g, g', hg => by
    simp only [Literal.text, List.forall_mem_append] at h
    repeat (rcases h with ⟨h, _⟩)
    simp only [Literal.gen]
    gsim K []
  | .template x0, h, c, c', hc, g, g', hg => by
    simp only [Literal.text, List.forall_mem_append] at h
    repeat (rcases h with ⟨h, _⟩)
    have h0 := partsGen_sim K x0 (by assumption)
    simp only [Literal.gen]
    gsim K [h0]
termination_by structural x => x

theorem TemplatePart.gen_sim {C T R} (K : Sim C T R) : ∀ x : TemplatePart, (∀ ch ∈ x.text, T ch) → Pres₁ C R (fun c => x.gen c) (fun c => x.gen c)
  | .string x0, h, c, c', hc, g, g', hg => by
    simp only [TemplatePart.text, List.forall_mem_append] at h
    repeat (rcases h with ⟨h, _⟩)
    simp only [TemplatePart.gen]
    gsim K []
  | .expr x0, h, c, c', hc, g, g', hg => by
    simp only [TemplatePart.text, List.forall_mem_append] at h
    repeat (rcases h with ⟨h, _⟩)
    have h0 := x0.gen_sim K (by assumption)
    simp only [TemplatePart.gen]
    gsim K [h0]
termination_by structural x => x

theorem ArrayElement.gen_sim {C T R} (K : Sim C T R) : ∀ x : ArrayElement, (∀ ch ∈ x.text, T ch) → Pres₁ C R (fun c => x.gen c) (fun c => x.gen c)
  | .elision, h, c, c', hc, g, g', hg => by
    simp only [ArrayElement.text, List.forall_mem_append] at h
    repeat (rcases h with ⟨h, _⟩)
    simp only [ArrayElement.gen]
    gsim K []
  | .expr x0, h, c, c', hc, g, g', hg => by
    simp only [ArrayElement.text, List.forall_mem_append] at h
    repeat (rcases h with ⟨h, _⟩)
    have h0 := x0.gen_sim K (by assumption)
    simp only [ArrayElement.gen]
    gsim K [h0]
  | .spread x0, h, c, c', hc, g, g', hg => by
    simp only [ArrayElement.text, List.forall_mem_append] at h
    repeat (rcases h with ⟨h, _⟩)
    have h0 := x0.gen_sim K (by assumption)
    simp only [ArrayElement.gen]
    gsim K [h0]
termination_by structural x => x

theorem PropDef.gen_sim {C T R} (K : Sim C T R) : ∀ x : PropDef, (∀ ch ∈ x.text, T ch) → Pres₁ C R (fun c => x.gen c) (fun c => x.gen c)
  | .identRef x0, h, c, c', hc, g, g', hg => by
    simp only [PropDef.text, List.forall_mem_append] at h
    repeat (rcases h with ⟨h, _⟩)
    simp only [PropDef.gen]
    gsim K []
  | .spread x0, h, c, c', hc, g, g', hg => by
    simp only [PropDef.text, List.forall_mem_append] at h
    repeat (rcases h with ⟨h, _⟩)
    have h0 := x0.gen_sim K (by assumption)
    simp only [PropDef.gen]
    gsim K [h0]
  | .named x0 x1 x2, h, c, c', hc, g, g', hg => by
    simp only [PropDef.text, List.forall_mem_append] at h
    repeat (rcases h with ⟨h, _⟩)
    have h0 := x1.gen_sim K (by assumption)
    have h1 := x2.gen_sim K (by assumption)
    simp only [PropDef.gen]
    gsim K [h0, h1]
  | .method x0, h, c, c', hc, g, g', hg => by
    simp only [PropDef.text, List.forall_mem_append] at h
    repeat (rcases h with ⟨h, _⟩)
    have h0 := x0.gen_sim K (by assumption)
    simp only [PropDef.gen]
    gsim K [h0]
termination_by structural x => x

theorem PropName.gen_sim {C T R} (K : Sim C T R) : ∀ x : PropName, (∀ ch ∈ x.text, T ch) → Pres₁ C R (fun c => x.gen c) (fun c => x.gen c)
  | .ident x0, h, c, c', hc, g, g', hg => by
    simp only [PropName.text, List.forall_mem_append] at h
    repeat (rcases h with ⟨h, _⟩)
    simp only [PropName.gen]
    gsim K []
  | .string x0, h, c, c', hc, g, g', hg => by
    simp only [PropName.text, List.forall_mem_append] at h
    repeat (rcases h with ⟨h, _⟩)
    simp only [PropName.gen]
    gsim K []
  | .number x0, h, c, c', hc, g, g', hg => by
    simp only [PropName.text, List.forall_mem_append] at h
    repeat (rcases h with ⟨h, _⟩)
    simp only [PropName.gen]
    gsim K []
  | .computed x0, h, c, c', hc, g, g', hg => by
    simp only [PropName.text, List.forall_mem_append] at h
    repeat (rcases h with ⟨h, _⟩)
    have h0 := x0.gen_sim K (by assumption)
    simp only [PropName.gen]
    gsim K [h0]
termination_by structural x => x

theorem MethodDef.gen_sim {C T R} (K : Sim C T R) : ∀ x : MethodDef, (∀ ch ∈ x.text, T ch) → Pres₁ C R (fun c => x.gen c) (fun c => x.gen c)
  | .mk x0 x1 x2 x3 x4 x5 x6 x7, h, c, c', hc, g, g', hg => by
    simp only [MethodDef.text, List.forall_mem_append] at h
    repeat (rcases h with ⟨h, _⟩)
    have h0 := x1.gen_sim K (by assumption)
    have h1 := x3.gen_sim K (by assumption)
    have h2 := x3.genBindings_sim K (by assumption)
    have h3 := x4.gen_sim K (by assumption)
    simp only [MethodDef.gen]
    gsim K [h0, h1, h2, h3]
termination_by structural x => x

theorem FormalParams.gen_sim {C T R} (K : Sim C T R) : ∀ x : FormalParams, (∀ ch ∈ x.text, T ch) → Pres₁ C R (fun c => x.gen c) (fun c => x.gen c)
  | .mk x0 x1 x2, h, c, c', hc, g, g', hg => by
    simp only [FormalParams.text, List.forall_mem_append] at h
    repeat (rcases h with ⟨h, _⟩)
    have h0 := bindingElementsGen_sim K x1 (by assumption)
    have h1 := bindingElementActs_sim K x1 (by assumption)
    have h2 := genRest_sim K x2 (by assumption)
    have h3 := genCatchParam_sim K x2 (by assumption)
    simp only [FormalParams.gen]
    gsim K [h0, h1, h2, h3]
termination_by structural x => x

theorem FormalParams.genBindings_sim {C T R} (K : Sim C T R) : ∀ x : FormalParams, (∀ ch ∈ x.text, T ch) → Pres₁ C R (fun c => x.genBindings c) (fun c => x.genBindings c)
  | .mk x0 x1 x2, h, c, c', hc, g, g', hg => by
    simp only [FormalParams.text, List.forall_mem_append] at h
    repeat (rcases h with ⟨h, _⟩)
    have h0 := bindingElementsGen_sim K x1 (by assumption)
    have h1 := bindingElementActs_sim K x1 (by assumption)
    have h2 := genRest_sim K x2 (by assumption)
    have h3 := genCatchParam_sim K x2 (by assumption)
    simp only [FormalParams.genBindings]
    gsim K [h0, h1, h2, h3]
termination_by structural x => x

theorem Body.gen_sim {C T R} (K : Sim C T R) : ∀ x : Body, (∀ ch ∈ x.text, T ch) → Pres₁ C R (fun c => x.gen c) (fun c => x.gen c)
  | .mk x0 x1 x2, h, c, c', hc, g, g', hg => by
    simp only [Body.text, List.forall_mem_append] at h
    repeat (rcases h with ⟨h, _⟩)
    have h0 := stmtsGen_sim K x2 (by assumption)
    simp only [Body.gen]
    gsim K [h0]
termination_by structural x => x

theorem ArrowBody.gen_sim {C T R} (K : Sim C T R) : ∀ x : ArrowBody, (∀ ch ∈ x.text, T ch) → Pres₁ C R (fun c => x.gen c) (fun c => x.gen c)
  | .expr x0, h, c, c', hc, g, g', hg => by
    simp only [ArrowBody.text, List.forall_mem_append] at h
    repeat (rcases h with ⟨h, _⟩)
    have h0 := x0.gen_sim K (by assumption)
    simp only [ArrowBody.gen]
    gsim K [h0]
  | .body x0, h, c, c', hc, g, g', hg => by
    simp only [ArrowBody.text, List.forall_mem_append] at h
    repeat (rcases h with ⟨h, _⟩)
    have h0 := x0.gen_sim K (by assumption)
    simp only [ArrowBody.gen]
    gsim K [h0]
termination_by structural x => x

theorem MemberObject.gen_sim {C T R} (K : Sim C T R) : ∀ x : MemberObject, (∀ ch ∈ x.text, T ch) → Pres₁ C R (fun c => x.gen c) (fun c => x.gen c)
  | .expr x0, h, c, c', hc, g, g', hg => by
    simp only [MemberObject.text, List.forall_mem_append] at h
    repeat (rcases h with ⟨h, _⟩)
    have h0 := x0.gen_sim K (by assumption)
    simp only [MemberObject.gen]
    gsim K [h0]
  | .super x0, h, c, c', hc, g, g', hg => by
    simp only [MemberObject.text, List.forall_mem_append] at h
    repeat (rcases h with ⟨h, _⟩)
    simp only [MemberObject.gen]
    gsim K []
termination_by structural x => x

theorem MemberProp.gen_sim {C T R} (K : Sim C T R) : ∀ x : MemberProp, (∀ ch ∈ x.text, T ch) → Pres₁ C R (fun c => x.gen c) (fun c => x.gen c)
  | .ident x0, h, c, c', hc, g, g', hg => by
    simp only [MemberProp.text, List.forall_mem_append] at h
    repeat (rcases h with ⟨h, _⟩)
    simp only [MemberProp.gen]
    gsim K []
  | .expr x0, h, c, c', hc, g, g', hg => by
    simp only [MemberProp.text, List.forall_mem_append] at h
    repeat (rcases h with ⟨h, _⟩)
    have h0 := x0.gen_sim K (by assumption)
    simp only [MemberProp.gen]
    gsim K [h0]
termination_by structural x => x

theorem Argument.gen_sim {C T R} (K : Sim C T R) : ∀ x : Argument, (∀ ch ∈ x.text, T ch) → Pres₁ C R (fun c => x.gen c) (fun c => x.gen c)
  | .expr x0, h, c, c', hc, g, g', hg => by
    simp only [Argument.text, List.forall_mem_append] at h
    repeat (rcases h with ⟨h, _⟩)
    have h0 := x0.gen_sim K (by assumption)
    simp only [Argument.gen]
    gsim K [h0]
  | .spread x0, h, c, c', hc, g, g', hg => by
    simp only [Argument.text, List.forall_mem_append] at h
    repeat (rcases h with ⟨h, _⟩)
    have h0 := x0.gen_sim K (by assumption)
    simp only [Argument.gen]
    gsim K [h0]
termination_by structural x => x

theorem Callee.gen_sim {C T R} (K : Sim C T R) : ∀ x : Callee, (∀ ch ∈ x.text, T ch) → Pres₁ C R (fun c => x.gen c) (fun c => x.gen c)
  | .super, h, c, c', hc, g, g', hg => by
    simp only [Callee.text, List.forall_mem_append] at h
    repeat (rcases h with ⟨h, _⟩)
    simp only [Callee.gen]
    gsim K []
  | .import, h, c, c', hc, g, g', hg => by
    simp only [Callee.text, List.forall_mem_append] at h
    repeat (rcases h with ⟨h, _⟩)
    simp only [Callee.gen]
    gsim K []
  | .expr x0, h, c, c', hc, g, g', hg => by
    simp only [Callee.text, List.forall_mem_append] at h
    repeat (rcases h with ⟨h, _⟩)
    have h0 := x0.gen_sim K (by assumption)
    simp only [Callee.gen]
    gsim K [h0]
termination_by structural x => x

theorem BindingPattern.gen_sim {C T R} (K : Sim C T R) : ∀ x : BindingPattern, (∀ ch ∈ x.text, T ch) → Pres₁ C R (fun c => x.gen c) (fun c => x.gen c)
  | .ident x0, h, c, c', hc, g, g', hg => by
    simp only [BindingPattern.text, List.forall_mem_append] at h
    repeat (rcases h with ⟨h, _⟩)
    simp only [BindingPattern.gen]
    gsim K []
  | .array x0 x1 x2, h, c, c', hc, g, g', hg => by
    simp only [BindingPattern.text, List.forall_mem_append] at h
    repeat (rcases h with ⟨h, _⟩)
    have h0 := optElementsGen_sim K x1 (by assumption)
    have h1 := genRest_sim K x2 (by assumption)
    have h2 := genCatchParam_sim K x2 (by assumption)
    simp only [BindingPattern.gen]
    gsim K [h0, h1, h2]
  | .object x0 x1 x2, h, c, c', hc, g, g', hg => by
    simp only [BindingPattern.text, List.forall_mem_append] at h
    repeat (rcases h with ⟨h, _⟩)
    have h0 := bindingPropActs_sim K x1 (by assumption)
    have h1 := genRest_sim K x2 (by assumption)
    have h2 := genCatchParam_sim K x2 (by assumption)
    simp only [BindingPattern.gen]
    gsim K [h0, h1, h2]
termination_by structural x => x

theorem BindingProp.gen_sim {C T R} (K : Sim C T R) : ∀ x : BindingProp, (∀ ch ∈ x.text, T ch) → Pres₁ C R (fun c => x.gen c) (fun c => x.gen c)
  | .single x0 x1 x2, h, c, c', hc, g, g', hg => by
    simp only [BindingProp.text, List.forall_mem_append] at h
    repeat (rcases h with ⟨h, _⟩)
    have h0 := genExtends_sim K x2 (by assumption)
    have h1 := genSpaced_sim K x2 (by assumption)
    have h2 := genOpt_sim K x2 (by assumption)
    have h3 := genInit_sim K x2 (by assumption)
    have h4 := genCaseTest_sim K x2 (by assumption)
    simp only [BindingProp.gen]
    gsim K [h0, h1, h2, h3, h4]
  | .named x0 x1 x2, h, c, c', hc, g, g', hg => by
    simp only [BindingProp.text, List.forall_mem_append] at h
    repeat (rcases h with ⟨h, _⟩)
    have h0 := x1.gen_sim K (by assumption)
    have h1 := x2.gen_sim K (by assumption)
    simp only [BindingProp.gen]
    gsim K [h0, h1]
termination_by structural x => x

theorem BindingElement.gen_sim {C T R} (K : Sim C T R) : ∀ x : BindingElement, (∀ ch ∈ x.text, T ch) → Pres₁ C R (fun c => x.gen c) (fun c => x.gen c)
  | .mk x0 x1 x2, h, c, c', hc, g, g', hg => by
    simp only [BindingElement.text, List.forall_mem_append] at h
    repeat (rcases h with ⟨h, _⟩)
    have h0 := x1.gen_sim K (by assumption)
    have h1 := genExtends_sim K x2 (by assumption)
    have h2 := genSpaced_sim K x2 (by assumption)
    have h3 := genOpt_sim K x2 (by assumption)
    have h4 := genInit_sim K x2 (by assumption)
    have h5 := genCaseTest_sim K x2 (by assumption)
    simp only [BindingElement.gen]
    gsim K [h0, h1, h2, h3, h4, h5]
termination_by structural x => x

theorem PatternOrExpr.gen_sim {C T R} (K : Sim C T R) : ∀ x : PatternOrExpr, (∀ ch ∈ x.text, T ch) → Pres₁ C R (fun c => x.gen c) (fun c => x.gen c)
  | .expr x0, h, c, c', hc, g, g', hg => by
    simp only [PatternOrExpr.text, List.forall_mem_append] at h
    repeat (rcases h with ⟨h, _⟩)
    have h0 := x0.gen_sim K (by assumption)
    simp only [PatternOrExpr.gen]
    gsim K [h0]
  | .pattern x0, h, c, c', hc, g, g', hg => by
    simp only [PatternOrExpr.text, List.forall_mem_append] at h
    repeat (rcases h with ⟨h, _⟩)
    simp only [PatternOrExpr.gen]
    gsim K []
termination_by structural x => x

theorem Stmt.gen_sim {C T R} (K : Sim C T R) : ∀ x : Stmt, (∀ ch ∈ x.text, T ch) → Pres₁ C R (fun c => x.gen c) (fun c => x.gen c)
  | .block x0, h, c, c', hc, g, g', hg => by
    simp only [Stmt.text, List.forall_mem_append] at h
    repeat (rcases h with ⟨h, _⟩)
    have h0 := x0.gen_sim K (by assumption)
    simp only [Stmt.gen]
    gsim K [h0]
  | .break x0 x1, h, c, c', hc, g, g', hg => by
    simp only [Stmt.text, List.forall_mem_append] at h
    repeat (rcases h with ⟨h, _⟩)
    simp only [Stmt.gen]
    gsim K []
  | .continue x0 x1, h, c, c', hc, g, g', hg => by
    simp only [Stmt.text, List.forall_mem_append] at h
    repeat (rcases h with ⟨h, _⟩)
    simp only [Stmt.gen]
    gsim K []
  | .debugger x0, h, c, c', hc, g, g', hg => by
    simp only [Stmt.text, List.forall_mem_append] at h
    repeat (rcases h with ⟨h, _⟩)
    simp only [Stmt.gen]
    gsim K []
  | .doWhile x0 x1 x2, h, c, c', hc, g, g', hg => by
    simp only [Stmt.text, List.forall_mem_append] at h
    repeat (rcases h with ⟨h, _⟩)
    have h0 := x1.gen_sim K (by assumption)
    have h1 := x2.gen_sim K (by assumption)
    simp only [Stmt.gen]
    gsim K [h0, h1]
  | .empty x0, h, c, c', hc, g, g', hg => by
    simp only [Stmt.text, List.forall_mem_append] at h
    repeat (rcases h with ⟨h, _⟩)
    simp only [Stmt.gen]
    gsim K []
  | .expr x0 x1, h, c, c', hc, g, g', hg => by
    simp only [Stmt.text, List.forall_mem_append] at h
    repeat (rcases h with ⟨h, _⟩)
    have h0 := x1.gen_sim K (by assumption)
    simp only [Stmt.gen]
    gsim K [h0]
  | .for x0 x1 x2 x3 x4, h, c, c', hc, g, g', hg => by
    simp only [Stmt.text, List.forall_mem_append] at h
    repeat (rcases h with ⟨h, _⟩)
    have h0 := genForInit_sim K x1 (by assumption)
    have h1 := genExtends_sim K x2 (by assumption)
    have h2 := genSpaced_sim K x2 (by assumption)
    have h3 := genOpt_sim K x2 (by assumption)
    have h4 := genInit_sim K x2 (by assumption)
    have h5 := genCaseTest_sim K x2 (by assumption)
    have h6 := genExtends_sim K x3 (by assumption)
    have h7 := genSpaced_sim K x3 (by assumption)
    have h8 := genOpt_sim K x3 (by assumption)
    have h9 := genInit_sim K x3 (by assumption)
    have h10 := genCaseTest_sim K x3 (by assumption)
    have h11 := x4.gen_sim K (by assumption)
    simp only [Stmt.gen]
    gsim K [h0, h1, h2, h3, h4, h5, h6, h7, h8, h9, h10, h11]
  | .forIn x0 x1 x2 x3, h, c, c', hc, g, g', hg => by
    simp only [Stmt.text, List.forall_mem_append] at h
    repeat (rcases h with ⟨h, _⟩)
    have h0 := x1.gen_sim K (by assumption)
    have h1 := x2.gen_sim K (by assumption)
    have h2 := x3.gen_sim K (by assumption)
    simp only [Stmt.gen]
    gsim K [h0, h1, h2]
  | .forOf x0 x1 x2 x3 x4, h, c, c', hc, g, g', hg => by
    simp only [Stmt.text, List.forall_mem_append] at h
    repeat (rcases h with ⟨h, _⟩)
    have h0 := x1.gen_sim K (by assumption)
    have h1 := x2.gen_sim K (by assumption)
    have h2 := x3.gen_sim K (by assumption)
    simp only [Stmt.gen]
    gsim K [h0, h1, h2]
  | .if x0 x1 x2 x3, h, c, c', hc, g, g', hg => by
    simp only [Stmt.text, List.forall_mem_append] at h
    repeat (rcases h with ⟨h, _⟩)
    have h0 := x1.gen_sim K (by assumption)
    have h1 := x2.gen_sim K (by assumption)
    have h2 := genElse_sim K x3 (by assumption)
    simp only [Stmt.gen]
    gsim K [h0, h1, h2]
  | .labeled x0 x1 x2, h, c, c', hc, g, g', hg => by
    simp only [Stmt.text, List.forall_mem_append] at h
    repeat (rcases h with ⟨h, _⟩)
    have h0 := x2.gen_sim K (by assumption)
    simp only [Stmt.gen]
    gsim K [h0]
  | .return x0 x1, h, c, c', hc, g, g', hg => by
    simp only [Stmt.text, List.forall_mem_append] at h
    repeat (rcases h with ⟨h, _⟩)
    have h0 := genExtends_sim K x1 (by assumption)
    have h1 := genSpaced_sim K x1 (by assumption)
    have h2 := genOpt_sim K x1 (by assumption)
    have h3 := genInit_sim K x1 (by assumption)
    have h4 := genCaseTest_sim K x1 (by assumption)
    simp only [Stmt.gen]
    gsim K [h0, h1, h2, h3, h4]
  | .switch x0 x1 x2, h, c, c', hc, g, g', hg => by
    simp only [Stmt.text, List.forall_mem_append] at h
    repeat (rcases h with ⟨h, _⟩)
    have h0 := x1.gen_sim K (by assumption)
    have h1 := casesGen_sim K x2 (by assumption)
    simp only [Stmt.gen]
    gsim K [h0, h1]
  | .throw x0 x1, h, c, c', hc, g, g', hg => by
    simp only [Stmt.text, List.forall_mem_append] at h
    repeat (rcases h with ⟨h, _⟩)
    have h0 := x1.gen_sim K (by assumption)
    simp only [Stmt.gen]
    gsim K [h0]
  | .try x0 x1 x2 x3, h, c, c', hc, g, g', hg => by
    simp only [Stmt.text, List.forall_mem_append] at h
    repeat (rcases h with ⟨h, _⟩)
    have h0 := x1.gen_sim K (by assumption)
    have h1 := genCatch_sim K x2 (by assumption)
    have h2 := genFinally_sim K x3 (by assumption)
    simp only [Stmt.gen]
    gsim K [h0, h1, h2]
  | .variable x0, h, c, c', hc, g, g', hg => by
    simp only [Stmt.text, List.forall_mem_append] at h
    repeat (rcases h with ⟨h, _⟩)
    have h0 := x0.gen_sim K (by assumption)
    simp only [Stmt.gen]
    gsim K [h0]
  | .while x0 x1 x2, h, c, c', hc, g, g', hg => by
    simp only [Stmt.text, List.forall_mem_append] at h
    repeat (rcases h with ⟨h, _⟩)
    have h0 := x1.gen_sim K (by assumption)
    have h1 := x2.gen_sim K (by assumption)
    simp only [Stmt.gen]
    gsim K [h0, h1]
  | .with x0 x1 x2, h, c, c', hc, g, g', hg => by
    simp only [Stmt.text, List.forall_mem_append] at h
    repeat (rcases h with ⟨h, _⟩)
    have h0 := x1.gen_sim K (by assumption)
    have h1 := x2.gen_sim K (by assumption)
    simp only [Stmt.gen]
    gsim K [h0, h1]
  | .classDecl x0 x1 x2 x3, h, c, c', hc, g, g', hg => by
    simp only [Stmt.text, List.forall_mem_append] at h
    repeat (rcases h with ⟨h, _⟩)
    have h0 := genExtends_sim K x2 (by assumption)
    have h1 := genSpaced_sim K x2 (by assumption)
    have h2 := genOpt_sim K x2 (by assumption)
    have h3 := genInit_sim K x2 (by assumption)
    have h4 := genCaseTest_sim K x2 (by assumption)
    have h5 := elementsGen_sim K x3 (by assumption)
    simp only [Stmt.gen]
    gsim K [h0, h1, h2, h3, h4, h5]
  | .functionDecl x0 x1 x2 x3 x4 x5, h, c, c', hc, g, g', hg => by
    simp only [Stmt.text, List.forall_mem_append] at h
    repeat (rcases h with ⟨h, _⟩)
    have h0 := x4.gen_sim K (by assumption)
    have h1 := x4.genBindings_sim K (by assumption)
    have h2 := x5.gen_sim K (by assumption)
    simp only [Stmt.gen]
    gsim K [h0, h1, h2]
  | .importDecl x0 x1 x2 x3 x4, h, c, c', hc, g, g', hg => by
    simp only [Stmt.text, List.forall_mem_append] at h
    repeat (rcases h with ⟨h, _⟩)
    have h0 := K.importDecl (d := x1) (ns := x2) (n := x3) (src := x4) (by assumption) (by assumption) (by assumption) (by assumption) hc hg
    simp only [Stmt.gen]
    gsim K [h0]
  | .exportDecl x0, h, c, c', hc, g, g', hg => by
    simp only [Stmt.text, List.forall_mem_append] at h
    repeat (rcases h with ⟨h, _⟩)
    have h0 := x0.gen_sim K (by assumption)
    simp only [Stmt.gen]
    gsim K [h0]
termination_by structural x => x

theorem Block.gen_sim {C T R} (K : Sim C T R) : ∀ x : Block, (∀ ch ∈ x.text, T ch) → Pres₁ C R (fun c => x.gen c) (fun c => x.gen c)
  | .mk x0 x1, h, c, c', hc, g, g', hg => by
    simp only [Block.text, List.forall_mem_append] at h
    repeat (rcases h with ⟨h, _⟩)
    have h0 := stmtsGen_sim K x1 (by assumption)
    simp only [Block.gen]
    gsim K [h0]
termination_by structural x => x

theorem VarStmt.gen_sim {C T R} (K : Sim C T R) : ∀ x : VarStmt, (∀ ch ∈ x.text, T ch) → Pres₁ C R (fun c => x.gen c) (fun c => x.gen c)
  | .mk x0 x1 x2, h, c, c', hc, g, g', hg => by
    simp only [VarStmt.text, List.forall_mem_append] at h
    repeat (rcases h with ⟨h, _⟩)
    have h0 := varDeclsGen_sim K x2 (by assumption)
    simp only [VarStmt.gen]
    gsim K [h0]
termination_by structural x => x

theorem VarDecl.gen_sim {C T R} (K : Sim C T R) : ∀ x : VarDecl, (∀ ch ∈ x.text, T ch) → Pres₁ C R (fun c => x.gen c) (fun c => x.gen c)
  | .mk x0 x1 x2, h, c, c', hc, g, g', hg => by
    simp only [VarDecl.text, List.forall_mem_append] at h
    repeat (rcases h with ⟨h, _⟩)
    have h0 := x1.gen_sim K (by assumption)
    have h1 := genExtends_sim K x2 (by assumption)
    have h2 := genSpaced_sim K x2 (by assumption)
    have h3 := genOpt_sim K x2 (by assumption)
    have h4 := genInit_sim K x2 (by assumption)
    have h5 := genCaseTest_sim K x2 (by assumption)
    simp only [VarDecl.gen]
    gsim K [h0, h1, h2, h3, h4, h5]
termination_by structural x => x

theorem CatchClause.gen_sim {C T R} (K : Sim C T R) : ∀ x : CatchClause, (∀ ch ∈ x.text, T ch) → Pres₁ C R (fun c => x.gen c) (fun c => x.gen c)
  | .mk x0 x1 x2, h, c, c', hc, g, g', hg => by
    simp only [CatchClause.text, List.forall_mem_append] at h
    repeat (rcases h with ⟨h, _⟩)
    have h0 := genRest_sim K x1 (by assumption)
    have h1 := genCatchParam_sim K x1 (by assumption)
    have h2 := x2.gen_sim K (by assumption)
    simp only [CatchClause.gen]
    gsim K [h0, h1, h2]
termination_by structural x => x

theorem SwitchCase.gen_sim {C T R} (K : Sim C T R) : ∀ x : SwitchCase, (∀ ch ∈ x.text, T ch) → Pres₁ C R (fun c => x.gen c) (fun c => x.gen c)
  | .mk x0 x1 x2, h, c, c', hc, g, g', hg => by
    simp only [SwitchCase.text, List.forall_mem_append] at h
    repeat (rcases h with ⟨h, _⟩)
    have h0 := genExtends_sim K x1 (by assumption)
    have h1 := genSpaced_sim K x1 (by assumption)
    have h2 := genOpt_sim K x1 (by assumption)
    have h3 := genInit_sim K x1 (by assumption)
    have h4 := genCaseTest_sim K x1 (by assumption)
    have h5 := stmtsGen_sim K x2 (by assumption)
    simp only [SwitchCase.gen]
    gsim K [h0, h1, h2, h3, h4, h5]
termination_by structural x => x

theorem ForInit.gen_sim {C T R} (K : Sim C T R) : ∀ x : ForInit, (∀ ch ∈ x.text, T ch) → Pres₁ C R (fun c => x.gen c) (fun c => x.gen c)
  | .expr x0, h, c, c', hc, g, g', hg => by
    simp only [ForInit.text, List.forall_mem_append] at h
    repeat (rcases h with ⟨h, _⟩)
    have h0 := x0.gen_sim K (by assumption)
    simp only [ForInit.gen]
    gsim K [h0]
  | .declaration x0, h, c, c', hc, g, g', hg => by
    simp only [ForInit.text, List.forall_mem_append] at h
    repeat (rcases h with ⟨h, _⟩)
    have h0 := x0.gen_sim K (by assumption)
    simp only [ForInit.gen]
    gsim K [h0]
termination_by structural x => x

theorem ForDecl.gen_sim {C T R} (K : Sim C T R) : ∀ x : ForDecl, (∀ ch ∈ x.text, T ch) → Pres₁ C R (fun c => x.gen c) (fun c => x.gen c)
  | .expr x0, h, c, c', hc, g, g', hg => by
    simp only [ForDecl.text, List.forall_mem_append] at h
    repeat (rcases h with ⟨h, _⟩)
    have h0 := x0.gen_sim K (by assumption)
    simp only [ForDecl.gen]
    gsim K [h0]
  | .pattern x0, h, c, c', hc, g, g', hg => by
    simp only [ForDecl.text, List.forall_mem_append] at h
    repeat (rcases h with ⟨h, _⟩)
    simp only [ForDecl.gen]
    gsim K []
  | .declaration x0 x1 x2, h, c, c', hc, g, g', hg => by
    simp only [ForDecl.text, List.forall_mem_append] at h
    repeat (rcases h with ⟨h, _⟩)
    have h0 := x2.gen_sim K (by assumption)
    simp only [ForDecl.gen]
    gsim K [h0]
termination_by structural x => x

theorem ExportDecl.gen_sim {C T R} (K : Sim C T R) : ∀ x : ExportDecl, (∀ ch ∈ x.text, T ch) → Pres₁ C R (fun c => x.gen c) (fun c => x.gen c)
  | .decl x0 x1, h, c, c', hc, g, g', hg => by
    simp only [ExportDecl.text, List.forall_mem_append] at h
    repeat (rcases h with ⟨h, _⟩)
    have h0 := x1.gen_sim K (by assumption)
    simp only [ExportDecl.gen]
    gsim K [h0]
  | .defaultExpr x0 x1, h, c, c', hc, g, g', hg => by
    simp only [ExportDecl.text, List.forall_mem_append] at h
    repeat (rcases h with ⟨h, _⟩)
    have h0 := x1.gen_sim K (by assumption)
    simp only [ExportDecl.gen]
    gsim K [h0]
  | .defaultDecl x0 x1, h, c, c', hc, g, g', hg => by
    simp only [ExportDecl.text, List.forall_mem_append] at h
    repeat (rcases h with ⟨h, _⟩)
    have h0 := x1.gen_sim K (by assumption)
    simp only [ExportDecl.gen]
    gsim K [h0]
  | .named x0 x1 x2, h, c, c', hc, g, g', hg => by
    simp only [ExportDecl.text, List.forall_mem_append] at h
    repeat (rcases h with ⟨h, _⟩)
    have h0 := K.namedExports (l := x1) (by assumption) hc
    cases x2 <;> simp only [optStringText] at *
    all_goals simp only [ExportDecl.gen]
    all_goals gsim K [h0]
  | .namespace x0 x1 x2, h, c, c', hc, g, g', hg => by
    simp only [ExportDecl.text, List.forall_mem_append] at h
    repeat (rcases h with ⟨h, _⟩)
    simp only [ExportDecl.gen]
    gsim K []
termination_by structural x => x

theorem genExtends_sim {C T R} (K : Sim C T R) : ∀ x : Option Expr, (∀ ch ∈ optExprText x, T ch) → Pres₁ C R (fun c => genExtends c x) (fun c => genExtends c x)
  | none, _, _, _, _, _, _, hg => by simpa only [genExtends, id] using hg
  | some x, h, c, c', hc, g, g', hg => by
    have h0 := x.gen_sim K (by simpa only [optExprText] using h)
    simp only [genExtends]
    gsim K [h0]
termination_by structural x => x

theorem genSpaced_sim {C T R} (K : Sim C T R) : ∀ x : Option Expr, (∀ ch ∈ optExprText x, T ch) → Pres₁ C R (fun c => genSpaced c x) (fun c => genSpaced c x)
  | none, _, _, _, _, _, _, hg => by simpa only [genSpaced, id] using hg
  | some x, h, c, c', hc, g, g', hg => by
    have h0 := x.gen_sim K (by simpa only [optExprText] using h)
    simp only [genSpaced]
    gsim K [h0]
termination_by structural x => x

theorem genOpt_sim {C T R} (K : Sim C T R) : ∀ x : Option Expr, (∀ ch ∈ optExprText x, T ch) → Pres₁ C R (fun c => genOpt c x) (fun c => genOpt c x)
  | none, _, _, _, _, _, _, hg => by simpa only [genOpt, id] using hg
  | some x, h, c, c', hc, g, g', hg => by
    have h0 := x.gen_sim K (by simpa only [optExprText] using h)
    simp only [genOpt]
    gsim K [h0]
termination_by structural x => x

theorem genInit_sim {C T R} (K : Sim C T R) : ∀ x : Option Expr, (∀ ch ∈ optExprText x, T ch) → Pres₁ C R (fun c => genInit c x) (fun c => genInit c x)
  | none, _, _, _, _, _, _, hg => by simpa only [genInit, id] using hg
  | some x, h, c, c', hc, g, g', hg => by
    have h0 := x.gen_sim K (by simpa only [optExprText] using h)
    simp only [genInit]
    gsim K [h0]
termination_by structural x => x

theorem genCaseTest_sim {C T R} (K : Sim C T R) : ∀ x : Option Expr, (∀ ch ∈ optExprText x, T ch) → Pres₁ C R (fun c => genCaseTest c x) (fun c => genCaseTest c x)
  | none, _, c, c', hc, g, g', hg => by
    simp only [genCaseTest]
    gsim K []
  | some x, h, c, c', hc, g, g', hg => by
    have h0 := x.gen_sim K (by simpa only [optExprText] using h)
    simp only [genCaseTest]
    gsim K [h0]
termination_by structural x => x

theorem exprActs_sim {C T R} (K : Sim C T R) : ∀ x : List Expr, (∀ ch ∈ listExprText x, T ch) → ∀ ⦃c c'⦄, C c c' → All2 (Pres R) (exprActs c x) (exprActs c' x)
  | [], _, c, c', hc => by simp only [exprActs]; exact .nil
  | x :: l, h, c, c', hc => by
    simp only [listExprText, List.forall_mem_append] at h
    simp only [exprActs]
    exact .cons (fun _ _ hg => x.gen_sim K h.1 hc hg) (exprActs_sim K l h.2 hc)
termination_by structural x => x

theorem partsGen_sim {C T R} (K : Sim C T R) : ∀ x : List TemplatePart, (∀ ch ∈ listTemplatePartText x, T ch) → Pres₁ C R (fun c => partsGen c x) (fun c => partsGen c x)
  | [], _, _, _, _, _, _, hg => by simpa only [partsGen, id] using hg
  | x :: l, h, c, c', hc, g, g', hg => by
    simp only [listTemplatePartText, List.forall_mem_append] at h
    rcases h with ⟨_, _⟩
    have h0 := x.gen_sim K (by assumption)
    have h1 := partsGen_sim K l (by assumption)
    simp only [partsGen]
    gsim K [h0, h1]
termination_by structural x => x

theorem arrayActs_sim {C T R} (K : Sim C T R) : ∀ x : List ArrayElement, (∀ ch ∈ listArrayElementText x, T ch) → ∀ ⦃c c'⦄, C c c' → All2 (Pres R) (arrayActs c x) (arrayActs c' x)
  | [], _, c, c', hc => by simp only [arrayActs]; exact .nil
  | x :: l, h, c, c', hc => by
    simp only [listArrayElementText, List.forall_mem_append] at h
    simp only [arrayActs]
    exact .cons (fun _ _ hg => x.gen_sim K h.1 hc hg) (arrayActs_sim K l h.2 hc)
termination_by structural x => x

theorem propActs_sim {C T R} (K : Sim C T R) : ∀ x : List PropDef, (∀ ch ∈ listPropDefText x, T ch) → ∀ ⦃c c'⦄, C c c' → All2 (Pres R) (propActs c x) (propActs c' x)
  | [], _, c, c', hc => by simp only [propActs]; exact .nil
  | x :: l, h, c, c', hc => by
    simp only [listPropDefText, List.forall_mem_append] at h
    simp only [propActs]
    exact .cons (fun _ _ hg => x.gen_sim K h.1 hc hg) (propActs_sim K l h.2 hc)
termination_by structural x => x

theorem elementsGen_sim {C T R} (K : Sim C T R) : ∀ x : List MethodDef, (∀ ch ∈ listMethodDefText x, T ch) → Pres₁ C R (fun c => elementsGen c x) (fun c => elementsGen c x)
  | [], _, _, _, _, _, _, hg => by simpa only [elementsGen, id] using hg
  | x :: l, h, c, c', hc, g, g', hg => by
    simp only [listMethodDefText, List.forall_mem_append] at h
    rcases h with ⟨_, _⟩
    have h0 := x.gen_sim K (by assumption)
    have h1 := elementsGen_sim K l (by assumption)
    simp only [elementsGen]
    gsim K [h0, h1]
termination_by structural x => x

theorem genRest_sim {C T R} (K : Sim C T R) : ∀ x : Option BindingPattern, (∀ ch ∈ optBindingPatternText x, T ch) → ∀ comma, Pres₁ C R (fun c => genRest c comma x) (fun c => genRest c comma x)
  | none, _, _, _, _, _, _, _, hg => by simpa only [genRest, id] using hg
  | some x, h, comma, c, c', hc, g, g', hg => by
    have h0 := x.gen_sim K (by simpa only [optBindingPatternText] using h)
    simp only [genRest]
    gsim K [h0]
termination_by structural x => x

theorem genCatchParam_sim {C T R} (K : Sim C T R) : ∀ x : Option BindingPattern, (∀ ch ∈ optBindingPatternText x, T ch) → Pres₁ C R (fun c => genCatchParam c x) (fun c => genCatchParam c x)
  | none, _, _, _, _, _, _, hg => by simpa only [genCatchParam, id] using hg
  | some x, h, c, c', hc, g, g', hg => by
    have h0 := x.gen_sim K (by simpa only [optBindingPatternText] using h)
    simp only [genCatchParam]
    gsim K [h0]
termination_by structural x => x

theorem bindingElementsGen_sim {C T R} (K : Sim C T R) : ∀ x : List BindingElement, (∀ ch ∈ listBindingElementText x, T ch) → Pres₁ C R (fun c => bindingElementsGen c x) (fun c => bindingElementsGen c x)
  | [], _, _, _, _, _, _, hg => by simpa only [bindingElementsGen, id] using hg
  | x :: l, h, c, c', hc, g, g', hg => by
    simp only [listBindingElementText, List.forall_mem_append] at h
    rcases h with ⟨_, _⟩
    have h0 := x.gen_sim K (by assumption)
    have h1 := bindingElementsGen_sim K l (by assumption)
    simp only [bindingElementsGen]
    gsim K [h0, h1]
termination_by structural x => x

theorem bindingElementActs_sim {C T R} (K : Sim C T R) : ∀ x : List BindingElement, (∀ ch ∈ listBindingElementText x, T ch) → ∀ ⦃c c'⦄, C c c' → All2 (Pres R) (bindingElementActs c x) (bindingElementActs c' x)
  | [], _, c, c', hc => by simp only [bindingElementActs]; exact .nil
  | x :: l, h, c, c', hc => by
    simp only [listBindingElementText, List.forall_mem_append] at h
    simp only [bindingElementActs]
    exact .cons (fun _ _ hg => x.gen_sim K h.1 hc hg) (bindingElementActs_sim K l h.2 hc)
termination_by structural x => x

theorem argActs_sim {C T R} (K : Sim C T R) : ∀ x : List Argument, (∀ ch ∈ listArgumentText x, T ch) → ∀ ⦃c c'⦄, C c c' → All2 (Pres R) (argActs c x) (argActs c' x)
  | [], _, c, c', hc => by simp only [argActs]; exact .nil
  | x :: l, h, c, c', hc => by
    simp only [listArgumentText, List.forall_mem_append] at h
    simp only [argActs]
    exact .cons (fun _ _ hg => x.gen_sim K h.1 hc hg) (argActs_sim K l h.2 hc)
termination_by structural x => x

theorem optElementsGen_sim {C T R} (K : Sim C T R) : ∀ x : List (Option BindingElement), (∀ ch ∈ optListBindingElementText x, T ch) → Pres₁ C R (fun c => optElementsGen c x) (fun c => optElementsGen c x)
  | [], _, _, _, _, _, _, hg => by simpa only [optElementsGen, id] using hg
  | x :: l, h, c, c', hc, g, g', hg => by
    simp only [optListBindingElementText, List.forall_mem_append] at h
    rcases h with ⟨_, _⟩
    have h0 := optElementGen_sim K x (by assumption)
    have h1 := optElementsGen_sim K l (by assumption)
    simp only [optElementsGen]
    gsim K [h0, h1]
termination_by structural x => x

theorem optElementGen_sim {C T R} (K : Sim C T R) : ∀ x : Option BindingElement, (∀ ch ∈ optBindingElementText x, T ch) → Pres₁ C R (fun c => optElementGen c x) (fun c => optElementGen c x)
  | none, _, _, _, _, _, _, hg => by simpa only [optElementGen, id] using hg
  | some x, h, c, c', hc, g, g', hg => by
    have h0 := x.gen_sim K (by simpa only [optBindingElementText] using h)
    simp only [optElementGen]
    gsim K [h0]
termination_by structural x => x

theorem bindingPropActs_sim {C T R} (K : Sim C T R) : ∀ x : List BindingProp, (∀ ch ∈ listBindingPropText x, T ch) → ∀ ⦃c c'⦄, C c c' → All2 (Pres R) (bindingPropActs c x) (bindingPropActs c' x)
  | [], _, c, c', hc => by simp only [bindingPropActs]; exact .nil
  | x :: l, h, c, c', hc => by
    simp only [listBindingPropText, List.forall_mem_append] at h
    simp only [bindingPropActs]
    exact .cons (fun _ _ hg => x.gen_sim K h.1 hc hg) (bindingPropActs_sim K l h.2 hc)
termination_by structural x => x

theorem stmtsGen_sim {C T R} (K : Sim C T R) : ∀ x : List Stmt, (∀ ch ∈ listStmtText x, T ch) → Pres₁ C R (fun c => stmtsGen c x) (fun c => stmtsGen c x)
  | [], _, _, _, _, _, _, hg => by simpa only [stmtsGen, id] using hg
  | x :: l, h, c, c', hc, g, g', hg => by
    simp only [listStmtText, List.forall_mem_append] at h
    rcases h with ⟨_, _⟩
    have h0 := x.gen_sim K (by assumption)
    have h1 := stmtsGen_sim K l (by assumption)
    simp only [stmtsGen]
    gsim K [h0, h1]
termination_by structural x => x

theorem genElse_sim {C T R} (K : Sim C T R) : ∀ x : Option Stmt, (∀ ch ∈ optStmtText x, T ch) → Pres₁ C R (fun c => genElse c x) (fun c => genElse c x)
  | none, _, _, _, _, _, _, hg => by simpa only [genElse, id] using hg
  | some x, h, c, c', hc, g, g', hg => by
    have h0 := x.gen_sim K (by simpa only [optStmtText] using h)
    simp only [genElse]
    gsim K [h0]
termination_by structural x => x

theorem genFinally_sim {C T R} (K : Sim C T R) : ∀ x : Option Block, (∀ ch ∈ optBlockText x, T ch) → Pres₁ C R (fun c => genFinally c x) (fun c => genFinally c x)
  | none, _, _, _, _, _, _, hg => by simpa only [genFinally, id] using hg
  | some x, h, c, c', hc, g, g', hg => by
    have h0 := x.gen_sim K (by simpa only [optBlockText] using h)
    simp only [genFinally]
    gsim K [h0]
termination_by structural x => x

theorem genCatch_sim {C T R} (K : Sim C T R) : ∀ x : Option CatchClause, (∀ ch ∈ optCatchClauseText x, T ch) → Pres₁ C R (fun c => genCatch c x) (fun c => genCatch c x)
  | none, _, _, _, _, _, _, hg => by simpa only [genCatch, id] using hg
  | some x, h, c, c', hc, g, g', hg => by
    have h0 := x.gen_sim K (by simpa only [optCatchClauseText] using h)
    simp only [genCatch]
    gsim K [h0]
termination_by structural x => x

theorem varDeclsGen_sim {C T R} (K : Sim C T R) : ∀ x : List VarDecl, (∀ ch ∈ listVarDeclText x, T ch) → Pres₁ C R (fun c => varDeclsGen c x) (fun c => varDeclsGen c x)
  | [], _, _, _, _, _, _, hg => by simpa only [varDeclsGen, id] using hg
  | x :: l, h, c, c', hc, g, g', hg => by
    simp only [listVarDeclText, List.forall_mem_append] at h
    rcases h with ⟨_, _⟩
    have h0 := x.gen_sim K (by assumption)
    have h1 := varDeclsGen_sim K l (by assumption)
    simp only [varDeclsGen]
    gsim K [h0, h1]
termination_by structural x => x

theorem casesGen_sim {C T R} (K : Sim C T R) : ∀ x : List SwitchCase, (∀ ch ∈ listSwitchCaseText x, T ch) → Pres₁ C R (fun c => casesGen c x) (fun c => casesGen c x)
  | [], _, _, _, _, _, _, hg => by simpa only [casesGen, id] using hg
  | x :: l, h, c, c', hc, g, g', hg => by
    simp only [listSwitchCaseText, List.forall_mem_append] at h
    rcases h with ⟨_, _⟩
    have h0 := x.gen_sim K (by assumption)
    have h1 := casesGen_sim K l (by assumption)
    simp only [casesGen]
    gsim K [h0, h1]
termination_by structural x => x

theorem genForInit_sim {C T R} (K : Sim C T R) : ∀ x : Option ForInit, (∀ ch ∈ optForInitText x, T ch) → Pres₁ C R (fun c => genForInit c x) (fun c => genForInit c x)
  | none, _, _, _, _, _, _, hg => by simpa only [genForInit, id] using hg
  | some x, h, c, c', hc, g, g', hg => by
    have h0 := x.gen_sim K (by simpa only [optForInitText] using h)
    simp only [genForInit]
    gsim K [h0]
termination_by structural x => x

end

end Fajt
