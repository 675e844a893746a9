import Verif.Props.Complete
import Verif.Props.ParserTree
/-!
# C45, C49: more texts that are derived
-/
namespace Fajt.Props
open Fajt Spec Complete
set_option linter.unusedSectionVars false

/-- In an ASCII text the parser can read every token again. -/
theorem seekable_ascii [UnicodeID] {sty : SourceType} {a : Point} (h : Ascii (a.pre ++ a.rest)) : Seekable sty a := by
  intro t b hn
  cases hn with
  | @intro pre tr w rest fol t _ _ _ _ hs =>
    refine ⟨pre ++ tr, w ++ rest, by simp, ?_⟩
    have : Ascii (pre ++ tr) := fun c hc => h c (by simp only [List.mem_append] at hc ⊢; grind)
    rw [hs, posAfter_ascii 0 this]
    simp

local instance : UnicodeID := asciiID

/-- The point after the first `k` characters of a text. -/
def pt (s : Str) (k : Nat) : Point := ⟨s.take k, s.drop k, k = 0⟩

theorem pt_seekable {sty : SourceType} {s : Str} {k : Nat} (h : s.all (fun c => decide (c.toNat < 128)) = true) :
    Seekable sty (pt s k) := by
  refine seekable_ascii fun c hc => ?_
  rw [pt, List.take_append_drop] at hc
  simpa using List.all_eq_true.1 h c hc

theorem ident_derives {sty : SourceType} {ctx : Ctx} {t : Token} {s : Str} {a b : Point} (h : Next sty a t b) (hv : t.value = .ident s) {l : Nat}
    (hl : l ≤ 18) : Derives sty ctx (.expr l (.ident ⟨t.span, s⟩)) a b := by
  refine up_primary (.identRef h (.ident hv) ?_) hl
  rw [hv]; nofun

theorem sym_ends {sty : SourceType} {ctx : Ctx} {t : Token} {a b : Point} {k : Nat} (h : Next sty a t b)
    (ht : contLevel ctx t = none ∨ ∃ l, contLevel ctx t = some l ∧ l < k) : Ends sty ctx k a := by
  refine (look_iff h).2 fun l hl => ?_
  rcases ht with ht | ⟨l', ht, hk⟩
  · rw [ht] at hl; cases hl
  · rw [ht] at hl; cases hl; exact hk

/-! ## An arrow function -/

/-- The text of the example. -/
def arrPt : Str := c!"({a: [x], b = 1}, ...c) => x"

/-- Its tree. -/
def arrTree : Expr :=
  .arrow ⟨0, 28⟩ false false
    (.mk ⟨0, 23⟩
      [.mk ⟨1, 16⟩ (.object ⟨1, 16⟩
        [.named ⟨2, 8⟩ (.ident ⟨⟨2, 3⟩, c!"a"⟩)
          (.mk ⟨5, 8⟩ (.array ⟨5, 8⟩ [some (.mk ⟨6, 7⟩ (.ident ⟨⟨6, 7⟩, c!"x"⟩) none)] none) none),
         .single ⟨10, 15⟩ ⟨⟨10, 11⟩, c!"b"⟩ (some (.literal ⟨14, 15⟩ (.number c!"1")))] none) none]
      (some (.ident ⟨⟨21, 22⟩, c!"c"⟩)))
    (.expr (.ident ⟨⟨27, 28⟩, c!"x"⟩))

theorem arr_derives : Derives .script { in_ := true } (.expr 0 arrTree) (pt arrPt 0) (pt arrPt 28) := by
  have e0 : Next .script (pt arrPt 0) (exTok (.punct p!"(") 0 1) (pt arrPt 1) := next_of_read (by decide +kernel)
  have e1 : Next .script (pt arrPt 1) (exTok (.punct p!"{") 1 2) (pt arrPt 2) := next_of_read (by decide +kernel)
  have e2 : Next .script (pt arrPt 2) (exTok (.ident c!"a") 2 3) (pt arrPt 3) := next_of_read (by decide +kernel)
  have e3 : Next .script (pt arrPt 3) (exTok (.punct p!":") 3 4) (pt arrPt 4) := next_of_read (by decide +kernel)
  have e4 : Next .script (pt arrPt 4) (exTok (.punct p!"[") 5 6) (pt arrPt 6) := next_of_read (by decide +kernel)
  have e5 : Next .script (pt arrPt 6) (exTok (.ident c!"x") 6 7) (pt arrPt 7) := next_of_read (by decide +kernel)
  have e6 : Next .script (pt arrPt 7) (exTok (.punct p!"]") 7 8) (pt arrPt 8) := next_of_read (by decide +kernel)
  have e7 : Next .script (pt arrPt 8) (exTok (.punct p!",") 8 9) (pt arrPt 9) := next_of_read (by decide +kernel)
  have e8 : Next .script (pt arrPt 9) (exTok (.ident c!"b") 10 11) (pt arrPt 11) := next_of_read (by decide +kernel)
  have e9 : Next .script (pt arrPt 11) (exTok (.punct p!"=") 12 13) (pt arrPt 13) := next_of_read (by decide +kernel)
  have e10 : Next .script (pt arrPt 13) (exTok (.lit (.number c!"1")) 14 15) (pt arrPt 15) := next_of_read (by decide +kernel)
  have e11 : Next .script (pt arrPt 15) (exTok (.punct p!"}") 15 16) (pt arrPt 16) := next_of_read (by decide +kernel)
  have e12 : Next .script (pt arrPt 16) (exTok (.punct p!",") 16 17) (pt arrPt 17) := next_of_read (by decide +kernel)
  have e13 : Next .script (pt arrPt 17) (exTok (.punct p!"...") 18 21) (pt arrPt 21) := next_of_read (by decide +kernel)
  have e14 : Next .script (pt arrPt 21) (exTok (.ident c!"c") 21 22) (pt arrPt 22) := next_of_read (by decide +kernel)
  have e15 : Next .script (pt arrPt 22) (exTok (.punct p!")") 22 23) (pt arrPt 23) := next_of_read (by decide +kernel)
  have e16 : Next .script (pt arrPt 23) (exTok (.punct p!"=>") 24 26) (pt arrPt 26) := next_of_read (by decide +kernel)
  have e17 : Next .script (pt arrPt 26) (exTok (.ident c!"x") 27 28) (pt arrPt 28) := next_of_read (by decide +kernel)
  have sk : ∀ {k}, Seekable .script (pt arrPt k) := pt_seekable (by decide +kernel)
  have hinit : Derives .script { in_ := true } (.initLit ⟨12, 13⟩) (pt arrPt 1) (pt arrPt 11) :=
    .initObject ⟨_, e1, rfl⟩ (.initPropsMore
      (.propNamed (.nameIdent e2 (.ident rfl)) ⟨_, e3, rfl⟩
        (up_primary (.array ⟨_, e4, rfl⟩ (.elementsLast (.elementExpr (ident_derives e5 rfl (by decide))) ⟨_, e6, rfl⟩) ⟨_, _, e4, rfl⟩)
          (by decide)) ⟨_, _, e2, rfl⟩) ⟨_, e7, rfl⟩
      (.initPropsHere e8 (.ident rfl) nofun e9 rfl))
  have hpat : Derives .script { in_ := true } (.assignPattern (.object ⟨1, 16⟩
      [.named ⟨2, 8⟩ (.ident ⟨⟨2, 3⟩, c!"a"⟩)
        (.pattern (.array ⟨5, 8⟩ [some (.mk ⟨6, 7⟩ (.expr (.ident ⟨⟨6, 7⟩, c!"x"⟩)) none)] none)) none,
       .single ⟨10, 15⟩ ⟨⟨10, 11⟩, c!"b"⟩ (some (.literal ⟨14, 15⟩ (.number c!"1")))] none)) (pt arrPt 1) (pt arrPt 16) :=
    .assignObject ⟨_, e1, rfl⟩ (.assignPropsMore
      (.assignNamed (.nameIdent e2 (.ident rfl)) ⟨_, e3, rfl⟩ (.assignElement (.targetPattern (.assignArray ⟨_, e4, rfl⟩
        (.assignElementsMore (.assignElement (.targetExpr ((look_iff e5).2 nofun) (ident_derives e5 rfl (by decide)) ⟨.ident _, nofun⟩)
          .noInitializer ⟨_, _, e5, rfl⟩) (.tail _ (.head _)) ⟨_, e6, rfl⟩ (.assignElementsEnd ⟨_, e6, rfl⟩)) ⟨_, _, e4, rfl⟩))
        .noInitializer ⟨_, _, e4, rfl⟩) ⟨_, _, e2, rfl⟩) ⟨_, e7, rfl⟩
      (.assignPropsLast (.assignSingle e8 (.ident rfl) (.initializer ⟨_, e9, rfl⟩ (up_primary (.number e10 rfl) (by decide)))
        ⟨_, _, e8, rfl⟩) ⟨_, e11, rfl⟩)) ⟨_, _, e1, rfl⟩
  refine .up (by decide) (.arrow (m := pt arrPt 23) (.aheadStop sk ⟨_, e0, rfl⟩ (.stopsHere (.stopInit sk hinit hpat ?_))) ?_ e16 rfl rfl ?_ ⟨_, _, e0, rfl⟩)
  · exact sym_ends e12 (.inr ⟨0, rfl, by decide⟩)
  · refine .params ⟨_, e0, rfl⟩ (.paramsMore (.bindingElement (.bindingObject ⟨_, e1, rfl⟩ (.bindingPropsMore
      (.bindingNamed (.nameIdent e2 (.ident rfl)) ⟨_, e3, rfl⟩ (.bindingElement (.bindingArray ⟨_, e4, rfl⟩
        (.bindingElementsLast (.bindingElement (.bindingIdent e5 (.ident rfl)) .noInitializer ⟨_, _, e5, rfl⟩) ⟨_, e6, rfl⟩)
        ⟨_, _, e4, rfl⟩) .noInitializer ⟨_, _, e4, rfl⟩) ⟨_, _, e2, rfl⟩) ⟨_, e7, rfl⟩
      (.bindingPropsLast (.bindingSingle e8 (.ident rfl) (.initializer ⟨_, e9, rfl⟩ (up_primary (.number e10 rfl) (by decide)))
        ⟨_, _, e8, rfl⟩) ⟨_, e11, rfl⟩)) ⟨_, _, e1, rfl⟩) .noInitializer ⟨_, _, e1, rfl⟩) ⟨_, e12, rfl⟩
      (.paramsRest ⟨_, e13, rfl⟩ (.bindingIdent e14 (.ident rfl)) ⟨_, e15, rfl⟩)) ⟨_, _, e0, rfl⟩
  · exact .arrowExpr ((look_iff e17).2 nofun) (ident_derives e17 rfl (by decide))

/-- The theorem applies to the example. -/
example : ∃ s, Parser.parseExpr arrPt .script = .ok arrTree s := C45_expressions arr_derives (ends_of_eof rfl)

/-! ## A loop with a destructuring assignment -/

/-- The text of the example. -/
def forPt : Str := c!"for (const [k, v] of m) [p.q, {r = 1}] = k;"

/-- Its tree.  Departure: the comma in the assignment pattern leaves a hole. -/
def forTree : Stmt :=
  .forOf ⟨0, 43⟩ (.declaration ⟨5, 17⟩ .const
      (.array ⟨11, 17⟩ [some (.mk ⟨12, 13⟩ (.ident ⟨⟨12, 13⟩, c!"k"⟩) none), some (.mk ⟨15, 16⟩ (.ident ⟨⟨15, 16⟩, c!"v"⟩) none)] none))
    (.ident ⟨⟨21, 22⟩, c!"m"⟩)
    (.expr ⟨24, 43⟩ (.assign ⟨24, 42⟩ .assign (.pattern (.array ⟨24, 38⟩
        [some (.mk ⟨25, 28⟩ (.expr (.member ⟨25, 28⟩ (.expr (.ident ⟨⟨25, 26⟩, c!"p"⟩)) (.ident ⟨⟨27, 28⟩, c!"q"⟩))) none), none,
         some (.mk ⟨30, 37⟩ (.pattern (.object ⟨30, 37⟩ [.single ⟨31, 36⟩ ⟨⟨31, 32⟩, c!"r"⟩ (some (.literal ⟨35, 36⟩ (.number c!"1")))] none))
          none)] none)) (.ident ⟨⟨41, 42⟩, c!"k"⟩))) false

theorem for_derives : Derives .script {} (.item forTree) (pt forPt 0) (pt forPt 43) := by
  have e0 : Next .script (pt forPt 0) (exTok (.keyword k!"for") 0 3) (pt forPt 3) := next_of_read (by decide +kernel)
  have e1 : Next .script (pt forPt 3) (exTok (.punct p!"(") 4 5) (pt forPt 5) := next_of_read (by decide +kernel)
  have e2 : Next .script (pt forPt 5) (exTok (.keyword k!"const") 5 10) (pt forPt 10) := next_of_read (by decide +kernel)
  have e3 : Next .script (pt forPt 10) (exTok (.punct p!"[") 11 12) (pt forPt 12) := next_of_read (by decide +kernel)
  have e4 : Next .script (pt forPt 12) (exTok (.ident c!"k") 12 13) (pt forPt 13) := next_of_read (by decide +kernel)
  have e5 : Next .script (pt forPt 13) (exTok (.punct p!",") 13 14) (pt forPt 14) := next_of_read (by decide +kernel)
  have e6 : Next .script (pt forPt 14) (exTok (.ident c!"v") 15 16) (pt forPt 16) := next_of_read (by decide +kernel)
  have e7 : Next .script (pt forPt 16) (exTok (.punct p!"]") 16 17) (pt forPt 17) := next_of_read (by decide +kernel)
  have e8 : Next .script (pt forPt 17) (exTok (.keyword k!"of") 18 20) (pt forPt 20) := next_of_read (by decide +kernel)
  have e9 : Next .script (pt forPt 20) (exTok (.ident c!"m") 21 22) (pt forPt 22) := next_of_read (by decide +kernel)
  have e10 : Next .script (pt forPt 22) (exTok (.punct p!")") 22 23) (pt forPt 23) := next_of_read (by decide +kernel)
  have e11 : Next .script (pt forPt 23) (exTok (.punct p!"[") 24 25) (pt forPt 25) := next_of_read (by decide +kernel)
  have e12 : Next .script (pt forPt 25) (exTok (.ident c!"p") 25 26) (pt forPt 26) := next_of_read (by decide +kernel)
  have e13 : Next .script (pt forPt 26) (exTok (.punct p!".") 26 27) (pt forPt 27) := next_of_read (by decide +kernel)
  have e14 : Next .script (pt forPt 27) (exTok (.ident c!"q") 27 28) (pt forPt 28) := next_of_read (by decide +kernel)
  have e15 : Next .script (pt forPt 28) (exTok (.punct p!",") 28 29) (pt forPt 29) := next_of_read (by decide +kernel)
  have e16 : Next .script (pt forPt 29) (exTok (.punct p!"{") 30 31) (pt forPt 31) := next_of_read (by decide +kernel)
  have e17 : Next .script (pt forPt 31) (exTok (.ident c!"r") 31 32) (pt forPt 32) := next_of_read (by decide +kernel)
  have e18 : Next .script (pt forPt 32) (exTok (.punct p!"=") 33 34) (pt forPt 34) := next_of_read (by decide +kernel)
  have e19 : Next .script (pt forPt 34) (exTok (.lit (.number c!"1")) 35 36) (pt forPt 36) := next_of_read (by decide +kernel)
  have e20 : Next .script (pt forPt 36) (exTok (.punct p!"}") 36 37) (pt forPt 37) := next_of_read (by decide +kernel)
  have e21 : Next .script (pt forPt 37) (exTok (.punct p!"]") 37 38) (pt forPt 38) := next_of_read (by decide +kernel)
  have e22 : Next .script (pt forPt 38) (exTok (.punct p!"=") 39 40) (pt forPt 40) := next_of_read (by decide +kernel)
  have e23 : Next .script (pt forPt 40) (exTok (.ident c!"k") 41 42) (pt forPt 42) := next_of_read (by decide +kernel)
  have e24 : Next .script (pt forPt 42) (exTok (.punct p!";") 42 43) (pt forPt 43) := next_of_read (by decide +kernel)
  have sk : ∀ {k}, Seekable .script (pt forPt k) := pt_seekable (by decide +kernel)
  have hbind : ∀ {ctx}, Derives .script ctx (.binding (.array ⟨11, 17⟩ [some (.mk ⟨12, 13⟩ (.ident ⟨⟨12, 13⟩, c!"k"⟩) none),
      some (.mk ⟨15, 16⟩ (.ident ⟨⟨15, 16⟩, c!"v"⟩) none)] none)) (pt forPt 10) (pt forPt 17) := fun {ctx} =>
    .bindingArray ⟨_, e3, rfl⟩ (.bindingElementsMore (.bindingElement (.bindingIdent e4 (.ident rfl)) .noInitializer ⟨_, _, e4, rfl⟩)
      ⟨_, e5, rfl⟩ (.bindingElementsLast (.bindingElement (.bindingIdent e6 (.ident rfl)) .noInitializer ⟨_, _, e6, rfl⟩)
        ⟨_, e7, rfl⟩)) ⟨_, _, e3, rfl⟩
  have hpq : ∀ {ctx l}, l ≤ 18 → Derives .script ctx (.expr l (.member ⟨25, 28⟩ (.expr (.ident ⟨⟨25, 26⟩, c!"p"⟩)) (.ident ⟨⟨27, 28⟩, c!"q"⟩)))
      (pt forPt 25) (pt forPt 28) := fun {ctx l} hl => up_all (.newLhs (.newMember (.member
        (.up (.inr rfl) (.identRef e12 (.ident rfl) nofun)) (.memberName ⟨_, e13, rfl⟩ e14 (.ident rfl)) ⟨_, _, e12, rfl⟩))) hl
  have hobj : ∀ {ctx}, Derives .script ctx (.assignPattern (.object ⟨30, 37⟩ [.single ⟨31, 36⟩ ⟨⟨31, 32⟩, c!"r"⟩
      (some (.literal ⟨35, 36⟩ (.number c!"1")))] none)) (pt forPt 29) (pt forPt 37) := fun {ctx} =>
    .assignObject ⟨_, e16, rfl⟩ (.assignPropsLast (.assignSingle e17 (.ident rfl) (.initializer ⟨_, e18, rfl⟩
      (up_primary (.number e19 rfl) (by decide))) ⟨_, _, e17, rfl⟩) ⟨_, e20, rfl⟩) ⟨_, _, e16, rfl⟩
  refine .itemStmt (.forOf (p := pt forPt 17) (u := pt forPt 23) ⟨_, e0, rfl⟩ ⟨_, e1, rfl⟩ sk (.forDeclVar e2 rfl hbind hbind ⟨_, _, e2, rfl⟩)
    ⟨_, e8, rfl⟩ (ident_derives e9 rfl (by decide)) ⟨_, e10, rfl⟩ ?_ ⟨_, _, e0, rfl⟩)
  refine .exprStmt ⟨_, _, e11, by decide, nofun, nofun, fun ⟨_, h⟩ => by cases h <;> contradiction⟩ ?_ (ends_sym ⟨_, e24, rfl⟩ (by decide))
    (.inl ⟨_, e24, rfl⟩) ⟨_, _, e11, rfl⟩
  refine .up (by decide) (.assignInit sk (.initArray ⟨_, e11, rfl⟩ (.initElementsMore (.elementExpr (hpq (by decide))) ⟨_, e15, rfl⟩
    (.initElementsHere (.stopInit sk (.initObject ⟨_, e16, rfl⟩ (.initPropsHere e17 (.ident rfl) nofun e18 rfl)) hobj
      (sym_ends e21 (.inl rfl)))))) ?_ ⟨_, e22, rfl⟩ (ident_derives e23 rfl (by decide)) ⟨_, _, e11, rfl⟩)
  refine .assignArray ⟨_, e11, rfl⟩ (.assignElementsMore (.assignElement (.targetExpr ((look_iff e12).2 nofun) (hpq (by decide))
      ⟨.member _ _ _, nofun⟩) .noInitializer ⟨_, _, e12, rfl⟩) (.head _) ⟨_, e15, rfl⟩ (.assignElementsComma ⟨_, e15, rfl⟩ ?_)) ⟨_, _, e11, rfl⟩
  exact .assignElementsMore (.assignElement (.targetPattern hobj) .noInitializer ⟨_, _, e16, rfl⟩) (.tail _ (.head _)) ⟨_, e21, rfl⟩
    (.assignElementsEnd ⟨_, e21, rfl⟩)

/-- The theorem applies to the example. -/
example : ∃ s, Parser.parseStmt forPt .script = .ok forTree s := C49_statements for_derives

/-! ## A module with a class, a template and a regular expression -/

/-- The text of the example. -/
def modPt : Str := c!"import a, { b as c } from \"d\"; export default class { static get x() { return `p${/r/g}` } }"

/-- Its tree. -/
def modTree : Program :=
  ⟨.module, ⟨0, 92⟩, [],
    [.importDecl ⟨0, 30⟩ (some ⟨⟨7, 8⟩, c!"a"⟩) none (some [⟨⟨12, 18⟩, ⟨⟨12, 13⟩, c!"b"⟩, some ⟨⟨17, 18⟩, c!"c"⟩⟩]) ⟨c!"d", '"'⟩,
     .exportDecl (.defaultDecl ⟨31, 92⟩ (.classDecl ⟨46, 92⟩ ⟨⟨52, 52⟩, []⟩ none
      [.mk ⟨61, 90⟩ (.ident ⟨⟨65, 66⟩, c!"x"⟩) .get (.mk ⟨66, 68⟩ [] none)
        (.mk ⟨69, 90⟩ [] [.return ⟨71, 88⟩ (some (.literal ⟨78, 88⟩ (.template
          [.string c!"p", .expr (.literal ⟨82, 86⟩ (.regexp c!"/r/g"))])))]) false false true]))]⟩

theorem mod_derives : DerivesProgram .module modPt modTree := by
  have e0 : Next .module (pt modPt 0) (exTok (.keyword k!"import") 0 6) (pt modPt 6) := next_of_read (by decide +kernel)
  have e1 : Next .module (pt modPt 6) (exTok (.ident c!"a") 7 8) (pt modPt 8) := next_of_read (by decide +kernel)
  have e2 : Next .module (pt modPt 8) (exTok (.punct p!",") 8 9) (pt modPt 9) := next_of_read (by decide +kernel)
  have e3 : Next .module (pt modPt 9) (exTok (.punct p!"{") 10 11) (pt modPt 11) := next_of_read (by decide +kernel)
  have e4 : Next .module (pt modPt 11) (exTok (.ident c!"b") 12 13) (pt modPt 13) := next_of_read (by decide +kernel)
  have e5 : Next .module (pt modPt 13) (exTok (.keyword k!"as") 14 16) (pt modPt 16) := next_of_read (by decide +kernel)
  have e6 : Next .module (pt modPt 16) (exTok (.ident c!"c") 17 18) (pt modPt 18) := next_of_read (by decide +kernel)
  have e7 : Next .module (pt modPt 18) (exTok (.punct p!"}") 19 20) (pt modPt 20) := next_of_read (by decide +kernel)
  have e8 : Next .module (pt modPt 20) (exTok (.keyword k!"from") 21 25) (pt modPt 25) := next_of_read (by decide +kernel)
  have e9 : Next .module (pt modPt 25) (exTok (.lit (.string ⟨c!"d", '"'⟩)) 26 29) (pt modPt 29) := next_of_read (by decide +kernel)
  have e10 : Next .module (pt modPt 29) (exTok (.punct p!";") 29 30) (pt modPt 30) := next_of_read (by decide +kernel)
  have e11 : Next .module (pt modPt 30) (exTok (.keyword k!"export") 31 37) (pt modPt 37) := next_of_read (by decide +kernel)
  have e12 : Next .module (pt modPt 37) (exTok (.keyword k!"default") 38 45) (pt modPt 45) := next_of_read (by decide +kernel)
  have e13 : Next .module (pt modPt 45) (exTok (.keyword k!"class") 46 51) (pt modPt 51) := next_of_read (by decide +kernel)
  have e14 : Next .module (pt modPt 51) (exTok (.punct p!"{") 52 53) (pt modPt 53) := next_of_read (by decide +kernel)
  have e15 : Next .module (pt modPt 53) (exTok (.keyword k!"static") 54 60) (pt modPt 60) := next_of_read (by decide +kernel)
  have e16 : Next .module (pt modPt 60) (exTok (.keyword k!"get") 61 64) (pt modPt 64) := next_of_read (by decide +kernel)
  have e17 : Next .module (pt modPt 64) (exTok (.ident c!"x") 65 66) (pt modPt 66) := next_of_read (by decide +kernel)
  have e18 : Next .module (pt modPt 66) (exTok (.punct p!"(") 66 67) (pt modPt 67) := next_of_read (by decide +kernel)
  have e19 : Next .module (pt modPt 67) (exTok (.punct p!")") 67 68) (pt modPt 68) := next_of_read (by decide +kernel)
  have e20 : Next .module (pt modPt 68) (exTok (.punct p!"{") 69 70) (pt modPt 70) := next_of_read (by decide +kernel)
  have e21 : Next .module (pt modPt 70) (exTok (.keyword k!"return") 71 77) (pt modPt 77) := next_of_read (by decide +kernel)
  have e22 : Next .module (pt modPt 77) (exTok (.templateHead c!"p") 78 82) (pt modPt 82) := next_of_read (by decide +kernel)
  have e23 : Next .module (pt modPt 88) (exTok (.punct p!"}") 89 90) (pt modPt 90) := next_of_read (by decide +kernel)
  have e24 : Next .module (pt modPt 90) (exTok (.punct p!"}") 91 92) (pt modPt 92) := next_of_read (by decide +kernel)
  have r : RegexAt .module c!"/r/g" (exTok (.lit (.regexp c!"/r/g")) 82 86) (pt modPt 82) (pt modPt 86) := by
    refine ⟨?_, rfl⟩
    refine Reads.intro (pre := modPt.take 82) (tr := []) (w := c!"/r/g") (rest := modPt.drop 86) .nil ?_ nofun ?_ (by decide +kernel)
    · exact ⟨by rintro c ⟨⟩; rfl, nofun, nofun, nofun, nofun⟩
    · exact .regexp (w := ['r', '/']) (flags := ['g']) rfl (.plain (by decide) .close) (by decide) (by rintro c ⟨⟩; decide)
  have k : Spec.Continues .module (pt modPt 86) ⟨.templateTail [], false, ⟨86, 88⟩⟩ (pt modPt 88) :=
    Spec.Continues.intro (pre := modPt.take 86) (tr := []) (w := c!"}`") (rest := modPt.drop 88) .nil (.tail .nil) rfl (by decide +kernel)
  have sk : ∀ {k}, Seekable .module (pt modPt k) := pt_seekable (by decide +kernel)
  refine ⟨rfl, pt modPt 0, pt modPt 92, .directivesEnd ((look_iff e0).2 nofun), ?_, .inl ⟨_, _, e0, rfl⟩⟩
  refine .itemsMore (.itemDecl (.importFrom rfl ⟨_, e0, rfl⟩ (.both e1 (.ident rfl) ⟨_, e2, rfl⟩ (.named ⟨_, e3, rfl⟩
    (.last (.renamed e4 (.ident rfl) ⟨_, e5, rfl⟩ e6 (.ident rfl) ⟨_, _, e4, rfl⟩) ⟨_, e7, rfl⟩))) ⟨_, e8, rfl⟩ ⟨_, e9, rfl⟩
    (.inl ⟨_, e10, rfl⟩) ⟨_, _, e0, rfl⟩)) (.itemsMore (.itemDecl (.exportDefaultDecl rfl ⟨_, e11, rfl⟩ ⟨_, e12, rfl⟩
      ((look_iff e13).2 (by decide)) (.classDecl ⟨_, e13, rfl⟩ (.inr ⟨rfl, rfl, _, _, e14, by decide, rfl⟩) (.classPlain ⟨_, e14, rfl⟩
        (.classMore e15 (.elementStatic rfl ⟨_, e15, rfl⟩ (.getter ⟨_, e16, rfl⟩ (.nameIdent e17 (.ident rfl)) (.params ⟨_, e18, rfl⟩
          (.paramsEnd ⟨_, e19, rfl⟩) ⟨_, _, e18, rfl⟩) ?_ ⟨rfl, rfl⟩ ⟨_, _, e16, rfl⟩)) (.classEnd ⟨_, e24, rfl⟩)))
        ⟨_, _, e13, rfl⟩) ⟨_, _, e11, rfl⟩)) (.itemsEnd ⟨false, .nil⟩))
  refine .body ⟨_, e20, rfl⟩ (.directivesEnd ((look_iff e21).2 nofun)) (.stmtsMore (.itemStmt (.returnExpr rfl ⟨_, e21, rfl⟩
    ((look_iff e22).2 rfl) (up_primary (.templateE (.templateHead ⟨_, e22, rfl⟩ (.templateTail (up_primary (.regexE r sk) (by decide)) sk k
      rfl)) ⟨_, _, e22, rfl⟩) (by decide)) (ends_sym ⟨_, e23, rfl⟩ (by decide))
    (.inr ⟨rfl, .inr ⟨_, _, e23, nofun, .inl rfl⟩⟩) ⟨_, _, e21, rfl⟩)) (.stmtsEnd ⟨_, e23, rfl⟩)) ⟨_, _, e20, rfl⟩

/-- The theorem applies to the example. -/
example : ∃ s, Parser.parse Parser.program modPt .module = .ok modTree s := C49_programs mod_derives

/-! ## Texts that are not derived -/

/-- Departures, by example: scripts that ECMAScript allows and fajt rejects.  No rule of the grammar derives them. -/
theorem C49_departures : letI := asciiID
    [c!"(a,) => 1",
     c!"(async) => 1",
     c!"async ({a = 1}) => 1",
     c!"let a = b in c",
     c!"({async() {}})",
     c!"({async})",
     c!"({set})",
     c!"class A { async() {} }",
     c!"async = 1",
     c!"async(1) + 2",
     c!"async.x",
     c!"f()`a${b}`",
     c!"import(a)",
     c!"x = import(a).b",
     c!"class A extends B { constructor() { super().x } }",
     c!"a?.if",
     c!"[{}.x] = y",
     c!"function* f() { [yield, 1] }",
     c!"label: function f() {}",
     c!"if (a) function f() {}",
     c!"07",
     c!"1n"].all rejected = true := by decide +kernel

end Fajt.Props
