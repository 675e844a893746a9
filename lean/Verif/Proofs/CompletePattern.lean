import Verif.Proofs.CompleteArrow
/-!
# Completeness: destructuring assignments
-/
namespace Fajt
open Spec
set_option linter.unusedSectionVars false
variable [UnicodeID]

namespace Complete
open Parser

/-! ## Loops -/

/-- The body of the loop of the properties of an object assignment pattern. -/
def asgPropBody (r : Rec) (ctx : Ctx) :
    List AssignProp → P (List AssignProp ⊕ List AssignProp × Option PatternOrExpr) := fun acc => do
  let t ← current
  if t.value = .punct p!"}" then do
    let _ ← consume
    pure (.inr (acc, none))
  else if t.value = .punct p!"..." then do
    let rest ← assignmentRest r ctx p!"}"
    pure (.inr (acc, some rest))
  else if t.value = .punct p!"[" ∨ (← peekMatches (.punct p!":")) = true then do
    let prop ← namedAssignmentProp r ctx
    consumeListDelimiter (.punct p!"}")
    pure (.inl (acc ++ [prop]))
  else do
    let prop ← singleNameAssignmentProp r ctx
    consumeListDelimiter (.punct p!"}")
    pure (.inl (acc ++ [prop]))

/-- The body of the loop of the elements of an array assignment pattern. -/
def asgElemBody (r : Rec) (ctx : Ctx) :
    List (Option AssignElement) → P (List (Option AssignElement) ⊕ List (Option AssignElement) × Option PatternOrExpr) :=
  fun acc => do
    let t ← current
    if t.value = .punct p!"]" then do
      let _ ← consume
      pure (.inr (acc, none))
    else if t.value = .punct p!"..." then do
      let rest ← assignmentRest r ctx p!"]"
      pure (.inr (acc, some rest))
    else if t.value = .punct p!"," then do
      let _ ← consume
      pure (.inl (acc ++ [none]))
    else do
      let e ← assignmentElement r ctx
      pure (.inl (acc ++ [some e]))

/-! ## Meanings -/

section
variable (sty : SourceType) (ctx : Ctx)

structure AsgTargetOK (x : PatternOrExpr) (a b : Point) : Prop where
  head : ∃ t c, Next sty a t c ∧ startVal t.value = true
  run : Ends sty ctx 17 b → ∀ n q, Run sty (destructuringAssignmentTarget (mkRec n) ctx) a q x b b.fin

structure AsgElemOK (e : AssignElement) (a b : Point) : Prop where
  head : ∃ t c, Next sty a t c ∧ startVal t.value = true
  run : Delim sty b → ∀ n q, Run sty (assignmentElement (mkRec n) ctx) a q e b b.fin

structure AsgPropOK (p : AssignProp) (a b : Point) : Prop where
  run : Delim sty b → ∃ t c, Next sty a t c ∧ t.value ≠ .punct p!"}" ∧ t.value ≠ .punct p!"..." ∧
    ((∃ w, (∀ q, Run sty (peekMatches (.punct p!":")) a q w a q) ∧ (t.value = .punct p!"[" ∨ w = true) ∧
      ∀ n q, Run sty (namedAssignmentProp (mkRec n) ctx) a q p b b.fin) ∨
    ((∀ q, Run sty (peekMatches (.punct p!":")) a q false a q) ∧ t.value ≠ .punct p!"[" ∧
      ∀ n q, Run sty (singleNameAssignmentProp (mkRec n) ctx) a q p b b.fin))

def AsgPropsOK (ps : List AssignProp) (rest : Option PatternOrExpr) (a b : Point) : Prop :=
  ∀ n k q acc, Run sty (loop (asgPropBody (mkRec n) ctx) k acc) a q (acc ++ ps, rest) b b.fin

def AsgElemsOK (es : List (Option AssignElement)) (rest : Option PatternOrExpr) (a b : Point) : Prop :=
  ∀ n k q acc, Run sty (loop (asgElemBody (mkRec n) ctx) k acc) a q (acc ++ es, rest) b b.fin
end

section
variable {sty : SourceType} {a b c d m o p x : Point} {q q' q1 n l : Nat} {t u : Token} {ctx : Ctx} {e y z : Expr} {sp asp : Span}
  {as : List Argument} {id : Ident} {er : PErr} {init : Option Expr} {tg : PatternOrExpr} {rest : Option PatternOrExpr} {i : Span}

theorem run_assignPatternRec {p : AssignPattern} (h : ∀ n, Run sty (assignPattern (mkRec n) ctx) a q p b q') (n : Nat) :
    Run sty ((mkRec n).assignPattern ctx) a q p b q' :=
  run_mk (f := fun r => r.assignPattern ctx) (g := fun r => assignPattern r ctx) (fun _ => rfl) (fun _ => rfl) h n

/-! ## Patterns -/

theorem assignObject_ok {ps : List AssignProp} (h1 : Sym sty p!"{" a m) (h2 : AsgPropsOK sty ctx ps rest m b)
    (hs : From sty a b sp) : AssignPatternOK sty ctx (.object sp ps rest) a b := by
  obtain ⟨t, hn, hv⟩ := h1
  refine ⟨⟨t, m, hn, .inl hv⟩, hs, fun n q => Run.bind (run_current hn) (Run.iteF (by rw [hv]; nofun) (Run.iteT hv ?_))⟩
  rw [From.eq hs hn]
  exact Run.bind (run_position hn) (Run.assert ⟨t, hn, hv⟩ (Run.bind (h2 n _ _ []) (Run.bind (run_spanFrom _) (Run.pure _))))

theorem assignArray_ok {es : List (Option AssignElement)} (h1 : Sym sty p!"[" a m) (h2 : AsgElemsOK sty ctx es rest m b)
    (hs : From sty a b sp) : AssignPatternOK sty ctx (.array sp es rest) a b := by
  obtain ⟨t, hn, hv⟩ := h1
  refine ⟨⟨t, m, hn, .inr hv⟩, hs, fun n q => Run.bind (run_current hn) (Run.iteT hv ?_)⟩
  rw [From.eq hs hn]
  exact Run.bind (run_position hn) (Run.assert ⟨t, hn, hv⟩ (Run.bind (h2 n _ _ []) (Run.bind (run_spanFrom _) (Run.pure _))))

theorem targetPattern_ok {x : AssignPattern} (h : AssignPatternOK sty ctx x a b) : AsgTargetOK sty ctx (.pattern x) a b := by
  obtain ⟨t, c, hn, hv⟩ := h.head
  refine ⟨⟨t, c, hn, by rcases hv with hv | hv <;> rw [hv] <;> rfl⟩, fun _ n q => Run.bind (run_current hn) (Run.iteT hv ?_)⟩
  exact Run.bind (run_assignPatternRec (fun n => h.run n q) n) (Run.pure _)

theorem targetExpr_ok (hl : Look sty a fun t => t.value ∉ [.punct p!"{", .punct p!"["]) (h : ExprOK sty ctx 17 e a b)
    (ht : TargetOK ctx.strict e) : AsgTargetOK sty ctx (.expr e) a b := by
  obtain ⟨t, c, hn, hh⟩ := h.head
  have hv := hl t c hn
  simp only [List.mem_cons, List.not_mem_nil, or_false] at hv
  refine ⟨⟨t, c, hn, hh.start⟩, fun he n q => Run.bind (run_current hn) (Run.iteF hv (Run.bind (h.parse he n q) ?_))⟩
  rw [(Props.C31_target_check ctx _ e).2 ht]
  exact Run.bind Run.ofExcept (Run.pure _)

theorem initOK_ends {k : Nat} (h : InitOK sty ctx init m b) (hd : Delim sty b) (hk : 2 ≤ k) : Ends sty ctx k m := by
  rcases h.head with ⟨-, rfl⟩ | ⟨-, c, t, hc, hv⟩
  · exact (ends_delim hd).mono (by omega)
  · refine Ends.of_next hc fun l hl => ?_
    obtain ⟨v, f, s⟩ := t
    cases hv; cases hl; omega

theorem assignElement_ok (h1 : AsgTargetOK sty ctx tg a m) (h2 : InitOK sty { ctx with in_ := true } init m b)
    (hs : From sty a b sp) : AsgElemOK sty ctx (.mk sp tg init) a b := by
  obtain ⟨t, c, hn, hh⟩ := h1.head
  refine ⟨⟨t, c, hn, hh⟩, fun hd n q => ?_⟩
  have he : Ends sty { ctx with in_ := true } 1 b := ends_delim hd
  have hm : Ends sty ctx 17 m := by
    rcases h2.head with ⟨-, rfl⟩ | ⟨-, c, t, hc, hv⟩
    · exact (ends_delim hd).mono (by decide)
    · refine Ends.of_next hc fun l hl => ?_
      obtain ⟨v, f, s⟩ := t
      cases hv; cases hl; decide
  rw [From.eq hs hn]
  exact Run.bind (run_position hn) (Run.bind (h1.run hm n q) (Run.bind (h2.cur he _)
    (Run.bind (h2.run he n) (Run.bind (run_spanFrom _) (Run.pure _)))))

theorem assignSingle_ok (h1 : Next sty a t m) (hi : IdentTok ctx t id) (h2 : InitOK sty ctx init m b)
    (hs : From sty a b sp) : AsgPropOK sty ctx (.single sp id init) a b := by
  have hp : ∀ p, t.value ≠ .punct p := fun p hp => by
    rcases ident_shape hi with ⟨s, h⟩ | ⟨s, h⟩ <;> rw [hp] at h <;> cases h
  refine ⟨fun hd => ⟨t, m, h1, hp _, hp _, .inr ⟨fun q => run_peekF h1 ?_, hp _, fun n q => ?_⟩⟩⟩
  · rcases h2.head with ⟨-, rfl⟩ | ⟨-, c, hc⟩
    · obtain ⟨v, c, hv, hd⟩ := hd
      refine tok_ne hd ?_
      rintro rfl; revert hv; decide
    · exact tok_ne hc nofun
  · have he : Ends sty ctx 1 b := ends_delim hd
    rw [From.eq hs h1]
    exact Run.bind (run_position h1) (Run.bind (run_parseIdent h1 hi) (Run.bind (h2.cur he _)
      (Run.bind (h2.run he n) (Run.bind (run_spanFrom _) (Run.pure _)))))

theorem assignNamed_ok {x : PropName} {esp : Span} (h1 : NameOK sty ctx x a m) (h2 : Sym sty p!":" m o)
    (h3 : AsgElemOK sty ctx (.mk esp tg init) o b) (hs : From sty a b sp) : AsgPropOK sty ctx (.named sp x tg init) a b := by
  obtain ⟨t, c, hn, hh⟩ := h1.head
  have tail : Delim sty b → ∀ n q, Run sty (namedAssignmentProp (mkRec n) ctx) a q (.named sp x tg init) b b.fin := by
    intro hd n q
    rw [From.eq hs hn]
    exact Run.bind (run_position hn) (Run.bind (h1.run n q) (Run.assert h2 (Run.bind (h3.run hd n _)
      (Run.bind (run_spanFrom _) (Run.pure _)))))
  rcases hh with ⟨rfl, hd⟩ | ⟨hv, hl⟩
  · exact ⟨fun h => ⟨t, c, hn, hd _, hd _, .inl ⟨true, fun q => run_peekT hn h2, .inr rfl, tail h⟩⟩⟩
  · exact ⟨fun h => ⟨t, c, hn, by rw [hv]; nofun, by rw [hv]; nofun, .inl ⟨false, fun q => run_peekF hn hl, .inl hv, tail h⟩⟩⟩

theorem assignPropsEnd_ok (h : Sym sty p!"}" a b) : AsgPropsOK sty ctx [] none a b := fun n k q acc => by
  rw [List.append_nil]
  obtain ⟨t, hn, hv⟩ := h
  refine Run.loop_end (q1 := b.fin) (Run.bind (run_current hn) ?_) k
  exact Run.iteT hv (Run.bind (run_consume hn) (Run.pure _))

theorem run_assignRest {w : Punct} (h1 : Sym sty p!"..." a m) (h2 : AsgTargetOK sty ctx tg m o) (h3 : Sym sty w o b)
    (he : Ends sty ctx 17 o) : Run sty (assignmentRest (mkRec n) ctx w) a q tg b b.fin := by
  obtain ⟨t, hn, hv⟩ := h1
  exact Run.bind (run_consume hn) (Run.bind (h2.run he n _) (Run.ifT (run_maybeT h3) (Run.pure _)))

theorem assignPropsRest_ok (h1 : Sym sty p!"..." a m) (h2 : AsgTargetOK sty ctx tg m o) (h3 : Sym sty p!"}" o b) :
    AsgPropsOK sty ctx [] (some tg) a b := fun n k q acc => by
  rw [List.append_nil]
  have hr := run_assignRest (q := q) (n := n) h1 h2 h3 (ends_close h3 (by simp))
  obtain ⟨t, hn, hv⟩ := h1
  refine Run.loop_end (q1 := b.fin) (Run.bind (run_current hn) ?_) k
  exact Run.iteF (by rw [hv]; nofun) (Run.iteT hv (Run.bind hr (Run.pure _)))

/-- One property and what follows it. -/
theorem asgProp_step {x : AssignProp} {d : Point} (h : AsgPropOK sty ctx x a m) (hd : Delim sty m)
    (h2 : ∀ q, q = m.fin → Run sty (consumeListDelimiter (.punct p!"}")) m q () d q') (acc : List AssignProp) :
    Run sty (asgPropBody (mkRec n) ctx acc) a q (.inl (acc ++ [x])) d q' := by
  obtain ⟨t, c, hn, h3, h4, h5⟩ := h.run hd
  refine Run.bind (run_current hn) (Run.iteF h3 (Run.iteF h4 ?_))
  rcases h5 with ⟨w, hw, hor, hr⟩ | ⟨hw, hb, hr⟩
  · exact Run.bind (hw q) (Run.iteT hor (Run.bind (hr n q) (Run.bind (h2 _ rfl) (Run.pure _))))
  · exact Run.bind (hw q) (Run.iteF (by simp [hb]) (Run.bind (hr n q) (Run.bind (h2 _ rfl) (Run.pure _))))

theorem assignPropsLast_ok {x : AssignProp} (h : AsgPropOK sty ctx x a m) (h2 : Sym sty p!"}" m b) :
    AsgPropsOK sty ctx [x] none a b := fun n k q acc => by
  refine Run.loop_step (q1 := m.fin) (asgProp_step h (delim_of h2 (by simp)) (fun q hq => by rw [hq]; exact run_delimEnd h2 nofun) acc)
    (fun k => ?_) k
  have := assignPropsEnd_ok (ctx := ctx) h2 n k m.fin (acc ++ [x])
  rwa [List.append_nil] at this

theorem assignPropsMore_ok {x : AssignProp} {ps : List AssignProp} (h : AsgPropOK sty ctx x a m) (h2 : Sym sty p!"," m o)
    (h3 : AsgPropsOK sty ctx ps rest o b) : AsgPropsOK sty ctx (x :: ps) rest a b := fun n k q acc => by
  rw [List.append_cons]
  exact Run.loop_step (q1 := o.fin) (asgProp_step h (delim_of h2 (by simp)) (fun q hq => run_delimComma h2) acc)
    (fun k => h3 n k _ _) k

theorem assignElementsEnd_ok (h : Sym sty p!"]" a b) : AsgElemsOK sty ctx [] none a b := fun n k q acc => by
  rw [List.append_nil]
  obtain ⟨t, hn, hv⟩ := h
  refine Run.loop_end (q1 := b.fin) (Run.bind (run_current hn) ?_) k
  exact Run.iteT hv (Run.bind (run_consume hn) (Run.pure _))

theorem assignElementsRest_ok (h1 : Sym sty p!"..." a m) (h2 : AsgTargetOK sty ctx tg m o) (h3 : Sym sty p!"]" o b) :
    AsgElemsOK sty ctx [] (some tg) a b := fun n k q acc => by
  rw [List.append_nil]
  have hr := run_assignRest (q := q) (n := n) h1 h2 h3 (ends_close h3 (by simp))
  obtain ⟨t, hn, hv⟩ := h1
  refine Run.loop_end (q1 := b.fin) (Run.bind (run_current hn) ?_) k
  exact Run.iteF (by rw [hv]; nofun) (Run.iteT hv (Run.bind hr (Run.pure _)))

theorem assignElementsComma_ok {es : List (Option AssignElement)} (h : Sym sty p!"," a m) (h2 : AsgElemsOK sty ctx es rest m b) :
    AsgElemsOK sty ctx (none :: es) rest a b := fun n k q acc => by
  rw [List.append_cons]
  obtain ⟨t, hn, hv⟩ := h
  refine Run.loop_step (q1 := m.fin) (Run.bind (run_current hn) ?_) (fun k => h2 n k _ _) k
  exact Run.iteF (by rw [hv]; nofun) (Run.iteF (by rw [hv]; nofun) (Run.iteT hv (Run.bind (run_consume hn) (Run.pure _))))

theorem assignElementsMore_ok {x : AssignElement} {es : List (Option AssignElement)} {v : TokVal} (h : AsgElemOK sty ctx x a m)
    (hv : v ∈ [.punct p!",", .punct p!"]"]) (ht : Tok sty v m c) (h2 : AsgElemsOK sty ctx es rest m b) :
    AsgElemsOK sty ctx (some x :: es) rest a b := fun n k q acc => by
  rw [List.append_cons]
  obtain ⟨t, d, hn, hh⟩ := h.head
  have hd : Delim sty m := delim_of ht (by
    simp only [List.mem_cons, List.not_mem_nil, or_false] at hv ⊢
    rcases hv with hv | hv <;> simp [hv])
  refine Run.loop_step (q1 := m.fin) (Run.bind (run_current hn) ?_) (fun k => h2 n k _ _) k
  exact Run.iteF (startVal_ne hh (by decide)) (Run.iteF (startVal_ne hh (by decide)) (Run.iteF (startVal_ne hh (by decide))
    (Run.bind (h.run hd n _) (Run.pure _))))

/-! ## Assignments -/

theorem assignLiteral_ok {l : Literal} {pt : AssignPattern} {lsp : Span} (hk : Seekable sty a) (h1 : ExprOK sty ctx 17 (.literal lsp l) a m)
    (hl : (∃ ps, l = .object ps) ∨ (∃ es, l = .array es)) (h2 : AssignPatternOK sty ctx pt a m) (hm : src m = src a)
    (h3 : Sym sty p!"=" m o) (h4 : ExprOK sty ctx 1 y o b) (hs : From sty a b sp) :
    ExprOK sty ctx 1 (.assign sp .assign (.pattern pt) y) a b := by
  obtain ⟨w, hw, hwv⟩ := h3
  have hs3 : symbol w.value = some AssignOp.assign.asStr := by rw [hwv]; rfl
  have he : Ends sty ctx 2 m := ends_op hw (assign_cont hs3)
  obtain ⟨t, c, hn, hv⟩ := h2.head
  have hp : ∃ p, t.value = .punct p := by rcases hv with hv | hv <;> exact ⟨_, hv⟩
  obtain ⟨p, hp⟩ := hp
  refine expr1_ok hn (by rcases hv with hv | hv <;> rw [hv] <;> rfl) hs fun heb n q => ?_
  refine assign_general hn (fun _ => by rw [hp]; nofun) (by rw [hp]; nofun) (fun h => by rw [punct_not_ident hp] at h; cases h) ?_
  refine Run.bind (run_position hn) (Run.bind (run_current hn) ?_)
  refine Run.attempt (Run.bind (run_position hn) (Run.attempt (h1.down3.conditional he n q) (Run.pure _))) ?_
  refine Run.bind (run_optOpSome hw (by rw [asgTok_of hs3]; exact assignOpOf_tok _)) ?_
  rw [From.eq hs hn]
  refine Run.bind (x := .pattern pt) (b := o) (q1 := o.fin) ?_ (Run.bind (h4.parse heb n _) (Run.bind (run_spanFrom _) (Run.pure _)))
  have main : Run sty (do
      rewindTo t
      let pattern ← (mkRec n).assignPattern ctx
      let _ ← consumeAssert (.punct p!"=")
      pure (PatternOrExpr.pattern pattern)) o o.fin (PatternOrExpr.pattern pt) o o.fin :=
    Run.bind (run_rewind hn hk (by rw [next_src hw, hm])) (Run.bind (run_assignPatternRec (fun n => h2.run n _) n)
      (Run.assert ⟨w, hw, hwv⟩ (Run.pure _)))
  rcases hl with ⟨ps, rfl⟩ | ⟨es, rfl⟩ <;> exact main

/-- The general case of an assignment expression that starts with an initialized name: up to the pattern. -/
theorem initLit_conditional (h : InitLitOK sty ctx i a x) (n q : Nat) :
    Fails sty (conditionalExprOrArrowFunction (mkRec n) ctx) a q (PErr.initializedName i) x x.fin := by
  obtain ⟨t, c, hn, hv⟩ := h.head
  have hf := fails_up hn (by rcases hv with hv | hv <;> rw [hv] <;> simp [coverHead]) h.fails n q
  refine Fails.seq (run_position hn) (Fails.attempt hf ?_)
  split
  · exact Fails.throw
  · exact Fails.throw

theorem assign_generalF (h1 : Next sty a t c) {p : Punct} (hp : t.value = .punct p)
    (h : Fails sty (assignmentExprGeneral (mkRec n) ctx) a q er b q') : Fails sty (assignExpr (mkRec n) ctx) a q er b q' := by
  refine Fails.seq (run_curVal h1) ?_
  refine Fails.iteF (by rw [hp]; nofun) (Fails.iteF (by rw [hp]; nofun) ?_)
  refine Fails.seq (run_isIdent h1 ctx) ?_
  rw [punct_not_ident hp]
  obtain ⟨w, hw⟩ := run_peekAny (sty := sty) (a := a) (q := q) (.punct p!"=>")
  exact Fails.seq hw h

theorem assignInit_ok {pt : AssignPattern} (hk : Seekable sty a) (h1 : InitLitOK sty ctx i a x) (hx : src x = src a)
    (h2 : AssignPatternOK sty ctx pt a m) (h3 : Sym sty p!"=" m o) (h4 : ExprOK sty ctx 1 y o b) (hs : From sty a b sp) :
    ExprOK sty ctx 1 (.assign sp .assign (.pattern pt) y) a b := by
  obtain ⟨w, hw, hwv⟩ := h3
  have hs3 : symbol w.value = some AssignOp.assign.asStr := by rw [hwv]; rfl
  obtain ⟨t, c, hn, hv⟩ := h2.head
  have hp : ∃ p, t.value = .punct p := by rcases hv with hv | hv <;> exact ⟨_, hv⟩
  obtain ⟨p, hp⟩ := hp
  refine expr1_ok hn (by rcases hv with hv | hv <;> rw [hv] <;> rfl) hs fun heb n q => ?_
  refine assign_general hn (fun _ => by rw [hp]; nofun) (by rw [hp]; nofun) (fun h => by rw [punct_not_ident hp] at h; cases h) ?_
  refine Run.bind (run_position hn) (Run.bind (run_current hn) ?_)
  refine Run.attemptErr (initLit_conditional h1 n q) (Run.iteT rfl (Run.bind (run_rewind hn hk hx) ?_))
  refine Run.bind (run_curMatches hn _) (Run.bind (run_curMatches hn _) (Run.iteF ?_ ?_))
  · rcases hv with hv | hv <;> simp [hv]
  · refine Run.bind (run_assignPatternRec (fun n => h2.run n _) n) ?_
    refine Run.bind (run_optOpSome hw (by rw [asgTok_of hs3]; exact assignOpOf_tok _)) ?_
    rw [From.eq hs hn]
    exact Run.bind (h4.parse heb n _) (Run.bind (run_spanFrom _) (Run.pure _))

theorem stopInit_ok {pt : AssignPattern} (hk : Seekable sty a) (h1 : InitLitOK sty ctx i a x) (hx : src x = src a)
    (h2 : AssignPatternOK sty ctx pt a b) (he : Ends sty ctx 1 b) : StopOK sty ctx (.init i) a b := by
  obtain ⟨t, c, hn, hv⟩ := h2.head
  have hp : ∃ p, t.value = .punct p := by rcases hv with hv | hv <;> exact ⟨_, hv⟩
  obtain ⟨p, hp⟩ := hp
  refine ⟨⟨t, c, hn, by rcases hv with hv | hv <;> simp [hv]⟩, nofun, fun _ _ => ⟨t, c, hn, hv⟩, fun n q => assign_generalF hn hp ?_⟩
  refine Fails.seq (run_position hn) (Fails.seq (run_current hn) ?_)
  refine Fails.attempt (initLit_conditional h1 n q) (Fails.iteT rfl (Fails.seq (run_rewind hn hk hx) ?_))
  refine Fails.seq (run_curMatches hn _) (Fails.seq (run_curMatches hn _) (Fails.iteF ?_ ?_))
  · rcases hv with hv | hv <;> simp [hv]
  · refine Fails.seq (run_assignPatternRec (fun n => h2.run n _) n) ?_
    refine Fails.seq (run_optOpNone fun u d hu => not_none fun op hop => ?_) Fails.throw
    exact absurd (he u d hu 1 (assign_cont (assignOpOf_some hop))) (by decide)

/-! ## Literals with initialized names -/

theorem initObject_ok (h1 : Sym sty p!"{" a m) (h2 : InitPropsOK sty ctx i m b) : InitLitOK sty ctx i a b := by
  obtain ⟨t, hn, hv⟩ := h1
  refine ⟨⟨t, m, hn, .inl hv⟩, fun n q => Fails.seq (run_current hn) ?_⟩
  simp only [hv]
  obtain ⟨t', -, -, hr⟩ := run_assertTok (q := q) ⟨t, hn, hv⟩
  exact Fails.seq (run_position hn) (Fails.seq hr (Fails.bind (h2 n _ _ [])))

theorem initArray_ok (h1 : Sym sty p!"[" a m) (h2 : InitElementsOK sty ctx i m b) : InitLitOK sty ctx i a b := by
  obtain ⟨t, hn, hv⟩ := h1
  refine ⟨⟨t, m, hn, .inr hv⟩, fun n q => Fails.seq (run_current hn) ?_⟩
  simp only [hv]
  obtain ⟨t', -, -, hr⟩ := run_assertTok (q := q) ⟨t, hn, hv⟩
  exact Fails.seq (run_position hn) (Fails.seq hr (Fails.bind (h2 n _ _ [])))

theorem initPropsHere_ok (h1 : Next sty a t b) (h : IdentTok ctx t id) (hsp : ¬ specialProp t) (h2 : Next sty b u c)
    (hv : u.value = .punct p!"=") : InitPropsOK sty ctx u.span a b := fun n k q acc => by
  have hp : ∀ p, t.value ≠ .punct p := fun p hp => by
    rcases ident_shape h with ⟨s, h⟩ | ⟨s, h⟩ <;> rw [hp] at h <;> cases h
  have hr : Run sty (propertyDefinition (mkRec n) ctx) a q (.identRef id) b b.fin := by
    have ht2 : Tok sty (.punct p!"=") b c := ⟨u, h2, hv⟩
    refine Run.bind (run_current h1) (Run.iteF (hp _) (Run.ifF (run_peekF h1 (tok_ne ht2 nofun)) (Run.iteF (hp _) ?_)))
    refine Run.ifF (q1 := q) (Run.bind (run_peekF h1 (tok_ne ht2 nofun)) (Run.bind (run_peekF h1 (tok_ne ht2 nofun)) (Run.bind (run_curVal h1) ?_)))
      (Run.bind (run_parseIdent h1 h) (Run.pure _))
    simp only [specialProp, List.mem_cons, List.not_mem_nil, or_false, not_or] at hsp
    split
    · rename_i heq; exact absurd (Option.some.inj heq) (hp _)
    · rename_i heq; exact absurd (Option.some.inj heq) (hp _)
    · rename_i heq; exact absurd (Option.some.inj heq) hsp.2.2.2
    · rename_i heq; exact absurd (Option.some.inj heq) hsp.1
    · rename_i heq; exact absurd (Option.some.inj heq) hsp.2.1
    · rename_i heq; exact absurd (Option.some.inj heq) hsp.2.2.1
    · exact Run.pure _
  refine Fails.loop_here (Fails.seq (x := false) (run_maybeF ((look_iff h1).2 (hp _))) (Fails.seq hr ?_)) k
  exact Fails.seq (x := true) (run_curT ⟨u, h2, hv⟩) (Fails.iteT rfl (Fails.seq (run_current h2) Fails.throw))

theorem initPropsValue_ok {x : PropName} (h1 : NameOK sty ctx x a m) (h2 : Sym sty p!":" m o) (h3 : StopOK sty ctx (.init i) o b) :
    InitPropsOK sty ctx i a b := fun n k q acc => by
  obtain ⟨t, c, hn, hh⟩ := h1.head
  have tail : ∀ n q, Fails sty (namedPropertyDefinition (mkRec n) ctx t.span.start x) m q (PErr.initializedName i) b b.fin := by
    intro n q
    obtain ⟨t', -, -, hr⟩ := run_assertTok (q := q) h2
    exact Fails.seq hr (Fails.bind (fails_assignRec h3.fails n _))
  rcases hh with ⟨rfl, hd⟩ | ⟨hv, hl⟩
  · refine Fails.loop_here (Fails.seq (x := false) (run_maybeF ((look_iff hn).2 (hd _))) (Fails.bind ?_)) k
    exact Fails.seq (run_current hn) (Fails.iteF (hd _) (Fails.seq (x := true) (run_peekT hn h2) (Fails.seq (run_position hn)
      (Fails.seq (h1.run n q) (tail n _)))))
  · refine Fails.loop_here (Fails.seq (x := false) (run_maybeF ((look_iff hn).2 (by rw [hv]; nofun))) (Fails.bind ?_)) k
    exact Fails.seq (run_current hn) (Fails.iteF (by rw [hv]; nofun) (Fails.seq (x := false) (run_peekF hn hl)
      (Fails.iteF nofun (Fails.iteT hv (Fails.seq (run_position hn) (Fails.seq (h1.run n q) (Fails.seq (x := true) (run_curT h2) (Fails.iteT rfl (tail n _)))))))))

theorem initPropsMore_ok {x : PropDef} (h : PropOK sty ctx x a m) (h2 : Sym sty p!"," m o) (h3 : InitPropsOK sty ctx i o b) :
    InitPropsOK sty ctx i a b := fun n k q acc => by
  obtain ⟨t, c, hn, hv⟩ := h.head
  have e : Run sty (propBody (mkRec n) ctx acc) a q (.inl (acc ++ [x])) o o.fin := by
    refine Run.ifF (run_maybeF ((look_iff hn).2 hv)) ?_
    refine Run.bind (h.run _ _ (.inl rfl) h2 n _) (Run.bind (run_curF (tok_ne h2 nofun)) (Run.iteF nofun ?_))
    exact Run.bind (run_delimComma h2) (Run.pure _)
  exact Fails.loop_step e (fun k => h3 n k _ _) k

theorem initElementsHere_ok (h : StopOK sty ctx (.init i) a b) : InitElementsOK sty ctx i a b := fun n k q acc => by
  obtain ⟨t, c, hn, hv⟩ := h.init i rfl
  have hne : ∀ p, p ≠ p!"{" → p ≠ p!"[" → t.value ≠ .punct p := fun p h1 h2 h => by
    rcases hv with hv | hv
    · rw [hv] at h; cases h; exact h1 rfl
    · rw [hv] at h; cases h; exact h2 rfl
  refine Fails.loop_here (Fails.seq (x := false) (run_maybeF ((look_iff hn).2 (hne p!"]" nofun nofun))) (Fails.bind ?_)) k
  exact Fails.seq (run_current hn) (Fails.iteF (hne p!"," nofun nofun) (Fails.iteF (hne p!"..." nofun nofun)
    (Fails.bind (fails_assignRec h.fails n _))))

theorem initElementsSpread_ok (h1 : Sym sty p!"..." a m) (h : StopOK sty ctx (.init i) m b) : InitElementsOK sty ctx i a b :=
  fun n k q acc => by
  obtain ⟨t, hn, hv⟩ := h1
  refine Fails.loop_here (Fails.seq (x := false) (run_maybeF ((look_iff hn).2 (by rw [hv]; nofun))) (Fails.bind ?_)) k
  exact Fails.seq (run_current hn) (Fails.iteF (by rw [hv]; nofun) (Fails.iteT hv (Fails.seq (run_consume hn)
    (Fails.bind (fails_assignRec h.fails n _)))))

theorem initElementsHole_ok (h : Sym sty p!"," a m) (h2 : InitElementsOK sty ctx i m b) : InitElementsOK sty ctx i a b :=
  fun n k q acc => by
  obtain ⟨t, hn, hv⟩ := h
  have e : Run sty (elemBody (mkRec n) ctx acc) a q (.inl (acc ++ [.elision])) m m.fin := by
    refine Run.ifF (run_maybeF ((look_iff hn).2 (by rw [hv]; nofun))) ?_
    refine Run.bind (x := .elision) (Run.bind (run_current hn) (Run.iteT hv (Run.bind (run_consume hn) (Run.pure _)))) ?_
    exact Run.iteT rfl (Run.pure _)
  exact Fails.loop_step e (fun k => h2 n k _ _) k

theorem initElementsMore_ok {x : ArrayElement} (h : ElementOK sty ctx x a m) (h2 : Sym sty p!"," m o)
    (h3 : InitElementsOK sty ctx i o b) : InitElementsOK sty ctx i a b := fun n k q acc => by
  obtain ⟨t, c, hn, hv⟩ := h.head
  have e : Run sty (elemBody (mkRec n) ctx acc) a q (.inl (acc ++ [x])) o o.fin := by
    refine Run.ifF (run_maybeF ((look_iff hn).2 hv)) ?_
    refine Run.bind (h.run (ends_comma h2) n _) (Run.iteF (by rw [h.plain]; decide) ?_)
    exact Run.bind (run_delimComma h2) (Run.pure _)
  exact Fails.loop_step e (fun k => h3 n k _ _) k

/-! ## `...` in the place of an expression -/

theorem reads_dots {html : Bool} (h : Reads html false a t b) (hv : t.value = .punct p!"...") : Reads html true a t b := by
  cases h with
  | intro h1 h2 h3 h4 h5 =>
    refine .intro h1 h2 h3 ?_ h5
    rw [hv] at h4 ⊢
    cases h4 with
    | punct h _ => exact .punct h (fun _ => by decide)

theorem fails_reread {st : LexState} {t0 t : Token} {k : Cursor} (h : Next sty a t0 c)
    (hrw : (stateAt sty a q).lx.rewindBefore t0 = some ⟨src a, lexSt sty, k⟩)
    (hr : Lexer.read st k = .ok t (Complete.cursor b)) (hb : src b = src a)
    {α : Type} {f : P α} (hf : f (stateTok sty t b q) = .err er (stateAt sty o q')) :
    Fails sty (rereadWithState st >>= fun _ => f) a q er o q' := by
  have e1 : M.attempt (LexerS.readWithState st) (fun t => Pure.pure (Except.ok t)) (fun e => Pure.pure (Except.error e))
      ⟨src a, lexSt sty, k⟩ = .ok (.ok t : Except LexErr Token) ⟨src a, lexSt sty, Complete.cursor b⟩ := by
    unfold M.attempt LexerS.readWithState LexerS.next
    simp only [hr]
    rfl
  have e2 := pull_eq sty (cursor_place b) (src a)
  have e := rereadWithState_eq (s := stateAt sty a q) (stateAt_cur h q) hrw e1 e2
  have hst : ({ stateAt sty a q with lx := ⟨src a, lexSt sty, (lexAt sty (cursor b)).2⟩, cur := .ok t, nxt := (lexAt sty (cursor b)).1 } : PState)
      = stateTok sty t b q := by
    unfold stateTok; rw [hb]; rfl
  rw [hst] at e
  refine .inr ?_
  rw [M.seq_ok e]
  exact hf

theorem stopDots_ok (hk : Seekable sty a) (hn : Next sty a t b) (hv : t.value = .punct p!"...") : StopOK sty ctx (.dots t) a b := by
  refine ⟨⟨t, b, hn, by simp [hv]⟩, fun _ h => by cases h; exact hv, nofun, fun n q => assign_generalF hn hv ?_⟩
  have hreg : ∀ q, Fails sty rereadRegexp a q (PErr.unexpectedToken t) b b.fin := fun q => by
    have h' := reads_dots hn hv
    obtain ⟨tr, w, rest, ha⟩ := seek_at h' (hk t b hn)
    refine fails_reread hn (ha.rewind (sty := sty) (q := q) (x := a) rfl) (reads_read (st := LexState.regexAllowed) rfl (ha.reads _)) (next_src hn) ?_
    unfold literal literalTok
    simp only [M.bind_def, M.bind, consume_stateTok, hv]
    rw [next_fin hn]
    rfl
  have hpr : ∀ n q, Fails sty (primaryExpr (mkRec n) ctx) a q (PErr.unexpectedToken t) b b.fin := fun n q => by
    refine Fails.seq (run_current hn) ?_
    simp only [hv]
    obtain ⟨w, hw⟩ : ∃ w, Run sty followedByNewLine a q w a q := ⟨_, Run.gets rfl⟩
    refine Fails.seq hw (Fails.iteF (fun h => nomatch h.1) (Fails.seq (x := false) ?_ (Fails.iteF nofun (hreg q))))
    have := run_isIdent (q := q) hn {}
    rwa [punct_not_ident hv] at this
  have hc := fails_up hn (by rw [hv]; simp [coverHead]) hpr n q
  refine Fails.seq (run_position hn) (Fails.seq (run_current hn) ?_)
  refine Fails.attempt (e1 := PErr.unexpectedToken t) (b := b) (q1 := b.fin) ?_ (Fails.iteF ?_ Fails.throw)
  · refine Fails.seq (run_position hn) (Fails.attempt hc ?_)
    split
    · exact Fails.throw
    · exact Fails.throw
  · nofun

end
end Complete
end Fajt
