import Verif.Proofs.CompleteFunction
import Verif.Proofs.GrammarFacts
/-!
# Completeness: methods and classes
-/
namespace Fajt
open Spec
set_option linter.unusedSectionVars false
variable [UnicodeID]

theorem methodEarlyErrors_of {k : MethodKind} {ps : FormalParams} {ds : List LitString} (h : Spec.ParamsOK k ps ds) :
    Parser.methodEarlyErrors k ps ds = .ok () := by
  cases k with
  | method =>
    obtain ⟨h1, h2⟩ := h
    have hu := (Props.C40_use_strict ps ds).2 h1
    exact (Props.C34_method_parameters ps ds hu).1.2 (by rw [plainNames_eq]; exact h2)
  | get => cases ps; exact (Props.C33_getter_check _ _ _).2 h
  | set => cases ps; exact (Props.C33_setter_check _ _ _ _).2 h

namespace Complete
open Parser

/-- The body of the loop of the methods of a class. -/
def classBodyBody (r : Rec) (ctx : Ctx) (hasSuper : Bool) : List MethodDef → P (List MethodDef ⊕ List MethodDef) := fun acc => do
  if ← maybeConsume (.punct p!"}") then pure (.inr acc)
  else if ← maybeConsume (.punct p!";") then pure (.inl acc)
  else do
    let e ← classElement r ctx hasSuper
    pure (.inl (acc ++ [e]))

/-- Whether the tree of a method says static. -/
def isStaticM : MethodDef → Bool
  | .mk _ _ _ _ _ _ _ s => s

section
variable (sty : SourceType) (ctx : Ctx)

/-- How methods start. -/
structure MethodHead (t : Token) (c : Point) : Prop where
  punct : ∀ p, t.value = .punct p → p = p!"*" ∨ p = p!"["
  colon : Look sty c fun u => u.value ≠ .punct p!":"
  static : t.value = .keyword k!"static" → ∃ d, Sym sty p!"(" c d
  paren : t.value ∉ [.punct p!"*", .punct p!"[", .keyword k!"async", .keyword k!"get", .keyword k!"set"] → ∃ d, Sym sty p!"(" c d

structure MethodOK (m : MethodDef) (a b : Point) : Prop where
  head : ∃ t c, Next sty a t c ∧ MethodHead sty t c
  run : ∀ n q, Run sty (methodDefinitionRest (mkRec n) ctx (isStaticM m)) a q m b b.fin

structure ElementMOK (m : MethodDef) (a b : Point) : Prop where
  head : ∃ t c, Next sty a t c ∧ ∀ p, t.value = .punct p → p = p!"*" ∨ p = p!"["
  run : ctx.staticMethod = true → ∀ n q, Run sty (methodDefinition (mkRec n) ctx) a q m b b.fin

def ClassBodyOK (hasSuper : Bool) (ms : List MethodDef) (a b : Point) : Prop :=
  ∀ n k q acc, Run sty (loop (classBodyBody (mkRec n) ctx hasSuper) k acc) a q (acc ++ ms) b b.fin

structure ClassTailOK (sup : Option Expr) (ms : List MethodDef) (a b : Point) : Prop where
  head : ∃ t c, Next sty a t c ∧ (t.value = .keyword k!"extends" ∨ t.value = .punct p!"{")
  run : ∀ n q, Run sty (classTail (mkRec n) ctx) a q (sup, ms) b b.fin
end

section
variable {sty : SourceType} {a b c m o p : Point} {q q' n l : Nat} {t u : Token} {ctx : Ctx} {e x y z : Expr} {sp asp : Span}
  {id : Ident} {s : Stmt} {ss : List Stmt} {ds : List LitString} {nm : PropName} {ps : FormalParams} {bsp : Span} {st : Bool}
  {kd : MethodKind} {ms : List MethodDef} {md : MethodDef}

/-- Parameters, body and checks of a method. -/
theorem run_method {start : Nat} (h1 : ParamsOK sty { ctx with yield := false } ps a m) (h2 : BodyOK sty ctx (.mk bsp ds ss) m b)
    (h3 : Spec.ParamsOK kd ps ds) :
    Run sty (method (mkRec n) ctx start st nm kd) a q (.mk ⟨start, b.fin⟩ nm kd ps (.mk bsp ds ss) ctx.yield ctx.await st) b b.fin := by
  refine Run.bind (h1.run n _) (Run.bind (h2.run n _) (Run.bind (x := ()) ?_ (Run.bind (run_spanFrom _) (Run.pure _))))
  rw [show (Body.mk bsp ds ss).directives = ds from rfl, methodEarlyErrors_of h3]
  exact Run.ofExcept

theorem name_notParen {v : TokVal} (h : NameOK sty ctx nm a b) (hv : v ∈ [.punct p!"(", .punct p!":", .punct p!"*"]) :
    Look sty a fun u => u.value ≠ v := by
  obtain ⟨t, c, hn, hh⟩ := h.head
  refine (look_iff hn).2 ?_
  simp only [List.mem_cons, List.not_mem_nil, or_false] at hv
  rcases hh with ⟨-, hh⟩ | ⟨hh, -⟩
  · rcases hv with rfl | rfl | rfl <;> exact hh _
  · rw [hh]; rcases hv with rfl | rfl | rfl <;> nofun

theorem run_newLineAny : ∃ w, Run sty followedByNewLine a q w a q := ⟨_, Run.gets rfl⟩

theorem methodPlain_ok (h0 : ∀ t c, Next sty a t c → t.value = .keyword k!"async" → Look sty c fun u => u.fol = true)
    (h1 : NameOK sty ctx nm a m) (h2 : ParamsOK sty { ctx with yield := false } ps m o) (h3 : BodyOK sty ctx (.mk bsp ds ss) o b)
    (h4 : Spec.ParamsOK .method ps ds) (hs : From sty a b sp) :
    MethodOK sty ctx (.mk sp nm .method ps (.mk bsp ds ss) ctx.yield ctx.await st) a b := by
  obtain ⟨t, c, hn, hh⟩ := h1.head
  obtain ⟨d, hd⟩ := h2.head
  have hp : t.value ≠ .punct p!"*" := by
    rcases hh with ⟨-, hh⟩ | ⟨hh, -⟩
    · exact hh _
    · rw [hh]; nofun
  refine ⟨⟨t, c, hn, ⟨?_, ?_, ?_, ?_⟩⟩, fun n q => ?_⟩
  · intro p hp
    rcases hh with ⟨-, hh⟩ | ⟨hh, -⟩
    · exact absurd hp (hh _)
    · rw [hp] at hh; injection hh with hh; exact .inr hh
  · rcases hh with ⟨rfl, -⟩ | ⟨-, hh⟩
    · exact tok_ne hd nofun
    · exact hh
  · intro hv
    rcases hh with ⟨rfl, -⟩ | ⟨hh, -⟩
    · exact ⟨d, hd⟩
    · rw [hv] at hh; cases hh
  · intro hv
    rcases hh with ⟨rfl, -⟩ | ⟨hh, -⟩
    · exact ⟨d, hd⟩
    · rw [hh] at hv; simp at hv
  · refine Run.bind (run_current hn) ?_
    rw [From.eq hs hn]
    have main : Run sty (position >>= fun spanStart => propertyName (mkRec n) ctx >>= fun name =>
        method (mkRec n) ctx spanStart st name .method) a q
        (.mk ⟨t.span.start, b.fin⟩ nm .method ps (.mk bsp ds ss) ctx.yield ctx.await st) b b.fin :=
      Run.bind (run_position hn) (Run.bind (h1.run n q) (run_method h2 h3 h4))
    have hpar : ∃ w, Run sty (peekMatches (.punct p!"(")) a q w a q ∧
        (t.value = .keyword k!"get" ∨ t.value = .keyword k!"set" → w = true) := by
      rcases hh with ⟨rfl, -⟩ | ⟨hh, -⟩
      · exact ⟨true, run_peekT hn hd, fun _ => rfl⟩
      · obtain ⟨w, hw⟩ := run_peekAny (sty := sty) (a := a) (q := q) (.punct p!"(")
        exact ⟨w, hw, fun h => by rw [hh] at h; rcases h with h | h <;> cases h⟩
    obtain ⟨w, hw, hw'⟩ := hpar
    have hnl : ∃ w, Run sty followedByNewLine a q w a q ∧ (t.value = .keyword k!"async" → w = true) := by
      by_cases hx : t.value = .keyword k!"async"
      · rcases hh with ⟨rfl, -⟩ | ⟨hh, -⟩
        · obtain ⟨u, hu, -⟩ := hd
          have := run_followedByNewLine (q := q) hn hu
          exact ⟨_, this, fun _ => h0 t c hn hx u d hu⟩
        · rw [hx] at hh; cases hh
      · obtain ⟨w, hw⟩ := run_newLineAny (sty := sty) (a := a) (q := q)
        exact ⟨w, hw, fun h => absurd h hx⟩
    obtain ⟨v, hv, hv'⟩ := hnl
    exact Run.bind hw (Run.bind hv (Run.iteF hp (Run.iteF (fun h => by simp [hw' (.inl h.1)] at h)
      (Run.iteF (fun h => by simp [hw' (.inr h.1)] at h) (Run.iteF (fun h => by simp [hv' h.1] at h) main)))))

theorem generatorMethod_ok (h0 : Sym sty p!"*" a c)
    (h1 : NameOK sty ctx nm c m) (h2 : ParamsOK sty { ctx with yield := false, await := false } ps m o)
    (h3 : BodyOK sty { ctx with yield := true, await := false } (.mk bsp ds ss) o b)
    (h4 : Spec.ParamsOK .method ps ds) (hs : From sty a b sp) :
    MethodOK sty ctx (.mk sp nm .method ps (.mk bsp ds ss) true false st) a b := by
  obtain ⟨t, hn, hv⟩ := h0
  refine ⟨⟨t, c, hn, ⟨?_, name_notParen h1 (by simp), ?_, ?_⟩⟩, fun n q => Run.bind (run_current hn) ?_⟩
  · intro p hp; rw [hv] at hp; injection hp with hp; exact .inl hp.symm
  · rw [hv]; nofun
  · rw [hv]; simp
  · obtain ⟨w, hw⟩ := run_peekAny (sty := sty) (a := a) (q := q) (.punct p!"(")
    obtain ⟨v, hv'⟩ := run_newLineAny (sty := sty) (a := a) (q := q)
    rw [From.eq hs hn]
    exact Run.bind hw (Run.bind hv' (Run.iteT hv (Run.bind (run_position hn) (Run.assert ⟨t, hn, hv⟩ (Run.bind (h1.run n _)
      (run_method (ctx := { ctx with yield := true, await := false }) h2 h3 h4))))))

theorem asyncMethod_ok {g : Bool} {k : Point} (h0 : Key sty k!"async" a c) (hl : Look sty c fun u => u.fol = false)
    (hg : OptTok sty (.punct p!"*") g c k)
    (h1 : NameOK sty ctx nm k m) (h2 : ParamsOK sty { ctx with yield := false, await := true } ps m o)
    (h3 : BodyOK sty { ctx with yield := g, await := true } (.mk bsp ds ss) o b)
    (h4 : Spec.ParamsOK .method ps ds) (hs : From sty a b sp) :
    MethodOK sty ctx (.mk sp nm .method ps (.mk bsp ds ss) g true st) a b := by
  obtain ⟨t, hn, hv⟩ := h0
  have hnext : ∃ u d, Next sty c u d ∧ u.value ≠ .punct p!":" := by
    cases g with
    | true =>
      obtain ⟨u, hu, hv⟩ : Tok sty _ c k := by simpa [OptTok] using hg
      exact ⟨u, k, hu, by rw [hv]; nofun⟩
    | false =>
      have hg : k = c := by simpa [OptTok] using hg
      subst hg
      obtain ⟨u, d, hu, -⟩ := h1.head
      exact ⟨u, d, hu, name_notParen (v := .punct p!":") h1 (by simp) u d hu⟩
  obtain ⟨u, d, hu, hcol⟩ := hnext
  refine ⟨⟨t, c, hn, ⟨?_, (look_iff hu).2 hcol, ?_, ?_⟩⟩, fun n q => Run.bind (run_current hn) ?_⟩
  · intro p hp; rw [hv] at hp; cases hp
  · rw [hv]; nofun
  · rw [hv]; simp
  · obtain ⟨w, hw⟩ := run_peekAny (sty := sty) (a := a) (q := q) (.punct p!"(")
    have hf := run_followedByNewLine (q := q) hn hu
    rw [hl u d hu] at hf
    rw [From.eq hs hn]
    refine Run.bind hw (Run.bind hf (Run.iteF (by rw [hv]; nofun) (Run.iteF (by rw [hv]; nofun) (Run.iteF (by rw [hv]; nofun)
      (Run.iteT ⟨hv, rfl⟩ (Run.bind (run_position hn) (Run.assert ⟨t, hn, hv⟩ (Run.bind (run_star hg fun hg' => ?_) (Run.bind (h1.run n _)
      (run_method (ctx := { ctx with yield := g, await := true }) h2 h3 h4))))))))))
    subst hg'
    have hg : k = c := by simpa [OptTok] using hg
    subst hg
    exact name_notParen h1 (by simp)

theorem accessor_ok (kw : Keyword) (hk : kd = .get ∧ kw = k!"get" ∨ kd = .set ∧ kw = k!"set") (h0 : Key sty kw a c)
    (h1 : NameOK sty ctx nm c m) (h2 : ParamsOK sty { ctx with yield := false } ps m o)
    (h3 : BodyOK sty ctx (.mk bsp ds ss) o b) (h4 : Spec.ParamsOK kd ps ds) (hs : From sty a b sp) :
    MethodOK sty ctx (.mk sp nm kd ps (.mk bsp ds ss) ctx.yield ctx.await st) a b := by
  obtain ⟨t, hn, hv⟩ := h0
  refine ⟨⟨t, c, hn, ⟨?_, name_notParen h1 (by simp), ?_, ?_⟩⟩, fun n q => Run.bind (run_current hn) ?_⟩
  · intro p hp; rw [hv] at hp; cases hp
  · rw [hv]; rcases hk with ⟨-, rfl⟩ | ⟨-, rfl⟩ <;> nofun
  · rw [hv]; rcases hk with ⟨-, rfl⟩ | ⟨-, rfl⟩ <;> simp
  · obtain ⟨v, hv'⟩ := run_newLineAny (sty := sty) (a := a) (q := q)
    rw [From.eq hs hn]
    have main : Run sty (getterOrSetter (mkRec n) ctx st kd) a q
        (.mk ⟨t.span.start, b.fin⟩ nm kd ps (.mk bsp ds ss) ctx.yield ctx.await st) b b.fin :=
      Run.bind (run_position hn) (Run.bind (run_consume hn) (Run.bind (h1.run n _) (run_method h2 h3 h4)))
    refine Run.bind (run_peekF hn (name_notParen h1 (by simp))) (Run.bind hv' ?_)
    rcases hk with ⟨rfl, rfl⟩ | ⟨rfl, rfl⟩
    · exact Run.iteF (by rw [hv]; nofun) (Run.iteT ⟨hv, rfl⟩ main)
    · exact Run.iteF (by rw [hv]; nofun) (Run.iteF (by rw [hv]; nofun) (Run.iteT ⟨hv, rfl⟩ main))

theorem elementPlain_ok (h : MethodOK sty ctx md a b) (hst : isStaticM md = false) : ElementMOK sty ctx md a b := by
  obtain ⟨t, c, hn, hh⟩ := h.head
  refine ⟨⟨t, c, hn, hh.punct⟩, fun hc n q => ?_⟩
  have hr := h.run n q
  rw [hst] at hr
  obtain ⟨w, hw⟩ := run_peekAny (sty := sty) (a := a) (q := q) (.punct p!"(")
  by_cases hx : t.value = .keyword k!"static"
  · obtain ⟨d, hd⟩ := hh.static hx
    exact Run.bind (run_peekT hn hd) (Run.iteF (by simp) hr)
  · cases w with
    | true => exact Run.bind hw (Run.iteF (by simp) hr)
    | false => exact Run.bind hw (Run.iteT (by simp [hc]) (Run.bind (run_maybeF ((look_iff hn).2 hx)) hr))

theorem elementStatic_ok (h0 : Key sty k!"static" a m) (h : MethodOK sty ctx md m b) (hst : isStaticM md = true) :
    ElementMOK sty ctx md a b := by
  obtain ⟨t, hn, hv⟩ := h0
  obtain ⟨u, c, hu, hh⟩ := h.head
  refine ⟨⟨t, m, hn, fun p hp => by rw [hv] at hp; cases hp⟩, fun hc n q => ?_⟩
  have hr := h.run n m.fin
  rw [hst] at hr
  have hp : u.value ≠ .punct p!"(" := fun hp => by rcases hh.punct _ hp with h | h <;> cases h
  exact Run.bind (run_peekF hn ((look_iff hu).2 hp)) (Run.iteT (by simp [hc]) (Run.bind (run_maybeT ⟨t, hn, hv⟩) hr))

theorem run_ctor (h : Next sty a t b) : Run sty (curMatchesIdentOrLiteral c!"constructor") a q (ctorTok t) a q := by
  refine Run.gets ?_
  rw [stateAt_cur h]
  obtain ⟨v, f, s⟩ := t
  cases v with
  | lit l => cases l <;> rfl
  | _ => rfl

theorem classEnd_ok {hs : Bool} (h : Sym sty p!"}" a b) : ClassBodyOK sty ctx hs [] a b := fun n k q acc => by
  rw [List.append_nil]
  exact Run.loop_end (Run.ifT (run_maybeT h) (Run.pure _)) k

theorem classSemi_ok {hs : Bool} (h : Sym sty p!";" a m) (h2 : ClassBodyOK sty ctx hs ms m b) : ClassBodyOK sty ctx hs ms a b :=
  fun n k q acc => by
    have e : Run sty (classBodyBody (mkRec n) ctx hs acc) a q (.inl acc) m m.fin :=
      Run.ifF (run_maybeF (tok_ne h nofun)) (Run.ifT (run_maybeT h) (Run.pure _))
    exact Run.loop_step e (fun k => h2 n k _ _) k

theorem classMore_ok {hs : Bool} (h0 : Next sty a t c)
    (h : ElementMOK sty { ctx with inMethod := true, staticMethod := true, superCall := hs && ctorTok t } md a m)
    (h2 : ClassBodyOK sty ctx hs ms m b) : ClassBodyOK sty ctx hs (md :: ms) a b := fun n k q acc => by
  rw [List.append_cons]
  obtain ⟨t', c', hn, hh⟩ := h.head
  obtain ⟨rfl, rfl⟩ := next_unique h0 hn
  have h1 : t'.value ≠ .punct p!"}" := fun hp => by rcases hh _ hp with h | h <;> cases h
  have h3 : t'.value ≠ .punct p!";" := fun hp => by rcases hh _ hp with h | h <;> cases h
  have e : Run sty (classBodyBody (mkRec n) ctx hs acc) a q (.inl (acc ++ [md])) m m.fin :=
    Run.ifF (run_maybeF ((look_iff hn).2 h1)) (Run.ifF (run_maybeF ((look_iff hn).2 h3))
      (Run.bind (Run.bind (run_ctor hn) (h.run rfl n q)) (Run.pure _)))
  exact Run.loop_step e (fun k => h2 n k _ _) k

theorem classPlain_ok (h1 : Sym sty p!"{" a m) (h2 : ClassBodyOK sty ctx false ms m b) : ClassTailOK sty ctx none ms a b := by
  obtain ⟨t, hn, hv⟩ := h1
  refine ⟨⟨t, m, hn, .inr hv⟩, fun n q => ?_⟩
  exact Run.bind (run_maybeF ((look_iff hn).2 (by rw [hv]; nofun))) (Run.bind (x := none) (Run.iteF (by decide) (Run.pure _))
    (Run.bind (Run.assert ⟨t, hn, hv⟩ (h2 n _ _ [])) (Run.pure _)))

theorem classExtends_ok (h0 : Key sty k!"extends" a c) (he : ExprOK sty ctx 17 e c p) (h1 : Sym sty p!"{" p m)
    (h2 : ClassBodyOK sty ctx true ms m b) : ClassTailOK sty ctx (some e) ms a b := by
  obtain ⟨t, hn, hv⟩ := h0
  refine ⟨⟨t, c, hn, .inl hv⟩, fun n q => ?_⟩
  have hend : Ends sty ctx (endLevel 17) p := tok_look h1 fun t ht l hl => by
    unfold contLevel at hl; rw [ht] at hl; simp at hl
  exact Run.bind (run_maybeT ⟨t, hn, hv⟩) (Run.bind (x := some e) (Run.iteT rfl (Run.bind (he.parse hend n _) (Run.pure _)))
    (Run.bind (Run.assert h1 (h2 n _ _ [])) (Run.pure _)))

theorem classTail_notIdent {sup : Option Expr} (h : ClassTailOK sty ctx sup ms a b) {kw : Ctx} :
    ∃ t c, Next sty a t c ∧ isIdentTok (.ok t) kw.kw = false := by
  obtain ⟨t, c, hn, hv⟩ := h.head
  rcases hv with hv | hv
  · exact ⟨t, c, hn, reserved_not_ident rfl hv⟩
  · exact ⟨t, c, hn, punct_not_ident hv⟩

theorem classE_ok {sup : Option Expr} {i : Option Ident} (h0 : Key sty k!"class" a m) (h1 : OptName sty { ctx with strict := true } i m o)
    (h2 : ClassTailOK sty { ctx with strict := true } sup ms o b) (hs : From sty a b sp) :
    ExprOK sty ctx 21 (.classE sp i sup ms) a b := by
  obtain ⟨t, hn, hv⟩ := h0
  refine primary_ok hn hv rfl (reserved_not_ident rfl hv) hs (by decide) fun _ n q => ?_
  refine Run.bind (run_current hn) ?_
  simp only [hv]
  rw [From.eq hs hn]
  refine Run.bind (run_position hn) (Run.assert ⟨t, hn, hv⟩ (Run.bind (x := i) (b := o) (q1 := o.fin) ?_ (Run.bind (h2.run n _)
    (Run.bind (run_spanFrom _) (Run.pure _)))))
  cases i with
  | some id =>
    obtain ⟨u, hu, hi⟩ := h1
    have := run_isIdent (q := m.fin) hu { ctx with strict := true }
    rw [isIdentTok_of hi] at this
    exact Run.ifT this (Run.attempt (run_parseIdent hu hi) (Run.pure _))
  | none =>
    have h1 : o = m := h1
    subst h1
    obtain ⟨u, c, hu, hi⟩ := classTail_notIdent h2 (kw := { ctx with strict := true })
    have := run_isIdent (q := o.fin) hu { ctx with strict := true }
    rw [hi] at this
    exact Run.ifF this (Run.pure _)

theorem run_classIdentifier (h : NameAt sty ctx [.punct p!"{"] id a b) : Run sty (optionalClassIdentifier ctx) a a.fin id b b.fin := by
  rcases h with ⟨t, hn, hi⟩ | ⟨hd, rfl, t, c, hn, hv, rfl⟩
  · have hp : t.value ≠ .punct p!"{" := fun hp => by
      rcases ident_shape hi with ⟨s, h⟩ | ⟨s, h⟩ <;> rw [hp] at h <;> cases h
    exact Run.bind (run_curMatches hn _) (Run.iteF (by simp [hp]) (run_parseIdent hn hi))
  · have hv : t.value = .punct p!"{" := by simpa using hv
    refine Run.bind (run_curMatches hn _) (Run.iteT (by simp [hd, hv]) (Run.bind (x := t.span.start) ?_ (Run.pure _)))
    exact .inr (by unfold currentUnwrapStart; rw [stateAt_cur hn])

theorem classDecl_ok {sup : Option Expr} (h0 : Key sty k!"class" a m) (h1 : NameAt sty { ctx with strict := true } [.punct p!"{"] id m o)
    (h2 : ClassTailOK sty { ctx with strict := true } sup ms o b) (hs : From sty a b sp) :
    DeclOK sty ctx (.classDecl sp id sup ms) a b := by
  obtain ⟨t, hn, hv⟩ := h0
  refine ⟨⟨t, m, hn, .inl (by rw [hv]; simp)⟩, fun n q => Run.bind (run_current hn) ?_⟩
  obtain ⟨w, hw⟩ := run_lexicalAny (sty := sty) (a := a) (q := q) (ctx := ctx)
  obtain ⟨w', hw'⟩ := run_peekAny (sty := sty) (a := a) (q := q) (.keyword k!"function")
  refine Run.bind hw' (Run.bind hw (Run.iteF (by rw [hv]; nofun) (Run.iteF (by rw [hv]; nofun) (Run.iteT hv
    (Run.bind (x := .classDecl sp id sup ms) ?_ (Run.pure _))))))
  rw [From.eq hs hn]
  exact Run.bind (run_position hn) (Run.assert ⟨t, hn, hv⟩ (Run.bind (run_classIdentifier h1) (Run.bind (h2.run n _)
    (Run.bind (run_spanFrom _) (Run.pure _)))))

/-! ## Methods of objects -/

theorem run_isObjectMethod (h1 : Next sty a t c) (h : MethodHead sty t c) (hb : t.value ≠ .punct p!"[") :
    Run sty isObjectMethodDefinition a q true a q := by
  refine Run.bind (run_peekF h1 h.colon) ?_
  have hw : ∃ w, Run sty (peekMatches (.punct p!"(")) a q w a q ∧
      (t.value ∉ [.punct p!"*", .punct p!"[", .keyword k!"async", .keyword k!"get", .keyword k!"set"] → w = true) := by
    by_cases hx : t.value ∈ [.punct p!"*", .punct p!"[", .keyword k!"async", .keyword k!"get", .keyword k!"set"]
    · obtain ⟨w, hw⟩ := run_peekAny (sty := sty) (a := a) (q := q) (.punct p!"(")
      exact ⟨w, hw, fun h => absurd hx h⟩
    · obtain ⟨d, hd⟩ := h.paren hx
      exact ⟨true, run_peekT h1 hd, fun _ => rfl⟩
  obtain ⟨w, hw, hw'⟩ := hw
  refine Run.bind hw (Run.bind (run_curVal h1) ?_)
  split
  · exact Run.pure _
  · exact Run.pure _
  · exact Run.pure _
  · exact Run.pure _
  · exact Run.pure _
  · exact Run.pure _
  · rename_i g1 g2 g3 g4 g5 g6
    rw [hw' ?_]
    · exact Run.pure _
    · simp only [List.mem_cons, List.not_mem_nil, or_false, not_or]
      simp_all

theorem propMethod_ok (hb : Look sty a fun t => t.value ≠ .punct p!"[")
    (h : MethodOK sty { ctx with inMethod := true, staticMethod := false, superCall := false } md a b) (hst : isStaticM md = false) :
    PropOK sty ctx (.method md) a b := by
  obtain ⟨t, c, hn, hh⟩ := h.head
  have hb := hb t c hn
  have hp : ∀ p, p ≠ p!"*" → t.value ≠ .punct p := fun p hne hp => by
    rcases hh.punct _ hp with h | h
    · exact hne h
    · rw [h] at hp; exact hb hp
  refine ⟨⟨t, c, hn, hp _ nofun⟩, fun v d hv' h2 n q => ?_⟩
  have hr := h.run n q
  rw [hst] at hr
  obtain ⟨w, hw⟩ := run_peekAny (sty := sty) (a := a) (q := q) (.punct p!"(")
  exact Run.bind (run_current hn) (Run.iteF (hp _ nofun) (Run.ifF (run_peekF hn hh.colon) (Run.iteF hb
    (Run.ifT (run_isObjectMethod hn hh hb) (Run.bind (Run.bind hw (Run.iteF (by simp) hr)) (Run.pure _))))))

theorem propComputedMethod_ok (h1 : NameOK sty ctx (.computed e) a m) (h2 : ParamsOK sty { ctx with yield := false } ps m o)
    (h3 : BodyOK sty ctx (.mk bsp ds ss) o b) (h4 : Spec.ParamsOK .method ps ds) (hs : From sty a b sp) (hb : ∃ c, Sym sty p!"[" a c) :
    PropOK sty ctx (.method (.mk sp (.computed e) .method ps (.mk bsp ds ss) ctx.yield ctx.await false)) a b := by
  obtain ⟨t, c, hn, hh⟩ := h1.head
  obtain ⟨c', t', hn', hv⟩ := hb
  obtain ⟨rfl, rfl⟩ := next_unique hn hn'
  have hl : Look sty c' fun u => u.value ≠ .punct p!":" := by
    rcases hh with ⟨-, hh⟩ | ⟨-, hh⟩
    · exact absurd hv (hh _)
    · exact hh
  obtain ⟨d, hd⟩ := h2.head
  refine ⟨⟨t', c', hn, by rw [hv]; nofun⟩, fun v d hv' h' n q => ?_⟩
  rw [From.eq hs hn]
  exact Run.bind (run_current hn) (Run.iteF (by rw [hv]; nofun) (Run.ifF (run_peekF hn hl) (Run.iteT hv
    (Run.bind (run_position hn) (Run.bind (h1.run n q) (Run.ifF (run_curF (tok_ne hd nofun)) (Run.bind (run_method h2 h3 h4)
    (Run.pure _))))))))

end
end Complete
end Fajt
