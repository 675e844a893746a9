import Verif.Proofs.CompleteOperators
/-!
# Completeness: binding patterns, parameters, variables
-/
namespace Fajt
open Spec
set_option linter.unusedSectionVars false
variable [UnicodeID]

namespace Complete
open Parser

/-! ## Loops -/

/-- The body of the loop of the properties of an object pattern. -/
def bindPropBody (r : Rec) (ctx : Ctx) :
    List BindingProp → P (List BindingProp ⊕ List BindingProp × Option BindingPattern) := fun acc => do
  let t ← current
  if t.value = .punct p!"}" then do
    let _ ← consume
    pure (.inr (acc, none))
  else if t.value = .punct p!"..." then do
    let rest ← restBindingIdent r ctx p!"}"
    pure (.inr (acc, some rest))
  else if t.value = .punct p!"[" ∨ (← peekMatches (.punct p!":")) = true then do
    let prop ← namedBinding r ctx
    consumeListDelimiter (.punct p!"}")
    pure (.inl (acc ++ [prop]))
  else do
    let prop ← singleNameBinding r ctx
    consumeListDelimiter (.punct p!"}")
    pure (.inl (acc ++ [prop]))

/-- The body of the loop of the elements of an array pattern. -/
def bindElemBody (r : Rec) (ctx : Ctx) :
    List (Option BindingElement) → P (List (Option BindingElement) ⊕ List (Option BindingElement) × Option BindingPattern) :=
  fun acc => do
    let t ← current
    if t.value = .punct p!"]" then do
      let _ ← consume
      pure (.inr (acc, none))
    else if t.value = .punct p!"," then do
      let _ ← consume
      pure (.inl (acc ++ [none]))
    else if t.value = .punct p!"..." then do
      let rest ← restBindingIdent r ctx p!"]"
      pure (.inr (acc, some rest))
    else if ← isBindingElement ctx then do
      let e ← bindingElement r ctx
      consumeListDelimiter (.punct p!"]")
      pure (.inl (acc ++ [some e]))
    else do
      let token ← consume
      M.throw (PErr.unexpectedToken token)

/-- The body of the loop of parameters. -/
def paramBody (r : Rec) (ctx : Ctx) :
    List BindingElement → P (List BindingElement ⊕ List BindingElement × Option BindingPattern) := fun acc => do
  let t ← current
  if t.value = .punct p!")" then do
    let _ ← consume
    pure (.inr (acc, none))
  else if t.value = .punct p!"..." then do
    let rest ← bindingRestElement r ctx
    let _ ← consumeAssert (.punct p!")")
    pure (.inr (acc, some rest))
  else do
    let b ← bindingElement r ctx
    consumeListDelimiter (.punct p!")")
    pure (.inl (acc ++ [b]))

/-- The body of the loop of variable declarations. -/
def varBody (r : Rec) (ctx : Ctx) : List VarDecl → P (List VarDecl ⊕ List VarDecl) := fun acc => do
  if ← maybeConsume (.punct p!",") then do
    let d ← variableDeclaration r ctx
    pure (.inl (acc ++ [d]))
  else pure (.inr acc)

/-! ## What derivations mean -/

section
variable (sty : SourceType) (ctx : Ctx)

/-- The next token ends an element of a list. -/
def Delim (b : Point) : Prop := ∃ v c, v ∈ [.punct p!",", .punct p!"}", .punct p!"]", .punct p!")"] ∧ Tok sty v b c

structure InitOK (init : Option Expr) (a b : Point) : Prop where
  head : (init = none ∧ a = b) ∨ (init.isSome = true ∧ ∃ c, Sym sty p!"=" a c)
  cur : Ends sty ctx 1 b → ∀ q, Run sty (curMatches (.punct p!"=")) a q init.isSome a q
  run : Ends sty ctx 1 b → ∀ n, Run sty (thenTry init.isSome (initializer (mkRec n) ctx)) a a.fin init b b.fin

/-- The first token of a pattern. -/
def bindHead (ctx : Ctx) (t : Token) : Prop := t.value = .punct p!"{" ∨ t.value = .punct p!"[" ∨ ∃ id, IdentTok ctx t id

structure BindingOK (p : BindingPattern) (a b : Point) : Prop where
  head : ∃ t c, Next sty a t c ∧ bindHead ctx t
  run : ∀ n q, Run sty (bindingPattern (mkRec n) ctx) a q p b b.fin

structure BindElemOK (e : BindingElement) (a b : Point) : Prop where
  head : ∃ t c, Next sty a t c ∧ bindHead ctx t
  run : Delim sty b → ∀ n q, Run sty (bindingElement (mkRec n) ctx) a q e b b.fin

structure BindPropOK (p : BindingProp) (a b : Point) : Prop where
  run : Delim sty b → ∃ t c, Next sty a t c ∧ t.value ≠ .punct p!"}" ∧ t.value ≠ .punct p!"..." ∧
    ((∃ w, (∀ q, Run sty (peekMatches (.punct p!":")) a q w a q) ∧ (t.value = .punct p!"[" ∨ w = true) ∧
      ∀ n q, Run sty (namedBinding (mkRec n) ctx) a q p b b.fin) ∨
    ((∀ q, Run sty (peekMatches (.punct p!":")) a q false a q) ∧ t.value ≠ .punct p!"[" ∧
      ∀ n q, Run sty (singleNameBinding (mkRec n) ctx) a q p b b.fin))

def BindPropsOK (ps : List BindingProp) (rest : Option BindingPattern) (a b : Point) : Prop :=
  ∀ n k q acc, Run sty (loop (bindPropBody (mkRec n) ctx) k acc) a q (acc ++ ps, rest) b b.fin

def BindElemsOK (es : List (Option BindingElement)) (rest : Option BindingPattern) (a b : Point) : Prop :=
  ∀ n k q acc, Run sty (loop (bindElemBody (mkRec n) ctx) k acc) a q (acc ++ es, rest) b b.fin

structure ParamsOK (p : FormalParams) (a b : Point) : Prop where
  head : ∃ c, Sym sty p!"(" a c
  run : ∀ n q, Run sty (formalParameters (mkRec n) ctx) a q p b b.fin

def ParamListOK (es : List BindingElement) (rest : Option BindingPattern) (a b : Point) : Prop :=
  ∀ n k q acc, Run sty (loop (paramBody (mkRec n) ctx) k acc) a q (acc ++ es, rest) b b.fin

structure VarDeclOK (v : VarDecl) (a b : Point) : Prop where
  head : ∃ t c, Next sty a t c ∧ bindHead ctx t
  run : Ends sty ctx 1 b → ∀ n q, Run sty (variableDeclaration (mkRec n) ctx) a q v b b.fin

structure VarDeclsOK (vs : List VarDecl) (a b : Point) : Prop where
  head : ∃ t c, Next sty a t c ∧ bindHead ctx t
  run : Ends sty ctx 0 b → ∃ v ws m, vs = v :: ws ∧ (∀ n q, Run sty (variableDeclaration (mkRec n) ctx) a q v m m.fin) ∧
    ∀ n k acc, Run sty (loop (varBody (mkRec n) ctx) k acc) m m.fin (acc ++ ws) b b.fin
end

section
variable {sty : SourceType} {a b c m o p : Point} {q q' n l : Nat} {t u : Token} {ctx : Ctx} {e x y z : Expr} {sp asp : Span}
  {id : Ident} {init : Option Expr} {bp : BindingPattern} {be : BindingElement} {rest : Option BindingPattern}

theorem run_bindingRec {x : BindingPattern} (h : ∀ n, Run sty (bindingPattern (mkRec n) ctx) a q x b q') (n : Nat) :
    Run sty ((mkRec n).bindingPattern ctx) a q x b q' :=
  run_mk (f := fun r => r.bindingPattern ctx) (g := fun r => bindingPattern r ctx) (fun _ => rfl) (fun _ => rfl) h n

theorem ends_delim (h : Delim sty b) : Ends sty ctx 1 b := by
  obtain ⟨v, c, hv, h⟩ := h
  simp only [List.mem_cons, List.not_mem_nil, or_false] at hv
  rcases hv with rfl | rfl | rfl | rfl
  · exact ends_comma h
  · exact ends_close h (by simp)
  · exact ends_close h (by simp)
  · exact ends_close h (by simp)

theorem delim_of {v : TokVal} (h : Tok sty v a b) (hv : v ∈ [.punct p!",", .punct p!"}", .punct p!"]", .punct p!")"]) :
    Delim sty a := ⟨v, b, hv, h⟩

theorem bindHead_ne {v : TokVal} (h : bindHead ctx t) (hv : ∀ id, ¬ IdentTok ctx ⟨v, t.fol, t.span⟩ id)
    (h1 : v ≠ .punct p!"{") (h2 : v ≠ .punct p!"[") : t.value ≠ v := by
  rintro rfl
  rcases h with h | h | ⟨id, h⟩
  · exact h1 h
  · exact h2 h
  · exact hv id h

theorem bindHead_punct {w : Punct} (h : bindHead ctx t) (h1 : w ≠ p!"{") (h2 : w ≠ p!"[") : t.value ≠ .punct w := by
  intro hv
  rcases h with h | h | ⟨id, h⟩
  · rw [hv] at h; cases h; exact h1 rfl
  · rw [hv] at h; cases h; exact h2 rfl
  · rcases ident_shape h with ⟨s, h⟩ | ⟨s, h⟩ <;> rw [hv] at h <;> cases h

/-! ## Initializers -/

theorem noInit_ok : InitOK sty ctx none a a where
  head := .inl ⟨rfl, rfl⟩
  cur he q := run_curF (Ends.punct he (p := p!"=") rfl (by decide))
  run _ _ := Run.pure _

theorem init_ok (h1 : Sym sty p!"=" a m) (h2 : ExprOK sty ctx 1 e m b) : InitOK sty ctx (some e) a b where
  head := .inr ⟨rfl, m, h1⟩
  cur _ _ := run_curT h1
  run he n := Run.iteT rfl (Run.bind (x := e) (Run.assert h1 (h2.parse he n _)) (Run.pure _))

theorem ends_in {k : Nat} (h : Delim sty b) : Ends sty ctx (k + 1) b := by
  obtain ⟨v, c, hv, h⟩ := h
  simp only [List.mem_cons, List.not_mem_nil, or_false] at hv
  rcases hv with rfl | rfl | rfl | rfl
  · exact ends_comma h
  · exact ends_close h (by simp)
  · exact ends_close h (by simp)
  · exact ends_close h (by simp)

/-! ## Patterns -/

theorem bindingIdent_ok (h1 : Next sty a t b) (h : IdentTok ctx t id) : BindingOK sty ctx (.ident id) a b where
  head := ⟨t, b, h1, .inr (.inr ⟨id, h⟩)⟩
  run n q := by
    have hp : ∀ p, t.value ≠ .punct p := fun p hp => by
      rcases ident_shape h with ⟨s, h⟩ | ⟨s, h⟩ <;> rw [hp] at h <;> cases h
    exact Run.bind (run_current h1) (Run.iteF (hp _) (Run.iteF (hp _) (Run.bind (run_parseIdent h1 h) (Run.pure _))))

theorem bindingObject_ok {ps : List BindingProp} (h1 : Sym sty p!"{" a m) (h2 : BindPropsOK sty ctx ps rest m b)
    (hs : From sty a b sp) : BindingOK sty ctx (.object sp ps rest) a b := by
  obtain ⟨t, hn, hv⟩ := h1
  refine ⟨⟨t, m, hn, .inl hv⟩, fun n q => Run.bind (run_current hn) (Run.iteT hv ?_)⟩
  rw [From.eq hs hn]
  exact Run.bind (run_position hn) (Run.assert ⟨t, hn, hv⟩ (Run.bind (h2 n _ _ []) (Run.bind (run_spanFrom _) (Run.pure _))))

theorem bindingArray_ok {es : List (Option BindingElement)} (h1 : Sym sty p!"[" a m) (h2 : BindElemsOK sty ctx es rest m b)
    (hs : From sty a b sp) : BindingOK sty ctx (.array sp es rest) a b := by
  obtain ⟨t, hn, hv⟩ := h1
  refine ⟨⟨t, m, hn, .inr (.inl hv)⟩, fun n q => Run.bind (run_current hn) (Run.iteF (by rw [hv]; nofun) (Run.iteT hv ?_))⟩
  rw [From.eq hs hn]
  exact Run.bind (run_position hn) (Run.assert ⟨t, hn, hv⟩ (Run.bind (h2 n _ _ []) (Run.bind (run_spanFrom _) (Run.pure _))))

theorem bindingElement_ok (h1 : BindingOK sty ctx bp a m) (h2 : InitOK sty { ctx with in_ := true } init m b)
    (hs : From sty a b sp) : BindElemOK sty ctx (.mk sp bp init) a b := by
  obtain ⟨t, c, hn, hh⟩ := h1.head
  refine ⟨⟨t, c, hn, hh⟩, fun hd n q => ?_⟩
  have he : Ends sty { ctx with in_ := true } 1 b := ends_delim hd
  rw [From.eq hs hn]
  exact Run.bind (run_position hn) (Run.bind (run_bindingRec (fun n => h1.run n q) n) (Run.bind (h2.cur he _)
    (Run.bind (h2.run he n) (Run.bind (run_spanFrom _) (Run.pure _)))))

theorem bindingSingle_ok (h1 : Next sty a t m) (hi : IdentTok ctx t id) (h2 : InitOK sty { ctx with in_ := true } init m b)
    (hs : From sty a b sp) : BindPropOK sty ctx (.single sp id init) a b := by
  have hp : ∀ p, t.value ≠ .punct p := fun p hp => by
    rcases ident_shape hi with ⟨s, h⟩ | ⟨s, h⟩ <;> rw [hp] at h <;> cases h
  refine ⟨fun hd => ⟨t, m, h1, hp _, hp _, .inr ⟨fun q => run_peekF h1 ?_, hp _, fun n q => ?_⟩⟩⟩
  · rcases h2.head with ⟨-, rfl⟩ | ⟨-, c, hc⟩
    · obtain ⟨v, c, hv, hd⟩ := hd
      refine tok_ne hd ?_
      rintro rfl; revert hv; decide
    · exact tok_ne hc nofun
  · have he : Ends sty { ctx with in_ := true } 1 b := ends_delim hd
    rw [From.eq hs h1]
    exact Run.bind (run_position h1) (Run.bind (run_parseIdent h1 hi) (Run.bind (h2.cur he _)
      (Run.bind (h2.run he n) (Run.bind (run_spanFrom _) (Run.pure _)))))

theorem bindingNamed_ok {x : PropName} (h1 : NameOK sty ctx x a m) (h2 : Sym sty p!":" m o) (h3 : BindElemOK sty ctx be o b)
    (hs : From sty a b sp) : BindPropOK sty ctx (.named sp x be) a b := by
  obtain ⟨t, c, hn, hh⟩ := h1.head
  have tail : Delim sty b → ∀ n q, Run sty (namedBinding (mkRec n) ctx) a q (.named sp x be) b b.fin := by
    intro hd n q
    rw [From.eq hs hn]
    exact Run.bind (run_position hn) (Run.bind (h1.run n q) (Run.assert h2 (Run.bind (h3.run hd n _)
      (Run.bind (run_spanFrom _) (Run.pure _)))))
  rcases hh with ⟨rfl, hd⟩ | ⟨hv, hl⟩
  · exact ⟨fun h => ⟨t, c, hn, hd _, hd _, .inl ⟨true, fun q => run_peekT hn h2, .inr rfl, tail h⟩⟩⟩
  · exact ⟨fun h => ⟨t, c, hn, by rw [hv]; nofun, by rw [hv]; nofun, .inl ⟨false, fun q => run_peekF hn hl, .inl hv, tail h⟩⟩⟩

theorem propsEndB_ok (h : Sym sty p!"}" a b) : BindPropsOK sty ctx [] none a b := fun n k q acc => by
  rw [List.append_nil]
  obtain ⟨t, hn, hv⟩ := h
  refine Run.loop_end (q1 := b.fin) (Run.bind (run_current hn) ?_) k
  exact Run.iteT hv (Run.bind (run_consume hn) (Run.pure _))

theorem run_rest {w : Punct} (h1 : Sym sty p!"..." a m) (h2 : BindingOK sty ctx bp m o) (h3 : Sym sty w o b) :
    Run sty (restBindingIdent (mkRec n) ctx w) a q bp b b.fin := by
  obtain ⟨t, hn, hv⟩ := h1
  obtain ⟨u, hu, hw⟩ := h3
  have := run_assert (q := q) hn
  rw [hv] at this
  exact Run.bind this (Run.bind (run_bindingRec (fun n => h2.run n _) n) (Run.bind (run_consume hu) (Run.iteT hw (Run.pure _))))

theorem propsRestB_ok (h1 : Sym sty p!"..." a m) (h2 : BindingOK sty ctx bp m o) (h3 : Sym sty p!"}" o b) :
    BindPropsOK sty ctx [] (some bp) a b := fun n k q acc => by
  rw [List.append_nil]
  have hr := run_rest (q := q) (n := n) h1 h2 h3
  obtain ⟨t, hn, hv⟩ := h1
  refine Run.loop_end (q1 := b.fin) (Run.bind (run_current hn) ?_) k
  exact Run.iteF (by rw [hv]; nofun) (Run.iteT hv (Run.bind hr (Run.pure _)))

/-- One property and what follows it. -/
theorem bindProp_step {x : BindingProp} {d : Point} (h : BindPropOK sty ctx x a m) (hd : Delim sty m)
    (h2 : ∀ q, q = m.fin → Run sty (consumeListDelimiter (.punct p!"}")) m q () d q') (acc : List BindingProp) :
    Run sty (bindPropBody (mkRec n) ctx acc) a q (.inl (acc ++ [x])) d q' := by
  obtain ⟨t, c, hn, h3, h4, h5⟩ := h.run hd
  refine Run.bind (run_current hn) (Run.iteF h3 (Run.iteF h4 ?_))
  rcases h5 with ⟨w, hw, hor, hr⟩ | ⟨hw, hb, hr⟩
  · exact Run.bind (hw q) (Run.iteT hor (Run.bind (hr n q) (Run.bind (h2 _ rfl) (Run.pure _))))
  · exact Run.bind (hw q) (Run.iteF (by simp [hb]) (Run.bind (hr n q) (Run.bind (h2 _ rfl) (Run.pure _))))

theorem propsLastB_ok {x : BindingProp} (h : BindPropOK sty ctx x a m) (h2 : Sym sty p!"}" m b) :
    BindPropsOK sty ctx [x] none a b := fun n k q acc => by
  refine Run.loop_step (q1 := m.fin) (bindProp_step h (delim_of h2 (by simp)) (fun q hq => by rw [hq]; exact run_delimEnd h2 nofun) acc)
    (fun k => ?_) k
  have := propsEndB_ok (ctx := ctx) h2 n k m.fin (acc ++ [x])
  rwa [List.append_nil] at this

theorem propsMoreB_ok {x : BindingProp} {ps : List BindingProp} (h : BindPropOK sty ctx x a m) (h2 : Sym sty p!"," m o)
    (h3 : BindPropsOK sty ctx ps rest o b) : BindPropsOK sty ctx (x :: ps) rest a b := fun n k q acc => by
  rw [List.append_cons]
  exact Run.loop_step (q1 := o.fin) (bindProp_step h (delim_of h2 (by simp)) (fun q hq => run_delimComma h2) acc)
    (fun k => h3 n k _ _) k

theorem elemsEndB_ok (h : Sym sty p!"]" a b) : BindElemsOK sty ctx [] none a b := fun n k q acc => by
  rw [List.append_nil]
  obtain ⟨t, hn, hv⟩ := h
  refine Run.loop_end (q1 := b.fin) (Run.bind (run_current hn) ?_) k
  exact Run.iteT hv (Run.bind (run_consume hn) (Run.pure _))

theorem elemsHoleB_ok {es : List (Option BindingElement)} (h : Sym sty p!"," a m) (h2 : BindElemsOK sty ctx es rest m b) :
    BindElemsOK sty ctx (none :: es) rest a b := fun n k q acc => by
  rw [List.append_cons]
  obtain ⟨t, hn, hv⟩ := h
  refine Run.loop_step (q1 := m.fin) (Run.bind (run_current hn) ?_) (fun k => h2 n k _ _) k
  exact Run.iteF (by rw [hv]; nofun) (Run.iteT hv (Run.bind (run_consume hn) (Run.pure _)))

theorem elemsRestB_ok (h1 : Sym sty p!"..." a m) (h2 : BindingOK sty ctx bp m o) (h3 : Sym sty p!"]" o b) :
    BindElemsOK sty ctx [] (some bp) a b := fun n k q acc => by
  rw [List.append_nil]
  have hr := run_rest (q := q) (n := n) h1 h2 h3
  obtain ⟨t, hn, hv⟩ := h1
  refine Run.loop_end (q1 := b.fin) (Run.bind (run_current hn) ?_) k
  exact Run.iteF (by rw [hv]; nofun) (Run.iteF (by rw [hv]; nofun) (Run.iteT hv (Run.bind hr (Run.pure _))))

theorem run_isBindingElement (hn : Next sty a t c) (h : bindHead ctx t) : Run sty (isBindingElement ctx) a q true a q := by
  refine Run.bind (run_current hn) ?_
  rcases h with h | h | ⟨id, h⟩
  · exact Run.iteT (.inl h) (Run.pure _)
  · exact Run.iteT (.inr h) (Run.pure _)
  · have hp : ∀ p, t.value ≠ .punct p := fun p hp => by
      rcases ident_shape h with ⟨s, h⟩ | ⟨s, h⟩ <;> rw [hp] at h <;> cases h
    refine Run.iteF (by simp [hp]) ?_
    have := run_isIdent (q := q) hn ctx
    rwa [isIdentTok_of h] at this

theorem bindElem_step {d : Point} (h : BindElemOK sty ctx be a m) (hd : Delim sty m)
    (h2 : ∀ q, q = m.fin → Run sty (consumeListDelimiter (.punct p!"]")) m q () d q') (acc : List (Option BindingElement)) :
    Run sty (bindElemBody (mkRec n) ctx acc) a q (.inl (acc ++ [some be])) d q' := by
  obtain ⟨t, c, hn, hh⟩ := h.head
  exact Run.bind (run_current hn) (Run.iteF (bindHead_punct hh nofun nofun) (Run.iteF (bindHead_punct hh nofun nofun)
    (Run.iteF (bindHead_punct hh nofun nofun) (Run.ifT (run_isBindingElement hn hh)
    (Run.bind (h.run hd n q) (Run.bind (h2 _ rfl) (Run.pure _)))))))

theorem elemsLastB_ok (h : BindElemOK sty ctx be a m) (h2 : Sym sty p!"]" m b) :
    BindElemsOK sty ctx [some be] none a b := fun n k q acc => by
  refine Run.loop_step (q1 := m.fin) (bindElem_step h (delim_of h2 (by simp)) (fun q hq => by rw [hq]; exact run_delimEnd h2 nofun) acc)
    (fun k => ?_) k
  have := elemsEndB_ok (ctx := ctx) h2 n k m.fin (acc ++ [some be])
  rwa [List.append_nil] at this

theorem elemsMoreB_ok {es : List (Option BindingElement)} (h : BindElemOK sty ctx be a m) (h2 : Sym sty p!"," m o)
    (h3 : BindElemsOK sty ctx es rest o b) : BindElemsOK sty ctx (some be :: es) rest a b := fun n k q acc => by
  rw [List.append_cons]
  exact Run.loop_step (q1 := o.fin) (bindElem_step h (delim_of h2 (by simp)) (fun q hq => run_delimComma h2) acc)
    (fun k => h3 n k _ _) k

/-! ## Parameters -/

theorem params_ok {es : List BindingElement} (h1 : Sym sty p!"(" a m) (h2 : ParamListOK sty ctx es rest m b)
    (hs : From sty a b sp) : ParamsOK sty ctx (.mk sp es rest) a b := by
  obtain ⟨t, hn, hv⟩ := h1
  refine ⟨⟨m, t, hn, hv⟩, fun n q => ?_⟩
  rw [From.eq hs hn]
  exact Run.bind (run_position hn) (Run.assert ⟨t, hn, hv⟩ (Run.bind (h2 n _ _ []) (Run.bind (run_spanFrom _) (Run.pure _))))

theorem paramsEnd_ok (h : Sym sty p!")" a b) : ParamListOK sty ctx [] none a b := fun n k q acc => by
  rw [List.append_nil]
  obtain ⟨t, hn, hv⟩ := h
  refine Run.loop_end (q1 := b.fin) (Run.bind (run_current hn) ?_) k
  exact Run.iteT hv (Run.bind (run_consume hn) (Run.pure _))

theorem paramsRest_ok (h1 : Sym sty p!"..." a m) (h2 : BindingOK sty ctx bp m o) (h3 : Sym sty p!")" o b) :
    ParamListOK sty ctx [] (some bp) a b := fun n k q acc => by
  rw [List.append_nil]
  obtain ⟨t, hn, hv⟩ := h1
  refine Run.loop_end (q1 := b.fin) (Run.bind (run_current hn) ?_) k
  exact Run.iteF (by rw [hv]; nofun) (Run.iteT hv
    (Run.bind (x := bp) (Run.assert ⟨t, hn, hv⟩ (run_bindingRec (fun n => h2.run n _) n)) (Run.assert h3 (Run.pure _))))

theorem param_step {d : Point} (h : BindElemOK sty ctx be a m) (hd : Delim sty m)
    (h2 : ∀ q, q = m.fin → Run sty (consumeListDelimiter (.punct p!")")) m q () d q') (acc : List BindingElement) :
    Run sty (paramBody (mkRec n) ctx acc) a q (.inl (acc ++ [be])) d q' := by
  obtain ⟨t, c, hn, hh⟩ := h.head
  exact Run.bind (run_current hn) (Run.iteF (bindHead_punct hh nofun nofun) (Run.iteF (bindHead_punct hh nofun nofun)
    (Run.bind (h.run hd n q) (Run.bind (h2 _ rfl) (Run.pure _)))))

theorem paramsLast_ok (h : BindElemOK sty ctx be a m) (h2 : Sym sty p!")" m b) :
    ParamListOK sty ctx [be] none a b := fun n k q acc => by
  refine Run.loop_step (q1 := m.fin) (param_step h (delim_of h2 (by simp)) (fun q hq => by rw [hq]; exact run_delimEnd h2 nofun) acc)
    (fun k => ?_) k
  have := paramsEnd_ok (ctx := ctx) h2 n k m.fin (acc ++ [be])
  rwa [List.append_nil] at this

theorem paramsMore_ok {es : List BindingElement} (h : BindElemOK sty ctx be a m) (h2 : Sym sty p!"," m o)
    (h3 : ParamListOK sty ctx es rest o b) : ParamListOK sty ctx (be :: es) rest a b := fun n k q acc => by
  rw [List.append_cons]
  exact Run.loop_step (q1 := o.fin) (param_step h (delim_of h2 (by simp)) (fun q hq => run_delimComma h2) acc)
    (fun k => h3 n k _ _) k

/-! ## Variables -/

theorem varDecl_ok (h1 : BindingOK sty ctx bp a m) (h2 : InitOK sty ctx init m b) (hi : init = none → ∃ id, bp = .ident id)
    (hs : From sty a b sp) : VarDeclOK sty ctx (.mk sp bp init) a b := by
  obtain ⟨t, c, hn, hh⟩ := h1.head
  refine ⟨⟨t, c, hn, hh⟩, fun he n q => ?_⟩
  rw [From.eq hs hn]
  refine Run.bind (run_position hn) (Run.bind (run_bindingRec (fun n => h1.run n q) n) (Run.bind (h2.cur he _)
    (Run.iteF ?_ (Run.bind (h2.run he n) (Run.bind (run_spanFrom _) (Run.pure _))))))
  cases init with
  | some _ => simp
  | none => obtain ⟨id, rfl⟩ := hi rfl; simp [BindingPattern.isIdent]

theorem varDeclsLast_ok {v : VarDecl} (h : VarDeclOK sty ctx v a b) : VarDeclsOK sty ctx [v] a b where
  head := h.head
  run he := by
    refine ⟨v, [], b, rfl, fun n q => h.run (he.mono (by decide)) n q, fun n k acc => ?_⟩
    rw [List.append_nil]
    exact Run.loop_end (Run.ifF (run_maybeF (Ends.punct he (p := p!",") rfl (by decide))) (Run.pure _)) k

theorem varDeclsMore_ok {v : VarDecl} {vs : List VarDecl} (h : VarDeclOK sty ctx v a m) (h2 : Sym sty p!"," m o)
    (h3 : VarDeclsOK sty ctx vs o b) : VarDeclsOK sty ctx (v :: vs) a b where
  head := h.head
  run he := by
    obtain ⟨w, ws, d, rfl, hr, hl⟩ := h3.run he
    refine ⟨v, w :: ws, m, rfl, fun n q => h.run (ends_comma h2) n q, fun n k acc => ?_⟩
    rw [List.append_cons]
    refine Run.loop_step (q1 := d.fin) (Run.ifT (run_maybeT h2) ?_) (fun k => hl n k _) k
    exact Run.bind (hr n _) (Run.pure _)

theorem VarDeclsOK.parse {vs : List VarDecl} (h : VarDeclsOK sty ctx vs a b) (he : Ends sty ctx 0 b) (n q : Nat) :
    Run sty (variableDeclarations (mkRec n) ctx) a q vs b b.fin := by
  obtain ⟨w, ws, d, rfl, hr, hl⟩ := h.run he
  exact Run.bind (hr n q) (hl n _ [w])

end
end Complete
end Fajt
