import Verif.Proofs.CompletePattern
import Verif.Proofs.CompleteStmt
/-!
# Completeness: `for`-`in` and `for`-`of`
-/
namespace Fajt
open Spec
set_option linter.unusedSectionVars false
variable [UnicodeID]

namespace Complete
open Parser

/-- `in` or `of` follows. -/
def InOf (sty : SourceType) (b : Point) : Prop := ∃ v c, v ∈ [.keyword k!"in", .keyword k!"of"] ∧ Tok sty v b c

/-- The text in the place of the first part of `for (;;)`: it is parsed up to `b`, or the parser fails. -/
def TryInit (sty : SourceType) (ctx : Ctx) (a b : Point) : Prop :=
  (∃ i, ∀ n q, Run sty (optionalForInit (mkRec n) ctx) a q i b b.fin) ∨
  (∃ e x q', src x = src a ∧ ∀ n q, Fails sty (optionalForInit (mkRec n) ctx) a q e x q')

structure ForDeclOK (sty : SourceType) (ctx : Ctx) (d : ForDecl) (a b : Point) : Prop where
  head : ∃ t c, Next sty a t c
  init : InOf sty b → TryInit sty ctx a b
  run : InOf sty b → ∀ n q, Run sty (forDeclaration (mkRec n) ctx) a q d b b.fin

section
variable {sty : SourceType} {a b c d m o p x : Point} {q q' q1 n l : Nat} {t u : Token} {ctx : Ctx} {e y z : Expr} {sp asp : Span}
  {s : Stmt} {er : PErr} {dc : ForDecl}

theorem inOf_ends (h : InOf sty b) {k : Nat} : Ends sty { ctx with in_ := false } k b := by
  obtain ⟨v, c, hv, h⟩ := h
  refine Ends.of_tok h fun t ht l hl => ?_
  obtain ⟨w, f, s⟩ := t
  simp only [List.mem_cons, List.not_mem_nil, or_false] at hv
  subst ht
  rcases hv with rfl | rfl <;> cases hl

theorem inOf_ends11 (h : InOf sty b) : Ends sty ctx 11 b := by
  obtain ⟨v, c, hv, h⟩ := h
  refine Ends.of_tok h fun t ht l hl => ?_
  obtain ⟨w, f, s⟩ := t
  simp only [List.mem_cons, List.not_mem_nil, or_false] at hv
  subst ht
  rcases hv with rfl | rfl
  · simp only [contLevel] at hl
    split at hl
    · cases hl; decide
    · cases hl
  · cases hl

theorem run_kindSome {kd : VarKind} (hn : Next sty a t m) (hk : symbol t.value = some kd.asStr) (hu : Next sty m u c)
    (hh : lexicalStart ctx u) : Run sty (optionalVariableKind ctx) a q (some kd) m m.fin := by
  have hv := kind_value hk
  refine Run.bind (run_current hn) ?_
  cases kd with
  | var =>
    obtain ⟨w, hw⟩ := run_lexicalAny (sty := sty) (a := a) (q := q) (ctx := ctx)
    exact Run.bind hw (Run.iteT hv (Run.bind (run_consume hn) (Run.pure _)))
  | let_ =>
    exact Run.bind (run_lexicalT hn hu hh) (Run.iteF (by rw [hv]; nofun) (Run.iteT ⟨hv, rfl⟩ (Run.bind (run_consume hn) (Run.pure _))))
  | const =>
    obtain ⟨w, hw⟩ := run_lexicalAny (sty := sty) (a := a) (q := q) (ctx := ctx)
    exact Run.bind hw (Run.iteF (by rw [hv]; nofun) (Run.iteF (by rw [hv]; nofun) (Run.iteT hv (Run.bind (run_consume hn) (Run.pure _)))))

theorem run_kindNone (hn : Next sty a t c) (hs : startVal t.value = true)
    (hl : t.value = .keyword k!"let" → Look sty c fun u => ¬ lexicalStart ctx u) :
    Run sty (optionalVariableKind ctx) a q none a q := by
  refine Run.bind (run_current hn) ?_
  by_cases hy : t.value = .keyword k!"let"
  · exact Run.bind (run_lexicalF hn (hl hy)) (Run.iteF (startVal_ne hs (by decide)) (Run.iteF (fun h => nomatch h.2)
      (Run.iteF (startVal_ne hs (by decide)) (Run.pure _))))
  · obtain ⟨w, hw⟩ := run_lexicalAny (sty := sty) (a := a) (q := q) (ctx := ctx)
    exact Run.bind hw (Run.iteF (startVal_ne hs (by decide)) (Run.iteF (fun h => hy h.1)
      (Run.iteF (startVal_ne hs (by decide)) (Run.pure _))))

theorem forDeclVar_ok {kd : VarKind} {pt : BindingPattern} (hn : Next sty a t m) (hk : symbol t.value = some kd.asStr)
    (h1 : BindingOK sty ctx pt m b) (h2 : BindingOK sty { ctx with in_ := false } pt m b) (hb : src b = src m)
    (hs : From sty a b sp) : ForDeclOK sty ctx (.declaration sp kd pt) a b := by
  obtain ⟨u, c, hu, hh⟩ := h1.head
  have hv := kind_value hk
  have hsemi : Look sty a fun t => t.value ≠ .punct p!";" := (look_iff hn).2 (by rw [hv]; cases kd <;> nofun)
  refine ⟨⟨t, m, hn⟩, fun hio => ?_, fun hio n q => ?_⟩
  · have hne : ∀ p, Look sty b fun t => t.value ≠ .punct p := fun p => by
      obtain ⟨v, d, hv, hd⟩ := hio
      refine tok_ne hd ?_
      rintro rfl
      simp at hv
    cases hp : pt.isIdent with
    | true =>
      refine .inl ⟨some (.declaration (.mk ⟨t.span.start, b.fin⟩ kd [.mk ⟨u.span.start, b.fin⟩ pt none])), fun n q => ?_⟩
      refine Run.ifF (run_curF hsemi) (Run.bind (x := .declaration (.mk ⟨t.span.start, b.fin⟩ kd [.mk ⟨u.span.start, b.fin⟩ pt none])) ?_ (Run.pure _))
      refine Run.bind (run_position hn) (Run.bind (run_kindSome hn hk hu hh) ?_)
      refine Run.bind (x := [.mk ⟨u.span.start, b.fin⟩ pt none]) ?_ (Run.bind (run_spanFrom _) (Run.pure _))
      refine Run.bind (x := .mk ⟨u.span.start, b.fin⟩ pt none) (b := b) (q1 := b.fin) ?_ ?_
      · refine Run.bind (run_position hu) (Run.bind (run_bindingRec (fun n => h2.run n _) n) (Run.bind (run_curF (hne _)) (Run.iteF ?_ ?_)))
        · simp [hp]
        · exact Run.bind (x := none) (Run.pure _) (Run.bind (run_spanFrom _) (Run.pure _))
      · have e : Run sty (varBody (mkRec n) { ctx with in_ := false } [.mk ⟨u.span.start, b.fin⟩ pt none]) b b.fin
            (.inr [.mk ⟨u.span.start, b.fin⟩ pt none]) b b.fin := Run.ifF (run_maybeF (hne _)) (Run.pure _)
        exact Run.loop_end e _
    | false =>
      refine .inr ⟨PErr.syn c!"Missing initializer in destructuring declaration" ⟨u.span.start, b.fin⟩, b, b.fin,
        by rw [hb, next_src hn], fun n q => ?_⟩
      refine Fails.seq (x := false) (run_curF hsemi) (Fails.bind ?_)
      refine Fails.seq (run_position hn) (Fails.seq (run_kindSome hn hk hu hh) (Fails.bind (Fails.bind ?_)))
      refine Fails.seq (run_position hu) (Fails.seq (run_bindingRec (fun n => h2.run n _) n) (Fails.seq (run_curF (hne _)) (Fails.iteT ?_ ?_)))
      · simp [hp]
      · exact Fails.seq (run_spanFrom _) Fails.throw
  · rw [From.eq hs hn]
    exact Run.bind (run_position hn) (Run.bind (run_kindSome hn hk hu hh) (Run.bind (run_bindingRec (fun n => h1.run n _) n)
      (Run.bind (run_spanFrom _) (Run.pure _))))

theorem forDeclExpr_ok (hn : Next sty a t c) (hv : t.value ∉ [.punct p!"{", .punct p!"["])
    (hl : t.value = .keyword k!"let" → Look sty c fun u => ¬ lexicalStart ctx u)
    (h1 : ExprOK sty ctx 17 e a b) (h2 : ExprOK sty { ctx with in_ := false } 17 e a b) (ht : TargetOK ctx.strict e) :
    ForDeclOK sty ctx (.expr e) a b := by
  obtain ⟨t', c', hn', hh⟩ := h1.head
  obtain ⟨rfl, rfl⟩ := next_unique hn hn'
  simp only [List.mem_cons, List.not_mem_nil, or_false, not_or] at hv
  refine ⟨⟨t', c', hn⟩, fun hio => .inl ⟨some (.expr e), fun n q => ?_⟩, fun hio n q => ?_⟩
  · refine Run.ifF (run_curF ((look_iff hn).2 (startVal_ne hh.start (by decide)))) ?_
    refine Run.bind (x := .expr e) (Run.bind (run_position hn) ?_) (Run.pure _)
    exact Run.bind (run_kindNone hn hh.start hl) (Run.bind (h2.down3.up2.up1.up0.parse (inOf_ends hio) n _) (Run.pure _))
  · refine Run.bind (run_position hn) (Run.bind (run_kindNone hn hh.start hl) (Run.bind (run_current hn) (Run.iteF ?_ ?_)))
    · exact fun h => h.elim hv.2 hv.1
    · refine Run.bind (h1.parse ((inOf_ends11 hio).mono (by decide)) n _) ?_
      rw [lhsCheck ht]
      exact Run.bind Run.ofExcept (Run.pure _)

theorem pattern_head {pt : AssignPattern} (h2 : AssignPatternOK sty ctx pt a b) : ∃ t c p, Next sty a t c ∧ t.value = .punct p ∧
    (t.value = .punct p!"[" ∨ t.value = .punct p!"{") ∧ startVal t.value = true := by
  obtain ⟨t, c, hn, hv⟩ := h2.head
  rcases hv with hv | hv
  · exact ⟨t, c, _, hn, hv, .inr hv, by rw [hv]; rfl⟩
  · exact ⟨t, c, _, hn, hv, .inl hv, by rw [hv]; rfl⟩

theorem run_patternDecl {pt : AssignPattern} (h2 : AssignPatternOK sty ctx pt a b) (n q : Nat) :
    Run sty (forDeclaration (mkRec n) ctx) a q (.pattern pt) b b.fin := by
  obtain ⟨t, c, p, hn, hp, hv, hst⟩ := pattern_head h2
  refine Run.bind (run_position hn) (Run.bind (run_kindNone hn hst (by rw [hp]; nofun)) (Run.bind (run_current hn) (Run.iteT hv ?_)))
  exact Run.bind (run_assignPatternRec (fun n => h2.run n _) n) (Run.pure _)

theorem forDeclLiteral_ok {pt : AssignPattern} (h1 : ExprOK sty { ctx with in_ := false } 17 e a b)
    (h2 : AssignPatternOK sty ctx pt a b) : ForDeclOK sty ctx (.pattern pt) a b := by
  obtain ⟨t, c, p, hn, hp, hv, hst⟩ := pattern_head h2
  refine ⟨⟨t, c, hn⟩, fun hio => .inl ⟨some (.expr e), fun n q => ?_⟩, fun _ => run_patternDecl h2⟩
  refine Run.ifF (run_curF ((look_iff hn).2 (startVal_ne hst (by decide)))) ?_
  refine Run.bind (x := .expr e) (Run.bind (run_position hn) ?_) (Run.pure _)
  exact Run.bind (run_kindNone hn hst (by rw [hp]; nofun)) (Run.bind (h1.down3.up2.up1.up0.parse (inOf_ends hio) n _) (Run.pure _))

theorem forDeclInit_ok {pt : AssignPattern} {i : Span} (h1 : StopOK sty { ctx with in_ := false } (.init i) a x) (hx : src x = src a)
    (h2 : AssignPatternOK sty ctx pt a b) : ForDeclOK sty ctx (.pattern pt) a b := by
  obtain ⟨t, c, p, hn, hp, hv, hst⟩ := pattern_head h2
  refine ⟨⟨t, c, hn⟩, fun _ => .inr ⟨PErr.initializedName i, x, x.fin, hx, fun n q => ?_⟩, fun _ => run_patternDecl h2⟩
  refine Fails.seq (x := false) (run_curF ((look_iff hn).2 (startVal_ne hst (by decide)))) (Fails.bind ?_)
  refine Fails.seq (run_position hn) (Fails.seq (run_kindNone hn hst (by rw [hp]; nofun)) (Fails.bind ?_))
  exact Fails.seq (run_position hn) (Fails.bind (fails_assignRec h1.fails n _))

theorem tryFor_none {w : Bool} {start : Nat} (h : TryInit sty ctx a b) (hb : src b = src a) (hio : InOf sty b) (q : Nat) :
    ∃ x q', src x = src a ∧ ∀ n, Run sty (tryFor (mkRec n) ctx start w) a q none x q' := by
  have hne : Look sty b fun t => t.value ≠ .punct p!";" := by
    obtain ⟨v, d, hv, hd⟩ := hio
    refine tok_ne hd ?_
    rintro rfl
    simp at hv
  rcases h with ⟨i, h⟩ | ⟨e, x, q', hx, h⟩
  · exact ⟨b, b.fin, hb, fun n => Run.attempt (h n q) (Run.ifF (run_maybeF hne) (Run.pure _))⟩
  · exact ⟨x, q', hx, fun n => Run.attemptErr (h n q) (Run.pure _)⟩

theorem run_forTail {w : Bool} {start : Nat} (hk : Seekable sty o) (h : ForDeclOK sty ctx dc o p) (hp : src p = src o) (hio : InOf sty p)
    (hr : Run sty (do
      let t ← current
      if t.value = .keyword k!"of" then forOf (mkRec n) ctx start dc w
      else if t.value = .keyword k!"in" then
        if w then do
          let span ← spanFrom start
          M.throw (PErr.syn c!"'for await' loops must be used with 'of'" span)
        else forIn (mkRec n) ctx start dc
      else do
        let token ← consume
        M.throw (PErr.unexpectedToken token)) p p.fin s b b.fin) (q : Nat) :
    Run sty (forAfterParen (mkRec n) ctx start w) o q s b b.fin := by
  obtain ⟨t, c, hn⟩ := h.head
  obtain ⟨x, q', hx, ht⟩ := tryFor_none (start := start) (w := w) (h.init hio) hp hio q
  exact Run.bind (run_current hn) (Run.bind (ht n) (Run.bind (run_rewind hn hk hx) (Run.bind (h.run hio n _) hr)))

theorem forIn_ok {r q2 v : Point} (h1 : Key sty k!"for" a m) (h2 : Sym sty p!"(" m o) (hk : Seekable sty o)
    (h3 : ForDeclOK sty ctx dc o p) (hp : src p = src o) (h4 : Key sty k!"in" p q2) (h5 : ExprOK sty { ctx with in_ := true } 0 e q2 r)
    (h6 : Sym sty p!")" r v) (h7 : StmtOK sty ctx s v b) (hs : From sty a b sp) : StmtOK sty ctx (.forIn sp dc e s) a b := by
  obtain ⟨t, hn, hv⟩ := h1
  refine stmt_of hn (by rw [hv]; decide) fun n q => Run.bind (run_current hn) ?_
  simp only [hv]
  rw [From.eq hs hn]
  have main := run_forTail (n := n) (w := false) (start := t.span.start) (s := .forIn ⟨t.span.start, b.fin⟩ dc e s) (b := b) hk h3 hp
    ⟨_, q2, by simp, h4⟩ (by
      obtain ⟨w, hw, hwv⟩ := h4
      exact Run.bind (run_current hw) (Run.iteF (by rw [hwv]; nofun) (Run.iteT hwv (Run.iteF nofun (Run.assert ⟨w, hw, hwv⟩
        (Run.bind (h5.parse (ends_close h6 (by simp)) n _) (Run.assert h6 (Run.bind (run_stmtRec (fun n => h7.run n _) n)
          (Run.bind (run_spanFrom _) (Run.pure _))))))))))
  refine Run.bind (run_position hn) (Run.assert ⟨t, hn, hv⟩ ?_)
  by_cases ha : ctx.await = true
  · exact Run.iteT ha (Run.bind (run_maybeF (tok_ne h2 nofun)) (Run.assert h2 (main _)))
  · exact Run.iteF ha (Run.bind (Run.pure _) (Run.assert h2 (main _)))

theorem run_ofTail {r q2 v : Point} {w : Bool} {start : Nat} (h4 : Key sty k!"of" p q2) (h5 : ExprOK sty { ctx with in_ := true } 0 e q2 r)
    (h6 : Sym sty p!")" r v) (h7 : StmtOK sty ctx s v b) : Run sty (do
      let t ← current
      if t.value = .keyword k!"of" then forOf (mkRec n) ctx start dc w
      else if t.value = .keyword k!"in" then
        if w then do
          let span ← spanFrom start
          M.throw (PErr.syn c!"'for await' loops must be used with 'of'" span)
        else forIn (mkRec n) ctx start dc
      else do
        let token ← consume
        M.throw (PErr.unexpectedToken token)) p q (.forOf ⟨start, b.fin⟩ dc e s w) b b.fin := by
  obtain ⟨t, hn, hv⟩ := h4
  exact Run.bind (run_current hn) (Run.iteT hv (Run.assert ⟨t, hn, hv⟩
    (Run.bind (h5.parse (ends_close h6 (by simp)) n _) (Run.assert h6 (Run.bind (run_stmtRec (fun n => h7.run n _) n)
      (Run.bind (run_spanFrom _) (Run.pure _)))))))

theorem forOf_ok {r q2 v : Point} (h1 : Key sty k!"for" a m) (h2 : Sym sty p!"(" m o) (hk : Seekable sty o)
    (h3 : ForDeclOK sty ctx dc o p) (hp : src p = src o) (h4 : Key sty k!"of" p q2) (h5 : ExprOK sty { ctx with in_ := true } 0 e q2 r)
    (h6 : Sym sty p!")" r v) (h7 : StmtOK sty ctx s v b) (hs : From sty a b sp) : StmtOK sty ctx (.forOf sp dc e s false) a b := by
  obtain ⟨t, hn, hv⟩ := h1
  refine stmt_of hn (by rw [hv]; decide) fun n q => Run.bind (run_current hn) ?_
  simp only [hv]
  rw [From.eq hs hn]
  have main := run_forTail (n := n) (w := false) (start := t.span.start) (s := .forOf ⟨t.span.start, b.fin⟩ dc e s false) (b := b) hk h3 hp
    ⟨_, q2, by simp, h4⟩ (run_ofTail h4 h5 h6 h7)
  refine Run.bind (run_position hn) (Run.assert ⟨t, hn, hv⟩ ?_)
  by_cases ha : ctx.await = true
  · exact Run.iteT ha (Run.bind (run_maybeF (tok_ne h2 nofun)) (Run.assert h2 (main _)))
  · exact Run.iteF ha (Run.bind (Run.pure _) (Run.assert h2 (main _)))

theorem forAwait_ok {r q2 v l : Point} (h1 : Key sty k!"for" a l) (ha : ctx.await = true) (h0 : Key sty k!"await" l m)
    (h2 : Sym sty p!"(" m o) (hk : Seekable sty o)
    (h3 : ForDeclOK sty ctx dc o p) (hp : src p = src o) (h4 : Key sty k!"of" p q2) (h5 : ExprOK sty { ctx with in_ := true } 0 e q2 r)
    (h6 : Sym sty p!")" r v) (h7 : StmtOK sty ctx s v b) (hs : From sty a b sp) : StmtOK sty ctx (.forOf sp dc e s true) a b := by
  obtain ⟨t, hn, hv⟩ := h1
  refine stmt_of hn (by rw [hv]; decide) fun n q => Run.bind (run_current hn) ?_
  simp only [hv]
  rw [From.eq hs hn]
  have main := run_forTail (n := n) (w := true) (start := t.span.start) (s := .forOf ⟨t.span.start, b.fin⟩ dc e s true) (b := b) hk h3 hp
    ⟨_, q2, by simp, h4⟩ (run_ofTail h4 h5 h6 h7)
  refine Run.bind (run_position hn) (Run.assert ⟨t, hn, hv⟩ ?_)
  exact Run.iteT ha (Run.bind (run_maybeT h0) (Run.assert h2 (main _)))

/-! ## Directives -/

theorem directivesStop_ok {l : LitString} (hn : Next sty a t c) (hv : t.value = .lit (.string l)) (hk : Seekable sty a)
    (h : ItemOK sty ctx s a b) (hb : src b = src a) (hs : ∀ sp tsp l', s ≠ .expr sp (.literal tsp (.string l'))) :
    DirsOK sty ctx [] a a := fun q =>
  ⟨b.fin, fun _ => .inr ⟨t, c, hn⟩, fun n k acc => by
    rw [List.append_nil]
    have hd : directiveOf s = none := by
      unfold directiveOf
      split
      · exact absurd rfl (hs _ _ _)
      · rfl
    have e : Run sty (dirBody (mkRec n) ctx acc) a q (.inr acc) a b.fin := by
      refine Run.ifT (run_curString hn hv) (Run.bind (run_current hn) (Run.bind (run_itemRec (fun n => h.run n q) n) ?_))
      rw [hd]
      exact Run.bind (run_rewind hn hk hb) (Run.pure _)
    exact Run.loop_end e k⟩

end
end Complete
end Fajt
