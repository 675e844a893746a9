import Verif.Proofs.CompleteStmt
/-!
# Completeness: imports and exports
-/
namespace Fajt
open Spec
set_option linter.unusedSectionVars false
variable [UnicodeID]

namespace Complete
open Parser

/-- The body of the loops of imports and exports. -/
def commaBody {α : Type} (m : P α) : List α → P (List α ⊕ List α) := fun acc => do
  if ← maybeConsume (.punct p!"}") then pure (.inr acc)
  else do
    let i ← m
    consumeListDelimiter (.punct p!"}")
    pure (.inl (acc ++ [i]))

section
variable {sty : SourceType} {a b c m o p : Point} {q q' n l : Nat} {t u : Token} {ctx : Ctx} {e x y z : Expr} {sp asp : Span}
  {id : Ident} {s s' : Stmt} {ss : List Stmt} {k k' : Block} {str : LitString}

theorem nameTok_ne (hi : NameTok t id) (p : Punct) : t.value ≠ .punct p := by
  intro h
  cases hi with
  | ident h' => rw [h] at h'; cases h'
  | keyword h' => rw [h] at h'; cases h'

theorem run_thenTry {α : Type} {f : P α} {x : α} (h : Run sty f a q x b q') : Run sty (thenTry true f) a q (some x) b q' :=
  Run.iteT rfl (Run.bind h (Run.pure _))

theorem run_noTry {α : Type} {f : P α} : Run sty (thenTry false f) a q none a q := Run.iteF (by decide) (Run.pure _)

/-- What the function of an element has to do. -/
structure CommaItem {α : Type} (sty : SourceType) (f : P α) (x : α) (a b : Point) : Prop where
  head : Look sty a fun t => t.value ≠ .punct p!"}"
  run : ∀ q v c, Sym sty v b c → Run sty f a q x b b.fin

theorem run_comma {α : Type} {f : P α} {P' : α → Point → Point → Prop} {xs : List α} (h : CommaList sty P' xs a b)
    (hf : ∀ x a b, P' x a b → CommaItem sty f x a b) (k q : Nat) (acc : List α) :
    Run sty (loop (commaBody f) k acc) a q (acc ++ xs) b b.fin := by
  induction h generalizing k q acc with
  | close h =>
    rw [List.append_nil]
    exact Run.loop_end (Run.ifT (run_maybeT h) (Run.pure _)) k
  | @last x a m b h1 h2 =>
    have hx := hf _ _ _ h1
    have e : Run sty (commaBody f acc) a q (.inl (acc ++ [x])) m m.fin :=
      Run.ifF (run_maybeF hx.head) (Run.bind (hx.run q _ _ h2) (Run.bind (run_delimEnd h2 nofun) (Run.pure _)))
    exact Run.loop_step e (fun k => Run.loop_end (Run.ifT (run_maybeT h2) (Run.pure _)) k) k
  | @more x xs a m o b h1 h2 _ ih =>
    have hx := hf _ _ _ h1
    rw [List.append_cons]
    have e : Run sty (commaBody f acc) a q (.inl (acc ++ [x])) o o.fin :=
      Run.ifF (run_maybeF hx.head) (Run.bind (hx.run q _ _ h2) (Run.bind (run_delimComma h2) (Run.pure _)))
    exact Run.loop_step e (fun k => ih k _ _) k

theorem importItem_ok {i : NamedImport} (h : ImportItem sty ctx i a b) : CommaItem sty (importSpecifier ctx) i a b := by
  cases h with
  | @plain t sp id _ _ hn hi hs =>
    refine ⟨(look_iff hn).2 (nameTok_ne hi _), fun q v c hd => ?_⟩
    rw [From.eq hs hn]
    exact Run.bind (run_position hn) (Run.bind (run_parseIdentName hn hi) (Run.bind (run_maybeF (tok_ne hd nofun))
      (Run.bind run_noTry (Run.bind (run_spanFrom _) (Run.pure _)))))
  | @renamed t u sp id id' _ m o _ hn hi ha hu hi' hs =>
    refine ⟨(look_iff hn).2 (nameTok_ne hi _), fun q v c hd => ?_⟩
    rw [From.eq hs hn]
    exact Run.bind (run_position hn) (Run.bind (run_parseIdentName hn hi) (Run.bind (run_maybeT ha)
      (Run.bind (run_thenTry (run_parseIdent hu hi')) (Run.bind (run_spanFrom _) (Run.pure _)))))

theorem exportItem_ok {i : NamedExport} (h : ExportItem sty i a b) : CommaItem sty exportSpecifier i a b := by
  cases h with
  | @plain t sp id _ _ hn hi hs =>
    refine ⟨(look_iff hn).2 (nameTok_ne hi _), fun q v c hd => ?_⟩
    rw [From.eq hs hn]
    exact Run.bind (run_position hn) (Run.bind (run_parseIdentName hn hi) (Run.bind (run_maybeF (tok_ne hd nofun))
      (Run.bind run_noTry (Run.bind (run_spanFrom _) (Run.pure _)))))
  | @renamed t u sp id id' _ m o _ hn hi ha hu hi' hs =>
    refine ⟨(look_iff hn).2 (nameTok_ne hi _), fun q v c hd => ?_⟩
    rw [From.eq hs hn]
    exact Run.bind (run_position hn) (Run.bind (run_parseIdentName hn hi) (Run.bind (run_maybeT ha)
      (Run.bind (run_thenTry (run_parseIdentName hu hi')) (Run.bind (run_spanFrom _) (Run.pure _)))))

theorem run_specifier (h : Tok sty (.lit (.string str)) a b) : Run sty moduleSpecifier a q str b b.fin := by
  obtain ⟨t, hn, hv⟩ := h
  refine Run.bind (x := (t.span, .string str)) (Run.bind (run_consume hn) ?_) (Run.pure _)
  simp only [hv]
  exact Run.pure _

theorem run_importNames {ns : Option Ident} {is : Option (List NamedImport)} (h : ImportNames sty ctx ns is a b) (n q : Nat) :
    Run sty (importClauseRest (mkRec n) ctx) a q (ns, is) b b.fin := by
  cases h with
  | «namespace» h1 h2 hu hi =>
    obtain ⟨t, hn, hv⟩ := h1
    refine Run.bind (run_curVal hn) ?_
    simp only [hv]
    exact Run.bind (Run.assert ⟨t, hn, hv⟩ (Run.assert h2 (run_parseIdent hu hi))) (Run.pure _)
  | named h1 h2 =>
    obtain ⟨t, hn, hv⟩ := h1
    refine Run.bind (run_curVal hn) ?_
    simp only [hv]
    exact Run.bind (Run.assert ⟨t, hn, hv⟩ (run_comma h2 (fun _ _ _ => importItem_ok) _ _ [])) (Run.pure _)

theorem importNames_head {ns : Option Ident} {is : Option (List NamedImport)} (h : ImportNames sty ctx ns is a b) :
    ∃ t c p, Next sty a t c ∧ t.value = .punct p := by
  cases h with
  | «namespace» h1 _ _ _ => obtain ⟨t, hn, hv⟩ := h1; exact ⟨t, _, _, hn, hv⟩
  | named h1 _ => obtain ⟨t, hn, hv⟩ := h1; exact ⟨t, _, _, hn, hv⟩

theorem run_importWhat {d ns : Option Ident} {is : Option (List NamedImport)} (h : ImportWhat sty ctx d ns is a b)
    (hf : Key sty k!"from" b c) (n q : Nat) :
    Run sty (importClause (mkRec n) ctx) a q (d, ns, is) b b.fin := by
  cases h with
  | default hn hi =>
    have := run_isIdent (q := q) hn ctx
    rw [isIdentTok_of hi] at this
    exact Run.bind this (Run.bind (run_thenTry (run_parseIdent hn hi)) (Run.iteF (by simp)
      (Run.ifF (run_maybeF (tok_ne hf nofun)) (Run.pure _))))
  | both hn hi hc h =>
    have := run_isIdent (q := q) hn ctx
    rw [isIdentTok_of hi] at this
    exact Run.bind this (Run.bind (run_thenTry (run_parseIdent hn hi)) (Run.iteF (by simp)
      (Run.ifT (run_maybeT hc) (Run.bind (run_importNames h n _) (Run.pure _)))))
  | names h =>
    obtain ⟨t, c, p, hn, hv⟩ := importNames_head h
    have := run_isIdent (q := q) hn ctx
    rw [punct_not_ident hv] at this
    exact Run.bind this (Run.bind run_noTry (Run.iteT rfl (Run.bind (run_importNames h n _) (Run.pure _))))

theorem importWhat_head {d ns : Option Ident} {is : Option (List NamedImport)} (h : ImportWhat sty ctx d ns is a b) :
    Look sty a fun t => ∀ s, t.value ≠ .lit (.string s) := by
  cases h with
  | default hn hi => exact (look_iff hn).2 fun s => ident_nokey hi rfl
  | both hn hi _ _ => exact (look_iff hn).2 fun s => ident_nokey hi rfl
  | names h =>
    obtain ⟨t, c, p, hn, hv⟩ := importNames_head h
    exact (look_iff hn).2 fun s => by rw [hv]; nofun

theorem run_isScript (h : sty = .module) : Run sty isScript a q false a q := Run.gets (by subst h; rfl)

theorem import_of {st : Stmt} (h0 : sty = .module) (h1 : Key sty k!"import" a m)
    (h : ∀ n q, Run sty (importDeclaration (mkRec n) ctx) a q st b b.fin) : DeclOK sty ctx st a b := by
  obtain ⟨t, hn, hv⟩ := h1
  refine ⟨⟨t, m, hn, .inl (by rw [hv]; simp)⟩, fun n q => Run.bind (run_current hn) ?_⟩
  obtain ⟨w', hw'⟩ := run_peekAny (sty := sty) (a := a) (q := q) (.keyword k!"function")
  obtain ⟨w2, hw2⟩ := run_lexicalAny (sty := sty) (a := a) (q := q) (ctx := ctx)
  exact Run.bind hw' (Run.bind hw2 (Run.iteF (by rw [hv]; nofun) (Run.iteF (by rw [hv]; nofun)
    (Run.iteF (by rw [hv]; nofun) (Run.iteT hv (Run.ifF (run_isScript h0) (Run.bind (h n q) (Run.pure _))))))))

theorem importModule_ok (h0 : sty = .module) (h1 : Key sty k!"import" a m) (h2 : Tok sty (.lit (.string str)) m o)
    (h3 : EndOfStmt sty o b) (hs : From sty a b sp) : DeclOK sty ctx (.importDecl sp none none none str) a b := by
  refine import_of h0 h1 fun n q => ?_
  obtain ⟨t, hn, hv⟩ := h1
  obtain ⟨u, hu, hv'⟩ := h2
  rw [From.eq hs hn]
  exact Run.bind (run_position hn) (Run.assert ⟨t, hn, hv⟩ (Run.ifT (run_curString hu hv')
    (Run.bind (run_specifier ⟨u, hu, hv'⟩) (Run.bind (run_semi h3) (Run.bind (run_spanFrom _) (Run.pure _))))))

theorem importFrom_ok {d ns : Option Ident} {is : Option (List NamedImport)} {r : Point} (h0 : sty = .module)
    (h1 : Key sty k!"import" a m) (h2 : ImportWhat sty ctx d ns is m o) (h3 : Key sty k!"from" o p)
    (h4 : Tok sty (.lit (.string str)) p r) (h5 : EndOfStmt sty r b) (hs : From sty a b sp) :
    DeclOK sty ctx (.importDecl sp d ns is str) a b := by
  refine import_of h0 h1 fun n q => ?_
  obtain ⟨t, hn, hv⟩ := h1
  rw [From.eq hs hn]
  exact Run.bind (run_position hn) (Run.assert ⟨t, hn, hv⟩ (Run.ifF (run_curStringF (importWhat_head h2))
    (Run.bind (run_importWhat h2 h3 n _) (Run.assert h3
    (Run.bind (run_specifier h4) (Run.bind (run_semi h5) (Run.bind (run_spanFrom _) (Run.pure _))))))))

theorem export_of {st : Stmt} (h0 : sty = .module) (h1 : Key sty k!"export" a m)
    (h : ∀ n q, Run sty (exportDeclaration (mkRec n) ctx) a q st b b.fin) : DeclOK sty ctx st a b := by
  obtain ⟨t, hn, hv⟩ := h1
  refine ⟨⟨t, m, hn, .inl (by rw [hv]; simp)⟩, fun n q => Run.bind (run_current hn) ?_⟩
  obtain ⟨w', hw'⟩ := run_peekAny (sty := sty) (a := a) (q := q) (.keyword k!"function")
  obtain ⟨w2, hw2⟩ := run_lexicalAny (sty := sty) (a := a) (q := q) (ctx := ctx)
  exact Run.bind hw' (Run.bind hw2 (Run.iteF (by rw [hv]; nofun) (Run.iteF (by rw [hv]; nofun)
    (Run.iteF (by rw [hv]; nofun) (Run.iteF (by rw [hv]; nofun) (Run.iteT hv (Run.ifF (run_isScript h0)
    (Run.bind (h n q) (Run.pure _)))))))))

theorem exportNamed_ok {es : List NamedExport} (h0 : sty = .module) (h1 : Key sty k!"export" a m) (h2 : Sym sty p!"{" m o)
    (h3 : CommaList sty (ExportItem sty) es o p) (h4 : Look sty p (fun t => t.value ≠ .keyword k!"from"))
    (h5 : EndOfStmt sty p b) (hs : From sty a b sp) : DeclOK sty ctx (.exportDecl (.named sp es none)) a b := by
  refine export_of h0 h1 fun n q => ?_
  obtain ⟨t, hn, hv⟩ := h1
  obtain ⟨u, hu, hv'⟩ := h2
  obtain ⟨w', hw'⟩ := run_peekAny (sty := sty) (a := m) (q := m.fin) (.keyword k!"function")
  rw [From.eq hs hn]
  exact Run.bind (run_position hn) (Run.assert ⟨t, hn, hv⟩ (Run.bind hw' (Run.bind (run_curVal hu) (Run.iteT (by rw [hv'])
    (Run.bind (Run.assert ⟨u, hu, hv'⟩ (run_comma h3 (fun _ _ _ => exportItem_ok) _ _ [])) (Run.bind (run_maybeF h4)
    (Run.bind run_noTry (Run.bind (run_semi h5) (Run.bind (run_spanFrom _) (Run.pure _))))))))))

theorem exportFrom_ok {es : List NamedExport} {r v : Point} (h0 : sty = .module) (h1 : Key sty k!"export" a m) (h2 : Sym sty p!"{" m o)
    (h3 : CommaList sty (ExportItem sty) es o p) (h4 : Key sty k!"from" p r) (h4' : Tok sty (.lit (.string str)) r v)
    (h5 : EndOfStmt sty v b) (hs : From sty a b sp) : DeclOK sty ctx (.exportDecl (.named sp es (some str))) a b := by
  refine export_of h0 h1 fun n q => ?_
  obtain ⟨t, hn, hv⟩ := h1
  obtain ⟨u, hu, hv'⟩ := h2
  obtain ⟨w', hw'⟩ := run_peekAny (sty := sty) (a := m) (q := m.fin) (.keyword k!"function")
  rw [From.eq hs hn]
  exact Run.bind (run_position hn) (Run.assert ⟨t, hn, hv⟩ (Run.bind hw' (Run.bind (run_curVal hu) (Run.iteT (by rw [hv'])
    (Run.bind (Run.assert ⟨u, hu, hv'⟩ (run_comma h3 (fun _ _ _ => exportItem_ok) _ _ [])) (Run.bind (run_maybeT h4)
    (Run.bind (run_thenTry (run_specifier h4')) (Run.bind (run_semi h5) (Run.bind (run_spanFrom _) (Run.pure _))))))))))

theorem exportAll_ok {r : Point} (h0 : sty = .module) (h1 : Key sty k!"export" a m) (h2 : Sym sty p!"*" m o)
    (h3 : Key sty k!"from" o p) (h4 : Tok sty (.lit (.string str)) p r) (h5 : EndOfStmt sty r b) (hs : From sty a b sp) :
    DeclOK sty ctx (.exportDecl (.namespace sp none str)) a b := by
  refine export_of h0 h1 fun n q => ?_
  obtain ⟨t, hn, hv⟩ := h1
  obtain ⟨u, hu, hv'⟩ := h2
  obtain ⟨w', hw'⟩ := run_peekAny (sty := sty) (a := m) (q := m.fin) (.keyword k!"function")
  rw [From.eq hs hn]
  exact Run.bind (run_position hn) (Run.assert ⟨t, hn, hv⟩ (Run.bind hw' (Run.bind (run_curVal hu) (Run.iteF (by rw [hv']; nofun)
    (Run.iteT (by rw [hv'])
    (Run.assert ⟨u, hu, hv'⟩ (Run.bind (run_maybeF (tok_ne h3 (by decide))) (Run.bind run_noTry (Run.assert h3
    (Run.bind (run_specifier h4) (Run.bind (run_semi h5) (Run.bind (run_spanFrom _) (Run.pure _)))))))))))))

theorem exportAllAs_ok {r v w : Point} (h0 : sty = .module) (h1 : Key sty k!"export" a m) (h2 : Sym sty p!"*" m o)
    (h6 : Key sty k!"as" o p) (h7 : Next sty p u r) (h8 : NameTok u id)
    (h3 : Key sty k!"from" r v) (h4 : Tok sty (.lit (.string str)) v w) (h5 : EndOfStmt sty w b) (hs : From sty a b sp) :
    DeclOK sty ctx (.exportDecl (.namespace sp (some id) str)) a b := by
  refine export_of h0 h1 fun n q => ?_
  obtain ⟨t, hn, hv⟩ := h1
  obtain ⟨u, hu, hv'⟩ := h2
  obtain ⟨w', hw'⟩ := run_peekAny (sty := sty) (a := m) (q := m.fin) (.keyword k!"function")
  rw [From.eq hs hn]
  exact Run.bind (run_position hn) (Run.assert ⟨t, hn, hv⟩ (Run.bind hw' (Run.bind (run_curVal hu) (Run.iteF (by rw [hv']; nofun)
    (Run.iteT (by rw [hv'])
    (Run.assert ⟨u, hu, hv'⟩ (Run.bind (run_maybeT h6) (Run.bind (run_thenTry (run_parseIdentName h7 h8)) (Run.assert h3
    (Run.bind (run_specifier h4) (Run.bind (run_semi h5) (Run.bind (run_spanFrom _) (Run.pure _)))))))))))))

theorem exportVar_ok {vs : List VarDecl} {vsp : Span} (h0 : sty = .module) (h1 : Key sty k!"export" a m) (h2 : Key sty k!"var" m o)
    (h3 : VarDeclsOK sty { ctx with in_ := true } vs o p)
    (he : Ends sty { ctx with in_ := true } 0 p) (h4 : EndOfStmt sty p b) (hs' : From sty m b vsp) (hs : From sty a b sp) :
    DeclOK sty ctx (.exportDecl (.decl sp (.variable (.mk vsp .var vs)))) a b := by
  refine export_of h0 h1 fun n q => ?_
  obtain ⟨t, hn, hv⟩ := h1
  obtain ⟨u, hu, hv'⟩ := h2
  obtain ⟨w', hw'⟩ := run_peekAny (sty := sty) (a := m) (q := m.fin) (.keyword k!"function")
  obtain ⟨w, hw⟩ := run_semi' h4
  rw [From.eq hs hn, From.eq hs' hu]
  exact Run.bind (run_position hn) (Run.assert ⟨t, hn, hv⟩ (Run.bind hw' (Run.bind (run_curVal hu) (Run.iteF (by rw [hv']; nofun)
    (Run.iteF (by rw [hv']; nofun) (Run.iteT (by rw [hv']) (Run.bind (b := b) (q1 := b.fin)
      (Run.bind (run_consume hu) (Run.bind (h3.parse he n _) (Run.bind hw (Run.bind (run_spanFrom _) (Run.pure _)))))
      (Run.bind (run_spanFrom _) (Run.pure _)))))))))

theorem run_required {d : Stmt} (h : DeclOK sty ctx d a b) (n q : Nat) : Run sty (requiredDeclaration (mkRec n) ctx) a q d b b.fin :=
  Run.bind (run_declRec (fun n => h.run n q) n) (Run.pure _)

theorem exportDecl_ok {d : Stmt} (h0 : sty = .module) (h1 : Key sty k!"export" a m)
    (h2 : Look sty m (fun t => t.value ∉ [.keyword k!"import", .keyword k!"export"])) (h3 : DeclOK sty ctx d m b)
    (hs : From sty a b sp) : DeclOK sty ctx (.exportDecl (.decl sp d)) a b := by
  refine export_of h0 h1 fun n q => ?_
  obtain ⟨t, hn, hv⟩ := h1
  obtain ⟨u, c, hu, hd⟩ := h3.start
  have h2 := h2 u c hu
  rw [From.eq hs hn]
  refine Run.bind (run_position hn) (Run.assert ⟨t, hn, hv⟩ ?_)
  have main : Run sty (declarationExport (mkRec n) ctx t.span.start) m m.fin (.exportDecl (.decl ⟨t.span.start, b.fin⟩ d)) b b.fin :=
    Run.bind (run_required h3 n _) (Run.bind (run_spanFrom _) (Run.pure _))
  rcases hd with hd | ⟨hd, c', hc⟩
  · obtain ⟨w', hw'⟩ := run_peekAny (sty := sty) (a := m) (q := m.fin) (.keyword k!"function")
    refine Run.bind hw' (Run.bind (run_curVal hu) ?_)
    simp only [List.mem_cons, List.not_mem_nil, or_false, not_or] at hd h2
    have h4 : u.value = .keyword k!"let" ∨ u.value = .keyword k!"const" ∨ u.value = .keyword k!"function" ∨
        u.value = .keyword k!"class" := by
      rcases hd with h | h | h | h | h | h <;> simp_all
    exact Run.iteF (by rcases h4 with h | h | h | h <;> rw [h] <;> nofun) (Run.iteF (by rcases h4 with h | h | h | h <;> rw [h] <;> nofun)
      (Run.iteF (by rcases h4 with h | h | h | h <;> rw [h] <;> nofun) (Run.iteT (by simpa using h4) main)))
  · exact Run.bind (run_peekT hu hc) (Run.bind (run_curVal hu) (Run.iteF (by rw [hd]; nofun) (Run.iteF (by rw [hd]; nofun)
      (Run.iteF (by rw [hd]; nofun) (Run.iteF (by rw [hd]; nofun) (Run.iteT ⟨by rw [hd], rfl⟩ main))))))

theorem default_of {st : Stmt} (h0 : sty = .module) (h1 : Key sty k!"export" a m) (h2 : Key sty k!"default" m o)
    (h : ∀ n t, t.value = .keyword k!"export" → Next sty a t m →
      Run sty (defaultExport (mkRec n) ctx t.span.start) m m.fin st b b.fin) : DeclOK sty ctx st a b := by
  refine export_of h0 h1 fun n q => ?_
  obtain ⟨t, hn, hv⟩ := h1
  obtain ⟨u, hu, hd⟩ := h2
  obtain ⟨w', hw'⟩ := run_peekAny (sty := sty) (a := m) (q := m.fin) (.keyword k!"function")
  exact Run.bind (run_position hn) (Run.assert ⟨t, hn, hv⟩ (Run.bind hw' (Run.bind (run_curVal hu) (Run.iteF (by rw [hd]; nofun)
    (Run.iteF (by rw [hd]; nofun) (Run.iteF (by rw [hd]; nofun) (Run.iteF (by rw [hd]; nofun)
    (Run.iteF (by rw [hd]; nofun) (Run.iteT (by rw [hd]) (h n t hv hn))))))))))

theorem exportDefaultDecl_ok {d : Stmt} (h0 : sty = .module) (h1 : Key sty k!"export" a m) (h2 : Key sty k!"default" m o)
    (h3 : Look sty o (fun t => t.value ∈ [.keyword k!"function", .keyword k!"async", .keyword k!"class"]))
    (h4 : DeclOK sty { ctx with default := true } d o b) (hs : From sty a b sp) :
    DeclOK sty ctx (.exportDecl (.defaultDecl sp d)) a b := by
  refine default_of h0 h1 h2 fun n t hv hn => Run.assert h2 ?_
  obtain ⟨u, c, hu, hd⟩ := h4.start
  have h3 := h3 u c hu
  rw [From.eq hs hn]
  have main : Run sty (declarationDefaultExport (mkRec n) { ctx with default := true } t.span.start) o o.fin
      (.exportDecl (.defaultDecl ⟨t.span.start, b.fin⟩ d)) b b.fin :=
    Run.bind (run_required h4 n _) (Run.bind (run_spanFrom _) (Run.pure _))
  refine Run.bind (run_current hu) ?_
  rcases hd with hd | ⟨hd, c', hc⟩
  · obtain ⟨w', hw'⟩ := run_peekAny (sty := sty) (a := o) (q := o.fin) (.keyword k!"function")
    refine Run.bind hw' (Run.iteT ?_ main)
    simp only [List.mem_cons, List.not_mem_nil, or_false] at hd h3
    rcases h3 with h | h | h
    · exact .inr (.inl h)
    · exact absurd hd (by rw [h]; decide)
    · exact .inl h
  · exact Run.bind (run_peekT hu hc) (Run.iteT (.inr (.inr ⟨hd, rfl⟩)) main)

theorem exportDefaultExpr_ok (h0 : sty = .module) (h1 : Key sty k!"export" a m) (h2 : Key sty k!"default" m o)
    (h3 : ∀ t c, Next sty o t c → t.value ∉ [.keyword k!"function", .keyword k!"class"] ∧
        (t.value = .keyword k!"async" → Look sty c fun u => u.value ≠ .keyword k!"function"))
    (h4 : ExprOK sty { ctx with in_ := true } 1 e o p) (he : Ends sty { ctx with in_ := true } 1 p)
    (h5 : EndOfStmt sty p b) (hs : From sty a b sp) : DeclOK sty ctx (.exportDecl (.defaultExpr sp e)) a b := by
  refine default_of h0 h1 h2 fun n t hv hn => Run.assert h2 ?_
  obtain ⟨u, c, hu, -⟩ := h4.head
  obtain ⟨h3, h6⟩ := h3 u c hu
  simp only [List.mem_cons, List.not_mem_nil, or_false, not_or] at h3
  rw [From.eq hs hn]
  refine Run.bind (run_current hu) ?_
  have main : Run sty ((mkRec n).assignExpr { ctx with in_ := true } >>= fun e => consumeOptionalSemicolon >>= fun _ =>
      spanFrom t.span.start >>= fun sp => (pure (.exportDecl (.defaultExpr sp e)) : P Stmt)) o o.fin
      (.exportDecl (.defaultExpr ⟨t.span.start, b.fin⟩ e)) b b.fin :=
    Run.bind (h4.parse he n _) (Run.bind (run_semi h5) (Run.bind (run_spanFrom _) (Run.pure _)))
  by_cases hx : u.value = .keyword k!"async"
  · exact Run.bind (run_peekF hu (h6 hx)) (Run.iteF (by simp [h3.1, h3.2]) main)
  · obtain ⟨w', hw'⟩ := run_peekAny (sty := sty) (a := o) (q := o.fin) (.keyword k!"function")
    exact Run.bind hw' (Run.iteF (by simp [h3.1, h3.2, hx]) main)

end
end Complete
end Fajt
