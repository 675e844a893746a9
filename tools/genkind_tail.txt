theorem mkRec_agree (n : Nat) : Agrees a b (mkRec n) (mkRec n) := by
  induction n with
  | zero =>
    exact ⟨rfl, fun _ => Agree.oof, fun _ => Agree.oof, fun _ => Agree.oof, fun _ => Agree.oof, fun _ => Agree.oof, fun _ => Agree.oof,
      fun _ => Agree.oof, fun _ => Agree.oof⟩
  | succ n ih =>
    rw [mkRec]
    generalize mkRec n = r at ih ⊢
    exact ⟨rfl, fun _ => assignExpr_agree ih, fun _ => unary_agree ih, fun _ => newOrMember_agree ih, fun _ => bindingPattern_agree ih,
      fun _ => assignPattern_agree ih, fun _ => stmt_agree ih, fun _ => declOrStmt_agree ih, fun _ => declaration_agree ih⟩

theorem start_agree {src : Str} (h : PlainSource src) (a b : SourceType) :
    ResR (StR a b) (fun _ => True) (start src a) (start src b) := by
  unfold start
  have h0 : StR a b ⟨{ LexerS.new src with st := { LexState.default with html := a = .script } }, .error LexErr.endOfStream,
      .error LexErr.endOfStream, 0, a⟩ ⟨{ LexerS.new src with st := { LexState.default with html := b = .script } }, .error LexErr.endOfStream,
      .error LexErr.endOfStream, 0, b⟩ :=
    ⟨⟨rfl, rfl, rfl, rfl, h, h, Nat.le_refl _⟩, rfl, rfl, rfl, rfl, rfl, fun t ht => (nomatch ht), fun t ht => (nomatch ht)⟩
  refine liftPull_agree (fun x hx => liftPull_agree fun y hy => ?_) _ _ h0
  exact fun s s' h => ⟨rfl, trivial, h.lx, rfl, rfl, h.pos, h.fst, h.snd, hx, hy⟩

/-- Parsing a plain source as sources of two kinds ends alike. -/
theorem parse_agree {α : Type} {m : Rec → P α} (hm : ∀ {r r'}, Agrees a b r r' → Agree a b (m r) (m r')) {src : Str} (h : PlainSource src) :
    ResR (StR a b) (fun _ => True) (parse m src a) (parse m src b) := by
  unfold parse
  have := start_agree h a b
  revert this
  cases start src a <;> cases start src b <;> intro this <;> try exact this.elim
  · exact hm (mkRec_agree _) _ _ this.2.2
  · exact this
  · exact this
  · trivial

/-- The parts of a program: its span, directives and statements. -/
def parts (r : Rec) : P (Span × List LitString × List Stmt) := do
  let spanStart ← position
  let directives ← directivePrologue r {}
  let body ← allStmts r { strict := containsStrict directives }
  let span ← spanFrom spanStart
  pure (span, directives, body)

theorem parts_agree (hr : Agrees a b r r') : Agree a b (parts r) (parts r') := by
  unfold parts
  ag

theorem program_parts (r : Rec) (s : PState) : program r s = match parts r s with
    | .ok (x, y, z) t => .ok ⟨t.sourceType, x, y, z⟩ t
    | .err e t => .err e t
    | .panic w => .panic w
    | .oof => .oof := by
  unfold program parts
  simp only [M.bind_def, M.bind]
  cases position s with
  | ok n s =>
    dsimp only
    cases directivePrologue r {} s with
    | ok ds s =>
      dsimp only
      cases allStmts r { strict := containsStrict ds } s with
      | ok body s =>
        dsimp only
        cases spanFrom n s <;> rfl
      | _ => rfl
    | _ => rfl
  | _ => rfl

/-- What two runs for a whole program have in common: programs that differ in the kind of the source only, or the same error. -/
def SamePrograms (a b : SourceType) : Res PState PErr Program → Res PState PErr Program → Prop
  | .ok p _, .ok q _ => p.sourceType = a ∧ q = { p with sourceType := b }
  | .err e _, .err e' _ => e = e'
  | .panic w, .panic w' => w = w'
  | .oof, .oof => True
  | _, _ => False

theorem program_same {src : Str} (h : PlainSource src) (a b : SourceType) : SamePrograms a b (parse program src a) (parse program src b) := by
  have key := parse_agree (a := a) (b := b) (m := parts) parts_agree h
  have e : ∀ c, parse program src c = match parse parts src c with
      | .ok (x, y, z) t => .ok ⟨t.sourceType, x, y, z⟩ t
      | .err e t => .err e t
      | .panic w => .panic w
      | .oof => .oof := by
    intro c
    unfold parse
    cases start src c with
    | ok u s => exact program_parts _ _
    | _ => rfl
  rw [e, e]
  revert key
  cases parse parts src a <;> cases parse parts src b <;> intro key <;> try exact key.elim
  · obtain ⟨rfl, -, h⟩ := key
    exact ⟨h.fst, by rw [h.snd]⟩
  · exact key.1
  · exact key
  · trivial

end

end Fajt.Kind
