import Verif.Proofs.ParseRec
/-!
# Comma expressions, arguments, binding patterns
-/
namespace Fajt
open Spec
set_option linter.unusedSectionVars false
variable [UnicodeID] [Blame]

section
variable {F : Frame} {r : Rec} {s : PState} {ctx : Ctx}

theorem exprSequence_J (hr : RecOK F.src F.styp F.n r) {hs : List Token} {p : Cursor} {e : Expr} {st : Nat}
    (h : Hist F true hs s p) (hne : hs ≠ []) (hd : G F.src F.styp ctx (.expr 1 e) hs)
    (hst : st = posOf F.s0) (hv : valOf s = some (.punct p!",")) :
    J F (Parser.exprSequence r ctx st e) s fun e' s' => ∃ us p', Hist F true (hs ++ us) s' p' ∧
      G F.src F.styp ctx (.expr 0 e') (hs ++ us) := by
  unfold Parser.exprSequence
  refine J.bind (J.loop (fun acc hs' s' => ∃ ps us, hs' = hs ++ us ∧ acc = trees ps ∧
    (∀ p ∈ ps, G F.src F.styp ctx (.expr 1 p.1) p.2) ∧ Sep false ps hs' ∧ 
    (2 ≤ ps.length ∨ ps.length = 1 ∧ valOf s' = some (.punct p!","))) h ?_ hr.fuel ?_)
  · exact ⟨[(e, hs)], [], by simp, rfl, by simpa using hd, (Sep.item (ps := []) (ts := []) .nil), .inr ⟨rfl, hv⟩⟩
  · rintro acc hs' s' p' h' ⟨ps, us, h1, h2, h3, h4, h5⟩
    refine J.ifMaybe h' ?_ ?_
    · intro t s1 p1 ht hv1 _ h1'
      refine J.bind (Does.call (hr.assignExpr ctx) h1' (by jc) ?_)
      intro a ts s2 p2 ha hts _ h2'
      refine J.again h2' (by simp <;> omega) ?_
      refine ⟨ps ++ [(a, ts)], us ++ [t] ++ ts, by rw [h1]; simp, by rw [h2, trees_snoc],
        all_snoc (P := fun a ts => G F.src F.styp ctx (.expr 1 a) ts) h3 ha, .item (.comma h4 hv1), .inl ?_⟩
      have : 1 ≤ ps.length := by omega
      simp; omega
    · intro hv1
      refine J.done ?_
      jp
      refine J.pure ⟨us, p', h1 ▸ h', ?_⟩
      rw [← h1, h2, hst]
      refine D.comma h3 h4 ?_ (h'.spans ?_)
      · rcases h5 with h5 | ⟨_, h5⟩
        · exact h5
        · exact absurd h5 hv1
      · rw [h1]; simp [hne]

end

section
variable {src : Str} {styp : SourceType} {n : Nat} {r : Rec} (hr : RecOK src styp n r) (ctx : Ctx) (x : Option Ctx)
include hr

theorem expr_P : Parses src styp n 4 none (Parser.expr r ctx) ctx (.expr 0) := by
  intro s p hp
  unfold Parser.expr
  jp
  jd (hr.assignExpr ctx) at hp.start with e ts s' p' he hts hb h'
  rw [List.nil_append] at h'
  refine J.ifCur (fun hv => ?_) (fun hv => ?_)
  · refine (exprSequence_J (F := ⟨src, styp, n, 4, none, s, p⟩) hr h' hts he rfl hv).mono ?_
    rintro e' s'' ⟨us, p'', h'', hg⟩
    exact ⟨_, _, by simp [hts], h'', hg⟩
  · exact J.pure ⟨_, _, hts, h', he.weaken (by omega)⟩

theorem initializer_D : Does src styp n 0 x (Parser.initializer r ctx) fun e ts _ => G src styp ctx (.initializer (some e)) ts := by
  intro s p hp
  unfold Parser.initializer
  jb J.consumeAssert hp.start with t s1 p1 - hv - h1
  je (hr.assignExpr ctx) at h1 with e ts s2 p2 he - - h2
  exact ⟨_, _, by simp, h2, (D.initializer hv he).cast (by simp)⟩

end

/-- `(self.current_matches("=")).then_try(|| self.parse_initializer())`. -/
theorem J.initOpt {F : Frame} {r : Rec} (hr : RecOK F.src F.styp F.n r) {β : Type} {ctx : Ctx} {s : PState} {hs : List Token} {p : Cursor}
    (h : Hist F true hs s p) (hne : hs ≠ []) {f : Option Expr → P β} {Q : β → PState → Prop}
    (k : ∀ i us s' p', G F.src F.styp ctx (.initializer i) us → Hist F true (hs ++ us) s' p' → J F (f i) s' Q) :
    J F (Parser.curMatches (.punct p!"=") >>= fun b => Parser.thenTry b (Parser.initializer r ctx) >>= f) s Q := by
  refine J.bind (J.curMatches (fun hv => ?_) (fun hv => ?_))
  · refine J.bind (J.thenTry (fun _ => ?_) (fun hb => (nomatch hb)))
    refine Does.call (initializer_D hr ctx F.x) h (.inr ⟨hne, by omega⟩) ?_
    intro a ts s' p' ha _ _ h'
    exact k (some a) ts s' p' ha h'
  · refine J.bind (J.thenTry (fun hb => (nomatch hb)) (fun _ => ?_))
    exact k none [] s p .noInitializer (by simpa using h)

section
variable {src : Str} {styp : SourceType} {n : Nat} {r : Rec} (hr : RecOK src styp n r) (ctx : Ctx) (x : Option Ctx)
include hr

theorem propertyName_P : Parses src styp n 0 x (Parser.propertyName r ctx) ctx .propName := by
  intro s p hp
  unfold Parser.propertyName
  jb J.current hp.start with t ht
  split
  · next l hl =>
    jb J.consume hp.start with t' s1 p1 ht' - h1
    rw [ht] at ht'; cases ht'
    split
    · next hv => exact J.pure ⟨_, _, by simp, h1, .nameString hv⟩
    · next hv => exact J.pure ⟨_, _, by simp, h1, .nameNumber hv⟩
    · exact ErrPost.of h1.kept (h1.tokWF (by simp)) (fun _ => PErrKind.noConfusion)
  · next hv =>
    jb J.consume hp.start with t' s1 p1 ht' - h1
    rw [ht] at ht'; cases ht'
    jd (hr.assignExpr ctx) at h1 with e ts s2 p2 he - - h2
    jb J.consumeAssert h2 with rb s3 p3 - hrb - h3
    exact J.pure ⟨_, _, by simp, h3, (D.nameComputed hv he hrb).cast (by simp)⟩
  · refine J.bind (J.isIdentName ?_ ?_)
    · refine J.ite (fun _ => ?_) (fun h => absurd rfl h)
      jb J.parseIdentName hp.start with t' id s1 p1 - hid - h1
      exact J.pure ⟨_, _, by simp, h1, .nameIdent hid⟩
    · refine J.ite (fun h => (nomatch h)) (fun _ => ?_)
      exact J.consumeThrow hp.start (fun t => ⟨rfl, fun _ => PErrKind.noConfusion⟩)

/-! ## Arguments -/

theorem argument_P : Parses src styp n 4 none (Parser.argument r ctx) ctx .arg := by
  intro s p hp
  unfold Parser.argument
  refine J.ifMaybe hp.start ?_ ?_
  · intro t s1 p1 _ hv _ h1
    jd (hr.assignExpr ctx) at h1 with e ts s2 p2 he - - h2
    exact J.pure ⟨_, _, by simp, h2, (D.argSpread hv he).cast (by simp)⟩
  · intro _
    jd (hr.assignExpr ctx) at hp.start with e ts s2 p2 he hts - h2
    exact J.pure ⟨_, _, hts, h2, .argExpr he⟩

theorem arguments_D : Does src styp n 0 x (Parser.arguments r ctx) fun a ts _ => G src styp ctx (.args a.1 a.2) ts := by
  intro s p hp
  unfold Parser.arguments
  jp
  jb J.consumeAssert hp.start with lp s1 p1 - hlp - h1
  refine J.bind (J.loop (SepInv (fun a ts => G src styp { ctx with in_ := true } (.arg a) ts) (.punct p!")") [lp]) h1 SepInv.nil hr.fuel ?_)
  rintro acc hs s2 p2 h2 hi
  refine J.ifMaybe h2 ?_ ?_
  · intro rp s3 p3 _ hrp _ h3
    refine J.done ?_
    jp
    obtain ⟨b, ps, us, e1, e2, e3, e4, -⟩ := hi
    subst e1 e2
    exact J.pure ⟨_, _, by simp, h3, (D.args hlp e3 e4 hrp (by simpa using h3.spans (by simp))).cast (by simp)⟩
  · intro hv
    obtain ⟨_, _, us, e1, _⟩ := id hi
    jd (argument_P hr { ctx with in_ := true }) at h2 with a ts s3 p3 ha hts - h3
    exact J.listItem hi hv h3 hts ha

end


/-! ## Lists with holes -/

section
variable {F : Frame} {α β : Type} {s : PState}

/-- The items and holes of a list that were read after `pre`. -/
def HolesInv (P : α → List Token → Prop) (close : TokVal) (pre : List Token) (acc : List (Option (α × List Token)))
    (hs : List Token) (s : PState) : Prop :=
  ∃ b us, hs = pre ++ us ∧ (∀ p, some p ∈ acc → P p.1 p.2) ∧ SepHoles b acc us ∧ (b = true ∨ valOf s = some close)

theorem holes_snoc {P : α → List Token → Prop} {ps : List (Option (α × List Token))} {a : α} {us : List Token}
    (h : ∀ p, some p ∈ ps → P p.1 p.2) (ha : P a us) : ∀ p, some p ∈ ps ++ [some (a, us)] → P p.1 p.2 := by
  intro p hp
  rcases List.mem_append.1 hp with hp | hp
  · exact h p hp
  · have := List.mem_singleton.1 hp; cases this; exact ha

theorem holes_snoc' {P : α → List Token → Prop} {ps : List (Option (α × List Token))}
    (h : ∀ p, some p ∈ ps → P p.1 p.2) : ∀ p, some p ∈ ps ++ [none] → P p.1 p.2 := by
  intro p hp
  rcases List.mem_append.1 hp with hp | hp
  · exact h p hp
  · have := List.mem_singleton.1 hp; cases this

theorem HolesInv.open {P : α → List Token → Prop} {close : TokVal} {pre : List Token} {acc : List (Option (α × List Token))}
    {hs : List Token} (h : HolesInv P close pre acc hs s) (hv : valOf s ≠ some close) :
    ∃ us, hs = pre ++ us ∧ (∀ p, some p ∈ acc → P p.1 p.2) ∧ SepHoles true acc us := by
  obtain ⟨b, us, h1, h2, h3, h4⟩ := h
  rcases h4 with rfl | h4
  · exact ⟨us, h1, h2, h3⟩
  · exact absurd h4 hv

theorem HolesInv.hole {P : α → List Token → Prop} {close : TokVal} {pre : List Token} {acc : List (Option (α × List Token))}
    {hs : List Token} (h : HolesInv P close pre acc hs s) (hv : valOf s ≠ some close) {t : Token} (ht : t.value = .punct p!",")
    {s' : PState} : HolesInv P close pre (acc ++ [none]) (hs ++ [t]) s' := by
  obtain ⟨us, h1, h2, h3⟩ := h.open hv
  exact ⟨true, us ++ [t], by rw [h1]; simp, holes_snoc' h2, .hole h3 ht, .inl rfl⟩

/-- The end of an item: a comma or the closing token. -/
theorem J.holesItem {γ : Type} {P : α → List Token → Prop} {f : List (Option (α × List Token)) → γ} {close : TokVal}
    {pre hs us : List Token} {acc : List (Option (α × List Token))} {b : γ} {a : α} {p : Cursor}
    {s1 : PState} {Q : β → PState → Prop}
    (hi : HolesInv P close pre acc hs s1) (hv : valOf s1 ≠ some close) (h : Hist F true (hs ++ us) s p) (hne : us ≠ [])
    (ha : P a us) (hb : b = f (acc ++ [some (a, us)])) :
    J F (Parser.consumeListDelimiter close >>= fun _ => Pure.pure (.inl b)) s
      (LoopPost F hs (fun b hs s => ∃ acc, b = f acc ∧ HolesInv P close pre acc hs s) Q) := by
  obtain ⟨vs, h1, h3, h4⟩ := hi.open hv
  have hl : 0 < us.length := List.length_pos_iff.2 hne
  refine J.bind (J.consumeListDelimiter h ?_ ?_)
  · intro t s' p' ht h'
    exact J.again h' (by simp <;> omega) ⟨_, hb, true, (vs ++ us) ++ [t], by rw [h1]; simp, holes_snoc h3 ha, .comma (.item h4) ht, .inl rfl⟩
  · intro hc
    exact J.again h (by simp <;> omega) ⟨_, hb, false, vs ++ us, by rw [h1]; simp, holes_snoc h3 ha, .item h4, .inr hc⟩

end

theorem valOf_ne {s : PState} {t : Token} {v : TokVal} (h : s.cur = .ok t) (hv : ¬ t.value = v) : valOf s ≠ some v := by
  rw [valOf_ok h]; simpa using hv

/-! ## Binding patterns -/

section
variable {src : Str} {styp : SourceType} {n : Nat} {r : Rec} (hr : RecOK src styp n r) (ctx : Ctx) (x : Option Ctx)
include hr

theorem singleNameBinding_P : Parses src styp n 0 x (Parser.singleNameBinding r ctx) ctx .bindingProp := by
  intro s p hp
  unfold Parser.singleNameBinding
  jp
  jb J.parseIdent hp.start with t id s1 p1 - hid - h1
  refine J.initOpt hr h1 (by simp) ?_
  intro i us s2 p2 hi h2
  jp
  exact J.pure ⟨_, _, by simp, h2, (D.bindingSingle hid hi (by simpa using h2.spans (by simp))).cast (by simp)⟩

theorem bindingElement_P : Parses src styp n 1 x (Parser.bindingElement r ctx) ctx .bindingElement := by
  intro s p hp
  unfold Parser.bindingElement
  jp
  jd (hr.bindingPattern ctx x) at hp.start with b ts s1 p1 hb hts - h1
  refine J.initOpt hr h1 (by simp [hts]) ?_
  intro i us s2 p2 hi h2
  jp
  exact J.pure ⟨_, _, by simp [hts], h2, (D.bindingElement hb hi (by simpa using h2.spans (by simp [hts]))).cast (by simp)⟩

theorem namedBinding_P : Parses src styp n 0 x (Parser.namedBinding r ctx) ctx .bindingProp := by
  intro s p hp
  unfold Parser.namedBinding
  jp
  jd (propertyName_P hr ctx x) at hp.start with nm ts s1 p1 hn hts - h1
  jb J.consumeAssert h1 with c s2 p2 - hc - h2
  jd (bindingElement_P hr ctx none) at h2 with b us s3 p3 hb - - h3
  jp
  exact J.pure ⟨_, _, by simp, h3, (D.bindingNamed hn hc hb (by simpa using h3.spans (by simp))).cast (by simp)⟩

theorem bindingRestElement_D : Does src styp n 0 x (Parser.bindingRestElement r ctx) fun b ts _ =>
    ∃ d us, ts = d :: us ∧ d.value = .punct p!"..." ∧ G src styp ctx (.binding b) us := by
  intro s p hp
  unfold Parser.bindingRestElement
  jb J.consumeAssert hp.start with d s1 p1 - hd - h1
  je (hr.bindingPattern ctx none) at h1 with b us s2 p2 hb - - h2
  exact ⟨_, _, by simp, h2, _, _, by simp, hd, hb⟩

theorem restBindingIdent_D (close : Punct) : Does src styp n 0 x (Parser.restBindingIdent r ctx close) fun b ts _ =>
    ∃ d us rb, ts = d :: us ++ [rb] ∧ d.value = .punct p!"..." ∧ G src styp ctx (.binding b) us ∧ rb.value = .punct close := by
  intro s p hp
  unfold Parser.restBindingIdent
  jb J.consumeAssert hp.start with d s1 p1 - hd - h1
  jd (hr.bindingPattern ctx none) at h1 with b us s2 p2 hb hus - h2
  jb J.consume h2 with rb s3 p3 - - h3
  refine J.ite (fun hv => ?_) (fun hv => ?_)
  · exact J.pure ⟨_, _, by simp, h3, _, _, _, by simp, hd, hb, hv⟩
  · refine ErrPost.of h3.kept ?_ (fun _ => PErrKind.noConfusion)
    obtain ⟨a, z, e1, e2, e3⟩ := hb.nodeSpan _ rfl
    have hsp : Spans ⟨d.span.start, b.span.stop⟩ (d :: us) :=
      ⟨d, z, rfl, by rw [List.getLast?_cons_of_ne_nil hus, e2], by rw [e3]⟩
    have h2' : Hist ⟨src, styp, n, 0, x, s, p⟩ true ([] ++ (d :: us)) s2 p2 := by simpa using h2
    exact h2'.spansWF hsp

theorem objectBindingPattern_P : Parses src styp n 0 x (Parser.objectBindingPattern r ctx) ctx .binding := by
  intro s p hp
  unfold Parser.objectBindingPattern
  jp
  jb J.consumeAssert hp.start with lb s1 p1 - hlb - h1
  refine J.bind (J.loop (SepInv (fun a ts => G src styp ctx (.bindingProp a) ts) (.punct p!"}") [lb]) h1 SepInv.nil hr.fuel ?_)
  rintro acc hs s2 p2 h2 hi
  obtain ⟨_, _, us, e1, _⟩ := id hi
  jb J.current h2 with t ht
  refine J.ite (fun hv => ?_) (fun hv => ?_)
  · jb J.consume h2 with rb s3 p3 hrb - h3
    rw [ht] at hrb; cases hrb
    refine J.done ?_
    dsimp only
    jp
    obtain ⟨b, ps, us, e1, e2, e3, e4, -⟩ := hi
    subst e1 e2
    exact J.pure ⟨_, _, by simp, h3, (D.bindingObject hlb e3 e4 hv (by simpa using h3.spans (by simp))).cast (by simp)⟩
  · refine J.ite (fun hd => ?_) (fun hd => ?_)
    · jd (restBindingIdent_D hr ctx none p!"}") at h2 with rest vs s3 p3 ⟨d, us', rb, e5, hd', hus, hrb⟩ - - h3
      refine J.done ?_
      dsimp only
      jp
      obtain ⟨ps, us, e1, e2, e3, e4⟩ := hi.open (valOf_ne ht hv)
      subst e1 e2 e5
      exact J.pure ⟨_, _, by simp, h3, (D.bindingObjectRest hlb e3 e4 hd' hus hrb (by simpa using h3.spans (by simp))).cast (by simp)⟩
    · refine J.bind (J.peekMatches (fun _ => ?_) (fun _ => ?_))
      all_goals
      refine J.ite (fun _ => ?_) (fun _ => ?_)
      · jd (namedBinding_P hr ctx none) at h2 with a ts s3 p3 ha hts - h3
        exact J.listItem hi (valOf_ne ht hv) h3 hts ha
      · jd (singleNameBinding_P hr ctx none) at h2 with a ts s3 p3 ha hts - h3
        exact J.listItem hi (valOf_ne ht hv) h3 hts ha

theorem arrayBindingPattern_P : Parses src styp n 0 x (Parser.arrayBindingPattern r ctx) ctx .binding := by
  intro s p hp
  unfold Parser.arrayBindingPattern
  jp
  jb J.consumeAssert hp.start with lb s1 p1 - hlb - h1
  refine J.bind (J.loop (fun b hs s => ∃ acc, b = acc.map (Option.map (·.1)) ∧
    HolesInv (fun a ts => G src styp ctx (.bindingElement a) ts) (.punct p!"]") [lb] acc hs s) h1
    ⟨[], rfl, true, [], by simp, by simp, .nil, .inl rfl⟩ hr.fuel ?_)
  rintro _ hs s2 p2 h2 ⟨acc, rfl, hi⟩
  obtain ⟨_, us, e1, _⟩ := id hi
  jb J.current h2 with t ht
  refine J.ite (fun hv => ?_) (fun hv => ?_)
  · jb J.consume h2 with rb s3 p3 hrb - h3
    rw [ht] at hrb; cases hrb
    refine J.done ?_
    dsimp only
    jp
    obtain ⟨b, us, e1, e3, e4, -⟩ := hi
    subst e1
    exact J.pure ⟨_, _, by simp, h3, (D.bindingArray hlb e3 e4 hv (by simpa using h3.spans (by simp))).cast (by simp)⟩
  refine J.ite (fun hd => ?_) (fun hd => ?_)
  · jb J.consume h2 with t' s3 p3 ht' - h3
    rw [ht] at ht'; cases ht'
    exact J.againSnoc h3 (by simp) ⟨_, by simp, hi.hole (valOf_ne ht hv) hd⟩
  refine J.ite (fun hd => ?_) (fun hd => ?_)
  · jd (restBindingIdent_D hr ctx none p!"]") at h2 with rest vs s3 p3 ⟨d, us', rb, e5, hd', hus, hrb⟩ - - h3
    refine J.done ?_
    dsimp only
    jp
    obtain ⟨us, e1, e3, e4⟩ := hi.open (valOf_ne ht hv)
    subst e1 e5
    exact J.pure ⟨_, _, by simp, h3, (D.bindingArrayRest hlb e3 e4 hd' hus hrb (by simpa using h3.spans (by simp))).cast (by simp)⟩
  refine J.bind (J.mono (Q := fun _ s' => s' = s2) ?_ ?_)
  · unfold Parser.isBindingElement
    jb J.current h2 with t ht
    exact J.ite (fun _ => J.pure rfl) (fun _ => J.isIdent rfl)
  · rintro b s' rfl
    refine J.ite (fun _ => ?_) (fun _ => ?_)
    · jd (bindingElement_P hr ctx none) at h2 with a ts s3 p3 ha hts - h3
      exact J.holesItem hi (valOf_ne ht hv) h3 hts ha (by simp)
    · exact J.consumeThrow h2 (fun t => ⟨rfl, fun _ => PErrKind.noConfusion⟩)

theorem bindingPattern_P : Parses src styp n 0 x (Parser.bindingPattern r ctx) ctx .binding := by
  intro s p hp
  unfold Parser.bindingPattern
  jb J.current hp.start with t ht
  refine J.ite (fun _ => ?_) (fun _ => ?_)
  · exact objectBindingPattern_P hr ctx x s p hp
  refine J.ite (fun _ => ?_) (fun _ => ?_)
  · exact arrayBindingPattern_P hr ctx x s p hp
  jb J.parseIdent hp.start with t id s1 p1 - hid - h1
  exact J.pure ⟨_, _, by simp, h1, .bindingIdent hid⟩

theorem formalParameters_P : Parses src styp n 0 x (Parser.formalParameters r ctx) ctx .params := by
  intro s p hp
  unfold Parser.formalParameters
  jp
  jb J.consumeAssert hp.start with lp s1 p1 - hlp - h1
  refine J.bind (J.loop (SepInv (fun a ts => G src styp ctx (.bindingElement a) ts) (.punct p!")") [lp]) h1 SepInv.nil hr.fuel ?_)
  rintro acc hs s2 p2 h2 hi
  obtain ⟨_, _, us, e1, _⟩ := id hi
  jb J.current h2 with t ht
  refine J.ite (fun hv => ?_) (fun hv => ?_)
  · jb J.consume h2 with rp s3 p3 hrp - h3
    rw [ht] at hrp; cases hrp
    refine J.done ?_
    dsimp only
    jp
    obtain ⟨b, ps, us, e1, e2, e3, e4, -⟩ := hi
    subst e1 e2
    exact J.pure ⟨_, _, by simp, h3, (D.params hlp e3 e4 hv (by simpa using h3.spans (by simp))).cast (by simp)⟩
  refine J.ite (fun hd => ?_) (fun hd => ?_)
  · jd (bindingRestElement_D hr ctx none) at h2 with rest vs s3 p3 ⟨d, us', e5, hd', hus⟩ - - h3
    jb J.consumeAssert h3 with rp s4 p4 - hrp - h4
    refine J.done ?_
    dsimp only
    jp
    obtain ⟨ps, us, e1, e2, e3, e4⟩ := hi.open (valOf_ne ht hv)
    subst e1 e2 e5
    exact J.pure ⟨_, _, by simp, h4, (D.paramsRest hlp e3 e4 hd' hus hrp (by simpa using h4.spans (by simp))).cast (by simp)⟩
  · jd (bindingElement_P hr ctx none) at h2 with a ts s3 p3 ha hts - h3
    exact J.listItem hi (valOf_ne ht hv) h3 hts ha

end

end Fajt
