import Verif.Proofs.LexName
/-!
# `Lexer::read` meets the lexical grammar
-/
namespace Fajt
open Spec Lexer
set_option linter.unusedSectionVars false
variable [UnicodeID]

/-! ## Punctuators -/

/-- The characters by which some longer punctuator continues `p`. -/
def nextChars (p : Punct) : List Char :=
  Punct.all.filterMap fun q => if p.asStr.isPrefixOf q.asStr then (q.asStr.drop p.asStr.length).head? else none

theorem Punct.all_complete (p : Punct) : p ∈ Punct.all := by cases p <;> decide

theorem nextChars_spec {p q : Punct} {rest : Str} (hl : p.asStr.length < q.asStr.length)
    (hq : q.asStr <+: p.asStr ++ rest) : ∃ c ∈ rest.head?, c ∈ nextChars p := by
  have hp : p.asStr <+: q.asStr :=
    List.prefix_of_prefix_length_le (List.prefix_append p.asStr rest) hq (Nat.le_of_lt hl)
  obtain ⟨x, hx⟩ := hp
  rw [← hx] at hq hl
  rw [List.prefix_append_right_inj] at hq
  cases x with
  | nil => simp at hl
  | cons c x =>
    obtain ⟨z, rfl⟩ := hq
    refine ⟨c, by simp, ?_⟩
    unfold nextChars
    rw [List.mem_filterMap]
    refine ⟨q, q.all_complete, ?_⟩
    rw [if_pos (by rw [← hx]; simp), ← hx]
    simp

theorem punctText {p : Punct} {rest : Str} (h : ∀ c ∈ rest.head?, c ∉ nextChars p) (hc : p ≠ p!"?.")
    (hd : p = p!"." → NotHead Char.isDigit rest) : PunctText p rest := by
  refine ⟨?_, fun h => absurd h hc, ?_⟩
  · intro q hl hq
    obtain ⟨c, h1, h2⟩ := nextChars_spec hl hq
    exact absurd h2 (h c h1)
  · rintro rfl c hcr
    have h1 := h c hcr
    have h2 := hd rfl c hcr
    rw [show nextChars p!"." = ['.'] by decide] at h1
    simp only [List.mem_singleton] at h1
    simp [h1, h2]

theorem LS_produce1 {s : Cursor} {c : Char} {r u : Str} {p : Punct} {regex : Bool} (h : s.rest = c :: r)
    (hp : p.asStr = u ++ [c]) (hn : ∀ d ∈ r.head?, d ∉ nextChars p) (hc : p ≠ p!"?.")
    (hd : p = p!"." → NotHead Char.isDigit r) (hr : regex = true → p.asStr.head? ≠ some '/') :
    LS (produce1 p) s (fun v w s' => Lexeme regex v (u ++ w) s'.rest ∧ s'.fol = s.fol) := by
  unfold produce1
  refine LS.bind (LS_consume_of h) ?_
  rintro _ _ s1 he1 ⟨rfl, rfl, h1, hf1⟩
  refine LS.pure ⟨?_, hf1⟩
  rw [List.append_nil, ← hp, h1]
  exact .punct (punctText hn hc hd) hr

theorem LS_produce2 {s : Cursor} {c d : Char} {r u : Str} {p : Punct} {regex : Bool} (h : s.rest = c :: d :: r)
    (hp : p.asStr = u ++ [c, d]) (hn : nextChars p = []) (hc : p ≠ p!"?.")
    (hd : p ≠ p!".") (hr : regex = true → p.asStr.head? ≠ some '/') :
    LS (produce2 p) s (fun v w s' => Lexeme regex v (u ++ w) s'.rest ∧ s'.fol = s.fol) := by
  unfold produce2
  refine LS.bind (LS_consume_of h) ?_
  rintro _ _ s1 he1 ⟨rfl, rfl, h1, hf1⟩
  refine LS.bind (LS_consume_of h1) ?_
  rintro _ _ s2 he2 ⟨rfl, rfl, h2, hf2⟩
  refine LS.pure ⟨?_, by rw [hf2, hf1]⟩
  rw [List.append_nil, List.singleton_append, ← hp, h2]
  exact .punct (punctText (by simp [hn]) hc (fun h => absurd h hd)) hr

theorem LS_producePeek {s : Cursor} {c e : Char} {r u : Str} {p q : Punct} {regex : Bool} (h : s.rest = c :: r)
    (hp : p.asStr = u ++ [c, e]) (hq : q.asStr = u ++ [c]) (hn : nextChars p = [])
    (hn' : ∀ d ∈ r.head?, d ≠ e → d ∉ nextChars q) (hc : p ≠ p!"?." ∧ q ≠ p!"?.")
    (hd : p ≠ p!"." ∧ q ≠ p!".") (hr : regex = true → p.asStr.head? ≠ some '/' ∧ q.asStr.head? ≠ some '/') :
    LS (producePeek e p q) s (fun v w s' => Lexeme regex v (u ++ w) s'.rest ∧ s'.fol = s.fol) := by
  unfold producePeek
  refine LS_peek ?_
  refine LS.ite (fun he => ?_) (fun he => ?_)
  · rw [h] at he
    obtain ⟨r', hr'⟩ := head?_eq_some he
    simp only [List.tail_cons] at hr'
    subst hr'
    exact LS_produce2 h hp hn hc.1 hd.1 (fun h => (hr h).1)
  · rw [h] at he
    simp only [List.tail_cons] at he
    refine LS_produce1 h hq ?_ hc.2 (fun h => absurd h hd.2) (fun h => (hr h).2)
    intro d hd'
    refine hn' d hd' ?_
    rintro rfl; exact he hd'

theorem LS_readValue {s : Cursor} {st : LexState}  :
    LS (readValue st s.pos) s (fun v w s' => Lexeme st.regex v w s'.rest ∧ s'.fol = s.fol) := by
  refine LS.withPos fun hp => ?_
  unfold readValue
  refine LS.bind LS_current ?_
  rintro c _ s0 - ⟨rfl, hs0, r, hr⟩
  subst s0
  refine LS_peek ?_
  rw [hr, List.tail_cons]
  simp only [List.nil_append]
  unfold readArms2
  have nr : ¬ (c = '/' ∧ st.regex = true) → c = '/' → st.regex = true → False := fun h h1 h2 => h ⟨h1, h2⟩
  refine LS.ite (fun h1 => ?_) fun h1 => LS.ite (fun h2 => ?_) fun h2 => LS.ite (fun h3 => ?_) fun h3 =>
    LS.ite (fun h4 => ?_) fun h4 => LS.ite (fun h5 => ?_) fun h5 => ?_
  · obtain ⟨rfl, hre⟩ := h1
    refine (LS_readRegexpLiteral hr).mono ?_
    rintro v w s' - ⟨rfl, ⟨u, fl, rfl, h1, h2, h3⟩, hf⟩
    exact ⟨.regexp hre h1 h2 h3, hf⟩
  · obtain ⟨hpk, hmem⟩ := h2
    obtain ⟨r', rfl⟩ := head?_eq_some hpk
    split
    · exact LS_produce2 (u := []) hr rfl (by decide) (by decide) (by decide) (fun h => absurd ⟨rfl, h⟩ h1)
    all_goals try exact LS_produce2 (u := []) hr rfl (by decide) (by decide) (by decide) (fun _ => by decide)
    have hc : c = '=' := by
      simp only [List.mem_cons, List.not_mem_nil, or_false] at hmem
      rcases hmem with h | h | h | h | h | h | h | h | h | h | h
      all_goals first | exact h | (subst h; contradiction)
    subst hc
    refine LS.bind (LS_consume_of hr) ?_
    rintro _ _ s1 he1 ⟨rfl, rfl, h1, hf1⟩
    refine (LS_producePeek (u := ['=']) (regex := st.regex) h1 rfl rfl (by decide) ?_ (by decide) (by decide)
      (fun _ => by decide)).mono ?_
    · intro d _ hd
      rw [show nextChars p!"==" = ['='] by decide]; simpa using hd
    · rintro v w s' - ⟨h, hf⟩; exact ⟨h, by rw [hf, hf1]⟩
  · obtain ⟨rfl, hpk⟩ := h3
    obtain ⟨r', rfl⟩ := head?_eq_some hpk
    refine LS.bind (LS_consume_of hr) ?_
    rintro _ _ s1 he1 ⟨rfl, rfl, h1, hf1⟩
    refine (LS_producePeek (u := ['<']) (regex := st.regex) h1 rfl rfl (by decide) ?_ (by decide) (by decide)
      (fun _ => by decide)).mono ?_
    · intro d _ hd
      rw [show nextChars p!"<<" = ['='] by decide]; simpa using hd
    · rintro v w s' - ⟨h, hf⟩; exact ⟨h, by rw [hf, hf1]⟩
  · obtain ⟨rfl, hpk⟩ := h4
    obtain ⟨r', rfl⟩ := head?_eq_some hpk
    refine LS.bind (LS_consume_of hr) ?_
    rintro _ _ s1 he1 ⟨rfl, rfl, h1, hf1⟩
    refine LS_peek ?_
    rw [h1, List.tail_cons]
    split
    · rename_i heq
      obtain ⟨r2, rfl⟩ := head?_eq_some heq
      refine LS.bind (LS_consume_of h1) ?_
      rintro _ _ s2 he2 ⟨rfl, rfl, h2, hf2⟩
      refine (LS_producePeek (u := ['>', '>']) (regex := st.regex) h2 rfl rfl (by decide) ?_ (by decide) (by decide)
        (fun _ => by decide)).mono ?_
      · intro d _ hd
        rw [show nextChars p!">>>" = ['='] by decide]; simpa using hd
      · rintro v w s' - ⟨h, hf⟩; exact ⟨h, by rw [hf, hf2, hf1]⟩
    · rename_i heq
      obtain ⟨r2, rfl⟩ := head?_eq_some heq
      refine (LS_produce2 (u := ['>']) (regex := st.regex) h1 rfl (by decide) (by decide) (by decide)
        (fun _ => by decide)).mono ?_
      rintro v w s' - ⟨h, hf⟩; exact ⟨h, by rw [hf, hf1]⟩
    · rename_i hne1 hne2
      refine (LS_produce1 (u := ['>']) (regex := st.regex) h1 rfl ?_ (by decide) (by simp) (fun _ => by decide)).mono ?_
      · intro d hd
        have : d ≠ '>' := by rintro rfl; exact hne1 hd
        have : d ≠ '=' := by rintro rfl; exact hne2 hd
        intro hm
        have hm : d ∈ ['=', '>', '>'] := by
          have hs : nextChars p!">>" ⊆ ['=', '>', '>'] := by decide
          exact hs hm
        simp_all
      · rintro v w s' - ⟨h, hf⟩; exact ⟨h, by rw [hf, hf1]⟩
  · obtain ⟨rfl, hpk⟩ := h5
    obtain ⟨r', rfl⟩ := head?_eq_some hpk
    refine LS.bind (LS_consume_of hr) ?_
    rintro _ _ s1 he1 ⟨rfl, rfl, h1, hf1⟩
    refine (LS_producePeek (u := ['!']) (regex := st.regex) h1 rfl rfl (by decide) ?_ (by decide) (by decide)
      (fun _ => by decide)).mono ?_
    · intro d _ hd
      rw [show nextChars p!"!=" = ['='] by decide]; simpa using hd
    · rintro v w s' - ⟨h, hf⟩; exact ⟨h, by rw [hf, hf1]⟩
  · have hsub : ∀ (p : Punct) (l : List Char), (nextChars p).all (l.contains ·) = true →
        ∀ d, d ∉ l → d ∉ nextChars p := by
      intro p l h1 d h2 hm
      have := List.all_eq_true.1 h1 d hm
      exact h2 (by simpa using this)
    have n2 : c ∈ ['/', '*', '%', '+', '-', '|', '^', '&', '<', '>', '='] → ∀ d ∈ r.head?, d ≠ '=' := by
      rintro hc d hd rfl; exact h2 ⟨hd, hc⟩
    have n3 : c = '<' → ∀ d ∈ r.head?, d ≠ '<' := by rintro hc d hd rfl; exact h3 ⟨hc, hd⟩
    have n4 : c = '>' → ∀ d ∈ r.head?, d ≠ '>' := by rintro hc d hd rfl; exact h4 ⟨hc, hd⟩
    have n5 : c = '!' → ∀ d ∈ r.head?, d ≠ '=' := by rintro hc d hd rfl; exact h5 ⟨hc, hd⟩
    clear h2 h3 h4 h5
    unfold readArms
    split
    -- `=`
    · exact LS_producePeek (u := []) hr rfl rfl (by decide) (fun d hd hne => hsub _ ['=', '>'] (by decide) d
        (by simp [hne, n2 (by decide) d hd])) (by decide) (by decide) (fun _ => by decide)
    -- `<`
    · exact LS_produce1 (u := []) hr rfl (fun d hd => hsub _ ['=', '<'] (by decide) d
        (by simp [n2 (by decide) d hd, n3 rfl d hd])) (by decide) (by simp) (fun _ => by decide)
    -- `>`
    · exact LS_produce1 (u := []) hr rfl (fun d hd => hsub _ ['=', '>'] (by decide) d
        (by simp [n2 (by decide) d hd, n4 rfl d hd])) (by decide) (by simp) (fun _ => by decide)
    -- `^`, `%`
    iterate 2 exact LS_produce1 (u := []) hr rfl (fun d hd => hsub _ ['='] (by decide) d
        (by simp [n2 (by decide) d hd])) (by decide) (by simp) (fun _ => by decide)
    -- `;` `{` `}` `,` `[` `]` `(` `)` `~` `:`
    iterate 10 exact LS_produce1 (u := []) hr rfl (fun d hd => hsub _ [] (by decide) d
        (by simp)) (by decide) (by simp) (fun _ => by decide)
    -- `!`
    · exact LS_produce1 (u := []) hr rfl (fun d hd => hsub _ ['='] (by decide) d
        (by simp [n5 rfl d hd])) (by decide) (by simp) (fun _ => by decide)
    -- `&`, `|`, `+`, `-`
    · exact LS_producePeek (u := []) hr rfl rfl (by decide) (fun d hd hne => hsub _ ['=', '&'] (by decide) d
        (by simp [hne, n2 (by decide) d hd])) (by decide) (by decide) (fun _ => by decide)
    · exact LS_producePeek (u := []) hr rfl rfl (by decide) (fun d hd hne => hsub _ ['=', '|'] (by decide) d
        (by simp [hne, n2 (by decide) d hd])) (by decide) (by decide) (fun _ => by decide)
    · exact LS_producePeek (u := []) hr rfl rfl (by decide) (fun d hd hne => hsub _ ['=', '+'] (by decide) d
        (by simp [hne, n2 (by decide) d hd])) (by decide) (by decide) (fun _ => by decide)
    · exact LS_producePeek (u := []) hr rfl rfl (by decide) (fun d hd hne => hsub _ ['=', '-'] (by decide) d
        (by simp [hne, n2 (by decide) d hd])) (by decide) (by decide) (fun _ => by decide)
    -- `?`
    · refine LS.bind (LS_consume_of hr) ?_
      rintro _ _ s1 he1 ⟨rfl, rfl, h1, hf1⟩
      refine LS_cur (LS_peek ?_)
      rw [h1]
      refine LS.ite (fun h2 => ?_) fun h2 => LS.ite (fun h3 => ?_) fun h3 => ?_
      · obtain ⟨hdot, hdig⟩ := h2
        obtain ⟨r', rfl⟩ := head?_eq_some hdot
        refine LS.bind (LS_consume_of h1) ?_
        rintro _ _ s2 he2 ⟨rfl, rfl, h2, hf2⟩
        refine LS.pure ⟨?_, by rw [hf2, hf1]⟩
        refine Lexeme.punct (p := p!"?.") ⟨?_, ?_, by simp⟩ (fun _ => by decide)
        · intro q hl hq
          obtain ⟨c, h1, h2⟩ := nextChars_spec hl hq
          rw [show nextChars p!"?." = [] by decide] at h2
          cases h2
        · intro _ d hd
          rw [h2] at hd
          simp only [List.tail_cons, Option.mem_def.1 hd, Option.any_some] at hdig
          simpa using hdig
      · obtain ⟨r', rfl⟩ := head?_eq_some h3
        refine LS.bind (LS_consume_of h1) ?_
        rintro _ _ s2 he2 ⟨rfl, rfl, h2, hf2⟩
        refine LS.pure ⟨?_, by rw [hf2, hf1]⟩
        refine Lexeme.punct (p := p!"??") (punctText ?_ (by decide) (by simp)) (fun _ => by decide)
        intro d _; rw [show nextChars p!"??" = [] by decide]; simp
      · refine LS.pure ⟨?_, by rw [hf1]⟩
        rw [h1]
        refine Lexeme.punct (p := p!"?") ⟨?_, by simp, by simp⟩ (fun _ => by decide)
        intro q hl hq
        refine ⟨rfl, ?_⟩
        have hq' := hq
        have hlen : ∀ q : Punct, p!"?".asStr <+: q.asStr → p!"?".asStr.length < q.asStr.length → q = p!"?." ∨ q = p!"??" := by
          intro q; cases q <;> decide
        have hpre : p!"?".asStr <+: q.asStr :=
          List.prefix_of_prefix_length_le (List.prefix_append _ r) hq (Nat.le_of_lt hl)
        rcases hlen q hpre hl with rfl | rfl
        · refine ⟨rfl, ?_⟩
          obtain ⟨z, hz⟩ := hq
          have hz : r = '.' :: z := by
            have : ['?', '.'] ++ z = '?' :: r := hz
            simpa using this.symm
          subst hz
          simp only [List.head?_cons, true_and, List.tail_cons] at h2
          cases z with
          | nil => simp at h2
          | cons d z => exact ⟨d, z, rfl, by simpa using h2⟩
        · obtain ⟨z, hz⟩ := hq
          have hz : r = '?' :: z := by
            have : ['?', '?'] ++ z = '?' :: r := hz
            simpa using this.symm
          subst hz
          simp at h3
    -- `*`
    · refine LS.ite (fun hst => ?_) (fun hst => ?_)
      · obtain ⟨r', rfl⟩ := head?_eq_some hst
        refine LS.bind (LS_consume_of hr) ?_
        rintro _ _ s1 he1 ⟨rfl, rfl, h1, hf1⟩
        refine (LS_producePeek (u := ['*']) (regex := st.regex) h1 rfl rfl (by decide) ?_ (by decide) (by decide)
          (fun _ => by decide)).mono ?_
        · intro d _ hd
          rw [show nextChars p!"**" = ['='] by decide]; simpa using hd
        · rintro v w s' - ⟨h, hf⟩; exact ⟨h, by rw [hf, hf1]⟩
      · refine LS_produce1 (u := []) hr rfl (fun d hd => hsub _ ['=', '*'] (by decide) d
          ?_) (by decide) (by simp) (fun _ => by decide)
        have : d ≠ '*' := by rintro rfl; exact hst hd
        simp [n2 (by decide) d hd, this]
    -- `.`
    · refine LS.ite (fun hdd => ?_) fun hdd => LS.ite (fun hdig => ?_) fun hdig => ?_
      · obtain ⟨r', rfl⟩ := head?_eq_some hdd
        refine LS.bind (LS_consume_of hr) ?_
        rintro _ _ s1 he1 ⟨rfl, rfl, h1, hf1⟩
        refine LS_peek ?_
        rw [h1, List.tail_cons]
        refine LS.ite (fun h3 => ?_) (fun h3 => ?_)
        · obtain ⟨r2, rfl⟩ := head?_eq_some h3
          refine (LS_produce2 (u := ['.']) (regex := st.regex) h1 rfl (by decide) (by decide) (by decide)
            (fun _ => by decide)).mono ?_
          rintro v w s' - ⟨h, hf⟩; exact ⟨h, by rw [hf, hf1]⟩
        · refine LS_position (LS.gets (LS.throw fun hp1 => ⟨by simp, ?_, ?_⟩))
          · exact he1.pos_mono hp
          · simp; omega
      · refine (LS_readNumberLiteral (.inr ?_)).mono ?_
        · cases r with
          | nil => simp at hdig
          | cons d r => exact ⟨d, r, hr, by simpa using hdig⟩
        · rintro v w s' - ⟨rfl, h1, h2, -, hf⟩
          exact ⟨.number h1 h2, hf⟩
      · refine LS_produce1 (u := []) hr rfl (fun d hd => hsub _ ['.'] (by decide) d
          ?_) (by decide) ?_ (fun _ => by decide)
        · have : d ≠ '.' := by rintro rfl; exact hdd hd
          simp [this]
        · intro _ d hd
          rw [Option.mem_def.1 hd] at hdig
          simpa using hdig
    -- `/`
    · refine LS_produce1 (u := []) hr rfl (fun d hd => hsub _ ['='] (by decide) d
          (by simp [n2 (by decide) d hd])) (by decide) (by simp) (fun h => absurd ⟨rfl, h⟩ h1)
    -- strings, templates, names
    · refine (LS_readStringLiteral hr (.inl rfl)).mono ?_
      rintro v w s' - ⟨u, x, rfl, rfl, hb, hf⟩
      exact ⟨.string (.inl rfl) hb, hf⟩
    · refine (LS_readStringLiteral hr (.inr rfl)).mono ?_
      rintro v w s' - ⟨u, x, rfl, rfl, hb, hf⟩
      exact ⟨.string (.inr rfl) hb, hf⟩
    · exact LS_readTemplateLiteralHead hr _
    · exact LS_readIdentifierOrKeyword ⟨_, _, hr, .inr rfl⟩ _
    · refine LS.ite (fun hdig => ?_) fun hdig => LS.ite (fun hid => ?_) fun hid => ?_
      · refine (LS_readNumberLiteral (.inl ⟨_, _, hr, hdig⟩)).mono ?_
        rintro v w s' - ⟨rfl, h1, h2, -, hf⟩
        exact ⟨.number h1 h2, hf⟩
      · exact LS_readIdentifierOrKeyword ⟨_, _, hr, .inl hid⟩ _
      · refine LS.bind (LS_consume_of hr) ?_
        rintro d _ s1 he1 ⟨hd, rfl, h1, hf1⟩
        subst d
        refine LS.throw fun hp1 => ⟨by simp, by simp, ?_⟩
        have := he1.off
        simp at this
        simp; omega

/-! ## Reading a token -/

theorem Spec.NameText.ne_nil {w n rest : Str} (h : NameText w n rest) : w ≠ [] := by
  obtain ⟨hs, ⟨⟨c, r, rfl, -⟩, -⟩, -⟩ := h
  cases hs with
  | plain _ => simp
  | escape he _ => intro h; have := he.ne_nil; simp_all

theorem Spec.NumberText.ne_nil {w rest : Str} (h : NumberText w rest) : w ≠ [] := by
  cases h with
  | hex => simp
  | oct => simp
  | bin => simp
  | dec _ _ _ _ h _ =>
    rcases h with ⟨c, r, h, -⟩ | ⟨c, r, h, -⟩ <;> simp [h]

theorem Punct.asStr_ne_nil (p : Punct) : p.asStr ≠ [] := by cases p <;> decide

theorem Spec.Lexeme.ne_nil {regex : Bool} {v : TokVal} {w rest : Str} (h : Lexeme regex v w rest) : w ≠ [] := by
  cases h with
  | punct => exact Punct.asStr_ne_nil _
  | keyword h => exact h.ne_nil
  | ident h => exact h.ne_nil
  | number h => exact h.ne_nil
  | string => simp
  | regexp => simp
  | template => simp
  | templateHead => simp

theorem LS.run {α : Type} {m : L α} {s : Cursor} {Q : α → Str → Cursor → Prop} (h : LS m s Q) (hp : s.pos ≤ s.off) :
    (∃ a w s', m s = .ok a s' ∧ Eats s w s' ∧ Q a w s') ∨ (∃ e w s', m s = .err e s' ∧ Eats s w s' ∧ ErrOK s e) := by
  have h := h hp
  cases hr : m s with
  | ok a s' => rw [hr] at h; obtain ⟨w, h1, h2⟩ := h; exact .inl ⟨a, w, s', rfl, h1, h2⟩
  | err e s' => rw [hr] at h; obtain ⟨⟨w, h1⟩, h2⟩ := h; exact .inr ⟨e, w, s', rfl, h1, h2⟩
  | panic _ => rw [hr] at h; exact h.elim
  | oof => rw [hr] at h; exact h.elim

/-- `t` is the token at `c`, where no trivia starts; `c'` is the cursor after it. -/
structure TokenAt (st : LexState) (c : Cursor) (t : Token) (c' : Cursor) : Prop where
  noTrivia : NoTrivia t.fol c.rest
  lexeme : ∃ w, Eats c w c' ∧ w ≠ [] ∧ Lexeme st.regex t.value w c'.rest
  span : t.span = ⟨c.pos, c'.pos⟩
  fol : c.fol = t.fol
  fol' : c'.fol = false

/-- What `read` does at `s`, outside of a template. -/
def ReadSpec (st : LexState) (s : Cursor) : Res Cursor LexErr Token → Prop
  | .ok t s' => ∃ tr c, Eats s tr c ∧ Trivia st.html s.fol tr c.rest c.fol ∧ TokenAt st c t s'
  | .err e s' => (∃ w, Eats s w s') ∧
      (e = LexErr.endOfStream ∧ s'.rest = [] ∧ Trivia st.html s.fol s.rest [] s'.fol ∨ ErrOK s e)
  | .panic _ => False
  | .oof => False

theorem readValue_minusminus (st : LexState) {s : Cursor} {r : Str} (h : s.rest = '-' :: '-' :: r) :
    readValue st s.pos s = .ok (.punct p!"--") ((s.advance '-' ('-' :: r)).advance '-' r) := by
  unfold readValue
  have e1 : current s = .ok '-' s := by unfold current; rw [h]
  rw [M.seq_ok e1]
  have e2 : peek? s = .ok (some '-') s := by
    show Res.ok s.rest.tail.head? s = _
    rw [h]; rfl
  rw [M.seq_ok e2]
  have e3 : peek? s = .ok (some '-') s := e2
  unfold readArms2
  simp only [Option.some.injEq, Char.reduceEq, false_and, if_false]
  unfold readArms
  simp only
  unfold producePeek
  rw [M.seq_ok e2]
  rw [if_pos rfl]
  unfold produce2
  have e4 : consume s = .ok '-' (s.advance '-' ('-' :: r)) := by unfold consume; rw [h]
  rw [M.seq_ok e4]
  have e5 : consume (s.advance '-' ('-' :: r)) = .ok '-' ((s.advance '-' ('-' :: r)).advance '-' r) := rfl
  rw [M.seq_ok e5]
  rfl

theorem readGo_spec (st : LexState) (hst : st.template = false) (n : Nat) (s : Cursor) (hp : s.pos ≤ s.off)
    (hn : s.rest.length < n) : ReadSpec st s (readGo st n s) := by
  induction n generalizing s with
  | zero => exact absurd hn (Nat.not_lt_zero _)
  | succ n ih =>
    unfold readGo
    rw [hst]
    simp only [Bool.false_eq_true, if_false]
    rcases (LS_skipComments st (s := s)).run hp with ⟨⟨⟩, tr, c, hr, he, htr, hn1, hn2, hn3, hn4⟩ | ⟨e, w, s', hr, he, hok⟩
    rotate_left
    · rw [M.seq_err hr]; exact ⟨⟨w, he⟩, .inr hok⟩
    rw [M.seq_ok hr]
    have hpc := he.pos_le hp
    have e1 : cur? c = .ok c.rest.head? c := rfl
    rw [M.seq_ok e1]
    rcases hcr : c.rest with _ | ⟨a, r⟩
    · rw [if_pos (show ([] : Str).head?.isNone = true by simp)]
      have : s.rest = tr := by rw [he.rest, hcr]; simp
      refine ⟨⟨tr, he⟩, .inl ⟨rfl, hcr, ?_⟩⟩
      rw [this, ← hcr]
      exact htr
    · rw [if_neg (show ¬ (a :: r).head?.isNone = true by simp)]
      have e2 : position c = .ok c.pos c := rfl
      rw [M.seq_ok e2]
      rcases (LS_readValue (s := c) (st := st)).run hpc with ⟨v, w, s1, hr1, he1, hlex, hf1⟩ | ⟨e, w, s1, hr1, he1, hok⟩
      rotate_left
      · rw [M.seq_err hr1]; exact ⟨⟨tr ++ w, he.trans he1⟩, .inr (hok.back he)⟩
      rw [M.seq_ok hr1]
      have hp1 := he1.pos_le hpc
      have e3 : position s1 = .ok s1.pos s1 := rfl
      rw [M.seq_ok e3]
      have e4 : (M.gets Cursor.fol : L Bool) s1 = .ok s1.fol s1 := rfl
      rw [M.seq_ok e4]
      have e5 : cur? s1 = .ok s1.rest.head? s1 := rfl
      rw [M.seq_ok e5]
      have hw := hlex.ne_nil
      by_cases hc : s1.fol = true ∧ v = .punct p!"--" ∧ s1.rest.head? = some '>'
      · rw [if_pos hc]
        obtain ⟨hf, rfl, hgt⟩ := hc
        have hw2 : w = ['-', '-'] := by
          cases hlex with
          | punct => rfl
        subst hw2
        obtain ⟨r', hr'⟩ := head?_eq_some hgt
        rcases hh : st.html with _ | _
        · rw [if_pos (show (!false) = true by simp)]
          refine ⟨⟨_, he.trans he1⟩, .inr ⟨by simp [LexErr.syntax], by simp [LexErr.syntax], ?_⟩⟩
          have h1 := he.total
          have h2 := he1.total
          have h3 := he1.off
          rw [hr'] at h2
          simp only [byteLen_cons, byteLen_nil] at h2 h3
          have := utf8Size_pos '-'
          have := utf8Size_pos '>'
          simp [LexErr.syntax]
          omega
        · rw [if_neg (show ¬ (!true) = true by simp)]
          rcases (LS_skipRestOfLine (s := s1)).run hp1 with ⟨⟨⟩, l, s2, hr2, he2, hl⟩ | ⟨e, w, s2, hr2, he2, hok⟩
          rotate_left
          · rw [M.seq_err hr2]; exact ⟨⟨_, he.trans (he1.trans he2)⟩, .inr ((hok.back he1).back he)⟩
          rw [M.seq_ok hr2]
          have e6 : setFol true s2 = .ok () { s2 with fol := true } := rfl
          rw [M.seq_ok e6]
          have hl' : ∃ l', l = '>' :: l' ∧ LineRest l' s2.rest := by
            have h := he2.rest
            rw [hr'] at h
            generalize hs2 : s2.rest = z at hl h
            cases hl with
            | @eol body d _ hb hd =>
              cases body with
              | nil => simp at h; rw [← h.1] at hd; exact absurd hd (by decide)
              | cons x body =>
                simp at h
                exact ⟨body ++ [d], by simp [← h.1], .eol (fun y hy => hb y (by simp [hy])) hd⟩
            | eof hb =>
              cases l with
              | nil => simp at h
              | cons x l =>
                simp at h
                exact ⟨l, by simp [← h.1], .eof (fun y hy => hb y (by simp [hy]))⟩
          obtain ⟨l', rfl, hl'⟩ := hl'
          have he3 : Eats s (tr ++ (['-', '-'] ++ '>' :: l')) { s2 with fol := true } := by
            have := he.trans (he1.trans he2)
            exact ⟨this.rest, this.off, this.pos⟩
          have hlen : s2.rest.length < n := by
            have := he3.length
            simp at this
            omega
          have := ih { s2 with fol := true } (he3.pos_le hp) hlen
          have hcf : c.fol = true := by rw [← hf1, hf]
          have htr2 : ∀ {tr' rest f}, Trivia st.html true tr' rest f → s2.rest = tr' ++ rest →
              Trivia st.html s.fol ((tr ++ (['-', '-'] ++ '>' :: l')) ++ tr') rest f := by
            intro tr' rest f h hs2
            rw [List.append_assoc]
            refine Trivia.trans (f1 := true) ?_ ?_
            · have : ['-', '-'] ++ '>' :: l' ++ tr' ++ rest = c.rest := by
                rw [he1.rest, he2.rest, hs2]; simp
              rw [this, ← hcf]; exact htr
            · have := Trivia.htmlClose hh (l := l') (w := tr') (rest := rest) (by rw [← hs2]; exact hl') h
              simpa using this
          revert this
          cases readGo st n { s2 with fol := true } with
          | ok t s' =>
            rintro ⟨tr', c', he', htr', htok⟩
            exact ⟨_, c', he3.trans he', htr2 htr' he'.rest, htok⟩
          | err e s' =>
            rintro ⟨⟨w, he'⟩, h | h⟩
            · refine ⟨⟨_, he3.trans he'⟩, .inl ⟨h.1, h.2.1, ?_⟩⟩
              have := htr2 h.2.2 (by simp)
              have hs : s.rest = tr ++ (['-', '-'] ++ '>' :: l') ++ s2.rest := he3.rest
              rw [hs]; exact this
            · exact ⟨⟨_, he3.trans he'⟩, .inr (h.back he3)⟩
          | panic => exact id
          | oof => exact id
      · rw [if_neg hc]
        refine ⟨tr, c, he, htr, ⟨⟨hn1, hn2, hn3, hn4, ?_⟩, ⟨w, ⟨he1.rest, he1.off, he1.pos⟩, hw, hlex⟩, rfl, hf1.symm, rfl⟩⟩
        rintro ⟨hf, r', hr'⟩
        have := readValue_minusminus st hr'
        rw [this] at hr1
        cases hr1
        exact hc ⟨hf, rfl, rfl⟩

theorem read_spec (st : LexState) (hst : st.template = false) (s : Cursor) (hp : s.pos ≤ s.off) :
    ReadSpec st s (Lexer.read st s) := readGo_spec st hst _ s hp (Nat.lt_succ_self _)

/-- `read` inside a template. -/
theorem read_template (st : LexState) (hst : st.template = true) :
    Lexer.read st = readTemplateLiteralMiddleOrTail := by
  funext s
  unfold Lexer.read readGo
  rw [hst]; rfl

end Fajt
