import Verif.Model.Token
/-!
# Tables: C08 (strings of keywords, punctuators and operators) and C18 (keywords as identifiers)

`x.asStr` is the text of a table entry and `fromStr` the parser of that text (`FromStr`).
-/
namespace Fajt.Props

/-- The specification of C08: `fromStr` is the partial inverse of `asStr`, exactly defined on the texts of the table. -/
def InverseTables {α : Type} (asStr : α → Str) (fromStr : Str → Option α) : Prop :=
  (∀ x, fromStr (asStr x) = some x) ∧ ∀ s x, fromStr s = some x ↔ asStr x = s

/-- A linear search in a list that contains every entry, with pairwise different texts, is the inverse of the texts. -/
theorem inverse_of_list {α : Type} {all : List α} {asStr : α → Str} (hall : ∀ x, x ∈ all)
    (hinj : (all.map asStr).Nodup) : InverseTables asStr (fromStrIn all asStr) := by
  have key : ∀ x, fromStrIn all asStr (asStr x) = some x := by
    intro x
    unfold fromStrIn
    have hx := hall x
    clear hall
    induction all with
    | nil => cases hx
    | cons a as ih =>
      rw [List.find?_cons]
      by_cases ha : asStr a = asStr x
      · rw [show (asStr a == asStr x) = true from by simp [ha]]
        rcases List.mem_cons.1 hx with rfl | hx
        · rfl
        · exfalso
          rw [List.map_cons, List.nodup_cons] at hinj
          exact hinj.1 (ha ▸ List.mem_map_of_mem hx)
      · rw [show (asStr a == asStr x) = false from by simp [ha]]
        rcases List.mem_cons.1 hx with rfl | hx
        · exact absurd rfl ha
        · exact ih (List.nodup_cons.1 hinj).2 hx
  refine ⟨key, fun s x => ⟨fun h => ?_, fun h => h ▸ key x⟩⟩
  unfold fromStrIn at h
  simpa using List.find?_some h

/-- **C08** (keywords). -/
theorem C08_keywords : InverseTables Keyword.asStr Keyword.fromStr :=
  inverse_of_list (fun x => by cases x <;> decide) (by decide +kernel)

/-- **C08** (punctuators). -/
theorem C08_punctuators : InverseTables Punct.asStr Punct.fromStr :=
  inverse_of_list (fun x => by cases x <;> decide) (by decide +kernel)

/-- **C08** (binary operators). -/
theorem C08_binary_operators : InverseTables BinaryOp.asStr BinaryOp.fromStr :=
  inverse_of_list (fun x => by cases x <;> decide) (by decide +kernel)

/-- **C08** (logical operators). -/
theorem C08_logical_operators : InverseTables LogicalOp.asStr LogicalOp.fromStr :=
  inverse_of_list (fun x => by cases x <;> decide) (by decide +kernel)

/-- **C08** (unary operators). -/
theorem C08_unary_operators : InverseTables UnaryOp.asStr UnaryOp.fromStr :=
  inverse_of_list (fun x => by cases x <;> decide) (by decide +kernel)

/-- **C08** (update operators). -/
theorem C08_update_operators : InverseTables UpdateOp.asStr UpdateOp.fromStr :=
  inverse_of_list (fun x => by cases x <;> decide) (by decide +kernel)

/-- **C08** (assignment operators). -/
theorem C08_assignment_operators : InverseTables AssignOp.asStr AssignOp.fromStr :=
  inverse_of_list (fun x => by cases x <;> decide) (by decide +kernel)

/-- **C08** (variable kinds). -/
theorem C08_variable_kinds : InverseTables VarKind.asStr VarKind.fromStr :=
  inverse_of_list (fun x => by cases x <;> decide) (by decide +kernel)

/-- **C08**, consequence: different entries have different texts. -/
theorem C08_texts_differ {α : Type} {asStr : α → Str} {fromStr : Str → Option α} (h : InverseTables asStr fromStr)
    (x y : α) (hxy : asStr x = asStr y) : x = y := by
  have := h.1 x
  rw [hxy, h.1 y] at this
  exact (Option.some.inj this).symm

/-- **C08**: no text is both a keyword and a punctuator, so a lexeme determines which table it belongs to. -/
theorem C08_disjoint (k : Keyword) (p : Punct) : k.asStr ≠ p.asStr := by cases k <;> cases p <;> decide

example : Keyword.fromStr c!"instanceof" = some k!"instanceof" ∧ Keyword.fromStr c!"foo" = none
    ∧ Punct.fromStr c!">>>=" = some p!">>>=" := by decide +kernel

/-! ## C18 -/

/-- The words that are identifiers in every context. -/
def contextualWords : List Str := [c!"as", c!"async", c!"from", c!"get", c!"of", c!"set", c!"target"]

/-- The words that are reserved in strict mode only. -/
def strictWords : List Str :=
  [c!"implements", c!"interface", c!"let", c!"package", c!"private", c!"protected", c!"public", c!"static"]

/-- **C18**. A keyword is accepted as an identifier exactly under the rule of the language: contextual words always,
`await` outside await contexts, `yield` outside yield and strict contexts, the strict-mode words outside strict mode. -/
theorem C18_keyword_as_identifier (k : Keyword) (c : KwCtx) :
    k.allowedAsIdent c = true ↔
      k.asStr ∈ contextualWords ∨ (k.asStr = c!"await" ∧ c.await = false) ∨
      (k.asStr = c!"yield" ∧ c.yield = false ∧ c.strict = false) ∨ (k.asStr ∈ strictWords ∧ c.strict = false) := by
  obtain ⟨a, y, s⟩ := c
  cases k <;> cases a <;> cases y <;> cases s <;> decide +kernel

/-- **C18**, monotonicity: a larger context (more of await, yield, strict) accepts no further keyword. -/
theorem C18_monotone (k : Keyword) (c d : KwCtx) (ha : c.await = true → d.await = true)
    (hy : c.yield = true → d.yield = true) (hs : c.strict = true → d.strict = true)
    (h : k.allowedAsIdent d = true) : k.allowedAsIdent c = true := by
  rw [C18_keyword_as_identifier] at *
  have neg : ∀ {a b : Bool}, (a = true → b = true) → b = false → a = false := by
    intro a b; cases a <;> cases b <;> simp
  rcases h with h | ⟨h, h1⟩ | ⟨h, h1, h2⟩ | ⟨h, h1⟩
  · exact .inl h
  · exact .inr (.inl ⟨h, neg ha h1⟩)
  · exact .inr (.inr (.inl ⟨h, neg hy h1, neg hs h2⟩))
  · exact .inr (.inr (.inr ⟨h, neg hs h1⟩))

/-- **C18**: the words reserved in every context are never identifiers. -/
theorem C18_reserved (k : Keyword) (h : k.asStr ∉ contextualWords ++ [c!"await", c!"yield"] ++ strictWords) (c : KwCtx) :
    k.allowedAsIdent c = false := by
  have := C18_keyword_as_identifier k c
  cases hk : k.allowedAsIdent c with
  | false => rfl
  | true =>
    rw [hk] at this
    exfalso
    apply h
    simp only [List.mem_append, List.mem_cons, List.not_mem_nil, or_false]
    rcases this.1 rfl with h | ⟨h, -⟩ | ⟨h, -⟩ | ⟨h, -⟩
    · exact .inl (.inl h)
    · exact .inl (.inr (.inl h))
    · exact .inl (.inr (.inr h))
    · exact .inr h

example : (k!"if").asStr ∉ contextualWords ++ [c!"await", c!"yield"] ++ strictWords := by decide
example : k!"yield".allowedAsIdent ⟨true, false, false⟩ = true ∧ k!"yield".allowedAsIdent ⟨true, false, true⟩ = false := by
  decide

end Fajt.Props
