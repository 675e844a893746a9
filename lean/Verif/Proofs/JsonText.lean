import Verif.Model.JsonText
import Verif.Spec.JsonNesting
import Verif.Proofs.Markdown
/-!
# The reader of JSON reads what the pretty printer has written
-/
namespace Fajt.JsonText
open Fajt Spec

/-! ## Strings -/

theorem hexVal_digit : ∀ n < 16, hexVal? (hexDigit n) = some n := by decide

theorem char_eq {c d : Char} (h : c.toNat = d.toNat) : c = d := Char.toNat_inj.1 h

/-- An escape is read as the character it stands for. -/
theorem escape_char (c : Char) (r : Str) :
    (∃ e, escapeChar c = '\\' :: e ∧ escape (e ++ r) = some (c, r)) ∨ (escapeChar c = [c] ∧ c ≠ '"' ∧ c ≠ '\\' ∧ ¬ c.toNat < 32) := by
  unfold escapeChar
  split
  · next h => subst h; exact .inl ⟨c!"\"", rfl, by simp [escape]⟩
  split
  · next h => subst h; exact .inl ⟨c!"\\", rfl, by simp [escape]⟩
  split
  · next h => exact .inl ⟨c!"b", rfl, by simp [escape]; exact char_eq h.symm⟩
  split
  · next h => exact .inl ⟨c!"f", rfl, by simp [escape]; exact char_eq h.symm⟩
  split
  · next h => subst h; exact .inl ⟨c!"n", rfl, by simp [escape]⟩
  split
  · next h => subst h; exact .inl ⟨c!"r", rfl, by simp [escape]⟩
  split
  · next h => subst h; exact .inl ⟨c!"t", rfl, by simp [escape]⟩
  split
  · next h =>
    refine .inl ⟨_, rfl, ?_⟩
    have h1 : hexVal? (hexDigit (c.toNat / 16)) = some (c.toNat / 16) := hexVal_digit _ (by omega)
    have h2 : hexVal? (hexDigit (c.toNat % 16)) = some (c.toNat % 16) := hexVal_digit _ (by omega)
    have h0 : hexVal? '0' = some 0 := by decide
    have h4 : hex4 ('0' :: '0' :: hexDigit (c.toNat / 16) :: hexDigit (c.toNat % 16) :: r) = some (c.toNat, r) := by
      simp only [hex4, h0, h1, h2, Option.bind_eq_bind, Option.bind_some, Option.pure_def]
      congr 2
      omega
    have h5 : Char.ofNat c.toNat = c := Char.ofNat_toNat c
    have h6 : unicodeEscape ('0' :: '0' :: hexDigit (c.toNat / 16) :: hexDigit (c.toNat % 16) :: r) = some (c, r) := by
      unfold unicodeEscape
      simp only [h4, Option.bind_eq_bind, Option.bind_some]
      rw [if_neg (by omega), if_neg (by omega), h5]
      rfl
    simp [escape, h6]
  · next h1 h2 _ _ _ _ _ h3 => exact .inr ⟨rfl, h1, h2, h3⟩

theorem string_escaped (s r : Str) : ∀ n, s.length < n → string n (s.flatMap escapeChar ++ '"' :: r) = some (s, r) := by
  induction s with
  | nil =>
    intro n hn
    cases n with
    | zero => simp at hn
    | succ n => simp [string]
  | cons c s ih =>
    intro n hn
    cases n with
    | zero => simp at hn
    | succ n =>
      have hn : s.length < n := by simpa using hn
      rw [List.flatMap_cons, List.append_assoc]
      rcases escape_char c (s.flatMap escapeChar ++ '"' :: r) with ⟨e, h1, h2⟩ | ⟨h1, h2, h3, h4⟩
      · rw [h1]
        simp [string, h2, ih n hn]
      · rw [h1]
        simp [string, h2, h3, h4, ih n hn]

theorem escaped_length (s : Str) : s.length ≤ (s.flatMap escapeChar).length := by
  induction s with
  | nil => simp
  | cons c s ih =>
    have : 1 ≤ (escapeChar c).length := by
      rcases escape_char c [] with ⟨e, h, -⟩ | ⟨h, -⟩ <;> rw [h] <;> simp
    rw [List.flatMap_cons, List.length_append, List.length_cons]
    omega

/-- A string behind its first quote, read with the fuel that the reader uses. -/
theorem string_quoted (s r : Str) :
    string ((s.flatMap escapeChar ++ '"' :: r).length + 1) (s.flatMap escapeChar ++ '"' :: r) = some (s, r) := by
  apply string_escaped
  have := escaped_length s
  rw [List.length_append, List.length_cons]
  omega

theorem quoted_append (s r : Str) : quoted s ++ r = '"' :: (s.flatMap escapeChar ++ '"' :: r) := by simp [quoted]

/-! ## White space -/

theorem ws_blanks (n : Nat) (s : Str) : ws (List.replicate n ' ' ++ s) = ws s := by
  induction n with
  | zero => rfl
  | succ n ih =>
    rw [List.replicate_succ]
    show ws (' ' :: (List.replicate n ' ' ++ s)) = _
    unfold ws at ih ⊢
    rw [List.dropWhile_cons_of_pos (by decide), ih]

theorem ws_newLine (ind : Nat) (s : Str) : ws (newLine ind ++ s) = ws s := by
  unfold newLine
  show ws ('\n' :: (List.replicate (2 * ind) ' ' ++ s)) = _
  rw [← ws_blanks (2 * ind) s]
  unfold ws
  rw [List.dropWhile_cons_of_pos (by decide)]

theorem ws_cons {c : Char} (h : isBlank c = false) (s : Str) : ws (c :: s) = c :: s :=
  List.dropWhile_cons_of_neg (by simp [h])

theorem ws_ws (s : Str) : ws (ws s) = ws s := by
  unfold ws
  induction s with
  | nil => rfl
  | cons c s ih =>
    rw [List.dropWhile_cons]
    split
    · exact ih
    · next h => exact List.dropWhile_cons_of_neg h

theorem value_ws {s s' : Str} (h : ws s = ws s') (n d : Nat) : value n d s = value n d s' := by
  cases n with
  | zero => simp [value]
  | succ n => rw [value, value, h]

theorem items_ws {s s' : Str} (h : ws s = ws s') (n d : Nat) : items n d s = items n d s' := by
  cases n with
  | zero => simp [items]
  | succ n => rw [items, items, value_ws h]

theorem fields_ws {s s' : Str} (h : ws s = ws s') (n d : Nat) : fields n d s = fields n d s' := by
  cases n with
  | zero => simp [fields]
  | succ n => rw [fields, fields, h]

/-! ## Values -/

mutual
/-- The recursion that the reader needs for the value. -/
def need : Json → Nat
  | .arr vs => 1 + needItems vs
  | .obj kvs => 1 + needFields kvs
  | _ => 1
def needItems : List Json → Nat
  | [] => 0
  | v :: vs => 1 + max (need v) (needItems vs)
def needFields : List (Str × Json) → Nat
  | [] => 0
  | (_, v) :: kvs => 1 + max (need v) (needFields kvs)
end

/-- The first character of a value is no white space and does not end an array. -/
theorem pretty_first (ind : Nat) (j : Json) : ∃ c t, pretty ind j = c :: t ∧ isBlank c = false ∧ c ≠ ']' := by
  rcases j with _ | (_ | _) | s | (_ | ⟨v, vs⟩) | (_ | ⟨⟨k, v⟩, kvs⟩) <;> rw [pretty] <;> first
    | exact ⟨_, _, rfl, by decide, by decide⟩
    | exact ⟨'"', _, rfl, by decide, by decide⟩

theorem need_pos (j : Json) : 1 ≤ need j := by cases j <;> simp [need]

theorem expect_append (w r : Str) : expect w (w ++ r) = some r := by
  induction w with
  | nil => rfl
  | cons c w ih => simp [expect, ih]

/-- The rest of an array or object behind an element. -/
theorem ws_tail (ind : Nat) (c : Char) (h : isBlank c = false) (rest : Str) : ws (newLine ind ++ c :: rest) = c :: rest := by
  rw [ws_newLine, ws_cons h]

/-- Arithmetic with the measures. -/
macro "om" : tactic => `(tactic| ((try (simp only [need, needItems, needFields, nesting, nestingItems, nestingFields] at *)); omega))

mutual
theorem value_pretty (j : Json) (n d ind : Nat) (rest : Str) (hd : 1 ≤ d) :
    value n d (pretty ind j ++ rest) = if need j ≤ n ∧ nesting j < d then some (j, rest) else none := by
  have hp := need_pos j
  cases n with
  | zero => rw [value, if_neg (by om)]
  | succ n =>
    match j with
    | .null =>
      rw [value, pretty, List.cons_append, ws_cons (by decide)]
      simp only [expect_append, Option.bind_eq_bind, Option.bind_some]
      rw [if_pos (by om)]; rfl
    | .bool true =>
      rw [value, pretty, List.cons_append, ws_cons (by decide)]
      simp only [expect_append, Option.bind_eq_bind, Option.bind_some]
      rw [if_pos (by om)]; rfl
    | .bool false =>
      rw [value, pretty, List.cons_append, ws_cons (by decide)]
      simp only [expect_append, Option.bind_eq_bind, Option.bind_some]
      rw [if_pos (by om)]; rfl
    | .str s =>
      rw [value, pretty, quoted_append, ws_cons (by decide)]
      simp only [string_quoted, Option.bind_eq_bind, Option.bind_some]
      rw [if_pos (by om)]; rfl
    | .arr [] =>
      rw [value, pretty, List.cons_append, ws_cons (by decide)]
      simp only [List.cons_append, List.nil_append]
      rw [ws_cons (by decide)]
      split
      · rw [if_neg (by om)]
      · rw [if_pos (by om)]; rfl
    | .arr (v :: vs) =>
      have ih := items_pretty v vs n (d - 1) (ind + 1) ind rest
      obtain ⟨c, t, h1, h2, h3⟩ := pretty_first (ind + 1) v
      rw [value, pretty, List.cons_append, ws_cons (by decide)]
      simp only [List.append_assoc, List.cons_append, List.nil_append]
      rw [ws_newLine, h1, List.cons_append, ws_cons h2]
      rw [h1, List.cons_append] at ih
      split
      · rw [if_neg (by om)]
      · split
        · next hh => cases hh; exact absurd rfl h3
        · rw [ih (by om)]
          split
          · rw [if_pos (by om)]; rfl
          · rw [if_neg (by om)]; rfl
    | .obj [] =>
      rw [value, pretty, List.cons_append, ws_cons (by decide)]
      simp only [List.cons_append, List.nil_append]
      rw [ws_cons (by decide)]
      split
      · rw [if_neg (by om)]
      · rw [if_pos (by om)]; rfl
    | .obj ((k, v) :: kvs) =>
      have ih := fields_pretty k v kvs n (d - 1) (ind + 1) ind rest
      rw [value, pretty, List.cons_append, ws_cons (by decide)]
      simp only [List.append_assoc, List.cons_append, List.nil_append]
      rw [ws_newLine, quoted_append, ws_cons (by decide)]
      rw [quoted_append] at ih
      split
      · rw [if_neg (by om)]
      · have ih := ih (by om)
        refine Eq.trans (congrArg (fun x : Option (List (Str × Json) × Str) => x.bind fun p => some (Json.obj p.1, p.2)) ih) ?_
        split
        · rw [if_pos (by om)]; rfl
        · rw [if_neg (by om)]; rfl
theorem items_pretty (v : Json) (vs : List Json) (n d ind ind' : Nat) (rest : Str) (hd : 1 ≤ d) :
    items n d (pretty ind v ++ (prettyItems ind vs ++ (newLine ind' ++ ']' :: rest))) =
      if needItems (v :: vs) ≤ n ∧ nestingItems (v :: vs) < d then some (v :: vs, rest) else none := by
  cases n with
  | zero => rw [items, if_neg (by om)]
  | succ n =>
    rw [items, value_pretty v n d ind _ hd]
    match vs with
    | [] =>
      split
      · simp only [prettyItems, List.nil_append, Option.bind_eq_bind, Option.bind_some]
        rw [ws_tail _ _ (by decide)]
        rw [if_pos (by om)]
        rfl
      · rw [if_neg (by om)]
        simp
    | w :: vs =>
      have ih := items_pretty w vs n d ind ind' rest hd
      split
      · simp only [prettyItems, List.append_assoc, List.cons_append, Option.bind_eq_bind, Option.bind_some]
        rw [ws_cons (by decide)]
        simp only []
        rw [items_ws (ws_newLine ind _), ih]
        split
        · rw [if_pos (by om)]; rfl
        · rw [if_neg (by om)]; rfl
      · rw [if_neg (by om)]
        simp
theorem fields_pretty (k : Str) (v : Json) (kvs : List (Str × Json)) (n d ind ind' : Nat) (rest : Str) (hd : 1 ≤ d) :
    fields n d (quoted k ++ (':' :: ' ' :: (pretty ind v ++ (prettyFields ind kvs ++ (newLine ind' ++ '}' :: rest))))) =
      if needFields ((k, v) :: kvs) ≤ n ∧ nestingFields ((k, v) :: kvs) < d then some ((k, v) :: kvs, rest) else none := by
  cases n with
  | zero => rw [fields, if_neg (by om)]
  | succ n =>
    have hv := fun rest => (value_ws (ws_blanks 1 (pretty ind v ++ rest)) n d).trans (value_pretty v n d ind rest hd)
    simp only [List.replicate_one, List.cons_append, List.nil_append] at hv
    rw [fields, quoted_append, ws_cons (by decide)]
    simp only [string_quoted, Option.bind_eq_bind, Option.bind_some]
    rw [ws_cons (by decide)]
    simp only [hv]
    match kvs with
    | [] =>
      split
      · simp only [prettyFields, List.nil_append, Option.bind_some]
        rw [ws_tail _ _ (by decide)]
        rw [if_pos (by om)]
        rfl
      · rw [if_neg (by om)]
        simp
    | (k', w) :: kvs =>
      have ih := fields_pretty k' w kvs n d ind ind' rest hd
      split
      · simp only [prettyFields, List.append_assoc, List.cons_append, Option.bind_some]
        rw [ws_cons (by decide)]
        simp only []
        rw [fields_ws (ws_newLine ind _), ih]
        split
        · rw [if_pos (by om)]; rfl
        · rw [if_neg (by om)]; rfl
      · rw [if_neg (by om)]
        simp
end

/-! ## The whole text -/

theorem quoted_length (s : Str) : 2 ≤ (quoted s).length := by simp [quoted]

mutual
theorem need_length (j : Json) (ind : Nat) : need j ≤ (pretty ind j).length := by
  match j with
  | .null => simp [need, pretty]
  | .bool true => simp [need, pretty]
  | .bool false => simp [need, pretty]
  | .str s =>
    have := quoted_length s
    rw [pretty]; om
  | .arr [] => simp [need, needItems, pretty]
  | .arr (v :: vs) =>
    have h1 := need_length v (ind + 1)
    have h2 := needItems_length vs (ind + 1)
    rw [pretty]
    simp only [need, needItems, newLine, List.length_cons, List.length_append]
    omega
  | .obj [] => simp [need, needFields, pretty]
  | .obj ((k, v) :: kvs) =>
    have h1 := need_length v (ind + 1)
    have h2 := needFields_length kvs (ind + 1)
    rw [pretty]
    simp only [need, needFields, newLine, List.length_cons, List.length_append]
    omega
theorem needItems_length (vs : List Json) (ind : Nat) : needItems vs ≤ (prettyItems ind vs).length := by
  match vs with
  | [] => simp [needItems]
  | v :: vs =>
    have h1 := need_length v ind
    have h2 := needItems_length vs ind
    rw [prettyItems]
    simp only [needItems, newLine, List.length_cons, List.length_append]
    omega
theorem needFields_length (kvs : List (Str × Json)) (ind : Nat) : needFields kvs ≤ (prettyFields ind kvs).length := by
  match kvs with
  | [] => simp [needFields]
  | (k, v) :: kvs =>
    have h1 := need_length v ind
    have h2 := needFields_length kvs ind
    rw [prettyFields]
    simp only [needFields, newLine, List.length_cons, List.length_append]
    omega
end

theorem ws_all {b : Str} (h : ∀ c ∈ b, isBlank c = true) : ws b = [] := by
  unfold ws
  induction b with
  | nil => rfl
  | cons c b ih =>
    rw [List.dropWhile_cons_of_pos (h c (by simp))]
    exact ih fun d hd => h d (by simp [hd])

/-- Reading a text that the printer has written. -/
theorem parse_pretty (j : Json) (ind : Nat) {b : Str} (hb : ∀ c ∈ b, isBlank c = true) :
    parse (pretty ind j ++ b) = if nesting j < 128 then some j else none := by
  have h1 := need_length j ind
  unfold parse
  rw [value_pretty j _ 128 ind b (by omega)]
  have h2 : need j ≤ (pretty ind j ++ b).length + 1 := by rw [List.length_append]; omega
  by_cases h : nesting j < 128
  · rw [if_pos ⟨h2, h⟩, if_pos h]
    simp only [ws_all hb, if_true]
  · rw [if_neg (fun hh => h hh.2), if_neg h]

/-! ## No line looks like a heading or a fence -/
open Fajt.Markdown Fajt.Spec.Markdown

theorem clean_char {k c : Char} (hc : c ≠ '\n') {s : Str} (h : Clean k false s) : Clean k false (c :: s) := by
  rw [clean_cons]
  refine ⟨nofun, ?_⟩
  rwa [show (c == '\n') = false from beq_false_of_ne hc]

theorem clean_start {k c : Char} (hk : c ≠ k) (hc : c ≠ '\n') {s : Str} (h : Clean k false s) : Clean k true (c :: s) :=
  clean_true (clean_char hc h) fun ⟨_, ht⟩ => hk (List.cons.inj ht).1.symm

theorem clean_chars {k : Char} {x : Str} (hx : '\n' ∉ x) {s : Str} (h : Clean k false s) : Clean k false (x ++ s) := by
  induction x with
  | nil => exact h
  | cons c x ih =>
    exact clean_char (fun hc => hx (by simp [hc])) (ih fun hh => hx (by simp [hh]))

theorem clean_newLine {k : Char} (hk : k ≠ ' ') (ind : Nat) {s : Str} (h : Clean k true s) : Clean k false (newLine ind ++ s) := by
  unfold newLine
  show Clean k false ('\n' :: (List.replicate (2 * ind) ' ' ++ s))
  rw [clean_cons]
  refine ⟨nofun, ?_⟩
  generalize 2 * ind = n
  induction n with
  | zero => exact h
  | succ n ih =>
    rw [List.replicate_succ]
    exact clean_start hk.symm (by decide) (clean_mono ih)

theorem escapeChar_line (c : Char) : '\n' ∉ escapeChar c := by
  have hd : ∀ n, hexDigit n ≠ '\n' := by
    intro n
    by_cases hn : n < 16
    · revert n; decide
    · unfold hexDigit
      rw [List.getD_eq_getElem?_getD, List.getElem?_eq_none (by simp; omega)]
      decide
  unfold escapeChar
  split
  · decide
  split
  · decide
  split
  · decide
  split
  · decide
  split
  · decide
  split
  · decide
  split
  · decide
  split
  · have h1 := hd (c.toNat / 16)
    have h2 := hd (c.toNat % 16)
    simp [h1.symm, h2.symm]
  · next h _ _ _ => simpa using fun hh => h hh.symm

theorem quoted_line (s : Str) : '\n' ∉ quoted s := by
  simp only [quoted, List.mem_cons, List.mem_append, List.mem_flatMap, not_or, not_exists, not_and]
  exact ⟨by decide, fun c _ => escapeChar_line c, by decide, by simp⟩

theorem clean_quoted {k : Char} (hk : k ≠ '"') (t : Str) {s : Str} (h : Clean k false s) : Clean k true (quoted t ++ s) := by
  have h1 := quoted_line t
  rw [show quoted t = '"' :: (t.flatMap escapeChar ++ ['"']) from rfl] at h1 ⊢
  exact clean_start hk.symm (by decide) (clean_chars (fun hh => h1 (by simp [hh])) h)

mutual
theorem clean_pretty {k : Char} (hk : k = '#' ∨ k = '`') (j : Json) (ind : Nat) {s : Str} (h : Clean k false s) :
    Clean k true (pretty ind j ++ s) := by
  have hs : k ≠ ' ' := by rcases hk with rfl | rfl <;> decide
  match j with
  | .null => exact clean_start (by rcases hk with rfl | rfl <;> decide) (by decide) (clean_chars (x := c!"ull") (by decide) h)
  | .bool true => exact clean_start (by rcases hk with rfl | rfl <;> decide) (by decide) (clean_chars (x := c!"rue") (by decide) h)
  | .bool false => exact clean_start (by rcases hk with rfl | rfl <;> decide) (by decide) (clean_chars (x := c!"alse") (by decide) h)
  | .str t =>
    rw [pretty]
    exact clean_quoted (by rcases hk with rfl | rfl <;> decide) t h
  | .arr [] => exact clean_start (by rcases hk with rfl | rfl <;> decide) (by decide) (clean_chars (x := c!"]") (by decide) h)
  | .arr (v :: vs) =>
    rw [pretty]
    simp only [List.append_assoc, List.cons_append, List.nil_append]
    exact clean_start (by rcases hk with rfl | rfl <;> decide) (by decide) <| clean_newLine hs _ <| clean_pretty hk v _ <|
      clean_items hk vs _ <| clean_newLine hs _ <| clean_start (by rcases hk with rfl | rfl <;> decide) (by decide) h
  | .obj [] => exact clean_start (by rcases hk with rfl | rfl <;> decide) (by decide) (clean_chars (x := c!"}") (by decide) h)
  | .obj ((n, v) :: kvs) =>
    rw [pretty]
    simp only [List.append_assoc, List.cons_append, List.nil_append]
    exact clean_start (by rcases hk with rfl | rfl <;> decide) (by decide) <| clean_newLine hs _ <|
      clean_quoted (by rcases hk with rfl | rfl <;> decide) n <| clean_char (by decide) <| clean_char (by decide) <| clean_mono <|
      clean_pretty hk v _ <| clean_fields hk kvs _ <| clean_newLine hs _ <|
      clean_start (by rcases hk with rfl | rfl <;> decide) (by decide) h
theorem clean_items {k : Char} (hk : k = '#' ∨ k = '`') (vs : List Json) (ind : Nat) {s : Str} (h : Clean k false s) :
    Clean k false (prettyItems ind vs ++ s) := by
  have hs : k ≠ ' ' := by rcases hk with rfl | rfl <;> decide
  match vs with
  | [] => rw [prettyItems]; exact h
  | v :: vs =>
    rw [prettyItems]
    simp only [List.append_assoc, List.cons_append]
    exact clean_char (by decide) <| clean_newLine hs _ <| clean_pretty hk v _ <| clean_items hk vs _ h
theorem clean_fields {k : Char} (hk : k = '#' ∨ k = '`') (kvs : List (Str × Json)) (ind : Nat) {s : Str} (h : Clean k false s) :
    Clean k false (prettyFields ind kvs ++ s) := by
  have hs : k ≠ ' ' := by rcases hk with rfl | rfl <;> decide
  match kvs with
  | [] => rw [prettyFields]; exact h
  | (n, v) :: kvs =>
    rw [prettyFields]
    simp only [List.append_assoc, List.cons_append]
    exact clean_char (by decide) <| clean_newLine hs _ <| clean_quoted (by rcases hk with rfl | rfl <;> decide) n <|
      clean_char (by decide) <| clean_char (by decide) <| clean_mono <| clean_pretty hk v _ <| clean_fields hk kvs _ h
end

/-- The text can be stored in a block of a snapshot file. -/
theorem plain_pretty (j : Json) (ind : Nat) : PlainLines (pretty ind j) := by
  have h : ∀ k, k = '#' ∨ k = '`' → Clean k true (pretty ind j) := fun k hk => by
    have := clean_pretty hk j ind (clean_nil k false)
    rwa [List.append_nil] at this
  exact ⟨(clean_iff (by decide)).1 (h '#' (.inl rfl)), (clean_iff (by decide)).1 (h '`' (.inr rfl))⟩

theorem pretty_no_line_end (j : Json) (ind : Nat) : (pretty ind j).getLast? ≠ some '\n' := by
  rcases j with _ | (_ | _) | s | (_ | ⟨v, vs⟩) | (_ | ⟨⟨k, v⟩, kvs⟩) <;> rw [pretty] <;> simp [List.getLast?_cons, List.getLast?_append, quoted]

end Fajt.JsonText
