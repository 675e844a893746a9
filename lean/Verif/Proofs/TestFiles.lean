import Verif.Spec.TestFiles
/-!
# The files of a folder and their names
-/
namespace Fajt
namespace TestFiles
open Spec.TestFiles

/-- A function that can fail, for all elements. -/
def mapO {α β : Type} (f : α → Option β) : List α → Option (List β)
  | [] => some []
  | a :: as => (f a).bind fun b => (mapO f as).map (b :: ·)

theorem mapO_append {α β : Type} (f : α → Option β) (xs ys : List α) :
    mapO f (xs ++ ys) = (mapO f xs).bind fun a => (mapO f ys).map (a ++ ·) := by
  induction xs with
  | nil => simp [mapO]
  | cons x xs ih =>
    simp only [List.cons_append, mapO, ih]
    cases f x <;> cases mapO f xs <;> cases mapO f ys <;> rfl

theorem mapO_map {α β γ : Type} (f : β → Option γ) (g : α → β) (xs : List α) : mapO f (xs.map g) = mapO (fun a => f (g a)) xs := by
  induction xs with
  | nil => rfl
  | cons x xs ih => simp only [List.map_cons, mapO, ih]

theorem mapO_none {α β : Type} {f : α → Option β} {xs : List α} : mapO f xs = none ↔ ∃ x ∈ xs, f x = none := by
  induction xs with
  | nil => simp [mapO]
  | cons x xs ih =>
    simp only [mapO, List.mem_cons, exists_eq_or_imp]
    cases h : f x <;> simp [ih]

theorem mapO_mem {α β : Type} {f : α → Option β} {xs : List α} {ys : List β} (h : mapO f xs = some ys) (y : β) :
    y ∈ ys ↔ ∃ x ∈ xs, f x = some y := by
  induction xs generalizing ys with
  | nil => cases h; simp
  | cons x xs ih =>
    simp only [mapO] at h
    cases hx : f x with
    | none => rw [hx] at h; cases h
    | some z =>
      rw [hx, Option.bind_some] at h
      cases hr : mapO f xs with
      | none => rw [hr] at h; cases h
      | some zs =>
        rw [hr] at h
        cases h
        rw [List.mem_cons, ih hr]
        simp only [List.mem_cons, hx, Option.some.injEq, or_and_right, exists_or, exists_eq_left, @eq_comm _ y z]

theorem mapO_nodup {α β γ : Type} {f : α → Option β} {g : β → γ} {xs : List α} {ys : List β} (h : mapO f xs = some ys) (hn : xs.Nodup)
    (hi : ∀ x ∈ xs, ∀ x' ∈ xs, ∀ y y', f x = some y → f x' = some y' → g y = g y' → x = x') : (ys.map g).Nodup := by
  induction xs generalizing ys with
  | nil => cases h; simp
  | cons x xs ih =>
    simp only [mapO] at h
    cases hx : f x with
    | none => rw [hx] at h; cases h
    | some z =>
      rw [hx, Option.bind_some] at h
      cases hr : mapO f xs with
      | none => rw [hr] at h; cases h
      | some zs =>
        rw [hr] at h
        cases h
        rw [List.nodup_cons] at hn
        rw [List.map_cons, List.nodup_cons]
        refine ⟨fun hm => ?_, ih hr hn.2 fun x' h1 x'' h2 => hi x' (.tail _ h1) x'' (.tail _ h2)⟩
        obtain ⟨y, h1, h2⟩ := List.mem_map.1 hm
        obtain ⟨x', h3, h4⟩ := (mapO_mem hr y).1 h1
        have := hi x (.head _) x' (.tail _ h3) z y hx h4 h2.symm
        exact hn.1 (this ▸ h3)

mutual
/-- The files of a folder with their directories, in the order of the walk. -/
def locs : List Entry → List (List Str × Str)
  | [] => []
  | e :: es => entryLocs e ++ locs es
@[inherit_doc locs]
def entryLocs : Entry → List (List Str × Str)
  | .file n => [([], n)]
  | .dir d es => (locs es).map fun l => (d :: l.1, l.2)
  | .other _ => []
end

/-- The file at a place. -/
def fileAt (p dp : Str) (l : List Str × Str) : Option File :=
  (extension l.2).map fun ext => ⟨p ++ '/' :: pathOf l.1 l.2, dp ++ pathOf l.1 l.2, ext⟩

theorem pathOf_cons (d : Str) (dirs : List Str) (n : Str) : pathOf (d :: dirs) n = d ++ '/' :: pathOf dirs n := by
  simp [pathOf]

mutual
theorem findFiles_eq (p dp : Str) : ∀ es : List Entry, findFiles p dp es = mapO (fileAt p dp) (locs es)
  | [] => rfl
  | e :: es => by
    rw [findFiles, locs, mapO_append, ← entryFiles_eq p dp e, ← findFiles_eq p dp es]
    cases entryFiles p dp e <;> cases findFiles p dp es <;> rfl
theorem entryFiles_eq (p dp : Str) : ∀ e : Entry, entryFiles p dp e = mapO (fileAt p dp) (entryLocs e)
  | .file n => by
    simp only [entryFiles, entryLocs, mapO, fileAt, toFile, pathOf, List.flatMap_nil, List.nil_append]
    cases extension n <;> rfl
  | .dir d es => by
    rw [entryFiles, entryLocs, mapO_map, findFiles_eq _ _ es]
    congr 1
    funext l
    simp only [fileAt, pathOf_cons]
    split <;> simp_all
  | .other _ => rfl
end

mutual
theorem mem_locs (dirs : List Str) (n : Str) : ∀ es : List Entry, (dirs, n) ∈ locs es ↔ ∃ e ∈ es, (dirs, n) ∈ entryLocs e
  | [] => by simp [locs]
  | e :: es => by rw [locs, List.mem_append, mem_locs dirs n es]; simp
end

theorem located {es : List Entry} {dirs : List Str} {n : Str} : Located es dirs n ↔ (dirs, n) ∈ locs es := by
  constructor
  · intro h
    induction h with
    | here h => exact (mem_locs _ _ _).2 ⟨_, h, by simp [entryLocs]⟩
    | inside h _ ih => exact (mem_locs _ _ _).2 ⟨_, h, by simp [entryLocs, ih]⟩
  · induction dirs generalizing es with
    | nil =>
      intro h
      obtain ⟨e, he, h⟩ := (mem_locs _ _ _).1 h
      cases e with
      | file m => simp [entryLocs] at h; exact .here (h ▸ he)
      | dir => simp [entryLocs] at h
      | other => simp [entryLocs] at h
    | cons d dirs ih =>
      intro h
      obtain ⟨e, he, h⟩ := (mem_locs _ _ _).1 h
      cases e with
      | file m => simp [entryLocs] at h
      | dir m sub =>
        simp only [entryLocs, List.mem_map, Prod.mk.injEq, List.cons.injEq, Prod.exists] at h
        obtain ⟨a, b, h', ⟨rfl, rfl⟩, rfl⟩ := h
        exact .inside he (ih h')
      | other => simp [entryLocs] at h

/-! ## Different places -/

theorem locs_head {e : Entry} {l : List Str × Str} (h : l ∈ entryLocs e) : l.1.head?.getD l.2 = nameOf e := by
  cases e with
  | file => simp [entryLocs] at h; subst h; rfl
  | dir =>
    simp only [entryLocs, List.mem_map] at h
    obtain ⟨_, -, rfl⟩ := h
    rfl
  | other => simp [entryLocs] at h

mutual
theorem locs_nodup : ∀ es : List Entry, Folder es → (locs es).Nodup
  | [], _ => by simp [locs]
  | e :: es, h => by
    obtain ⟨h1, h2, h3⟩ := h
    rw [List.map_cons, List.nodup_cons] at h1
    rw [locs, List.nodup_append]
    refine ⟨entryLocs_nodup e fun d sub hd => h3 d sub (hd ▸ .head _),
      locs_nodup es (.mk h1.2 (fun e' h' => h2 e' (.tail _ h')) fun d sub hd => h3 d sub (.tail _ hd)), ?_⟩
    rintro a ha b hb rfl
    obtain ⟨e', h4, h5⟩ := (mem_locs _ _ _).1 hb
    exact h1.1 (List.mem_map.2 ⟨e', h4, (locs_head h5).symm.trans (locs_head ha)⟩)
theorem entryLocs_nodup : ∀ e : Entry, (∀ d sub, e = .dir d sub → Folder sub) → (entryLocs e).Nodup
  | .file _, _ => by simp [entryLocs]
  | .dir d sub, h => by
    have := locs_nodup sub (h d sub rfl)
    rw [entryLocs]
    exact List.pairwise_map.2 (this.imp fun hab he => hab (by simpa [Prod.ext_iff] using he))
  | .other _, _ => by simp [entryLocs]
end

/-- No name on the way has a slash. -/
theorem located_slash {es : List Entry} {dirs : List Str} {n : Str} (h : Located es dirs n) (hf : Folder es) :
    (∀ d ∈ dirs, '/' ∉ d) ∧ '/' ∉ n := by
  induction h with
  | here h => exact ⟨nofun, (by cases hf with | mk _ h2 _ => exact h2 _ h)⟩
  | inside h _ ih =>
    cases hf with
    | mk _ h2 h3 =>
      obtain ⟨i1, i2⟩ := ih (h3 _ _ h)
      refine ⟨fun d hd => ?_, i2⟩
      rcases List.mem_cons.1 hd with rfl | hd
      · exact h2 _ h
      · exact i1 d hd

theorem slash_inj {a b r s : Str} (ha : '/' ∉ a) (hb : '/' ∉ b) (h : a ++ '/' :: r = b ++ '/' :: s) : a = b ∧ r = s := by
  induction a generalizing b with
  | nil =>
    cases b with
    | nil => exact ⟨rfl, (List.cons.inj h).2⟩
    | cons c b => exact absurd ((List.cons.inj h).1 ▸ .head _) hb
  | cons c a ih =>
    cases b with
    | nil => exact absurd ((List.cons.inj h).1 ▸ .head _) ha
    | cons d b =>
      obtain ⟨rfl, h'⟩ := List.cons.inj h
      obtain ⟨rfl, h2⟩ := ih (fun hm => ha (.tail _ hm)) (fun hm => hb (.tail _ hm)) h'
      exact ⟨rfl, h2⟩

theorem pathOf_inj {dirs dirs' : List Str} {n n' : Str} (h1 : ∀ d ∈ dirs, '/' ∉ d) (h2 : '/' ∉ n) (h3 : ∀ d ∈ dirs', '/' ∉ d) (h4 : '/' ∉ n')
    (h : pathOf dirs n = pathOf dirs' n') : (dirs, n) = (dirs', n') := by
  induction dirs generalizing dirs' with
  | nil =>
    cases dirs' with
    | nil => exact congrArg _ h
    | cons d ds =>
      rw [pathOf_cons] at h
      have h' : n = d ++ '/' :: pathOf ds n' := h
      exact absurd (by rw [h']; simp) h2
  | cons e es ih =>
    cases dirs' with
    | nil =>
      rw [pathOf_cons] at h
      have h' : e ++ '/' :: pathOf es n = n' := h
      exact absurd (by rw [← h']; simp) h4
    | cons d ds =>
      rw [pathOf_cons, pathOf_cons] at h
      obtain ⟨rfl, h'⟩ := slash_inj (h1 _ (.head _)) (h3 _ (.head _)) h
      have := ih (fun x hx => h1 x (.tail _ hx)) (fun x hx => h3 x (.tail _ hx)) h'
      rw [Prod.mk.injEq] at this ⊢
      exact ⟨by rw [this.1], this.2⟩

/-! ## Extensions -/

theorem splitLastDot_none {s : Str} : splitLastDot s = none ↔ '.' ∉ s := by
  induction s with
  | nil => simp [splitLastDot]
  | cons c s ih =>
    simp only [splitLastDot]
    cases h : splitLastDot s with
    | some => simp [(not_congr ih).1 (by simp [h])]
    | none => by_cases hc : c = '.' <;> simp [hc, ih.1 h, eq_comm]

theorem splitLastDot_of {a b : Str} (h : '.' ∉ b) : splitLastDot (a ++ '.' :: b) = some (a, b) := by
  induction a with
  | nil => simp [splitLastDot, splitLastDot_none.2 h]
  | cons c a ih => simp [splitLastDot, ih]

theorem splitLastDot_some {s a b : Str} (h : splitLastDot s = some (a, b)) : s = a ++ '.' :: b ∧ '.' ∉ b := by
  induction s generalizing a with
  | nil => cases h
  | cons c s ih =>
    simp only [splitLastDot] at h
    cases hs : splitLastDot s with
    | some q =>
      rw [hs] at h
      obtain ⟨x, y⟩ := q
      cases h
      obtain ⟨rfl, h2⟩ := ih hs
      exact ⟨rfl, h2⟩
    | none =>
      rw [hs] at h
      by_cases hc : c = '.'
      · simp only [hc, if_true] at h
        cases h
        exact ⟨by rw [hc]; rfl, splitLastDot_none.1 hs⟩
      · simp [hc] at h

theorem extension_eq {name ext : Str} :
    extension name = some ext ↔ name ≠ c!".." ∧ ∃ stem, stem ≠ [] ∧ '.' ∉ ext ∧ name = stem ++ '.' :: ext := by
  unfold extension
  by_cases hd : name = c!".."
  · simp [hd]
  · rw [if_neg hd]
    constructor
    · intro h
      split at h
      next a stem ext' hs =>
        cases h
        obtain ⟨h1, h2⟩ := splitLastDot_some hs
        exact ⟨hd, _, List.cons_ne_nil _ _, h2, h1⟩
      next => cases h
    · rintro ⟨-, stem, h1, h2, rfl⟩
      rw [splitLastDot_of h2]
      cases stem with
      | nil => exact absurd rfl h1
      | cons => rfl

/-! ## Names of tests -/

/-- What becomes of a path in the name of a test. -/
def enc (s : Str) : Str :=
  s.flatMap fun c => if c = '/' then c!"__" else if c = '-' ∨ c = '.' then c!"_" else if (alnum c || c = '_') = true then [c] else []

theorem enc_eq (s : Str) :
    ((s.map fun c => if c = '-' ∨ c = '.' then '_' else c).flatMap fun c => if c = '/' then c!"__" else [c]).filter
      (fun c => alnum c || c = '_') = enc s := by
  induction s with
  | nil => rfl
  | cons c s ih =>
    rw [List.map_cons, List.flatMap_cons, List.filter_append, ih]
    unfold enc
    rw [List.flatMap_cons]
    congr 1
    by_cases h1 : c = '/'
    · subst h1; rfl
    · by_cases h2 : c = '-' ∨ c = '.'
      · rw [if_pos h2, if_neg h1, if_pos h2]; rfl
      · rw [if_neg h2, if_neg h1, if_neg h1, if_neg h2]
        by_cases h3 : (alnum c || decide (c = '_')) = true
        · rw [if_pos h3]; simp only [List.filter_cons, h3, if_true, List.filter_nil]
        · rw [if_neg h3]; simp only [List.filter_cons, h3, Bool.false_eq_true, if_false, List.filter_nil]

/-- Paths of plain names; whether a name starts here. -/
inductive Good : Bool → Str → Prop
  | nil : Good false []
  | ch {b : Bool} {c : Char} {s : Str} : Plain c → Good false s → Good b (c :: s)
  | us {c : Char} {s : Str} : Plain c → Good false s → Good true ('_' :: c :: s)
  | dash {c : Char} {s : Str} : Plain c → Good false s → Good false ('-' :: c :: s)
  | slash {s : Str} : Good true s → Good false ('/' :: s)

theorem plain_alnum {c : Char} (h : Plain c) : alnum c = true ∧ c ≠ '/' ∧ c ≠ '-' ∧ c ≠ '.' ∧ c ≠ '_' :=
  (by decide : ∀ c ∈ (c!"abcdefghijklmnopqrstuvwxyzABCDEFGHIJKLMNOPQRSTUVWXYZ0123456789"),
    alnum c = true ∧ c ≠ '/' ∧ c ≠ '-' ∧ c ≠ '.' ∧ c ≠ '_') c h

theorem enc_plain {c : Char} (h : Plain c) (s : Str) : enc (c :: s) = c :: enc s := by
  obtain ⟨h1, h2, h3, h4, -⟩ := plain_alnum h
  simp [enc, h1, h2, h3, h4]
theorem enc_us (s : Str) : enc ('_' :: s) = '_' :: enc s := rfl
theorem enc_dash (s : Str) : enc ('-' :: s) = '_' :: enc s := rfl
theorem enc_slash (s : Str) : enc ('/' :: s) = '_' :: '_' :: enc s := rfl

theorem enc_inj {b : Bool} {x : Str} (hx : Good b x) : ∀ {y : Str}, Good b y → enc x = enc y → x = y := by
  induction hx with
  | nil =>
    intro y hy h
    cases hy with
    | nil => rfl
    | ch hc => rw [enc_plain hc] at h; cases h
    | dash => rw [enc_dash] at h; cases h
    | slash => rw [enc_slash] at h; cases h
  | @ch b c s hc _ ih =>
    intro y hy h
    rw [enc_plain hc] at h
    have hu := (plain_alnum hc).2.2.2.2
    cases hy with
    | nil => cases h
    | ch hd hs => rw [enc_plain hd] at h; obtain ⟨rfl, h'⟩ := List.cons.inj h; rw [ih hs h']
    | us => rw [enc_us] at h; exact absurd (List.cons.inj h).1 hu
    | dash => rw [enc_dash] at h; exact absurd (List.cons.inj h).1 hu
    | slash => rw [enc_slash] at h; exact absurd (List.cons.inj h).1 hu
  | @us c s hc _ ih =>
    intro y hy h
    rw [enc_us, enc_plain hc] at h
    cases hy with
    | ch hd => rw [enc_plain hd] at h; exact absurd (List.cons.inj h).1.symm (plain_alnum hd).2.2.2.2
    | us hd hs =>
      rw [enc_us, enc_plain hd] at h
      obtain ⟨rfl, h'⟩ := List.cons.inj (List.cons.inj h).2
      rw [ih hs h']
  | @dash c s hc _ ih =>
    intro y hy h
    rw [enc_dash, enc_plain hc] at h
    cases hy with
    | nil => cases h
    | ch hd => rw [enc_plain hd] at h; exact absurd (List.cons.inj h).1.symm (plain_alnum hd).2.2.2.2
    | dash hd hs =>
      rw [enc_dash, enc_plain hd] at h
      obtain ⟨rfl, h'⟩ := List.cons.inj (List.cons.inj h).2
      rw [ih hs h']
    | slash =>
      rw [enc_slash] at h
      exact absurd (List.cons.inj (List.cons.inj h).2).1 (plain_alnum hc).2.2.2.2
  | @slash s _ ih =>
    intro y hy h
    rw [enc_slash] at h
    cases hy with
    | nil => cases h
    | ch hd => rw [enc_plain hd] at h; exact absurd (List.cons.inj h).1.symm (plain_alnum hd).2.2.2.2
    | dash hd hs =>
      rw [enc_dash, enc_plain hd] at h
      exact absurd (List.cons.inj (List.cons.inj h).2).1.symm (plain_alnum hd).2.2.2.2
    | slash hs =>
      rw [enc_slash] at h
      rw [ih hs (List.cons.inj (List.cons.inj h).2).2]

theorem good_word {w s : Str} (h : ∀ c ∈ w, Plain c) (hs : Good false s) : Good false (w ++ s) := by
  induction w with
  | nil => exact hs
  | cons c w ih => exact .ch (h c (.head _)) (ih fun d hd => h d (.tail _ hd))

/-- A plain name starts with a letter, a digit or an underscore and is good with what follows it. -/
theorem good_dashed {ws : List Str} {s : Str} (hn : ws ≠ []) (h : ∀ w ∈ ws, w ≠ [] ∧ ∀ c ∈ w, Plain c) (hs : Good false s) :
    ∃ c r, dashed ws ++ s = c :: r ∧ Plain c ∧ Good false r := by
  induction ws with
  | nil => exact absurd rfl hn
  | cons w ws ih =>
    obtain ⟨h1, h2⟩ := h w (.head _)
    cases w with
    | nil => exact absurd rfl h1
    | cons c w =>
      cases ws with
      | nil => exact ⟨c, w ++ s, rfl, h2 c (.head _), good_word (fun d hd => h2 d (.tail _ hd)) hs⟩
      | cons v ws =>
        obtain ⟨d, r, h3, h4, h5⟩ := ih nofun fun x hx => h x (.tail _ hx)
        refine ⟨c, w ++ '-' :: (dashed (v :: ws) ++ s), ?_, h2 c (.head _), good_word (fun d hd => h2 d (.tail _ hd)) ?_⟩
        · simp [dashed]
        · rw [h3]; exact .dash h4 h5

theorem good_name {n s : Str} (h : PlainName n) (hs : Good false s) : Good true (n ++ s) := by
  obtain ⟨ws, h1, h2, rfl | rfl⟩ := h
  · obtain ⟨c, r, h3, h4, h5⟩ := good_dashed h1 h2 hs
    rw [h3]; exact .ch h4 h5
  · obtain ⟨c, r, h3, h4, h5⟩ := good_dashed h1 h2 hs
    rw [List.cons_append, h3]; exact .us h4 h5

theorem good_path {dirs : List Str} {stem : Str} (h : ∀ d ∈ dirs, PlainName d) (hs : PlainName stem) : Good true (pathOf dirs stem) := by
  induction dirs with
  | nil => simpa [pathOf] using good_name hs .nil
  | cons d ds ih => rw [pathOf_cons]; exact good_name (h d (.head _)) (.slash (ih fun x hx => h x (.tail _ hx)))

theorem pathOf_append (dirs : List Str) (a b : Str) : pathOf dirs (a ++ b) = pathOf dirs a ++ b := by
  simp [pathOf]

theorem createIdentifier_eq (a ext : Str) : createIdentifier (a ++ '.' :: ext) ext =
    match enc a with
    | [] => none
    | c :: cs => if '0' ≤ c ∧ c ≤ '9' then none else some (c :: cs) := by
  unfold createIdentifier
  have : (a ++ '.' :: ext).take ((a ++ '.' :: ext).length - (ext.length + 1)) = a := by simp
  simp only [this, enc_eq]
  cases enc a <;> rfl

theorem enc_good {s : Str} (h : Good true s) : ∃ c r, s = c :: r ∧ ∃ r', enc s = c :: r' := by
  cases h with
  | ch h => exact ⟨_, _, rfl, _, enc_plain h _⟩
  | us h => exact ⟨_, _, rfl, _, enc_us _⟩

end TestFiles
end Fajt
