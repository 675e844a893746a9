import Verif.Model.Snapshot
import Verif.Proofs.JsonText
import Verif.Props.Markdown
/-!
# The snapshot runner
-/
set_option linter.unusedSectionVars false
namespace Fajt.Snapshot
open Fajt Spec Fajt.Markdown Fajt.Spec.Markdown Fajt.Props
variable [UnicodeID]

mutual
theorem sameJson_iff (a b : Json) : sameJson a b = true ↔ a = b := by
  match a, b with
  | .null, .null => simp [sameJson]
  | .bool a, .bool b => simp [sameJson]
  | .str a, .str b => simp [sameJson]
  | .arr a, .arr b => rw [sameJson, sameItems_iff, Json.arr.injEq]
  | .obj a, .obj b => rw [sameJson, sameFields_iff, Json.obj.injEq]
  | .null, .bool _ | .null, .str _ | .null, .arr _ | .null, .obj _ => simp [sameJson]
  | .bool _, .null | .bool _, .str _ | .bool _, .arr _ | .bool _, .obj _ => simp [sameJson]
  | .str _, .null | .str _, .bool _ | .str _, .arr _ | .str _, .obj _ => simp [sameJson]
  | .arr _, .null | .arr _, .bool _ | .arr _, .str _ | .arr _, .obj _ => simp [sameJson]
  | .obj _, .null | .obj _, .bool _ | .obj _, .str _ | .obj _, .arr _ => simp [sameJson]
theorem sameItems_iff (a b : List Json) : sameItems a b = true ↔ a = b := by
  match a, b with
  | [], [] => simp [sameItems]
  | v :: vs, w :: ws => rw [sameItems, Bool.and_eq_true, sameJson_iff, sameItems_iff, List.cons.injEq]
  | [], _ :: _ | _ :: _, [] => simp [sameItems]
theorem sameFields_iff (a b : List (Str × Json)) : sameFields a b = true ↔ a = b := by
  match a, b with
  | [], [] => simp [sameFields]
  | (k, v) :: vs, (l, w) :: ws =>
    rw [sameFields, Bool.and_eq_true, Bool.and_eq_true, sameJson_iff, sameFields_iff, List.cons.injEq, Prod.mk.injEq, beq_iff_eq]
  | [], _ :: _ | _ :: _, [] => simp [sameFields]
end

/-- Rewriting the file with a block that need not end in a line feed. -/
theorem regenerate (file : Str) (m : List Section) (h : fromString file = some m) (hi : ∀ s ∈ m, ¬ Indented s)
    (name language contents : Str) (hn : (getSection m name).isSome) (hb : BlockOk ⟨language, contents⟩) :
    ∃ m', fromString (fileOf (docStr (setBlockContent m name language contents))) = some m' ∧
      getBlock m' name = some ⟨language, endLine contents⟩ ∧
      (∀ other, other ≠ name → getSection m' other = (getSection m other).map closeSection) := by
  obtain ⟨s, hs⟩ := Option.isSome_iff_exists.1 hn
  have hok := read_ok h hi
  refine ⟨(setBlockContent m name language contents).map closeSection, ?_, ?_, ?_⟩
  · apply C55_roundtrip _ _ _ c!"\n" (by decide)
    · cases m with
      | nil => cases hs
      | cons x m => rw [setBlockContent]; split <;> simp
    · intro x hx
      rcases set_mem hx with hx | ⟨s0, h1, rfl⟩
      · exact hok x hx
      · have := hok s0 h1
        exact ⟨this.oneLine, this.trimmed, this.text, fun b hb' => by cases hb'; exact hb⟩
  · unfold getBlock
    rw [get_close, get_set_same hs]
    simp [closeSection]
  · intro other ho
    rw [get_close, get_set_other ho]

/-- The contents of a block do not change when the file is rewritten, unless they are empty. -/
theorem block_kept {file : Str} {m m' : List Section} {name : Str} {b : CodeBlock} (h : fromString file = some m)
    (hb : getBlock m name = some b) (hne : b.contents ≠ []) (hm : getSection m' name = (getSection m name).map closeSection) :
    getBlock m' name = some b := by
  unfold getBlock at hb ⊢
  cases hs : getSection m name with
  | none => rw [hs] at hb; cases hb
  | some s =>
    rw [hs] at hb
    rw [hm, hs]
    have hb : s.block = some b := hb
    have hmem : s ∈ m := List.mem_of_find?_eq_some hs
    have hc := (C55_contents_end file m h s hmem b hb).resolve_left hne
    show (closeSection s).block = some b
    simp [closeSection, hb, endLine, hc]

/-- What a run can be, after parsing, when the file is rewritten: the tree of an accepted source, or the error of a rejected one. -/
theorem checkResult_rewritten {T : Type} [Tree T] {dbg : DebugFmt} {m : List Section} {result : Except PErr T} {source file : Str}
    (h : checkResult dbg m result source = some (some file)) :
    (∃ t, result = .ok t ∧ (getSection m c!"Output: ast").isSome ∧ getSection m c!"Output: error" = none ∧
      file = fileOf (docStr (setBlockContent m c!"Output: ast" c!"json" (JsonText.pretty 0 (Tree.toJson t))))) ∨
    (∃ e msg, result = .error e ∧ Emitter.emit dbg c!"test.js" source e = some msg ∧ getSection m c!"Output: ast" = none ∧
      (getSection m c!"Output: error").isSome ∧ file = fileOf (docStr (setBlockContent m c!"Output: error" c!"txt" msg))) := by
  unfold checkResult at h
  cases ha : checkAst m result with
  | none => rw [ha] at h; cases h
  | some ra =>
    cases he : checkError dbg m result source with
    | none => rw [ha, he] at h; cases h
    | some re =>
      rw [ha, he] at h
      simp only [Option.bind_eq_bind, Option.bind_some] at h
      unfold checkAst at ha
      unfold checkError at he
      cases result with
      | ok t =>
        cases hse : getSection m c!"Output: error" with
        | some s => rw [hse] at he; cases he
        | none =>
          rw [hse] at he
          cases he
          cases hsa : getSection m c!"Output: ast" with
          | none =>
            rw [hsa] at ha
            cases ha
            cases h
          | some s =>
            rw [hsa] at ha
            cases ra with
            | false => cases h
            | true => cases h; exact .inl ⟨t, rfl, rfl, rfl, rfl⟩
      | error e =>
        cases hsa : getSection m c!"Output: ast" with
        | some s =>
          rw [hsa] at ha
          cases hb : s.block with
          | some b => simp only [hb, assertAst] at ha; cases ha
          | none =>
            simp only [hb] at ha
            cases ha
            cases h
        | none =>
          rw [hsa] at ha
          cases ha
          cases hse : getSection m c!"Output: error" with
          | none =>
            rw [hse] at he
            cases he
            cases h
          | some s =>
            rw [hse] at he
            cases hm : Emitter.emit dbg c!"test.js" source e with
            | none => simp only [errorToMessage, hm] at he; cases he
            | some msg =>
              cases re with
              | none => cases h
              | some msg' =>
                simp only [errorToMessage, hm] at he
                split at he
                · split at he <;> cases he
                · cases he
                  cases h
                  exact .inr ⟨e, msg, rfl, hm, rfl, rfl, rfl⟩

theorem jsonOk : '\n' ∉ c!"json" ∧ trim c!"json" = c!"json" ∧ ¬ c!"```" <+: c!"json" := by decide

/-- The second run after the tree has been written. -/
theorem again_ast {T : Type} [Tree T] {dbg : DebugFmt} {data : Str} {m : List Section} {t : T} {source : Str}
    (h : fromString data = some m) (hi : ∀ s ∈ m, ¬ Indented s) (ha : (getSection m c!"Output: ast").isSome)
    (he : getSection m c!"Output: error" = none) (ht : Tree.fromJson (Tree.toJson t) = .ok t) :
    ∃ m', fromString (fileOf (docStr (setBlockContent m c!"Output: ast" c!"json" (JsonText.pretty 0 (Tree.toJson t))))) = some m' ∧
      getSection m' c!"Source" = (getSection m c!"Source").map closeSection ∧
      checkResult dbg m' (.ok t) source = if nesting (Tree.toJson t) < 128 then some none else none := by
  obtain ⟨m', h1, h2, h3⟩ := regenerate data m h hi c!"Output: ast" c!"json" (JsonText.pretty 0 (Tree.toJson t)) ha
    ⟨jsonOk.1, jsonOk.2.1, jsonOk.2.2, JsonText.plain_pretty _ _⟩
  refine ⟨m', h1, h3 _ (by decide), ?_⟩
  have h4 : getSection m' c!"Output: error" = none := by rw [h3 _ (by decide), he]; rfl
  have h5 : JsonText.parse (endLine (JsonText.pretty 0 (Tree.toJson t))) = if nesting (Tree.toJson t) < 128 then some (Tree.toJson t) else none := by
    unfold endLine
    rw [if_neg (JsonText.pretty_no_line_end _ _)]
    exact JsonText.parse_pretty _ _ (by decide)
  unfold getBlock at h2
  cases hs : getSection m' c!"Output: ast" with
  | none => rw [hs] at h2; cases h2
  | some s =>
    rw [hs] at h2
    have hb : s.block = some ⟨c!"json", endLine (JsonText.pretty 0 (Tree.toJson t))⟩ := h2
    simp only [checkResult, checkAst, checkError, hs, hb, h4, assertAst, h5]
    by_cases hn : nesting (Tree.toJson t) < 128
    · simp [hn, ht, (sameJson_iff _ _).2]
    · simp [hn]

/-- The second run after the error has been written. -/
theorem again_error {T : Type} [Tree T] {dbg : DebugFmt} {data : Str} {m : List Section} {e : PErr} {source msg : Str}
    (h : fromString data = some m) (hi : ∀ s ∈ m, ¬ Indented s) (ha : getSection m c!"Output: ast" = none)
    (he : (getSection m c!"Output: error").isSome) (hm : Emitter.emit dbg c!"test.js" source e = some msg) (hp : PlainLines msg) :
    ∃ m', fromString (fileOf (docStr (setBlockContent m c!"Output: error" c!"txt" msg))) = some m' ∧
      getSection m' c!"Source" = (getSection m c!"Source").map closeSection ∧
      checkResult dbg m' (.error e : Except PErr T) source = some none := by
  obtain ⟨m', h1, h2, h3⟩ := regenerate data m h hi c!"Output: error" c!"txt" msg he ⟨txtOk.1, txtOk.2.1, txtOk.2.2, hp⟩
  refine ⟨m', h1, h3 _ (by decide), ?_⟩
  have h4 : getSection m' c!"Output: ast" = none := by rw [h3 _ (by decide), ha]; rfl
  have h5 : endLine msg = msg := by unfold endLine; rw [if_pos (emit_ends hm)]
  rw [h5] at h2
  unfold getBlock at h2
  cases hs : getSection m' c!"Output: error" with
  | none => rw [hs] at h2; cases h2
  | some s =>
    rw [hs] at h2
    have hb : s.block = some ⟨c!"txt", msg⟩ := h2
    simp [checkResult, checkAst, checkError, hs, hb, h4, errorToMessage, hm]

/-! ## Attributes -/

theorem splitChar_none {k : Char} {w : Str} (h : k ∉ w) : splitChar k w = [w] := by
  induction w with
  | nil => rfl
  | cons c w ih => simp [splitChar, ih fun hm => h (.tail _ hm), show ¬ c = k from fun e => h (e ▸ .head _)]

theorem splitChar_ne (k : Char) (w : Str) : splitChar k w ≠ [] := by
  cases w with
  | nil => simp [splitChar]
  | cons c w =>
    rw [splitChar]
    split
    · simp
    · split <;> simp

theorem splitChar_cons {k : Char} {w r : Str} (h : k ∉ w) : splitChar k (w ++ k :: r) = w :: splitChar k r := by
  induction w with
  | nil => simp [splitChar]
  | cons c w ih =>
    have hc : ¬ c = k := fun e => h (e ▸ .head _)
    rw [List.cons_append, splitChar, if_neg hc, ih fun hm => h (.tail _ hm)]

theorem splitChar_last {k : Char} {w v : Str} (h : k ∉ v) :
    2 ≤ (splitChar k (w ++ k :: v)).length ∧ (splitChar k (w ++ k :: v)).getLast? = some v := by
  induction w with
  | nil => simp [splitChar, splitChar_none h]
  | cons c w ih =>
    rw [List.cons_append, splitChar]
    split
    · exact ⟨by rw [List.length_cons]; omega, by rw [List.getLast?_cons, ih.2]; rfl⟩
    · cases hs : splitChar k (w ++ k :: v) with
      | nil => exact absurd hs (splitChar_ne _ _)
      | cons x t =>
        rw [hs] at ih
        cases t with
        | nil => simp at ih
        | cons y t => exact ⟨by simp, by simpa using ih.2⟩

theorem splitChar_words {ws : List Str} (hn : ws ≠ []) (h : ∀ w ∈ ws, ' ' ∉ w) : splitChar ' ' ([' '].intercalate ws) = ws := by
  induction ws with
  | nil => exact absurd rfl hn
  | cons w ws ih =>
    cases ws with
    | nil => simpa [List.intercalate] using splitChar_none (h w (.head _))
    | cons v ws =>
      have := ih nofun fun x hx => h x (.tail _ hx)
      rw [show [' '].intercalate (w :: v :: ws) = w ++ ' ' :: [' '].intercalate (v :: ws) by simp [List.intercalate, List.intersperse],
        splitChar_cons (h w (.head _)), this]

end Fajt.Snapshot
