import Verif.Proofs.TestFiles
/-!
# Every snapshot file is a test (C59)

`for_each_file` walks through a folder when the tests are compiled; every Markdown file becomes a test that runs the snapshot runner (C58).
-/
set_option linter.unusedSectionVars false
namespace Fajt.Props
open Fajt Spec Fajt.TestFiles Fajt.Spec.TestFiles

/-- **C59**, extensions: what is behind the last dot, if something is in front of it. -/
theorem C59_extension (name ext : Str) :
    extension name = some ext ↔ name ≠ c!".." ∧ ∃ stem, stem ≠ [] ∧ '.' ∉ ext ∧ name = stem ++ '.' :: ext :=
  extension_eq

/-- **C59**, the walk. It panics exactly if there is a file without an extension, however deep; otherwise it finds the files of the folder and of
all its directories, and nothing else, with their path, their path relative to the folder and their extension. -/
theorem C59_walk (root : Str) (es : List Entry) :
    (findFiles root [] es = none ↔ ∃ dirs name, Located es dirs name ∧ extension name = none) ∧
      ∀ fs, findFiles root [] es = some fs → ∀ f, f ∈ fs ↔ ∃ dirs name, Located es dirs name ∧
        f.path = root ++ '/' :: pathOf dirs name ∧ f.relativePath = pathOf dirs name ∧ extension name = some f.extension := by
  rw [findFiles_eq]
  constructor
  · rw [mapO_none]
    constructor
    · rintro ⟨⟨dirs, n⟩, h1, h2⟩
      exact ⟨dirs, n, located.2 h1, by simpa [fileAt] using h2⟩
    · rintro ⟨dirs, n, h1, h2⟩
      exact ⟨(dirs, n), located.1 h1, by simp [fileAt, h2]⟩
  · intro fs h f
    rw [mapO_mem h]
    constructor
    · rintro ⟨⟨dirs, n⟩, h1, h2⟩
      simp only [fileAt, Option.map_eq_some_iff] at h2
      obtain ⟨ext, h2, rfl⟩ := h2
      exact ⟨dirs, n, located.2 h1, rfl, rfl, h2⟩
    · rintro ⟨dirs, n, h1, h2, h3, h4⟩
      refine ⟨(dirs, n), located.1 h1, ?_⟩
      simp only [fileAt, h4, Option.map_some, List.nil_append, Option.some.injEq]
      rw [← h2, ← h3]

/-- **C59**, the walk finds each file once. -/
theorem C59_once (root : Str) (es : List Entry) (hf : Folder es) (fs : List File) (h : findFiles root [] es = some fs) :
    (fs.map (·.path)).Nodup ∧ (fs.map (·.relativePath)).Nodup := by
  rw [findFiles_eq] at h
  have key : ∀ x ∈ locs es, ∀ x' ∈ locs es, pathOf x.1 x.2 = pathOf x'.1 x'.2 → x = x' := by
    rintro ⟨dirs, n⟩ hx ⟨dirs', n'⟩ hx' h
    obtain ⟨h1, h2⟩ := located_slash (located.2 hx) hf
    obtain ⟨h3, h4⟩ := located_slash (located.2 hx') hf
    exact pathOf_inj h1 h2 h3 h4 h
  constructor
  · refine mapO_nodup h (locs_nodup es hf) fun x hx x' hx' y y' hy hy' he => ?_
    simp only [fileAt, Option.map_eq_some_iff] at hy hy'
    obtain ⟨_, -, rfl⟩ := hy
    obtain ⟨_, -, rfl⟩ := hy'
    exact key x hx x' hx' (List.cons.inj (List.append_cancel_left he)).2
  · refine mapO_nodup h (locs_nodup es hf) fun x hx x' hx' y y' hy hy' he => ?_
    simp only [fileAt, Option.map_eq_some_iff] at hy hy'
    obtain ⟨_, -, rfl⟩ := hy
    obtain ⟨_, -, rfl⟩ := hy'
    exact key x hx x' hx' he

theorem invocations_mem {fs : List File} {ts : List Test} (h : invocations fs = some ts) (t : Test) :
    t ∈ ts ↔ ∃ f ∈ fs, ∃ i, createIdentifier f.relativePath f.extension = some i ∧ t ∈ generateTestCases f.extension f.path i := by
  induction fs generalizing ts with
  | nil => cases h; simp
  | cons f fs ih =>
    simp only [invocations, Option.bind_eq_bind, Option.bind_eq_some_iff, Option.pure_def, Option.some.injEq] at h
    obtain ⟨i, h1, more, h2, rfl⟩ := h
    rw [List.mem_append, ih h2]
    simp only [List.mem_cons, or_and_right, exists_or, exists_eq_left, h1, Option.some.injEq]
    constructor
    · rintro (h | h)
      · exact .inl ⟨i, rfl, h⟩
      · exact .inr h
    · rintro (⟨_, rfl, h⟩ | h)
      · exact .inl h
      · exact .inr h

/-- **C59**, the tests: one that is run for every file with the extension `md` and one that is ignored for every file with the extension
`md_ignore`, and no others. -/
theorem C59_tests (root : Str) (es : List Entry) (ts : List Test) (h : forEachFile root es = some ts) (path : Str) (ignored : Bool) :
    (∃ t ∈ ts, t.path = path ∧ t.ignored = ignored) ↔ ∃ dirs name, Located es dirs name ∧ path = root ++ '/' :: pathOf dirs name ∧
      extension name = some (if ignored then c!"md_ignore" else c!"md") := by
  simp only [forEachFile, Option.bind_eq_some_iff] at h
  obtain ⟨fs, h1, h2⟩ := h
  have hw := (C59_walk root es).2 fs h1
  constructor
  · rintro ⟨t, ht, rfl, rfl⟩
    obtain ⟨f, h3, i, -, h5⟩ := (invocations_mem h2 t).1 ht
    obtain ⟨dirs, n, h6, h7, -, h8⟩ := (hw f).1 h3
    refine ⟨dirs, n, h6, ?_⟩
    unfold generateTestCases at h5
    split at h5
    next he => rw [List.mem_singleton] at h5; subst h5; exact ⟨h7, by rw [h8, he]; rfl⟩
    next =>
      split at h5
      next he => rw [List.mem_singleton] at h5; subst h5; exact ⟨h7, by rw [h8, he]; rfl⟩
      next => cases h5
  · rintro ⟨dirs, n, h6, rfl, h8⟩
    have hm := (hw ⟨root ++ '/' :: pathOf dirs n, pathOf dirs n, _⟩).2 ⟨dirs, n, h6, rfl, rfl, h8⟩
    have hi : ∀ (fs : List File) (ts : List Test), invocations fs = some ts → ∀ f ∈ fs, ∃ i, createIdentifier f.relativePath f.extension = some i := by
      intro fs
      induction fs with
      | nil => intro _ _ f hf; cases hf
      | cons g fs ih =>
        intro ts h f hf
        simp only [invocations, Option.bind_eq_bind, Option.bind_eq_some_iff, Option.pure_def, Option.some.injEq] at h
        obtain ⟨i, h1, more, h2, -⟩ := h
        rcases List.mem_cons.1 hf with rfl | hf
        · exact ⟨i, h1⟩
        · exact ih more h2 f hf
    obtain ⟨i, h3⟩ := hi fs ts h2 _ hm
    refine ⟨⟨i, root ++ '/' :: pathOf dirs n, ignored⟩, (invocations_mem h2 _).2 ⟨_, hm, i, h3, ?_⟩, rfl, rfl⟩
    cases ignored
    · exact .head _
    · exact .head _

/-- **C59**, names. If every name is plain (words of letters and digits with single dashes between them, perhaps behind an underscore), every
file has the extension `md` and no name in the folder itself starts with a digit, then the tests can be generated, and they have different names. -/
theorem C59_names (root : Str) (es : List Entry) (hf : Folder es)
    (hp : ∀ dirs name, Located es dirs name → (∀ d ∈ dirs, PlainName d) ∧ ∃ stem, PlainName stem ∧ name = stem ++ c!".md")
    (hd : ∀ dirs name, Located es dirs name → ∀ c ∈ (pathOf dirs name).head?, ¬ ('0' ≤ c ∧ c ≤ '9')) :
    ∃ ts, forEachFile root es = some ts ∧ (ts.map (·.name)).Nodup ∧ (ts.map (·.path)).Nodup ∧ ∀ t ∈ ts, t.ignored = false := by
  have stem_ne : ∀ s, PlainName s → s ≠ [] := by
    rintro s h rfl
    have := good_name h .nil
    cases this
  have ext_md : ∀ dirs name, Located es dirs name → extension name = some c!"md" := by
    intro dirs name h
    obtain ⟨-, stem, h1, rfl⟩ := hp dirs name h
    refine extension_eq.2 ⟨fun h => ?_, stem, stem_ne stem h1, by decide, rfl⟩
    have := congrArg List.reverse h
    simp at this
  have hfs : findFiles root [] es ≠ none := fun h => by
    obtain ⟨dirs, n, h1, h2⟩ := (C59_walk root es).1.1 h
    rw [ext_md dirs n h1] at h2; cases h2
  obtain ⟨fs, hfs⟩ := Option.ne_none_iff_exists'.1 hfs
  have hw := (C59_walk root es).2 fs hfs
  have ⟨hn1, hn2⟩ := C59_once root es hf fs hfs
  -- every file gives one test
  have hfile : ∀ f ∈ fs, f.extension = c!"md" ∧ ∃ p, f.relativePath = p ++ c!".md" ∧ Good true p ∧
      createIdentifier f.relativePath f.extension = some (enc p) := by
    intro f h
    obtain ⟨dirs, n, h1, -, h3, h4⟩ := (hw f).1 h
    have he : f.extension = c!"md" := by rw [ext_md dirs n h1] at h4; exact (Option.some.inj h4).symm
    obtain ⟨h5, stem, h6, rfl⟩ := hp dirs n h1
    have hg := good_path h5 h6
    rw [pathOf_append] at h3
    refine ⟨he, pathOf dirs stem, h3, hg, ?_⟩
    have hdig := hd _ _ h1
    rw [h3, he]
    obtain ⟨c, r, h7, r', h8⟩ := enc_good hg
    rw [pathOf_append, h7] at hdig
    show createIdentifier (pathOf dirs stem ++ '.' :: c!"md") c!"md" = _
    rw [createIdentifier_eq, h8]
    exact if_neg (hdig c rfl)
  have hinv : ∀ fs : List File, (∀ f ∈ fs, f.extension = c!"md" ∧ ∃ p, f.relativePath = p ++ c!".md" ∧ Good true p ∧
      createIdentifier f.relativePath f.extension = some (enc p)) →
      invocations fs = some (fs.map fun f => ⟨(createIdentifier f.relativePath f.extension).getD [], f.path, false⟩) := by
    intro fs
    induction fs with
    | nil => intro _; rfl
    | cons f fs ih =>
      intro h
      obtain ⟨h1, p, -, -, h2⟩ := h f (.head _)
      rw [invocations, ih fun g hg => h g (.tail _ hg), h2]
      simp [generateTestCases, h1]
      rw [h1] at h2
      rw [h2]; rfl
  refine ⟨_, by rw [forEachFile, hfs]; exact hinv fs hfile, ?_, ?_, ?_⟩
  · rw [List.map_map]
    have : ∀ gs : List File, (∀ f ∈ gs, f ∈ fs) → (gs.map (·.relativePath)).Nodup →
        (gs.map ((fun t : Test => t.name) ∘ fun f => ⟨(createIdentifier f.relativePath f.extension).getD [], f.path, false⟩)).Nodup := by
      intro gs
      induction gs with
      | nil => intro _ _; simp
      | cons g gs ih =>
        intro hs hn
        rw [List.map_cons, List.nodup_cons] at hn ⊢
        refine ⟨fun hm => ?_, ih (fun f h => hs f (.tail _ h)) hn.2⟩
        obtain ⟨g', h1, h2⟩ := List.mem_map.1 hm
        obtain ⟨-, p, h3, h4, h5⟩ := hfile g (hs g (.head _))
        obtain ⟨-, p', h3', h4', h5'⟩ := hfile g' (hs g' (.tail _ h1))
        simp only [Function.comp_apply, h5, h5', Option.getD_some] at h2
        have := enc_inj h4' h4 h2
        exact hn.1 (List.mem_map.2 ⟨g', h1, by rw [h3', h3, this]⟩)
    exact this fs (fun _ h => h) hn2
  · rw [List.map_map]; exact hn1
  · intro t ht
    obtain ⟨f, -, rfl⟩ := List.mem_map.1 ht
    rfl

section
variable [UnicodeID]

/-- **C59**, the suite: all its tests pass exactly if the snapshot runner passes on every file with the extension `md` in the folder and its
directories. -/
theorem C59_suite (dbg : DebugFmt) (contents : Str → Str) (root : Str) (es : List Entry) (ts : List Test) (h : forEachFile root es = some ts) :
    (∀ t ∈ ts, t.ignored = false → Snapshot.runTest dbg (contents t.path) = .pass) ↔
      ∀ dirs name, Located es dirs name → extension name = some c!"md" →
        Snapshot.runTest dbg (contents (root ++ '/' :: pathOf dirs name)) = .pass := by
  constructor
  · intro hr dirs n h1 h2
    obtain ⟨t, h3, h4, h5⟩ := (C59_tests root es ts h _ false).2 ⟨dirs, n, h1, rfl, h2⟩
    exact h4 ▸ hr t h3 h5
  · intro hr t ht hi
    obtain ⟨dirs, n, h1, h2, h3⟩ := (C59_tests root es ts h t.path false).1 ⟨t, ht, rfl, hi⟩
    rw [h2]; exact hr dirs n h1 h3

end

/-! ## Concrete cases -/

/-- A part of the folder `stmt` of the repository. -/
def someFolder : List Entry :=
  [.dir c!"for-loop" [.file c!"_error-for-of-lhs-non-simple.md", .file c!"for-in.md"], .file c!"empty.md", .other c!"link"]

theorem someFolder_folder : Folder someFolder := by
  refine .mk (by decide) (by decide) fun d sub h => ?_
  simp only [someFolder, List.mem_cons, Entry.dir.injEq, reduceCtorEq, List.not_mem_nil, or_false] at h
  obtain ⟨-, rfl⟩ := h
  refine .mk (by decide) (by decide) fun d sub h => ?_
  simp at h

theorem plain_words (ws : List Str) (b : Bool) (h : (ws ≠ [] ∧ ∀ w ∈ ws, w ≠ [] ∧ ∀ c ∈ w,
    c ∈ (c!"abcdefghijklmnopqrstuvwxyzABCDEFGHIJKLMNOPQRSTUVWXYZ0123456789"))) :
    PlainName (if b then '_' :: dashed ws else dashed ws) :=
  ⟨ws, h.1, h.2, by cases b <;> simp⟩

/-- The hypotheses of `C59_names` hold of the folder. -/
example : ∃ ts, forEachFile c!"/r" someFolder = some ts ∧ (ts.map (·.name)).Nodup ∧ (ts.map (·.path)).Nodup ∧ ∀ t ∈ ts, t.ignored = false := by
  refine C59_names _ _ someFolder_folder (fun dirs n h => ?_) (fun dirs n h => ?_)
  · have h := located.1 h
    simp only [someFolder, locs, entryLocs, List.map_cons, List.map_nil, List.nil_append, List.append_nil, List.cons_append, List.mem_cons,
      Prod.mk.injEq, List.not_mem_nil, or_false] at h
    have hd : ∀ d ∈ [c!"for-loop"], PlainName d := by
      intro d hd
      rw [List.mem_singleton] at hd
      subst hd
      exact plain_words [c!"for", c!"loop"] false (by decide)
    rcases h with ⟨rfl, rfl⟩ | ⟨rfl, rfl⟩ | ⟨rfl, rfl⟩
    · exact ⟨hd, _, plain_words [c!"error", c!"for", c!"of", c!"lhs", c!"non", c!"simple"] true (by decide), rfl⟩
    · exact ⟨hd, _, plain_words [c!"for", c!"in"] false (by decide), rfl⟩
    · exact ⟨nofun, _, plain_words [c!"empty"] false (by decide), rfl⟩
  · have h := located.1 h
    simp only [someFolder, locs, entryLocs, List.map_cons, List.map_nil, List.nil_append, List.append_nil, List.cons_append, List.mem_cons,
      Prod.mk.injEq, List.not_mem_nil, or_false] at h
    rcases h with ⟨rfl, rfl⟩ | ⟨rfl, rfl⟩ | ⟨rfl, rfl⟩ <;> decide

theorem C59_runs : forEachFile c!"/r" someFolder = some
    [⟨c!"for_loop___error_for_of_lhs_non_simple", c!"/r/for-loop/_error-for-of-lhs-non-simple.md", false⟩,
      ⟨c!"for_loop__for_in", c!"/r/for-loop/for-in.md", false⟩, ⟨c!"empty", c!"/r/empty.md", false⟩] := by decide +kernel

/-- **C59** departures. A file without an extension, such as a hidden one, stops the compilation of the tests; so does a name that starts with a
digit; two files whose names differ in a dash, an underscore or a dot get tests of the same name (which do not compile), and so do files in different
directories. -/
theorem C59_counterexamples :
    forEachFile c!"/r" [.file c!"a.md", .dir c!"b" [.file c!".gitignore"]] = none ∧
    forEachFile c!"/r" [.file c!"1.md"] = none ∧
    (forEachFile c!"/r" [.file c!"a-b.md", .file c!"a_b.md", .file c!"a.b.md", .file c!"a--b.md", .dir c!"a" [.file c!"b.md"]]).map
      (·.map (·.name)) = some [c!"a_b", c!"a_b", c!"a_b", c!"a__b", c!"a__b"] := by decide +kernel

end Fajt.Props
