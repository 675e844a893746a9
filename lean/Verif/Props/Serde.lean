import Verif.Props.ParserTree
import Verif.Proofs.SpansTree
import Verif.Proofs.SerdeProgram
import Verif.Proofs.SerdePanic
import Verif.Proofs.SerdeShape
/-!
# Serialised trees (C53), and every span of a tree (C22)

`toJson` and `fromJson` (`Verif.Model.Serde`) are the derived serde implementations; `AllSpans P` (`Verif.Spec.AllSpans`) says that every
span anywhere in a tree has the property `P`.
-/
namespace Fajt.Props
open Fajt Fajt.Parser Fajt.Spec Fajt.Serde
set_option linter.unusedSectionVars false

section
variable [UnicodeID]

/-! ## C22: every span of a tree -/

/-- The span of a missing name: empty, at the start of a token. -/
def MissingName (src : Str) (sp : Span) : Prop := sp.start = sp.stop ∧ ∃ (t : Token) (pre w rest : Str), TokAt src t pre w rest ∧ sp.start = t.span.start

theorem covering {P : Span → Prop} {src : Str} {ts : List Token} (h : SourceTokens [] true src ts) (hc : ∀ sp, CoversTokens src sp → P sp)
    (hm : ∀ sp, MissingName src sp → P sp) : Covering P ts where
  spans sp us hi hs := hc sp (spans_covers h hi hs)
  empty t ht := by
    obtain ⟨q, w, rest, hq⟩ := h.mem ht
    exact hm _ ⟨rfl, t, q, w, rest, hq, rfl⟩

theorem all_of_covers {P : Span → Prop} {styp : SourceType} {src : Str} {p : Program} (h : Accepts styp src p)
    (hc : ∀ sp, CoversTokens src sp → P sp) (hm : ∀ sp, MissingName src sp → P sp) : allStmts P p.body := by
  obtain ⟨ts, h1, h2⟩ := h.sound
  obtain ⟨ps, qs, e, h3, h4, h5, h6, h7⟩ := h2.parts
  rw [h6]
  refine allStmts_of (of_trees fun q hq => ?_)
  exact (h5 q hq).allSpans ((covering h1 hc hm).sub (by rw [e]; exact infix_right (toks_infix hq)))

/-- **C22**, every span: also those that are not spans of nodes (identifiers and labels, argument lists, parameters, `super`, named
imports and exports, ..) cover whole tokens of the source; the only exceptions are the empty spans of the missing names in default
exports, which stand at the start of a token, and the span of a program without tokens. -/
theorem C22_every_span {styp : SourceType} {src : Str} {p : Program} (h : Accepts styp src p) :
    (CoversTokens src p.span ∨ p.span = ⟨0, 0⟩ ∧ p.body = [] ∧ p.directives = []) ∧
      allStmts (fun sp => CoversTokens src sp ∨ MissingName src sp) p.body := by
  obtain ⟨ts, h1, h2⟩ := h.sound
  obtain ⟨ps, qs, e, h3, h4, h5, h6, h7⟩ := h2.parts
  refine ⟨?_, all_of_covers h (fun _ => .inl) fun _ => .inr⟩
  · have hs := h2.span
    split at hs
    next hn =>
      have hne : ∀ E ctx (q : Stmt × List Token), D E ctx (.item q.1) q.2 → q.2 ≠ [] := by
        intro E ctx q hq he
        obtain ⟨a, b, ha, -⟩ := hq.span (.stmt q.1) rfl (stmtSpan q.1) rfl
        rw [he] at ha
        cases ha
      have hz : ∀ l : List (Stmt × List Token), (∀ q ∈ l, q.2 ≠ []) → toks l = [] → l = [] := by
        intro l hl ht
        cases l with
        | nil => rfl
        | cons q l =>
          have h0 : q.2 = [] := List.infix_nil.1 (ht ▸ toks_infix (List.mem_cons_self ..))
          exact absurd h0 (hl q (List.mem_cons_self ..))
      rw [hn] at e
      obtain ⟨e1, e2⟩ := List.append_eq_nil_iff.1 e.symm
      have e3 := hz ps (fun q hq => hne _ _ q (h3 q hq)) e1
      have e4 := hz qs (fun q hq => hne _ _ q (h5 q hq)) e2
      subst e3 e4
      refine .inr ⟨hs, h6, ?_⟩
      generalize p.directives = ds at h4
      generalize hss : trees ([] : List (Stmt × List Token)) = ss at h4
      cases h4 with
      | nil => rfl
      | snoc _ _ => simp [trees] at hss
    next => exact .inl (spans_covers h1 (List.infix_refl _) hs)

theorem tok_bounds {src : Str} {t : Token} {pre w rest : Str} (h : TokAt src t pre w rest) :
    t.span.start ≤ t.span.stop ∧ t.span.stop ≤ byteLen src := by
  obtain ⟨rfl, hw, -, hs⟩ := h
  rw [hs]
  refine ⟨?_, ?_⟩
  · exact posAfter_mono _ _
  · have := posAfter_le 0 0 (pre ++ w) (Nat.le_refl 0)
    simp only [byteLen_append] at this ⊢
    omega

theorem covers_bounds {src : Str} {sp : Span} (h : CoversTokens src sp) : sp.start ≤ sp.stop ∧ sp.stop ≤ byteLen src := by
  obtain ⟨a, b, pa, wa, ra, pb, wb, rb, ha, hb, hl, rfl⟩ := h
  refine ⟨?_, (tok_bounds hb).2⟩
  obtain ⟨e1, -, -, hs1⟩ := ha
  obtain ⟨e2, -, -, hs2⟩ := hb
  rw [hs1, hs2]
  show posAfter 0 0 pa ≤ posAfter 0 0 (pb ++ wb)
  obtain ⟨x, rfl⟩ : ∃ x, pb = pa ++ x := by
    have : pa <+: pb := List.prefix_of_prefix_length_le (l₃ := src) ⟨_, e1.symm⟩ ⟨_, e2.symm⟩ hl
    exact this.imp fun _ h => h.symm
  rw [List.append_assoc]
  exact posAfter_mono _ _

theorem missing_bounds {src : Str} {sp : Span} (h : MissingName src sp) : sp.start ≤ sp.stop ∧ sp.stop ≤ byteLen src := by
  obtain ⟨h, t, pre, w, rest, ht, hs⟩ := h
  have := tok_bounds ht
  omega

/-- **C22**: every span lies in the source and does not run backwards (a statement that C37 and C19 make for error positions and
node spans; here it is about every span). -/
theorem C22_spans_in_source {styp : SourceType} {src : Str} {p : Program} (h : Accepts styp src p) :
    p.AllSpans fun sp => sp.start ≤ sp.stop ∧ sp.stop ≤ byteLen src := by
  have h1 := (C22_every_span h).1
  refine ⟨?_, ?_⟩
  · rcases h1 with h1 | ⟨h1, -⟩
    · exact covers_bounds h1
    · rw [h1]
      exact ⟨Nat.le_refl _, Nat.zero_le _⟩
  · exact all_of_covers h (fun _ => covers_bounds) fun _ => missing_bounds

/-! ## C53: serialising and deserialising -/

/-- **C53**. The tree of every accepted source survives serialisation: deserialising the serialised program gives the program back.
(The sources of a 64 bit machine are shorter than 2^64 bytes.) -/
theorem C53_accepted {styp : SourceType} {src : Str} {p : Program} (h : Accepts styp src p) (hl : byteLen src < usizeCard) :
    Program.fromJson p.toJson = .ok p := by
  refine p.trip ?_
  have hs : ∀ sp : Span, sp.start ≤ sp.stop ∧ sp.stop ≤ byteLen src → Small sp := fun sp h => ⟨by omega, by omega⟩
  refine ⟨hs _ (C22_spans_in_source h).1, all_of_covers h (fun sp h => hs sp (covers_bounds h)) (fun sp h => hs sp (missing_bounds h))⟩

end

/-- **C53**, any program: also a tree that does not come from the parser survives, if the bounds of its spans are numbers of type `usize`
(they are in every Rust value). -/
theorem C53_round_trip (p : Program) (h : p.AllSpans fun s => s.start < usizeCard ∧ s.stop < usizeCard) :
    Program.fromJson p.toJson = .ok p := p.trip h

/-- **C53**, statements. -/
theorem C53_round_trip_stmt (s : Stmt) (h : s.AllSpans fun s => s.start < usizeCard ∧ s.stop < usizeCard) :
    decode s.toJson (.enum .Stmt) = .ok s := s.trip h

/-- **C53**, expressions. -/
theorem C53_round_trip_expr (e : Expr) (h : e.AllSpans fun s => s.start < usizeCard ∧ s.stop < usizeCard) :
    decode e.toJson (.enum .Expr) = .ok e := e.trip h

/-- **C53**: different programs have different serialised forms. -/
theorem C53_injective (p q : Program) (hp : p.AllSpans fun s => s.start < usizeCard ∧ s.stop < usizeCard)
    (hq : q.AllSpans fun s => s.start < usizeCard ∧ s.stop < usizeCard) (h : p.toJson = q.toJson) : p = q := by
  have h1 := C53_round_trip p hp
  rw [h, C53_round_trip q hq] at h1
  exact (Deser.ok.inj h1).symm

/-- **C53**, arbitrary input: whatever value is deserialised as whatever type of the tree, it panics only if the value has a string in
it on which reading a span panics (C39 says which ones these are). -/
theorem C53_panics_only_on_spans (j : Json) (t : Ty) (h : decode j t = .panic) : ∃ s, j.Has s ∧ Span.deserialize s = .panic := by
  apply Classical.byContradiction
  intro hn
  exact decode_calm j (fun s hs he => hn ⟨s, hs, he⟩) t h

/-- **C53**: the order of the fields of a node does not matter. -/
theorem C53_field_order (s : StructTy) {kvs kvs' : List (Str × Json)} (hp : kvs.Perm kvs') (x : s.sem) :
    decode (.obj kvs) (.struct s) = .ok x ↔ decode (.obj kvs') (.struct s) = .ok x :=
  ⟨struct_perm hp, struct_perm hp.symm⟩

/-- **C53**: fields of other names are ignored. -/
theorem C53_unknown_field (s : StructTy) (kvs : List (Str × Json)) (k : Str) (v : Json) (hk : ∀ f ∈ s.fields, f.1 ≠ k) :
    decode (.obj ((k, v) :: kvs)) (.struct s) = decode (.obj kvs) (.struct s) := by
  refine struct_unknown ?_
  intro h
  obtain ⟨f, hf, he⟩ := List.mem_map.1 h
  exact hk f hf he

/-- **C53**, witness of the panic: the bounds of a span that are no numbers. -/
theorem C53_panic_witness : decode (.obj [(c!"This", .obj [(c!"span", .str c!"a:b")])]) (.enum .Expr) = .panic := rfl

/-- **C53**: a field that is missing is an error, unless it is optional; so is a duplicate. -/
theorem C53_fields_required :
    decode (.obj [(c!"span", .str c!"0:6")]) (.struct .Ident) = .err [] ∧
      decode (.obj [(c!"span", .str c!"0:1"), (c!"span", .str c!"0:1"), (c!"name", .str c!"a")]) (.struct .Ident) = .err [] ∧
      decode (.obj [(c!"Break", .obj [(c!"span", .str c!"0:6")])]) (.enum .Stmt) = .ok (.break ⟨0, 6⟩ none) :=
  ⟨rfl, rfl, rfl⟩

/-- **C53**, arbitrary input: exactly the values of the right shape (`Shaped`: an object with the fields of the struct, of which no one
is missing that is not optional and no one occurs twice, or an array of the fields; the name of a variant without content; an object with a
single field, named like a variant; ..) are read, all others are rejected. -/
theorem C53_readable (j : Json) (t : Ty) : (∃ x, decode j t = .ok x) ↔ Shaped j t := decode_right j t

/-- **C53**: everything that is rejected and has no string that panics is rejected with an error. -/
theorem C53_rejected (j : Json) (t : Ty) (hs : ∀ s, j.Has s → Span.deserialize s ≠ .panic) (h : ¬ Shaped j t) :
    ∃ msg, decode j t = .err msg := by
  cases hd : decode j t with
  | ok x => exact absurd ((C53_readable j t).1 ⟨x, hd⟩) h
  | err msg => exact ⟨msg, rfl⟩
  | panic =>
    obtain ⟨s, h1, h2⟩ := C53_panics_only_on_spans j t hd
    exact absurd h2 (hs s h1)

/-- **C53**: a field that is not optional must be there, and nothing but the one variant may be in the object of an enum. -/
theorem C53_shape_of_objects :
    (∀ (kvs : List (Str × Json)) (s : StructTy), Shaped (.obj kvs) (.struct s) → ∀ f ∈ s.fields, ¬ IsOption f.2 →
      ∃ v, (f.1, v) ∈ kvs ∧ Shaped v f.2) ∧
    (∀ (kvs : List (Str × Json)) (e : EnumTy), Shaped (.obj kvs) (.enum e) → ∃ k v, kvs = [(k, v)]) ∧
    (∀ (kvs : List (Str × Json)), ¬ Shaped (.obj kvs) .bool ∧ ¬ Shaped .null .bool) := by
  refine ⟨fun kvs s h f hf ho => ?_, fun kvs e h => ?_, fun kvs => ⟨fun h => (by cases h), fun h => (by cases h)⟩⟩
  · cases h with
    | struct h1 h2 =>
      rcases h1 f hf with ⟨-, h3⟩ | ⟨v, h3⟩
      · exact absurd h3 ho
      · have : (f.1, v) ∈ kvs := (List.mem_filter.1 (by rw [h3]; exact List.mem_singleton.2 rfl)).1
        exact ⟨v, this, h2 f hf v this⟩
  · cases h <;> exact ⟨_, _, rfl⟩

/-! ## Concrete cases -/

/-- A value of the right shape and one of a wrong shape. -/
example : Shaped (.obj [(c!"Break", .obj [(c!"span", .str c!"0:6")])]) (.enum .Stmt) ∧
    ¬ Shaped (.obj [(c!"Break", .obj [(c!"label", .null)])]) (.enum .Stmt) ∧
    ¬ Shaped (.obj [(c!"Break", .obj [(c!"span", .str c!"0:6")]), (c!"Empty", .null)]) (.enum .Stmt) := by
  refine ⟨(C53_readable _ _).1 ⟨_, rfl⟩, fun h => ?_, fun h => ?_⟩ <;>
  · obtain ⟨x, hx⟩ := (C53_readable _ _).2 h
    cases hx

/-- Accepted sources with missing names, argument lists, labels, methods, patterns, imports. -/
example : letI := asciiID
    ∃ p, Accepts .module c!"import a, {b as c} from 'm'; export default function(x, [y] = f(1, ...z)) { l: for (;;) break l; }" p ∧
      byteLen c!"import a, {b as c} from 'm'; export default function(x, [y] = f(1, ...z)) { l: for (;;) break l; }" < usizeCard ∧
      p.body.length = 2 := by
  letI := asciiID
  have h : moduleHas c!"import a, {b as c} from 'm'; export default function(x, [y] = f(1, ...z)) { l: for (;;) break l; }"
    (fun p => p.body.length = 2) = true := by decide +kernel
  obtain ⟨p, h1, h2⟩ := moduleHas_accepts h
  exact ⟨p, h1, by decide +kernel, by simpa using h2⟩

/-- The serialised form of `'use strict'; a = 1`. -/
example : letI := asciiID
    ∃ p, Accepts .script c!"'use strict'; a = 1" p ∧ p.toJson = .obj [(c!"Script", .obj [(c!"span", .str c!"0:19"),
      (c!"directives", .arr [.obj [(c!"value", .str c!"use strict"), (c!"delimiter", .str c!"'")]]),
      (c!"body", .arr [.obj [(c!"Expr", .obj [(c!"span", .str c!"14:19"), (c!"expr", .obj [(c!"Assignment", .obj [(c!"span", .str c!"14:19"),
        (c!"operator", .str c!"Assign"), (c!"left", .obj [(c!"Expr", .obj [(c!"IdentRef", .obj [(c!"span", .str c!"14:15"), (c!"name", .str c!"a")])])]),
        (c!"right", .obj [(c!"Literal", .obj [(c!"span", .str c!"18:19"), (c!"literal", .obj [(c!"Number", .obj [(c!"raw", .str c!"1")])])])])])])])]])])] := by
  letI := asciiID
  have h : scriptHas c!"'use strict'; a = 1" (fun p => match p with
    | ⟨.script, sp, [⟨v, d⟩], [.expr s1 (.assign s2 .assign (.expr (.ident ⟨s3, n⟩)) (.literal s4 (.number r)))]⟩ =>
      sp = ⟨0, 19⟩ && v = c!"use strict" && d = '\'' && s1 = ⟨14, 19⟩ && s2 = ⟨14, 19⟩ && s3 = ⟨14, 15⟩ && n = c!"a" && s4 = ⟨18, 19⟩ && r = c!"1"
    | _ => false) = true := by decide +kernel
  obtain ⟨p, h1, h2⟩ := scriptHas_accepts h
  refine ⟨p, h1, ?_⟩
  split at h2
  · simp only [Bool.and_eq_true, decide_eq_true_eq] at h2
    obtain ⟨⟨⟨⟨⟨⟨⟨⟨rfl, rfl⟩, rfl⟩, rfl⟩, rfl⟩, rfl⟩, rfl⟩, rfl⟩, rfl⟩ := h2
    rfl
  · cases h2

end Fajt.Props
