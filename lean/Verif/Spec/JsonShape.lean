import Verif.Model.Serde
/-!
# Which values are read as which types

A description by the schema alone: the types of the fields of the structs (`StructTy.fields`) and the names and contents of the variants of
the enums (`EnumTy.variants`).
-/
namespace Fajt.Spec

/-- An optional type. -/
def IsOption : Ty → Prop
  | .opt _ => True
  | _ => False

/-- The value is of the shape that the type requires. -/
inductive Shaped : Json → Ty → Prop where
  | unit : Shaped .null .unit
  | bool {b : Bool} : Shaped (.bool b) .bool
  | string {s : Str} : Shaped (.str s) .string
  | char {c : Char} : Shaped (.str [c]) .char
  | span {s : Str} {sp : Span} : Span.deserialize s = .ok sp → Shaped (.str s) .span
  | none {t : Ty} : Shaped .null (.opt t)
  | some {j : Json} {t : Ty} : j ≠ .null → Shaped j t → Shaped j (.opt t)
  | vec {vs : List Json} {t : Ty} : (∀ v ∈ vs, Shaped v t) → Shaped (.arr vs) (.vec t)
  /-- An object: no field occurs twice, only optional fields are missing; fields of other names are ignored. -/
  | struct {kvs : List (Str × Json)} {s : StructTy} :
      (∀ f ∈ s.fields, (∀ v, (f.1, v) ∉ kvs) ∧ IsOption f.2 ∨ ∃ v, kvs.filter (fun kv => kv.1 == f.1) = [(f.1, v)]) →
      (∀ f ∈ s.fields, ∀ v, (f.1, v) ∈ kvs → Shaped v f.2) → Shaped (.obj kvs) (.struct s)
  /-- An array: the fields in order. -/
  | tuple {vs : List Json} {s : StructTy} : vs.length = s.fields.length →
      (∀ (i : Nat) (f : Str × Ty) (v : Json), s.fields[i]? = .some f → vs[i]? = .some v → Shaped v f.2) → Shaped (.arr vs) (.struct s)
  /-- A variant without content: its name .. -/
  | name {k : Str} {e : EnumTy} {a : e.sem} : (k, Variant.unit a) ∈ e.variants → Shaped (.str k) (.enum e)
  /-- .. or its name with `null`. -/
  | unitVariant {k : Str} {e : EnumTy} {a : e.sem} : (k, Variant.unit a) ∈ e.variants → Shaped (.obj [(k, .null)]) (.enum e)
  /-- A variant with content. -/
  | variant {k : Str} {v : Json} {e : EnumTy} {t : Ty} {f : t.sem → e.sem} : (k, Variant.new t f) ∈ e.variants → Shaped v t →
      Shaped (.obj [(k, v)]) (.enum e)

end Fajt.Spec
