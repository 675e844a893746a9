import Verif.Model.Serde
import Verif.Spec.AllSpans
import Verif.Props.Span
/-!
# Deserialising what was serialised: rules
-/
namespace Fajt.Serde
open Fajt

/-- A span that fits into two numbers of type `usize`. -/
def Small (s : Span) : Prop := s.start < usizeCard ∧ s.stop < usizeCard

theorem bind_ok {α β : Type} {x : Deser α} {a : α} {f : α → Deser β} (h : x = .ok a) : x.bind f = f a := by rw [h]; rfl

theorem map_ok {α β : Type} {x : Deser α} {a : α} {f : α → β} (h : x = .ok a) : x.map f = .ok (f a) := by rw [h]; rfl

theorem bind_assoc {α β γ : Type} (x : Deser α) (f : α → Deser β) (g : β → Deser γ) : (x.bind f).bind g = x.bind fun a => (f a).bind g := by
  cases x <;> rfl

/-- The fields of an object are those of a struct, in order, and can be read. -/
inductive Fill : (fs : List (Str × Ty)) → List (Str × Json) → Row fs → Prop
  | nil : Fill [] [] ()
  | cons {n : Str} {t : Ty} {fs : List (Str × Ty)} {v : Json} {kvs : List (Str × Json)} {x : t.sem} {r : Row fs} :
      decode v t = .ok x → Fill fs kvs r → Fill ((n, t) :: fs) ((n, v) :: kvs) (x, r)

/-- The elements of an array can be read. -/
inductive Each (t : Ty) : List Json → List t.sem → Prop
  | nil : Each t [] []
  | cons {v : Json} {vs : List Json} {x : t.sem} {l : List t.sem} : decode v t = .ok x → Each t vs l → Each t (v :: vs) (x :: l)

/-- All fields have been read. -/
def full : (fs : List (Str × Ty)) → Row fs → Slots fs
  | [], _ => ()
  | _ :: fs, (x, r) => (some x, full fs r)

theorem finish_full : (fs : List (Str × Ty)) → (r : Row fs) → finish fs (full fs r) = .ok r
  | [], _ => rfl
  | _ :: fs, (x, r) => by
    show ((finish fs (full fs r)).map fun r' => (x, r')) = _
    exact map_ok (finish_full fs r)

theorem putFields_skip {f : Str × Ty} {fs : List (Str × Ty)} {kvs : List (Str × DeserAs)} (h : ∀ kv ∈ kvs, kv.1 ≠ f.1)
    (a : Option f.2.sem) (s : Slots fs) : putFields (f :: fs) kvs (a, s) = (putFields fs kvs s).map fun s' => (a, s') := by
  induction kvs generalizing s with
  | nil => rfl
  | cons kv kvs ih =>
    obtain ⟨k, o⟩ := kv
    have hk : k ≠ f.1 := h (k, o) (List.mem_cons_self ..)
    show (putField k o (f :: fs) (a, s)).bind _ = ((putField k o fs s).bind _).map _
    rw [show putField k o (f :: fs) (a, s) = (putField k o fs s).map fun r' => (a, r') from if_neg hk]
    cases hp : putField k o fs s with
    | ok s' => exact ih (fun kv hkv => h kv (List.mem_cons_of_mem _ hkv)) s'
    | err m => rfl
    | panic => rfl

theorem decodeFields_eq : (kvs : List (Str × Json)) → decodeFields kvs = kvs.map fun kv => (kv.1, decode kv.2)
  | [] => rfl
  | (k, v) :: kvs => by
    show decodeField (k, v) :: decodeFields kvs = _
    rw [decodeFields_eq kvs]
    rfl

theorem decodes_eq : (vs : List Json) → decodes vs = vs.map decode
  | [] => rfl
  | v :: vs => by
    show decode v :: decodes vs = _
    rw [decodes_eq vs]
    rfl

theorem Fill.keys {fs : List (Str × Ty)} {kvs : List (Str × Json)} {r : Row fs} (h : Fill fs kvs r) : kvs.map Prod.fst = fs.map Prod.fst := by
  induction h with
  | nil => rfl
  | cons _ _ ih => simp [ih]

theorem Fill.put {fs : List (Str × Ty)} {kvs : List (Str × Json)} {r : Row fs} (h : Fill fs kvs r) (hn : (fs.map Prod.fst).Nodup) :
    putFields fs (decodeFields kvs) (emptySlots fs) = .ok (full fs r) := by
  induction h with
  | nil => rfl
  | @cons n t fs v kvs x r h1 h2 ih =>
    have hn' := List.nodup_cons.1 hn
    show (putField n (decode v) ((n, t) :: fs) (none, emptySlots fs)).bind (putFields ((n, t) :: fs) (decodeFields kvs)) = _
    rw [show putField n (decode v) ((n, t) :: fs) (none, emptySlots fs) = (decode v t).map fun x => (some x, emptySlots fs) from if_pos rfl,
      map_ok h1]
    show putFields ((n, t) :: fs) (decodeFields kvs) (some x, emptySlots fs) = _
    rw [putFields_skip, map_ok (ih hn'.2)]
    · rfl
    · intro kv hkv e
      rw [decodeFields_eq] at hkv
      obtain ⟨kv', hm, rfl⟩ := List.mem_map.1 hkv
      refine hn'.1 ?_
      show n ∈ fs.map Prod.fst
      rw [← h2.keys, ← (show kv'.1 = n from e)]
      exact List.mem_map_of_mem hm

theorem struct_ok {s : StructTy} {kvs : List (Str × Json)} {r : Row s.fields} (h : Fill s.fields kvs r)
    (hn : (s.fields.map Prod.fst).Nodup) : decode (.obj kvs) (.struct s) = .ok (s.build r) := by
  show ((putFields s.fields (decodeFields kvs) (emptySlots s.fields)).bind (finish s.fields)).map s.build = _
  rw [h.put hn]
  exact map_ok (finish_full _ r)

theorem new_ok {e : EnumTy} {k : Str} {v : Json} {t : Ty} {f : t.sem → e.sem} {x : t.sem} (hv : variantOf e k = some (.new t f))
    (h : decode v t = .ok x) : decode (.obj [(k, v)]) (.enum e) = .ok (f x) := by
  show (match variantOf e k with
       | some (.unit a) => (decode v .unit).map fun _ => a
       | some (.new t f) => (decode v t).map f
       | none => Deser.err []).bind (fun a => if List.isEmpty (α := Str × DeserAs) [] then Deser.ok a else .err []) = _
  rw [hv]
  show ((decode v t).map f).bind _ = _
  rw [map_ok h]
  rfl

theorem unit_ok {e : EnumTy} {k : Str} {a : e.sem} (hv : variantOf e k = some (.unit a)) : decode (.str k) (.enum e) = .ok a := by
  show (match variantOf e k with
    | some (.unit a) => Deser.ok a
    | _ => .err []) = _
  rw [hv]

theorem span_trip {s : Span} (h : Small s) : decode s.toJson .span = .ok s := Props.C39_roundtrip s h.1 h.2

/-- A value that is not `null` as an option. -/
theorem opt_eq {v : Json} {t : Ty} {x : t.sem} (h : decode v t = .ok x) (hn : v ≠ .null) : decode v (.opt t) = .ok (some x) := by
  cases v with
  | null => exact absurd rfl hn
  | bool b => exact map_ok h
  | str s => exact map_ok h
  | arr vs => exact map_ok h
  | obj kvs => exact map_ok h

/-- `null` is read as an option or as a unit only. -/
theorem null_ne {t : Ty} {x : t.sem} (h : decode .null t = .ok x) : t = .unit ∨ ∃ t', t = .opt t' := by
  cases t with
  | unit => exact .inl rfl
  | opt t' => exact .inr ⟨t', rfl⟩
  | _ => cases h

/-- Types that are neither options nor the unit type. -/
def Proper : Ty → Bool
  | .opt _ => false
  | .unit => false
  | _ => true

theorem some_ok {v : Json} {t : Ty} {x : t.sem} (h : decode v t = .ok x) (ht : Proper t = true := by rfl) : decode v (.opt t) = .ok (some x) := by
  refine opt_eq h ?_
  rintro rfl
  rcases null_ne h with rfl | ⟨t', rfl⟩ <;> cases ht

theorem arr_trip {t : Ty} {vs : List Json} {l : List t.sem} (h : Each t vs l) : decode (.arr vs) (.vec t) = .ok l := by
  show visitElems t (decodes vs) = _
  induction h with
  | nil => rfl
  | @cons v vs x l h1 h2 ih =>
    show (decode v t).bind _ = _
    rw [bind_ok h1]
    exact map_ok ih

/-! ## Leaves -/

end Fajt.Serde

namespace Fajt
open Serde

theorem BinaryOp.trip (x : BinaryOp) : decode x.toJson (.enum .BinaryOperator) = .ok x := by cases x <;> exact unit_ok (e := .BinaryOperator) rfl
theorem LogicalOp.trip (x : LogicalOp) : decode x.toJson (.enum .LogicalOperator) = .ok x := by cases x <;> exact unit_ok (e := .LogicalOperator) rfl
theorem UnaryOp.trip (x : UnaryOp) : decode x.toJson (.enum .UnaryOperator) = .ok x := by cases x <;> exact unit_ok (e := .UnaryOperator) rfl
theorem UpdateOp.trip (x : UpdateOp) : decode x.toJson (.enum .UpdateOperator) = .ok x := by cases x <;> exact unit_ok (e := .UpdateOperator) rfl
theorem AssignOp.trip (x : AssignOp) : decode x.toJson (.enum .AssignmentOperator) = .ok x := by
  cases x <;> exact unit_ok (e := .AssignmentOperator) rfl
theorem VarKind.trip (x : VarKind) : decode x.toJson (.enum .VariableKind) = .ok x := by cases x <;> exact unit_ok (e := .VariableKind) rfl
theorem MethodKind.trip (x : MethodKind) : decode x.toJson (.enum .MethodKind) = .ok x := by cases x <;> exact unit_ok (e := .MethodKind) rfl

theorem Ident.trip (x : Ident) (h : x.AllSpans Small) : decode x.toJson (.struct .Ident) = .ok x :=
  struct_ok (s := .Ident) (r := (x.span, x.name, ())) (.cons (span_trip h) (.cons rfl .nil)) (by decide)

namespace Serde

theorem litString_trip (x : LitString) : decode x.toJson (.struct .LitString) = .ok x :=
  struct_ok (s := .LitString) (r := (x.value, x.delimiter, ())) (.cons rfl (.cons rfl .nil)) (by decide)

theorem number_trip (x : Str) : decode (.obj [(c!"raw", .str x)]) (.struct .LitNumber) = .ok x :=
  struct_ok (s := .LitNumber) (r := (x, ())) (.cons rfl .nil) (by decide)

theorem super_trip {x : Span} (h : Small x) : decode (.obj [(c!"span", x.toJson)]) (.struct .Super) = .ok x :=
  struct_ok (s := .Super) (r := (x, ())) (.cons (span_trip h) .nil) (by decide)

theorem class_trip (x : MethodDef) (h : decode x.toJson (.struct .MethodDefinition) = .ok x) :
    decode (.obj [(c!"Method", x.toJson)]) (.enum .ClassElement) = .ok x :=
  new_ok (e := .ClassElement) (f := id) rfl h

theorem opt_trip {t : Ty} {f : t.sem → Json} {x : Option t.sem} (ht : Proper t = true) (h : ∀ y ∈ x, decode (f y) t = .ok y) :
    decode (serOpt f x) (.opt t) = .ok x := by
  cases x with
  | none => rfl
  | some y => exact some_ok (h y rfl) ht

theorem list_trip {t : Ty} {f : t.sem → Json} {x : List t.sem} (h : ∀ y ∈ x, decode (f y) t = .ok y) :
    decode (.arr (x.map f)) (.vec t) = .ok x := by
  refine arr_trip ?_
  induction x with
  | nil => exact .nil
  | cons y x ih => exact .cons (h y (List.mem_cons_self ..)) (ih fun z hz => h z (List.mem_cons_of_mem _ hz))

theorem optIdent_trip (x : Option Ident) (h : ∀ y ∈ x, y.AllSpans Small) :
    decode (serOpt (fun x => x.toJson) x) (.opt (.struct .Ident)) = .ok x :=
  opt_trip (t := .struct .Ident) rfl fun y hy => y.trip (h y hy)

theorem optSpan_trip (x : Option Span) (h : ∀ y ∈ x, Small y) : decode (serOpt (fun x => x.toJson) x) (.opt .span) = .ok x :=
  opt_trip (t := .span) rfl fun y hy => span_trip (h y hy)

theorem optLitString_trip (x : Option LitString) : decode (serOpt (fun x => x.toJson) x) (.opt (.struct .LitString)) = .ok x :=
  opt_trip (t := .struct .LitString) rfl fun y _ => litString_trip y

theorem litStrings_trip (x : List LitString) : decode (.arr (x.map fun x => x.toJson)) (.vec (.struct .LitString)) = .ok x :=
  list_trip (t := .struct .LitString) fun y _ => litString_trip y

theorem import_trip (x : NamedImport) (h : x.AllSpans Small) : decode x.toJson (.struct .NamedImport) = .ok x :=
  struct_ok (s := .NamedImport) (r := (x.span, x.name, x.alias, ()))
    (.cons (span_trip h.1) (.cons (x.name.trip h.2.1) (.cons (optIdent_trip _ h.2.2) .nil))) (by decide)

theorem export_trip (x : NamedExport) (h : x.AllSpans Small) : decode x.toJson (.struct .NamedExport) = .ok x :=
  struct_ok (s := .NamedExport) (r := (x.span, x.name, x.aliasOf, ()))
    (.cons (span_trip h.1) (.cons (x.name.trip h.2.1) (.cons (optIdent_trip _ h.2.2) .nil))) (by decide)

theorem exports_trip (x : List NamedExport) (h : ∀ y ∈ x, y.AllSpans Small) :
    decode (.arr (x.map fun x => x.toJson)) (.vec (.struct .NamedExport)) = .ok x :=
  list_trip (t := .struct .NamedExport) fun y hy => export_trip y (h y hy)

theorem optImports_trip (x : Option (List NamedImport)) (h : ∀ y ∈ x, ∀ z ∈ y, z.AllSpans Small) :
    decode (serOpt (fun l => .arr (l.map fun x => x.toJson)) x) (.opt (.vec (.struct .NamedImport))) = .ok x :=
  opt_trip (t := .vec (.struct .NamedImport)) rfl fun y hy =>
    list_trip (t := .struct .NamedImport) fun z hz => import_trip z (h y hy z hz)

end Serde

end Fajt
