import Verif.Spec.JsonShape
import Verif.Proofs.SerdePanic
/-!
# Which values are read as which types: proofs
-/
namespace Fajt
open Spec
namespace Serde

/-- The outcome is a value. -/
def Good {α : Type} (d : Deser α) : Prop := ∃ a, d = .ok a

theorem bad_err {α : Type} {m : Str} : ¬ Good (Deser.err m : Deser α) := fun ⟨_, h⟩ => by cases h

theorem good_map {α β : Type} {d : Deser α} {f : α → β} : Good (d.map f) ↔ Good d := by
  constructor
  · rintro ⟨b, h⟩
    obtain ⟨a, h, -⟩ := map_ok_inv h
    exact ⟨a, h⟩
  · rintro ⟨a, rfl⟩
    exact ⟨f a, rfl⟩

theorem good_bind {α β : Type} {d : Deser α} {f : α → Deser β} : Good (d.bind f) ↔ ∃ a, d = .ok a ∧ Good (f a) := by
  constructor
  · rintro ⟨b, h⟩
    obtain ⟨a, h1, h2⟩ := bind_ok_inv h
    exact ⟨a, h1, b, h2⟩
  · rintro ⟨a, rfl, b, h⟩
    exact ⟨b, h⟩

theorem variants_nodup (e : EnumTy) : (e.variants.map Prod.fst).Nodup := by cases e <;> decide +kernel

theorem fields_nodup (s : StructTy) : (s.fields.map Prod.fst).Nodup := by cases s <;> decide +kernel

theorem variantOf_some {e : EnumTy} {k : Str} {v : Variant e.sem} : variantOf e k = some v ↔ (k, v) ∈ e.variants := by
  unfold variantOf
  have hn := variants_nodup e
  generalize e.variants = l at hn
  induction l with
  | nil => simp
  | cons a l ih =>
    simp only [List.map_cons, List.nodup_cons] at hn
    obtain ⟨n, w⟩ := a
    by_cases h : n = k
    · subst h
      rw [List.find?_cons_of_pos (by simp)]
      simp only [Option.map_some, Option.some.injEq, List.mem_cons, Prod.mk.injEq, true_and]
      refine ⟨fun h => .inl h.symm, fun h => h.elim Eq.symm fun h => absurd ?_ hn.1⟩
      exact List.mem_map.2 ⟨_, h, rfl⟩
    · rw [List.find?_cons_of_neg (by simpa using h)]
      refine (ih hn.2).trans ?_
      simp only [List.mem_cons, Prod.mk.injEq]
      exact ⟨.inr, fun h' => h'.elim (fun h' => absurd h'.1.symm h) id⟩

/-! ## Structs -/

/-- The values of a field. -/
def occ (k : Str) (kvs : List (Str × DeserAs)) : List (Str × DeserAs) := kvs.filter fun kv => kv.1 == k

/-- What the fields that are still to come must be. -/
def Fits : (fs : List (Str × Ty)) → List (Str × DeserAs) → Slots fs → Prop
  | [], _, _ => True
  | f :: fs, kvs, (a, r) =>
    (match a with
     | some _ => occ f.1 kvs = []
     | none => occ f.1 kvs = [] ∧ IsOption f.2 ∨ ∃ kv, occ f.1 kvs = [kv] ∧ Good (kv.2 f.2)) ∧ Fits fs kvs r

theorem missing_ok : {t : Ty} → (h : Good (missing t)) → IsOption t
  | .opt _, _ => trivial
  | .unit, ⟨_, h⟩ | .bool, ⟨_, h⟩ | .string, ⟨_, h⟩ | .char, ⟨_, h⟩ | .span, ⟨_, h⟩ | .vec _, ⟨_, h⟩ | .struct _, ⟨_, h⟩ | .enum _, ⟨_, h⟩ => by
    cases h

theorem good_missing : {t : Ty} → IsOption t → Good (missing t)
  | .opt _, _ => ⟨none, rfl⟩

theorem good_finish : (fs : List (Str × Ty)) → (s : Slots fs) → (Good (finish fs s) ↔ Fits fs [] s)
  | [], _ => ⟨fun _ => trivial, fun _ => ⟨(), rfl⟩⟩
  | f :: fs, (a, r) => by
    unfold finish Fits
    rw [good_bind, ← good_finish fs r]
    cases a with
    | some x => exact ⟨fun ⟨a, h1, h2⟩ => ⟨rfl, good_map.1 h2⟩, fun ⟨_, h⟩ => ⟨x, rfl, good_map.2 h⟩⟩
    | none =>
      dsimp only
      constructor
      · rintro ⟨x, h1, h2⟩
        refine ⟨.inl ⟨rfl, ?_⟩, good_map.1 h2⟩
        have := missing_ok (h := ⟨x, h1⟩)
        exact this
      · rintro ⟨h1 | ⟨kv, h1, -⟩, h2⟩
        · obtain ⟨-, h1⟩ := h1
          obtain ⟨x, hx⟩ := good_missing h1
          exact ⟨x, hx, good_map.2 h2⟩
        · cases h1

theorem fits_skip {k : Str} {o : DeserAs} {kvs : List (Str × DeserAs)} : (fs : List (Str × Ty)) → (s : Slots fs) → k ∉ fs.map Prod.fst →
    (Fits fs ((k, o) :: kvs) s ↔ Fits fs kvs s)
  | [], _, _ => Iff.rfl
  | f :: fs, (a, r), h => by
    have h' : k ≠ f.1 ∧ k ∉ fs.map Prod.fst := by simpa using h
    unfold Fits
    rw [fits_skip fs r h'.2, show occ f.1 ((k, o) :: kvs) = occ f.1 kvs from List.filter_cons_of_neg (by simpa using h'.1)]

theorem fits_step {k : Str} {o : DeserAs} {kvs : List (Str × DeserAs)} : (fs : List (Str × Ty)) → (s : Slots fs) → (fs.map Prod.fst).Nodup →
    (Fits fs ((k, o) :: kvs) s ↔ ∃ s1, putField k o fs s = .ok s1 ∧ Fits fs kvs s1)
  | [], u, _ => ⟨fun _ => ⟨u, rfl, trivial⟩, fun _ => trivial⟩
  | f :: fs, (a, r), hn => by
    simp only [List.map_cons, List.nodup_cons] at hn
    unfold putField
    by_cases hk : k = f.1
    · subst hk
      rw [if_pos rfl]
      have e1 : occ f.1 ((f.1, o) :: kvs) = (f.1, o) :: occ f.1 kvs := List.filter_cons_of_pos (by simp)
      unfold Fits
      rw [fits_skip fs r hn.1, e1]
      cases a with
      | some x => exact ⟨fun h => (by cases h.1), fun ⟨_, h, _⟩ => (by cases h)⟩
      | none =>
        dsimp only
        constructor
        · rintro ⟨⟨h, -⟩ | ⟨kv, h1, x, h2⟩, h3⟩
          · cases h
          · obtain ⟨rfl, h1⟩ := List.cons.inj h1
            refine ⟨(some x, r), ?_, ?_, h3⟩
            · rw [show o f.2 = .ok x from h2]; rfl
            · exact ‹occ f.1 kvs = []›
        · rintro ⟨s1, h1, h2⟩
          obtain ⟨x, h3, rfl⟩ := map_ok_inv h1
          exact ⟨.inr ⟨_, by rw [h2.1], x, h3⟩, h2.2⟩
    · rw [if_neg hk]
      have e1 : occ f.1 ((k, o) :: kvs) = occ f.1 kvs := List.filter_cons_of_neg (by simpa using hk)
      constructor
      · intro h
        unfold Fits at h
        rw [e1] at h
        obtain ⟨s1, h1, h2⟩ := (fits_step fs r hn.2).1 h.2
        exact ⟨(a, s1), by rw [h1]; rfl, h.1, h2⟩
      · rintro ⟨s1, h1, h2⟩
        obtain ⟨r', h3, rfl⟩ := map_ok_inv h1
        unfold Fits
        rw [e1]
        exact ⟨h2.1, (fits_step fs r hn.2).2 ⟨r', h3, h2.2⟩⟩

theorem good_fields {fs : List (Str × Ty)} (hn : (fs.map Prod.fst).Nodup) {kvs : List (Str × DeserAs)} {s : Slots fs} :
    Good ((putFields fs kvs s).bind (finish fs)) ↔ Fits fs kvs s := by
  induction kvs generalizing s with
  | nil => exact good_finish fs s
  | cons kv kvs ih =>
    obtain ⟨k, o⟩ := kv
    rw [fits_step fs s hn]
    constructor
    · intro h
      obtain ⟨s1, h1, h2⟩ := good_bind.1 h
      obtain ⟨s2, h3, h4⟩ := bind_ok_inv (show (putField k o fs s).bind _ = _ from h1)
      exact ⟨s2, h3, ih.1 (good_bind.2 ⟨s1, h4, h2⟩)⟩
    · rintro ⟨s1, h1, h2⟩
      obtain ⟨s2, h3, h4⟩ := good_bind.1 (ih.2 h2)
      refine good_bind.2 ⟨s2, ?_, h4⟩
      show (putField k o fs s).bind _ = _
      rw [h1]
      exact h3

theorem fits_empty {kvs : List (Str × DeserAs)} : (fs : List (Str × Ty)) → (Fits fs kvs (emptySlots fs) ↔
    ∀ f ∈ fs, occ f.1 kvs = [] ∧ IsOption f.2 ∨ ∃ kv, occ f.1 kvs = [kv] ∧ Good (kv.2 f.2))
  | [] => by simp [Fits]
  | f :: fs => by
    show (_ ∧ Fits fs kvs (emptySlots fs)) ↔ _
    rw [fits_empty fs, List.forall_mem_cons]

theorem good_seq : (fs : List (Str × Ty)) → (os : List DeserAs) → (Good (visitSeq fs os) ↔ os.length = fs.length ∧
    ∀ (i : Nat) (f : Str × Ty) (o : DeserAs), fs[i]? = some f → os[i]? = some o → Good (o f.2))
  | [], [] => by simpa using ⟨(), rfl⟩
  | [], o :: os => ⟨fun h => absurd h bad_err, fun h => by cases h.1⟩
  | f :: fs, [] => ⟨fun h => absurd h bad_err, fun h => by cases h.1⟩
  | f :: fs, o :: os => by
    unfold visitSeq
    rw [good_bind]
    constructor
    · rintro ⟨x, h1, h2⟩
      obtain ⟨h3, h4⟩ := (good_seq fs os).1 (good_map.1 h2)
      refine ⟨by simp [h3], fun i f' o' hf ho => ?_⟩
      cases i with
      | zero => cases hf; cases ho; exact ⟨x, h1⟩
      | succ i => exact h4 i f' o' hf ho
    · rintro ⟨h1, h2⟩
      obtain ⟨x, hx⟩ := h2 0 f o rfl rfl
      exact ⟨x, hx, good_map.2 ((good_seq fs os).2 ⟨by simpa using h1, fun i f' o' hf ho => h2 (i + 1) f' o' hf ho⟩)⟩

theorem good_elems (t : Ty) : (os : List DeserAs) → (Good (visitElems t os) ↔ ∀ o ∈ os, Good (o t))
  | [] => by simpa using ⟨[], rfl⟩
  | o :: os => by
    unfold visitElems
    rw [good_bind, List.forall_mem_cons, ← good_elems t os]
    constructor
    · rintro ⟨x, h1, h2⟩
      exact ⟨⟨x, h1⟩, good_map.1 h2⟩
    · rintro ⟨⟨x, h1⟩, h2⟩
      exact ⟨x, h1, good_map.2 h2⟩

/-- A value is read as the types that fit its shape. -/
def Right (j : Json) : Prop := ∀ t, Good (decode j t) ↔ Shaped j t

/-- `opt` for values other than `null`. -/
theorem right_opt {j : Json} {t : Ty} (hj : j ≠ .null) (ho : decode j (.opt t) = (decode j t).map some)
    (h : Good (decode j t) ↔ Shaped j t) : Good (decode j (.opt t)) ↔ Shaped j (.opt t) := by
  rw [ho, good_map, h]
  exact ⟨.some hj, fun h => by cases h with
    | none => exact absurd rfl hj
    | some _ h => exact h⟩

theorem right_null : Right .null := by
  intro t
  cases t with
  | unit => exact ⟨fun _ => .unit, fun _ => ⟨(), rfl⟩⟩
  | opt t => exact ⟨fun _ => .none, fun _ => ⟨none, rfl⟩⟩
  | _ => exact ⟨fun h => absurd h bad_err, fun h => by cases h⟩

theorem right_bool (b : Bool) : Right (.bool b) := by
  intro t
  induction t with
  | bool => exact ⟨fun _ => .bool, fun _ => ⟨b, rfl⟩⟩
  | opt t ih => exact right_opt (fun h => by cases h) rfl ih
  | _ => exact ⟨fun h => absurd h bad_err, fun h => by cases h⟩

theorem right_str (s : Str) : Right (.str s) := by
  intro t
  induction t with
  | string => exact ⟨fun _ => .string, fun _ => ⟨s, rfl⟩⟩
  | char =>
    match s with
    | [] => exact ⟨fun h => absurd h bad_err, fun h => by cases h⟩
    | [c] => exact ⟨fun _ => .char, fun _ => ⟨c, rfl⟩⟩
    | _ :: _ :: _ => exact ⟨fun h => absurd h bad_err, fun h => by cases h⟩
  | span => exact ⟨fun ⟨_, h⟩ => .span h, fun h => by cases h with | span h => exact ⟨_, h⟩⟩
  | «enum» e =>
    show Good (match variantOf e s with | some (.unit a) => Deser.ok a | _ => .err []) ↔ _
    constructor
    · intro h
      split at h
      · next a ha => exact .name (variantOf_some.1 ha)
      · exact absurd h bad_err
    · intro h
      cases h with
      | name h => rw [variantOf_some.2 h]; exact ⟨_, rfl⟩
  | opt t ih => exact right_opt (fun h => by cases h) rfl ih
  | _ => exact ⟨fun h => absurd h bad_err, fun h => by cases h⟩

theorem decodes_map : (vs : List Json) → decodes vs = vs.map decode
  | [] => rfl
  | v :: vs => by
    show decode v :: decodes vs = _
    rw [decodes_map vs]; rfl

theorem right_arr {vs : List Json} (hv : ∀ v ∈ vs, Right v) : Right (.arr vs) := by
  intro t
  induction t with
  | vec t =>
    show Good (visitElems t (decodes vs)) ↔ _
    rw [good_elems, decodes_map, List.forall_mem_map]
    exact ⟨fun h => .vec fun v hm => (hv v hm t).1 (h v hm), fun h => by cases h with | vec h => exact fun v hm => (hv v hm t).2 (h v hm)⟩
  | struct s =>
    show Good ((visitSeq s.fields (decodes vs)).map s.build) ↔ _
    rw [good_map, good_seq, decodes_map, List.length_map]
    constructor
    · rintro ⟨h1, h2⟩
      refine .tuple h1 fun i f v hf hi => (hv v (List.mem_of_getElem? hi) _).1 (h2 i f _ hf ?_)
      rw [List.getElem?_map, hi]; rfl
    · intro h
      cases h with
      | tuple h1 h2 =>
        refine ⟨h1, fun i f o hf ho => ?_⟩
        rw [List.getElem?_map] at ho
        cases hi : vs[i]? with
        | none => rw [hi] at ho; cases ho
        | some v =>
          rw [hi] at ho
          cases ho
          exact (hv v (List.mem_of_getElem? hi) _).2 (h2 i f v hf hi)
  | opt t ih => exact right_opt (fun h => by cases h) rfl ih
  | _ => exact ⟨fun h => absurd h bad_err, fun h => by cases h⟩

theorem occ_map (k : Str) (kvs : List (Str × Json)) : occ k (kvs.map fun kv => (kv.1, decode kv.2)) =
    (kvs.filter fun kv => kv.1 == k).map fun kv => (kv.1, decode kv.2) := by
  unfold occ
  rw [List.filter_map]
  rfl

theorem right_obj {kvs : List (Str × Json)} (hv : ∀ kv ∈ kvs, Right kv.2) : Right (.obj kvs) := by
  intro t
  induction t with
  | struct s =>
    show Good (((putFields s.fields (decodeFields kvs) (emptySlots s.fields)).bind (finish s.fields)).map s.build) ↔ _
    rw [good_map, good_fields (fields_nodup s), fits_empty, decodeFields_map]
    have hfil : ∀ k kv, kv ∈ kvs.filter (fun kv => kv.1 == k) ↔ kv ∈ kvs ∧ kv.1 = k := by
      intro k kv; simp [List.mem_filter]
    constructor
    · intro h
      refine .struct (fun f hf => ?_) fun f hf v hm => ?_
      · have := h f hf
        rw [occ_map] at this
        rcases this with ⟨h1, h2⟩ | ⟨kv, h1, h2⟩
        · refine .inl ⟨fun v hm => ?_, h2⟩
          have h3 := (hfil f.1 _).2 ⟨hm, rfl⟩
          rw [List.map_eq_nil_iff.1 h1] at h3
          cases h3
        · obtain ⟨kv', h3, -⟩ := List.map_eq_singleton_iff.1 h1
          have h4 := ((hfil f.1 kv').1 (by rw [h3]; simp)).2
          exact .inr ⟨kv'.2, by rw [h3, ← h4]⟩
      · have := h f hf
        rw [occ_map] at this
        have h3 := (hfil f.1 _).2 ⟨hm, rfl⟩
        rcases this with ⟨h1, h2⟩ | ⟨kv, h1, h2⟩
        · rw [List.map_eq_nil_iff.1 h1] at h3
          cases h3
        · obtain ⟨kv', h4, h5⟩ := List.map_eq_singleton_iff.1 h1
          rw [h4] at h3
          cases List.mem_singleton.1 h3
          subst h5
          exact (hv _ hm _).1 h2
    · intro h f hf
      cases h with
      | struct h1 h2 =>
        rw [occ_map]
        rcases h1 f hf with ⟨h3, h4⟩ | ⟨v, h3⟩
        · refine .inl ⟨?_, h4⟩
          rw [List.map_eq_nil_iff, List.filter_eq_nil_iff]
          rintro ⟨k, v⟩ hm hk
          simp only [beq_iff_eq] at hk
          subst hk
          exact h3 v hm
        · have hm := ((hfil f.1 (f.1, v)).1 (by rw [h3]; simp)).1
          exact .inr ⟨_, by rw [h3]; rfl, (hv _ hm _).2 (h2 f hf v hm)⟩
  | «enum» e =>
    show Good (decodeObj (decodeFields kvs) (.enum e)) ↔ _
    rw [decodeFields_map]
    match kvs, hv with
    | [], _ => exact ⟨fun h => absurd h bad_err, fun h => by cases h⟩
    | (k, v) :: rest, hv =>
      have hv' : Right v := hv (k, v) (by simp)
      show Good (Deser.bind (match variantOf e k with
         | some (.unit a) => (decode v .unit).map fun _ => a
         | some (.new t f) => (decode v t).map f
         | none => .err []) fun a => if (rest.map fun kv => (kv.1, decode kv.2)).isEmpty then Deser.ok a else .err []) ↔ _
      rw [good_bind]
      cases rest with
      | cons a l =>
        refine ⟨fun ⟨_, _, h⟩ => ?_, fun h => by cases h⟩
        rw [if_neg (by simp)] at h
        exact absurd h bad_err
      | nil =>
        constructor
        · rintro ⟨x, h1, -⟩
          split at h1
          · next a ha =>
            obtain ⟨u, h1, -⟩ := map_ok_inv h1
            have := (hv' .unit).1 ⟨u, h1⟩
            cases this
            exact .unitVariant (variantOf_some.1 ha)
          · next t f ha =>
            obtain ⟨y, h1, -⟩ := map_ok_inv h1
            exact .variant (variantOf_some.1 ha) ((hv' t).1 ⟨y, h1⟩)
          · cases h1
        · intro h
          cases h with
          | unitVariant h => rw [variantOf_some.2 h]; exact ⟨_, rfl, _, rfl⟩
          | variant h1 h2 =>
            obtain ⟨y, h2⟩ := (hv' _).2 h2
            rw [variantOf_some.2 h1]
            dsimp only
            rw [h2]
            exact ⟨_, rfl, _, rfl⟩
  | opt t ih => exact right_opt (fun h => by cases h) rfl ih
  | _ => exact ⟨fun h => absurd h bad_err, fun h => by cases h⟩

mutual

theorem decode_right : (j : Json) → Right j
  | .null => right_null
  | .bool b => right_bool b
  | .str s => right_str s
  | .arr vs => right_arr (decodes_right vs)
  | .obj kvs => right_obj (decodeFields_right kvs)
termination_by structural x => x

theorem decodes_right : (vs : List Json) → ∀ v ∈ vs, Right v
  | [] => fun _ h => by cases h
  | v :: vs => fun w hw => by
    rcases List.mem_cons.1 hw with hw | hw
    · rw [hw]; exact decode_right v
    · exact decodes_right vs w hw
termination_by structural x => x

theorem decodeFields_right : (kvs : List (Str × Json)) → ∀ kv ∈ kvs, Right kv.2
  | [] => fun _ h => by cases h
  | kv :: kvs => fun w hw => by
    rcases List.mem_cons.1 hw with hw | hw
    · rw [hw]; exact decodeField_right kv
    · exact decodeFields_right kvs w hw
termination_by structural x => x

theorem decodeField_right : (kv : Str × Json) → Right kv.2
  | (_, v) => decode_right v
termination_by structural x => x

end

end Serde
end Fajt
