import Verif.Model.Serde
import Verif.Spec.JsonText
/-!
# When deserialising panics, and the order of fields
-/
namespace Fajt

namespace Serde

theorem bind_panic {α β : Type} {x : Deser α} {f : α → Deser β} (h : x.bind f = .panic) : x = .panic ∨ ∃ a, x = .ok a ∧ f a = .panic := by
  cases x with
  | ok a => exact .inr ⟨a, rfl, h⟩
  | err m => cases h
  | panic => exact .inl rfl

theorem map_panic {α β : Type} {x : Deser α} {f : α → β} (h : x.map f = .panic) : x = .panic := by
  cases x with
  | ok a => cases h
  | err m => cases h
  | panic => rfl

/-- The outcome is not a panic, whatever the type is. -/
def Calm (o : DeserAs) : Prop := ∀ t, o t ≠ .panic

theorem putField_calm {k : Str} {o : DeserAs} (ho : Calm o) : (fs : List (Str × Ty)) → (s : Slots fs) → putField k o fs s ≠ .panic
  | [], _ => fun h => by cases h
  | f :: fs, (a, r) => fun h => by
    unfold putField at h
    split at h
    · cases a with
      | none => exact ho _ (map_panic h)
      | some _ => cases h
    · exact putField_calm ho fs r (map_panic h)

theorem putFields_calm {fs : List (Str × Ty)} {kvs : List (Str × DeserAs)} (hk : ∀ kv ∈ kvs, Calm kv.2) (s : Slots fs) :
    putFields fs kvs s ≠ .panic := by
  induction kvs generalizing s with
  | nil => intro h; cases h
  | cons kv kvs ih =>
    intro h
    rcases bind_panic h with h | ⟨s', -, h⟩
    · exact putField_calm (hk kv (by simp)) _ _ h
    · exact ih (fun kv hkv => hk kv (by simp [hkv])) s' h

theorem missing_calm (t : Ty) : missing t ≠ .panic := by cases t <;> intro h <;> cases h

theorem finish_calm : (fs : List (Str × Ty)) → (s : Slots fs) → finish fs s ≠ .panic
  | [], _ => fun h => by cases h
  | f :: fs, (a, r) => fun h => by
    rcases bind_panic h with h | ⟨x, -, h⟩
    · cases a with
      | none => exact missing_calm _ h
      | some _ => cases h
    · exact finish_calm fs r (map_panic h)

theorem visitSeq_calm {os : List DeserAs} (ho : ∀ o ∈ os, Calm o) : (fs : List (Str × Ty)) → visitSeq fs os ≠ .panic := by
  induction os with
  | nil => intro fs h; cases fs <;> cases h
  | cons o os ih =>
    intro fs h
    cases fs with
    | nil => cases h
    | cons f fs =>
      rcases bind_panic h with h | ⟨x, -, h⟩
      · exact ho o (by simp) _ h
      · exact ih (fun o h => ho o (by simp [h])) fs (map_panic h)

theorem visitElems_calm {os : List DeserAs} (ho : ∀ o ∈ os, Calm o) (t : Ty) : visitElems t os ≠ .panic := by
  induction os with
  | nil => intro h; cases h
  | cons o os ih =>
    intro h
    rcases bind_panic h with h | ⟨x, -, h⟩
    · exact ho o (by simp) _ h
    · exact ih (fun o h => ho o (by simp [h])) (map_panic h)

theorem decodeNull_calm : Calm decodeNull := by intro t; cases t <;> intro h <;> cases h

theorem decodeBool_calm (b : Bool) : Calm (decodeBool b) := by
  intro t
  induction t with
  | opt t ih => intro h; exact ih (map_panic h)
  | _ => intro h; cases h

theorem decodeStr_calm {s : Str} (hs : Span.deserialize s ≠ .panic) : Calm (decodeStr s) := by
  intro t
  induction t with
  | opt t ih => intro h; exact ih (map_panic h)
  | span => exact hs
  | char =>
    intro h
    unfold decodeStr at h
    split at h <;> cases h
  | «enum» e =>
    intro h
    unfold decodeStr at h
    split at h <;> cases h
  | _ => intro h; cases h

theorem decodeArr_calm {os : List DeserAs} (ho : ∀ o ∈ os, Calm o) : Calm (decodeArr os) := by
  intro t
  induction t with
  | opt t ih => intro h; exact ih (map_panic h)
  | vec t => exact visitElems_calm ho t
  | struct s => intro h; exact visitSeq_calm ho _ (map_panic h)
  | _ => intro h; cases h

theorem decodeObj_calm {kvs : List (Str × DeserAs)} (hk : ∀ kv ∈ kvs, Calm kv.2) : Calm (decodeObj kvs) := by
  intro t
  induction t with
  | opt t ih => intro h; exact ih (map_panic h)
  | struct s =>
    intro h
    rcases bind_panic (map_panic h) with h | ⟨x, -, h⟩
    · exact putFields_calm hk _ h
    · exact finish_calm _ _ h
  | «enum» e =>
    intro h
    cases kvs with
    | nil => cases h
    | cons kv kvs =>
      obtain ⟨k, o⟩ := kv
      have ho : Calm o := hk (k, o) (by simp)
      rcases bind_panic h with h | ⟨x, -, h⟩
      · split at h
        · exact ho _ (map_panic h)
        · exact ho _ (map_panic h)
        · cases h
      · split at h <;> cases h
  | _ => intro h; cases h

/-! ## The order of fields -/

theorem bind_ok_inv {α β : Type} {x : Deser α} {f : α → Deser β} {b : β} (h : x.bind f = .ok b) : ∃ a, x = .ok a ∧ f a = .ok b := by
  cases x with
  | ok a => exact ⟨a, rfl, h⟩
  | err m => cases h
  | panic => cases h

theorem map_ok_inv {α β : Type} {x : Deser α} {f : α → β} {b : β} (h : x.map f = .ok b) : ∃ a, x = .ok a ∧ f a = b := by
  cases x with
  | ok a => exact ⟨a, rfl, Deser.ok.inj h⟩
  | err m => cases h
  | panic => cases h

theorem putField_comm {k k' : Str} {o o' : DeserAs} : (fs : List (Str × Ty)) → (s s1 s2 : Slots fs) → putField k o fs s = .ok s1 →
    putField k' o' fs s1 = .ok s2 → ∃ s3, putField k' o' fs s = .ok s3 ∧ putField k o fs s3 = .ok s2
  | [], _, _, _ => fun _ _ => ⟨(), rfl, rfl⟩
  | f :: fs, (a, r), (a1, r1), (a2, r2) => fun h1 h2 => by
    unfold putField at h1 h2
    split at h1
    next hk =>
      cases a with
      | some _ => cases h1
      | none =>
        obtain ⟨x, hx, he⟩ := map_ok_inv h1
        cases he
        split at h2
        · cases h2
        next hk' =>
          obtain ⟨r', hr, he⟩ := map_ok_inv h2
          cases he
          refine ⟨(none, r2), ?_, ?_⟩
          · unfold putField
            rw [if_neg hk', hr]
            rfl
          · unfold putField
            rw [if_pos hk, hx]
            rfl
    next hk =>
      obtain ⟨r', hr, he⟩ := map_ok_inv h1
      cases he
      split at h2
      next hk' =>
        cases a with
        | some _ => cases h2
        | none =>
          obtain ⟨x, hx, he⟩ := map_ok_inv h2
          cases he
          refine ⟨(some x, r), ?_, ?_⟩
          · unfold putField
            rw [if_pos hk', hx]
            rfl
          · unfold putField
            rw [if_neg hk, hr]
            rfl
      next hk' =>
        obtain ⟨r'', hr', he⟩ := map_ok_inv h2
        cases he
        obtain ⟨s3, h3, h4⟩ := putField_comm fs r r1 r2 hr hr'
        refine ⟨(a, s3), ?_, ?_⟩
        · unfold putField
          rw [if_neg hk', h3]
          rfl
        · unfold putField
          rw [if_neg hk, h4]
          rfl

theorem putFields_perm {fs : List (Str × Ty)} {kvs kvs' : List (Str × DeserAs)} (hp : kvs.Perm kvs') {s s' : Slots fs}
    (h : putFields fs kvs s = .ok s') : putFields fs kvs' s = .ok s' := by
  induction hp generalizing s with
  | nil => exact h
  | cons kv hp ih =>
    obtain ⟨s1, h1, h2⟩ := bind_ok_inv (show (putField kv.1 kv.2 fs s).bind _ = _ from h)
    show (putField kv.1 kv.2 fs s).bind _ = _
    rw [h1]
    exact ih h2
  | swap kv kv' l =>
    obtain ⟨s1, h1, h2⟩ := bind_ok_inv (show (putField kv'.1 kv'.2 fs s).bind _ = _ from h)
    obtain ⟨s2, h2, h3⟩ := bind_ok_inv (show (putField kv.1 kv.2 fs s1).bind _ = _ from h2)
    obtain ⟨s3, h4, h5⟩ := putField_comm fs s s1 s2 h1 h2
    show (putField kv.1 kv.2 fs s).bind _ = _
    rw [h4]
    show (putField kv'.1 kv'.2 fs s3).bind _ = _
    rw [h5]
    exact h3
  | trans _ _ ih1 ih2 => exact ih2 (ih1 h)

theorem decodeFields_map : (kvs : List (Str × Json)) → decodeFields kvs = kvs.map fun kv => (kv.1, decode kv.2)
  | [] => rfl
  | (k, v) :: kvs => by
    show decodeField (k, v) :: decodeFields kvs = _
    rw [decodeFields_map kvs]
    rfl

theorem struct_perm {s : StructTy} {kvs kvs' : List (Str × Json)} (hp : kvs.Perm kvs') {x : (Ty.struct s).sem}
    (h : decode (.obj kvs) (.struct s) = .ok x) : decode (.obj kvs') (.struct s) = .ok x := by
  obtain ⟨r, h1, rfl⟩ := map_ok_inv (show ((putFields s.fields (decodeFields kvs) (emptySlots s.fields)).bind (finish s.fields)).map s.build = _ from h)
  obtain ⟨s', h1, h2⟩ := bind_ok_inv h1
  show ((putFields s.fields (decodeFields kvs') (emptySlots s.fields)).bind (finish s.fields)).map s.build = _
  have : (decodeFields kvs).Perm (decodeFields kvs') := by
    rw [decodeFields_map, decodeFields_map]
    exact hp.map _
  rw [putFields_perm this h1]
  show (finish s.fields s').map s.build = _
  rw [h2]
  rfl

theorem putField_unknown {k : Str} {o : DeserAs} : (fs : List (Str × Ty)) → (s : Slots fs) → k ∉ fs.map Prod.fst → putField k o fs s = .ok s
  | [], _, _ => rfl
  | f :: fs, (a, r), h => by
    have h' : k ≠ f.1 ∧ k ∉ fs.map Prod.fst := by simpa using h
    unfold putField
    rw [if_neg h'.1, putField_unknown fs r h'.2]
    rfl

theorem struct_unknown {s : StructTy} {kvs : List (Str × Json)} {k : Str} {v : Json} (hk : k ∉ s.fields.map Prod.fst) :
    decode (.obj ((k, v) :: kvs)) (.struct s) = decode (.obj kvs) (.struct s) := by
  show (((putField k (decode v) s.fields (emptySlots s.fields)).bind (putFields s.fields (decodeFields kvs))).bind (finish s.fields)).map s.build = _
  rw [putField_unknown _ _ hk]
  rfl

end Serde

open Serde

mutual

theorem decode_calm : (j : Json) → (∀ s, j.Has s → Span.deserialize s ≠ .panic) → Calm (decode j)
  | .null, _ => decodeNull_calm
  | .bool b, _ => decodeBool_calm b
  | .str s, h => decodeStr_calm (h s .str)
  | .arr vs, h => decodeArr_calm (decodes_calm vs fun v hv s hs => h s (.elem hv hs))
  | .obj kvs, h => decodeObj_calm (decodeFields_calm kvs fun k v hv s hs => h s (.field hv hs))
termination_by structural x => x

theorem decodes_calm : (vs : List Json) → (∀ v ∈ vs, ∀ s, v.Has s → Span.deserialize s ≠ .panic) → ∀ o ∈ decodes vs, Calm o
  | [], _ => fun o ho => by cases ho
  | v :: vs, h => fun o ho => by
    rcases List.mem_cons.1 (show o ∈ decode v :: decodes vs from ho) with rfl | ho
    · exact decode_calm v (h v (by simp))
    · exact decodes_calm vs (fun w hw => h w (by simp [hw])) o ho
termination_by structural x => x

theorem decodeFields_calm : (kvs : List (Str × Json)) → (∀ k v, (k, v) ∈ kvs → ∀ s, v.Has s → Span.deserialize s ≠ .panic) →
    ∀ o ∈ decodeFields kvs, Calm o.2
  | [], _ => fun o ho => by cases ho
  | kv :: kvs, h => fun o ho => by
    rcases List.mem_cons.1 (show o ∈ decodeField kv :: decodeFields kvs from ho) with rfl | ho
    · exact decodeField_calm kv (h kv.1 kv.2 (by simp))
    · exact decodeFields_calm kvs (fun k v hv => h k v (by simp [hv])) o ho
termination_by structural x => x

theorem decodeField_calm : (kv : Str × Json) → (∀ s, kv.2.Has s → Span.deserialize s ≠ .panic) → Calm (decodeField kv).2
  | (_, v), h => decode_calm v h
termination_by structural x => x

end

end Fajt
