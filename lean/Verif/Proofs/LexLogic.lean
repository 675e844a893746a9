import Verif.Spec.Lexical
/-!
# A small program logic for lexer functions

`Eats s w s'` says that the cursor moved from `s` over the text `w` to `s'`.  `LS m s Q` says that running `m` at `s`
neither panics nor runs out of fuel; if it returns, it moved over some text `w` and `Q` holds; if it fails, the error is
not "end of stream" and its span is well formed and within the source.
-/
namespace Fajt

@[simp] theorem byteLen_nil : byteLen [] = 0 := rfl
@[simp] theorem byteLen_cons (c : Char) (w : Str) : byteLen (c :: w) = c.utf8Size + byteLen w := by
  simp [byteLen]
@[simp] theorem byteLen_append (v w : Str) : byteLen (v ++ w) = byteLen v + byteLen w := by
  simp [byteLen]

theorem utf8Size_pos (c : Char) : 1 ≤ c.utf8Size := Char.utf8Size_pos c

theorem length_le_byteLen (w : Str) : w.length ≤ byteLen w := by
  induction w with
  | nil => simp
  | cons c w ih => have := utf8Size_pos c; simp; omega

theorem lenUtf16_pos (c : Char) : 1 ≤ lenUtf16 c := by unfold lenUtf16; split <;> omega

theorem utf8Size_ascii {c : Char} (h : c.toNat < 128) : c.utf8Size = 1 := by
  unfold Char.utf8Size
  have : c.val.toNat < 128 := h
  simp [UInt32.le_iff_toNat_le]; omega

theorem lenUtf16_ascii {c : Char} (h : c.toNat < 128) : lenUtf16 c = 1 := by
  unfold lenUtf16; split <;> omega

/-- The UTF-16 length never exceeds the UTF-8 length, and is smaller unless the character is ASCII. -/
theorem lenUtf16_lt {c : Char} (h : ¬ c.toNat < 128) : lenUtf16 c < c.utf8Size := by
  have h' : ¬ c.val.toNat < 128 := h
  unfold lenUtf16 Char.utf8Size Char.toNat
  simp only [UInt32.le_iff_toNat_le]
  have e1 : (UInt32.ofNatLT 127 Char.utf8Size._proof_1).toNat = 127 := rfl
  have e2 : (UInt32.ofNatLT 2047 Char.utf8Size._proof_2).toNat = 2047 := rfl
  have e3 : (UInt32.ofNatLT 65535 Char.utf8Size._proof_3).toNat = 65535 := rfl
  repeat' split
  all_goals omega

theorem lenUtf16_le (c : Char) : lenUtf16 c ≤ c.utf8Size := by
  by_cases h : c.toNat < 128
  · rw [lenUtf16_ascii h, utf8Size_ascii h]; exact Nat.le_refl 1
  · exact Nat.le_of_lt (lenUtf16_lt h)

theorem M.seq_ok {σ ε α β : Type} {m : M σ ε α} {f : α → M σ ε β} {s s' : σ} {a : α} (h : m s = .ok a s') :
    (m >>= f) s = f a s' := by simp [M.bind, h]

theorem M.seq_err {σ ε α β : Type} {m : M σ ε α} {f : α → M σ ε β} {s s' : σ} {e : ε} (h : m s = .err e s') :
    (m >>= f) s = .err e s' := by simp [M.bind, h]

theorem posAfter_append (off pos : Nat) (v w : Str) :
    posAfter off pos (v ++ w) = posAfter (off + byteLen v) (posAfter off pos v) w := by
  induction v generalizing off pos with
  | nil => simp [posAfter]
  | cons c v ih => simp [posAfter, ih, Nat.add_assoc]

theorem posAfter_le (off pos : Nat) (w : Str) (h : pos ≤ off) : posAfter off pos w ≤ off + byteLen w := by
  induction w generalizing off pos with
  | nil => simpa [posAfter]
  | cons c w ih =>
    have := ih (off + c.utf8Size) (off + lenUtf16 c) (by have := lenUtf16_le c; omega)
    simp [posAfter]; omega

theorem le_posAfter (off pos : Nat) (w : Str) (h : pos ≤ off) : pos ≤ posAfter off pos w := by
  induction w generalizing off pos with
  | nil => simp [posAfter]
  | cons c w ih =>
    have := ih (off + c.utf8Size) (off + lenUtf16 c) (by have := lenUtf16_le c; omega)
    simp [posAfter]; omega

theorem lt_posAfter (off pos : Nat) (w : Str) (hw : w ≠ []) : off < posAfter off pos w := by
  cases w with
  | nil => exact absurd rfl hw
  | cons c w =>
    have := lenUtf16_pos c
    have := le_posAfter (off + c.utf8Size) (off + lenUtf16 c) w (by have := lenUtf16_le c; omega)
    simp [posAfter]; omega

theorem byteLen_ascii {w : Str} (h : Ascii w) : byteLen w = w.length := by
  induction w with
  | nil => rfl
  | cons c w ih =>
    simp [utf8Size_ascii (h c (by simp)), ih (fun d hd => h d (by simp [hd]))]; omega

theorem posAfter_ascii {w : Str} (off : Nat) (h : Ascii w) : posAfter off off w = off + byteLen w := by
  induction w generalizing off with
  | nil => rfl
  | cons c w ih =>
    have hc := h c (by simp)
    simp only [posAfter, utf8Size_ascii hc, lenUtf16_ascii hc, byteLen_cons]
    rw [ih _ (fun d hd => h d (by simp [hd]))]; omega

/-- The cursor moved from `s` over the text `w` to `s'` (the flag `fol` is left open). -/
structure Eats (s : Cursor) (w : Str) (s' : Cursor) : Prop where
  rest : s.rest = w ++ s'.rest
  off : s'.off = s.off + byteLen w
  pos : s'.pos = posAfter s.off s.pos w

theorem Eats.refl (s : Cursor) : Eats s [] s := ⟨rfl, rfl, rfl⟩

theorem Eats.refl' (s : Cursor) (b : Bool) : Eats s [] { s with fol := b } := ⟨rfl, rfl, rfl⟩

theorem Eats.trans {s s1 s2 : Cursor} {v w : Str} (h1 : Eats s v s1) (h2 : Eats s1 w s2) : Eats s (v ++ w) s2 :=
  ⟨by rw [h1.rest, h2.rest, List.append_assoc],
   by rw [h2.off, h1.off, byteLen_append, Nat.add_assoc],
   by rw [h2.pos, h1.pos, h1.off, posAfter_append]⟩

theorem Eats.advance {s : Cursor} {c : Char} {cs : List Char} (h : s.rest = c :: cs) : Eats s [c] (s.advance c cs) :=
  ⟨by simp [Cursor.advance, h], by simp [Cursor.advance], by simp [Cursor.advance, posAfter]⟩

theorem Eats.pos_le {s s' : Cursor} {w : Str} (h : Eats s w s') (hp : s.pos ≤ s.off) : s'.pos ≤ s'.off := by
  rw [h.pos, h.off]; exact posAfter_le _ _ _ hp

theorem Eats.pos_mono {s s' : Cursor} {w : Str} (h : Eats s w s') (hp : s.pos ≤ s.off) : s.pos ≤ s'.pos := by
  rw [h.pos]; exact le_posAfter _ _ _ hp

theorem Eats.off_lt_pos {s s' : Cursor} {w : Str} (h : Eats s w s') (hw : w ≠ []) :
    s.off < s'.pos := by
  rw [h.pos]; exact lt_posAfter _ _ _ hw

theorem Eats.total {s s' : Cursor} {w : Str} (h : Eats s w s') : s'.off + byteLen s'.rest = s.off + byteLen s.rest := by
  rw [h.off, h.rest, byteLen_append]; omega

theorem Eats.length {s s' : Cursor} {w : Str} (h : Eats s w s') : s.rest.length = w.length + s'.rest.length := by
  rw [h.rest]; simp

/-- `w` is determined by the cursors. -/
theorem Eats.unique {s s' : Cursor} {v w : Str} (h1 : Eats s v s') (h2 : Eats s w s') : v = w := by
  have := h1.rest.symm.trans h2.rest
  exact List.append_cancel_right this

theorem Eats.congr_fol {s s' : Cursor} {w : Str} (b b' : Bool) (h : Eats s w s') :
    Eats { s with fol := b } w { s' with fol := b' } := ⟨h.rest, h.off, h.pos⟩

/-- What is known about an error raised while lexing from `s`. -/
structure ErrOK (s : Cursor) (e : LexErr) : Prop where
  notEos : e.kind ≠ .endOfStream
  le : e.span.start ≤ e.span.stop
  bound : e.span.stop ≤ s.off + byteLen s.rest

theorem ErrOK.back {s s' : Cursor} {w : Str} {e : LexErr} (h : Eats s w s') (he : ErrOK s' e) : ErrOK s e :=
  ⟨he.notEos, he.le, by rw [← h.total]; exact he.bound⟩

/-- Total correctness of a lexer function at `s`. -/
def LS {α : Type} (m : L α) (s : Cursor) (Q : α → Str → Cursor → Prop) : Prop :=
  s.pos ≤ s.off →
  match m s with
  | .ok a s' => ∃ w, Eats s w s' ∧ Q a w s'
  | .err e s' => (∃ w, Eats s w s') ∧ ErrOK s e
  | .panic _ => False
  | .oof => False

namespace LS
variable {α β : Type} {s : Cursor}

theorem pure {a : α} {Q : α → Str → Cursor → Prop} (h : Q a [] s) : LS (Pure.pure a) s Q :=
  fun _ => ⟨[], Eats.refl s, h⟩

theorem bind {m : L α} {f : α → L β} {Q : β → Str → Cursor → Prop} {R : α → Str → Cursor → Prop}
    (hm : LS m s R)
    (hf : ∀ a w s', Eats s w s' → R a w s' → LS (f a) s' (fun b v s'' => Q b (w ++ v) s'')) : LS (m >>= f) s Q := by
  intro hp
  have hm := hm hp
  simp only [M.bind_def, M.bind]
  cases hr : m s with
  | ok a s1 =>
    rw [hr] at hm
    obtain ⟨w, hw, hR⟩ := hm
    have h2 := hf a w s1 hw hR (hw.pos_le hp)
    simp only
    cases hr2 : f a s1 with
    | ok b s2 =>
      rw [hr2] at h2
      obtain ⟨v, hv, hQ⟩ := h2
      exact ⟨w ++ v, hw.trans hv, hQ⟩
    | err e s2 =>
      rw [hr2] at h2
      obtain ⟨⟨v, hv⟩, he⟩ := h2
      exact ⟨⟨w ++ v, hw.trans hv⟩, he.back hw⟩
    | panic _ => rw [hr2] at h2; exact h2
    | oof => rw [hr2] at h2; exact h2
  | err e s1 => rw [hr] at hm; exact hm
  | panic _ => rw [hr] at hm; exact hm
  | oof => rw [hr] at hm; exact hm

theorem mono {m : L α} {Q R : α → Str → Cursor → Prop} (h : LS m s Q)
    (hi : ∀ a w s', Eats s w s' → Q a w s' → R a w s') : LS m s R := by
  intro hp
  have h := h hp
  cases hr : m s with
  | ok a s1 => rw [hr] at h; obtain ⟨w, hw, hQ⟩ := h; exact ⟨w, hw, hi _ _ _ hw hQ⟩
  | err e s1 => rw [hr] at h; exact h
  | panic _ => rw [hr] at h; exact h
  | oof => rw [hr] at h; exact h

/-- A function that only reads off a value. -/
theorem gets {f : Cursor → α} {g : α → L β} {Q : β → Str → Cursor → Prop} (h : LS (g (f s)) s Q) :
    LS (M.gets f >>= g) s Q := h

theorem ite {c : Prop} [Decidable c] {m m' : L α} {Q : α → Str → Cursor → Prop} (h : c → LS m s Q)
    (h' : ¬ c → LS m' s Q) : LS (if c then m else m') s Q := by
  split
  · exact h ‹_›
  · exact h' ‹_›

theorem throw {e : LexErr} {Q : α → Str → Cursor → Prop} (h : s.pos ≤ s.off → ErrOK s e) : LS (M.throw e) s Q :=
  fun hp => ⟨⟨[], Eats.refl s⟩, h hp⟩

/-- The hypothesis about the position may be used. -/
theorem withPos {m : L α} {Q : α → Str → Cursor → Prop} (h : s.pos ≤ s.off → LS m s Q) : LS m s Q :=
  fun hp => h hp hp

/-- Loop rule: every iteration that continues consumes something. -/
theorem loop {β : Type} {body : β → L (β ⊕ α)} {Q : α → Str → Cursor → Prop} (Inv : β → Str → Cursor → Prop)
    (hbody : ∀ b w s', Eats s w s' → Inv b w s' → LS (body b) s' (fun r v s'' =>
      match r with
      | .inl b' => v ≠ [] ∧ Inv b' (w ++ v) s''
      | .inr a => Q a (w ++ v) s''))
    {n : Nat} {b : β} (hn : s.rest.length < n) (h0 : Inv b [] s) : LS (Fajt.loop body n b) s Q := by
  suffices h : ∀ n b w s', Eats s w s' → Inv b w s' → s'.rest.length < n →
      LS (Fajt.loop body n b) s' (fun a v s'' => Q a (w ++ v) s'') from h n b [] s (Eats.refl s) h0 hn
  intro n
  induction n with
  | zero => intro b w s' _ _ h; exact absurd h (Nat.not_lt_zero _)
  | succ n ih =>
    intro b w s' hw hi hn
    unfold Fajt.loop
    refine bind (hbody b w s' hw hi) ?_
    intro r v s'' hv hr
    cases r with
    | inl b' =>
      obtain ⟨hne, hi'⟩ := hr
      have hl := hv.length
      have : 0 < v.length := by cases v with | nil => exact absurd rfl hne | cons => simp
      refine (ih b' (w ++ v) s'' (hw.trans hv) hi' (by omega)).mono ?_
      intro a u s3 _ h; rw [← List.append_assoc]; exact h
    | inr a => exact pure (by rw [List.append_nil]; exact hr)

end LS

/-! Fuel monotonicity -/

theorem loop_succ {σ ε α β : Type} (body : β → M σ ε (β ⊕ α)) (n : Nat) (b : β) (s : σ)
    (h : loop body n b s ≠ .oof) : loop body (n + 1) b s = loop body n b s := by
  induction n generalizing b s with
  | zero => exact absurd rfl h
  | succ n ih =>
    rw [loop, M.bind_def, M.bind]
    conv => rhs; rw [loop, M.bind_def, M.bind]
    have h' := h
    rw [loop, M.bind_def, M.bind] at h'
    cases hr : body b s with
    | ok r s1 =>
      rw [hr] at h'
      cases r with
      | inl b' => exact ih b' s1 h'
      | inr a => rfl
    | err e s1 => rfl
    | panic w => rfl
    | oof => rfl

theorem loop_mono {σ ε α β : Type} (body : β → M σ ε (β ⊕ α)) {n m : Nat} (hnm : n ≤ m) (b : β) (s : σ)
    (h : loop body n b s ≠ .oof) : loop body m b s = loop body n b s := by
  induction hnm with
  | refl => rfl
  | step _ ih => rw [loop_succ _ _ _ _ (by rw [ih]; exact h), ih]

end Fajt
