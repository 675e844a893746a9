import Verif.Model.SpanSerde
/-!
# Spans: C39 (serialisation) and C47 (translation)
-/
namespace Fajt.Props

theorem natStr_digits (n : Nat) : ∀ c ∈ natStr n, c.isDigit = true :=
  fun _ h => Nat.isDigit_of_mem_toDigits (by omega) (by omega) h

theorem parseUsize_digits {ds : Str} (h0 : ds ≠ []) (h : ∀ c ∈ ds, c.isDigit = true) :
    parseUsize ds = if Nat.ofDigitChars 10 ds 0 < usizeCard then some (Nat.ofDigitChars 10 ds 0) else none := by
  have hp : ¬ ds.head? = some '+' := by
    intro hh
    obtain ⟨r, rfl⟩ := List.head?_eq_some_iff.1 hh
    exact absurd (h '+' (by simp)) (by decide)
  have hd : ¬ (ds = [] ∨ ¬ ds.all Char.isDigit) := by
    rintro (h' | h')
    · exact h0 h'
    · exact h' (List.all_eq_true.2 h)
  unfold parseUsize
  simp only [if_neg hp]
  rw [if_neg hd, Nat.ofDigitChars_eq_foldl]
  simp only [Nat.mul_comm]

theorem parseUsize_natStr {n : Nat} (hn : n < usizeCard) : parseUsize (natStr n) = some n := by
  rw [parseUsize_digits (by unfold natStr; exact Nat.toDigits_ne_nil) (natStr_digits n)]
  unfold natStr
  rw [Nat.ofDigitChars_ten_toDigits, if_pos hn]

theorem splitColon_append {p r : Str} (hp : ':' ∉ p) : splitColon (p ++ ':' :: r) = (p, (splitColon r).1 :: (splitColon r).2) := by
  induction p with
  | nil => simp [splitColon]
  | cons c cs ih =>
    rw [List.mem_cons, not_or] at hp
    simp [splitColon, ih hp.2, Ne.symm hp.1]

theorem splitColon_none {p : Str} (hp : ':' ∉ p) : splitColon p = (p, []) := by
  induction p with
  | nil => rfl
  | cons c cs ih =>
    rw [List.mem_cons, not_or] at hp
    simp [splitColon, ih hp.2, Ne.symm hp.1]

theorem natStr_no_colon (n : Nat) : ':' ∉ natStr n := fun h => absurd (natStr_digits n _ h) (by decide)

/-- **C39**. Deserialising the serialised form of any span (with `usize` bounds) gives the span back. -/
theorem C39_roundtrip (s : Span) (h1 : s.start < usizeCard) (h2 : s.stop < usizeCard) :
    Span.deserialize s.serialize = .ok s := by
  unfold Span.deserialize Span.serialize
  rw [splitColon_append (natStr_no_colon _), splitColon_none (natStr_no_colon _)]
  simp [parseUsize_natStr h1, parseUsize_natStr h2]

/-- **C39**: the serialised form determines the span, also for spans of any size. -/
theorem C39_serialize_injective (s t : Span) (h : s.serialize = t.serialize) : s = t := by
  have hs : splitColon s.serialize = (natStr s.start, [natStr s.stop]) := by
    unfold Span.serialize
    rw [splitColon_append (natStr_no_colon _), splitColon_none (natStr_no_colon _)]
  have ht : splitColon t.serialize = (natStr t.start, [natStr t.stop]) := by
    unfold Span.serialize
    rw [splitColon_append (natStr_no_colon _), splitColon_none (natStr_no_colon _)]
  rw [h, ht] at hs
  simp only [Prod.mk.injEq, List.cons.injEq, and_true] at hs
  have inj : ∀ m n : Nat, natStr m = natStr n → m = n := fun m n h => by
    rw [← @Nat.ofDigitChars_ten_toDigits m, ← @Nat.ofDigitChars_ten_toDigits n]
    exact congrArg (fun d => Nat.ofDigitChars 10 d 0) h
  obtain ⟨a, b⟩ := s
  obtain ⟨c, d⟩ := t
  cases inj _ _ hs.1
  cases inj _ _ hs.2
  rfl

/-- **C39**: a string without a colon is rejected with an error that quotes it (it does not panic). -/
theorem C39_no_colon (s : Str) (h : ':' ∉ s) : Span.deserialize s = .err (s ++ c!" is not a valid span.") := by
  unfold Span.deserialize
  rw [splitColon_none h]

/-- **C39**, exactly what is accepted: the text before the first colon and the text between the first and the second colon
(or the end) must be numbers of `usize`; anything after a second colon is ignored. -/
theorem C39_accepted (p q r : Str) (hp : ':' ∉ p) (hq : ':' ∉ q) (s : Span) :
    (Span.deserialize (p ++ ':' :: q) = .ok s ↔ parseUsize p = some s.start ∧ parseUsize q = some s.stop) ∧
    (Span.deserialize (p ++ ':' :: (q ++ ':' :: r)) = .ok s ↔
      parseUsize p = some s.start ∧ parseUsize q = some s.stop) := by
  obtain ⟨a, b⟩ := s
  unfold Span.deserialize
  rw [splitColon_append hp, splitColon_append hp, splitColon_append hq, splitColon_none hq]
  cases hP : parseUsize p <;> cases hQ : parseUsize q <;> simp [hP, hQ]

/-- **C39**, what is left of the claim "malformed input is an error": with a colon and a part that is not a number the
visitor panics instead of returning an error. -/
theorem C39_panic_iff (s : Str) : Span.deserialize s = .panic ↔
    ∃ p q rest, splitColon s = (p, q :: rest) ∧ (parseUsize p = none ∨ parseUsize q = none) := by
  unfold Span.deserialize
  constructor
  · intro h
    split at h
    · next p q rest hs =>
      refine ⟨p, q, rest, hs, ?_⟩
      cases hp : parseUsize p with
      | none => exact .inl rfl
      | some a =>
        cases hq : parseUsize q with
        | none => exact .inr rfl
        | some b => rw [hp, hq] at h; cases h
    · cases h
  · rintro ⟨p, q, rest, hs, h⟩
    rw [hs]
    simp only
    rcases h with h | h
    · rw [h]
    · rw [h]; cases parseUsize p <;> rfl

/-- **C39**, witness of the panic. -/
theorem C39_panic_witness : Span.deserialize c!"a:b" = .panic := by decide +kernel

example : Span.deserialize c!"12:345" = .ok ⟨12, 345⟩ ∧ Span.serialize ⟨12, 345⟩ = c!"12:345" := by decide +kernel

/-- **C47**. Translating by an offset moves both ends by the offset whenever the result is representable. -/
theorem C47_translate (s : Span) (k : Int) (h1 : 0 ≤ s.start + k) (h2 : 0 ≤ s.stop + k)
    (h3 : s.start + k < usizeCard) (h4 : s.stop + k < usizeCard) :
    ((s.translate k).start : Int) = s.start + k ∧ ((s.translate k).stop : Int) = s.stop + k := by
  unfold Span.translate
  refine ⟨?_, ?_⟩
  · rw [Int.emod_eq_of_lt h1 h3, Int.toNat_of_nonneg h1]
  · rw [Int.emod_eq_of_lt h2 h4, Int.toNat_of_nonneg h2]

/-- **C47**. Translations compose, and translating back restores the span (the arithmetic wraps around, so this holds
for every offset). -/
theorem C47_translate_compose (s : Span) (k l : Int) : (s.translate k).translate l = s.translate (k + l) := by
  have hc : (0 : Int) < usizeCard := by decide
  have key : ∀ a : Nat, ((((a + k) % (usizeCard : Int)).toNat + l) % (usizeCard : Int)) = (a + (k + l)) % (usizeCard : Int) := by
    intro a
    rw [Int.toNat_of_nonneg (Int.emod_nonneg _ (by omega)), Int.emod_add_emod, Int.add_assoc]
  unfold Span.translate
  simp only [key]

theorem C47_translate_inverse (s : Span) (k : Int) (h1 : s.start < usizeCard) (h2 : s.stop < usizeCard) :
    (s.translate k).translate (-k) = s := by
  rw [C47_translate_compose, Int.add_right_neg]
  obtain ⟨a, b⟩ := s
  simp only at h1 h2
  have hc : usizeCard = 18446744073709551616 := rfl
  unfold Span.translate
  rw [hc] at h1 h2 ⊢
  simp only [Span.mk.injEq]
  omega

example : (Span.mk 10 12).translate (-3) = ⟨7, 9⟩ := by decide

end Fajt.Props
