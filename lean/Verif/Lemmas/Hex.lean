import Verif.Spec.Hex
import Verif.Lemmas.Names

/-!
# from_hex: the conversion loop and the value of hexadecimal texts
-/

namespace NomSparql

theorem hexDigitVal_iff {c : Char} {d : Nat} : hexDigitVal c = some d ↔ HexDigitVal c d := by
  constructor
  · intro h
    unfold hexDigitVal at h
    have key : ∀ n < 128, ∀ m < 16, hexDigitVal (Char.ofNat n) = some m → HexDigitVal (Char.ofNat n) m := by
      unfold HexDigitVal; decide
    have hc : c.toNat < 128 ∧ d < 16 := by
      simp only [isDecDigit_iff, AsciiDigit] at h
      split at h
      · simp only [Option.some.injEq] at h; omega
      · split at h
        · simp only [Option.some.injEq] at h; omega
        · split at h
          · simp only [Option.some.injEq] at h; omega
          · cases h
    have := key c.toNat hc.1 d hc.2
    rw [Char.ofNat_toNat] at this
    exact this h
  · have key : ∀ x ∈ [c!"0123456789abcdef", c!"0123456789ABCDEF"], ∀ m < 16, ∀ y ∈ x, x[m]? = some y → hexDigitVal y = some m := by decide
    have hd : ∀ x ∈ [c!"0123456789abcdef", c!"0123456789ABCDEF"], x[d]? = some c → hexDigitVal c = some d := by
      intro x hx h
      obtain ⟨h1, h2⟩ := List.getElem?_eq_some_iff.mp h
      refine key x hx d ?_ c (h2 ▸ List.getElem_mem h1) h
      simp only [List.mem_cons, List.not_mem_nil, or_false] at hx
      rcases hx with rfl | rfl <;> exact h1
    rintro (h | h)
    · exact hd _ (by simp) h
    · exact hd _ (by simp) h

theorem hexVal_ne_nil {n : Nat} : ¬ HexVal [] n := by
  intro h
  generalize e : ([] : Str) = t at h
  cases h with
  | one => cases e
  | snoc => exact absurd e.symm (by simp)

theorem hexVal_cons {c : Char} {s : Str} {n : Nat} : HexVal (c :: s) n ↔
    ∃ d, HexDigitVal c d ∧ ((s = [] ∧ n = d) ∨ ∃ m, HexVal s m ∧ n = d * 16 ^ s.length + m) := by
  constructor
  · intro h
    generalize e : c :: s = t at h
    induction h generalizing s with
    | one h => cases e; exact ⟨_, h, .inl ⟨rfl, rfl⟩⟩
    | @snoc t n c' d h h' ih =>
      cases t with
      | nil => exact absurd h hexVal_ne_nil
      | cons a t =>
        cases e
        obtain ⟨d', h1, ⟨rfl, rfl⟩ | ⟨m, hm, rfl⟩⟩ := ih rfl
        · exact ⟨_, h1, .inr ⟨_, .one h', by simp; omega⟩⟩
        · refine ⟨_, h1, .inr ⟨_, .snoc hm h', ?_⟩⟩
          show _ = d' * 16 ^ (t ++ [c']).length + _
          rw [List.length_append, List.length_singleton, Nat.pow_succ]
          grind
  · rintro ⟨d, h, ⟨rfl, rfl⟩ | ⟨m, hm, rfl⟩⟩
    · exact .one h
    · induction hm with
      | @one c' d' h' =>
        have := HexVal.snoc (.one h) h'
        simpa [Nat.mul_comm] using this
      | @snoc t n c' d' h1 h' ih =>
        have := HexVal.snoc ih h'
        simp only [List.length_append, List.length_cons, List.length_nil, Nat.zero_add, Nat.pow_succ]
        rw [show d * (16 ^ t.length * 16) + (16 * n + d') = 16 * (d * 16 ^ t.length + n) + d' by grind]
        exact this

theorem hexLoop_iff (s : Str) (acc n : Nat) (ha : acc < 256) : hexLoop acc s = some n ↔
    n < 256 ∧ ((s = [] ∧ n = acc) ∨ ∃ m, HexVal s m ∧ n = acc * 16 ^ s.length + m) := by
  induction s generalizing acc with
  | nil =>
    simp only [hexLoop, Option.some.injEq, true_and, hexVal_ne_nil, false_and, exists_false, or_false]
    exact ⟨fun h => ⟨by omega, h.symm⟩, fun h => h.2.symm⟩
  | cons c s ih =>
    have big : ∀ m, acc * 16 ≤ acc * 16 ^ (c :: s).length + m := fun m => by
      have : acc * 16 * 1 ≤ acc * 16 * 16 ^ s.length := Nat.mul_le_mul_left _ (Nat.pow_pos (by decide))
      rw [List.length_cons, Nat.pow_succ, Nat.mul_comm (16 ^ _), ← Nat.mul_assoc]
      omega
    simp only [hexLoop, hexVal_cons, ← hexDigitVal_iff, reduceCtorEq, false_and, false_or]
    cases hd : hexDigitVal c with
    | none => simp
    | some d =>
      simp only [Option.some.injEq]
      have e : ∀ m, acc * 16 ^ (c :: s).length + (d * 16 ^ s.length + m) = (acc * 16 + d) * 16 ^ s.length + m := fun m => by
        simp only [List.length_cons, Nat.pow_succ]; grind
      split
      · rename_i h
        simp only [false_iff, reduceCtorEq]
        rintro ⟨h1, m, _, rfl⟩
        have := big m
        omega
      · split
        · rename_i h h'
          simp only [false_iff, reduceCtorEq]
          rintro ⟨h1, m, ⟨_, rfl, ⟨rfl, rfl⟩ | ⟨m', _, rfl⟩⟩, rfl⟩
          · simp at h1; omega
          · rw [e] at h1
            have : (acc * 16 + d) * 1 ≤ (acc * 16 + d) * 16 ^ s.length := Nat.mul_le_mul_left _ (Nat.pow_pos (by decide))
            omega
        · rename_i h h'
          rw [ih _ (by omega)]
          refine and_congr_right fun _ => ⟨?_, ?_⟩
          · rintro (⟨rfl, rfl⟩ | ⟨m, hm, rfl⟩)
            · exact ⟨d, ⟨d, rfl, .inl ⟨rfl, rfl⟩⟩, by simp⟩
            · exact ⟨_, ⟨d, rfl, .inr ⟨m, hm, rfl⟩⟩, (e m).symm⟩
          · rintro ⟨m, ⟨_, rfl, ⟨rfl, rfl⟩ | ⟨m', hm, rfl⟩⟩, rfl⟩
            · exact .inl ⟨rfl, by simp⟩
            · exact .inr ⟨m', hm, e m'⟩

theorem hexLoop_zero (s : Str) (n : Nat) (hs : s ≠ []) : hexLoop 0 s = some n ↔ n < 256 ∧ HexVal s n := by
  rw [hexLoop_iff s 0 n (by decide)]
  simp [hs]

theorem hexVal_not {c : Char} (h : hexDigitVal c = none) {s : Str} {n : Nat} : ¬ HexVal (c :: s) n := by
  rw [hexVal_cons]
  rintro ⟨d, hd, _⟩
  rw [← hexDigitVal_iff, h] at hd
  cases hd

theorem fromHex_iff (s : Str) (n : Nat) : fromHex s = some n ↔ n < 256 ∧ ∃ t, (s = t ∨ s = '+' :: t) ∧ HexVal t n := by
  unfold fromHex
  split
  · simp [hexVal_ne_nil]
  · simp only [false_iff, reduceCtorEq]
    rintro ⟨_, t, rfl | h, ht⟩
    · exact hexVal_not rfl ht
    · cases h; exact hexVal_ne_nil ht
  · simp only [false_iff, reduceCtorEq]
    rintro ⟨_, t, rfl | h, ht⟩
    · exact hexVal_not rfl ht
    · cases h
  · rename_i s hs
    rw [hexLoop_zero s n hs]
    refine and_congr_right fun _ => ⟨fun h => ⟨s, .inr rfl, h⟩, ?_⟩
    rintro ⟨t, rfl | h, ht⟩
    · exact absurd ht (hexVal_not rfl)
    · cases h; exact ht
  · rename_i s' h1 h2 h3 h4
    rw [hexLoop_zero _ n (by rintro rfl; simp at h1)]
    refine and_congr_right fun _ => ⟨fun h => ⟨_, .inl rfl, h⟩, ?_⟩
    rintro ⟨t, rfl | rfl, ht⟩
    · exact ht
    · simp at h4

end NomSparql
