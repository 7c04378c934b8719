import Verif.Model.Float
import Verif.Spec.Ieee

/-!
# Rounding: the conversion of Model/Float meets Spec/Ieee
-/

namespace NomSparql

theorem dist_le_iff {N D j k : Nat} : dist N D j ≤ dist N D k ↔ (j * D - N) + (N - j * D) ≤ (k * D - N) + (N - k * D) := Iff.rfl

/-- The two cases of rounding to an integer. -/
theorem halfEven_cases (N D : Nat) :
    (halfEven N D = N / D ∧ 2 * (N % D) ≤ D ∧ (2 * (N % D) = D → (N / D) % 2 = 0)) ∨
    (halfEven N D = N / D + 1 ∧ D ≤ 2 * (N % D) ∧ (2 * (N % D) = D → (N / D + 1) % 2 = 0)) := by
  unfold halfEven
  simp only
  split
  · exact .inl ⟨rfl, by omega, by omega⟩
  · split
    · exact .inr ⟨rfl, by omega, by omega⟩
    · split
      · exact .inl ⟨rfl, by omega, by omega⟩
      · exact .inr ⟨rfl, by omega, by omega⟩

/-- No integer is nearer, and another one as near means even. -/
theorem halfEven_nearest (N D : Nat) (hD : 0 < D) (j : Nat) :
    dist N D (halfEven N D) ≤ dist N D j ∧ (dist N D j = dist N D (halfEven N D) → j ≠ halfEven N D → halfEven N D % 2 = 0) := by
  have hr := Nat.mod_lt N hD
  have hN := Nat.div_add_mod N D
  generalize hq : N / D = q at hN
  generalize hrr : N % D = r at hN hr
  have hc := halfEven_cases N D
  rw [hq, hrr] at hc
  have e1 : (q + 1) * D = q * D + D := Nat.succ_mul q D
  have e0 : D * q = q * D := Nat.mul_comm ..
  unfold dist
  rcases hc with ⟨h, h1, h2⟩ | ⟨h, h1, h2⟩ <;> rw [h] <;> rcases Nat.lt_trichotomy j q with hj | hj | hj
  · have := Nat.mul_le_mul_right D (show j + 1 ≤ q from hj)
    rw [Nat.succ_mul] at this
    omega
  · subst hj; omega
  · have := Nat.mul_le_mul_right D (show q + 1 ≤ j from hj)
    rcases Nat.lt_or_ge (q + 1) j with h3 | h3
    · have := Nat.mul_le_mul_right D (show q + 1 + 1 ≤ j from h3)
      rw [Nat.succ_mul] at this
      omega
    · have : j = q + 1 := by omega
      subst this
      omega
  · have := Nat.mul_le_mul_right D (show j + 1 ≤ q from hj)
    rw [Nat.succ_mul] at this
    omega
  · subst hj; omega
  · have := Nat.mul_le_mul_right D (show q + 1 ≤ j from hj)
    rcases Nat.lt_or_ge (q + 1) j with h3 | h3
    · have := Nat.mul_le_mul_right D (show q + 1 + 1 ≤ j from h3)
      rw [Nat.succ_mul] at this
      omega
    · have : j = q + 1 := by omega
      subst this
      omega

theorem dist_scale (N D m e : Nat) : dist N (D * 2 ^ e) m = dist N D (m * 2 ^ e) := by
  unfold dist
  rw [show m * (D * 2 ^ e) = m * 2 ^ e * D by grind]

theorem isFloat_pow (e : Nat) : IsFloat (2 ^ e) := ⟨1, e, by simp, by omega⟩
theorem isFloat_le {m : Nat} (e : Nat) (h : m ≤ 2 ^ 53) : IsFloat (m * 2 ^ e) := by
  rcases Nat.lt_or_ge m (2 ^ 53) with h1 | h1
  · exact ⟨m, e, rfl, h1⟩
  · have : m = 2 ^ 53 := by omega
    subst this
    exact ⟨1, 53 + e, by rw [Nat.pow_add]; omega, by omega⟩

/-- A floating point number of at least 2^(52+e) is a multiple of 2^e. -/
theorem IsFloat.multiple {k e : Nat} (h : IsFloat k) (hk : 2 ^ (52 + e) ≤ k) : ∃ j, k = j * 2 ^ e := by
  obtain ⟨m, e', rfl, hm⟩ := h
  have h1 : m * 2 ^ e' < 2 ^ (53 + e') := by rw [Nat.pow_add]; exact Nat.mul_lt_mul_of_pos_right hm (Nat.two_pow_pos e')
  have h2 : 52 + e < 53 + e' := (Nat.pow_lt_pow_iff_right (by omega)).mp (Nat.lt_of_le_of_lt hk h1)
  refine ⟨m * 2 ^ (e' - e), ?_⟩
  rw [Nat.mul_assoc, ← Nat.pow_add]
  congr 2
  omega

theorem roundUnits_spec (N D : Nat) (hD : 0 < D) : ∃ e m, roundUnits N D = m * 2 ^ e ∧ m = halfEven N (D * 2 ^ e) ∧ m ≤ 2 ^ 53 ∧
    (e = 0 ∨ (2 ^ 52 ≤ m ∧ 2 ^ (52 + e) * D ≤ N)) := by
  refine ⟨Nat.log2 (N / D) - 52, _, rfl, rfl, ?_⟩
  generalize he : Nat.log2 (N / D) - 52 = e
  have hp : 0 < D * 2 ^ e := Nat.mul_pos hD (Nat.two_pow_pos e)
  -- the quotient is below 2^53
  have hlt : N / D < 2 ^ (53 + e) := by
    rcases Nat.eq_zero_or_pos (N / D) with h0 | h0
    · rw [h0]; exact Nat.two_pow_pos _
    · have : N / D < 2 ^ (Nat.log2 (N / D) + 1) := Nat.lt_log2_self
      exact Nat.lt_of_lt_of_le this (Nat.pow_le_pow_right (by omega) (by omega))
  have hq : N / (D * 2 ^ e) < 2 ^ 53 := by
    rw [← Nat.div_div_eq_div_mul]
    rw [Nat.div_lt_iff_lt_mul (Nat.two_pow_pos e), ← Nat.pow_add]
    exact hlt
  refine ⟨?_, ?_⟩
  · rcases halfEven_cases N (D * 2 ^ e) with ⟨h, _⟩ | ⟨h, _⟩ <;> omega
  · rcases Nat.eq_zero_or_pos e with h0 | h0
    · exact .inl h0
    · right
      have hl : N / D ≠ 0 := by
        intro h; rw [h] at he; simp at he; omega
      have h1 : 2 ^ (52 + e) ≤ N / D := by
        rw [show 52 + e = Nat.log2 (N / D) by omega]
        exact Nat.log2_self_le hl
      have h2 : 2 ^ 52 ≤ N / (D * 2 ^ e) := by
        rw [← Nat.div_div_eq_div_mul, Nat.le_div_iff_mul_le (Nat.two_pow_pos e), ← Nat.pow_add]
        exact h1
      refine ⟨?_, ?_⟩
      · rcases halfEven_cases N (D * 2 ^ e) with ⟨h, _⟩ | ⟨h, _⟩ <;> omega
      · exact (Nat.le_div_iff_mul_le hD).mp h1

/-- The conversion rounds to nearest, ties to even. -/
theorem roundUnits_rounds (N D : Nat) (hD : 0 < D) : Rounds N D (roundUnits N D) := by
  obtain ⟨e, m, hk, hm, hle, he⟩ := roundUnits_spec N D hD
  have hp : 0 < D * 2 ^ e := Nat.mul_pos hD (Nat.two_pow_pos e)
  rw [hk]
  have near := halfEven_nearest N (D * 2 ^ e) hp
  rw [← hm] at near
  have even : m % 2 = 0 → EvenFloat (m * 2 ^ e) := by
    intro h2
    rcases Nat.lt_or_ge m (2 ^ 53) with h1 | h1
    · exact ⟨m, e, rfl, h1, he.imp id (·.1), h2⟩
    · have : m = 2 ^ 53 := by omega
      subst this
      exact ⟨2 ^ 52, 1 + e, by rw [Nat.pow_add]; omega, by omega, .inr (Nat.le_refl _), by omega⟩
  refine ⟨isFloat_le e hle, fun j hj => ?_⟩
  by_cases hmul : ∃ i, j = i * 2 ^ e
  · obtain ⟨i, rfl⟩ := hmul
    obtain ⟨h1, h2⟩ := near i
    rw [dist_scale, dist_scale] at h1 h2
    refine ⟨h1, fun h3 h4 => even (h2 h3 ?_)⟩
    rintro rfl
    exact h4 rfl
  · have h0 : e ≠ 0 := by
      rintro rfl
      exact hmul ⟨j, by simp⟩
    obtain ⟨-, hN⟩ := he.resolve_left h0
    have hj : j < 2 ^ (52 + e) := Nat.lt_of_not_le fun h => hmul (hj.multiple h)
    obtain ⟨h1, _⟩ := near (2 ^ 52)
    rw [dist_scale, dist_scale, ← Nat.pow_add] at h1
    have hjD := Nat.mul_lt_mul_of_pos_right hj hD
    have : dist N D (2 ^ (52 + e)) < dist N D j := by
      unfold dist; omega
    exact ⟨by omega, by omega⟩

/-! ## Consequences of the specification -/

/-- Two even floating point numbers are not neighbours. -/
theorem even_gap {k k' : Nat} (h : EvenFloat k) (h' : EvenFloat k') (hlt : k' < k) : ∃ j, IsFloat j ∧ k' < j ∧ j < k := by
  obtain ⟨m, e, rfl, hm, he, h2⟩ := h
  obtain ⟨m', e', rfl, hm', he', h2'⟩ := h'
  refine ⟨(m' + 1) * 2 ^ e', isFloat_le e' (by omega), ?_, ?_⟩
  · rw [Nat.succ_mul]; have := Nat.two_pow_pos e'; omega
  -- the next number is odd, hence another one
  refine Nat.lt_of_not_le fun hle => ?_
  have hodd : m' + 1 < 2 ^ 53 := by omega
  rcases Nat.lt_trichotomy e e' with hee | rfl | hee
  · -- e < e': then the number is at most a half of k'
    have h3 : 2 ^ 52 ≤ m' := he'.resolve_left (by omega)
    have h4 : m * 2 ^ e < 2 ^ (53 + e) := by rw [Nat.pow_add]; exact Nat.mul_lt_mul_of_pos_right hm (Nat.two_pow_pos e)
    have h5 : 2 ^ (52 + e') ≤ m' * 2 ^ e' := by rw [Nat.pow_add]; exact Nat.mul_le_mul_right _ h3
    have h6 : 2 ^ (53 + e) ≤ 2 ^ (52 + e') := Nat.pow_le_pow_right (by omega) (by omega)
    omega
  · have h3 := Nat.lt_of_mul_lt_mul_right hlt
    have h4 := Nat.le_of_mul_le_mul_right hle (Nat.two_pow_pos e)
    omega
  · have h3 : 2 ^ 52 ≤ m := he.resolve_left (by omega)
    have h5 : 2 ^ (52 + e) ≤ m * 2 ^ e := by rw [Nat.pow_add]; exact Nat.mul_le_mul_right _ h3
    have h4 : (m' + 1) * 2 ^ e' < 2 ^ (53 + e') := by rw [Nat.pow_add]; exact Nat.mul_lt_mul_of_pos_right hodd (Nat.two_pow_pos e')
    have h6 : 2 ^ (53 + e') ≤ 2 ^ (52 + e) := Nat.pow_le_pow_right (by omega) (by omega)
    omega

/-- Rounding keeps the order. -/
theorem Rounds.mono {N D N' D' k k' : Nat} (h : Rounds N D k) (h' : Rounds N' D' k') (hD : 0 < D) (hD' : 0 < D') (hle : N * D' ≤ N' * D) : k ≤ k' := by
  refine Nat.le_of_not_lt fun hlt => ?_
  have a1 := (h.2 k' h'.1).1
  have b1 := (h'.2 k h.1).1
  have hkD := Nat.mul_lt_mul_of_pos_right hlt hD
  have hkD' := Nat.mul_lt_mul_of_pos_right hlt hD'
  have a2 : k * D + k' * D ≤ 2 * N := by unfold dist at a1; omega
  have b2 : 2 * N' ≤ k * D' + k' * D' := by unfold dist at b1; omega
  have a3 : (k * D + k' * D) * D' ≤ 2 * N * D' := Nat.mul_le_mul_right _ a2
  have b3 : 2 * N' * D ≤ (k * D' + k' * D') * D := Nat.mul_le_mul_right _ b2
  have e : (k * D' + k' * D') * D = (k * D + k' * D) * D' := by grind
  have a4 : 2 * N * D' = (k * D + k' * D) * D' := by
    have : 2 * N * D' = 2 * (N * D') := by grind
    have : 2 * N' * D = 2 * (N' * D) := by grind
    omega
  have b4 : 2 * N' * D = (k * D' + k' * D') * D := by
    have : 2 * N * D' = 2 * (N * D') := by grind
    have : 2 * N' * D = 2 * (N' * D) := by grind
    omega
  have a5 := Nat.eq_of_mul_eq_mul_right hD' a4
  have b5 := Nat.eq_of_mul_eq_mul_right hD b4
  have ev : EvenFloat k := (h.2 k' h'.1).2 (by unfold dist; omega) (by omega)
  have ev' : EvenFloat k' := (h'.2 k h.1).2 (by unfold dist; omega) (by omega)
  obtain ⟨j, hj, j1, j2⟩ := even_gap ev ev' hlt
  have := (h.2 j hj).1
  have := Nat.mul_lt_mul_of_pos_right j1 hD
  have := Nat.mul_lt_mul_of_pos_right j2 hD
  unfold dist at *
  omega

/-- The result depends on the quotient only. -/
theorem Rounds.unique {N D N' D' k k' : Nat} (h : Rounds N D k) (h' : Rounds N' D' k') (hD : 0 < D) (hD' : 0 < D') (e : N * D' = N' * D) : k = k' :=
  Nat.le_antisymm (h.mono h' hD hD' (Nat.le_of_eq e)) (h'.mono h hD' hD (Nat.le_of_eq e.symm))

/-- A floating point number is rounded to itself. -/
theorem rounds_self {k : Nat} (D : Nat) (h : IsFloat k) (hD : 0 < D) : Rounds (k * D) D k :=
  ⟨h, fun j _ => ⟨by unfold dist; omega, fun e hne => absurd (Nat.eq_of_mul_eq_mul_right hD (by unfold dist at e; omega)) hne⟩⟩

/-- The error is at most half a unit or 2^-53 of the number. -/
theorem roundUnits_error (N D : Nat) (hD : 0 < D) : 2 * dist N D (roundUnits N D) ≤ D ∨ 2 ^ 53 * dist N D (roundUnits N D) ≤ N := by
  obtain ⟨e, m, hk, hm, _, he⟩ := roundUnits_spec N D hD
  have hp : 0 < D * 2 ^ e := Nat.mul_pos hD (Nat.two_pow_pos e)
  have key : 2 * dist N (D * 2 ^ e) m ≤ D * 2 ^ e := by
    have hN := Nat.div_add_mod N (D * 2 ^ e)
    have hr := Nat.mod_lt N hp
    have e0 : D * 2 ^ e * (N / (D * 2 ^ e)) = N / (D * 2 ^ e) * (D * 2 ^ e) := Nat.mul_comm ..
    have e1 := Nat.succ_mul (N / (D * 2 ^ e)) (D * 2 ^ e)
    unfold dist
    rcases halfEven_cases N (D * 2 ^ e) with ⟨h, h1, _⟩ | ⟨h, h1, _⟩ <;> rw [hm, h]
    · omega
    · rw [Nat.succ_eq_add_one] at e1; omega
  rw [dist_scale, ← hk] at key
  rcases he with rfl | ⟨_, hN⟩
  · left; simpa using key
  · right
    have : 2 ^ (52 + e) * D = 2 ^ 52 * (D * 2 ^ e) := by rw [Nat.pow_add]; grind
    omega

theorem roundUnits_mono {N D N' D' : Nat} (hD : 0 < D) (hD' : 0 < D') (h : N * D' ≤ N' * D) : roundUnits N D ≤ roundUnits N' D' :=
  (roundUnits_rounds N D hD).mono (roundUnits_rounds N' D' hD') hD hD' h

theorem roundUnits_congr {N D N' D' : Nat} (hD : 0 < D) (hD' : 0 < D') (h : N * D' = N' * D) : roundUnits N D = roundUnits N' D' :=
  (roundUnits_rounds N D hD).unique (roundUnits_rounds N' D' hD') hD hD' h

theorem roundUnits_self {k D : Nat} (h : IsFloat k) (hD : 0 < D) : roundUnits (k * D) D = k :=
  (roundUnits_rounds (k * D) D hD).unique (rounds_self D h hD) hD hD rfl

end NomSparql
