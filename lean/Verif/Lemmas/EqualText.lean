import Verif.Props.C65
import Verif.Props.C66
import Verif.Lemmas.Equal
import Verif.Lemmas.EqualFixed
import Verif.Spec.Compare

/-!
# Numbers of texts that are written with integers only
-/

namespace NomSparql

theorem pos_units (x : F64) : x.pos = x.units := by cases x <;> rfl

theorem seen_iff (a b : NumericLiteral) : NumericLiteral.rustEq a b = true ↔ seen a = seen b := by
  have key : ∀ x y : Int, ((⟨decide (x < 0), x.natAbs, 0⟩ : Decimal) = ⟨decide (y < 0), y.natAbs, 0⟩) ↔ x = y := by
    intro x y
    constructor
    · intro h
      injection h with h1 h2
      by_cases hx : x < 0 <;> by_cases hy : y < 0 <;> simp [hx, hy] at h1 <;> omega
    · rintro rfl; rfl
  cases a with
  | int v => cases b <;> simp [NumericLiteral.rustEq, seen]
  | double d e =>
    cases b with
    | int v => simp [NumericLiteral.rustEq, seen]
    | double d' e' => simp only [NumericLiteral.rustEq, seen, Bool.and_eq_true, beq_iff_eq, f64_eq_iff, NumericLiteral.double.injEq, pos_units, key]

theorem pow18 {n k : Nat} (h : n < 10 ^ k) (hk : k ≤ 18) : (n : Int) < 2 ^ 63 := by
  have : 10 ^ k ≤ 10 ^ 18 := Nat.pow_le_pow_right (by omega) hk
  have : (10 : Nat) ^ 18 < 2 ^ 63 := by decide
  omega

theorem digitsVal_lt : ∀ {s : Str} {n : Nat}, DecVal s n → n < 10 ^ s.length := by
  intro s n h
  induction h with
  | digit h => have := h.2; simp only [List.length_singleton]; unfold Char.toNat at *; omega
  | @snoc s c n h hc ih =>
    have := hc.2
    rw [List.length_append, List.length_singleton, Nat.pow_succ]
    omega

theorem whole_number {i j r : Str} {n : NumericLiteral} (hi : OnlyIntegers i) (m : j <:+ i) (e : numericLiteral j = .ok r n) : ∃ v, n = .int v := by
  cases n with
  | int v => exact ⟨v, rfl⟩
  | double d o =>
    exfalso
    obtain ⟨h1, h2⟩ := numericLiteral_double.mp e
    obtain ⟨r1, h3, _⟩ := pair_ok_iff.mp h2
    obtain ⟨s, rfl, ⟨sg, neg, w, f, k1, k2, k3, k4, k5, k6, k7⟩, h4, h5⟩ := sparqlDecimal_ok.mp h3
    obtain ⟨l, rfl⟩ := m
    rcases k2 with ⟨rfl, rfl⟩ | rfl
    · rw [List.append_nil] at k3 k4 k6
      obtain ⟨w', c, rfl⟩ : ∃ w' c, w = w' ++ [c] := ⟨_, _, (List.dropLast_concat_getLast k3).symm⟩
      have hlt := pow18 (digitsVal_lt k6) (hi.2.2 _ ⟨l ++ sg, r1, by simp⟩ k4)
      have hr : IntStop r1 := by
        intro x t hx
        subst hx
        rintro (hx | hx)
        · exact h4 x t rfl hx
        · exact hi.1 c x (k4 c (by simp)) (by simpa using hx) ⟨l ++ sg ++ w', t, by simp⟩
      have := sparqlInt_ok.mpr ⟨sg ++ (w' ++ [c]), rfl, ⟨sg, neg, _, _, rfl, k1, k6, rfl⟩, ?_, hr⟩
      · obtain ⟨_, _, h1⟩ := h1
        rw [this] at h1
        cases h1
      · unfold FitsI64; split <;> omega
    · rcases List.eq_nil_or_concat w with rfl | ⟨w', c, rfl⟩
      · cases f with
        | nil => simp at k3
        | cons c f => exact hi.2.1 c (k4 c (by simp)) ⟨l ++ sg, f ++ r1, by simp⟩
      · exact hi.1 c '.' (k4 c (by simp)) (by simp) ⟨l ++ sg ++ w', f ++ r1, by simp⟩

/-- Nothing is asked of the leaves but that the numbers are integers. -/
def wholeLeaves : Leaves :=
  ⟨fun _ => True, fun _ => True, fun _ => True, fun n => ∃ v, n = .int v, fun _ => True, fun _ => True, fun _ => True, fun _ => True, True⟩

theorem wholeLeaves_ok {i : Str} (hi : OnlyIntegers i) : LeafIn (· <:+ i) wholeLeaves where
  var _ _ := trivial
  iri _ _ := trivial
  literal _ _ := trivial
  number m e := whole_number hi m e
  blank _ _ := trivial
  limit _ _ := trivial
  separator _ _ := trivial
  prologue _ _ _ _ := trivial

theorem seen_whole : ∀ n, wholeLeaves.number n → seen n = n := by
  rintro _ ⟨v, rfl⟩
  rfl

end NomSparql
