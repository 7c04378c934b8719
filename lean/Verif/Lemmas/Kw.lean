import Verif.Lemmas.Names

/-!
# Keywords without `k`: no panic, so only `Error`
-/

namespace NomSparql

/-- Tags without `k`. -/
class inductive KwPlain : List Char → Prop
  | nil : KwPlain []
  | cons {c t} : KwChar c → KwPlain t → KwPlain (c :: t)

instance : KwPlain [] := .nil
instance {c t} [h : KwChar c] [h' : KwPlain t] : KwPlain (c :: t) := .cons h h'

theorem KwPlain.kwTag {t} (h : KwPlain t) : KwTag t := by
  induction h with
  | nil => exact .nil
  | cons h _ ih => exact .cons h ih

theorem kwPlain_takeBytes {t : List Char} (ht : KwPlain t) : ∀ {i : Input},
    overlapNoCase i t = true → byteLen t ≤ byteLen i → takeBytes (byteLen t) i ≠ none := by
  induction ht with
  | nil => intro i _ _; rw [show byteLen [] = 0 from rfl, takeBytes_zero]; simp
  | @cons c t hc _ ih =>
    intro i ho hl
    have hca := hc.ascii
    have hb : byteLen (c :: t) = 1 + byteLen t := by rw [byteLen_cons, utf8Size_ascii hca]
    rw [hb] at hl ⊢
    cases i with
    | nil => simp [byteLen] at hl
    | cons d i =>
      simp only [overlapNoCase, Bool.and_eq_true, beq_iff_eq] at ho
      have hd := (lower_eq_kw ho.1).ascii hca
      rw [takeBytes_ascii hd]
      rw [byteLen_cons, utf8Size_ascii hd] at hl
      have := ih (i := i) ho.2 (by omega)
      cases e : takeBytes (byteLen t) i with
      | none => exact absurd e this
      | some x => simp

instance {t} [ht : KwPlain t] : Soft (tagNoCase t) where
  out i e h := by
    unfold tagNoCase at h
    split at h
    · rename_i ho
      simp only [Bool.and_eq_true, decide_eq_true_eq] at ho
      have := kwPlain_takeBytes ht ho.1 ho.2
      split at h
      · cases h
      · contradiction
    · cases h; exact ⟨_, _, rfl⟩

/-- A keyword is not there: `Error` at the input itself. -/
theorem tagNoCase_error {t : List Char} [ht : KwPlain t] {i : Input}
    (h : ∀ a r, i = a ++ r → ¬ CaseVariant t a) : tagNoCase t i = .err (.error i .Tag) := by
  have := ht.kwTag
  rcases Soft.cases (tagNoCase t) i with ⟨r, a, e⟩ | ⟨pos, k, e⟩
  · obtain ⟨h1, h2⟩ := tagNoCase_ok_iff.mp e
    exact absurd h2 (h a r h1)
  · rcases tagNoCase_err e with h | h
    · rw [e, h]
    · cases h

theorem CaseVariant.cons_iff {x t s} : CaseVariant (x :: t) s ↔
    ∃ y s', s = y :: s' ∧ SameLetter x y ∧ CaseVariant t s' := by
  constructor
  · intro h; cases h with | cons h1 h2 => exact ⟨_, _, rfl, h1, h2⟩
  · rintro ⟨y, s', rfl, h1, h2⟩; exact .cons h1 h2

theorem CaseVariant.nil_iff {s} : CaseVariant [] s ↔ s = [] := by
  constructor
  · intro h; cases h; rfl
  · rintro rfl; exact .nil

theorem CaseVariant.ne_nil {x t s} (h : CaseVariant (x :: t) s) : s ≠ [] := by
  obtain ⟨_, _, rfl, _⟩ := CaseVariant.cons_iff.mp h; simp

/-- Two keywords that differ at some place have no common variant prefix. -/
theorem sameLetter_unique {x x' y} (h : SameLetter x y) (h' : SameLetter x' y)
    (hx : ¬ (0x41 ≤ x.toNat ∧ x.toNat ≤ 0x5A)) (hx' : ¬ (0x41 ≤ x'.toNat ∧ x'.toNat ≤ 0x5A)) : x = x' := by
  apply Char.toNat_inj'
  rcases h with rfl | ⟨h1, h2, h3⟩ <;> rcases h' with rfl | ⟨h4, h5, h6⟩ <;> omega

/-! ## String literals only fail softly -/

theorem escapedLoop_soft {normal : P α} {esc : P β} [hn : Soft normal] [he : Soft esc] {ctl input} :
    ∀ n i e, escapedLoop normal ctl esc input n i = .err e → e = .fuel ∨ ∃ pos k, e = .error pos k
  | 0, i, e, h => by unfold escapedLoop at h; cases h; exact .inl rfl
  | n + 1, [], e, h => by unfold escapedLoop at h; cases h
  | n + 1, c :: cs, e, h => by
    unfold escapedLoop at h
    split at h
    · split at h
      · cases h
      · exact escapedLoop_soft _ _ _ h
    · split at h
      · split at h
        · cases h; exact .inr ⟨_, _, rfl⟩
        · split at h
          · split at h
            · cases h
            · exact escapedLoop_soft _ _ _ h
          · rename_i h2; cases h; exact .inr (he.out _ _ h2)
      · split at h
        · cases h; exact .inr ⟨_, _, rfl⟩
        · cases h
    · rename_i h2; cases h; exact .inr (hn.out _ _ h2)

instance {normal : P α} {esc : P β} {ctl} [Soft normal] [Soft esc] [hf : NoFuel (escaped normal ctl esc)] :
    Soft (escaped normal ctl esc) where
  out i e h := by
    rcases escapedLoop_soft _ _ _ h with rfl | h'
    · exact absurd h (hf.out i)
    · exact h'

instance : Soft stringLiteral := by unfold stringLiteral; infer_instance
instance : Soft rdfLiteral := by unfold rdfLiteral; infer_instance
instance : Soft boolean := by unfold boolean; infer_instance

/-! ## Evaluation lemmas -/

section
variable {p : P α} {q : P β} {i r r' : Input} {a : α} {b : β} {e : Err}

theorem preceded_cont (h : p i = .ok r a) : preceded p q i = q r := by
  unfold preceded map pair
  rw [h]
  simp only
  cases q r <;> rfl
theorem preceded_stop (h : p i = .err e) : preceded p q i = .err e := by
  unfold preceded map pair
  rw [h]
theorem map_eval {f : α → β} (h : p i = .ok r a) : map p f i = .ok r (f a) := by unfold map; rw [h]
theorem map_stop {f : α → β} (h : p i = .err e) : map p f i = .err e := by unfold map; rw [h]
theorem pair_eval (h : p i = .ok r a) (h' : q r = .ok r' b) : pair p q i = .ok r' (a, b) := by
  unfold pair; rw [h]; simp only; rw [h']
theorem pair_stop (h : p i = .err e) : pair p q i = .err e := by unfold pair; rw [h]
theorem pair_stop2 (h : p i = .ok r a) (h' : q r = .err e) : pair p q i = .err e := by
  unfold pair; rw [h]; simp only; rw [h']
theorem terminated_eval (h : p i = .ok r a) (h' : q r = .ok r' b) : terminated p q i = .ok r' a := by
  unfold terminated; exact map_eval (pair_eval h h')
theorem terminated_stop (h : p i = .err e) : terminated p q i = .err e := by
  unfold terminated; exact map_stop (pair_stop h)
theorem terminated_stop2 (h : p i = .ok r a) (h' : q r = .err e) : terminated p q i = .err e := by
  unfold terminated; exact map_stop (pair_stop2 h h')
theorem opt_eval (h : p i = .ok r a) : opt p i = .ok r (some a) := by unfold opt; rw [h]
theorem opt_soft {pos k} (h : p i = .err (.error pos k)) : opt p i = .ok i none := by unfold opt; rw [h]
theorem opt_hard (h : p i = .err e) (h' : ∀ pos k, e ≠ .error pos k) : opt p i = .err e := by
  unfold opt; rw [h]; cases e <;> first | rfl | exact absurd rfl (h' _ _)
theorem alt_skip {p' : P α} {ps : List (P α)} {pos k} (h : p i = .err (.error pos k)) :
    alt (p :: p' :: ps) i = alt (p' :: ps) i := by
  conv => lhs; unfold alt
  rw [h]
theorem alt_take {ps : List (P α)} (h : p i = .ok r a) : alt (p :: ps) i = .ok r a := by
  cases ps with
  | nil => exact h
  | cons _ _ => unfold alt; rw [h]
theorem alt_hard {ps : List (P α)} (h : p i = .err e) (h' : ∀ pos k, e ≠ .error pos k) :
    alt (p :: ps) i = .err e := by
  cases ps with
  | nil => exact h
  | cons _ _ => unfold alt; rw [h]; cases e <;> first | rfl | exact absurd rfl (h' _ _)
theorem alt_last : alt [p] i = p i := rfl
theorem recognize_stop (h : p i = .err e) : recognize p i = .err e := by unfold recognize; rw [h]
theorem mapRes_stop {f : α → Option β} (h : p i = .err e) : mapRes p f i = .err e := by unfold mapRes; rw [h]
theorem cut_soft {pos k} (h : p i = .err (.error pos k)) : cut p i = .err (.failure pos k) := by
  unfold cut; rw [h]
end

end NomSparql
