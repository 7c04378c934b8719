import Verif.Lemmas.Cost

/-!
# Judgements on counting parsers

* `KGood`, `KConsumes`: `Good` and `Consumes` of the parser without its count.
* `KAgree m p q`: on inputs shorter than `m`, `p` and `q` give the same result (not `fuel`) and the same count.
* `Bd F w p`: the count is at most `w` times `F` of the input length.
-/

namespace NomSparql.Cost

class KGood (p : K α) : Prop where
  out : Good (erase p)

class KConsumes (p : K α) : Prop where
  out : Consumes (erase p)

class KAgree (m : Nat) (p q : K α) : Prop where
  res : Agree m (erase p) (erase q)
  cost : ∀ i, i.length < m → (p i).2 = (q i).2

attribute [local instance] KGood.out KConsumes.out KAgree.res

section
variable {p : K α} {q : K β} {s : K γ} {t : K δ} {u : K ε}

instance {p : P α} [h : Good p] : KGood (lift p) := ⟨h⟩
instance [KGood p] (f : α → β) : KGood (map p f) := ⟨inferInstanceAs (Good (NomSparql.map _ f))⟩
instance [KGood p] : KGood (opt p) := ⟨inferInstanceAs (Good (NomSparql.opt _))⟩
instance [KGood p] [KGood q] : KGood (pair p q) := ⟨inferInstanceAs (Good (NomSparql.pair _ _))⟩
instance [KGood p] [KGood q] [KGood s] : KGood (tuple3 p q s) := inferInstanceAs (KGood (pair p (pair q s)))
instance [KGood p] [KGood q] [KGood s] [KGood t] : KGood (tuple4 p q s t) := inferInstanceAs (KGood (pair p (pair q (pair s t))))
instance [KGood p] [KGood q] [KGood s] [KGood t] [KGood u] : KGood (tuple5 p q s t u) := inferInstanceAs (KGood (pair p (pair q (pair s (pair t u)))))
instance [KGood p] [KGood q] : KGood (preceded p q) := inferInstanceAs (KGood (map (pair p q) _))
instance [KGood p] [KGood q] : KGood (terminated p q) := inferInstanceAs (KGood (map (pair p q) _))
instance [KGood p] [KGood q] [KGood s] : KGood (delimited p q s) := inferInstanceAs (KGood (preceded p (terminated q s)))
instance [KGood p] [KGood q] [KGood s] : KGood (separatedPair p s q) := inferInstanceAs (KGood (pair p (preceded s q)))
instance [h : KGood p] : KGood (alt [p]) := ⟨inferInstanceAs (Good (NomSparql.alt [erase p]))⟩
instance {p₂ : K α} {ps} [KGood p] [h : KGood (alt (p₂ :: ps))] : KGood (alt (p :: p₂ :: ps)) :=
  ⟨have : Good (NomSparql.alt (erase p₂ :: ps.map erase)) := h.out
   inferInstanceAs (Good (NomSparql.alt (erase p :: erase p₂ :: ps.map erase)))⟩
instance [KGood p] : KGood (many1 p) := ⟨inferInstanceAs (Good (NomSparql.many1 _))⟩
instance [KGood p] [KGood q] : KGood (separatedList q p) := ⟨inferInstanceAs (Good (NomSparql.separatedList _ _))⟩
instance [KGood p] [KGood q] : KGood (separatedNonemptyList q p) := ⟨inferInstanceAs (Good (NomSparql.separatedNonemptyList _ _))⟩

instance {p : P α} [h : Consumes p] : KConsumes (lift p) := ⟨h⟩
instance [KConsumes p] (f : α → β) : KConsumes (map p f) := ⟨inferInstanceAs (Consumes (NomSparql.map _ f))⟩
instance pair_consumes_left [KConsumes p] [KGood q] : KConsumes (pair p q) := ⟨inferInstanceAs (Consumes (NomSparql.pair _ _))⟩
instance pair_consumes_right [KGood p] [KConsumes q] : KConsumes (pair p q) := ⟨inferInstanceAs (Consumes (NomSparql.pair _ _))⟩
instance [KConsumes (pair p (pair q s))] : KConsumes (tuple3 p q s) := inferInstanceAs (KConsumes (pair p (pair q s)))
instance [KConsumes (pair p (pair q (pair s t)))] : KConsumes (tuple4 p q s t) := inferInstanceAs (KConsumes (pair p (pair q (pair s t))))
instance [KConsumes (pair p q)] : KConsumes (preceded p q) := inferInstanceAs (KConsumes (map (pair p q) _))
instance [KConsumes (pair p q)] : KConsumes (terminated p q) := inferInstanceAs (KConsumes (map (pair p q) _))
instance [KConsumes (pair p (terminated q s))] : KConsumes (delimited p q s) := inferInstanceAs (KConsumes (preceded p (terminated q s)))
instance [KConsumes (pair p (preceded s q))] : KConsumes (separatedPair p s q) := inferInstanceAs (KConsumes (pair p (preceded s q)))
instance [h : KConsumes p] : KConsumes (alt [p]) := ⟨inferInstanceAs (Consumes (NomSparql.alt [erase p]))⟩
instance {p₂ : K α} {ps} [KConsumes p] [h : KConsumes (alt (p₂ :: ps))] : KConsumes (alt (p :: p₂ :: ps)) :=
  ⟨have : Consumes (NomSparql.alt (erase p₂ :: ps.map erase)) := h.out
   inferInstanceAs (Consumes (NomSparql.alt (erase p :: erase p₂ :: ps.map erase)))⟩
instance [KConsumes p] [KGood p] : KConsumes (many1 p) := ⟨inferInstanceAs (Consumes (NomSparql.many1 _))⟩
instance [KGood p] [KGood q] : KConsumes (separatedNonemptyList q p) := ⟨inferInstanceAs (Consumes (NomSparql.separatedNonemptyList _ _))⟩
end

theorem KGood.le {p : K α} [h : KGood p] {i r a} (e : (p i).1 = .ok r a) : r.length ≤ i.length := Good.len (h := h.out) e
theorem KGood.lt {p : K α} [h : KGood p] {i r a} (e : (p i).1 = .ok r a) (hn : r ≠ i) : r.length < i.length := suffix_lt (Good.ok (h := h.out) e) hn
theorem KConsumes.lt {p : K α} [h : KConsumes p] {i r a} (e : (p i).1 = .ok r a) : r.length < i.length := h.out.out i r a e

/-! ## The same result and count -/

section
variable {m : Nat} {p p' : K α} {q q' : K β} {s s' : K γ} {t t' : K δ} {u u' : K ε}

theorem KAgree.eq [h : KAgree m p p'] {i : Input} (hi : i.length < m) : (p i).1 = (p' i).1 := (h.res.out i hi).1

theorem KAgree.down (h : KAgree (m + 1) p p') : KAgree m p p' := ⟨h.res.down, fun i hi => h.cost i (by omega)⟩

instance (priority := high) {p : P α} [NoFuel p] : KAgree m (lift p) (lift p) := ⟨inferInstanceAs (Agree m p p), fun _ _ => rfl⟩
instance [KAgree m p p'] (f : α → β) : KAgree m (map p f) (map p' f) :=
  ⟨inferInstanceAs (Agree m (NomSparql.map _ f) (NomSparql.map _ f)), fun i hi => KAgree.cost (p := p) i hi⟩
instance [KAgree m p p'] : KAgree m (opt p) (opt p') :=
  ⟨inferInstanceAs (Agree m (NomSparql.opt _) (NomSparql.opt _)), fun i hi => KAgree.cost (p := p) i hi⟩

theorem pair_cost_agree {i : Input} (h1 : (p i).1 = (p' i).1) (h2 : (p i).2 = (p' i).2) (h : ∀ r a, (p i).1 = .ok r a → (q r).2 = (q' r).2) :
    (pair p q i).2 = (pair p' q' i).2 := by
  unfold pair
  rw [← h1, ← h2]
  split
  · rename_i r a e
    simp only [h r a e]
  · rfl

instance (priority := low) [KAgree m p p'] [KGood p] [KAgree m q q'] : KAgree m (pair p q) (pair p' q') :=
  ⟨inferInstanceAs (Agree m (NomSparql.pair _ _) (NomSparql.pair _ _)),
   fun i hi => pair_cost_agree (KAgree.eq (p := p) hi) (KAgree.cost (p := p) i hi) fun r _ e =>
    KAgree.cost (m := m) (p := q) r (by have := KGood.le e; omega)⟩
instance [KAgree (m + 1) p p'] [KConsumes p] [KAgree m q q'] : KAgree (m + 1) (pair p q) (pair p' q') :=
  ⟨inferInstanceAs (Agree (m + 1) (NomSparql.pair _ _) (NomSparql.pair _ _)),
   fun i hi => pair_cost_agree (KAgree.eq (p := p) hi) (KAgree.cost (p := p) i hi) fun r _ e =>
    KAgree.cost (m := m) (p := q) r (by have := KConsumes.lt e; omega)⟩
instance [h : KAgree m (pair p (pair q s)) (pair p' (pair q' s'))] : KAgree m (tuple3 p q s) (tuple3 p' q' s') := h
instance [h : KAgree m (pair p (pair q (pair s t))) (pair p' (pair q' (pair s' t')))] : KAgree m (tuple4 p q s t) (tuple4 p' q' s' t') := h
instance [h : KAgree m (pair p (pair q (pair s (pair t u)))) (pair p' (pair q' (pair s' (pair t' u'))))] :
    KAgree m (tuple5 p q s t u) (tuple5 p' q' s' t' u') := h
instance [KAgree m (pair p q) (pair p' q')] : KAgree m (preceded p q) (preceded p' q') :=
  inferInstanceAs (KAgree m (map (pair p q) _) (map (pair p' q') _))
instance [KAgree m (pair p q) (pair p' q')] : KAgree m (terminated p q) (terminated p' q') :=
  inferInstanceAs (KAgree m (map (pair p q) _) (map (pair p' q') _))
instance [KAgree m (pair p (terminated q s)) (pair p' (terminated q' s'))] : KAgree m (delimited p q s) (delimited p' q' s') :=
  inferInstanceAs (KAgree m (preceded p (terminated q s)) (preceded p' (terminated q' s')))
instance [h : KAgree m (pair p (preceded s q)) (pair p' (preceded s' q'))] : KAgree m (separatedPair p s q) (separatedPair p' s' q') := h

instance [h : KAgree m p p'] : KAgree m (alt [p]) (alt [p']) :=
  ⟨inferInstanceAs (Agree m (NomSparql.alt [erase p]) (NomSparql.alt [erase p'])), fun i hi => h.cost i hi⟩
instance {p₂ p₂' : K α} {ps ps'} [KAgree m p p'] [h : KAgree m (alt (p₂ :: ps)) (alt (p₂' :: ps'))] :
    KAgree m (alt (p :: p₂ :: ps)) (alt (p' :: p₂' :: ps')) where
  res :=
    have : Agree m (NomSparql.alt (erase p₂ :: ps.map erase)) (NomSparql.alt (erase p₂' :: ps'.map erase)) := h.res
    inferInstanceAs (Agree m (NomSparql.alt (erase p :: erase p₂ :: ps.map erase)) (NomSparql.alt (erase p' :: erase p₂' :: ps'.map erase)))
  cost i hi := by
    have h1 := KAgree.eq (p := p) (p' := p') hi
    have h2 := KAgree.cost (p := p) (q := p') i hi
    have h3 : altCost (p₂ :: ps) i = altCost (p₂' :: ps') i := h.cost i hi
    show altCost (p :: p₂ :: ps) i = altCost (p' :: p₂' :: ps') i
    rw [altCost, altCost, ← h1, ← h2, h3]

theorem manyCost_agree [KAgree m p p'] [KGood p] : ∀ n i, i.length < m → manyCost p n i = manyCost p' n i := by
  intro n
  induction n with
  | zero => intro i _; rfl
  | succ n ih =>
    intro i hi
    rw [manyCost, manyCost, ← KAgree.eq (p := p) (p' := p') hi, ← KAgree.cost (p := p) (q := p') i hi]
    split
    · rename_i r a e
      split
      · rfl
      · rename_i hn
        rw [ih r (by have := KGood.lt e hn; omega)]
    · rfl

instance [KAgree m p p'] [KGood p] : KAgree m (many1 p) (many1 p') where
  res := inferInstanceAs (Agree m (NomSparql.many1 _) (NomSparql.many1 _))
  cost i hi := by
    unfold many1
    rw [← KAgree.eq (p := p) (p' := p') hi, ← KAgree.cost (p := p) (q := p') i hi]
    split
    · rename_i r a e
      simp only [manyCost_agree (p := p) (p' := p') (m := m) (r.length + 1) r (by have := KGood.le e; omega)]
    · rfl

theorem sepCost_agree [KAgree m q q'] [KGood q] [KAgree m p p'] [KGood p] : ∀ n i, i.length < m → sepCost q p n i = sepCost q' p' n i := by
  intro n
  induction n with
  | zero => intro i _; rfl
  | succ n ih =>
    intro i hi
    rw [sepCost, sepCost, ← KAgree.eq (p := q) (p' := q') hi, ← KAgree.cost (p := q) (q := q') i hi]
    split
    · rfl
    · rename_i r a e
      have hr := KGood.le e
      split
      · rfl
      · rw [← KAgree.eq (m := m) (p := p) (p' := p') (by omega), ← KAgree.cost (m := m) (p := p) (q := p') r (by omega)]
        split
        · rfl
        · rename_i r2 b e2
          split
          · rfl
          · rw [ih r2 (by have := KGood.le e2; omega)]

theorem listCost_agree [KAgree m q q'] [KGood q] [KAgree m p p'] [KGood p] {i : Input} (hi : i.length < m) : listCost q p i = listCost q' p' i := by
  unfold listCost
  rw [← KAgree.eq (p := p) (p' := p') hi, ← KAgree.cost (p := p) (q := p') i hi]
  split
  · rfl
  · rename_i r a e
    split
    · rfl
    · rw [sepCost_agree (p := p) (p' := p') (q := q) (q' := q') (m := m) (r.length + 1) r (by have := KGood.le e; omega)]

instance [KAgree m q q'] [KGood q] [KAgree m p p'] [KGood p] : KAgree m (separatedList q p) (separatedList q' p') :=
  ⟨inferInstanceAs (Agree m (NomSparql.separatedList _ _) (NomSparql.separatedList _ _)), fun _ hi => listCost_agree hi⟩
instance [KAgree m q q'] [KGood q] [KAgree m p p'] [KGood p] : KAgree m (separatedNonemptyList q p) (separatedNonemptyList q' p') :=
  ⟨inferInstanceAs (Agree m (NomSparql.separatedNonemptyList _ _) (NomSparql.separatedNonemptyList _ _)), fun _ hi => listCost_agree hi⟩
end

/-! ## Upper bounds -/

/-- `F` at least doubles. -/
class Dbl (F : Nat → Nat) : Prop where
  out : ∀ n, 2 * F n ≤ F (n + 1)

/-- `F`, one step later. -/
def sh (F : Nat → Nat) : Nat → Nat
  | 0 => 0
  | n + 1 => F n

theorem Dbl.mono {F : Nat → Nat} [Dbl F] {m n : Nat} (h : m ≤ n) : F m ≤ F n := by
  induction h with
  | refl => exact Nat.le_refl _
  | @step k _ ih =>
    have h1 := Dbl.out (F := F) k
    show F m ≤ F (k + 1)
    omega

theorem Dbl.lt {F : Nat → Nat} [Dbl F] {m n : Nat} (h : m < n) : 2 * F m ≤ F n :=
  Nat.le_trans (Dbl.out m) (Dbl.mono h)

instance {F : Nat → Nat} [Dbl F] : Dbl (sh F) where
  out n := by
    cases n with
    | zero => simp [sh]
    | succ n => exact Dbl.out n

class Bd (F : Nat → Nat) (w : outParam Nat) (p : K α) : Prop where
  out : ∀ i, (p i).2 ≤ w * F i.length

theorem Bd.up {F : Nat → Nat} [Dbl F] {w : Nat} {p : K α} (h : Bd (sh F) w p) : Bd F w p where
  out i := Nat.le_trans (h.out i) (Nat.mul_le_mul_left _ (by
    cases i.length with
    | zero => exact Nat.zero_le _
    | succ n => have := Dbl.out (F := F) n; simp only [sh]; omega))

section
variable {F : Nat → Nat} [Dbl F] {w v : Nat} {p : K α} {q : K β} {s : K γ} {t : K δ} {u : K ε}

instance (priority := high) (F : Nat → Nat) (p : P α) : Bd F 0 (lift p) := ⟨fun _ => by simp [lift]⟩
instance [h : Bd F w p] (f : α → β) : Bd F w (map p f) := ⟨h.out⟩
instance [h : Bd F w p] : Bd F w (opt p) := ⟨h.out⟩

theorem pair_bound {i : Input} {a b : Nat} (h1 : (p i).2 ≤ a) (h2 : ∀ r x, (p i).1 = .ok r x → (q r).2 ≤ b) : (pair p q i).2 ≤ a + b := by
  unfold pair
  simp only
  split
  · rename_i r x e; have := h2 r x e; omega
  · omega

instance (priority := low) [Bd F w p] [KGood p] [Bd F v q] : Bd F (w + v) (pair p q) where
  out i := by
    rw [Nat.add_mul]
    exact pair_bound (Bd.out i) fun r x e => Nat.le_trans (Bd.out r) (Nat.mul_le_mul_left _ (Dbl.mono (KGood.le e)))
instance [Bd (sh F) w p] [KConsumes p] [Bd F v q] : Bd (sh F) (w + v) (pair p q) where
  out i := by
    rw [Nat.add_mul]
    refine pair_bound (Bd.out i) fun r x e => Nat.le_trans (Bd.out (F := F) r) (Nat.mul_le_mul_left _ ?_)
    have := KConsumes.lt e
    cases hl : i.length with
    | zero => omega
    | succ n => exact Dbl.mono (by omega)
instance [h : Bd F w (pair p (pair q s))] : Bd F w (tuple3 p q s) := h
instance [h : Bd F w (pair p (pair q (pair s t)))] : Bd F w (tuple4 p q s t) := h
instance [h : Bd F w (pair p (pair q (pair s (pair t u))))] : Bd F w (tuple5 p q s t u) := h
instance [Bd F w (pair p q)] : Bd F w (preceded p q) := inferInstanceAs (Bd F w (map (pair p q) _))
instance [Bd F w (pair p q)] : Bd F w (terminated p q) := inferInstanceAs (Bd F w (map (pair p q) _))
instance [Bd F w (pair p (terminated q s))] : Bd F w (delimited p q s) := inferInstanceAs (Bd F w (preceded p (terminated q s)))
instance [h : Bd F w (pair p (preceded s q))] : Bd F w (separatedPair p s q) := h
instance [h : Bd F w p] : Bd F w (alt [p]) := ⟨h.out⟩
instance {p₂ : K α} {ps} [Bd F w p] [h : Bd F v (alt (p₂ :: ps))] : Bd F (w + v) (alt (p :: p₂ :: ps)) where
  out i := by
    have h1 := Bd.out (F := F) (p := p) i
    have h2 : altCost (p₂ :: ps) i ≤ _ := h.out i
    show altCost (p :: p₂ :: ps) i ≤ _
    rw [altCost, Nat.add_mul]
    split <;> omega

theorem manyCost_bound [Bd F w p] [KGood p] : ∀ n i, manyCost p n i ≤ 2 * (w * F i.length) := by
  intro n
  induction n with
  | zero => intro i; exact Nat.zero_le _
  | succ n ih =>
    intro i
    rw [manyCost]
    have h1 := Bd.out (F := F) (p := p) i
    split
    · rename_i r a e
      split
      · omega
      · rename_i hn
        have h2 := ih r
        have h3 := Nat.mul_le_mul_left w (Dbl.lt (F := F) (KGood.lt e hn))
        rw [Nat.mul_left_comm] at h3
        omega
    · omega

instance [Bd F w p] [KGood p] : Bd F (3 * w) (many1 p) where
  out i := by
    unfold many1
    simp only
    have h1 := Bd.out (F := F) (p := p) i
    rw [Nat.mul_assoc]
    split
    · rename_i r a e
      have h2 := manyCost_bound (F := F) (p := p) (r.length + 1) r
      have h3 := Nat.mul_le_mul_left w (Dbl.mono (F := F) (KGood.le e))
      omega
    · omega

theorem sepCost_bound [Bd F v q] [KGood q] [Bd F w p] [KGood p] : ∀ n i, sepCost q p n i ≤ 2 * ((v + w) * F i.length) := by
  intro n
  induction n with
  | zero => intro i; exact Nat.zero_le _
  | succ n ih =>
    intro i
    rw [sepCost, Nat.add_mul]
    have h1 := Bd.out (F := F) (p := q) i
    split
    · omega
    · rename_i r a e
      have hr := Nat.mul_le_mul_left w (Dbl.mono (F := F) (KGood.le e))
      have h2 := Bd.out (F := F) (p := p) r
      split
      · omega
      · split
        · show (q i).2 + ((p r).2 + 0) ≤ _
          omega
        · rename_i hn _ r2 b e2
          split
          · show (q i).2 + ((p r).2 + 0) ≤ _
            omega
          · have h3 := ih r2
            have h4 := Nat.mul_le_mul_left (v + w) (Dbl.lt (F := F) (Nat.lt_of_le_of_lt (KGood.le e2) (KGood.lt e hn)))
            rw [Nat.mul_left_comm, Nat.add_mul v w (F i.length)] at h4
            show (q i).2 + ((p r).2 + sepCost q p n r2) ≤ _
            omega

theorem listCost_bound [Bd F v q] [KGood q] [Bd F w p] [KGood p] (i : Input) : listCost q p i ≤ (2 * (v + w)) * F i.length := by
  unfold listCost
  have h1 := Bd.out (F := F) (p := p) i
  rw [Nat.mul_assoc, Nat.add_mul]
  split
  · omega
  · rename_i r a e
    split
    · omega
    · rename_i hn
      have h2 := sepCost_bound (F := F) (p := p) (q := q) (r.length + 1) r
      have h4 := Nat.mul_le_mul_left (v + w) (Dbl.lt (F := F) (KGood.lt e hn))
      rw [Nat.mul_left_comm, Nat.add_mul v w (F i.length)] at h4
      omega

instance [Bd F v q] [KGood q] [Bd F w p] [KGood p] : Bd F (2 * (v + w)) (separatedList q p) := ⟨listCost_bound⟩
instance [Bd F v q] [KGood q] [Bd F w p] [KGood p] : Bd F (2 * (v + w)) (separatedNonemptyList q p) := ⟨listCost_bound⟩
end

end NomSparql.Cost
