import Verif.Lemmas.CostInstances
import Verif.Lemmas.CostLower
import Verif.Spec.Effort

/-!
# Effort in terms of the length of the input: the judgement and its rules

* `Lin W k b D p`: on an input `i` with `4 * 2 ^ strlens i ≤ W` the parser `p` either succeeds at a cost that is at least `k` below
  `W` times the number of characters read (`clean`), or it succeeds with a rest in `D` at a cost of at most `2 * W` times the length of the
  input plus `b`, or it fails at such a cost.
* `Idle c D D' p`: on an input in `D` the cost is at most `c`, and a success leaves a rest in `D'`.
-/

namespace NomSparql

theorem strlens_suffix {r i : Str} (h : r <:+ i) : strlens r ≤ strlens i := by
  obtain ⟨x, rfl⟩ := h
  induction x with
  | nil => exact Nat.le_refl _
  | cons c x ih => rw [List.cons_append, strlens]; omega

namespace Cost

/-- `W` is large enough for `i`. -/
def Enough (W : Nat) (i : Input) : Prop := 4 * 2 ^ strlens i ≤ W

/-- The length of `i` in units of cost. -/
def sz (W : Nat) (i : Input) : Int := ((W * i.length : Nat) : Int)

theorem Enough.suffix {W : Nat} {r i : Input} (h : Enough W i) (hr : r <:+ i) : Enough W r := by
  unfold Enough at h ⊢
  have := Nat.pow_le_pow_right (n := 2) (by omega) (strlens_suffix hr)
  omega

theorem Enough.four {W : Nat} {i : Input} (h : Enough W i) : 4 ≤ W := by
  unfold Enough at h
  have := Nat.pow_pos (n := strlens i) (show 0 < 2 by omega)
  omega

theorem sz_nonneg {W : Nat} {i : Input} : 0 ≤ sz W i := Int.natCast_nonneg _
theorem sz_le {W : Nat} {r i : Input} (h : r.length ≤ i.length) : sz W r ≤ sz W i := Int.ofNat_le.mpr (Nat.mul_le_mul_left W h)
theorem sz_lt {W : Nat} {r i : Input} (h : r.length < i.length) : sz W r + W ≤ sz W i := by
  have := Nat.mul_le_mul_left W (Nat.succ_le_of_lt h)
  rw [Nat.mul_succ] at this
  exact Int.ofNat_le.mpr this

/-- No dirty rest. -/
def NoD : Input → Prop := fun _ => False

class Lin (W : Nat) (k b : outParam Int) (D : outParam (Input → Prop)) (p : K α) : Prop where
  ok : ∀ {i r a}, Enough W i → (p i).1 = .ok r a → ((p i).2 : Int) + sz W r + k ≤ sz W i ∨ (D r ∧ ((p i).2 : Int) ≤ 2 * sz W i + b)
  err : ∀ {i e}, Enough W i → (p i).1 = .err e → ((p i).2 : Int) ≤ 2 * sz W i + b

class Idle (c : outParam Nat) (D D' : Input → Prop) (p : K α) : Prop where
  cost : ∀ {i}, D i → (p i).2 ≤ c
  ok : ∀ {i r a}, D i → (p i).1 = .ok r a → D' r

section
variable {W : Nat} {k b k' b' : Int} {D D' D₂ : Input → Prop} {c c' : Nat} {p : K α} {q : K β} {s : K γ} {t : K δ} {u : K ε}

theorem Lin.weaken (h : Lin W k b D p) (hk : k' ≤ k) (hb : b ≤ b') (hD : ∀ r, D r → D' r) : Lin W k' b' D' p where
  ok hw e := by
    rcases h.ok hw e with h1 | ⟨h1, h2⟩
    · exact .inl (by omega)
    · exact .inr ⟨hD _ h1, by omega⟩
  err hw e := by have := h.err hw e; omega

theorem Lin.le [KGood p] (h : Lin W k b D p) (hk : 0 ≤ k) (hb : 0 ≤ b) {i : Input} (hw : Enough W i) : ((p i).2 : Int) ≤ 2 * sz W i + b := by
  cases e : (p i).1 with
  | err e' => exact h.err hw e
  | ok r a =>
    have := sz_nonneg (W := W) (i := r)
    have := sz_nonneg (W := W) (i := i)
    rcases h.ok hw e with h1 | ⟨_, h1⟩ <;> omega

instance {p : P α} [Good p] : Lin W 0 0 NoD (lift p) where
  ok _ e := by
    have := sz_le (W := W) (Good.len e)
    left
    show ((0 : Nat) : Int) + _ + _ ≤ _
    omega
  err {i _} _ _ := by
    have := sz_nonneg (W := W) (i := i)
    show ((0 : Nat) : Int) ≤ _
    omega
instance (priority := high) {p : P α} [h : Consumes p] : Lin W W 0 NoD (lift p) where
  ok _ e := by
    have := sz_lt (W := W) (h.out _ _ _ e)
    left
    show ((0 : Nat) : Int) + _ + _ ≤ _
    omega
  err {i _} _ _ := by
    have := sz_nonneg (W := W) (i := i)
    show ((0 : Nat) : Int) ≤ _
    omega

instance [h : Lin W k b D p] : Lin W (k - 1) (b + 1) D (tick p) where
  ok {i _ _} hw e := by
    show (((p i).2 + 1 : Nat) : Int) + _ + _ ≤ _ ∨ _ ∧ (((p i).2 + 1 : Nat) : Int) ≤ _
    rcases h.ok hw e with h1 | ⟨h1, h2⟩
    · exact .inl (by omega)
    · exact .inr ⟨h1, by omega⟩
  err {i _} hw e := by
    have := h.err hw e
    show (((p i).2 + 1 : Nat) : Int) ≤ _
    omega

theorem map_ok {f : α → β} {i r a} (e : (map p f i).1 = .ok r a) : ∃ x, (p i).1 = .ok r x := by
  have e : NomSparql.map (erase p) f i = .ok r a := e
  unfold NomSparql.map at e
  cases e' : erase p i with
  | ok r' x => rw [e'] at e; injection e with e; subst e; exact ⟨x, e'⟩
  | err x => rw [e'] at e; cases e
theorem map_err {f : α → β} {i e} (h : (map p f i).1 = .err e) : (p i).1 = .err e := by
  have h : NomSparql.map (erase p) f i = .err e := h
  unfold NomSparql.map at h
  cases e' : erase p i with
  | ok r' x => rw [e'] at h; cases h
  | err x => rw [e'] at h; injection h with h; subst h; exact e'

instance [h : Lin W k b D p] (f : α → β) : Lin W k b D (map p f) where
  ok hw e := by obtain ⟨x, e⟩ := map_ok e; exact h.ok hw e
  err hw e := h.err hw (map_err e)
instance [h : Idle c D D' p] (f : α → β) : Idle c D D' (map p f) where
  cost := h.cost
  ok hd e := by obtain ⟨x, e⟩ := map_ok e; exact h.ok hd e

theorem pair_ok {i r a} (e : (pair p q i).1 = .ok r a) :
    ∃ r₁ x y, (p i).1 = .ok r₁ x ∧ (q r₁).1 = .ok r y ∧ (pair p q i).2 = (p i).2 + (q r₁).2 := by
  have e : NomSparql.pair (erase p) (erase q) i = .ok r a := e
  unfold NomSparql.pair at e
  cases e' : erase p i with
  | err x => rw [e'] at e; cases e
  | ok r₁ x =>
    rw [e'] at e
    simp only at e
    cases e₂ : erase q r₁ with
    | err x => rw [e₂] at e; cases e
    | ok r₂ y =>
      rw [e₂] at e
      injection e with e; subst e
      refine ⟨r₁, x, y, e', e₂, ?_⟩
      unfold pair
      rw [show (p i).1 = .ok r₁ x from e']

theorem pair_err {i e} (h : (pair p q i).1 = .err e) :
    ((p i).1 = .err e ∧ (pair p q i).2 = (p i).2) ∨ ∃ r₁ x, (p i).1 = .ok r₁ x ∧ (q r₁).1 = .err e ∧ (pair p q i).2 = (p i).2 + (q r₁).2 := by
  have h : NomSparql.pair (erase p) (erase q) i = .err e := h
  unfold NomSparql.pair at h
  cases e' : erase p i with
  | err x =>
    rw [e'] at h
    injection h with h; subst h
    refine .inl ⟨e', ?_⟩
    unfold pair
    rw [show (p i).1 = .err x from e']
    rfl
  | ok r₁ x =>
    rw [e'] at h
    simp only at h
    cases e₂ : erase q r₁ with
    | ok r₂ y => rw [e₂] at h; cases h
    | err y =>
      rw [e₂] at h
      injection h with h; subst h
      refine .inr ⟨r₁, x, e', e₂, ?_⟩
      unfold pair
      rw [show (p i).1 = .ok r₁ x from e']

instance Lin.seq [KGood p] [KGood q] [h : Lin W k b D p] [h' : Lin W k' b' D' q] [hi : Idle c D D' q] :
    Lin W (k + k') (max (b + c) (max b (b' - 2 * k))) D' (Cost.pair p q) where
  ok {i r a} hw e := by
    obtain ⟨r₁, x, y, e1, e2, hc⟩ := pair_ok e
    have hs : r₁ <:+ i := Good.ok (h := KGood.out) e1
    have hl := sz_le (W := W) hs.length_le
    have hl2 := sz_le (W := W) (KGood.le e2)
    have := sz_nonneg (W := W) (i := r)
    rw [hc]
    rcases h.ok hw e1 with h1 | ⟨h1, h2⟩
    · rcases h'.ok (hw.suffix hs) e2 with h3 | ⟨h3, h4⟩
      · exact .inl (by omega)
      · exact .inr ⟨h3, by omega⟩
    · exact .inr ⟨hi.ok h1 e2, by have := hi.cost h1; omega⟩
  err {i e} hw e' := by
    rcases pair_err e' with ⟨e1, hc⟩ | ⟨r₁, x, e1, e2, hc⟩
    · have := h.err hw e1
      rw [hc]; omega
    · have hs : r₁ <:+ i := Good.ok (h := KGood.out) e1
      have hl := sz_le (W := W) hs.length_le
      have := sz_nonneg (W := W) (i := r₁)
      rw [hc]
      rcases h.ok hw e1 with h1 | ⟨h1, h2⟩
      · have h3 := h'.err (hw.suffix hs) e2
        omega
      · have := hi.cost h1; omega

/-! ### Idle -/

instance (priority := high) : Idle 0 NoD D' p := ⟨fun h => h.elim, fun h => h.elim⟩
theorem Idle.weaken (h : Idle c D D' p) (hc : c ≤ c') (hD : ∀ r, D₂ r → D r) {D₃ : Input → Prop} (hD' : ∀ r, D' r → D₃ r) : Idle c' D₂ D₃ p :=
  ⟨fun h1 => Nat.le_trans (h.cost (hD _ h1)) hc, fun h1 e => hD' _ (h.ok (hD _ h1) e)⟩
theorem Idle.pair (h : Idle c D D' p) (h' : Idle c' D' D₂ q) : Idle (c + c') D D₂ (pair p q) where
  cost hd := pair_bound (h.cost hd) fun _ _ e => h'.cost (h.ok hd e)
  ok hd e := by
    obtain ⟨r₁, x, y, e1, e2, _⟩ := pair_ok e
    exact h'.ok (h.ok hd e1) e2
instance Idle.pair_left [h : Idle c D NoD p] : Idle c D D' (Cost.pair p q) where
  cost hd := by
    have := pair_bound (p := p) (q := q) (b := 0) (h.cost hd) fun _ _ e => (h.ok hd e).elim
    omega
  ok hd e := by
    obtain ⟨r₁, x, y, e1, e2, _⟩ := pair_ok e
    exact (h.ok hd e1).elim
theorem Idle.lift {p : P α} (h : ∀ i r a, D i → p i = .ok r a → D' r) : Idle 0 D D' (lift p) := ⟨fun _ => Nat.le_refl _, fun hd e => h _ _ _ hd e⟩
theorem Idle.fails {p : P α} (h : ∀ i, D i → Fails p i) : Idle 0 D D' (Cost.lift p) := Idle.lift fun i r a hd e => by
  obtain ⟨x, y, e'⟩ := h i hd
  rw [e] at e'; cases e'
instance [h : Idle c D NoD p] : Idle c D D (opt p) where
  cost := h.cost
  ok {i r a} hd e := by
    have e : NomSparql.opt (erase p) i = .ok r a := e
    unfold NomSparql.opt at e
    split at e
    · rename_i r' x e'; exact (h.ok hd e').elim
    · injection e with e; subst e; exact hd
    · cases e

/-! ### The derived sequences -/

instance [h : Lin W k b D (pair p q)] : Lin W k b D (preceded p q) := inferInstanceAs (Lin W k b D (map (pair p q) _))
instance [h : Lin W k b D (pair p q)] : Lin W k b D (terminated p q) := inferInstanceAs (Lin W k b D (map (pair p q) _))
instance [h : Lin W k b D (pair p (terminated q s))] : Lin W k b D (delimited p q s) := inferInstanceAs (Lin W k b D (preceded p (terminated q s)))
instance [h : Lin W k b D (pair p (preceded s q))] : Lin W k b D (separatedPair p s q) := h
instance [h : Lin W k b D (pair p (pair q s))] : Lin W k b D (tuple3 p q s) := h
instance [h : Lin W k b D (pair p (pair q (pair s t)))] : Lin W k b D (tuple4 p q s t) := h
instance [h : Lin W k b D (pair p (pair q (pair s (pair t u))))] : Lin W k b D (tuple5 p q s t u) := h
instance [h : Idle c D D' (pair p q)] : Idle c D D' (preceded p q) := inferInstanceAs (Idle c D D' (map (pair p q) _))
instance [h : Idle c D D' (pair p q)] : Idle c D D' (terminated p q) := inferInstanceAs (Idle c D D' (map (pair p q) _))
instance [h : Idle c D D' (pair p (terminated q s))] : Idle c D D' (delimited p q s) := inferInstanceAs (Idle c D D' (preceded p (terminated q s)))
instance [h : Idle c D D' (pair p (preceded s q))] : Idle c D D' (separatedPair p s q) := h
instance [h : Idle c D D' (pair p (pair q s))] : Idle c D D' (tuple3 p q s) := h
instance [h : Idle c D D' (pair p (pair q (pair s t)))] : Idle c D D' (tuple4 p q s t) := h
instance [h : Lin W k b D (delimited (char '(') p (char ')'))] : Lin W k b D (bracketted p) := h
instance {t} [h : Lin W k b D (preceded (terminated (tagNoCase t) sp1) p)] : Lin W k b D (precededTag1 t p) := h
instance {t} [h : Lin W k b D (preceded (terminated (tagNoCase t) sp) p)] : Lin W k b D (precededTag t p) := h
instance {t} [h : Lin W k b D (precededTag t (bracketted p))] : Lin W k b D (precededBracketted t p) := h
instance [h : Lin W k b D (delimited sp p sp)] : Lin W k b D (spEnc p) := h
instance [h : Lin W k b D (delimited sp1 p sp1)] : Lin W k b D (spEnc1 p) := h
instance [h : Idle c D D' (delimited (char '(') p (char ')'))] : Idle c D D' (bracketted p) := h
instance {t} [h : Idle c D D' (preceded (terminated (tagNoCase t) sp1) p)] : Idle c D D' (precededTag1 t p) := h
instance {t} [h : Idle c D D' (preceded (terminated (tagNoCase t) sp) p)] : Idle c D D' (precededTag t p) := h
instance {t} [h : Idle c D D' (precededTag t (bracketted p))] : Idle c D D' (precededBracketted t p) := h
instance [h : Idle c D D' (delimited sp p sp)] : Idle c D D' (spEnc p) := h
instance [h : Idle c D D' (delimited sp1 p sp1)] : Idle c D D' (spEnc1 p) := h

/-! ### Optional parts -/

theorem opt_ok {i r a} (e : (opt p i).1 = .ok r a) : (∃ x, (p i).1 = .ok r x) ∨ (r = i ∧ ∃ pos k, (p i).1 = .err (.error pos k)) := by
  have e : NomSparql.opt (erase p) i = .ok r a := e
  unfold NomSparql.opt at e
  split at e
  · rename_i r' x e'; injection e with e; subst e; exact .inl ⟨x, e'⟩
  · rename_i pos k e'; injection e with e; subst e; exact .inr ⟨rfl, pos, k, e'⟩
  · cases e
theorem opt_err {i e} (h : (opt p i).1 = .err e) : (p i).1 = .err e := by
  have h : NomSparql.opt (erase p) i = .err e := h
  unfold NomSparql.opt at h
  split at h
  · cases h
  · cases h
  · rename_i e' _ e₂; injection h with h; subst h; exact e₂

/-- Where `p` returns an Error at a cost above `c`, the input is in `D'`. -/
theorem Lin.opt [KGood p] (h : Lin W k b D p) (hk : -(c : Int) ≤ k) (hD : ∀ r, D r → D' r)
    (wake : ∀ i pos x, (p i).1 = .err (.error pos x) → (p i).2 ≤ c ∨ D' i) : Lin W (-c) b D' (opt p) where
  ok {i r a} hw e := by
    show ((p i).2 : Int) + _ + _ ≤ _ ∨ _ ∧ ((p i).2 : Int) ≤ _
    rcases opt_ok e with ⟨x, e⟩ | ⟨rfl, pos, x, e⟩
    · rcases h.ok hw e with h1 | ⟨h1, h2⟩
      · exact .inl (by omega)
      · exact .inr ⟨hD _ h1, h2⟩
    · have := h.err hw e
      rcases wake r pos x e with h1 | h1
      · exact .inl (by omega)
      · exact .inr ⟨h1, this⟩
  err {i e} hw e' := h.err hw (opt_err e')

/-! ### Alternatives -/

/-- What happens at an alternative. -/
theorem alt_cases {p p₂ : K α} {ps : List (K α)} (i : Input) :
    ((∃ pos x, (p i).1 = .err (.error pos x)) ∧ (alt (p :: p₂ :: ps) i).1 = (alt (p₂ :: ps) i).1 ∧
      (alt (p :: p₂ :: ps) i).2 = (p i).2 + (alt (p₂ :: ps) i).2) ∨
    ((∀ pos x, (p i).1 ≠ .err (.error pos x)) ∧ (alt (p :: p₂ :: ps) i).1 = (p i).1 ∧ (alt (p :: p₂ :: ps) i).2 = (p i).2) := by
  unfold alt
  simp only [List.map_cons, altCost, NomSparql.alt]
  cases e : (p i).1 with
  | ok r a =>
    rw [show erase p i = .ok r a from e]
    exact .inr ⟨fun _ _ h => (by cases h), rfl, rfl⟩
  | err e' =>
    rw [show erase p i = .err e' from e]
    cases e' with
    | error pos x => exact .inl ⟨⟨pos, x, rfl⟩, rfl, rfl⟩
    | failure _ _ => exact .inr ⟨fun _ _ h => (by injection h with h; cases h), rfl, rfl⟩
    | incomplete _ => exact .inr ⟨fun _ _ h => (by injection h with h; cases h), rfl, rfl⟩
    | panic => exact .inr ⟨fun _ _ h => (by injection h with h; cases h), rfl, rfl⟩
    | fuel => exact .inr ⟨fun _ _ h => (by injection h with h; cases h), rfl, rfl⟩

theorem alt_one {i : Input} : alt [p] i = p i := rfl

instance [h : Lin W k b D p] : Lin W k b D (alt [p]) := ⟨fun hw e => h.ok hw e, fun hw e => h.err hw e⟩
instance [h : Idle c D D' p] : Idle c D D' (alt [p]) := ⟨fun hd => h.cost hd, fun hd e => h.ok hd e⟩

/-- Where `p` returns an Error at a cost above `c`, the other alternatives do little, and succeed only with a rest in `D₂`. -/
theorem Lin.alt_cons {p p₂ : K α} {ps : List (K α)} (h : Lin W k b D p) (h' : Lin W k' b' D' (alt (p₂ :: ps)))
    (ex : ∀ i pos x, (p i).1 = .err (.error pos x) → (p i).2 ≤ c ∨ ((alt (p₂ :: ps) i).2 ≤ c' ∧ ∀ r a, (alt (p₂ :: ps) i).1 = .ok r a → D₂ r))
    (hD : ∀ r, D r → D₂ r) (hD' : ∀ r, D' r → D₂ r) : Lin W (min k (k' - c)) (max (b + c') (b' + c)) D₂ (alt (p :: p₂ :: ps)) where
  ok {i r a} hw e := by
    rcases alt_cases (p := p) (p₂ := p₂) (ps := ps) i with ⟨⟨pos, x, e1⟩, h1, h2⟩ | ⟨_, h1, h2⟩
    · rw [h1] at e
      rw [h2]
      rcases ex i pos x e1 with h3 | ⟨h3, h4⟩
      · rcases h'.ok hw e with h5 | ⟨h5, h6⟩
        · exact .inl (by omega)
        · exact .inr ⟨hD' _ h5, by omega⟩
      · have := h.err hw e1
        exact .inr ⟨h4 r a e, by omega⟩
    · rw [h1] at e
      rw [h2]
      rcases h.ok hw e with h5 | ⟨h5, h6⟩
      · exact .inl (by omega)
      · exact .inr ⟨hD _ h5, by omega⟩
  err {i e} hw e' := by
    rcases alt_cases (p := p) (p₂ := p₂) (ps := ps) i with ⟨⟨pos, x, e1⟩, h1, h2⟩ | ⟨_, h1, h2⟩
    · rw [h1] at e'
      rw [h2]
      have h5 := h'.err hw e'
      have h6 := h.err hw e1
      rcases ex i pos x e1 with h3 | ⟨h3, h4⟩ <;> omega
    · rw [h1] at e'
      have h6 := h.err hw e'
      rw [h2]
      omega

theorem Idle.alt_cons {p p₂ : K α} {ps : List (K α)} (h : Idle c D D' p) (h' : Idle c' D D' (alt (p₂ :: ps))) : Idle (c + c') D D' (alt (p :: p₂ :: ps)) where
  cost {i} hd := by
    have h1 := h.cost hd
    have h2 := h'.cost hd
    rcases alt_cases (p := p) (p₂ := p₂) (ps := ps) i with ⟨_, _, h3⟩ | ⟨_, _, h3⟩ <;> rw [h3] <;> omega
  ok {i r a} hd e := by
    rcases alt_cases (p := p) (p₂ := p₂) (ps := ps) i with ⟨_, h3, _⟩ | ⟨_, h3, _⟩
    · exact h'.ok hd (h3 ▸ e)
    · exact h.ok hd (h3 ▸ e)

/-! ### Lists -/

section lists
variable {sep : K σ} {p : K α} {W : Nat} {k b : Int} {D DL : Input → Prop} {c : Nat}

/-- After an element. -/
structure ListRule (W : Nat) (k b : Int) (D DL : Input → Prop) (c : Nat) (sep : K σ) (p : K α) : Prop where
  lin : Lin W k b D p
  free : ∀ i, (sep i).2 = 0
  wake : ∀ i r x pos kd, (sep i).1 = .ok r x → (p r).1 = .err (.error pos kd) → (p r).2 ≤ c ∨ DL i
  stop : ∀ i, D i → DL i ∧ ∀ r x, (sep i).1 = .ok r x → (p r).2 ≤ c ∧ ∀ r' a, (p r).1 ≠ .ok r' a

theorem sepLoop_stop (n : Nat) {i : Input} (free : ∀ i, (sep i).2 = 0)
    (h : ∀ r x, (sep i).1 = .ok r x → (p r).2 ≤ c ∧ ∀ r' a, (p r).1 ≠ .ok r' a) :
    sepCost sep p n i ≤ c ∧ ∀ r as, NomSparql.sepLoop (erase sep) (erase p) n i = .ok r as → r = i := by
  cases n with
  | zero => exact ⟨Nat.zero_le _, fun r as e => by cases e⟩
  | succ n =>
    rw [sepCost, NomSparql.sepLoop, show erase sep i = (sep i).1 from rfl, free i]
    cases e : (sep i).1 with
    | err e' => cases e' <;> exact ⟨Nat.zero_le _, fun r as e => by cases e <;> rfl⟩
    | ok r x =>
      obtain ⟨h1, h2⟩ := h r x e
      simp only
      split
      · exact ⟨Nat.zero_le _, fun r as e => by cases e⟩
      · rw [show erase p r = (p r).1 from rfl]
        cases e2 : (p r).1 with
        | ok r' a => exact absurd e2 (h2 r' a)
        | err e' => cases e' <;> exact ⟨by simpa using h1, fun r as e => by cases e <;> rfl⟩

theorem ListRule.loop [KGood sep] [KGood p] (h : ListRule W k b D DL c sep p) (hk : 0 ≤ k) : ∀ n i, Enough W i →
    (∀ r as, NomSparql.sepLoop (erase sep) (erase p) n i = .ok r as →
      ((sepCost sep p n i : Nat) : Int) + sz W r - c ≤ sz W i ∨ (DL r ∧ ((sepCost sep p n i : Nat) : Int) ≤ 2 * sz W i + max 0 b + c)) ∧
    (∀ e, NomSparql.sepLoop (erase sep) (erase p) n i = .err e → ((sepCost sep p n i : Nat) : Int) ≤ 2 * sz W i + max 0 b + c) ∧
    ((∀ r, ¬ D r) → ∀ pos x, NomSparql.sepLoop (erase sep) (erase p) n i = .err (.error pos x) → ((sepCost sep p n i : Nat) : Int) ≤ sz W i) := by
  intro n
  induction n with
  | zero =>
    intro i _
    have := sz_nonneg (W := W) (i := i)
    refine ⟨fun r as e => (by cases e), fun e _ => ?_, fun _ _ _ e => by cases e⟩
    rw [sepCost]
    omega
  | succ n ih =>
    intro i hw
    have hi := sz_nonneg (W := W) (i := i)
    rw [sepCost, NomSparql.sepLoop, show erase sep i = (sep i).1 from rfl, h.free i]
    cases e : (sep i).1 with
    | err e' =>
      cases e' with
      | error pos x =>
        refine ⟨fun r as e => ?_, fun e he => (by cases he), fun _ _ _ e => by cases e⟩
        injection e with e; subst e
        simp only
        exact .inl (by omega)
      | _ =>
        refine ⟨fun r as e => (by cases e), fun e _ => ?_, fun _ _ _ e => by cases e⟩
        simp only
        omega
    | ok r x =>
      have hs : r <:+ i := Good.ok (h := KGood.out) e
      have hl := sz_le (W := W) hs.length_le
      simp only
      split
      · refine ⟨fun r as e => (by cases e), fun e _ => by omega, fun _ _ _ _ => by omega⟩
      · rename_i hne
        rw [show erase p r = (p r).1 from rfl]
        cases e2 : (p r).1 with
        | err e' =>
          have h1 := h.lin.err (hw.suffix hs) e2
          cases e' with
          | error pos y =>
            refine ⟨fun r₂ as e3 => ?_, fun e he => (by cases he), fun _ _ _ e => by cases e⟩
            injection e3 with e3; subst e3
            simp only
            rcases h.wake i r x pos y e e2 with h2 | h2
            · exact .inl (by omega)
            · exact .inr ⟨h2, by omega⟩
          | _ =>
            refine ⟨fun r as e => (by cases e), fun e _ => ?_, fun _ _ _ e => by cases e⟩
            simp only
            omega
        | ok r2 a =>
          have hs2 : r2 <:+ r := Good.ok (h := KGood.out) e2
          have hl2 := sz_le (W := W) hs2.length_le
          have hi2 := sz_nonneg (W := W) (i := r2)
          have h1 := h.lin.ok (hw.suffix hs) e2
          simp only
          split
          · refine ⟨fun r as e => (by cases e), fun e _ => ?_, fun hD _ _ _ => ?_⟩
            · rcases h1 with h1 | ⟨_, h1⟩ <;> omega
            · rcases h1 with h1 | ⟨h1, _⟩
              · omega
              · exact (hD _ h1).elim
          · rcases h1 with h1 | ⟨h1, h2⟩
            · obtain ⟨i1, i2, i3⟩ := ih r2 ((hw.suffix hs).suffix hs2)
              cases e3 : NomSparql.sepLoop (erase sep) (erase p) n r2 with
              | ok r' as =>
                have hl3 := sz_nonneg (W := W) (i := r')
                refine ⟨fun r₂ as' e4 => ?_, fun e he => (by cases he), fun _ _ _ e => by cases e⟩
                injection e4 with e4; subst e4
                rcases i1 _ _ e3 with i1 | ⟨i1, i4⟩
                · exact .inl (by omega)
                · exact .inr ⟨i1, by omega⟩
              | err e' =>
                have := i2 _ e3
                refine ⟨fun r as e => (by cases e), fun e _ => by omega, fun hD pos x e4 => ?_⟩
                simp only at e4
                injection e4 with e4; subst e4
                have := i3 hD _ _ e3
                omega
            · obtain ⟨h3, h4⟩ := h.stop _ h1
              obtain ⟨h5, h6⟩ := sepLoop_stop n h.free h4
              cases e3 : NomSparql.sepLoop (erase sep) (erase p) n r2 with
              | ok r' as =>
                refine ⟨fun r₂ as' e4 => ?_, fun e he => (by cases he), fun _ _ _ e => by cases e⟩
                injection e4 with e4; subst e4
                rw [h6 _ _ e3]
                exact .inr ⟨h3, by omega⟩
              | err e' =>
                refine ⟨fun r as e => (by cases e), fun e _ => by omega, fun hD pos x e4 => (hD _ h1).elim⟩

theorem ListRule.rest [KGood sep] [KGood p] (h : ListRule W k b D DL c sep p) (hk : 0 ≤ k) {i r : Input} {a : α} (hw : Enough W i)
    (e : (p i).1 = .ok r a) (n : Nat) :
    (∀ r' as, NomSparql.sepLoop (erase sep) (erase p) n r = .ok r' as →
      (((p i).2 + sepCost sep p n r : Nat) : Int) + sz W r' + (k - c) ≤ sz W i ∨ (DL r' ∧ (((p i).2 + sepCost sep p n r : Nat) : Int) ≤ 2 * sz W i + (max 0 b + c))) ∧
    (∀ e, NomSparql.sepLoop (erase sep) (erase p) n r = .err e → (((p i).2 + sepCost sep p n r : Nat) : Int) ≤ 2 * sz W i + (max 0 b + c)) ∧
    ((∀ r, ¬ D r) → ∀ pos x, NomSparql.sepLoop (erase sep) (erase p) n r = .err (.error pos x) → (((p i).2 + sepCost sep p n r : Nat) : Int) ≤ sz W i) := by
  have hs : r <:+ i := Good.ok (h := KGood.out) e
  have hl := sz_le (W := W) hs.length_le
  have hi := sz_nonneg (W := W) (i := r)
  obtain ⟨i1, i2, i3⟩ := h.loop hk n r (hw.suffix hs)
  rcases h.lin.ok hw e with h1 | ⟨h1, h2⟩
  · refine ⟨fun r' as e => ?_, fun e h => by have := i2 e h; omega, fun hD pos x e => by have := i3 hD pos x e; omega⟩
    have := sz_nonneg (W := W) (i := r')
    rcases i1 _ _ e with i1 | ⟨i1, i4⟩
    · exact .inl (by omega)
    · exact .inr ⟨i1, by omega⟩
  · obtain ⟨h3, h4⟩ := h.stop _ h1
    obtain ⟨h5, h6⟩ := sepLoop_stop n h.free h4
    refine ⟨fun r' as e => ?_, fun e _ => by omega, fun hD => (hD _ h1).elim⟩
    rw [h6 _ _ e]
    exact .inr ⟨h3, by omega⟩

theorem ListRule.lin1 [KGood sep] [KGood p] (h : ListRule W k b D DL c sep p) (hk : 0 ≤ k) : Lin W (k - c) (max 0 b + c) DL (separatedNonemptyList sep p) where
  ok {i r as} hw e := by
    have e : NomSparql.separatedNonemptyList (erase sep) (erase p) i = .ok r as := e
    show ((listCost sep p i : Nat) : Int) + _ + _ ≤ _ ∨ _ ∧ ((listCost sep p i : Nat) : Int) ≤ _
    unfold NomSparql.separatedNonemptyList at e
    unfold listCost
    rw [show erase p i = (p i).1 from rfl] at e
    cases e1 : (p i).1 with
    | err e' => rw [e1] at e; cases e
    | ok r₁ a =>
      rw [e1] at e
      simp only at e ⊢
      split at e
      · cases e
      · rename_i hne
        rw [if_neg hne]
        obtain ⟨i1, i2, i3⟩ := h.rest hk hw e1 (r₁.length + 1)
        split at e
        · rename_i r' as' e2
          injection e with e; subst e
          exact i1 _ _ e2
        · cases e
  err {i e} hw e' := by
    have e' : NomSparql.separatedNonemptyList (erase sep) (erase p) i = .err e := e'
    show ((listCost sep p i : Nat) : Int) ≤ _
    have hi := sz_nonneg (W := W) (i := i)
    unfold NomSparql.separatedNonemptyList at e'
    unfold listCost
    rw [show erase p i = (p i).1 from rfl] at e'
    cases e1 : (p i).1 with
    | err e' => have := h.lin.err hw e1; simp only; omega
    | ok r₁ a =>
      rw [e1] at e'
      simp only at e' ⊢
      have hi2 := sz_nonneg (W := W) (i := r₁)
      split at e'
      · rename_i hne
        rw [if_pos hne]
        rcases h.lin.ok hw e1 with h1 | ⟨h1, h2⟩ <;> omega
      · rename_i hne
        rw [if_neg hne]
        obtain ⟨i1, i2, i3⟩ := h.rest hk hw e1 (r₁.length + 1)
        split at e'
        · cases e'
        · rename_i e2
          exact i2 _ e2

theorem ListRule.lin0 [KGood sep] [KGood p] (h : ListRule W k b D DL c sep p) (hk : 0 ≤ k)
    (wake : ∀ i pos x, (p i).1 = .err (.error pos x) → (p i).2 ≤ c ∨ DL i) : Lin W (-c) (max 0 b + c) DL (separatedList sep p) where
  ok {i r as} hw e := by
    have e : NomSparql.separatedList (erase sep) (erase p) i = .ok r as := e
    show ((listCost sep p i : Nat) : Int) + _ + _ ≤ _ ∨ _ ∧ ((listCost sep p i : Nat) : Int) ≤ _
    have hi := sz_nonneg (W := W) (i := i)
    unfold NomSparql.separatedList at e
    unfold listCost
    rw [show erase p i = (p i).1 from rfl] at e
    cases e1 : (p i).1 with
    | err e' =>
      have h1 := h.lin.err hw e1
      rw [e1] at e
      cases e' with
      | error pos x =>
        injection e with e; subst e
        simp only
        rcases wake _ _ _ e1 with h2 | h2
        · exact .inl (by omega)
        · exact .inr ⟨h2, by omega⟩
      | _ => cases e
    | ok r₁ a =>
      rw [e1] at e
      simp only at e ⊢
      split at e
      · cases e
      · rename_i hne
        rw [if_neg hne]
        obtain ⟨i1, i2, i3⟩ := h.rest hk hw e1 (r₁.length + 1)
        split at e
        · rename_i r' as' e2
          injection e with e; subst e
          rcases i1 _ _ e2 with i1 | i1
          · exact .inl (by omega)
          · exact .inr i1
        · cases e
  err {i e} hw e' := by
    have e' : NomSparql.separatedList (erase sep) (erase p) i = .err e := e'
    show ((listCost sep p i : Nat) : Int) ≤ _
    have hi := sz_nonneg (W := W) (i := i)
    unfold NomSparql.separatedList at e'
    unfold listCost
    rw [show erase p i = (p i).1 from rfl] at e'
    cases e1 : (p i).1 with
    | err e' => have := h.lin.err hw e1; simp only; omega
    | ok r₁ a =>
      rw [e1] at e'
      simp only at e' ⊢
      have hi2 := sz_nonneg (W := W) (i := r₁)
      split at e'
      · rename_i hne
        rw [if_pos hne]
        rcases h.lin.ok hw e1 with h1 | ⟨h1, h2⟩ <;> omega
      · rename_i hne
        rw [if_neg hne]
        obtain ⟨i1, i2, i3⟩ := h.rest hk hw e1 (r₁.length + 1)
        split at e'
        · cases e'
        · rename_i e2
          exact i2 _ e2

/-- An Error of a list without dirty elements comes after elements that were read completely. -/
theorem ListRule.error [KGood sep] [KGood p] (h : ListRule W k b D DL c sep p) (hk : 0 ≤ k) (hD : ∀ r, ¬ D r) {i pos : Input} {x : Kind}
    (hw : Enough W i) (e : (separatedList sep p i).1 = .err (.error pos x)) : ((separatedList sep p i).2 : Int) ≤ sz W i := by
  have e : NomSparql.separatedList (erase sep) (erase p) i = .err (.error pos x) := e
  show ((listCost sep p i : Nat) : Int) ≤ _
  have hi := sz_nonneg (W := W) (i := i)
  unfold NomSparql.separatedList at e
  unfold listCost
  rw [show erase p i = (p i).1 from rfl] at e
  cases e1 : (p i).1 with
  | err e' =>
    rw [e1] at e
    cases e' with
    | error pos x => cases e
    | _ => cases e
  | ok r₁ a =>
    rw [e1] at e
    simp only at e ⊢
    have hi2 := sz_nonneg (W := W) (i := r₁)
    split at e
    · rename_i hne
      rw [if_pos hne]
      rcases h.lin.ok hw e1 with h1 | ⟨h1, h2⟩
      · omega
      · exact (hD _ h1).elim
    · rename_i hne
      rw [if_neg hne]
      obtain ⟨i1, i2, i3⟩ := h.rest hk hw e1 (r₁.length + 1)
      split at e
      · cases e
      · rename_i e2
        injection e with e; subst e
        exact i3 hD _ _ e2

/-! `many1`, elements without dirty rests -/

theorem manyLoop_lin [KGood p] {kd : Kind} (h : Lin W k b NoD p) (hk : 0 ≤ k) (wake : ∀ i pos x, (p i).1 = .err (.error pos x) → (p i).2 ≤ c ∨ DL i) :
    ∀ n i, Enough W i →
    (∀ r as, NomSparql.manyLoop kd (erase p) n i = .ok r as →
      ((manyCost p n i : Nat) : Int) + sz W r - c ≤ sz W i ∨ (DL r ∧ ((manyCost p n i : Nat) : Int) ≤ 2 * sz W i + max 0 b)) ∧
    (∀ e, NomSparql.manyLoop kd (erase p) n i = .err e → ((manyCost p n i : Nat) : Int) ≤ 2 * sz W i + max 0 b) := by
  intro n
  induction n with
  | zero =>
    intro i _
    have := sz_nonneg (W := W) (i := i)
    refine ⟨fun r as e => (by cases e), fun e _ => ?_⟩
    rw [manyCost]
    omega
  | succ n ih =>
    intro i hw
    have hi := sz_nonneg (W := W) (i := i)
    rw [manyCost, NomSparql.manyLoop, show erase p i = (p i).1 from rfl]
    cases e : (p i).1 with
    | err e' =>
      have h1 := h.err hw e
      cases e' with
      | error pos x =>
        refine ⟨fun r as e2 => ?_, fun e he => by cases he⟩
        injection e2 with e2; subst e2
        simp only
        rcases wake _ _ _ e with h2 | h2
        · exact .inl (by omega)
        · exact .inr ⟨h2, by omega⟩
      | _ =>
        refine ⟨fun r as e => (by cases e), fun e _ => ?_⟩
        simp only
        omega
    | ok r x =>
      have hs : r <:+ i := Good.ok (h := KGood.out) e
      have hl := sz_le (W := W) hs.length_le
      have hr := sz_nonneg (W := W) (i := r)
      rcases h.ok hw e with h1 | ⟨h1, _⟩
      · simp only
        split
        · exact ⟨fun r as e => (by cases e), fun e _ => by omega⟩
        · obtain ⟨i1, i2⟩ := ih r (hw.suffix hs)
          cases e3 : NomSparql.manyLoop kd (erase p) n r with
          | ok r' as =>
            have hl3 := sz_nonneg (W := W) (i := r')
            refine ⟨fun r₂ as' e4 => ?_, fun e he => by cases he⟩
            injection e4 with e4; subst e4
            rcases i1 _ _ e3 with i1 | ⟨i1, i4⟩
            · exact .inl (by omega)
            · exact .inr ⟨i1, by omega⟩
          | err e' =>
            have := i2 _ e3
            exact ⟨fun r as e => (by cases e), fun e _ => by omega⟩
      · exact h1.elim

theorem Lin.many1 [KGood p] (h : Lin W k b NoD p) (hk : 0 ≤ k) (wake : ∀ i pos x, (p i).1 = .err (.error pos x) → (p i).2 ≤ c ∨ DL i) :
    Lin W (k - c) (max 0 b) DL (many1 p) where
  ok {i r as} hw e := by
    have e : NomSparql.many1 (erase p) i = .ok r as := e
    unfold Cost.many1
    unfold NomSparql.many1 at e
    rw [show erase p i = (p i).1 from rfl] at e
    cases e1 : (p i).1 with
    | err e' => rw [e1] at e; cases e
    | ok r₁ a =>
      have hs : r₁ <:+ i := Good.ok (h := KGood.out) e1
      rw [e1] at e
      simp only at e ⊢
      rcases h.ok hw e1 with h1 | ⟨h1, _⟩
      · split at e
        · rename_i r' as' e2
          injection e with e; subst e
          have hr := sz_nonneg (W := W) (i := r')
          rcases (manyLoop_lin h hk wake _ _ (hw.suffix hs)).1 _ _ e2 with i1 | ⟨i1, i2⟩
          · exact .inl (by omega)
          · exact .inr ⟨i1, by have := sz_nonneg (W := W) (i := r₁); omega⟩
        · cases e
      · exact h1.elim
  err {i e} hw e' := by
    have e' : NomSparql.many1 (erase p) i = .err e := e'
    have hi := sz_nonneg (W := W) (i := i)
    unfold Cost.many1
    unfold NomSparql.many1 at e'
    rw [show erase p i = (p i).1 from rfl] at e'
    cases e1 : (p i).1 with
    | err e' => have := h.err hw e1; simp only; omega
    | ok r₁ a =>
      have hs : r₁ <:+ i := Good.ok (h := KGood.out) e1
      rw [e1] at e'
      simp only at e' ⊢
      have hr := sz_nonneg (W := W) (i := r₁)
      rcases h.ok hw e1 with h1 | ⟨h1, _⟩
      · split at e'
        · cases e'
        · rename_i e2
          have := (manyLoop_lin h hk wake _ _ (hw.suffix hs)).2 _ e2
          omega
      · exact h1.elim

end lists

end

end Cost

end NomSparql
