import Verif.Model.CostPath
import Verif.Lemmas.Effort
import Verif.Spec.PathEffort

/-!
# Effort of reading paths
-/

namespace NomSparql

theorem bars_suffix {r i : Str} (h : r <:+ i) : bars r ≤ bars i := by
  obtain ⟨x, rfl⟩ := h
  induction x with
  | nil => exact Nat.le_refl _
  | cons c x ih => rw [List.cons_append, bars]; omega

theorem parens_suffix {r i : Str} (h : r <:+ i) : parens r ≤ parens i := h.sublist.count_le _

theorem parens_cons (c : Char) (s : Str) : parens (c :: s) = parens s + (if c = '(' then 1 else 0) := by
  unfold parens
  rw [List.count_cons]
  congr 1
  by_cases h : c = '(' <;> simp [h]

theorem opensPath_ws {w : Str} (hw : Ws w) {q : Str} (hq : opensPath q = true) : opensPath (w ++ q) = true := by
  induction hw with
  | nil => exact hq
  | @cons a s ha _ ih =>
    rw [List.append_assoc]
    cases ha with
    | char hc =>
      rw [List.singleton_append, opensPath]
      rw [if_pos hc, ih]
      simp
    | comment _ _ => rw [List.cons_append, opensPath]; rfl

/-- The bound on the calls made by an element. -/
def pathCap (i : Str) : Nat := 2 ^ bars i * parens i

theorem pathCap_suffix {r i : Str} (h : r <:+ i) : pathCap r ≤ pathCap i :=
  Nat.mul_le_mul (Nat.pow_le_pow_right (by omega) (bars_suffix h)) (parens_suffix h)

theorem pathCap_add {r i : Str} {c : Nat} (h : r <:+ i) (hc : c + parens r ≤ parens i) : c + pathCap r ≤ pathCap i := by
  unfold pathCap
  have h1 := Nat.pow_le_pow_right (n := 2) (by omega) (bars_suffix h)
  have h0 : 1 ≤ 2 ^ bars i := Nat.pow_pos (by omega)
  have h2 := Nat.mul_le_mul_right (parens r) h1
  have h3 := Nat.mul_le_mul_left (2 ^ bars i) hc
  have h4 := Nat.mul_le_mul_right c h0
  rw [Nat.mul_add] at h3
  omega

/-- Twice the bound behind a costly bar. -/
theorem pathCap_twice {r i : Str} {c : Nat} (hb : bars r < bars i) (hc : c + parens r ≤ parens i) : c + 2 * pathCap r ≤ pathCap i := by
  unfold pathCap
  have h1 := Nat.pow_le_pow_right (n := 2) (by omega) (Nat.succ_le_of_lt hb)
  rw [Nat.pow_succ] at h1
  have h0 : 1 ≤ 2 ^ bars i := Nat.pow_pos (by omega)
  have h2 := Nat.mul_le_mul_right (parens r) h1
  have h3 := Nat.mul_le_mul_left (2 ^ bars i) hc
  have h4 := Nat.mul_le_mul_right c h0
  rw [Nat.mul_add] at h3
  rw [show 2 ^ bars r * 2 * parens r = 2 * (2 ^ bars r * parens r) by rw [Nat.mul_comm (2 ^ bars r) 2, Nat.mul_assoc]] at h2
  omega

namespace Cost

variable {Z : Prop}

attribute [local instance] KGood.out KConsumes.out KAgree.res

/-! ## The results are those of the model -/

section
variable {pa pa' : K PathAlternative} {m : Nat}

theorem erase_barSep : erase barSep = NomSparql.delimited NomSparql.sp (NomSparql.tag ['|']) NomSparql.sp := rfl
theorem erase_pathPrimaryS : erase (pathPrimaryS pa) = NomSparql.pathPrimaryS (erase pa) := by
  simp [pathPrimaryS, NomSparql.pathPrimaryS]
theorem erase_pathEltS : erase (pathEltS pa) = NomSparql.pathEltS (erase pa) := by
  simp [pathEltS, NomSparql.pathEltS, erase_pathPrimaryS]
theorem erase_pathEltOrInverseS : erase (pathEltOrInverseS pa) = NomSparql.pathEltOrInverseS (erase pa) := by
  simp [pathEltOrInverseS, NomSparql.pathEltOrInverseS, erase_pathEltS]
theorem erase_pathSequenceS : erase (pathSequenceS pa) = NomSparql.pathSequenceS (erase pa) := by
  simp [pathSequenceS, NomSparql.pathSequenceS, erase_pathEltOrInverseS, erase_barSep]
theorem erase_pathAlternativeStep : erase (pathAlternativeStep pa) = NomSparql.pathAlternativeStep (erase pa) := by
  simp [pathAlternativeStep, NomSparql.pathAlternativeStep, erase_pathSequenceS, erase_barSep]

instance : KGood barSep := inferInstanceAs (KGood (lift _))
instance [KGood pa] : KGood (pathPrimaryS pa) := by unfold pathPrimaryS; infer_instance
instance [KGood pa] : KGood (pathEltS pa) := by unfold pathEltS; infer_instance
instance [KGood pa] : KGood (pathEltOrInverseS pa) := by unfold pathEltOrInverseS; infer_instance
instance [KGood pa] : KGood (pathSequenceS pa) := by unfold pathSequenceS; infer_instance
instance [KGood pa] : KGood (pathAlternativeStep pa) := by unfold pathAlternativeStep; infer_instance

instance : KAgree m barSep barSep := ⟨(inferInstance : Agree m (NomSparql.delimited NomSparql.sp (NomSparql.tag ['|']) NomSparql.sp) (NomSparql.delimited NomSparql.sp (NomSparql.tag ['|']) NomSparql.sp)), fun _ _ => rfl⟩
instance [KGood pa] [KAgree m pa pa'] : KAgree (m + 1) (pathPrimaryS pa) (pathPrimaryS pa') := by unfold pathPrimaryS; infer_instance
instance [KGood pa] [KAgree m pa pa'] : KAgree (m + 1) (pathEltS pa) (pathEltS pa') := by unfold pathEltS; infer_instance
instance (priority := low) [KGood pa] [KAgree m pa pa'] : KAgree m (pathEltS pa) (pathEltS pa') := KAgree.down inferInstance
instance [KGood pa] [KAgree m pa pa'] : KAgree (m + 1) (pathEltOrInverseS pa) (pathEltOrInverseS pa') := by unfold pathEltOrInverseS; infer_instance
instance [KGood pa] [KAgree m pa pa'] : KAgree (m + 1) (pathSequenceS pa) (pathSequenceS pa') := by unfold pathSequenceS; infer_instance
instance [KGood pa] [KAgree m pa pa'] : KAgree (m + 1) (pathAlternativeStep pa) (pathAlternativeStep pa') := by unfold pathAlternativeStep; infer_instance
end

theorem erase_pathAlternativeF : ∀ n, erase (pathAlternativeF n) = NomSparql.pathAlternativeF n
  | 0 => rfl
  | n + 1 => by
    rw [pathAlternativeF, erase_tick, erase_pathAlternativeStep, erase_pathAlternativeF n, NomSparql.pathAlternativeF]

theorem fst_pathAlternativeF (n : Nat) (i : Input) : (pathAlternativeF n i).1 = NomSparql.pathAlternativeF n i := by
  rw [← erase_pathAlternativeF n]; rfl

theorem erase_pathAlternative : erase pathAlternative = NomSparql.pathAlternative := funext fun i => fst_pathAlternativeF (i.length + 1) i

instance (n : Nat) : KGood (pathAlternativeF n) := ⟨by rw [erase_pathAlternativeF]; infer_instance⟩
instance : KGood pathAlternative := ⟨by rw [erase_pathAlternative]; infer_instance⟩

theorem pathAlternativeF_agree : ∀ n k, KAgree n (pathAlternativeF n) (pathAlternativeF (n + k))
  | 0, _ => ⟨⟨fun _ h => by omega⟩, fun _ h => by omega⟩
  | n + 1, k => by
    have := pathAlternativeF_agree n k
    rw [Nat.add_right_comm]
    exact ⟨(inferInstance : KAgree (n + 1) (pathAlternativeStep (pathAlternativeF n)) (pathAlternativeStep (pathAlternativeF (n + k)))).res,
      fun i hi => congrArg (· + 1)
        ((inferInstance : KAgree (n + 1) (pathAlternativeStep (pathAlternativeF n)) (pathAlternativeStep (pathAlternativeF (n + k)))).cost i hi)⟩

theorem pathAlternativeF_agree_closed (n : Nat) : KAgree n (pathAlternativeF n) pathAlternative where
  res := by
    rw [erase_pathAlternativeF, erase_pathAlternative]
    exact NomSparql.pathAlternativeF_agree_closed n
  cost i hi := by
    have h := (pathAlternativeF_agree (i.length + 1) (n - (i.length + 1))).cost i (by omega)
    rw [show i.length + 1 + (n - (i.length + 1)) = n by omega] at h
    exact h.symm

/-- A call of `path_alternative` counts one and then what its body counts. -/
theorem pathAlternative_cost (i : Input) : (pathAlternative i).2 = (pathAlternativeStep pathAlternative i).2 + 1 := by
  have := pathAlternativeF_agree_closed i.length
  exact congrArg (· + 1)
    ((inferInstance : KAgree (i.length + 1) (pathAlternativeStep (pathAlternativeF i.length)) (pathAlternativeStep pathAlternative)).cost i (by omega))

/-! ## Elements -/

/-- What is known about the calls of `path_alternative` on a text. -/
structure PaBound (i : Input) : Prop where
  cost : (pathAlternative i).2 ≤ 1 + pathCap i
  ok : ∀ {r a}, (pathAlternative i).1 = .ok r a → Fails (erase barSep) r → (pathAlternative i).2 + parens r ≤ 1 + parens i

/-- The calls of a parser of elements. -/
structure EltBound (Z : Prop) (p : K α) (i : Input) : Prop where
  cost : (p i).2 ≤ pathCap i
  ok : ∀ {r a}, (p i).1 = .ok r a → (p i).2 + parens r ≤ parens i
  zero : Z → (p i).2 = 0

theorem barSep_fails_close {r : Input} : Fails (erase barSep) (')' :: r) :=
  Fails.delimited2 (sp_zero (not_startsWs_cons rfl)) (First.cons rfl)

theorem lift_cost {p : P α} {i : Input} : (lift p i).2 = 0 := rfl

theorem alt_cost_cons {p p₂ : K α} {ps : List (K α)} {i : Input} (h : (p i).2 = 0) : (alt (p :: p₂ :: ps) i).2 ≤ (alt (p₂ :: ps) i).2 := by
  rcases alt_cases (p := p) (p₂ := p₂) (ps := ps) i with ⟨_, _, h2⟩ | ⟨_, _, h2⟩ <;> omega

/-- The first alternative makes no calls. -/
theorem EltBound.alt_cons {p p₂ : K α} {ps : List (K α)} {i : Input} [KGood p] (h0 : (p i).2 = 0) (h : EltBound Z (alt (p₂ :: ps)) i) :
    EltBound Z (alt (p :: p₂ :: ps)) i where
  cost := Nat.le_trans (alt_cost_cons h0) h.cost
  ok {r a} e := by
    rcases alt_cases (p := p) (p₂ := p₂) (ps := ps) i with ⟨_, h1, h2⟩ | ⟨_, h1, h2⟩
    · rw [h1] at e
      have := h.ok e
      omega
    · rw [h1] at e
      have := parens_suffix (Good.ok (h := KGood.out) e)
      omega
  zero hi := by
    have := alt_cost_cons (p₂ := p₂) (ps := ps) h0
    have := h.zero hi
    omega

theorem EltBound.none {p : K α} {i : Input} [KGood p] (h : (p i).2 = 0) : EltBound Z p i where
  cost := by omega
  ok e := by
    have := parens_suffix (Good.ok (h := KGood.out) e)
    omega
  zero _ := h

theorem EltBound.map {p : K α} {f : α → β} {i : Input} (h : EltBound Z p i) : EltBound Z (map p f) i where
  cost := h.cost
  ok e := by obtain ⟨x, e⟩ := map_ok e; exact h.ok e
  zero := h.zero

theorem EltBound.one {p : K α} {i : Input} (h : EltBound Z p i) : EltBound Z (alt [p]) i := ⟨h.cost, h.ok, h.zero⟩

/-- What follows makes no calls. -/
theorem EltBound.pair {p : K α} {q : K β} [KGood q] {i : Input} (hq : ∀ x, (q x).2 = 0) (h : EltBound Z p i) : EltBound Z (pair p q) i where
  cost := by
    have := pair_bound (p := p) (q := q) (b := 0) h.cost fun _ _ _ => Nat.le_of_eq (hq _)
    omega
  ok {r a} e := by
    obtain ⟨r₁, x, y, e1, e2, hc⟩ := pair_ok e
    have := h.ok e1
    have := parens_suffix (Good.ok (h := KGood.out) e2)
    have := hq r₁
    omega
  zero hi := by
    have := pair_bound (p := p) (q := q) (b := 0) (Nat.le_of_eq (h.zero hi)) fun _ _ _ => Nat.le_of_eq (hq _)
    omega

/-- A path in parentheses. -/
theorem bracketed_bound {i : Input} (ih : ∀ x, x.length < i.length → PaBound x) : EltBound (∀ x, i ≠ '(' :: x) (delimited (tag ['(']) pathAlternative (tag [')'])) i := by
  have hz : ∀ {β} {q : K β}, (∀ x, i ≠ '(' :: x) → (Cost.pair (tag ['(']) q i).2 = 0 ∧ ∀ r a, (Cost.pair (tag ['(']) q i).1 ≠ .ok r a := by
    intro β q h
    have : ∀ r a, (tag ['('] i).1 ≠ .ok r a := by
      intro r a e
      obtain ⟨_, rfl⟩ := tag_ok.mp (show NomSparql.tag ['('] i = .ok r a from e)
      exact h r rfl
    refine ⟨?_, fun r a e => ?_⟩
    · have := pair_bound (p := tag ['(']) (q := q) (i := i) (a := 0) (b := 0) (Nat.le_refl _) fun r x e => (this r x e).elim
      omega
    · obtain ⟨r₁, x, _, e1, _, _⟩ := pair_ok e
      exact this _ _ e1
  by_cases hi : ∃ x, i = '(' :: x
  · obtain ⟨x, rfl⟩ := hi
    have hx := ih x (by simp)
    have e0 : (tag ['('] ('(' :: x)).1 = .ok x ['('] := rfl
    have hc : (delimited (tag ['(']) pathAlternative (tag [')']) ('(' :: x)).2 = (pathAlternative x).2 := by
      show (Cost.pair (tag ['(']) (terminated pathAlternative (tag [')'])) ('(' :: x)).2 = _
      unfold Cost.pair
      rw [e0]
      show 0 + (Cost.pair pathAlternative (tag [')']) x).2 = _
      unfold Cost.pair
      split
      · show 0 + (_ + 0) = _; omega
      · omega
    have hp : parens ('(' :: x) = parens x + 1 := by rw [parens_cons]; rfl
    have hb : bars ('(' :: x) = bars x := by rw [bars]; simp
    refine ⟨?_, ?_, ?_⟩
    · rw [hc]
      refine Nat.le_trans hx.cost ?_
      unfold pathCap
      rw [hp, hb, Nat.mul_succ]
      have : 1 ≤ 2 ^ bars x := Nat.pow_pos (by omega)
      omega
    · intro r a e
      rw [hc, hp]
      obtain ⟨y, e⟩ := map_ok e
      obtain ⟨r₁, x', y', e1, e2, _⟩ := pair_ok e
      rw [e0] at e1
      injection e1 with e1; subst e1
      obtain ⟨z, e2⟩ := map_ok e2
      obtain ⟨r₂, x₂, y₂, e3, e4, _⟩ := pair_ok e2
      obtain ⟨_, rfl⟩ := tag_ok.mp (show NomSparql.tag [')'] r₂ = .ok r y₂ from e4)
      have h1 := hx.ok e3 barSep_fails_close
      have h2 : parens (')' :: r) = parens r := by rw [parens_cons]; rfl
      rw [List.singleton_append, h2] at h1
      omega
    · intro h
      exact (h x rfl).elim
  · have hi : ∀ x, i ≠ '(' :: x := fun x e => hi ⟨x, e⟩
    exact EltBound.none (hz hi).1

instance : KGood (delimited (tag ['(']) pathAlternative (tag [')'])) := by infer_instance

theorem primary_bound {i : Input} (ih : ∀ x, x.length < i.length → PaBound x) : EltBound (∀ x, i ≠ '(' :: x) (pathPrimaryS pathAlternative) i :=
  .alt_cons rfl (.alt_cons rfl (.alt_cons (i := i) (by
    have := pair_bound (p := tag ['!']) (q := lift NomSparql.pathNegatedPropertySet) (i := i) (a := 0) (b := 0) (Nat.le_refl _) fun _ _ _ => Nat.le_refl _
    exact Nat.le_zero.mp this) (.one (.map (bracketed_bound ih)))))

theorem elt_bound {i : Input} (ih : ∀ x, x.length < i.length → PaBound x) : EltBound (∀ x, i ≠ '(' :: x) (pathEltS pathAlternative) i :=
  .map (.pair (fun _ => Nat.le_zero.mp (pair_bound (a := 0) (b := 0) (Nat.le_refl _) fun _ _ _ => Nat.le_refl _)) (primary_bound ih))

/-- `^` and an element. -/
theorem inverse_cost {i : Input} {p : K α} : (preceded (tag ['^']) p i).2 = match i with | '^' :: x => (p x).2 | _ => 0 := by
  show (Cost.pair (tag ['^']) p i).2 = _
  unfold Cost.pair
  split
  · rename_i r a e
    obtain ⟨_, rfl⟩ := tag_ok.mp (show NomSparql.tag ['^'] i = .ok r a from e)
    show 0 + _ = (p r).2
    omega
  · rename_i e' e
    split
    · cases e
    · rfl

theorem inverse_bound {i : Input} (ih : ∀ x, x.length < i.length → PaBound x) :
    EltBound (∀ x, i ≠ '^' :: x) (preceded (tag ['^']) (pathEltS pathAlternative)) i := by
  by_cases hi : ∃ x, i = '^' :: x
  · obtain ⟨x, rfl⟩ := hi
    have hx := elt_bound (i := x) fun y hy => ih y (Nat.lt_succ_of_lt hy)
    have hs : x <:+ '^' :: x := ⟨['^'], rfl⟩
    have hp : parens ('^' :: x) = parens x := by rw [parens_cons]; rfl
    refine ⟨?_, ?_, fun h => (h x rfl).elim⟩
    · rw [inverse_cost]; exact Nat.le_trans hx.cost (pathCap_suffix hs)
    · intro r a e
      rw [inverse_cost, hp]
      obtain ⟨y, e⟩ := map_ok e
      obtain ⟨r₁, x', y', e1, e2, _⟩ := pair_ok e
      cases show Res.ok x ['^'] = .ok r₁ x' from e1
      exact hx.ok e2
  · refine EltBound.none ?_
    rw [inverse_cost]
    split
    · rename_i x; exact (hi ⟨x, rfl⟩).elim
    · rfl

theorem eltOrInverse_bound {i : Input} (ih : ∀ x, x.length < i.length → PaBound x) :
    EltBound (opensPath i = false) (pathEltOrInverseS pathAlternative) i := by
  have h1 := EltBound.map (f := PathEltOrInverse.pathElt) (elt_bound ih)
  have h2 := EltBound.map (f := PathEltOrInverse.inverse) (inverse_bound ih)
  by_cases hi : ∃ x, i = '(' :: x
  · obtain ⟨x, rfl⟩ := hi
    have h0 := h2.zero (by intro x h; cases h)
    rcases alt_cases (p := map (pathEltS pathAlternative) PathEltOrInverse.pathElt)
      (p₂ := map (preceded (tag ['^']) (pathEltS pathAlternative)) PathEltOrInverse.inverse) (ps := []) ('(' :: x) with ⟨_, e1, e2⟩ | ⟨_, e1, e2⟩
    · refine ⟨?_, ?_, fun h => by cases h⟩
      · have := h1.cost
        have := h0
        show (alt [_, _] _).2 ≤ _
        rw [alt_one] at e2
        omega
      · intro r a e
        have e := e1.symm.trans e
        rw [alt_one] at e
        obtain ⟨y, e⟩ := map_ok e
        obtain ⟨z, e⟩ := map_ok e
        obtain ⟨r₁, x', y', e3, _, _⟩ := pair_ok e
        cases e3
    · refine ⟨?_, ?_, fun h => by cases h⟩
      · have := h1.cost
        show (alt [_, _] _).2 ≤ _
        omega
      · intro r a e
        have := h1.ok (e1.symm.trans e)
        show (alt [_, _] _).2 + _ ≤ _
        omega
  · have h0 := h1.zero fun x h => hi ⟨x, h⟩
    have := EltBound.alt_cons h0 (EltBound.one h2)
    refine ⟨this.cost, this.ok, fun h => this.zero ?_⟩
    rintro x rfl
    cases h

/-! ## Lists -/

theorem barSep_ok {i q : Input} {b} (h : (barSep i).1 = .ok q b) : ∃ w w', Ws w ∧ Ws w' ∧ i = w ++ '|' :: (w' ++ q) := by
  obtain ⟨r₁, a₁, r₂, c₂, e1, e2, e3⟩ := delimited_ok.mp (show NomSparql.delimited NomSparql.sp (NomSparql.tag ['|']) NomSparql.sp i = .ok q b from h)
  obtain ⟨e1, hw, _⟩ := sp_ok_iff.mp e1
  obtain ⟨_, e2⟩ := tag_ok.mp e2
  obtain ⟨e3, hw', _⟩ := sp_ok_iff.mp e3
  refine ⟨_, _, hw, hw', ?_⟩
  rw [e1, e2, e3]
  rfl

theorem barSep_bars {i q : Input} {b} (h : (barSep i).1 = .ok q b) (hq : opensPath q = true) : bars q < bars i := by
  obtain ⟨w, w', hw, hw', rfl⟩ := barSep_ok h
  have h1 := bars_suffix (r := '|' :: (w' ++ q)) (i := w ++ '|' :: (w' ++ q)) ⟨w, rfl⟩
  have h2 := bars_suffix (r := q) (i := w' ++ q) ⟨w', rfl⟩
  rw [bars, if_pos ⟨rfl, opensPath_ws hw' hq⟩] at h1
  omega

theorem barSep_suffix {i q : Input} {b} (h : (barSep i).1 = .ok q b) : q <:+ i := Good.ok (h := KGood.out) h

theorem barSep_ne {i q : Input} {b} (h : (barSep i).1 = .ok q b) : q ≠ i := by
  obtain ⟨w, w', _, _, rfl⟩ := barSep_ok h
  intro e
  have := congrArg List.length e
  simp at this
  omega

/-- Where a list of elements ends: the calls are paid for by the parentheses read, except those for a last element that could not be read. -/
def Ended (p : K α) (c : Nat) (i r : Input) : Prop :=
  (c + parens r ≤ parens i ∧ Fails (erase barSep) r) ∨
  ∃ q b, (barSep r).1 = .ok q b ∧ Fails (erase p) q ∧ c + parens r ≤ parens i + (p q).2

theorem Ended.step {p : K α} {c c' : Nat} {i i' r : Input} (h : Ended p c i r) (hc : c' + parens i ≤ parens i') : Ended p (c + c') i' r := by
  rcases h with ⟨h, hf⟩ | ⟨q, b, h1, h2, h3⟩
  · exact .inl ⟨by omega, hf⟩
  · exact .inr ⟨q, b, h1, h2, by omega⟩

section
variable {p : K α} [KGood p] {N : Nat}

theorem sep_bound (hp : ∀ y : Input, y.length ≤ N → EltBound (opensPath y = false) p y) : ∀ (n : Nat) (i : Input), i.length ≤ N →
    sepCost barSep p n i ≤ pathCap i ∧ ∀ {r a}, sepLoop (erase barSep) (erase p) n i = .ok r a → Ended p (sepCost barSep p n i) i r
  | 0, i, _ => ⟨Nat.zero_le _, fun e => by cases e⟩
  | n + 1, i, hi => by
    rw [sepCost, sepLoop]
    have hz : (barSep i).2 = 0 := rfl
    show (barSep i).2 + _ ≤ _ ∧ _
    have es : erase barSep i = (barSep i).1 := rfl
    rw [es, hz]
    cases e1 : (barSep i).1 with
    | err x =>
      refine ⟨Nat.zero_le _, fun {r a} e => ?_⟩
      cases x <;> first | (cases e; done) | skip
      rename_i pos k
      cases e
      exact .inl ⟨by simp, ⟨pos, k, e1⟩⟩
    | ok q b =>
      simp only
      rw [if_neg (barSep_ne e1), if_neg (barSep_ne e1)]
      have hq := barSep_suffix e1
      have hpq := hp q (Nat.le_trans hq.length_le hi)
      have ep : erase p q = (p q).1 := rfl
      rw [ep]
      cases e2 : (p q).1 with
      | err x =>
        refine ⟨?_, fun {r a} e => ?_⟩
        · have := hpq.cost
          have := pathCap_suffix hq
          simp only
          omega
        · cases x <;> first | (cases e; done) | skip
          rename_i pos k
          cases e
          exact .inr ⟨q, b, e1, ⟨pos, k, e2⟩, by simp only; omega⟩
      | ok r₂ a₂ =>
        have hr : r₂ <:+ q := Good.ok (h := KGood.out) e2
        have hne : r₂ ≠ i := by
          rintro rfl
          have := suffix_lt hq (barSep_ne e1)
          have := hr.length_le
          omega
        simp only
        rw [if_neg hne, if_neg hne]
        obtain ⟨h1, h2⟩ := sep_bound hp n r₂ (Nat.le_trans (hr.trans hq).length_le hi)
        have hok := hpq.ok e2
        have hpar := parens_suffix hq
        refine ⟨?_, fun {r a} e => ?_⟩
        · have := pathCap_add (hr.trans hq) (c := (p q).2) (by omega)
          omega
        · cases e3 : sepLoop (erase barSep) (erase p) n r₂ with
          | err x => rw [e3] at e; cases e
          | ok r' as =>
            rw [e3] at e
            cases e
            have := (h2 e3).step (c' := (p q).2) (i' := i) (by omega)
            rw [Nat.add_comm] at this
            simpa using this

theorem list_bound [KConsumes p] (hp : ∀ y : Input, y.length ≤ N → EltBound (opensPath y = false) p y) {i : Input} (hi : i.length ≤ N) :
    (separatedNonemptyList barSep p i).2 ≤ pathCap i ∧
    ∀ {r a}, (separatedNonemptyList barSep p i).1 = .ok r a → Ended p (separatedNonemptyList barSep p i).2 i r := by
  show listCost barSep p i ≤ _ ∧ ∀ {r a}, NomSparql.separatedNonemptyList (erase barSep) (erase p) i = .ok r a → Ended p (listCost barSep p i) i r
  unfold listCost NomSparql.separatedNonemptyList
  have ep : erase p i = (p i).1 := rfl
  have hpi := hp i hi
  rw [ep]
  cases e1 : (p i).1 with
  | err x => exact ⟨hpi.cost, fun e => by cases e⟩
  | ok r₁ a₁ =>
    have hr : r₁ <:+ i := Good.ok (h := KGood.out) e1
    have hne : r₁ ≠ i := by
      rintro rfl
      have := KConsumes.lt e1
      omega
    simp only
    rw [if_neg hne, if_neg hne]
    obtain ⟨h1, h2⟩ := sep_bound hp (r₁.length + 1) r₁ (Nat.le_trans hr.length_le hi)
    have hok := hpi.ok e1
    refine ⟨?_, fun {r a} e => ?_⟩
    · have := pathCap_add hr (c := (p i).2) hok
      omega
    · cases e3 : sepLoop (erase barSep) (erase p) (r₁.length + 1) r₁ with
      | err x => rw [e3] at e; cases e
      | ok r' as =>
        rw [e3] at e
        cases e
        have := (h2 e3).step hok
        rw [Nat.add_comm] at this
        exact this
end

/-! ## Sequences and alternatives -/

instance [KGood pa] : KConsumes (pathEltOrInverseS pa) := ⟨by rw [erase_pathEltOrInverseS]; infer_instance⟩

theorem sequence_bound {N : Nat} (ih : ∀ x : Input, x.length < N → PaBound x) {i : Input} (hi : i.length ≤ N) :
    (pathSequenceS pathAlternative i).2 ≤ pathCap i ∧
    ∀ {r a}, (pathSequenceS pathAlternative i).1 = .ok r a → Ended (pathEltOrInverseS pathAlternative) (pathSequenceS pathAlternative i).2 i r := by
  obtain ⟨h1, h2⟩ := list_bound (p := pathEltOrInverseS pathAlternative) (N := N)
    (fun y hy => eltOrInverse_bound fun x hx => ih x (by omega)) hi
  refine ⟨h1, fun e => ?_⟩
  obtain ⟨x, e⟩ := map_ok e
  exact h2 e

/-- A sequence fails where its first element does, after as many calls. -/
theorem sequence_fails {pa : K PathAlternative} {q : Input} (h : Fails (erase (pathEltOrInverseS pa)) q) :
    Fails (erase (pathSequenceS pa)) q ∧ (pathSequenceS pa q).2 = (pathEltOrInverseS pa q).2 := by
  refine ⟨Fails.map (Fails.sep1 h), ?_⟩
  obtain ⟨pos, k, h⟩ := h
  show listCost barSep (pathEltOrInverseS pa) q = _
  unfold listCost
  rw [show (pathEltOrInverseS pa q).1 = .err (.error pos k) from h]
  rfl

/-- An alternative whose first sequence ends before a bar: the rest is not read, and the first element after the bar has been read twice. -/
theorem alternative_dirty {pa : K PathAlternative} {i r q : Input} {a b} (e : (pathSequenceS pa i).1 = .ok r a) (hr : r ≠ i)
    (hb : (barSep r).1 = .ok q b) (hf : Fails (erase (pathEltOrInverseS pa)) q) :
    (∃ v, (pathAlternativeStep pa i).1 = .ok r v) ∧ (pathAlternativeStep pa i).2 = (pathSequenceS pa i).2 + (pathEltOrInverseS pa q).2 := by
  obtain ⟨⟨pos, k, h1⟩, h2⟩ := sequence_fails hf
  have hz : (barSep r).2 = 0 := rfl
  constructor
  · show ∃ v, NomSparql.map (NomSparql.separatedNonemptyList (erase barSep) (erase (pathSequenceS pa))) _ i = .ok r v
    unfold NomSparql.map NomSparql.separatedNonemptyList
    rw [show erase (pathSequenceS pa) i = .ok r a from e]
    simp only
    rw [if_neg hr, sepLoop, show erase barSep r = .ok q b from hb]
    simp only
    rw [if_neg (barSep_ne hb), h1]
    exact ⟨_, rfl⟩
  · show listCost barSep (pathSequenceS pa) i = _
    unfold listCost
    rw [e]
    simp only
    rw [if_neg hr, sepCost, hb]
    simp only
    rw [if_neg (barSep_ne hb), show (pathSequenceS pa q).1 = .err (.error pos k) from h1, h2, hz]
    simp only
    omega

theorem alternative_clean {pa : K PathAlternative} {i r : Input} {a} (e : (pathSequenceS pa i).1 = .ok r a) (hr : r ≠ i)
    (hf : Fails (erase barSep) r) :
    (∃ v, (pathAlternativeStep pa i).1 = .ok r v) ∧ (pathAlternativeStep pa i).2 = (pathSequenceS pa i).2 := by
  obtain ⟨pos, k, h1⟩ := hf
  have hz : (barSep r).2 = 0 := rfl
  constructor
  · show ∃ v, NomSparql.map (NomSparql.separatedNonemptyList (erase barSep) (erase (pathSequenceS pa))) _ i = .ok r v
    unfold NomSparql.map NomSparql.separatedNonemptyList
    rw [show erase (pathSequenceS pa) i = .ok r a from e]
    simp only
    rw [if_neg hr, sepLoop, h1]
    exact ⟨_, rfl⟩
  · show listCost barSep (pathSequenceS pa) i = _
    unfold listCost
    rw [e]
    simp only
    rw [if_neg hr, sepCost, show (barSep r).1 = .err (.error pos k) from h1, hz]
    rfl

instance [KGood pa] : KConsumes (pathSequenceS pa) := ⟨by rw [erase_pathSequenceS]; infer_instance⟩

theorem fst_pathAlternative (i : Input) : (pathAlternative i).1 = (pathAlternativeStep pathAlternative i).1 := by
  show erase pathAlternative i = erase (pathAlternativeStep pathAlternative) i
  rw [erase_pathAlternativeStep, erase_pathAlternative]
  exact congrFun NomSparql.pathAlternative_eq i

theorem pa_bound_aux (N : Nat) : ∀ i : Input, i.length < N → PaBound i := by
  induction N with
  | zero => intro i h; omega
  | succ N ih =>
    intro i hi
    obtain ⟨h1, h2⟩ := sequence_bound ih (i := i) (by omega)
    cases e : (pathSequenceS pathAlternative i).1 with
    | err x =>
      have hc : (pathAlternativeStep pathAlternative i).2 = (pathSequenceS pathAlternative i).2 := by
        show listCost barSep (pathSequenceS pathAlternative) i = _
        unfold listCost
        rw [e]; rfl
      have hf : (pathAlternativeStep pathAlternative i).1 = .err x := by
        show NomSparql.map (NomSparql.separatedNonemptyList (erase barSep) (erase (pathSequenceS pathAlternative))) _ i = _
        unfold NomSparql.map NomSparql.separatedNonemptyList
        rw [show erase (pathSequenceS pathAlternative) i = .err x from e]
      refine ⟨?_, fun e' => ?_⟩
      · rw [pathAlternative_cost, hc]; omega
      · rw [fst_pathAlternative, hf] at e'; cases e'
    | ok r a =>
      have hr : r ≠ i := by
        rintro rfl
        have := KConsumes.lt e
        omega
      have hs : r <:+ i := Good.ok (h := KGood.out) e
      have hcap : parens i ≤ pathCap i := by
        have : 1 ≤ 2 ^ bars i := Nat.pow_pos (by omega)
        have := Nat.mul_le_mul_right (parens i) this
        unfold pathCap; omega
      rcases h2 e with ⟨h3, h4⟩ | ⟨q, b, hb, hf, hc⟩
      · obtain ⟨⟨v, e1⟩, e2⟩ := alternative_clean e hr h4
        refine ⟨?_, fun e' _ => ?_⟩
        · rw [pathAlternative_cost, e2]; omega
        · rw [fst_pathAlternative, e1] at e'
          cases e'
          rw [pathAlternative_cost, e2]; omega
      · obtain ⟨⟨v, e1⟩, e2⟩ := alternative_dirty e hr hb hf
        have hq := barSep_suffix hb
        have hE := eltOrInverse_bound (i := q) fun x hx => ih x (by have := hq.length_le; have := hs.length_le; omega)
        refine ⟨?_, fun e' hn => ?_⟩
        · rw [pathAlternative_cost, e2]
          cases ho : opensPath q with
          | false =>
            have := hE.zero ho
            omega
          | true =>
            have h5 := barSep_bars hb ho
            have h6 := bars_suffix hs
            have h7 := parens_suffix hq
            have h8 := parens_suffix hs
            have h9 := hE.cost
            have := pathCap_twice (r := q) (i := i) (c := parens i - parens r) (by omega) (by omega)
            omega
        · rw [fst_pathAlternative, e1] at e'
          cases e'
          exact (hn.not_ok hb).elim

/-- **Upper bound.** -/
theorem pa_bound (i : Input) : PaBound i := pa_bound_aux (i.length + 1) i (by omega)

end Cost
end NomSparql
