import Verif.Model.Update

/-!
# Compositional judgements on parsers

* `Good p`: remainders and error positions are suffixes of the input.
* `Consumes p`: success makes the input strictly shorter.
* `Agree m p q`: on inputs shorter than `m`, `p` and `q` give the same result, which is not `fuel`.

All are type classes, so that one instance per combinator and one line per parser suffice.
-/

namespace NomSparql

/-- The remainder / error position of a result on input `i` is a suffix of `i`. -/
def PosOk (i : Input) : Res α → Prop
  | .ok r _ => r <:+ i
  | .err (.error pos _) => pos <:+ i
  | .err (.failure pos _) => pos <:+ i
  | .err _ => True

class Good (p : P α) : Prop where
  out : ∀ i, PosOk i (p i)

class Consumes (p : P α) : Prop where
  out : ∀ i r a, p i = .ok r a → r.length < i.length

class Agree (m : Nat) (p q : P α) : Prop where
  out : ∀ i, i.length < m → p i = q i ∧ p i ≠ .err .fuel

/-- `p` never runs out of budget. -/
class NoFuel (p : P α) : Prop where
  out : ∀ i, p i ≠ .err .fuel

theorem Good.ok {p : P α} [h : Good p] {i r a} (e : p i = .ok r a) : r <:+ i := by
  have := h.out i; rw [e] at this; exact this
theorem Good.len {p : P α} [h : Good p] {i r a} (e : p i = .ok r a) : r.length ≤ i.length :=
  (Good.ok e).length_le
theorem Good.error {p : P α} [h : Good p] {i pos k} (e : p i = .err (.error pos k)) : pos <:+ i := by
  have := h.out i; rw [e] at this; exact this
theorem Good.failure {p : P α} [h : Good p] {i pos k} (e : p i = .err (.failure pos k)) :
    pos <:+ i := by
  have := h.out i; rw [e] at this; exact this

theorem PosOk.mono {i j : Input} (h : j <:+ i) {r : Res α} (hr : PosOk j r) : PosOk i r := by
  match r, hr with
  | .ok _ _, hr => exact List.IsSuffix.trans hr h
  | .err (.error _ _), hr => exact List.IsSuffix.trans hr h
  | .err (.failure _ _), hr => exact List.IsSuffix.trans hr h
  | .err (.incomplete _), _ => trivial
  | .err .panic, _ => trivial
  | .err .fuel, _ => trivial

theorem PosOk.cast {i : Input} {e : Err} (h : PosOk i (.err e : Res α)) : PosOk i (.err e : Res β) := by
  cases e <;> exact h

theorem suffix_eq_of_length {r i : Input} (h : r <:+ i) (hl : i.length ≤ r.length) : r = i :=
  h.eq_of_length_le hl

theorem suffix_lt {r i : Input} (h : r <:+ i) (hne : r ≠ i) : r.length < i.length := by
  rcases Nat.lt_or_ge r.length i.length with h' | h'
  · exact h'
  · exact absurd (suffix_eq_of_length h h') hne

/-! ## `Good` -/

section
variable {p : P α} {q : P β}

instance [Good p] (f : α → β) : Good (map p f) where
  out i := by
    have := Good.out (p := p) i
    unfold map; split <;> rename_i e <;> rw [e] at this <;> first | exact this | exact this.cast

instance [Good p] : Good (opt p) where
  out i := by
    have := Good.out (p := p) i
    unfold opt
    split <;> rename_i e <;> try rw [e] at this
    · exact this
    · exact List.suffix_refl i
    · exact this.cast

instance [Good p] : Good (cut p) where
  out i := by
    have := Good.out (p := p) i
    unfold cut
    split <;> rename_i e <;> rw [e] at this <;> exact this

instance [Good p] : Good (recognize p) where
  out i := by
    have := Good.out (p := p) i
    unfold recognize; split <;> rename_i e <;> rw [e] at this <;> first | exact this | exact this.cast

instance [Good p] (f : α → Option β) : Good (mapRes p f) where
  out i := by
    have := Good.out (p := p) i
    unfold mapRes
    split <;> rename_i e <;> rw [e] at this
    · split
      · exact this
      · exact List.suffix_refl i
    · exact this.cast

instance [Good p] [Good q] : Good (pair p q) where
  out i := by
    have := Good.out (p := p) i
    unfold pair
    split <;> rename_i e <;> rw [e] at this
    · rename_i r a
      have h2 := Good.out (p := q) r
      split <;> rename_i e2 <;> rw [e2] at h2
      · exact List.IsSuffix.trans h2 this
      · exact (h2.mono this).cast
    · exact this.cast

instance {s : P γ} [Good p] [Good q] [Good s] : Good (tuple3 p q s) := by
  unfold tuple3; infer_instance
instance {s : P γ} {t : P δ} [Good p] [Good q] [Good s] [Good t] : Good (tuple4 p q s t) := by
  unfold tuple4; infer_instance
instance {s : P γ} {t : P δ} {u : P ε} [Good p] [Good q] [Good s] [Good t] [Good u] :
    Good (tuple5 p q s t u) := by
  unfold tuple5; infer_instance
instance [Good p] [Good q] : Good (preceded p q) := by unfold preceded; infer_instance
instance [Good p] [Good q] : Good (terminated p q) := by unfold terminated; infer_instance
instance {s : P γ} [Good p] [Good q] [Good s] : Good (delimited p q s) := by
  unfold delimited; infer_instance
instance {s : P γ} [Good p] [Good q] [Good s] : Good (separatedPair p s q) := by
  unfold separatedPair; infer_instance

instance [h : Good p] : Good (alt [p]) where
  out i := by unfold alt; exact h.out i

instance {p' : P α} {ps} [Good p] [Good (alt (p' :: ps))] : Good (alt (p :: p' :: ps)) where
  out i := by
    have := Good.out (p := p) i
    unfold alt
    split
    · exact Good.out i
    · exact this

theorem manyLoop_good (k : Kind) [Good p] : ∀ n i, PosOk i (manyLoop k p n i) := by
  intro n
  induction n with
  | zero => intro i; exact trivial
  | succ n ih =>
    intro i
    have := Good.out (p := p) i
    unfold manyLoop
    split <;> rename_i e <;> rw [e] at this
    · exact List.suffix_refl i
    · exact this.cast
    · split
      · exact List.suffix_refl i
      · rename_i r a _
        have h2 := ih r
        split <;> rename_i e2 <;> rw [e2] at h2
        · exact List.IsSuffix.trans h2 this
        · exact (h2.mono this).cast

instance [Good p] : Good (many0 p) where
  out i := manyLoop_good _ _ i

instance [Good p] : Good (many1 p) where
  out i := by
    have := Good.out (p := p) i
    unfold many1
    split <;> rename_i e <;> rw [e] at this
    · exact this.cast
    · rename_i r a
      have h2 := manyLoop_good (p := p) .Many1 (r.length + 1) r
      split <;> rename_i e2 <;> rw [e2] at h2
      · exact List.IsSuffix.trans h2 this
      · exact (h2.mono this).cast

theorem sepLoop_good [Good q] [Good p] : ∀ n i, PosOk i (sepLoop q p n i) := by
  intro n
  induction n with
  | zero => intro i; exact trivial
  | succ n ih =>
    intro i
    have h1 := Good.out (p := q) i
    unfold sepLoop
    split <;> rename_i e <;> rw [e] at h1
    · exact List.suffix_refl i
    · exact h1.cast
    · rename_i r b
      split
      · exact h1
      · have h2 := (Good.out (p := p) r).mono h1
        split <;> rename_i e2 <;> rw [e2] at h2
        · exact List.suffix_refl i
        · exact h2.cast
        · rename_i r2 a
          split
          · exact h2
          · have h3 := (ih r2).mono h2
            split <;> rename_i e3 <;> rw [e3] at h3
            · exact h3
            · exact h3.cast

instance [Good q] [Good p] : Good (separatedList q p) where
  out i := by
    have h1 := Good.out (p := p) i
    unfold separatedList
    split <;> rename_i e <;> rw [e] at h1
    · exact List.suffix_refl i
    · exact h1.cast
    · rename_i r a
      split
      · exact h1
      · have h3 := (sepLoop_good (p := p) (q := q) (r.length + 1) r).mono h1
        split <;> rename_i e3 <;> rw [e3] at h3
        · exact h3
        · exact h3.cast

instance [Good q] [Good p] : Good (separatedNonemptyList q p) where
  out i := by
    have h1 := Good.out (p := p) i
    unfold separatedNonemptyList
    split <;> rename_i e <;> rw [e] at h1
    · exact h1.cast
    · rename_i r a
      split
      · exact h1
      · have h3 := (sepLoop_good (p := p) (q := q) (r.length + 1) r).mono h1
        split <;> rename_i e3 <;> rw [e3] at h3
        · exact h3
        · exact h3.cast

end

instance (c : Char) : Good (char c) where
  out i := by
    unfold char; split
    · split
      · exact List.suffix_cons _ _
      · exact List.suffix_refl _
    · exact List.suffix_refl _

instance (cs : List Char) : Good (oneOf cs) where
  out i := by
    unfold oneOf; split
    · split
      · exact List.suffix_cons _ _
      · exact List.suffix_refl _
    · exact List.suffix_refl _

instance (cs : List Char) : Good (noneOf cs) where
  out i := by
    unfold noneOf; split
    · split
      · exact List.suffix_refl _
      · exact List.suffix_cons _ _
    · exact List.suffix_refl _

theorem stripPrefix_eq {t i r} (h : stripPrefix t i = some r) : i = t ++ r := by
  induction t generalizing i with
  | nil => simp [stripPrefix] at h; simpa using h
  | cons c t ih =>
    cases i with
    | nil => simp [stripPrefix] at h
    | cons d i =>
      simp only [stripPrefix] at h
      split at h
      · rename_i hc; subst hc; rw [ih h]; rfl
      · cases h

theorem stripPrefix_append (t r : List Char) : stripPrefix t (t ++ r) = some r := by
  induction t with
  | nil => rfl
  | cons c t ih => simp [stripPrefix, ih]

instance (t : List Char) : Good (tag t) where
  out i := by
    unfold tag; split
    · rename_i e; rw [stripPrefix_eq e]; exact List.suffix_append _ _
    · exact List.suffix_refl _

instance (f : Char → Bool) : Good (takeWhile f) where
  out _ := List.dropWhile_suffix f

instance (k : Kind) (f : Char → Bool) : Good (takeWhile1K k f) where
  out i := by
    unfold takeWhile1K; split
    · exact List.suffix_refl _
    · exact List.dropWhile_suffix f

instance (f : Char → Bool) : Good (takeWhile1 f) := by unfold takeWhile1; infer_instance

instance (n : Nat) (f : Char → Bool) : Good (takeWhileN n f) where
  out i := by
    unfold takeWhileN; split
    · exact List.drop_suffix _ _
    · exact List.suffix_refl _

instance : Good digit1 := by unfold digit1; infer_instance
instance : Good alpha1 := by unfold alpha1; infer_instance
instance : Good alphanumeric1 := by unfold alphanumeric1; infer_instance

theorem takeBytes_eq {n i a r} (h : takeBytes n i = some (a, r)) : i = a ++ r := by
  induction i generalizing n a r with
  | nil =>
    unfold takeBytes at h
    split at h
    · cases h; rfl
    · cases h
  | cons c i ih =>
    unfold takeBytes at h
    split at h
    · cases h; rfl
    · split at h
      · split at h
        · rename_i e
          cases h
          rw [ih e]; rfl
        · cases h
      · cases h

theorem takeBytes_byteLen {n i a r} (h : takeBytes n i = some (a, r)) : byteLen a = n := by
  induction i generalizing n a r with
  | nil =>
    unfold takeBytes at h
    split at h
    · cases h; simp_all [byteLen]
    · cases h
  | cons c i ih =>
    unfold takeBytes at h
    split at h
    · cases h; simp_all [byteLen]
    · split at h
      · split at h
        · rename_i e
          cases h
          have := ih e
          simp only [byteLen, List.map_cons, List.sum_cons] at this ⊢
          omega
        · cases h
      · cases h

instance (t : List Char) : Good (tagNoCase t) where
  out i := by
    unfold tagNoCase; split
    · split
      · rename_i e; rw [takeBytes_eq e]; exact List.suffix_append _ _
      · exact trivial
    · exact List.suffix_refl _

instance (t : List Char) : Good (tagNoCaseStreaming t) where
  out i := by
    unfold tagNoCaseStreaming; split
    · split
      · split
        · rename_i e; rw [takeBytes_eq e]; exact List.suffix_append _ _
        · exact trivial
      · exact trivial
    · exact List.suffix_refl _

theorem escapedLoop_good {p : P α} {q : P β} [Good p] [Good q] (c : Char) (input : Input) :
    ∀ n i, i <:+ input → PosOk input (escapedLoop p c q input n i) := by
  intro n
  induction n with
  | zero => intros; exact trivial
  | succ n ih =>
    intro i hi
    cases i with
    | nil => exact List.nil_suffix
    | cons d cs =>
      have h1 := (Good.out (p := p) (d :: cs)).mono hi
      unfold escapedLoop
      split <;> rename_i e <;> rw [e] at h1
      · split
        · exact List.nil_suffix
        · exact ih _ h1
      · split
        · split
          · exact List.suffix_refl _
          · have h2 := (Good.out (p := q) cs).mono ((List.suffix_cons d cs).trans hi)
            split <;> rename_i e2 <;> rw [e2] at h2
            · split
              · exact List.nil_suffix
              · exact ih _ h2
            · exact h2.cast
        · split
          · exact List.suffix_refl _
          · exact hi
      · exact h1.cast

instance {p : P α} {q : P β} [Good p] [Good q] (c : Char) : Good (escaped p c q) where
  out i := escapedLoop_good c i _ i (List.suffix_refl _)

/-! ## `Consumes` -/

section
variable {p : P α} {q : P β}

instance [Consumes p] (f : α → β) : Consumes (map p f) where
  out i r a h := by
    unfold map at h; split at h
    · rename_i e; cases h; exact Consumes.out _ _ _ e
    · cases h

instance [Consumes p] : Consumes (cut p) where
  out i r a h := by
    unfold cut at h; split at h
    · rename_i e; cases h; exact Consumes.out _ _ _ e
    · cases h
    · cases h

instance [Consumes p] : Consumes (recognize p) where
  out i r a h := by
    unfold recognize at h; split at h
    · rename_i e; cases h; exact Consumes.out _ _ _ e
    · cases h

instance [Consumes p] (f : α → Option β) : Consumes (mapRes p f) where
  out i r a h := by
    unfold mapRes at h; split at h
    · rename_i e; split at h <;> cases h; exact Consumes.out _ _ _ e
    · cases h

theorem pair_ok {i r : Input} {ab : α × β} (h : pair p q i = .ok r ab) :
    ∃ r1, p i = .ok r1 ab.1 ∧ q r1 = .ok r ab.2 := by
  unfold pair at h
  split at h
  · rename_i r1 a e
    split at h
    · rename_i e2; cases h; exact ⟨r1, e, e2⟩
    · cases h
  · cases h

instance (priority := low) pair_consumes_right [Good p] [Consumes q] : Consumes (pair p q) where
  out i r a h := by
    obtain ⟨r1, h1, h2⟩ := pair_ok h
    have := Good.len h1
    have := Consumes.out _ _ _ h2
    omega

instance pair_consumes_left [Consumes p] [Good q] : Consumes (pair p q) where
  out i r a h := by
    obtain ⟨r1, h1, h2⟩ := pair_ok h
    have := Consumes.out _ _ _ h1
    have := Good.len h2
    omega

instance {s : P γ} [Consumes (pair p (pair q s))] : Consumes (tuple3 p q s) := by
  unfold tuple3; infer_instance
instance {s : P γ} {t : P δ} [Consumes (pair p (pair q (pair s t)))] : Consumes (tuple4 p q s t) := by
  unfold tuple4; infer_instance
instance {s : P γ} {t : P δ} {u : P ε} [Consumes (pair p (pair q (pair s (pair t u))))] :
    Consumes (tuple5 p q s t u) := by
  unfold tuple5; infer_instance
instance [Consumes (pair p q)] : Consumes (preceded p q) := by unfold preceded; infer_instance
instance [Consumes (pair p q)] : Consumes (terminated p q) := by unfold terminated; infer_instance
instance {s : P γ} [Consumes (pair p (terminated q s))] : Consumes (delimited p q s) := by
  unfold delimited; infer_instance
instance {s : P γ} [Consumes (pair p (preceded s q))] : Consumes (separatedPair p s q) := by
  unfold separatedPair; infer_instance

instance [h : Consumes p] : Consumes (alt [p]) where
  out i := by unfold alt; exact h.out i

instance {p' : P α} {ps} [Consumes p] [Consumes (alt (p' :: ps))] : Consumes (alt (p :: p' :: ps)) where
  out i r a h := by
    unfold alt at h
    split at h
    · exact Consumes.out _ _ _ h
    · exact Consumes.out _ _ _ h

instance [Good p] [Consumes p] : Consumes (many1 p) where
  out i r a h := by
    unfold many1 at h
    split at h
    · cases h
    · rename_i r1 a1 e
      have h1 := Consumes.out _ _ _ e
      have h2 := manyLoop_good (p := p) .Many1 (r1.length + 1) r1
      split at h
      · rename_i e2; rw [e2] at h2; cases h
        have := List.IsSuffix.length_le h2
        omega
      · cases h

instance [Good p] [Good q] : Consumes (separatedNonemptyList q p) where
  out i r a h := by
    unfold separatedNonemptyList at h
    split at h
    · cases h
    · rename_i r1 a1 e
      split at h
      · cases h
      · rename_i hne
        have h1 := suffix_lt (Good.ok e) hne
        have h2 := sepLoop_good (p := p) (q := q) (r1.length + 1) r1
        split at h
        · rename_i e2; rw [e2] at h2; cases h
          have := List.IsSuffix.length_le h2
          omega
        · cases h

end

instance (c : Char) : Consumes (char c) where
  out i r a h := by
    unfold char at h; split at h
    · split at h <;> cases h; simp
    · cases h

instance (cs : List Char) : Consumes (oneOf cs) where
  out i r a h := by
    unfold oneOf at h; split at h
    · split at h <;> cases h; simp
    · cases h

instance (cs : List Char) : Consumes (noneOf cs) where
  out i r a h := by
    unfold noneOf at h; split at h
    · split at h <;> cases h; simp
    · cases h

instance (c : Char) (t : List Char) : Consumes (tag (c :: t)) where
  out i r a h := by
    unfold tag at h; split at h
    · rename_i e; cases h; rw [stripPrefix_eq e]; simp; omega
    · cases h

theorem takeWhile_dropWhile_len (f : Char → Bool) (i : Input) :
    (i.takeWhile f).length + (i.dropWhile f).length = i.length := by
  rw [← List.length_append, List.takeWhile_append_dropWhile]

instance (k : Kind) (f : Char → Bool) : Consumes (takeWhile1K k f) where
  out i r a h := by
    unfold takeWhile1K at h; split at h
    · cases h
    · rename_i e; cases h
      have := takeWhile_dropWhile_len f i
      rw [e] at this; simp at this; omega

instance (f : Char → Bool) : Consumes (takeWhile1 f) := by unfold takeWhile1; infer_instance
instance : Consumes digit1 := by unfold digit1; infer_instance
instance : Consumes alpha1 := by unfold alpha1; infer_instance
instance : Consumes alphanumeric1 := by unfold alphanumeric1; infer_instance

instance (n : Nat) (f : Char → Bool) : Consumes (takeWhileN (n + 1) f) where
  out i r a h := by
    unfold takeWhileN at h; split at h
    · rename_i hl; cases h
      have := hl.1
      simp at this ⊢; omega
    · cases h

theorem byteLen_cons (c : Char) (t : List Char) : byteLen (c :: t) = c.utf8Size + byteLen t := by
  simp [byteLen]

theorem byteLen_pos (c : Char) (t : List Char) : 0 < byteLen (c :: t) := by
  rw [byteLen_cons]; have := c.utf8Size_pos; omega

instance (c : Char) (t : List Char) : Consumes (tagNoCase (c :: t)) where
  out i r a h := by
    unfold tagNoCase at h; split at h
    · split at h
      · rename_i e; cases h
        have h1 := takeBytes_byteLen e
        have h2 := byteLen_pos c t
        rw [takeBytes_eq e]
        cases a with
        | nil => simp [byteLen] at h1 h2; omega
        | cons => simp; omega
      · cases h
    · cases h

instance (c : Char) (t : List Char) : Consumes (tagNoCaseStreaming (c :: t)) where
  out i r a h := by
    unfold tagNoCaseStreaming at h; split at h
    · split at h
      · split at h
        · rename_i e; cases h
          have h1 := takeBytes_byteLen e
          have h2 := byteLen_pos c t
          rw [takeBytes_eq e]
          cases a with
          | nil => simp [byteLen] at h1 h2; omega
          | cons => simp; omega
        · cases h
      · cases h
    · cases h

/-! ## `Agree` -/

theorem Agree.mono {m n : Nat} {p q : P α} (h : Agree m p q) (hn : n ≤ m) : Agree n p q where
  out i hi := h.out i (by omega)

theorem Agree.down {m : Nat} {p q : P α} (h : Agree (m + 1) p q) : Agree m p q :=
  h.mono (by omega)

instance (priority := high) {m : Nat} {p : P α} [NoFuel p] : Agree m p p where
  out i _ := ⟨rfl, NoFuel.out i⟩

theorem NoFuel.of_agree {p : P α} (h : ∀ m, Agree m p p) : NoFuel p where
  out i := ((h (i.length + 1)).out i (by omega)).2

section
variable {m : Nat} {p p' : P α} {q q' : P β}

instance [Agree m p p'] (f : α → β) : Agree m (map p f) (map p' f) where
  out i hi := by
    have ⟨h1, h2⟩ := Agree.out (p := p) (q := p') i hi
    unfold map; rw [← h1]
    refine ⟨rfl, ?_⟩
    split
    · simp
    · rename_i e; rw [e] at h2; simpa using h2

instance [Agree m p p'] : Agree m (opt p) (opt p') where
  out i hi := by
    have ⟨h1, h2⟩ := Agree.out (p := p) (q := p') i hi
    unfold opt; rw [← h1]
    refine ⟨rfl, ?_⟩
    split
    · simp
    · simp
    · rename_i e; rw [e] at h2; simpa using h2

instance [Agree m p p'] : Agree m (cut p) (cut p') where
  out i hi := by
    have ⟨h1, h2⟩ := Agree.out (p := p) (q := p') i hi
    unfold cut; rw [← h1]
    refine ⟨rfl, ?_⟩
    split
    · simp
    · simp
    · rename_i e; rw [e] at h2; simpa using h2

instance [Agree m p p'] : Agree m (recognize p) (recognize p') where
  out i hi := by
    have ⟨h1, h2⟩ := Agree.out (p := p) (q := p') i hi
    unfold recognize; rw [← h1]
    refine ⟨rfl, ?_⟩
    split
    · simp
    · rename_i e; rw [e] at h2; simpa using h2

instance [Agree m p p'] (f : α → Option β) : Agree m (mapRes p f) (mapRes p' f) where
  out i hi := by
    have ⟨h1, h2⟩ := Agree.out (p := p) (q := p') i hi
    unfold mapRes; rw [← h1]
    refine ⟨rfl, ?_⟩
    split
    · split <;> simp
    · rename_i e; rw [e] at h2; simpa using h2

theorem pair_agree_aux {i : Input} (h : p i = p' i ∧ p i ≠ .err .fuel)
    (hq : ∀ r a, p i = .ok r a → q r = q' r ∧ q r ≠ .err .fuel) :
    pair p q i = pair p' q' i ∧ pair p q i ≠ .err .fuel := by
  unfold pair
  rw [← h.1]
  split
  · rename_i r a e
    have ⟨h3, h4⟩ := hq r a e
    rw [← h3]
    refine ⟨rfl, ?_⟩
    split
    · simp
    · rename_i e2; rw [e2] at h4; simpa using h4
  · rename_i e
    have h2 := h.2
    rw [e] at h2
    exact ⟨rfl, by simpa using h2⟩

instance (priority := low) pair_agree [Agree m p p'] [Good p] [Agree m q q'] :
    Agree m (pair p q) (pair p' q') where
  out i hi := pair_agree_aux (Agree.out i hi)
    (fun r a e => Agree.out (m := m) r (by have := Good.len e; omega))

instance pair_agree_consume [Agree (m + 1) p p'] [Consumes p] [Agree m q q'] :
    Agree (m + 1) (pair p q) (pair p' q') where
  out i hi := pair_agree_aux (Agree.out i hi)
    (fun r a e => Agree.out (m := m) r (by have := Consumes.out _ _ _ e; omega))

instance {s s' : P γ} [Agree m (pair p (pair q s)) (pair p' (pair q' s'))] :
    Agree m (tuple3 p q s) (tuple3 p' q' s') := by
  unfold tuple3; infer_instance
instance {s s' : P γ} {t t' : P δ}
    [Agree m (pair p (pair q (pair s t))) (pair p' (pair q' (pair s' t')))] :
    Agree m (tuple4 p q s t) (tuple4 p' q' s' t') := by
  unfold tuple4; infer_instance
instance {s s' : P γ} {t t' : P δ} {u u' : P ε}
    [Agree m (pair p (pair q (pair s (pair t u)))) (pair p' (pair q' (pair s' (pair t' u'))))] :
    Agree m (tuple5 p q s t u) (tuple5 p' q' s' t' u') := by
  unfold tuple5; infer_instance
instance [Agree m (pair p q) (pair p' q')] : Agree m (preceded p q) (preceded p' q') := by
  unfold preceded; infer_instance
instance [Agree m (pair p q) (pair p' q')] : Agree m (terminated p q) (terminated p' q') := by
  unfold terminated; infer_instance
instance {s s' : P γ} [Agree m (pair p (terminated q s)) (pair p' (terminated q' s'))] :
    Agree m (delimited p q s) (delimited p' q' s') := by
  unfold delimited; infer_instance
instance {s s' : P γ} [Agree m (pair p (preceded s q)) (pair p' (preceded s' q'))] :
    Agree m (separatedPair p s q) (separatedPair p' s' q') := by
  unfold separatedPair; infer_instance

instance [h : Agree m p p'] : Agree m (alt [p]) (alt [p']) where
  out i := by unfold alt; exact h.out i

instance {p₂ p₂' : P α} {ps ps'} [Agree m p p'] [Agree m (alt (p₂ :: ps)) (alt (p₂' :: ps'))] :
    Agree m (alt (p :: p₂ :: ps)) (alt (p' :: p₂' :: ps')) where
  out i hi := by
    have ⟨h1, h2⟩ := Agree.out (p := p) (q := p') i hi
    have h3 := Agree.out (p := alt (p₂ :: ps)) (q := alt (p₂' :: ps')) i hi
    rw [alt, alt]
    rw [← h1]
    split
    · exact h3
    · exact ⟨rfl, h2⟩

theorem manyLoop_agree (k : Kind) [Agree m p p'] [Good p] :
    ∀ n i, i.length < n → i.length < m →
      manyLoop k p n i = manyLoop k p' n i ∧ manyLoop k p n i ≠ .err .fuel := by
  intro n
  induction n with
  | zero => intro i hi; omega
  | succ n ih =>
    intro i hi hm
    have ⟨h1, h2⟩ := Agree.out (p := p) (q := p') i hm
    unfold manyLoop
    rw [← h1]
    split
    · simp
    · rename_i e; rw [e] at h2; exact ⟨rfl, by simpa using h2⟩
    · rename_i r a e
      split
      · simp
      · rename_i hne
        have := suffix_lt (Good.ok e) hne
        have ⟨h3, h4⟩ := ih r (by omega) (by omega)
        rw [← h3]
        refine ⟨rfl, ?_⟩
        split
        · simp
        · rename_i e2; rw [e2] at h4; simpa using h4

instance [Agree m p p'] [Good p] : Agree m (many0 p) (many0 p') where
  out i hi := manyLoop_agree _ _ i (by omega) hi

instance [Agree m p p'] [Good p] : Agree m (many1 p) (many1 p') where
  out i hi := by
    have ⟨h1, h2⟩ := Agree.out (p := p) (q := p') i hi
    unfold many1
    rw [← h1]
    split
    · rename_i e; rw [e] at h2; exact ⟨rfl, by simpa using h2⟩
    · rename_i r a e
      have := Good.len e
      have ⟨h3, h4⟩ := manyLoop_agree (p := p) (p' := p') (m := m) .Many1 (r.length + 1) r
        (by omega) (by omega)
      rw [← h3]
      refine ⟨rfl, ?_⟩
      split
      · simp
      · rename_i e2; rw [e2] at h4; simpa using h4

theorem sepLoop_agree [Agree m q q'] [Good q] [Agree m p p'] [Good p] :
    ∀ n i, i.length < n → i.length < m →
      sepLoop q p n i = sepLoop q' p' n i ∧ sepLoop q p n i ≠ .err .fuel := by
  intro n
  induction n with
  | zero => intro i hi; omega
  | succ n ih =>
    intro i hi hm
    have ⟨h1, h2⟩ := Agree.out (p := q) (q := q') i hm
    unfold sepLoop
    rw [← h1]
    split
    · simp
    · rename_i e; rw [e] at h2; exact ⟨rfl, by simpa using h2⟩
    · rename_i r b e
      split
      · simp
      · have hs1 := Good.ok e
        have ⟨h3, h4⟩ := Agree.out (m := m) (p := p) (q := p') r
          (by have := hs1.length_le; omega)
        rw [← h3]
        split
        · simp
        · rename_i e2; rw [e2] at h4; exact ⟨rfl, by simpa using h4⟩
        · rename_i r2 a e2
          split
          · simp
          · rename_i hne
            have := suffix_lt ((Good.ok e2).trans hs1) hne
            have ⟨h5, h6⟩ := ih r2 (by omega) (by omega)
            rw [← h5]
            refine ⟨rfl, ?_⟩
            split
            · simp
            · rename_i e3; rw [e3] at h6; simpa using h6

instance [Agree m q q'] [Good q] [Agree m p p'] [Good p] :
    Agree m (separatedList q p) (separatedList q' p') where
  out i hi := by
    have ⟨h1, h2⟩ := Agree.out (p := p) (q := p') i hi
    unfold separatedList
    rw [← h1]
    split
    · simp
    · rename_i e; rw [e] at h2; exact ⟨rfl, by simpa using h2⟩
    · rename_i r a e
      split
      · simp
      · have := Good.len e
        have ⟨h3, h4⟩ := sepLoop_agree (p := p) (p' := p') (q := q) (q' := q') (m := m)
          (r.length + 1) r (by omega) (by omega)
        rw [← h3]
        refine ⟨rfl, ?_⟩
        split
        · simp
        · rename_i e2; rw [e2] at h4; simpa using h4

instance [Agree m q q'] [Good q] [Agree m p p'] [Good p] :
    Agree m (separatedNonemptyList q p) (separatedNonemptyList q' p') where
  out i hi := by
    have ⟨h1, h2⟩ := Agree.out (p := p) (q := p') i hi
    unfold separatedNonemptyList
    rw [← h1]
    split
    · rename_i e; rw [e] at h2; exact ⟨rfl, by simpa using h2⟩
    · rename_i r a e
      split
      · simp
      · have := Good.len e
        have ⟨h3, h4⟩ := sepLoop_agree (p := p) (p' := p') (q := q) (q' := q') (m := m)
          (r.length + 1) r (by omega) (by omega)
        rw [← h3]
        refine ⟨rfl, ?_⟩
        split
        · simp
        · rename_i e2; rw [e2] at h4; simpa using h4

end

instance (c : Char) : NoFuel (char c) where
  out i := by
    unfold char; repeat' split
    all_goals simp
instance (cs : List Char) : NoFuel (oneOf cs) where
  out i := by
    unfold oneOf; repeat' split
    all_goals simp
instance (cs : List Char) : NoFuel (noneOf cs) where
  out i := by
    unfold noneOf; repeat' split
    all_goals simp
instance (t : List Char) : NoFuel (tag t) where
  out i := by unfold tag; split <;> simp
instance (f : Char → Bool) : NoFuel (takeWhile f) where
  out i := by unfold takeWhile; simp
instance (k : Kind) (f : Char → Bool) : NoFuel (takeWhile1K k f) where
  out i := by unfold takeWhile1K; split <;> simp
instance (f : Char → Bool) : NoFuel (takeWhile1 f) := by unfold takeWhile1; infer_instance
instance : NoFuel digit1 := by unfold digit1; infer_instance
instance : NoFuel alpha1 := by unfold alpha1; infer_instance
instance : NoFuel alphanumeric1 := by unfold alphanumeric1; infer_instance
instance (n : Nat) (f : Char → Bool) : NoFuel (takeWhileN n f) where
  out i := by unfold takeWhileN; split <;> simp
instance (t : List Char) : NoFuel (tagNoCase t) where
  out i := by
    unfold tagNoCase; repeat' split
    all_goals simp
instance (t : List Char) : NoFuel (tagNoCaseStreaming t) where
  out i := by
    unfold tagNoCaseStreaming; repeat' split
    all_goals simp

theorem escapedLoop_noFuel {p : P α} {q : P β} [Consumes p] [Consumes q] [NoFuel p] [NoFuel q]
    (c : Char) (input : Input) :
    ∀ n i, i.length < n → escapedLoop p c q input n i ≠ .err .fuel := by
  intro n
  induction n with
  | zero => intro i hi; omega
  | succ n ih =>
    intro i hi
    cases i with
    | nil => simp [escapedLoop]
    | cons d cs =>
      have h1 := NoFuel.out (p := p) (d :: cs)
      unfold escapedLoop
      split
      · rename_i e
        have := Consumes.out _ _ _ e
        split
        · simp
        · exact ih _ (by omega)
      · split
        · split
          · simp
          · have h2 := NoFuel.out (p := q) cs
            split
            · rename_i e2
              have := Consumes.out _ _ _ e2
              simp at hi
              split
              · simp
              · exact ih _ (by omega)
            · rename_i e2; rw [e2] at h2; simpa using h2
        · split <;> simp
      · rename_i e; rw [e] at h1; simpa using h1

instance {p : P α} {q : P β} [Consumes p] [Consumes q] [NoFuel p] [NoFuel q] (c : Char) :
    NoFuel (escaped p c q) where
  out i := escapedLoop_noFuel c i _ i (by omega)

end NomSparql
