import Verif.Lemmas.Tokens

/-!
# Numeric literals
-/

namespace NomSparql

theorem signChar_ok {i r c} : alt [char '+', char '-'] i = .ok r c ↔ (c = '+' ∨ c = '-') ∧ i = c :: r := by
  rw [alt_two_ok]
  simp only [alt, char_ok]
  constructor
  · rintro (⟨rfl, h⟩ | ⟨_, rfl, h⟩)
    · exact ⟨.inl rfl, h⟩
    · exact ⟨.inr rfl, h⟩
  · rintro ⟨rfl | rfl, h⟩
    · exact .inl ⟨rfl, h⟩
    · exact .inr ⟨⟨_, _, by rw [h]; exact char_err (by decide)⟩, rfl, h⟩

instance : Total optSign := by unfold optSign; infer_instance

/-- Spec form of the sign: the rest and the sign text. -/
theorem optSign_ok {i r o} (h : optSign i = .ok r o) : ∃ sg neg, SignText sg neg ∧ i = sg ++ r := by
  unfold optSign at h
  rcases opt_ok.mp h with ⟨c, _, h⟩ | ⟨_, rfl, _⟩
  · obtain ⟨rfl | rfl, h2⟩ := signChar_ok.mp h
    · exact ⟨['+'], false, .plus, h2⟩
    · exact ⟨['-'], true, .minus, h2⟩
  · exact ⟨[], false, .none, rfl⟩

theorem optSign_append {sg neg} (h : SignText sg neg) {r}
    (hr : NotStart (fun c => c = '+' ∨ c = '-') r) : ∃ o, optSign (sg ++ r) = .ok r o := by
  unfold optSign
  cases h with
  | plus => exact ⟨some '+', opt_ok.mpr (.inl ⟨_, rfl, signChar_ok.mpr ⟨.inl rfl, rfl⟩⟩)⟩
  | minus => exact ⟨some '-', opt_ok.mpr (.inl ⟨_, rfl, signChar_ok.mpr ⟨.inr rfl, rfl⟩⟩)⟩
  | none =>
    rcases Soft.cases (alt [char '+', char '-']) r with ⟨r', c, h⟩ | h
    · obtain ⟨h1, rfl⟩ := signChar_ok.mp h
      exact absurd h1 (hr c r' rfl)
    · exact ⟨none, opt_ok.mpr (.inr ⟨rfl, rfl, h⟩)⟩

theorem digits_notSign {ds r : Str} (h : ds ≠ []) (hd : ∀ c ∈ ds, AsciiDigit c) :
    NotStart (fun c => c = '+' ∨ c = '-') (ds ++ r) := by
  cases ds with
  | nil => contradiction
  | cons c ds =>
    apply notStart_cons
    have := hd c (by simp)
    rintro (rfl | rfl) <;> exact absurd this (by decide)

theorem digit1_ok {i r s} : digit1 i = .ok r s ↔ i = s ++ r ∧ s ≠ [] ∧ (∀ c ∈ s, AsciiDigit c) ∧
    NotStart AsciiDigit r := by
  unfold digit1
  rw [takeWhile1K_ok]
  simp only [isDecDigit_iff]
  constructor
  · rintro ⟨h1, h2, h3, h4⟩
    exact ⟨h1, h2, h3, fun c r' e hc => by have := h4 c r' e; rw [isDecDigit_iff.mpr hc] at this; cases this⟩
  · rintro ⟨h1, h2, h3, h4⟩
    exact ⟨h1, h2, h3, fun c r' e => by have := mt isDecDigit_iff.mp (h4 c r' e); simpa using this⟩

theorem digit1_err {i} : (∃ pos k, digit1 i = .err (.error pos k)) ↔ NotStart AsciiDigit i := by
  constructor
  · rintro ⟨pos, k, h⟩ c r' rfl hc
    have := (takeWhile1K_err h).2 c r' rfl
    rw [isDecDigit_iff.mpr hc] at this; cases this
  · intro h
    rcases Soft.cases digit1 i with ⟨r, s, e⟩ | h'
    · obtain ⟨rfl, h1, h2, _⟩ := digit1_ok.mp e
      cases s with
      | nil => contradiction
      | cons c s => exact absurd (h2 c (by simp)) (h c _ rfl)
    · exact h'

/-- The text of an integer token. -/
theorem intToken_ok {i r s} : recognize (pair optSign digit1) i = .ok r s ↔ i = s ++ r ∧
    NotStart AsciiDigit r ∧
    ∃ sg neg ds, s = sg ++ ds ∧ SignText sg neg ∧ ds ≠ [] ∧ ∀ c ∈ ds, AsciiDigit c := by
  rw [recognize_ok_iff]
  constructor
  · rintro ⟨rfl, ⟨o, ds⟩, h⟩
    obtain ⟨r1, h1, h2⟩ := pair_ok h
    obtain ⟨sg, neg, hs, e⟩ := optSign_ok h1
    obtain ⟨rfl, h3, h4, h5⟩ := digit1_ok.mp h2
    rw [← List.append_assoc] at e
    have := List.append_cancel_right e
    subst this
    exact ⟨rfl, h5, sg, neg, ds, rfl, hs, h3, h4⟩
  · rintro ⟨rfl, h, sg, neg, ds, rfl, h1, h2, h3⟩
    refine ⟨rfl, ?_⟩
    obtain ⟨o, ho⟩ := optSign_append h1 (digits_notSign (r := r) h2 h3)
    rw [List.append_assoc]
    exact ⟨(o, ds), pair_ok_iff.mpr ⟨_, ho, digit1_ok.mpr ⟨rfl, h2, h3, h⟩⟩⟩

theorem parseI64_text {sg neg ds} (h : SignText sg neg) (h1 : ds ≠ []) (h2 : ∀ c ∈ ds, AsciiDigit c) :
    parseI64 (sg ++ ds) =
      let v : Int := if neg then -(digitsVal ds : Int) else digitsVal ds
      if FitsI64 v then some v else none := by
  have hall : ds.all isDecDigit = true := by
    rw [List.all_eq_true]; exact fun c hc => isDecDigit_iff.mpr (h2 c hc)
  unfold parseI64 FitsI64
  cases h with
  | plus => simp [h1, hall]
  | minus => simp [h1, hall]
  | none =>
    simp only [List.nil_append]
    cases ds with
    | nil => contradiction
    | cons c ds =>
      have hc := h2 c (by simp)
      have c1 : c ≠ '+' := by rintro rfl; exact absurd hc (by decide)
      have c2 : c ≠ '-' := by rintro rfl; exact absurd hc (by decide)
      split
      · rename_i heq; cases heq; contradiction
      · rename_i heq; cases heq; contradiction
      · simp [hall]

theorem parseI64_some {sg neg ds v} (h : SignText sg neg) (h1 : ds ≠ []) (h2 : ∀ c ∈ ds, AsciiDigit c) :
    parseI64 (sg ++ ds) = some v ↔
      v = (if neg then -(digitsVal ds : Int) else digitsVal ds) ∧ FitsI64 v := by
  rw [parseI64_text h h1 h2]
  generalize (if neg then -(digitsVal ds : Int) else digitsVal ds) = u
  show (if FitsI64 u then some u else none) = some v ↔ _
  split
  · rename_i hf
    simp only [Option.some.injEq]
    constructor
    · rintro rfl; exact ⟨rfl, hf⟩
    · rintro ⟨rfl, _⟩; rfl
  · rename_i hf
    simp only [reduceCtorEq, false_iff, not_and]
    rintro rfl; exact hf

theorem parseI64_none {sg neg ds} (h : SignText sg neg) (h1 : ds ≠ []) (h2 : ∀ c ∈ ds, AsciiDigit c)
    (hf : ¬ FitsI64 (if neg then -(digitsVal ds : Int) else digitsVal ds)) :
    parseI64 (sg ++ ds) = none := by
  rw [parseI64_text h h1 h2]; exact if_neg hf

/-- What an integer must not be followed by: a digit, or `.`, `e`, `E`. -/
def IntStop (r : Str) : Prop := NotStart (fun c => AsciiDigit c ∨ c = '.' ∨ c = 'e' ∨ c = 'E') r

theorem startsDotE_false {r} : startsDotE r = false ↔ NotStart (fun c => c = '.' ∨ c = 'e' ∨ c = 'E') r := by
  cases r with
  | nil => simp [startsDotE, NotStart]
  | cons c r =>
    simp only [startsDotE, decide_eq_false_iff_not, List.mem_cons, List.not_mem_nil, or_false]
    constructor
    · exact fun h => notStart_cons h
    · exact fun h => h c r rfl

theorem intStop_iff {r} : IntStop r ↔
    NotStart AsciiDigit r ∧ NotStart (fun c => c = '.' ∨ c = 'e' ∨ c = 'E') r := by
  constructor
  · exact fun h => ⟨h.mono fun c hc => .inl hc, h.mono fun c hc => .inr hc⟩
  · rintro ⟨h1, h2⟩ c r' e (hc | hc)
    · exact h1 c r' e hc
    · exact h2 c r' e hc

theorem sparqlInt_ok {i r v} : sparqlInt i = .ok r v ↔
    ∃ s, i = s ++ r ∧ IntText s v ∧ FitsI64 v ∧ IntStop r := by
  unfold sparqlInt
  constructor
  · intro h
    split at h
    · rename_i r' o e
      obtain ⟨rfl, h1, sg, neg, ds, rfl, h2, h3, h4⟩ := intToken_ok.mp e
      split at h
      · cases h
      · rename_i hd
        split at h
        · rename_i v' hv
          cases h
          obtain ⟨h5, h6⟩ := (parseI64_some h2 h3 h4).mp hv
          refine ⟨_, rfl, ⟨sg, neg, ds, _, rfl, h2, decVal_of h3 h4, h5⟩, h6, intStop_iff.mpr ⟨h1, ?_⟩⟩
          exact startsDotE_false.mp (by simpa using hd)
        · cases h
    · cases h
  · rintro ⟨s, rfl, ⟨sg, neg, ds, n, rfl, h2, h3, h4⟩, h5, h6⟩
    obtain ⟨h7, h8⟩ := intStop_iff.mp h6
    obtain ⟨h9, h10, h11⟩ := decVal_imp h3
    rw [intToken_ok.mpr ⟨rfl, h7, sg, neg, ds, rfl, h2, h9, h10⟩]
    simp only
    rw [if_neg (by rw [startsDotE_false.mpr h8]; simp)]
    rw [(parseI64_some h2 h9 h10).mpr ⟨by rw [h4, h11], h5⟩]

instance : Soft sparqlInt where
  out i e h := by
    unfold sparqlInt at h
    repeat' split at h
    · cases h; exact ⟨_, _, rfl⟩
    · cases h
    · cases h; exact ⟨_, _, rfl⟩
    · rename_i e2; cases h; exact Soft.out _ _ e2

/-! ## Mantissa -/

/-- `digits ['.' [digits]]` as written in `recognize_spaqrql_float`. -/
abbrev floatA : P (Str × Option (Char × Option Str)) :=
  pair digit1 (opt (pair (char '.') (opt digit1)))
/-- `'.' digits`. -/
abbrev floatB : P (Char × Str) := pair (char '.') digit1

theorem floatToken_ok {i r s} : recognizeSparqlFloat i = .ok r s ↔ i = s ++ r ∧
    ∃ sg neg w f, SignText sg neg ∧ (w ++ f) ≠ [] ∧ (∀ c ∈ w ++ f, AsciiDigit c) ∧
      NotStart AsciiDigit r ∧
      ((s = sg ++ w ∧ f = [] ∧ NotStart (· = '.') r) ∨ s = sg ++ (w ++ '.' :: f)) := by
  unfold recognizeSparqlFloat
  rw [recognize_ok_iff]
  constructor
  · rintro ⟨rfl, ⟨o, u⟩, h⟩
    refine ⟨rfl, ?_⟩
    obtain ⟨r1, h1, h2⟩ := pair_ok h
    obtain ⟨sg, neg, hs, e⟩ := optSign_ok h1
    simp only at h2
    rw [alt_two_ok] at h2
    simp only [alt] at h2
    rcases h2 with h2 | ⟨_, h2⟩
    · obtain ⟨⟨w, x⟩, h3, _⟩ := map_ok.mp h2
      obtain ⟨r2, h4, h5⟩ := pair_ok h3
      obtain ⟨rfl, h6, h7, h8⟩ := digit1_ok.mp h4
      simp only at h6 h7 e h5
      rcases opt_ok.mp h5 with ⟨⟨c, y⟩, _, h9⟩ | ⟨_, rfl, pos, k, h9⟩
      · obtain ⟨r3, h10, h11⟩ := pair_ok h9
        obtain ⟨_, rfl⟩ := char_ok.mp h10
        simp only at h11
        rcases opt_ok.mp h11 with ⟨f, _, h12⟩ | ⟨_, rfl, h12⟩
        · obtain ⟨rfl, h13, h14, h15⟩ := digit1_ok.mp h12
          refine ⟨sg, neg, w, f, hs, by simp [h13], ?_, h15, .inr ?_⟩
          · intro c hc; rcases List.mem_append.mp hc with hc | hc
            · exact h7 c hc
            · exact h14 c hc
          · apply List.append_cancel_right (bs := r); rw [e]; simp
        · refine ⟨sg, neg, w, [], hs, by simp [h6], by simpa using h7, digit1_err.mp h12, .inr ?_⟩
          apply List.append_cancel_right (bs := r); rw [e]; simp
      · refine ⟨sg, neg, w, [], hs, by simp [h6], by simpa using h7, h8, .inl ⟨?_, rfl, ?_⟩⟩
        · apply List.append_cancel_right (bs := r); rw [e]; simp
        · rintro c r' rfl rfl
          obtain ⟨r2, x, h10⟩ := Total.out (p := opt digit1) r'
          have : pair (char '.') (opt digit1) ('.' :: r') = .ok r2 ('.', x) :=
            pair_ok_iff.mpr ⟨r', char_cons _ _, h10⟩
          rw [this] at h9; cases h9
    · obtain ⟨⟨c, f⟩, h3, _⟩ := map_ok.mp h2
      obtain ⟨r2, h4, h5⟩ := pair_ok h3
      obtain ⟨_, rfl⟩ := char_ok.mp h4
      obtain ⟨rfl, h6, h7, h8⟩ := digit1_ok.mp h5
      simp only at h6 h7 e
      refine ⟨sg, neg, [], f, hs, by simp [h6], by simpa using h7, h8, .inr ?_⟩
      apply List.append_cancel_right (bs := r); rw [e]; simp
  · rintro ⟨rfl, sg, neg, w, f, hs, h1, h2, h3, h4⟩
    refine ⟨rfl, ?_⟩
    have hw : ∀ c ∈ w, AsciiDigit c := fun c hc => h2 c (by simp [hc])
    have hf : ∀ c ∈ f, AsciiDigit c := fun c hc => h2 c (by simp [hc])
    rcases h4 with ⟨rfl, rfl, h4⟩ | rfl
    · have hne : w ≠ [] := by simpa using h1
      obtain ⟨o, ho⟩ := optSign_append hs (digits_notSign (r := r) hne hw)
      rw [List.append_assoc]
      refine ⟨(o, ()), pair_ok_iff.mpr ⟨_, ho, alt_two_ok.mpr (.inl (map_ok.mpr ⟨(w, none), ?_, rfl⟩))⟩⟩
      refine pair_ok_iff.mpr ⟨r, digit1_ok.mpr ⟨rfl, hne, hw, h3⟩, opt_ok.mpr (.inr ⟨rfl, rfl, ?_⟩)⟩
      rcases Soft.cases (pair (char '.') (opt digit1)) r with ⟨r', x, h⟩ | h
      · obtain ⟨r2, h5, _⟩ := pair_ok h
        obtain ⟨_, rfl⟩ := char_ok.mp h5
        exact absurd rfl (h4 _ _ rfl)
      · exact h
    · have hsign : NotStart (fun c => c = '+' ∨ c = '-') (w ++ '.' :: (f ++ r)) := by
        cases w with
        | nil => exact notStart_cons (by decide)
        | cons c w => exact digits_notSign (by simp) hw
      obtain ⟨o, ho⟩ := optSign_append hs hsign
      simp only [List.append_assoc, List.cons_append]
      by_cases hne : w = []
      · subst hne
        have hfne : f ≠ [] := by simpa using h1
        refine ⟨(o, ()), pair_ok_iff.mpr ⟨_, ho, alt_two_ok.mpr (.inr ⟨?_, ?_⟩)⟩⟩
        · obtain ⟨pos, k, h⟩ := digit1_err (i := [] ++ '.' :: (f ++ r)).mpr (notStart_cons (by decide))
          refine ⟨pos, k, map_soft_err ?_⟩
          unfold pair; rw [h]
        · exact map_ok.mpr ⟨('.', f), pair_ok_iff.mpr ⟨f ++ r, char_cons _ _,
            digit1_ok.mpr ⟨rfl, hfne, hf, h3⟩⟩, rfl⟩
      · obtain ⟨x, hx⟩ : ∃ x, opt digit1 (f ++ r) = .ok r x := by
          by_cases hfne : f = []
          · subst hfne
            exact ⟨none, opt_ok.mpr (.inr ⟨rfl, rfl, digit1_err.mpr h3⟩)⟩
          · exact ⟨some f, opt_ok.mpr (.inl ⟨f, rfl, digit1_ok.mpr ⟨rfl, hfne, hf, h3⟩⟩)⟩
        refine ⟨(o, ()), pair_ok_iff.mpr ⟨_, ho, alt_two_ok.mpr (.inl (map_ok.mpr ⟨(w, some ('.', x)), ?_, rfl⟩))⟩⟩
        refine pair_ok_iff.mpr ⟨'.' :: (f ++ r), digit1_ok.mpr ⟨rfl, hne, hw, notStart_cons (by decide)⟩,
          opt_ok.mpr (.inl ⟨('.', x), rfl, pair_ok_iff.mpr ⟨f ++ r, char_cons _ _, hx⟩⟩)⟩

theorem takeWhile_digits {w r : Str} (hw : ∀ c ∈ w, AsciiDigit c) (hr : NotStart AsciiDigit r) :
    List.takeWhile isDecDigit (w ++ r) = w ∧ List.dropWhile isDecDigit (w ++ r) = r := by
  have h := takeWhile_ok (f := isDecDigit) (i := w ++ r) (r := r) (s := w) |>.mpr
    ⟨rfl, fun c hc => isDecDigit_iff.mpr (hw c hc), fun c r' e => by
      have := mt isDecDigit_iff.mp (hr c r' e); simpa using this⟩
  unfold takeWhile at h
  simp only [Res.ok.injEq] at h
  exact ⟨h.2, h.1⟩

theorem parseDecimal_text {sg neg w f t} (hs : SignText sg neg) (h1 : (w ++ f) ≠ [])
    (h2 : ∀ c ∈ w ++ f, AsciiDigit c) (ht : (t = w ∧ f = []) ∨ t = w ++ '.' :: f) :
    parseDecimal (sg ++ t) = some { neg := neg, mantissa := digitsVal (w ++ f), scale := f.length } := by
  have hw : ∀ c ∈ w, AsciiDigit c := fun c hc => h2 c (by simp [hc])
  have key : List.takeWhile isDecDigit t = w ∧ (List.dropWhile isDecDigit t).tail = f := by
    rcases ht with ⟨rfl, rfl⟩ | rfl
    · have := takeWhile_digits (r := []) hw notStart_nil
      rw [List.append_nil] at this
      rw [this.1, this.2]; simp
    · have := takeWhile_digits (r := '.' :: f) hw (notStart_cons (by decide))
      rw [this.1, this.2]; simp
  have hne : t ≠ [] := by
    rcases ht with ⟨rfl, rfl⟩ | rfl
    · simpa using h1
    · simp
  unfold parseDecimal
  cases hs with
  | plus => simp only [List.cons_append, List.nil_append, key.1, key.2]; rw [if_neg h1]
  | minus => simp only [List.cons_append, List.nil_append, key.1, key.2]; rw [if_neg h1]
  | none =>
    simp only [List.nil_append]
    have hsign : NotStart (fun c => c = '+' ∨ c = '-') t := by
      rcases ht with ⟨rfl, rfl⟩ | rfl
      · have := digits_notSign (r := []) hne hw; simpa using this
      · cases w with
        | nil => exact notStart_cons (by decide)
        | cons c w => exact digits_notSign (by simp) hw
    split
    · exact absurd (.inl rfl) (hsign _ _ rfl)
    · exact absurd (.inr rfl) (hsign _ _ rfl)
    · rw [if_neg (by rw [key.1, key.2]; exact h1)]
      simp [key.1, key.2]

theorem sparqlDecimal_ok {i r d} : sparqlDecimal i = .ok r d ↔ ∃ s, i = s ++ r ∧ MantText s d ∧
    NotStart AsciiDigit r ∧ ('.' ∉ s → NotStart (· = '.') r) := by
  unfold sparqlDecimal
  constructor
  · intro h
    split at h
    · cases h
    · rename_i r' s e
      obtain ⟨rfl, sg, neg, w, f, h1, h2, h3, h4, h5⟩ := floatToken_ok.mp e
      have ht : ∃ t, s = sg ++ t ∧ ((t = w ∧ f = []) ∨ t = w ++ '.' :: f) := by
        rcases h5 with ⟨rfl, rfl, _⟩ | rfl
        · exact ⟨w, rfl, .inl ⟨rfl, rfl⟩⟩
        · exact ⟨_, rfl, .inr rfl⟩
      obtain ⟨t, rfl, ht⟩ := ht
      rw [parseDecimal_text h1 h2 h3 ht] at h
      cases h
      refine ⟨_, rfl, ⟨sg, neg, w, f, h1, ?_, h2, h3, rfl, decVal_of h2 h3, rfl⟩, h4, ?_⟩
      · rcases ht with ⟨rfl, rfl⟩ | rfl
        · exact .inl ⟨rfl, rfl⟩
        · exact .inr rfl
      · intro hd
        rcases h5 with ⟨_, _, h⟩ | h5
        · exact h
        · exfalso; apply hd; rw [h5]; simp
  · rintro ⟨s, rfl, ⟨sg, neg, w, f, h1, h2, h3, h4, h5, h6, h7⟩, h8, h9⟩
    have : recognizeSparqlFloat (s ++ r) = .ok r s := by
      refine floatToken_ok.mpr ⟨rfl, sg, neg, w, f, h1, h3, h4, h8, ?_⟩
      rcases h2 with ⟨rfl, rfl⟩ | rfl
      · refine .inl ⟨rfl, rfl, h9 ?_⟩
        intro hm
        rcases List.mem_append.mp hm with hm | hm
        · cases h1 <;> simp at hm
        · exact absurd (h4 '.' (by simp [hm])) (by decide)
      · exact .inr rfl
    rw [this]
    have ht : ∃ t, s = sg ++ t ∧ ((t = w ∧ f = []) ∨ t = w ++ '.' :: f) := by
      rcases h2 with ⟨rfl, rfl⟩ | rfl
      · exact ⟨w, rfl, .inl ⟨rfl, rfl⟩⟩
      · exact ⟨_, rfl, .inr rfl⟩
    obtain ⟨t, rfl, ht⟩ := ht
    simp only
    rw [parseDecimal_text h1 h3 h4 ht]
    have := (decVal_imp h6).2.2
    cases d
    simp only at h5 h7 this
    subst h5 h7 this
    rfl

instance : Soft recognizeSparqlFloat := by unfold recognizeSparqlFloat; infer_instance
instance : Soft sparqlDecimal where
  out i e h := by
    unfold sparqlDecimal at h
    repeat' split at h
    · rename_i e2; cases h; exact Soft.out _ _ e2
    · cases h
    · cases h; exact ⟨_, _, rfl⟩

/-! ## Exponent -/

theorem eE_ok {i r c} : alt [char 'e', char 'E'] i = .ok r c ↔ (c = 'e' ∨ c = 'E') ∧ i = c :: r := by
  rw [alt_two_ok]
  simp only [alt, char_ok]
  constructor
  · rintro (⟨rfl, h⟩ | ⟨_, rfl, h⟩)
    · exact ⟨.inl rfl, h⟩
    · exact ⟨.inr rfl, h⟩
  · rintro ⟨rfl | rfl, h⟩
    · exact .inl ⟨rfl, h⟩
    · exact .inr ⟨⟨_, _, by rw [h]; exact char_err (by decide)⟩, rfl, h⟩

theorem expToken_ok {i r s} : recognize (pair optSign (cut digit1)) i = .ok r s ↔
    recognize (pair optSign digit1) i = .ok r s := by
  rw [recognize_ok_iff, recognize_ok_iff]
  simp only [pair_ok_iff, cut_ok]

theorem exponent_ok {i r v} : exponent i = .ok r v ↔
    ∃ s, i = s ++ r ∧ ExpText s v ∧ FitsI64 v ∧ NotStart AsciiDigit r := by
  unfold exponent
  rw [preceded_ok]
  constructor
  · rintro ⟨r1, c, h1, h2⟩
    obtain ⟨h3, rfl⟩ := eE_ok.mp h1
    obtain ⟨s, h4, h5⟩ := mapRes_ok.mp h2
    obtain ⟨rfl, h6, sg, neg, ds, rfl, h7, h8, h9⟩ := intToken_ok.mp (expToken_ok.mp h4)
    obtain ⟨h10, h11⟩ := (parseI64_some h7 h8 h9).mp h5
    exact ⟨c :: (sg ++ ds), rfl, ⟨c, _, rfl, h3, sg, neg, ds, _, rfl, h7, decVal_of h8 h9, h10⟩, h11, h6⟩
  · rintro ⟨s, rfl, ⟨c, t, rfl, h1, sg, neg, ds, n, rfl, h2, h3, h4⟩, h5, h6⟩
    obtain ⟨h7, h8, h9⟩ := decVal_imp h3
    refine ⟨(sg ++ ds) ++ r, c, eE_ok.mpr ⟨h1, rfl⟩, mapRes_ok.mpr ⟨sg ++ ds, expToken_ok.mpr ?_, ?_⟩⟩
    · exact intToken_ok.mpr ⟨rfl, h6, sg, neg, ds, rfl, h2, h7, h8⟩
    · exact (parseI64_some h2 h7 h8).mpr ⟨by rw [h4, h9], h5⟩

/-- Without `e`/`E` there is no exponent. -/
theorem exponent_err {i} (h : NotStart (fun c => c = 'e' ∨ c = 'E') i) :
    ∃ pos k, exponent i = .err (.error pos k) := by
  unfold exponent
  rcases Soft.cases (alt [char 'e', char 'E']) i with ⟨r, c, e⟩ | ⟨pos, k, e⟩
  · obtain ⟨h1, rfl⟩ := eE_ok.mp e
    exact absurd h1 (h c r rfl)
  · exact ⟨pos, k, preceded_err e⟩

/-! ## numeric_literal -/

theorem numericLiteral_int {i r v} : numericLiteral i = .ok r (.int v) ↔ sparqlInt i = .ok r v := by
  unfold numericLiteral
  rw [alt_two_ok]
  simp only [alt, map_ok]
  constructor
  · rintro (⟨a, h, h2⟩ | ⟨_, a, h, h2⟩)
    · cases h2; exact h
    · cases h2
  · intro h; exact .inl ⟨v, h, rfl⟩

theorem numericLiteral_double {i r d e} : numericLiteral i = .ok r (.double d e) ↔
    (∃ pos k, sparqlInt i = .err (.error pos k)) ∧ sparqlDouble i = .ok r (d, e) := by
  unfold numericLiteral
  rw [alt_two_ok]
  simp only [alt, map_ok]
  constructor
  · rintro (⟨a, h, h2⟩ | ⟨⟨pos, k, h3⟩, ⟨a1, a2⟩, h, h2⟩)
    · cases h2
    · cases h2
      refine ⟨?_, h⟩
      rcases Soft.cases sparqlInt i with ⟨r, a, e⟩ | h
      · unfold map at h3; rw [e] at h3; cases h3
      · exact h
  · rintro ⟨⟨pos, k, h1⟩, h2⟩
    exact .inr ⟨⟨pos, k, map_soft_err h1⟩, ⟨(d, e), h2, rfl⟩⟩

end NomSparql
