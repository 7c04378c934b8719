import Verif.Lemmas.Effort
import Verif.Lemmas.Quads

/-!
# Effort: where a parser does nothing

* `Dead c p i`: on `i` the parser `p` does not succeed and makes at most `c` calls.
* `KFirst p F`: `p` is dead, without any call, on an input whose first character is not in `F`.
* `At t i`: `i` begins with the word `t`, in any letter case.
* `Aft L i`: the first character of `i` after white space is in `L`.
-/

namespace NomSparql

/-! ## Numbers without their sign -/

theorem sparqlDecimal_unsigned {c : Char} {s r : Str} {d : Decimal} (hc : c = '+' ∨ c = '-') (h : sparqlDecimal (c :: s) = .ok r d) :
    (∃ d', sparqlDecimal s = .ok r d') ∧ ∃ d t, s = d :: t ∧ (d = '.' ∨ AsciiDigit d) := by
  obtain ⟨t, e, ⟨sg, neg, w, f, h1, h2, h3, h4, h5, h6, h7⟩, h8, h9⟩ := sparqlDecimal_ok.mp h
  have key : ∀ t', (t' = w ∧ f = [] ∨ t' = w ++ '.' :: f) → s = t' ++ r → ('.' ∉ t' → NotStart (· = '.') r) → (∃ d', sparqlDecimal s = .ok r d') ∧ ∃ d t, s = d :: t ∧ (d = '.' ∨ AsciiDigit d) := by
    intro t' ht hs hn
    refine ⟨⟨{ neg := false, mantissa := d.mantissa, scale := d.scale }, sparqlDecimal_ok.mpr ⟨t', hs,
      ⟨[], false, w, f, .none, ht, h3, h4, rfl, h6, h7⟩, h8, hn⟩⟩, ?_⟩
    cases w with
    | nil =>
      rcases ht with ⟨rfl, rfl⟩ | rfl
      · exact absurd rfl h3
      · exact ⟨'.', _, hs, .inl rfl⟩
    | cons d w =>
      rcases ht with ⟨rfl, rfl⟩ | rfl
      · exact ⟨d, _, hs, .inr (h4 d (by simp))⟩
      · exact ⟨d, _, hs, .inr (h4 d (by simp))⟩
  have hnd : ∀ {u : Str}, c :: s = u ++ r → (∀ d ∈ u, AsciiDigit d) → u ≠ [] → False := by
    intro u e hu hne
    cases u with
    | nil => contradiction
    | cons d u =>
      cases e
      have := hu c (by simp)
      rcases hc with rfl | rfl <;> revert this <;> decide
  cases h1 with
  | none =>
    exfalso
    rcases h2 with ⟨rfl, rfl⟩ | rfl
    · exact hnd (by simpa using e) (by simpa using h4) (by simpa using h3)
    · cases w with
      | nil => cases e; rcases hc with h | h <;> cases h
      | cons d w =>
        cases e
        have := h4 c (by simp)
        rcases hc with rfl | rfl <;> revert this <;> decide
  | plus =>
    rcases h2 with ⟨rfl, rfl⟩ | rfl
    · cases e; exact key w (.inl ⟨rfl, rfl⟩) rfl (fun h => h9 (by simpa using h))
    · cases e; exact key (w ++ '.' :: f) (.inr rfl) rfl (fun h => absurd (by simp) h)
  | minus =>
    rcases h2 with ⟨rfl, rfl⟩ | rfl
    · cases e; exact key w (.inl ⟨rfl, rfl⟩) rfl (fun h => h9 (by simpa using h))
    · cases e; exact key (w ++ '.' :: f) (.inr rfl) rfl (fun h => absurd (by simp) h)

/-- A number with a sign is a number without it, with the same rest. -/
theorem numericLiteral_unsigned {c : Char} {s r : Str} {v : NumericLiteral} (hc : c = '+' ∨ c = '-') (h : numericLiteral (c :: s) = .ok r v) :
    ∃ v', numericLiteral s = .ok r v' := by
  cases v with
  | int v =>
    obtain ⟨t, e, ⟨sg, neg, ds, n, rfl, h1, h2, h3⟩, h4, h5⟩ := sparqlInt_ok.mp (numericLiteral_int.mp h)
    have hds : ds ≠ [] ∧ ∀ d ∈ ds, AsciiDigit d := ⟨(decVal_imp h2).1, (decVal_imp h2).2.1⟩
    have hs : s = ds ++ r := by
      cases h1 with
      | none =>
        exfalso
        cases ds with
        | nil => exact hds.1 rfl
        | cons d ds =>
          cases e
          have := hds.2 c (by simp)
          rcases hc with rfl | rfl <;> revert this <;> decide
      | plus => cases e; rfl
      | minus => cases e; rfl
    have h5' := intStop_iff.mp h5
    by_cases hf : FitsI64 n
    · exact ⟨.int n, numericLiteral_int.mpr (sparqlInt_ok.mpr ⟨ds, hs, ⟨[], false, ds, n, rfl, .none, h2, rfl⟩, hf, h5⟩)⟩
    · have hd : sparqlDecimal s = .ok r { neg := false, mantissa := n, scale := 0 } := sparqlDecimal_ok.mpr ⟨ds, hs,
        ⟨[], false, ds, [], .none, .inl ⟨rfl, rfl⟩, by simpa using hds.1, by simpa using hds.2, rfl, by simpa using h2, rfl⟩, h5'.1,
        fun _ => h5'.2.mono fun c hc => .inl hc⟩
      refine ⟨.double { neg := false, mantissa := n, scale := 0 } none, numericLiteral_double.mpr ⟨?_, ?_⟩⟩
      · rcases Soft.cases sparqlInt s with ⟨r', v', e'⟩ | e'
        · exfalso
          obtain ⟨t', e2, ⟨sg', neg', ds', n', rfl, g1, g2, g3⟩, g4, g5⟩ := sparqlInt_ok.mp e'
          have hds' : ds' ≠ [] ∧ ∀ d ∈ ds', AsciiDigit d := ⟨(decVal_imp g2).1, (decVal_imp g2).2.1⟩
          have g5' := intStop_iff.mp g5
          rw [hs] at e2
          have : sg' = [] := by
            cases g1 with
            | none => rfl
            | plus =>
              exfalso
              cases ds with
              | nil => exact hds.1 rfl
              | cons d ds => injection e2 with e2; subst e2; have := hds.2 '+' (by simp); revert this; decide
            | minus =>
              exfalso
              cases ds with
              | nil => exact hds.1 rfl
              | cons d ds => injection e2 with e2; subst e2; have := hds.2 '-' (by simp); revert this; decide
          subst this
          cases g1
          have := (takeWhile_digits hds.2 h5'.1).1
          rw [e2, List.nil_append, (takeWhile_digits hds'.2 g5'.1).1] at this
          subst this
          rw [(decVal_imp h2).2.2, ← (decVal_imp g2).2.2] at hf
          simp only [Bool.false_eq_true, if_false] at g3
          exact hf (g3 ▸ g4)
        · exact e'
      · unfold sparqlDouble
        exact pair_ok_iff.mpr ⟨r, hd, (opt_ok.mpr (.inr ⟨rfl, rfl, exponent_err (h5'.2.mono fun c hc => .inr hc)⟩))⟩
  | double d ex =>
    obtain ⟨⟨pos, k, e1⟩, e2⟩ := numericLiteral_double.mp h
    unfold sparqlDouble at e2
    obtain ⟨r1, e3, e4⟩ := pair_ok_iff.mp e2
    obtain ⟨⟨d', e5⟩, d₀, t₀, rfl, hd₀⟩ := sparqlDecimal_unsigned hc e3
    refine ⟨.double d' ex, numericLiteral_double.mpr ⟨?_, ?_⟩⟩
    · rcases Soft.cases sparqlInt (d₀ :: t₀) with ⟨r', v', e'⟩ | e'
      · exfalso
        obtain ⟨t', e6, ⟨sg, neg, ds, n, rfl, g1, g2, g3⟩, g4, g5⟩ := sparqlInt_ok.mp e'
        have : sg = [] ∧ neg = false := by
          cases g1 with
          | none => exact ⟨rfl, rfl⟩
          | plus => cases e6; rcases hd₀ with h | h <;> revert h <;> decide
          | minus => cases e6; rcases hd₀ with h | h <;> revert h <;> decide
        obtain ⟨rfl, rfl⟩ := this
        simp only [Bool.false_eq_true, if_false] at g3
        have hpow : (2 : Int) ^ 63 = 9223372036854775808 := by decide
        have hn : 0 ≤ (n : Int) := Int.natCast_nonneg n
        have h0 : ∃ (sg : Str) (v : Int), c :: (d₀ :: t₀) = (sg ++ ds) ++ r' ∧ IntText (sg ++ ds) v ∧ FitsI64 v := by
          subst g3
          unfold FitsI64 at g4
          rw [e6]
          rcases hc with rfl | rfl
          · exact ⟨['+'], n, rfl, ⟨_, false, ds, n, rfl, .plus, g2, rfl⟩, by unfold FitsI64; omega⟩
          · exact ⟨['-'], -n, rfl, ⟨_, true, ds, n, rfl, .minus, g2, rfl⟩, by unfold FitsI64; omega⟩
        obtain ⟨sg, v, g6, g7, g8⟩ := h0
        have := sparqlInt_ok.mpr ⟨_, g6, g7, g8, g5⟩
        rw [e1] at this
        cases this
      · exact e'
    · unfold sparqlDouble
      exact pair_ok_iff.mpr ⟨r1, e5, e4⟩

/-! ## Names and keywords -/

theorem iri_fails_name {k r : Str} (h : PrefixName PnB PnC k) (hr : Follow r) : Fails iri (k ++ r) := by
  have hp : Fails pnameNs (k ++ r) := by
    unfold pnameNs
    refine Fails.terminated2 (opt_eval (pnPrefix_append h (hr.notStart fun d hd => (not_coded hd).2.2.1) (hr.notStart fun d hd => (not_coded hd).2.2.2.1))) ?_
    rcases Soft.cases (preceded sp (char ':')) r with ⟨r', a, e⟩ | e
    · exfalso
      simp only [preceded_ok, sp_ok_iff, char_ok] at e
      obtain ⟨r1, w, ⟨rfl, hw, _⟩, rfl, rfl⟩ := e
      exact hr.2 _ _ rfl hw
    · exact e
  obtain ⟨c, t, rfl, hc, _⟩ := h
  unfold iri
  refine Fails.alt_cons (Fails.map (First.cons ?_)) (Fails.map ?_)
  · have : c ≠ '<' := by rintro rfl; cases hc
    simp [this]
  · unfold prefixedName
    refine Fails.alt_cons (Fails.map ?_) (Fails.map hp)
    unfold pnameLn
    exact Fails.pair hp

theorem kw_prefixName {x : Char} {t k : Str} (hk : CaseVariant (x :: t) k) (hx : AsciiLetter x) (ht : ∀ c ∈ x :: t, KwLetter c) : PrefixName PnB PnC k := by
  have hw := caseVariant_wordC hk ht
  cases hk with
  | @cons _ y _ k h1 h2 =>
    have hd : ∀ d ∈ k, PnC d := by
      intro d hd
      obtain ⟨h3 | rfl | h3 | h3, h4⟩ := hw d (by simp [hd])
      · exact pnB_pnC (letter_base h3)
      · show isPnChar '_' = true; decide
      · have h5 : d.toNat < 128 := by unfold AsciiDigit at h3; omega
        have : ∀ n < 128, (0x30 ≤ n ∧ n ≤ 0x39) → isPnChar (Char.ofNat n) = true := by decide
        have := this d.toNat h5 h3
        rwa [Char.ofNat_toNat] at this
      · exact absurd h3 h4
    refine ⟨y, k, rfl, letter_base (sameLetter_letter h1 hx), fun d h => .inl (hd d h), ?_⟩
    rcases List.eq_nil_or_concat k with rfl | ⟨t', d, rfl⟩
    · exact .inl (by simp)
    · exact .inr ⟨t', d, by simp, hd d (by simp)⟩

/-- The text begins with the word `t`, in any letter case. -/
def At (t i : Str) : Prop := ∃ k r, i = k ++ r ∧ CaseVariant t k ∧ NotStart WordC r

theorem At.inj {t u i : Str} (h : At t i) (h' : At u i) (ht : ∀ c ∈ t, KwLetter c) (hu : ∀ c ∈ u, KwLetter c) : t = u := by
  obtain ⟨k, r, rfl, hk, hr⟩ := h
  obtain ⟨k', r', e, hk', hr'⟩ := h'
  have h1 := fun c hc => (caseVariant_wordC hk ht c hc).1
  have h2 := fun c hc => (caseVariant_wordC hk' hu c hc).1
  have : k = k' := by
    cases r with
    | nil =>
      cases r' with
      | nil => simpa using e
      | cons c x => exact (split_unique (hr' c x rfl) h2 h1 (fun _ _ e => by cases e) e.symm).symm
    | cons c x => exact split_unique (hr c x rfl) h1 h2 hr' e
  subst this
  exact caseVariant_inj hk ht hk' hu

/-- The first character of a word. -/
theorem At.head {x : Char} {t i : Str} (h : At (x :: t) i) : ∃ y s, i = y :: s ∧ (y = x ∨ y = upperOf x) := by
  obtain ⟨k, r, rfl, hk, hr⟩ := h
  obtain ⟨y, k', rfl, hs, _⟩ := CaseVariant.cons_iff.mp hk
  exact ⟨y, _, rfl, sameLetter_cases hs⟩

theorem At.first {p : P α} {F} [First p F] {x : Char} {t i : Str} (h : At (x :: t) i) (hF : (F x || F (upperOf x)) = false) : Fails p i := by
  obtain ⟨k, r, rfl, hk, _⟩ := h
  exact kw_first hk hF

theorem At.fails {t u i : Str} (hk : At u i) (h : t.all (fun c => decide (KwLetter c)) = true ∧ u.all (fun c => decide (KwLetter c)) = true ∧ clash t u = true) :
    Fails (tagNoCase t) i := by
  obtain ⟨k, r, rfl, hk, _⟩ := hk
  exact kw_fails hk h

/-! ## The first character after white space -/

def Aft (L : List Char) (i : Str) : Prop := ∃ w c s, i = w ++ c :: s ∧ Ws w ∧ c ∈ L ∧ wsStart c = false
def Hd (L : List Char) (i : Str) : Prop := ∃ c s, i = c :: s ∧ c ∈ L

theorem Aft.mono {L L' : List Char} {i : Str} (h : Aft L i) (hL : ∀ c ∈ L, c ∈ L') : Aft L' i := by
  obtain ⟨w, c, s, rfl, hw, hc, hs⟩ := h
  exact ⟨w, c, s, rfl, hw, hL c hc, hs⟩

theorem Hd.aft {L : List Char} {i : Str} (h : Hd L i) (hL : ∀ c ∈ L, wsStart c = false) : Aft L i := by
  obtain ⟨c, s, rfl, hc⟩ := h
  exact ⟨[], c, s, rfl, .nil, hc, hL c hc⟩

theorem Aft.skip {L : List Char} {i : Str} (h : Aft L i) : ∃ r w, NomSparql.sp i = .ok r w ∧ Hd L r ∧ i = w ++ r ∧ Ws w ∧ ¬ StartsWs r := by
  obtain ⟨w, c, s, rfl, hw, hc, hs⟩ := h
  have := not_startsWs_cons (c := c) (r := s) hs
  exact ⟨_, w, sp_eval hw this, ⟨c, s, rfl, hc⟩, rfl, hw, this⟩

theorem Aft.of_sp {L : List Char} {i r w : Str} (h : NomSparql.sp i = .ok r w) (hr : Hd L r) (hL : ∀ c ∈ L, wsStart c = false) : Aft L i := by
  obtain ⟨rfl, hw, _⟩ := sp_ok_iff.mp h
  obtain ⟨c, s, rfl, hc⟩ := hr
  exact ⟨w, c, s, rfl, hw, hc, hL c hc⟩

theorem Hd.fails {p : P α} {F : Char → Bool} [First p F] {L : List Char} {i : Str} (h : Hd L i) (hL : ∀ c ∈ L, F c = false) : Fails p i := by
  obtain ⟨c, s, rfl, hc⟩ := h
  exact First.cons (hL c hc)

/-- A parser that starts neither with white space nor with a character of `L`. -/
theorem Aft.fails {p : P α} {F : Char → Bool} [First p F] {L : List Char} {i : Str} (h : Aft L i) (hL : ∀ c ∈ L ++ [' ', '\t', '\r', '\n', '#'], F c = false) : Fails p i := by
  obtain ⟨w, c, s, rfl, hw, hc, hs⟩ := h
  cases w with
  | nil => exact First.cons (hL c (by simp [hc]))
  | cons d w =>
    refine First.cons (hL d ?_)
    have := ws_first hw _ _ rfl
    rcases wsStart_iff.mp this with rfl | rfl | rfl | rfl | rfl <;> simp

namespace Cost

/-! ## Dead parsers -/

def Dead (c : Nat) (p : K α) (i : Input) : Prop := (p i).2 ≤ c ∧ ∀ r a, (p i).1 ≠ .ok r a

section
variable {c : Nat} {p : K α} {q : K β} {s : K γ} {i : Input} {F G : Char → Bool}

theorem Dead.mono {c' : Nat} (h : Dead c p i) (hc : c ≤ c') : Dead c' p i := ⟨Nat.le_trans h.1 hc, h.2⟩
theorem Dead.map {f : α → β} (h : Dead c p i) : Dead c (map p f) i := ⟨h.1, fun _ _ e => by obtain ⟨x, e⟩ := map_ok e; exact h.2 _ _ e⟩
theorem Dead.pair (h : Dead c p i) : Dead c (pair p q) i := by
  refine ⟨?_, fun r a e => ?_⟩
  · have := pair_bound (p := p) (q := q) (b := 0) h.1 fun _ _ e => absurd e (h.2 _ _)
    omega
  · obtain ⟨r₁, x, y, e1, _⟩ := pair_ok e
    exact h.2 _ _ e1
theorem Dead.pairf (h0 : (p i).2 = 0) (h : ∀ r a, (p i).1 = .ok r a → Dead c q r) : Dead c (Cost.pair p q) i := by
  refine ⟨?_, fun r a e => ?_⟩
  · have := pair_bound (p := p) (q := q) (i := i) (a := 0) (b := c) (Nat.le_of_eq h0) fun r a e => (h r a e).1
    omega
  · obtain ⟨r₁, x, y, e1, e2, _⟩ := pair_ok e
    exact (h _ _ e1).2 _ _ e2
theorem Dead.pair2 {p : P α} (h : ∀ r a, p i = .ok r a → Dead c q r) : Dead c (Cost.pair (lift p) q) i := by
  refine ⟨?_, fun r a e => ?_⟩
  · have := pair_bound (p := lift p) (q := q) (i := i) (a := 0) (b := c) (Nat.le_refl _) fun r a e => (h r a e).1
    omega
  · obtain ⟨r₁, x, y, e1, e2, _⟩ := pair_ok e
    exact (h _ _ e1).2 _ _ e2
theorem Dead.lift {p : P α} (h : Fails p i) : Dead 0 (lift p) i := ⟨Nat.le_refl _, fun r a e => by
  obtain ⟨x, y, e'⟩ := h
  have e : p i = .ok r a := e
  rw [e] at e'; cases e'⟩
theorem Dead.alt {p p₂ : K α} {ps : List (K α)} {c' : Nat} (h : Dead c p i) (h' : Dead c' (alt (p₂ :: ps)) i) : Dead (c + c') (Cost.alt (p :: p₂ :: ps)) i := by
  have h1 := h.1
  have h2 := h'.1
  rcases alt_cases (p := p) (p₂ := p₂) (ps := ps) i with ⟨_, h3, h4⟩ | ⟨_, h3, h4⟩
  · exact ⟨by omega, fun r a e => h'.2 r a (h3 ▸ e)⟩
  · exact ⟨by omega, fun r a e => h.2 r a (h3 ▸ e)⟩
theorem Dead.sep1 {sep : K γ} (h : Dead c p i) : Dead c (separatedNonemptyList sep p) i := by
  have h1 := h.1
  constructor
  · show listCost sep p i ≤ c
    unfold listCost
    split
    · omega
    · rename_i e; exact absurd e (h.2 _ _)
  · intro r a e
    have e : NomSparql.separatedNonemptyList (erase sep) (erase p) i = .ok r a := e
    unfold NomSparql.separatedNonemptyList at e
    rw [show erase p i = (p i).1 from rfl] at e
    split at e
    · cases e
    · rename_i e'; exact absurd e' (h.2 _ _)
theorem Dead.many1 (h : Dead c p i) : Dead c (many1 p) i := by
  have h1 := h.1
  constructor
  · show (p i).2 + _ ≤ c
    split
    · rename_i e; exact absurd e (h.2 _ _)
    · omega
  · intro r a e
    have e : NomSparql.many1 (erase p) i = .ok r a := e
    unfold NomSparql.many1 at e
    rw [show erase p i = (p i).1 from rfl] at e
    split at e
    · cases e
    · rename_i e'; exact absurd e' (h.2 _ _)
theorem Dead.idle {D D' : Input → Prop} (h : ∀ i, D i → Dead c p i) : Idle c D D' p := ⟨fun hd => (h _ hd).1, fun hd e => absurd e ((h _ hd).2 _ _)⟩

class KFirst (p : K α) (F : outParam (Char → Bool)) : Prop where
  out : ∀ i, NoHead F i → Dead 0 p i

theorem KFirst.cons [h : KFirst p F] {x : Char} {t : Input} (hx : F x = false) : Dead 0 p (x :: t) := h.out _ (noHead_cons hx)
theorem KFirst.hd [h : KFirst p F] {L : List Char} (hi : Hd L i) (hL : ∀ c ∈ L, F c = false) : Dead 0 p i := by
  obtain ⟨c, s, rfl, hc⟩ := hi
  exact KFirst.cons (hL c hc)
theorem KFirst.aft [h : KFirst p F] {L : List Char} (hi : Aft L i) (hL : ∀ c ∈ L ++ [' ', '\t', '\r', '\n', '#'], F c = false) : Dead 0 p i := by
  obtain ⟨w, c, s, rfl, hw, hc, hs⟩ := hi
  cases w with
  | nil => exact KFirst.cons (hL c (by simp [hc]))
  | cons d w =>
    refine KFirst.cons (hL d ?_)
    have := ws_first hw _ _ rfl
    rcases wsStart_iff.mp this with rfl | rfl | rfl | rfl | rfl <;> simp

instance (priority := low) {p : P α} [h : First p F] : KFirst (lift p) F := ⟨fun i hi => Dead.lift (h.out i hi)⟩
instance {f : α → β} [h : KFirst p F] : KFirst (map p f) F := ⟨fun i hi => (h.out i hi).map⟩
instance [h : KFirst p F] : KFirst (pair p q) F := ⟨fun i hi => (h.out i hi).pair⟩
instance [h' : KFirst q G] : KFirst (pair sp q) (fun c => wsStart c || G c) where
  out i hi := Dead.pair2 fun r a e => by
    rw [sp_noHead (noHead_or hi).1] at e
    cases e
    exact h'.out i (noHead_or hi).2
instance [h : KFirst (pair p q) F] : KFirst (preceded p q) F := ⟨fun i hi => (h.out i hi).map⟩
instance [h : KFirst (pair p q) F] : KFirst (terminated p q) F := ⟨fun i hi => (h.out i hi).map⟩
instance [h : KFirst (preceded p (terminated q s)) F] : KFirst (delimited p q s) F := h
instance [h : KFirst (pair p (preceded s q)) F] : KFirst (separatedPair p s q) F := h
instance [h : KFirst (pair p (pair q s)) F] : KFirst (tuple3 p q s) F := h
instance {t : K δ} [h : KFirst (pair p (tuple3 q s t)) F] : KFirst (tuple4 p q s t) F := h
instance [h : KFirst p F] : KFirst (separatedNonemptyList s p) F := ⟨fun i hi => (h.out i hi).sep1⟩
instance [h : KFirst p F] : KFirst (many1 p) F := ⟨fun i hi => (h.out i hi).many1⟩
instance [h : KFirst p F] : KFirst (alt [p]) F := ⟨fun i hi => h.out i hi⟩
instance {p' : K α} {ps} [h : KFirst p F] [h' : KFirst (alt (p' :: ps)) G] : KFirst (alt (p :: p' :: ps)) (fun c => F c || G c) where
  out i hi := (h.out i (noHead_or hi).1).alt (h'.out i (noHead_or hi).2)
instance [h : KFirst (delimited (char '(') p (char ')')) F] : KFirst (bracketted p) F := h
instance {t} [h : KFirst (preceded (terminated (tagNoCase t) sp1) p) F] : KFirst (precededTag1 t p) F := h
instance {t} [h : KFirst (preceded (terminated (tagNoCase t) sp) p) F] : KFirst (precededTag t p) F := h
instance {t} [h : KFirst (precededTag t (bracketted p)) F] : KFirst (precededBracketted t p) F := h
instance [h : KFirst (delimited sp p sp) F] : KFirst (spEnc p) F := h
instance {c : Char} : KFirst (char c) (· == c) := inferInstanceAs (KFirst (Cost.lift (NomSparql.char c)) _)
instance {c : Char} {t} : KFirst (tag (c :: t)) (· == c) := inferInstanceAs (KFirst (Cost.lift (NomSparql.tag (c :: t))) _)
instance {c : Char} {t} : KFirst (tagNoCase (c :: t)) (fun d => lower d == lower c) := inferInstanceAs (KFirst (Cost.lift (NomSparql.tagNoCase (c :: t))) _)

/-! Keywords. -/

/-- If the keyword is not there, the parser is dead. -/
theorem Dead.kw {t : Str} [KwTag t] {p : P α} (hp : ∀ r a, p i = .ok r a → ∃ k, i = k ++ r ∧ CaseVariant t k)
    (h : ∀ k r, i = k ++ r → CaseVariant t k → Dead c q r) : Dead c (Cost.pair (Cost.lift p) q) i := .pair2 fun r a e => by
  obtain ⟨k, e, hk⟩ := hp r a e
  exact h k r e hk

theorem Dead.tag1 {t : Str} [KwTag t] (h : ∀ k w x, i = k ++ (w ++ x) → CaseVariant t k → Ws1 w → ¬ StartsWs x → Dead c p x) : Dead c (precededTag1 t p) i := by
  have e0 : ∀ i, (terminated (tagNoCase t) sp1 i).2 = 0 := fun i => Nat.le_zero.mp (pair_bound (p := tagNoCase t) (q := sp1) (i := i) (a := 0) (b := 0) (Nat.le_refl _) fun _ _ _ => Nat.le_refl _)
  refine Dead.map (.pairf (e0 i) fun r a e => ?_)
  obtain ⟨x, e⟩ := map_ok e
  obtain ⟨r', k, w, e1, e2, _⟩ := pair_ok e
  obtain ⟨rfl, hk⟩ := tagNoCase_ok_iff.mp e1
  obtain ⟨rfl, hw, hn⟩ := sp1_ok_iff.mp e2
  exact h _ _ _ rfl hk hw hn

theorem Dead.tag0 {t : Str} [KwTag t] (h : ∀ k w x, i = k ++ (w ++ x) → CaseVariant t k → Ws w → ¬ StartsWs x → Dead c p x) : Dead c (precededTag t p) i := by
  have e0 : ∀ i, (terminated (tagNoCase t) sp i).2 = 0 := fun i => Nat.le_zero.mp (pair_bound (p := tagNoCase t) (q := sp) (i := i) (a := 0) (b := 0) (Nat.le_refl _) fun _ _ _ => Nat.le_refl _)
  refine Dead.map (.pairf (e0 i) fun r a e => ?_)
  obtain ⟨x, e⟩ := map_ok e
  obtain ⟨r', k, w, e1, e2, _⟩ := pair_ok e
  obtain ⟨rfl, hk⟩ := tagNoCase_ok_iff.mp e1
  obtain ⟨rfl, hw, hn⟩ := sp_ok_iff.mp e2
  exact h _ _ _ rfl hk hw hn

theorem ws_notWord {w x : Str} (hw : Ws1 w) : NotStart WordC (w ++ x) := by
  obtain ⟨hw, hne⟩ := hw
  cases w with
  | nil => contradiction
  | cons d w =>
    intro c r e
    cases e
    exact kDelim_not_wordC (.inl (ws_first hw _ _ rfl))

/-- A keyword before white space. -/
theorem Dead.word1 {t : Str} [KwTag t] (h : ¬ At t i) : Dead 0 (precededTag1 t p) i := .tag1 fun k w x e hk hw _ =>
  absurd ⟨k, w ++ x, e, hk, ws_notWord hw⟩ h

/-- A keyword before a parenthesis. -/
theorem Dead.wordB {t : Str} [KwTag t] (h : ¬ At t i) : Dead 0 (precededBracketted t p) i := by
  unfold precededBracketted
  refine .tag0 fun k w x e hk hw _ => ?_
  cases x with
  | nil => exact .map (.pair (.lift ⟨_, _, rfl⟩))
  | cons d x =>
    by_cases hd : d = '('
    · subst hd
      exact absurd ⟨k, w ++ '(' :: x, e, hk, paren_notWord hw x⟩ h
    · exact KFirst.cons (by simpa using hd)

/-- A keyword, and then neither a colon nor a further character of a name. -/
def Call (t i : Str) : Prop := ∃ k r, i = k ++ r ∧ CaseVariant t k ∧ Follow r

theorem Dead.callB {t : Str} [KwTag t] (h : ¬ Call t i) : Dead 0 (precededBracketted t p) i := by
  unfold precededBracketted
  refine .tag0 fun k w x e hk hw _ => ?_
  cases x with
  | nil => exact .map (.pair (.lift ⟨_, _, rfl⟩))
  | cons d x =>
    by_cases hd : d = '('
    · exact absurd ⟨k, _, e, hk, Follow.ws_close hw (by simp [hd])⟩ h
    · exact KFirst.cons (by simpa using hd)

theorem Dead.call1 {t : Str} [KwTag t] [h' : KFirst p F] (h : ¬ Call t i) (hF : ∀ d, F d = true → d ∈ ['{', '(']) : Dead 0 (precededTag1 t p) i := by
  refine .tag1 fun k w x e hk hw _ => h'.out x fun d s e' => ?_
  subst e'
  cases hd : F d with
  | false => rfl
  | true =>
    have := hF d hd
    exact absurd ⟨k, _, e, hk, Follow.ws_close hw.1 (by simp at this; rcases this with rfl | rfl <;> simp)⟩ h

theorem Call.at {t : Str} (h : Call t i) : At t i := by
  obtain ⟨k, r, rfl, hk, hr⟩ := h
  exact ⟨k, r, rfl, hk, hr.notWord⟩

theorem Call.iri {x : Char} {t : Str} (h : Call (x :: t) i) (hx : AsciiLetter x) (ht : ∀ c ∈ x :: t, KwLetter c) : Fails NomSparql.iri i := by
  obtain ⟨k, r, rfl, hk, hr⟩ := h
  exact iri_fails_name (kw_prefixName hk hx ht) hr
end

end Cost

end NomSparql
