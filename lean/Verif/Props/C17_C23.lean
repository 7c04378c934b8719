import Verif.Lemmas.Kw
import Verif.Props.C11_C16

/-!
# C17 – C23: numbers, booleans, blank nodes, character classes, helper methods
-/

namespace NomSparql

set_option maxRecDepth 8000

/-! ## C17 -/

/-- An integer literal is returned exactly for the signed digit strings whose value fits an i64 and which are
not followed by a digit, `.` or an exponent letter; the value is the decimal value of the text. -/
theorem C17_exact (i r : Str) (v : Int) : numericLiteral i = .ok r (.int v) ↔
    ∃ s, i = s ++ r ∧ IntText s v ∧ FitsI64 v ∧ IntStop r := by
  rw [numericLiteral_int, sparqlInt_ok]

theorem sign_split {sg sg' : Str} {neg neg' : Bool} {t t' : Str} (h : SignText sg neg) (h' : SignText sg' neg')
    (ht : NotStart (fun c => c = '+' ∨ c = '-') t) (ht' : NotStart (fun c => c = '+' ∨ c = '-') t')
    (e : sg ++ t = sg' ++ t') : sg = sg' ∧ neg = neg' ∧ t = t' := by
  cases h <;> cases h' <;> simp only [List.nil_append, List.cons_append, List.cons.injEq, true_and] at e
  · exact ⟨rfl, rfl, e⟩
  · exact absurd (.inl rfl) (ht _ _ e)
  · exact absurd (.inr rfl) (ht _ _ e)
  · exact absurd (.inl rfl) (ht' _ _ e.symm)
  · exact ⟨rfl, rfl, e⟩
  · exact absurd e.1 (by decide)
  · exact absurd (.inr rfl) (ht' _ _ e.symm)
  · exact absurd e.1 (by decide)
  · exact ⟨rfl, rfl, e⟩

theorem run_split {f : Char → Prop} {a a' r r' : Str} (ha : ∀ c ∈ a, f c) (ha' : ∀ c ∈ a', f c)
    (hr : NotStart f r) (hr' : NotStart f r') (e : a ++ r = a' ++ r') : a = a' ∧ r = r' := by
  induction a generalizing a' with
  | nil =>
    cases a' with
    | nil => exact ⟨rfl, e⟩
    | cons c a' => exact absurd (ha' c (by simp)) (hr c _ e)
  | cons c a ih =>
    cases a' with
    | nil => exact absurd (ha c (by simp)) (hr' c _ e.symm)
    | cons c' a' =>
      simp only [List.cons_append, List.cons.injEq] at e
      obtain ⟨h1, h2⟩ := ih (fun c h => ha c (by simp [h])) (fun c h => ha' c (by simp [h])) e.2
      exact ⟨by rw [e.1, h1], h2⟩

/-- The text of an integer is determined by the input. -/
theorem IntText.split {s s' r r' : Str} {v v' : Int} (h : IntText s v) (h' : IntText s' v')
    (hr : NotStart AsciiDigit r) (hr' : NotStart AsciiDigit r') (e : s ++ r = s' ++ r') :
    s = s' ∧ v = v' ∧ r = r' := by
  obtain ⟨sg, neg, ds, n, rfl, h1, h2, rfl⟩ := h
  obtain ⟨sg', neg', ds', n', rfl, h1', h2', rfl⟩ := h'
  obtain ⟨a1, a2, a3⟩ := decVal_imp h2
  obtain ⟨b1, b2, b3⟩ := decVal_imp h2'
  rw [List.append_assoc, List.append_assoc] at e
  obtain ⟨rfl, rfl, e⟩ := sign_split h1 h1' (digits_notSign a1 a2) (digits_notSign b1 b2) e
  obtain ⟨rfl, rfl⟩ := run_split a2 b2 hr hr' e
  subst a3 b3
  exact ⟨rfl, rfl, rfl⟩

/-- Every integer that fits is accepted with its exact value. -/
theorem C17_roundtrip (s r : Str) (v : Int) (h : IntText s v) (hf : FitsI64 v) (hr : IntStop r) :
    numericLiteral (s ++ r) = .ok r (.int v) := (C17_exact _ _ _).mpr ⟨s, rfl, h, hf, hr⟩

/-- The value returned never differs from the value written. -/
theorem C17_value (s r r' : Str) (v v' : Int) (h : IntText s v) (hr : NotStart AsciiDigit r)
    (e : numericLiteral (s ++ r) = .ok r' (.int v')) : v' = v ∧ r' = r := by
  obtain ⟨s', e, h1, _, h3⟩ := (C17_exact _ _ _).mp e
  obtain ⟨_, h4, h5⟩ := h.split h1 hr (intStop_iff.mp h3).1 e
  exact ⟨h4.symm, h5.symm⟩

theorem intText_mant {s v} (h : IntText s v) :
    ∃ d : Decimal, MantText s d ∧ d.scale = 0 ∧ v = (if d.neg then -(d.mantissa : Int) else d.mantissa) ∧
      '.' ∉ s := by
  obtain ⟨sg, neg, ds, n, rfl, h1, h2, rfl⟩ := h
  obtain ⟨a1, a2, a3⟩ := decVal_imp h2
  refine ⟨{ neg := neg, mantissa := n, scale := 0 }, ⟨sg, neg, ds, [], h1, .inl ⟨rfl, rfl⟩, by simpa using a1,
    by simpa using a2, rfl, by simpa using h2, rfl⟩, rfl, rfl, ?_⟩
  intro hm
  rcases List.mem_append.mp hm with hm | hm
  · cases h1 <;> simp at hm
  · exact absurd (a2 '.' hm) (by decide)

/-- Violation: every integer outside the i64 range silently becomes a double. -/
theorem C17_overflow_violated (s r : Str) (v : Int) (h : IntText s v) (hf : ¬ FitsI64 v) (hr : IntStop r) :
    ∃ d : Decimal, numericLiteral (s ++ r) = .ok r (.double d none) ∧ MantText s d := by
  obtain ⟨d, h1, h2, h3, h4⟩ := intText_mant h
  obtain ⟨hr1, hr2⟩ := intStop_iff.mp hr
  refine ⟨d, numericLiteral_double.mpr ⟨?_, ?_⟩, h1⟩
  · rcases Soft.cases sparqlInt (s ++ r) with ⟨r', v', e⟩ | e
    · exfalso
      obtain ⟨s', e, h5, h6, h7⟩ := sparqlInt_ok.mp e
      obtain ⟨_, rfl, _⟩ := h.split h5 hr1 (intStop_iff.mp h7).1 e
      exact hf h6
    · exact e
  · exact pair_ok_iff.mpr ⟨r, sparqlDecimal_ok.mpr ⟨s, rfl, h1, hr1, fun _ => hr2.mono fun c hc => .inl hc⟩,
      opt_ok.mpr (.inr ⟨rfl, rfl, exponent_err (hr2.mono fun c hc => .inr hc)⟩)⟩

example : numericLiteral c!"-0042 ;" = .ok c!" ;" (.int (-42)) := rfl
example : numericLiteral c!"9223372036854775807" = .ok [] (.int 9223372036854775807) := rfl
example : numericLiteral c!"9223372036854775808" =
    .ok [] (.double { neg := false, mantissa := 9223372036854775808, scale := 0 } none) := rfl

/-! ## C18 -/

/-- What stands after the digits of a mantissa that is not an integer text: a point or an exponent letter. -/
def StartsDotE (t : Str) : Prop := ∃ c t', t = c :: t' ∧ (c = '.' ∨ c = 'e' ∨ c = 'E')

/-- A number with a point or an exponent is never returned as an integer. -/
theorem C18_never_int (m r r' : Str) (d : Decimal) (v : Int) (h : MantText m d)
    (hm : '.' ∈ m ∨ StartsDotE r) : numericLiteral (m ++ r) ≠ .ok r' (.int v) := by
  intro e
  obtain ⟨s', e, ⟨sg', neg', ds', n', rfl, h1', h2', _⟩, _, h3⟩ := (C17_exact _ _ _).mp e
  obtain ⟨b1, b2, _⟩ := decVal_imp h2'
  obtain ⟨sg, neg, w, f, h1, h2, h3', h4, _⟩ := h
  obtain ⟨hr1, hr2⟩ := intStop_iff.mp h3
  -- the text after the sign and the whole part
  have : ∃ t, m ++ r = sg ++ (w ++ t) ∧ StartsDotE t := by
    rcases h2 with ⟨rfl, rfl⟩ | rfl
    · refine ⟨r, by simp, hm.resolve_left ?_⟩
      intro hm
      rcases List.mem_append.mp hm with hm | hm
      · cases h1 <;> simp at hm
      · exact absurd (h4 '.' (by simp [hm])) (by decide)
    · exact ⟨'.' :: (f ++ r), by simp, '.', _, rfl, .inl rfl⟩
  obtain ⟨t, e2, c, t', rfl, hc⟩ := this
  rw [e2, List.append_assoc] at e
  have hcd : ¬ AsciiDigit c := by rcases hc with rfl | rfl | rfl <;> decide
  have hs : NotStart (fun c => c = '+' ∨ c = '-') (w ++ c :: t') := by
    cases w with
    | nil => apply notStart_cons; rcases hc with rfl | rfl | rfl <;> decide
    | cons x w =>
      apply notStart_cons
      have := h4 x (by simp)
      rintro (rfl | rfl) <;> exact absurd this (by decide)
  obtain ⟨rfl, _, e⟩ := sign_split h1 h1' hs (digits_notSign b1 b2) e
  obtain ⟨rfl, rfl⟩ := run_split (fun c hc => h4 c (by simp [hc])) b2 (notStart_cons hcd) hr1 e
  exact hr2 _ _ rfl hc

theorem sparqlInt_soft_err {m r d} (h : MantText m d) (hm : '.' ∈ m ∨ StartsDotE r) :
    ∃ pos k, sparqlInt (m ++ r) = .err (.error pos k) := by
  rcases Soft.cases sparqlInt (m ++ r) with ⟨r', v', e⟩ | e
  · exact absurd (numericLiteral_int.mpr e) (C18_never_int m r r' d v' h hm)
  · exact e

/-- A decimal is returned with exactly its digits and scale. -/
theorem C18_decimal (m r : Str) (d : Decimal) (h : MantText m d) (hp : '.' ∈ m) (hr : NotStart AsciiDigit r)
    (hr' : NotStart (fun c => c = 'e' ∨ c = 'E') r) :
    numericLiteral (m ++ r) = .ok r (.double d none) :=
  numericLiteral_double.mpr ⟨sparqlInt_soft_err h (.inl hp), pair_ok_iff.mpr ⟨r,
    sparqlDecimal_ok.mpr ⟨m, rfl, h, hr, fun hn => absurd hp hn⟩,
    opt_ok.mpr (.inr ⟨rfl, rfl, exponent_err hr'⟩)⟩⟩

theorem expText_head {x v} (h : ExpText x v) : ∃ c t, x = c :: t ∧ (c = 'e' ∨ c = 'E') := by
  obtain ⟨c, t, rfl, hc, _⟩ := h; exact ⟨c, t, rfl, hc⟩

theorem eE_stop {c : Char} {t : Str} (hc : c = 'e' ∨ c = 'E') :
    StartsDotE (c :: t) ∧ NotStart AsciiDigit (c :: t) ∧ NotStart (· = '.') (c :: t) :=
  ⟨⟨c, t, rfl, .inr hc⟩, notStart_cons (by rcases hc with rfl | rfl <;> decide),
    notStart_cons (by rcases hc with rfl | rfl <;> decide)⟩

/-- A double is returned with exactly its mantissa and exponent, for every exponent that fits an i64. -/
theorem C18_double_partial (m x r : Str) (d : Decimal) (v : Int) (h : MantText m d) (hx : ExpText x v)
    (hf : FitsI64 v) (hr : NotStart AsciiDigit r) :
    numericLiteral (m ++ (x ++ r)) = .ok r (.double d (some v)) := by
  obtain ⟨c, t, rfl, hc⟩ := expText_head hx
  obtain ⟨h1, h2, h3⟩ := eE_stop (t := t ++ r) hc
  exact numericLiteral_double.mpr ⟨sparqlInt_soft_err h (.inr h1), pair_ok_iff.mpr ⟨_,
    sparqlDecimal_ok.mpr ⟨m, rfl, h, h2, fun _ => h3⟩,
    opt_ok.mpr (.inl ⟨v, rfl, exponent_ok.mpr ⟨_, rfl, hx, hf, hr⟩⟩)⟩⟩

/-- Everything returned as a double was written so: mantissa text, then the exponent text or nothing. -/
theorem C18_accepted (i r : Str) (d : Decimal) (o : Option Int) (h : numericLiteral i = .ok r (.double d o)) :
    ∃ m x, i = m ++ (x ++ r) ∧ MantText m d ∧ NotStart AsciiDigit r ∧
      (match o with
        | some v => ExpText x v ∧ FitsI64 v
        | none => x = []) := by
  obtain ⟨_, h⟩ := numericLiteral_double.mp h
  obtain ⟨r1, h1, h2⟩ := pair_ok_iff.mp h
  obtain ⟨m, rfl, h3, h4, _⟩ := sparqlDecimal_ok.mp h1
  rcases opt_ok.mp h2 with ⟨v, e, h5⟩ | ⟨e, rfl, _⟩
  · simp only at e
    subst e
    obtain ⟨x, rfl, h6, h7, h8⟩ := exponent_ok.mp h5
    exact ⟨m, x, rfl, h3, h8, h6, h7⟩
  · simp only at e
    subst e
    exact ⟨m, [], rfl, h3, h4, rfl⟩

/-- An exponent letter without digits is a hard failure, never a wrong number. -/
theorem C18_missing_exponent (m sg t : Str) (neg : Bool) (c : Char) (d : Decimal) (h : MantText m d)
    (hc : c = 'e' ∨ c = 'E') (hs : SignText sg neg) (ht : NotStart AsciiDigit t)
    (ht' : NotStart (fun c => c = '+' ∨ c = '-') t) :
    ∃ pos k, numericLiteral (m ++ c :: (sg ++ t)) = .err (.failure pos k) := by
  obtain ⟨h1, h2, h3⟩ := eE_stop (t := sg ++ t) hc
  obtain ⟨pos, k, e1⟩ := sparqlInt_soft_err h (.inr h1)
  have e2 : sparqlDecimal (m ++ c :: (sg ++ t)) = .ok (c :: (sg ++ t)) d :=
    sparqlDecimal_ok.mpr ⟨m, rfl, h, h2, fun _ => h3⟩
  obtain ⟨o, e3⟩ := optSign_append hs ht'
  obtain ⟨pos', k', e4⟩ := digit1_err.mpr ht
  have e5 : alt [char 'e', char 'E'] (c :: (sg ++ t)) = .ok (sg ++ t) c := eE_ok.mpr ⟨hc, rfl⟩
  refine ⟨pos', k', ?_⟩
  unfold numericLiteral sparqlDouble exponent
  rw [alt_skip (map_stop e1), alt_last]
  refine map_stop (pair_stop2 e2 (opt_hard ?_ (by simp)))
  rw [preceded_cont e5]
  exact mapRes_stop (recognize_stop (pair_stop2 e3 (cut_soft e4)))

/-- Violation: an exponent outside the i64 range is dropped from the literal and left in the input. -/
theorem C18_exponent_overflow_violated (m x r : Str) (d : Decimal) (v : Int) (h : MantText m d)
    (hx : ExpText x v) (hf : ¬ FitsI64 v) (hr : NotStart AsciiDigit r) :
    numericLiteral (m ++ (x ++ r)) = .ok (x ++ r) (.double d none) := by
  have hx' := hx
  obtain ⟨c, t, rfl, hc, hi⟩ := hx'
  obtain ⟨h1, h2, h3⟩ := eE_stop (t := t ++ r) hc
  refine numericLiteral_double.mpr ⟨sparqlInt_soft_err h (.inr h1), pair_ok_iff.mpr ⟨_,
    sparqlDecimal_ok.mpr ⟨m, rfl, h, h2, fun _ => h3⟩, opt_ok.mpr (.inr ⟨rfl, rfl, ?_⟩)⟩⟩
  obtain ⟨sg, neg, ds, n, rfl, h4, h5, rfl⟩ := hi
  obtain ⟨a1, a2, rfl⟩ := decVal_imp h5
  have e5 : alt [char 'e', char 'E'] (c :: (sg ++ ds ++ r)) = .ok (sg ++ ds ++ r) c := eE_ok.mpr ⟨hc, rfl⟩
  have e6 : recognize (pair optSign (cut digit1)) (sg ++ ds ++ r) = .ok r (sg ++ ds) :=
    expToken_ok.mpr (intToken_ok.mpr ⟨rfl, hr, sg, neg, ds, rfl, h4, a1, a2⟩)
  have e7 := parseI64_none h4 a1 a2 hf
  refine ⟨sg ++ ds ++ r, .MapRes, ?_⟩
  unfold exponent
  rw [List.cons_append, preceded_cont e5]
  unfold mapRes
  rw [e6]
  simp only
  rw [e7]

example : numericLiteral c!"-.5e-3 )" = .ok c!" )"
    (.double { neg := true, mantissa := 5, scale := 1 } (some (-3))) := rfl
example : MantText c!"-.5" { neg := true, mantissa := 5, scale := 1 } :=
  ⟨c!"-", true, [], c!"5", .minus, .inr rfl, by simp, by decide, rfl, .digit (by decide), rfl⟩

/-! ## C19 -/

/-- Booleans: `true`/`false` in any letter case, and nothing else. -/
theorem C19_exact (i r : Str) (b : Bool) : boolean i = .ok r b ↔
    ∃ s, i = s ++ r ∧ CaseVariant (match b with | true => c!"true" | false => c!"false") s := by
  unfold boolean
  rw [alt_two_ok, alt_one_ok]
  simp only [map_ok, tagNoCase_ok_iff]
  constructor
  · rintro (⟨a, ⟨rfl, h⟩, rfl⟩ | ⟨_, a, ⟨rfl, h⟩, rfl⟩) <;> exact ⟨a, rfl, h⟩
  · rintro ⟨s, rfl, h⟩
    cases b with
    | false => exact .inl ⟨s, ⟨rfl, h⟩, rfl⟩
    | true =>
      refine .inr ⟨⟨s ++ r, .Tag, map_soft_err (tagNoCase_error ?_)⟩, s, ⟨rfl, h⟩, rfl⟩
      intro a r' e h'
      obtain ⟨y, s', rfl, hy, _⟩ := CaseVariant.cons_iff.mp h
      obtain ⟨z, s'', rfl, hz, _⟩ := CaseVariant.cons_iff.mp h'
      simp only [List.cons_append, List.cons.injEq] at e
      rw [← e.1] at hz
      exact absurd (sameLetter_unique hy hz (by decide) (by decide)) (by decide)

example : boolean c!"TrUe)" = .ok c!")" true := rfl
example : boolean c!"FALSE" = .ok [] false := rfl

/-! ## C20 -/

theorem commonLabelStart_coded (c : Char) (h : CommonLabelStart c) : LabF c := by
  rcases h with h | h | h
  · exact .inl (isPnCharsU_iff.mpr (.inl (codedBase_iff.mpr (.inl h))))
  · exact .inl (isPnCharsU_iff.mpr (.inr h))
  · exact .inr (isDigitU8_of_digit h)

theorem LegalLabel.labelName {s} (h : LegalLabel s) : LabelName s := by
  obtain ⟨c, t, rfl, hc, ht⟩ := h
  refine ⟨c, t, rfl, commonLabelStart_coded c hc, ?_⟩
  rcases ht with rfl | ⟨h1, t', c, rfl, h2⟩
  · exact ⟨by simp, .inl (by simp)⟩
  · exact ⟨fun c hc => (h1 c hc).imp (commonNameChar_coded c) id, .inr ⟨t', c, rfl, commonNameChar_coded c h2⟩⟩

theorem nameStop_pnC {r} (h : NameStop r) : NotStart PnC r ∧ NotStart (· = '.') r :=
  ⟨h.mono fun c hc => .inl ((pnC_outer c hc).imp id .inl),
   h.mono fun c hc => .inr (.inl hc)⟩

theorem labF_name (c : Char) (h : LabF c) : NameChar c := by
  rcases h with h | h
  · rcases isPnCharsU_iff.mp h with h | h
    · exact pnB_outer c h
    · exact .inr (.inr (.inl h))
  · rcases isDigitU8_name h with h | h
    · exact .inr (.inl h)
    · exact .inr (.inr (.inr h))

theorem labF_ws (c : Char) (h : LabF c) : wsStart c = false := by
  apply locF_ws
  rcases h with h | h
  · exact .inl h
  · exact .inr (.inr h)

theorem labelName_not_ws {s r} (h : LabelName s) : ¬ StartsWs (s ++ r) := by
  obtain ⟨c, t, rfl, hc, _⟩ := h
  exact not_startsWs_cons (labF_ws c hc)

/-- Round trip: every legal label, with any white space after `_:`. -/
theorem C20_label (w s r : Str) (hw : Ws w) (hs : LegalLabel s) (hr : NameStop r) :
    blankNode ('_' :: ':' :: (w ++ (s ++ r))) = .ok r (.label s) := by
  obtain ⟨h1, h2⟩ := nameStop_pnC hr
  exact blankNode_label.mpr ⟨s ++ r, w, rfl, hw, labelName_not_ws hs.labelName, label_append hs.labelName h1 h2⟩

/-- What is returned was written after `_:`. -/
theorem C20_label_accepted (i r s : Str) (h : blankNode i = .ok r (.label s)) :
    ∃ w, Ws w ∧ i = '_' :: ':' :: (w ++ (s ++ r)) ∧ PrefixName NameChar OuterNameChar s := by
  obtain ⟨r1, w, rfl, hw, _, h1⟩ := blankNode_label.mp h
  obtain ⟨rfl, h2, _⟩ := label_imp h1
  refine ⟨w, hw, rfl, ?_⟩
  obtain ⟨c, t, rfl, hc, ht, ht'⟩ := h2
  refine ⟨c, t, rfl, labF_name c hc, fun c hc => (ht c hc).imp (pnC_outer c) id, ht'.imp id ?_⟩
  rintro ⟨t', c, rfl, hc⟩
  exact ⟨t', c, rfl, pnC_outer c hc⟩

/-- The label returned is at least as long as every legal label that could be read there. -/
theorem C20_longest (w r s s' r' : Str) (hw : Ws w) (hs : LegalLabel s')
    (h : blankNode ('_' :: ':' :: (w ++ (s' ++ r'))) = .ok r (.label s)) :
    s'.length ≤ s.length ∧ s' <+: s := by
  obtain ⟨r1, w1, e, hw1, hn1, h1⟩ := blankNode_label.mp h
  simp only [List.cons.injEq, true_and] at e
  obtain ⟨rfl, h2, h3⟩ := label_imp h1
  have hsp : sp (w ++ (s' ++ r')) = .ok (s' ++ r') w :=
    sp_ok_iff.mpr ⟨rfl, hw, labelName_not_ws hs.labelName⟩
  have hsp' : sp (w ++ (s' ++ r')) = .ok (s ++ r) w1 := sp_ok_iff.mpr ⟨e, hw1, hn1⟩
  rw [hsp] at hsp'
  simp only [Res.ok.injEq] at hsp'
  obtain ⟨e, _⟩ := hsp'
  suffices s'.length ≤ s.length from ⟨this, List.prefix_of_prefix_length_le ⟨r', e⟩ ⟨r, rfl⟩ this⟩
  refine Nat.le_of_not_lt fun hlt => ?_
  obtain ⟨x, rfl⟩ : s <+: s' := List.prefix_of_prefix_length_le ⟨r, rfl⟩ ⟨r', e⟩ (by omega)
  have e' := e
  rw [List.append_assoc, List.append_cancel_left_eq] at e'
  have hx : x ≠ [] := by rintro rfl; simp at hlt
  obtain ⟨c, t, e2, hc, ht⟩ := hs
  obtain ⟨c0, t0, rfl, hc0, ht0⟩ := h2
  simp only [List.cons_append, List.cons.injEq] at e2
  obtain ⟨_, rfl⟩ := e2
  rcases ht with ht | ⟨h4, t', c', e3, hc'⟩
  · simp at ht; exact hx ht.2
  · obtain ⟨d, x', rfl, hd, hx'⟩ := strip_dots x
    have hdot : ¬ CommonNameChar '.' := fun h => pnC_dot (commonNameChar_coded _ h)
    cases x' with
    | nil =>
      rw [List.append_nil] at e3 hx
      rw [← List.dropLast_concat_getLast hx, ← List.append_assoc] at e3
      have := (List.append_inj' e3 rfl).2
      simp only [List.cons.injEq, and_true] at this
      have hm := hd _ (List.getLast_mem hx)
      rw [this] at hm
      exact hdot (hm ▸ hc')
    | cons a x' =>
      have ha : PnC a := by
        rcases h4 a (by simp) with h | h
        · exact commonNameChar_coded a h
        · exact absurd h (hx' a _ rfl)
      exact h3.2 d (a :: x' ++ r') hd (by rw [← e']; simp) a _ rfl ha

/-- `[ ]` with any white space and comments inside, and nothing else, is the anonymous node. -/
theorem C20_anon (i r : Str) : blankNode i = .ok r .anon ↔ ∃ w, Ws w ∧ i = '[' :: (w ++ ']' :: r) :=
  blankNode_anon

theorem blankNode_bracket (i : Str) : blankNode ('[' :: i) = map anon (fun _ => BlankNode.anon) ('[' :: i) := rfl

/-- `[` followed by anything else is a hard failure. -/
theorem C20_bracket_failure (i : Str) (h : ¬ ∃ w r, Ws w ∧ i = w ++ ']' :: r) :
    ∃ pos k, blankNode ('[' :: i) = .err (.failure pos k) := by
  rw [blankNode_bracket]
  rcases anon_bracket i with ⟨r, s, e⟩ | ⟨pos, k, e⟩
  · exfalso
    obtain ⟨h1, h2⟩ := anon_ok.mp e
    simp only [List.cons.injEq, true_and] at h2
    exact h ⟨s, r, h1, h2⟩
  · exact ⟨pos, k, by unfold map; rw [e]⟩

/-- Violation: after a label of one character the dots that follow are kept in the label. -/
theorem C20_dot_swallowed_violated (c : Char) (r : Str) (hc : CommonLabelStart c) (hr : NameStop r) :
    blankNode ('_' :: ':' :: c :: '.' :: r) = .ok r (.label [c, '.']) := by
  obtain ⟨h1, h2⟩ := nameStop_pnC hr
  have hl : LabelName [c, '.'] := ⟨c, ['.'], rfl, commonLabelStart_coded c hc, by simp, .inl (by simp)⟩
  exact blankNode_label.mpr ⟨[c, '.'] ++ r, [], rfl, .nil, labelName_not_ws hl, label_append hl h1 h2⟩

example : blankNode c!"_:a.b-1 ." = .ok c!" ." (.label c!"a.b-1") := rfl
example : blankNode c!"[ #c\n ]" = .ok [] .anon := rfl
example : blankNode c!"_:c. " = .ok c!" " (.label c!"c.") := rfl

/-! ## C21 -/

/-- The class the code implements, over all of Unicode. -/
theorem C21_exact (c : Char) : isPnCharsBase c = true ↔ CodedBase c := codedBase_iff

/-- It agrees with SPARQL 1.1 on every character below U+10000 whose low byte is not an ASCII letter, and on
Latin-1. -/
theorem C21_agrees_partial (c : Char) (h : c.toNat < 256 ∨ (c.toNat < 0x10000 ∧ ¬ LowByteLetter c)) :
    isPnCharsBase c = true ↔ W3CPnCharsBase c := by
  rcases h with h | ⟨h, h'⟩
  · exact isPnCharsBase_latin1 h
  · rw [C21_exact]
    exact ⟨fun hc => (hc.resolve_right h').1, fun hc => .inl ⟨hc, h⟩⟩

/-- No legal character below U+10000 is refused. -/
theorem C21_complete_bmp (c : Char) (h : W3CPnCharsBase c) (hc : c.toNat < 0x10000) :
    isPnCharsBase c = true := isPnCharsBase_of_w3c h hc

/-- Violation 1: wrongly accepted are exactly the illegal characters with a letter as low byte. -/
theorem C21_false_accept_violated (c : Char) :
    (isPnCharsBase c = true ∧ ¬ W3CPnCharsBase c) ↔ (LowByteLetter c ∧ ¬ W3CPnCharsBase c) := by
  rw [C21_exact]
  constructor
  · rintro ⟨⟨h, _⟩ | h, h'⟩
    · exact absurd h h'
    · exact ⟨h, h'⟩
  · rintro ⟨h, h'⟩; exact ⟨.inr h, h'⟩

/-- Violation 2: wrongly refused are exactly the legal characters from U+10000 on without such a low byte. -/
theorem C21_false_reject_violated (c : Char) :
    (W3CPnCharsBase c ∧ isPnCharsBase c = false) ↔
      (0x10000 ≤ c.toNat ∧ c.toNat ≤ 0xEFFFF ∧ ¬ LowByteLetter c) := by
  have hb : isPnCharsBase c = false ↔ ¬ CodedBase c := by rw [← C21_exact]; simp
  rw [hb]
  unfold CodedBase W3CPnCharsBase
  simp only
  constructor
  · rintro ⟨h, h'⟩
    simp only [not_or, not_and] at h'
    have := h'.1
    refine ⟨?_, ?_, h'.2⟩ <;> omega
  · rintro ⟨h1, h2, h3⟩
    refine ⟨by omega, ?_⟩
    rintro (⟨_, h⟩ | h)
    · omega
    · exact h3 h

example : isPnCharsBase (Char.ofNat 0x2041) = true ∧ ¬ W3CPnCharsBase (Char.ofNat 0x2041) := by decide
example : isPnCharsBase (Char.ofNat 0x10400) = false ∧ W3CPnCharsBase (Char.ofNat 0x10400) := by decide

/-! ## C22 -/

/-- Simple literal or literal typed `xsd:string`. -/
def IsSimpleOrString : StringLiteral → Prop
  | .simple _ => True
  | .typed _ => True
  | .language _ _ => False

/-- The documentation of `compatible_arg` (src/literal.rs:31-36). -/
def DocCompatible (a b : StringLiteral) : Prop :=
  (IsSimpleOrString a ∧ IsSimpleOrString b) ∨
  (∃ x y l, a = .language x l ∧ b = .language y l) ∨
  ((∃ x l, a = .language x l) ∧ IsSimpleOrString b)

/-- For typed and language-tagged first arguments the documentation is met. -/
theorem C22_documented_partial (a b : StringLiteral) (ha : ∀ x, a ≠ .simple x) :
    a.compatibleArg b = true ↔ DocCompatible a b := by
  cases a with
  | simple x => exact absurd rfl (ha x)
  | typed x => cases b <;> simp [StringLiteral.compatibleArg, DocCompatible, IsSimpleOrString]
  | language x l =>
    cases b with
    | simple y => simp [StringLiteral.compatibleArg, DocCompatible, IsSimpleOrString]
    | typed y => simp [StringLiteral.compatibleArg, DocCompatible, IsSimpleOrString]
    | language y l' =>
      simp only [StringLiteral.compatibleArg, beq_iff_eq, DocCompatible, IsSimpleOrString, and_false, false_or,
        or_false, StringLiteral.language.injEq]
      constructor
      · rintro rfl; exact ⟨x, y, l, ⟨rfl, rfl⟩, rfl, rfl⟩
      · rintro ⟨_, _, _, ⟨_, rfl⟩, _, rfl⟩; rfl

/-- Violation: with a simple literal as first argument the answer is always the wrong one. -/
theorem C22_simple_violated (x : Str) (b : StringLiteral) :
    (StringLiteral.simple x).compatibleArg b = true ↔ ¬ DocCompatible (.simple x) b := by
  cases b <;> simp [StringLiteral.compatibleArg, DocCompatible, IsSimpleOrString]

example : (StringLiteral.language c!"a" c!"en").compatibleArg (.language c!"b" c!"en") = true := rfl
example : (StringLiteral.simple c!"a").compatibleArg (.simple c!"b") = false := rfl

/-! ## C23 -/

/-- `Sign::from_str` accepts exactly the text forms, and the empty text as POS. -/
theorem C23_sign (s : Str) (x : Sign) :
    Sign.fromStr s = some x ↔ s = x.asRef ∨ (s = [] ∧ x = .pos) := by
  unfold Sign.fromStr Sign.asRef
  constructor
  · intro h
    split at h
    · rename_i hs
      cases h
      rcases hs with rfl | rfl <;> simp
    · split at h
      · cases h; left; assumption
      · cases h
  · rintro (rfl | ⟨rfl, rfl⟩)
    · cases x <;> simp
    · simp

theorem C23_sign_roundtrip (x : Sign) : Sign.fromStr x.asRef = some x ∧ x.display = x.asRef ∧
    Sign.fromStr [] = some Sign.default := by cases x <;> exact ⟨rfl, rfl, rfl⟩

/-- `Sign::from_str` and the parser `sign` agree. -/
theorem C23_sign_parser (i r : Str) (x : Sign) : sign i = .ok r x ↔ i = x.asRef ++ r := by
  unfold sign
  rw [alt_two_ok, alt_one_ok]
  simp only [map_ok, char_ok]
  cases x
  · constructor
    · rintro (⟨a, ⟨rfl, rfl⟩, _⟩ | ⟨_, a, _, h⟩)
      · rfl
      · cases h
    · rintro rfl; exact .inl ⟨_, ⟨rfl, rfl⟩, rfl⟩
  · constructor
    · rintro (⟨a, _, h⟩ | ⟨_, a, ⟨rfl, rfl⟩, _⟩)
      · cases h
      · rfl
    · rintro rfl; exact .inr ⟨⟨_, _, rfl⟩, _, ⟨rfl, rfl⟩, rfl⟩

/-- The text of a path modifier. -/
def pathModText : PathMod → Str
  | .questionMark => ['?']
  | .asterisk => ['*']
  | .plus => ['+']

/-- `PathMod::from_str` accepts exactly `?`, `*`, `+`, each with its own result. -/
theorem C23_pathMod (s : Str) (x : PathMod) : PathMod.fromStr s = some x ↔ s = pathModText x := by
  unfold PathMod.fromStr pathModText
  constructor
  · intro h
    split at h
    · cases h; assumption
    · split at h
      · cases h; assumption
      · split at h
        · cases h; assumption
        · cases h
  · rintro rfl; cases x <;> simp

theorem C23_pathMod_injective (x y : PathMod) (h : pathModText x = pathModText y) : x = y := by
  have := (C23_pathMod _ x).mpr rfl
  rw [h, (C23_pathMod _ y).mpr rfl] at this
  cases this; rfl

example : Sign.fromStr c!"++" = none ∧ PathMod.fromStr c!"?" = some .questionMark := ⟨rfl, rfl⟩

end NomSparql
