import Verif.Lemmas.EbnfScan

/-!
# Three tables: texts beginning with `o`, `?` before `}`, `.` before `.`
-/

namespace NomSparql

open Ebnf

theorem dense_cons {c : Char} {s : Str} (h : ¬ IsBlank c) : dense (c :: s) = c :: dense s := by simp [dense, h]

theorem mem_dense {c : Char} {s : Str} (h : c ∈ dense s) : c ∈ s := (List.mem_filter.mp h).1

theorem dense_blanks {w : Str} (h : ∀ c ∈ w, w3cTerm.IsWs c) : dense w = [] :=
  List.filter_eq_nil_iff.mpr fun c hc => by
    have : IsBlank c := h c hc
    simp [this]

/-- Non-terminals generating the text without visible character. -/
def emptyNts : List Nt := [.prologue, .solutionModifier, .valuesClause, .update, .quads, .groupGraphPatternSub, .propertyList, .propertyListPath]

/-- Non-terminals generating a text that begins with `o` or `O`. -/
def oNts : List Nt := [.defaultGraphClause, .sourceSelector, .solutionModifier, .groupCondition, .havingCondition, .orderClause, .orderCondition,
  .limitOffsetClauses, .offsetClause, .graphOrDefault, .quads, .triplesTemplate, .groupGraphPatternSub, .triplesBlock, .graphPatternNotTriples,
  .optionalGraphPattern, .dataBlockValue, .constraint, .functionCall, .constructTriples, .triplesSameSubject, .propertyList, .propertyListNotEmpty,
  .verb, .objectList, .object, .triplesSameSubjectPath, .propertyListPath, .propertyListPathNotEmpty, .verbPath, .objectListPath, .objectPath, .path,
  .pathAlternative, .pathSequence, .pathElt, .pathEltOrInverse, .pathPrimary, .pathNegatedPropertySet, .pathOneInPropertySet, .graphNode,
  .graphNodePath, .varOrTerm, .varOrIri, .graphTerm, .expression, .conditionalOrExpression, .conditionalAndExpression, .valueLogical,
  .relationalExpression, .numericExpression, .additiveExpression, .multiplicativeExpression, .unaryExpression, .primaryExpression,
  .iriOrFunction, .iri, .prefixedName]

/-- Beginning with `o`. -/
def scanO : Scan where
  bad c := c == '#'
  x _ := false
  y c := c == 'o' || c == 'O'
  nulT := emptyNts
  fstT := oNts
  lstT := []
  fstTerm := [.pnameNs, .pnameLn]
  lstTerm := []

def scanBad (c : Char) : Bool := ['"', '\'', '<', ':', '@', '#'].contains c || (0x30 ≤ c.toNat && c.toNat ≤ 0x39)

theorem Bare.bad {s : Str} (h : Bare s) : ∀ c ∈ s, ¬ scanBad c := by
  intro c hc hb
  obtain ⟨h1, h2⟩ := h c hc
  simp only [scanBad, Bool.or_eq_true, List.contains_iff_mem, Bool.and_eq_true, decide_eq_true_eq] at hb
  rcases hb with hb | hb
  · exact h1 hb
  · exact h2 (by simpa [AsciiDigit] using hb)

/-- A question mark before a closing brace. -/
def scanQ : Scan where
  bad := scanBad
  x c := c == '?'
  y c := c == '}'
  nulT := emptyNts
  fstT := []
  lstT := [.verbPath, .path, .pathAlternative, .pathSequence, .pathElt, .pathEltOrInverse, .pathMod]
  fstTerm := []
  lstTerm := []

/-- Two dots. -/
def scanD : Scan where
  bad := scanBad
  x c := c == '.'
  y c := c == '.'
  nulT := emptyNts
  fstT := []
  lstT := [.quads, .triplesTemplate, .groupGraphPatternSub, .triplesBlock, .constructTriples]
  fstTerm := []
  lstTerm := []

theorem scanO_table (x : Nt) : scanO.agrees x := by cases x <;> decide +kernel
theorem scanQ_table (x : Nt) : scanQ.agrees x := by cases x <;> decide +kernel
theorem scanD_table (x : Nt) : scanD.agrees x := by cases x <;> decide +kernel

theorem sameLetter_other {c c' : Char} (h : SameLetter c c') (hc : ¬ (0x41 ≤ c'.toNat ∧ c'.toNat ≤ 0x5A)) : c' = c := by
  rcases h with h | ⟨h1, h2, h3⟩
  · exact h
  · exact absurd ⟨by omega, by omega⟩ hc

theorem pnBase_not_blank {c : Char} (h : W3CPnCharsBase c) : ¬ IsBlank c := by
  intro hb
  simp only [IsBlank, List.mem_cons, List.not_mem_nil, or_false] at hb
  rcases hb with rfl | rfl | rfl | rfl <;> revert h <;> decide

theorem digit_not_blank {c : Char} (h : AsciiDigit c) : ¬ IsBlank c := by
  intro hb
  simp only [IsBlank, List.mem_cons, List.not_mem_nil, or_false] at hb
  rcases hb with rfl | rfl | rfl | rfl <;> revert h <;> decide

theorem Scan.holdsHead {T : Scan} {t : Term} {c : Char} {s : Str} (h : ¬ IsBlank c) (hx : ∀ c, T.x c = false)
    (hy : T.y c → T.fstTerm.contains t) : T.Holds (.t t) (c :: s) := by
  refine ⟨fun h0 => ?_, fun d b h0 hd => ?_, fun d a _ hd => ?_, fun d d' a b _ hd _ => ?_⟩
  · rw [dense_cons h] at h0; cases h0
  · rw [dense_cons h] at h0; cases h0; exact hy hd
  · rw [hx] at hd; cases hd
  · rw [hx] at hd; cases hd

theorem W3CInteger.head {s : Str} (h : W3CInteger s) : ∃ c r, s = c :: r ∧ AsciiDigit c := by
  obtain ⟨h1, h2⟩ := h
  cases s with
  | nil => exact absurd rfl h1
  | cons c r => exact ⟨c, r, rfl, h2 c (by simp)⟩

theorem W3CNumber.head {s : Str} (h : W3CNumber s) : ∃ c r, s = c :: r ∧ (AsciiDigit c ∨ c = '.') := by
  rcases h with h | ⟨a, b, rfl, ha, _⟩ | ⟨a, b, e, rfl, ha, _⟩ | ⟨b, e, rfl, _⟩ | ⟨a, e, rfl, ha, _⟩
  · obtain ⟨c, r, rfl, h'⟩ := h.head; exact ⟨c, r, rfl, .inl h'⟩
  · cases a with
    | nil => exact ⟨'.', b, rfl, .inr rfl⟩
    | cons c a => exact ⟨c, _, rfl, .inl (ha c (by simp))⟩
  · obtain ⟨c, r, rfl, h⟩ := ha.head; exact ⟨c, _, rfl, .inl h⟩
  · exact ⟨'.', _, rfl, .inr rfl⟩
  · obtain ⟨c, r, rfl, h⟩ := ha.head; exact ⟨c, _, rfl, .inl h⟩

theorem W3CNumber.digit {s : Str} (h : W3CNumber s) : ∃ c ∈ s, AsciiDigit c := by
  rcases h with h | ⟨a, b, rfl, _, ha⟩ | ⟨a, b, e, rfl, ha, _⟩ | ⟨b, e, rfl, ha, _⟩ | ⟨a, e, rfl, ha, _⟩
  · obtain ⟨c, r, rfl, h'⟩ := h.head; exact ⟨c, by simp, h'⟩
  all_goals obtain ⟨c, r, rfl, h⟩ := ha.head; exact ⟨c, by simp, h⟩

theorem W3CPnameNs.head {s : Str} (h : W3CPnameNs s) : ∃ c r, s = c :: r ∧ ¬ IsBlank c := by
  rcases h with rfl | ⟨a, rfl, c, a', rfl, hc, _⟩
  · exact ⟨':', [], rfl, by decide⟩
  · exact ⟨c, _, rfl, pnBase_not_blank hc⟩

theorem W3CPnameNs.colon {s : Str} (h : W3CPnameNs s) : ':' ∈ s := by
  rcases h with rfl | ⟨a, rfl, _⟩ <;> simp

theorem digit_not_o {c : Char} (h : AsciiDigit c) : scanO.y c = false := by
  refine Bool.eq_false_iff.mpr fun hy => ?_
  simp only [scanO, Bool.or_eq_true, beq_iff_eq] at hy
  rcases hy with rfl | rfl <;> revert h <;> decide

theorem scanO_fine : scanO.Fine where
  hash := rfl
  kwy := by
    intro c c' h hy
    simp only [scanO, Bool.or_eq_true, beq_iff_eq] at hy ⊢
    rcases h with rfl | ⟨h1, h2, h3⟩
    · exact hy
    · rcases hy with rfl | rfl
      · have : ('o' : Char).toNat = 111 := rfl
        omega
      · left
        have : ('O' : Char).toNat = 79 := rfl
        apply Char.ext
        apply UInt32.toNat_inj.mp
        have h4 : ('o' : Char).val.toNat = 111 := rfl
        have : c.val.toNat = c.toNat := rfl
        omega
  kwx := by intro c h; cases h
  table := scanO_table
  term := by
    intro t s h _
    have hx : ∀ c, scanO.x c = false := fun _ => rfl
    cases t with
    | iriRef => obtain ⟨x, rfl, _⟩ := h; exact Scan.holdsHead (by decide) hx (by decide)
    | pnameNs => obtain ⟨c, r, rfl, hc⟩ := W3CPnameNs.head h; exact Scan.holdsHead hc hx fun _ => rfl
    | pnameLn =>
      obtain ⟨a, b, rfl, ha, _⟩ := h
      obtain ⟨c, r, rfl, hc⟩ := W3CPnameNs.head ha
      exact Scan.holdsHead hc hx fun _ => rfl
    | blankNodeLabel => obtain ⟨c, a, rfl, _⟩ := h; exact Scan.holdsHead (by decide) hx (by decide)
    | var => obtain ⟨g, c, a, rfl, rfl | rfl, _⟩ := h <;> exact Scan.holdsHead (by decide) hx (by decide)
    | langTag => obtain ⟨x, rfl, _⟩ := h; exact Scan.holdsHead (by decide) hx (by decide)
    | integer =>
      obtain ⟨c, r, rfl, hc⟩ := W3CInteger.head h
      exact Scan.holdsHead (digit_not_blank hc) hx (by simp [digit_not_o hc])
    | number =>
      obtain ⟨c, r, rfl, hc | rfl⟩ := W3CNumber.head h
      · exact Scan.holdsHead (digit_not_blank hc) hx (by simp [digit_not_o hc])
      · exact Scan.holdsHead (by decide) hx (by decide)
    | signedNumber => obtain ⟨x, rfl | rfl, _⟩ := h <;> exact Scan.holdsHead (by decide) hx (by decide)
    | string => obtain ⟨q, x, rfl | rfl, ⟨rfl, _⟩ | ⟨rfl, _⟩⟩ := h <;> exact Scan.holdsHead (by decide) hx (by decide)
    | nil => obtain ⟨w, rfl, _⟩ := h; exact Scan.holdsHead (by decide) hx (by decide)
    | anon => obtain ⟨w, rfl, _⟩ := h; exact Scan.holdsHead (by decide) hx (by decide)

theorem bad_digit {c : Char} (h : AsciiDigit c) : scanBad c := by
  simp only [scanBad, Bool.or_eq_true, Bool.and_eq_true, decide_eq_true_eq]
  exact .inr (by simpa [AsciiDigit] using h)

/-- The terminals without strings, IRIs, names, numbers and comments. -/
theorem term_plain {T : Scan} (hT : T.bad = scanBad) (h1 : ∀ c ∈ ['?', '$', '(', '['], T.y c = false) (h2 : ∀ c ∈ [')', ']'], T.x c = false ∧ T.y c = false)
    (h3 : ∀ c, W3CPnCharsU c ∨ AsciiDigit c ∨ W3CCombining c → T.x c = false ∧ T.y c = false)
    {t : Term} {s : Str} (h : w3cTerm t s) (hb : ∀ c ∈ s, ¬ T.bad c) : T.Holds (.t t) s := by
  rw [hT] at hb
  have hnum : ∀ s : Str, W3CNumber s → (∀ c ∈ s, ¬ scanBad c) → False := fun s h hb => by
    obtain ⟨c, hc, hd⟩ := h.digit
    exact hb c hc (bad_digit hd)
  have hpair : ∀ c d : Char, ¬ IsBlank c → ¬ IsBlank d → T.y c = false → T.x d = false → T.y d = false → ∀ w, (∀ c ∈ w, w3cTerm.IsWs c) →
      T.Holds (.t t) (c :: (w ++ [d])) := by
    intro c d hc hd hyc hxd hyd w hw
    have h0 : dense (c :: (w ++ [d])) = [c, d] := by rw [dense_cons hc, dense_append, dense_blanks hw, dense_cons hd]; rfl
    refine ⟨fun h => ?_, fun e b h hy => ?_, fun e a h hx => ?_, fun e e' a b h hx hy => ?_⟩ <;> rw [h0] at h
    · cases h
    · cases h; rw [hyc] at hy; cases hy
    · replace h : [c] ++ [d] = a ++ [e] := h
      have := (List.append_inj' h rfl).2
      cases this; rw [hxd] at hx; cases hx
    · rcases a with _ | ⟨_, _ | ⟨_, a⟩⟩
      · cases h; rw [hyd] at hy; cases hy
      · simp at h
      · simp at h
  cases t with
  | iriRef => obtain ⟨x, rfl, _⟩ := h; exact absurd rfl (hb '<' (by simp))
  | pnameNs => exact absurd rfl (hb ':' (W3CPnameNs.colon h))
  | pnameLn => obtain ⟨a, b, rfl, ha, _⟩ := h; exact absurd rfl (hb ':' (by simp [W3CPnameNs.colon ha]))
  | blankNodeLabel => obtain ⟨c, a, rfl, _⟩ := h; exact absurd rfl (hb ':' (by simp))
  | var =>
    obtain ⟨g, c, a, rfl, hg, hc, ha⟩ := h
    have hg' : ¬ IsBlank g := by rcases hg with rfl | rfl <;> decide
    have hyg : T.y g = false := h1 g (by rcases hg with rfl | rfl <;> simp)
    have hcs : ∀ d ∈ dense (c :: a), T.x d = false ∧ T.y d = false := fun d hd => by
      rcases List.mem_cons.mp (mem_dense hd) with rfl | hd
      · exact h3 _ (hc.imp id .inl)
      · exact h3 _ (ha d hd)
    have hne : dense (c :: a) ≠ [] := by
      intro h
      have hcb : IsBlank c := Classical.byContradiction fun hn => by rw [dense_cons hn] at h; cases h
      rcases hc with (hc | rfl) | hc
      · exact pnBase_not_blank hc hcb
      · revert hcb; decide
      · exact digit_not_blank hc hcb
    refine ⟨fun h => ?_, fun e b h hy => ?_, fun e l h hx => ?_, fun e e' l r h hx hy => ?_⟩ <;> rw [dense_cons hg'] at h
    · cases h
    · cases h; rw [hyg] at hy; cases hy
    · rcases l with _ | ⟨_, l⟩
      · simp only [List.nil_append, List.cons.injEq] at h; exact absurd h.2 hne
      · simp only [List.cons_append, List.cons.injEq] at h
        rw [(hcs e (by simp [h.2])).1] at hx; cases hx
    · rcases l with _ | ⟨_, l⟩ <;> simp only [List.nil_append, List.cons_append, List.cons.injEq] at h <;>
        (rw [(hcs e' (by simp [h.2])).2] at hy; cases hy)
  | langTag => obtain ⟨x, rfl, _⟩ := h; exact absurd rfl (hb '@' (by simp))
  | integer => exact (hnum s (.inl h) hb).elim
  | number => exact (hnum s h hb).elim
  | signedNumber =>
    obtain ⟨x, rfl | rfl, hx⟩ := h <;> exact (hnum x hx fun c hc => hb c (by simp [hc])).elim
  | string =>
    obtain ⟨q, x, rfl | rfl, ⟨rfl, _⟩ | ⟨rfl, _⟩⟩ := h
    · exact absurd rfl (hb '\'' (by simp))
    · exact absurd rfl (hb '\'' (by simp))
    · exact absurd rfl (hb '"' (by simp))
    · exact absurd rfl (hb '"' (by simp))
  | nil =>
    obtain ⟨w, rfl, hw⟩ := h
    exact hpair _ _ (by decide) (by decide) (h1 _ (by simp)) (h2 _ (by simp)).1 (h2 _ (by simp)).2 w hw
  | anon =>
    obtain ⟨w, rfl, hw⟩ := h
    exact hpair _ _ (by decide) (by decide) (h1 _ (by simp)) (h2 _ (by simp)).1 (h2 _ (by simp)).2 w hw

theorem varChar_ne {c e : Char} (h : W3CPnCharsU c ∨ AsciiDigit c ∨ W3CCombining c) (he : e ∈ ['?', '}', '.']) : (c == e) = false := by
  refine Bool.eq_false_iff.mpr fun hy => ?_
  rw [beq_iff_eq] at hy
  subst hy
  simp only [List.mem_cons, List.not_mem_nil, or_false] at he
  rcases h with (h | h) | h | h <;> rcases he with rfl | rfl | rfl <;> revert h <;> simp [W3CPnCharsBase, AsciiDigit, W3CCombining]

theorem scanQ_fine : scanQ.Fine where
  hash := by decide
  kwy := by
    intro c c' h hy
    have hc : c' = '}' := by simpa [scanQ] using hy
    subst hc
    rw [← sameLetter_other h (by decide)]; exact hy
  kwx := by
    intro c h
    have : c = '?' := by simpa [scanQ] using h
    subst this; decide
  table := scanQ_table
  term _ _ h hb := term_plain rfl (by decide) (by decide) (fun c h => ⟨varChar_ne h (by simp), varChar_ne h (by simp)⟩) h hb

theorem scanD_fine : scanD.Fine where
  hash := by decide
  kwy := by
    intro c c' h hy
    have hc : c' = '.' := by simpa [scanD] using hy
    subst hc
    rw [← sameLetter_other h (by decide)]; exact hy
  kwx := by
    intro c h
    have : c = '.' := by simpa [scanD] using h
    subst this; decide
  table := scanD_table
  term _ _ h hb := term_plain rfl (by decide) (by decide) (fun c h => ⟨varChar_ne h (by simp), varChar_ne h (by simp)⟩) h hb

end NomSparql
