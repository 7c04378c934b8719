import Verif.Spec.Height
import Verif.Lemmas.BracketsAll

/-!
# How deeply the text is nested that a parser reads: pieces without brackets

`Flat p`: what `p` reads has no brackets.  `Opens0 o p`, `Closes0 c p`: what `p` reads is one bracket between such texts.
-/

namespace NomSparql

set_option synthInstance.maxSize 4000
set_option synthInstance.maxHeartbeats 400000

theorem NestsAt.append {a b : Nat} {s t : Str} (h : NestsAt a s) (ht : NestsAt b t) : NestsAt (max a b) (s ++ t) := by
  induction h with
  | nil => simpa using ht
  | char h1 _ ih => exact .char h1 ih
  | @group d e o c s t' h1 h2 _ _ ih =>
    rw [List.cons_append, List.append_assoc]
    have := NestsAt.group h1 h2 ih
    rwa [← Nat.max_assoc] at this
  | string h1 h2 _ ih => rw [List.cons_append, List.append_assoc]; exact .string h1 h2 ih
  | iri h1 _ ih => rw [List.cons_append, List.append_assoc]; exact .iri h1 ih
  | comment h1 h2 _ ih => rw [List.cons_append, List.append_assoc]; exact .comment h1 h2 ih
  | escape h1 _ ih => exact .escape h1 ih

theorem NestsAt.append0 {s t : Str} (h : NestsAt 0 s) (ht : NestsAt 0 t) : NestsAt 0 (s ++ t) := h.append ht

theorem NestsAt.chars : ∀ {s : Str}, (∀ c ∈ s, c ∉ special) → NestsAt 0 s
  | [], _ => .nil
  | c :: s, h => .char (h c (by simp)) (NestsAt.chars fun d hd => h d (by simp [hd]))

theorem Ws.nests0 {w : Str} (h : Ws w) : NestsAt 0 w := by
  induction h with
  | nil => exact .nil
  | cons h1 _ ih =>
    cases h1 with
    | char hc => exact .char (by revert hc; simp only [List.mem_cons, List.not_mem_nil, or_false]; rintro (rfl | rfl | rfl | rfl) <;> decide) ih
    | comment hb hc =>
      rw [List.cons_append, List.append_assoc]
      exact .comment hb (by simp only [List.mem_cons, List.not_mem_nil, or_false] at hc ⊢; grind) ih

class Flat (p : P α) : Prop where
  out : ∀ {i r a}, p i = .ok r a → ∃ s, i = s ++ r ∧ NestsAt 0 s

class Opens0 (o : outParam Char) (p : P α) : Prop where
  out : ∀ {i r a}, p i = .ok r a → ∃ s t, i = s ++ o :: (t ++ r) ∧ NestsAt 0 s ∧ NestsAt 0 t

class Closes0 (c : outParam Char) (p : P α) : Prop where
  out : ∀ {i r a}, p i = .ok r a → ∃ s t, i = s ++ c :: (t ++ r) ∧ NestsAt 0 s ∧ NestsAt 0 t

section
variable {p : P α} {q : P β} {s : P γ} {t : P δ} {u : P ε} {o c : Char}

/-! ## Combinators -/

instance [h : Flat p] (f : α → β) : Flat (map p f) where
  out e := by obtain ⟨_, e, _⟩ := map_ok.mp e; exact h.out e
instance [h : Flat p] : Flat (cut p) where
  out e := h.out (cut_ok.mp e)
instance [h : Flat p] (f : α → Option β) : Flat (mapRes p f) where
  out e := by obtain ⟨_, e, _⟩ := mapRes_ok.mp e; exact h.out e
instance [h : Flat p] : Flat (opt p) where
  out e := by
    rcases opt_ok.mp e with ⟨_, _, e⟩ | ⟨_, rfl, _⟩
    · exact h.out e
    · exact ⟨[], rfl, .nil⟩
instance [Good p] [h : Flat p] : Flat (recognize p) where
  out e := by obtain ⟨_, _, e⟩ := recognize_ok_iff.mp e; exact h.out e
instance [h : Flat p] [h' : Flat q] : Flat (pair p q) where
  out e := by
    obtain ⟨_, e1, e2⟩ := pair_ok_iff.mp e
    obtain ⟨x, rfl, hx⟩ := h.out e1
    obtain ⟨y, rfl, hy⟩ := h'.out e2
    exact ⟨x ++ y, by simp, hx.append0 hy⟩
instance [Flat p] [Flat q] : Flat (preceded p q) := inferInstanceAs (Flat (map _ _))
instance [Flat p] [Flat q] : Flat (terminated p q) := inferInstanceAs (Flat (map _ _))
instance [Flat p] [Flat q] [Flat s] : Flat (delimited p q s) := inferInstanceAs (Flat (preceded _ (terminated _ _)))
instance [Flat p] [Flat q] [Flat s] : Flat (separatedPair p s q) := inferInstanceAs (Flat (pair _ (preceded _ _)))
instance [Flat p] [Flat q] [Flat s] : Flat (tuple3 p q s) := inferInstanceAs (Flat (pair _ (pair _ _)))
instance [Flat p] [Flat q] [Flat s] [Flat t] : Flat (tuple4 p q s t) := inferInstanceAs (Flat (pair _ (pair _ (pair _ _))))
instance [Flat p] [Flat q] [Flat s] [Flat t] [Flat u] : Flat (tuple5 p q s t u) := inferInstanceAs (Flat (pair _ (pair _ (pair _ (pair _ _)))))
instance : Flat (alt ([] : List (P α))) := ⟨fun e => by cases e⟩
instance {ps : List (P α)} [h : Flat p] [h' : Flat (alt ps)] : Flat (alt (p :: ps)) where
  out {i r a} e := by
    cases ps with
    | nil => exact h.out e
    | cons p₂ ps =>
      rcases alt_two_ok.mp e with e | ⟨_, e⟩
      · exact h.out e
      · exact h'.out e

theorem manyRun_flat [h : Flat p] {i r as} (hr : ManyRun p i r as) : ∃ x, i = x ++ r ∧ NestsAt 0 x := by
  induction hr with
  | stop _ => exact ⟨[], rfl, .nil⟩
  | step e _ _ ih =>
    obtain ⟨x, rfl, hx⟩ := h.out e
    obtain ⟨y, rfl, hy⟩ := ih
    exact ⟨x ++ y, by simp, hx.append0 hy⟩
instance [Flat p] : Flat (many0 p) := ⟨fun e => manyRun_flat (manyLoop_run e)⟩
instance [h : Flat p] : Flat (many1 p) where
  out e := by
    obtain ⟨_, _, _, _, e1, e2⟩ := many1_run e
    obtain ⟨x, rfl, hx⟩ := h.out e1
    obtain ⟨y, rfl, hy⟩ := manyRun_flat e2
    exact ⟨x ++ y, by simp, hx.append0 hy⟩

theorem sepLoop_flat [h : Flat s] [h' : Flat p] : ∀ {n i r as}, sepLoop s p n i = .ok r as → ∃ x, i = x ++ r ∧ NestsAt 0 x := by
  intro n
  induction n with
  | zero => intro i r as e; cases e
  | succ n ih =>
    intro i r as e
    unfold sepLoop at e
    split at e
    · cases e; exact ⟨[], rfl, .nil⟩
    · cases e
    · rename_i e1
      split at e
      · cases e
      · split at e
        · cases e; exact ⟨[], rfl, .nil⟩
        · cases e
        · rename_i e2
          split at e
          · cases e
          · split at e
            · rename_i e3
              cases e
              obtain ⟨x, rfl, hx⟩ := h.out e1
              obtain ⟨y, rfl, hy⟩ := h'.out e2
              obtain ⟨z, rfl, hz⟩ := ih e3
              exact ⟨x ++ (y ++ z), by simp, hx.append0 (hy.append0 hz)⟩
            · cases e
instance [Flat s] [h : Flat p] : Flat (separatedList s p) where
  out e := by
    unfold separatedList at e
    split at e
    · cases e; exact ⟨[], rfl, .nil⟩
    · cases e
    · rename_i e1
      split at e
      · cases e
      · split at e
        · rename_i e2
          cases e
          obtain ⟨x, rfl, hx⟩ := h.out e1
          obtain ⟨y, rfl, hy⟩ := sepLoop_flat e2
          exact ⟨x ++ y, by simp, hx.append0 hy⟩
        · cases e
instance [Flat s] [h : Flat p] : Flat (separatedNonemptyList s p) where
  out e := by
    unfold separatedNonemptyList at e
    split at e
    · cases e
    · rename_i e1
      split at e
      · cases e
      · split at e
        · rename_i e2
          cases e
          obtain ⟨x, rfl, hx⟩ := h.out e1
          obtain ⟨y, rfl, hy⟩ := sepLoop_flat e2
          exact ⟨x ++ y, by simp, hx.append0 hy⟩
        · cases e

/-! ## Leaves -/

instance [h : Dull c] : Flat (char c) where
  out e := by obtain ⟨_, rfl⟩ := char_ok.mp e; exact ⟨[c], rfl, .char h.out .nil⟩
instance {l : List Char} [h : DullTag l] : Flat (oneOf l) where
  out e := by obtain ⟨hc, rfl⟩ := oneOf_ok.mp e; exact ⟨[_], rfl, .char (h.out _ hc) .nil⟩
instance {l : List Char} [h : DullTag l] : Flat (tag l) where
  out e := by obtain ⟨_, rfl⟩ := tag_ok.mp e; exact ⟨l, rfl, NestsAt.chars h.out⟩

instance {l : List Char} [KwTag l] [h : DullTag l] : Flat (tagNoCase l) where
  out e := by obtain ⟨rfl, hv⟩ := tagNoCase_ok_iff.mp e; exact ⟨_, rfl, NestsAt.chars (hv.dull h.out)⟩
instance {l : List Char} [KwTag l] [h : DullTag l] : Flat (tagNoCaseStreaming l) where
  out e := by obtain ⟨rfl, hv⟩ := tagNoCaseStreaming_ok_iff.mp e; exact ⟨_, rfl, NestsAt.chars (hv.dull h.out)⟩

instance : Flat sp where
  out e := by obtain ⟨rfl, hw, _⟩ := sp_ok_iff.mp e; exact ⟨_, rfl, hw.nests0⟩
instance : Flat sp1 where
  out e := by obtain ⟨rfl, hw, _⟩ := sp1_ok_iff.mp e; exact ⟨_, rfl, hw.1.nests0⟩

section
variable {f : Char → Bool} [DullClass f]
instance : Flat (takeWhile f) where
  out e := by obtain ⟨rfl, h, _⟩ := takeWhile_ok.mp e; exact ⟨_, rfl, NestsAt.chars fun c hc => DullClass.not (h c hc)⟩
instance {k} : Flat (takeWhile1K k f) where
  out e := by obtain ⟨rfl, h⟩ := takeWhile1K_ok.mp e; exact ⟨_, rfl, NestsAt.chars fun c hc => DullClass.not (f := f) (by grind)⟩
instance : Flat (takeWhile1 f) := by unfold takeWhile1; infer_instance
instance {n} : Flat (takeWhileN n f) where
  out e := by obtain ⟨rfl, h⟩ := takeWhileN_ok.mp e; exact ⟨_, rfl, NestsAt.chars fun c hc => DullClass.not (f := f) (by grind)⟩
end

instance : Flat digit1 := by unfold digit1; infer_instance
instance : Flat alpha1 := by unfold alpha1; infer_instance
instance : Flat alphanumeric1 := by unfold alphanumeric1; infer_instance

instance : Flat stringLiteral where
  out e := by
    obtain ⟨q, hq, rfl, hb, _⟩ := stringLiteral_ok.mp e
    exact ⟨q :: (_ ++ [q]), by simp, .string hq.symm hb .nil⟩

instance : Flat iriRef where
  out e := by
    obtain ⟨rfl, h⟩ := iriRef_ok.mp e
    exact ⟨'<' :: (_ ++ ['>']), by simp, .iri (fun c hc => isIriChar_stops (h c hc)) .nil⟩

instance : Flat hexPrimary := by unfold hexPrimary; infer_instance
instance : Flat (pair (tag ['\\']) (recognize (oneOf pnLocalEsc))) where
  out e := by
    obtain ⟨_, e1, e2⟩ := pair_ok_iff.mp e
    obtain ⟨_, rfl⟩ := tag_ok.mp e1
    obtain ⟨rfl, _, e3⟩ := recognize_ok_iff.mp e2
    obtain ⟨hc, e4⟩ := oneOf_ok.mp e3
    rw [e4]
    exact ⟨['\\', _], rfl, .escape hc .nil⟩
instance : Flat plx := by unfold plx; infer_instance

/-! ## Brackets -/

instance : Opens0 o (char o) where
  out e := by obtain ⟨_, rfl⟩ := char_ok.mp e; exact ⟨[], [], rfl, .nil, .nil⟩
instance : Opens0 o (tag [o]) where
  out e := by obtain ⟨_, rfl⟩ := tag_ok.mp e; exact ⟨[], [], rfl, .nil, .nil⟩
instance [h : Opens0 o p] [h' : Flat q] : Opens0 o (terminated p q) where
  out e := by
    obtain ⟨_, _, e1, e2⟩ := terminated_ok.mp e
    obtain ⟨x, y, rfl, hx, hy⟩ := h.out e1
    obtain ⟨z, rfl, hz⟩ := h'.out e2
    exact ⟨x, y ++ z, by simp, hx, hy.append0 hz⟩
instance [h : Flat p] [h' : Opens0 o q] : Opens0 o (preceded p q) where
  out e := by
    obtain ⟨_, _, e1, e2⟩ := preceded_ok.mp e
    obtain ⟨z, rfl, hz⟩ := h.out e1
    obtain ⟨x, y, rfl, hx, hy⟩ := h'.out e2
    exact ⟨z ++ x, y, by simp, hz.append0 hx, hy⟩
instance [Opens0 o p] : Opens0 o (spEnc p) := by unfold spEnc delimited; infer_instance
instance : Closes0 c (char c) where
  out e := by obtain ⟨_, rfl⟩ := char_ok.mp e; exact ⟨[], [], rfl, .nil, .nil⟩
instance : Closes0 c (tag [c]) where
  out e := by obtain ⟨_, rfl⟩ := tag_ok.mp e; exact ⟨[], [], rfl, .nil, .nil⟩
instance [h : Flat p] [h' : Closes0 c q] : Closes0 c (preceded p q) where
  out e := by
    obtain ⟨_, _, e1, e2⟩ := preceded_ok.mp e
    obtain ⟨z, rfl, hz⟩ := h.out e1
    obtain ⟨x, y, rfl, hx, hy⟩ := h'.out e2
    exact ⟨z ++ x, y, by simp, hz.append0 hx, hy⟩
instance [h : Flat p] [h' : Closes0 c q] : Closes0 c (terminated p q) where
  out e := by
    obtain ⟨_, _, e1, e2⟩ := terminated_ok.mp e
    obtain ⟨z, rfl, hz⟩ := h.out e1
    obtain ⟨x, y, rfl, hx, hy⟩ := h'.out e2
    exact ⟨z ++ x, y, by simp, hz.append0 hx, hy⟩
instance [h : Closes0 c p] : Closes0 c (cut p) where
  out e := h.out (cut_ok.mp e)

end

/-! ## The parsers of the crate -/

section
variable {p : P α} {q : P β} {t : List Char}

instance [KwTag t] [DullTag t] [Flat p] : Flat (precededTag1 t p) := by unfold precededTag1; infer_instance
instance [KwTag t] [DullTag t] [Flat p] : Flat (precededTag t p) := by unfold precededTag; infer_instance
instance [Flat p] : Flat (spEnc p) := by unfold spEnc; infer_instance
instance [Flat p] : Flat (spEnc1 p) := by unfold spEnc1; infer_instance
instance [Flat p] [Flat q] : Flat (spSep1 p q) := by unfold spSep1; infer_instance
instance [Flat p] [Flat q] : Flat (spSep p q) := by unfold spSep; infer_instance
instance : Flat comma := by unfold comma; infer_instance
end

section
instance : Flat hexPrimary := by unfold hexPrimary; infer_instance
instance : Flat plx := by unfold plx; infer_instance
instance : Flat pnCharsBaseOne := by unfold pnCharsBaseOne; infer_instance
instance : Flat pnCharsBase1 := by unfold pnCharsBase1; infer_instance
instance : Flat pnCharsUOne := by unfold pnCharsUOne; infer_instance
instance : Flat pnCharsU1 := by unfold pnCharsU1; infer_instance
instance : Flat pnCharsOne := by unfold pnCharsOne; infer_instance
instance : Flat pnChars1 := by unfold pnChars1; infer_instance
instance : Flat languageTag := by unfold languageTag; infer_instance
instance : Flat pnCharsTail := by unfold pnCharsTail; infer_instance
instance : Flat pnLocalFirst := by unfold pnLocalFirst; infer_instance
instance : Flat pnLocalChunk := by unfold pnLocalChunk; infer_instance
instance : Flat pnLocal := by unfold pnLocal; infer_instance
instance : Flat pnPrefix := by unfold pnPrefix; infer_instance
instance : Flat silent := by unfold silent; infer_instance
instance : Flat distinct := by unfold distinct; infer_instance
instance : Flat boolean := by unfold boolean; infer_instance
instance : Flat sign := by unfold sign; infer_instance
instance : Flat optSign := by unfold optSign; infer_instance
instance : Flat exponent := by unfold exponent; infer_instance
instance : Flat recognizeSparqlFloat := by unfold recognizeSparqlFloat; infer_instance
instance : Flat sparqlDecimal where
  out {i r a} e := by
    unfold sparqlDecimal at e
    split at e
    · cases e
    · rename_i h
      split at e
      · cases e; exact Flat.out h
      · cases e
instance : Flat sparqlInt where
  out {i r a} e := by
    unfold sparqlInt at e
    split at e
    · rename_i h
      split at e
      · cases e
      · split at e
        · cases e; exact Flat.out h
        · cases e
    · cases e
instance : Flat sparqlDouble := by unfold sparqlDouble; infer_instance
instance : Flat numericLiteral := by unfold numericLiteral; infer_instance
instance : Flat varName := by unfold varName; infer_instance
instance : Flat order := by unfold order; infer_instance
instance : Flat selectModifier := by unfold selectModifier; infer_instance

end

/-! ## Names, literals, data -/

instance : Flat pnameNs := by unfold pnameNs; infer_instance
instance : Flat pnameLn := by unfold pnameLn; infer_instance
instance : Flat prefixedName := by unfold prefixedName; infer_instance
instance : Flat iri := by unfold iri; infer_instance
instance : Flat namedIri := by unfold namedIri; infer_instance
instance : Flat defaultOrNamedIri := by unfold defaultOrNamedIri; infer_instance
instance : Flat rdfLiteral := by unfold rdfLiteral; infer_instance
instance : Flat baseDecl := by unfold baseDecl; infer_instance
instance : Flat prefixDecl := by unfold prefixDecl; infer_instance
instance : Flat prologue := by unfold prologue; infer_instance
instance : Flat stringLiteralArg := by unfold stringLiteralArg; infer_instance
instance : Flat var := by unfold var; infer_instance
instance : Flat varOrIri := by unfold varOrIri; infer_instance
instance : Flat verb := by unfold verb; infer_instance
instance : Flat varOrIrisOrAll := by unfold varOrIrisOrAll; infer_instance
instance : Flat graphRef := by unfold graphRef; infer_instance
instance : Flat graphOrDefault := by unfold graphOrDefault; infer_instance
instance : Flat graphRefAll := by unfold graphRefAll; infer_instance
instance : Flat dataSetClause := by unfold dataSetClause; infer_instance
instance : Flat datablockValue := by unfold datablockValue; infer_instance
instance : Flat usingClause := by unfold usingClause; infer_instance
instance {pat : P Str} [Flat pat] : Flat (intClause pat) := by unfold intClause; infer_instance
instance : Flat limitClause := by unfold limitClause; infer_instance
instance : Flat offsetClause := by unfold offsetClause; infer_instance
instance : Flat limitOffsetClause := by unfold limitOffsetClause; infer_instance
instance : Flat optDistinct := by unfold optDistinct; infer_instance
instance : Flat optSilent := by unfold optSilent; infer_instance
instance : Flat pathMod where
  out e := by
    obtain ⟨s, rfl, h⟩ := (inferInstance : Sound pathMod rPathMod).out e
    refine ⟨s, rfl, NestsAt.chars ?_⟩
    rename_i m
    cases m <;> (have : s = _ := h; subst this; decide)
instance : Flat iriOrA := by unfold iriOrA; infer_instance
instance : Flat iriOrAOrCaret := by unfold iriOrAOrCaret; infer_instance
instance : Flat pathOneInPropertySet := by unfold pathOneInPropertySet; infer_instance
instance : Flat separatorEq := by unfold separatorEq; infer_instance

instance : Flat dataSetClauses := by unfold dataSetClauses; infer_instance
instance : Flat silentFromTo := by unfold silentFromTo; infer_instance
instance : Flat silentGraphRefAll := by unfold silentGraphRefAll; infer_instance
instance : Flat addStmt := by unfold addStmt; infer_instance
instance : Flat moveStmt := by unfold moveStmt; infer_instance
instance : Flat copyStmt := by unfold copyStmt; infer_instance
instance : Flat createStmt := by unfold createStmt; infer_instance
instance : Flat dropStmt := by unfold dropStmt; infer_instance
instance : Flat clearStmt := by unfold clearStmt; infer_instance
instance : Flat loadStmt := by unfold loadStmt; infer_instance

end NomSparql
