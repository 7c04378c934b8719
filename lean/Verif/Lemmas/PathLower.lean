import Verif.Lemmas.PathEffort
import Verif.Lemmas.CostLower

/-!
# Paths whose reading is repeated
-/

namespace NomSparql

/-- What is left when a path has been read does not begin with a closing parenthesis, or no path can be read. -/
def Unclosed (x : Str) : Prop := Fails pathAlternative x ∨ ∃ r a, pathAlternative x = .ok r a ∧ NotStart (· = ')') r

namespace Cost

theorem alt_fails {p p₂ : K α} {ps : List (K α)} {i : Input} (h : Fails (erase p) i) : (alt (p :: p₂ :: ps) i).2 = (p i).2 + (alt (p₂ :: ps) i).2 := by
  rcases alt_cases (p := p) (p₂ := p₂) (ps := ps) i with ⟨_, _, h2⟩ | ⟨h1, _, _⟩
  · exact h2
  · obtain ⟨pos, k, e⟩ := h
    exact (h1 pos k e).elim

theorem pair_fails {p : K α} {q : K β} {i : Input} (h : Fails (erase p) i) : (Cost.pair p q i).2 = (p i).2 := by
  obtain ⟨pos, k, e⟩ := h
  unfold Cost.pair
  rw [show (p i).1 = .err (.error pos k) from e]
  rfl

theorem bracketed_cost {p : K α} {x : Str} : (delimited (tag ['(']) p (tag [')']) ('(' :: x)).2 = (p x).2 := by
  show (Cost.pair (tag ['(']) (terminated p (tag [')'])) ('(' :: x)).2 = _
  unfold Cost.pair
  rw [show (tag ['('] ('(' :: x)).1 = .ok x ['('] from rfl]
  show 0 + (Cost.pair p (tag [')']) x).2 = _
  unfold Cost.pair
  split
  · show 0 + (_ + 0) = _; omega
  · omega

theorem unclosed_fails {x : Str} (h : Unclosed x) : Fails (NomSparql.pathPrimaryS NomSparql.pathAlternative) ('(' :: x) := by
  have hb : Fails (NomSparql.delimited (NomSparql.tag ['(']) NomSparql.pathAlternative (NomSparql.tag [')'])) ('(' :: x) := by
    rcases h with h | ⟨r, a, h, hr⟩
    · exact Fails.preceded2 (tag_eval (t := ['('])) (Fails.terminated h)
    · refine Fails.preceded2 (tag_eval (t := ['('])) (Fails.terminated2 h ?_)
      cases r with
      | nil => exact First.nil
      | cons c r => exact First.cons (by simpa using hr c r rfl)
  exact Fails.alt_cons (Fails.map (First.cons rfl)) (Fails.alt_cons (Fails.map (First.cons rfl))
      (Fails.alt_cons (Fails.map (Fails.preceded (First.cons rfl))) (Fails.alt_cons (Fails.map hb) Fails.alt_nil)))

theorem paren_primary {pa : K PathAlternative} {x : Str} : (pathPrimaryS pa ('(' :: x)).2 = (pa x).2 := by
  unfold pathPrimaryS
  have h1 : Fails (erase (map iri PathPrimary.iri)) ('(' :: x) := Fails.map (p := NomSparql.iri) (First.cons rfl)
  have h2 : Fails (erase (map (tag ['a']) (fun _ => PathPrimary.a))) ('(' :: x) := Fails.map (p := NomSparql.tag ['a']) (First.cons rfl)
  have h3 : Fails (erase (map (preceded (tag ['!']) (lift NomSparql.pathNegatedPropertySet)) PathPrimary.pathNegatedPropertySet)) ('(' :: x) :=
    Fails.map (p := NomSparql.preceded (NomSparql.tag ['!']) NomSparql.pathNegatedPropertySet) (Fails.preceded (First.cons rfl))
  rw [alt_fails h1, alt_fails h2, alt_fails h3, alt_one, map_cost, map_cost, map_cost, map_cost, bracketed_cost]
  rw [show (preceded (tag ['!']) (lift NomSparql.pathNegatedPropertySet) ('(' :: x)).2 = 0 from rfl]
  show 0 + (0 + (0 + _)) = _
  omega

/-- A path in parentheses that are not closed: no element, and the path in the parentheses has been read once. -/
theorem unclosed_elt {x : Str} (h : Unclosed x) :
    Fails (erase (pathEltOrInverseS pathAlternative)) ('(' :: x) ∧ (pathEltOrInverseS pathAlternative ('(' :: x)).2 = (pathAlternative x).2 := by
  have hp : Fails (erase (pathPrimaryS pathAlternative)) ('(' :: x) := by
    rw [erase_pathPrimaryS, erase_pathAlternative]
    exact unclosed_fails h
  have hinv : Fails (erase (map (preceded (tag ['^']) (pathEltS pathAlternative)) PathEltOrInverse.inverse)) ('(' :: x) :=
    Fails.map (p := NomSparql.preceded (NomSparql.tag ['^']) (erase (pathEltS pathAlternative))) (Fails.preceded (First.cons rfl))
  have helt : Fails (erase (map (pathEltS pathAlternative) PathEltOrInverse.pathElt)) ('(' :: x) := Fails.map (Fails.map (Fails.pair hp))
  refine ⟨Fails.alt_cons helt (Fails.alt_cons hinv Fails.alt_nil), ?_⟩
  unfold pathEltOrInverseS
  rw [alt_fails helt, alt_one, map_cost, map_cost, inverse_cost]
  unfold pathEltS
  rw [map_cost, pair_fails hp, paren_primary]
  rfl

/-- `a` before a bar is read as an element without any call. -/
theorem a_elt {y : Str} : (∃ v, (pathEltOrInverseS pathAlternative ('a' :: '|' :: y)).1 = .ok ('|' :: y) v) ∧
    (pathEltOrInverseS pathAlternative ('a' :: '|' :: y)).2 = 0 := by
  constructor
  · show ∃ v, erase (pathEltOrInverseS pathAlternative) ('a' :: '|' :: y) = .ok ('|' :: y) v
    rw [erase_pathEltOrInverseS, erase_pathAlternative]
    have hi : Fails NomSparql.iri (['a'] ++ '|' :: y) := iri_fails_word (by refine ⟨by simp, ?_⟩; decide)
      ⟨fun c r' e => by cases e; decide, fun w r' e hw => by
        cases hw with
        | nil => cases e
        | cons ha _ =>
          cases ha with
          | char hc => cases e; revert hc; decide
          | comment => cases e⟩
    have hm : Fails (NomSparql.preceded NomSparql.sp1 NomSparql.pathMod) ('|' :: y) := Fails.preceded (First.cons rfl)
    refine ⟨_, alt_eval1 (map_eval (map_eval (pair_eval (alt_eval2 (Fails.map hi) (alt_eval1 (map_eval (tag_eval (t := ['a']))))) hm.opt)))⟩
  · have h := eltOrInverse_bound (i := 'a' :: '|' :: y) fun x _ => pa_bound x
    exact h.zero rfl

/-- **Doubling.**  What stands in unclosed parentheses after a bar is read twice. -/
theorem double {x : Str} (h : Unclosed x) :
    (∃ v, NomSparql.pathAlternative ('a' :: '|' :: '(' :: x) = .ok ('|' :: '(' :: x) v) ∧
    (pathAlternative ('a' :: '|' :: '(' :: x)).2 = 1 + 2 * (pathAlternative x).2 := by
  obtain ⟨f1, c1⟩ := unclosed_elt h
  obtain ⟨⟨v, e2⟩, c2⟩ := a_elt (y := '(' :: x)
  have hb : (barSep ('|' :: '(' :: x)).1 = .ok ('(' :: x) ['|'] :=
    show NomSparql.delimited NomSparql.sp (NomSparql.tag ['|']) NomSparql.sp _ = _ from
      delimited_eval (sp_zero (not_startsWs_cons rfl)) (tag_eval (t := ['|']) (r := '(' :: x)) (sp_zero (not_startsWs_cons rfl))
  have hne : ('|' :: '(' :: x) ≠ 'a' :: '|' :: '(' :: x := by simp
  have hz : ∀ y, (barSep y).2 = 0 := fun _ => rfl
  obtain ⟨pos, k, f1'⟩ := f1
  have hs : (∃ v, (pathSequenceS pathAlternative ('a' :: '|' :: '(' :: x)).1 = .ok ('|' :: '(' :: x) v) ∧
      (pathSequenceS pathAlternative ('a' :: '|' :: '(' :: x)).2 = (pathAlternative x).2 := by
    constructor
    · show ∃ v, NomSparql.map (NomSparql.separatedNonemptyList (erase barSep) (erase (pathEltOrInverseS pathAlternative))) _ ('a' :: '|' :: '(' :: x) = .ok ('|' :: '(' :: x) v
      unfold NomSparql.map NomSparql.separatedNonemptyList
      rw [show erase (pathEltOrInverseS pathAlternative) ('a' :: '|' :: '(' :: x) = _ from e2]
      simp only
      rw [if_neg hne, sepLoop, show erase barSep ('|' :: '(' :: x) = _ from hb]
      simp only
      rw [if_neg (barSep_ne hb), f1']
      exact ⟨_, rfl⟩
    · show listCost barSep (pathEltOrInverseS pathAlternative) _ = _
      unfold listCost
      rw [e2]
      simp only
      rw [if_neg hne, sepCost, hb]
      simp only
      rw [if_neg (barSep_ne hb), show (pathEltOrInverseS pathAlternative ('(' :: x)).1 = _ from f1', c1, c2, hz]
      simp only
      omega
  obtain ⟨⟨v', e3⟩, c3⟩ := hs
  obtain ⟨⟨v2, e4⟩, c4⟩ := alternative_dirty e3 hne hb ⟨pos, k, f1'⟩
  refine ⟨⟨v2, ?_⟩, ?_⟩
  · rw [← erase_pathAlternative]
    show (pathAlternative _).1 = _
    rw [fst_pathAlternative, e4]
  · rw [pathAlternative_cost, c4, c3, c1]
    omega

theorem double_unclosed {x : Str} (h : Unclosed x) : Unclosed ('a' :: '|' :: '(' :: x) := by
  obtain ⟨⟨v, e⟩, _⟩ := double h
  exact .inr ⟨_, v, e, fun c r e => by cases e; decide⟩

/-! ## The first triples block of an ASK query -/

@[simp] theorem erase_many0 (p : K α) : erase (many0 p) = NomSparql.many0 (erase p) := rfl
@[simp] theorem erase_pathAlternative' : erase pathAlternative = NomSparql.pathAlternative := erase_pathAlternative
@[simp] theorem erase_verbPathOrSimple : erase verbPathOrSimple = NomSparql.verbPathOrSimple := by simp [verbPathOrSimple, NomSparql.verbPathOrSimple]
@[simp] theorem erase_propertyListPathEntry : erase propertyListPathEntry = NomSparql.propertyListPathEntry := by
  simp [propertyListPathEntry, NomSparql.propertyListPathEntry]
@[simp] theorem erase_propertyListPathNotEmptyS (gn : K GraphNodePath) : erase (propertyListPathNotEmptyS gn) = NomSparql.propertyListPathNotEmptyS (erase gn) := by
  simp [propertyListPathNotEmptyS, NomSparql.propertyListPathNotEmptyS, objectListPathS, NomSparql.objectListPathS]
@[simp] theorem erase_triplesNodePathS (gn : K GraphNodePath) : erase (triplesNodePathS gn) = NomSparql.triplesNodePathS (erase gn) := by
  simp [triplesNodePathS, NomSparql.triplesNodePathS, blankNodePropertyListPathS, NomSparql.blankNodePropertyListPathS]
@[simp] theorem erase_graphNodePathStep (gn : K GraphNodePath) : erase (graphNodePathStep gn) = NomSparql.graphNodePathStep (erase gn) := by
  simp [graphNodePathStep, NomSparql.graphNodePathStep]
theorem erase_graphNodePathF : ∀ n, erase (graphNodePathF n) = NomSparql.graphNodePathF n
  | 0 => rfl
  | n + 1 => by rw [graphNodePathF, erase_graphNodePathStep, erase_graphNodePathF n, NomSparql.graphNodePathF]
theorem fst_graphNodePathF (n : Nat) (i : Input) : (graphNodePathF n i).1 = NomSparql.graphNodePathF n i := by
  rw [← erase_graphNodePathF n]; rfl
@[simp] theorem erase_graphNodePath : erase graphNodePath = NomSparql.graphNodePath := funext fun i => fst_graphNodePathF (i.length + 1) i
@[simp] theorem erase_triplesSameSubjectPath : erase triplesSameSubjectPath = NomSparql.triplesSameSubjectPath := by
  simp [triplesSameSubjectPath, NomSparql.triplesSameSubjectPath, NomSparql.spSep1, NomSparql.spSep, NomSparql.propertyListPathNotEmpty,
    NomSparql.triplesNodePath, NomSparql.propertyListPath, NomSparql.propertyListPathS]
@[simp] theorem erase_pathTriplesBlock : erase pathTriplesBlock = NomSparql.triplesBlock := by simp [pathTriplesBlock, NomSparql.triplesBlock]
@[simp] theorem erase_firstSub : erase firstSub = NomSparql.groupGraphPatternSubS NomSparql.R₀ := by
  simp [firstSub, NomSparql.groupGraphPatternSubS]
@[simp] theorem erase_firstGroup : erase firstGroup = NomSparql.groupGraphPatternStep NomSparql.R₀ := by
  simp [firstGroup, NomSparql.groupGraphPatternStep, NomSparql.subSelect]
@[simp] theorem erase_firstWhere : erase firstWhere = NomSparql.whereClause := by
  rw [firstWhere, erase_preceded, erase_firstGroup, ← NomSparql.groupGraphPattern_eq]
  simp [NomSparql.whereClause, NomSparql.whereClauseS, NomSparql.R₀]
@[simp] theorem erase_firstAsk : erase firstAsk = NomSparql.askQuery := by simp [firstAsk, NomSparql.askQuery]
@[simp] theorem erase_firstQuery : erase firstQuery = NomSparql.sparqlQuery := by simp [firstQuery, NomSparql.sparqlQuery]
theorem erase_firstStmt : erase firstStmt = NomSparql.sparqlQueryStmt := by simp [firstStmt, NomSparql.sparqlQueryStmt]

/-- The path of the first triple of the pattern of an ASK query. -/
theorem ask_cost {n : Nat} {x : Str} (hx : ¬ StartsWs x) (hc : NotStart (· = ':') x) (h : n ≤ (pathAlternative x).2) : n ≤ (firstStmt (c!"ask {?s " ++ x)).2 := by
  have hk : CaseVariant c!"ask" c!"ask" := kw_rfl rfl
  have hp := C24_prologue ⟨[]⟩ [] (c!"ask" ++ (c!" {?s " ++ x)) rfl (noDecl (w := []) .nil hk (by simp))
  have hs : NomSparql.varOrTerm (c!"?s" ++ ' ' :: x) = .ok (' ' :: x) (.var (.qmark c!"s")) :=
    varOrTerm_accepts _ _ _ (show cVar (.qmark c!"s") c!"?s" from ⟨rfl, by simp [varNameOf], by decide⟩) (Follow.ws (w := c!" ") (ws1_rfl rfl).1 (.inl (by simp)) hx hc)
  have hb : n ≤ (pathTriplesBlock (c!"?s" ++ ' ' :: x)).2 := by
    unfold pathTriplesBlock
    rw [map_cost]
    refine cost_list ?_
    unfold triplesSameSubjectPath
    rw [alt_cost]
    refine cost_alt_head ?_
    rw [map_cost]
    refine cost_pair_snd (p := lift varOrTerm) hs (cost_preceded (p := sp1) (sp1_eval (w := c!" ") (ws1_rfl rfl) hx) ?_)
    unfold propertyListPathNotEmptyS
    rw [map_cost]
    refine cost_pair_fst (cost_terminated ?_)
    unfold verbPathOrSimple
    rw [alt_cost]
    exact cost_alt_head h
  have hg : n ≤ (firstGroup ('{' :: (c!"?s" ++ ' ' :: x))).2 := by
    unfold firstGroup
    refine cost_delimited (p := char '{') kchar_eval (cost_delimited (p := sp) (sp_zero (r := '?' :: 's' :: ' ' :: x) (not_startsWs_cons rfl)) ?_)
    rw [alt_cost]
    refine cost_alt_tail (Fails.map (p := NomSparql.subSelect) (First.cons rfl)) ?_
    refine cost_alt_head ?_
    rw [map_cost]
    unfold firstSub
    rw [map_cost]
    exact cost_pair_fst (cost_terminated (p := pathTriplesBlock) hb)
  have ha : n ≤ (firstAsk (c!"ask" ++ (c!" {?s " ++ x))).2 := by
    have hd : NomSparql.dataSetClauses ('{' :: '?' :: 's' :: ' ' :: x) = .ok ('{' :: '?' :: 's' :: ' ' :: x) [] :=
      Fails.sep0 (p := NomSparql.dataSetClause) (First.cons rfl)
    unfold firstAsk
    rw [map_cost]
    refine cost_pair_snd (p := terminated (tagNoCase c!"ask") sp1) (terminated_eval (kw_eval hk) (sp1_eval (w := c!" ") (r := '{' :: '?' :: 's' :: ' ' :: x) (ws1_rfl rfl) (not_startsWs_cons rfl))) ?_
    refine cost_pair_snd (p := terminated dataSetClauses sp) (terminated_eval hd (sp_zero (r := '{' :: '?' :: 's' :: ' ' :: x) (not_startsWs_cons rfl))) ?_
    refine cost_pair_fst (cost_terminated ?_)
    exact cost_preceded (p := opt (terminated (tagNoCase c!"where") sp1))
      (Fails.opt (p := NomSparql.terminated (NomSparql.tagNoCase c!"where") NomSparql.sp1) (i := '{' :: '?' :: 's' :: ' ' :: x) (First.cons rfl)) hg
  have hq : n ≤ (firstQuery (c!"ask" ++ (c!" {?s " ++ x))).2 := by
    unfold firstQuery
    rw [alt_cost]
    refine cost_alt_tail (Fails.map (p := NomSparql.selectQuery) (First.cons rfl)) ?_
    refine cost_alt_tail (Fails.map (p := NomSparql.constructQuery) (First.cons rfl)) ?_
    refine cost_alt_tail (Fails.map (p := NomSparql.describeQuery) (First.cons rfl)) ?_
    exact cost_alt_head ha
  unfold firstStmt tuple3
  rw [map_cost]
  exact cost_pair_snd (p := terminated prologue sp) (terminated_eval hp (sp_zero (not_startsWs_cons rfl))) (cost_pair_fst hq)

end Cost
end NomSparql
