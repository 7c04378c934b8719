import Verif.Lemmas.Dead
import Verif.Spec.CanonQuery
import Verif.Props.C24_C29

/-!
# C33 to C37: triples in WHERE and in templates
-/

namespace NomSparql

set_option maxRecDepth 8000

theorem sep1_one {sep : Lang} {R : α → Lang} {a : α} {s : Str} (h : R a s) : Sep1 sep R [a] s := ⟨s, [], by simp, h, rfl⟩

/-! ## C33: triple patterns in WHERE -/

/-- An IRI or the keyword `a`. -/
def cPredicate : Lang := fun s => (∃ i, cIri i s) ∨ s = c!"a"

theorem triplesNodePath_fails (v : VarOrTerm) (s r : Str) (h : cVarOrTerm v s) : Fails triplesNodePath (s ++ r) := by
  have key : ∀ c t, s = c :: t → c ≠ '(' → c ≠ '[' → Fails triplesNodePath (s ++ r) := by
    rintro c t rfl h1 h2
    exact First.cons (by simp [h1, h2])
  cases v with
  | var v =>
    obtain ⟨rfl, _⟩ := h
    cases v <;> exact key _ _ rfl (by simp [sigil]) (by simp [sigil])
  | term t =>
    cases t with
    | iri i =>
      obtain ⟨c, t, rfl, rfl | hc⟩ := cIri_head h
      · exact key _ _ rfl (by decide) (by decide)
      · refine key _ _ rfl ?_ ?_ <;> (rintro rfl; cases hc)
    | rdfLiteral l => obtain ⟨t, rfl | rfl⟩ := cRdfLiteral_head h <;> exact key _ _ rfl (by decide) (by decide)
    | numericLiteral n =>
      obtain ⟨c, t, rfl, hc⟩ := cNumericLiteral_head h
      exact key _ _ rfl (by rintro rfl; revert hc; decide) (by rintro rfl; revert hc; decide)
    | booleanLiteral b =>
      rcases rBoolean_kw h with h | h <;>
      · obtain ⟨y, k', rfl, hs, _⟩ := CaseVariant.cons_iff.mp h
        rcases sameLetter_cases hs with rfl | rfl <;> exact key _ _ rfl (by decide) (by decide)
    | blankNode b =>
      cases b with
      | anon =>
        obtain ⟨_, _, rfl, rfl, w, _, rfl, hw, rfl⟩ := h
        simp only [List.append_assoc]
        exact Fails.alt_cons (Fails.map (Fails.delimited2 (terminated_eval (r := w ++ (']' :: r)) (tag_eval (t := ['[']))
          (sp_eval hw (not_startsWs_cons rfl))) (First.cons rfl))) (Fails.map (Fails.delimited (First.cons (c := '[') rfl)))
      | label l => obtain ⟨rfl, _⟩ := h; exact key _ _ rfl (by decide) (by decide)
    | nil =>
      obtain ⟨_, _, rfl, rfl, w, _, rfl, hw, rfl⟩ := h
      simp only [List.append_assoc]
      refine Fails.alt_cons (Fails.map (Fails.delimited (Fails.terminated (First.cons (c := '(') rfl)))) (Fails.map (Fails.delimited2
        (r := w ++ (')' :: r)) (tag_eval (t := ['('])) (Fails.many1 ?_)))
      cases w with
      | nil => exact First.cons rfl
      | cons c w =>
        have hi := iri_fails_ws (x := ')' :: r) hw (by simp) (not_startsWs_cons rfl) (notStart_cons (by decide))
        rw [graphNodePath_eq]
        rcases wsStart_iff.mp (ws_first hw _ _ rfl) with rfl | rfl | rfl | rfl | rfl <;>
        · refine Fails.alt_cons (Fails.map (Fails.alt_cons (Fails.map (First.cons rfl)) (Fails.map ?_))) (Fails.map (First.cons rfl))
          exact Fails.alt_cons (Fails.map hi) (Fails.alt_cons (Fails.map (First.cons rfl)) (Fails.alt_cons (Fails.map (First.cons rfl))
            (Fails.alt_cons (Fails.map (First.cons rfl)) (Fails.alt_cons (Fails.map (First.cons rfl)) (Fails.map (First.cons rfl))))))

theorem predicate_primary {p : Str} (h : cPredicate p) : ∃ x, ∀ r, Follow r → pathPrimary (p ++ r) = .ok r x := by
  rcases h with ⟨i, h⟩ | rfl
  · exact ⟨.iri i, fun r hr => (primary_accepts (.iri h)).2 r hr⟩
  · exact ⟨.a, fun r hr => (primary_accepts .a).2 r hr⟩

theorem predicate_toks : Toks cPredicate := by
  rintro s (⟨i, h⟩ | rfl)
  · exact cIri_toks i s h
  · exact ⟨_, _, rfl, by decide⟩

theorem path_one {i r : Str} {e : PathEltOrInverse} (h : pathEltOrInverse i = .ok r e) (hr : Fails (delimited sp (tag ['|']) sp) r) :
    pathAlternative i = .ok r (.mk [.mk [e]]) := by
  obtain ⟨_, _, hr⟩ := hr
  have h1 : pathSequence i = .ok r (.mk [e]) :=
    map_eval (f := PathSequence.mk) (separatedNonemptyList_ok.mpr ⟨e, [], r, rfl, h, consumes_ne h, .stopSep hr⟩)
  rw [pathAlternative_eq]
  exact map_eval (f := PathAlternative.mk) (separatedNonemptyList_ok.mpr ⟨_, [], r, rfl, h1, consumes_ne h, .stopSep hr⟩)

theorem isMod {m : Char} (hm : m ∈ ['?', '*', '+']) : wsStart m = false ∧ m ≠ ':' ∧ m.toNat < 128 ∧ ∃ x, PathMod.fromStr [m] = some x := by
  simp only [List.mem_cons, List.not_mem_nil, or_false] at hm
  rcases hm with rfl | rfl | rfl <;> exact ⟨by decide, by decide, by decide, _, rfl⟩

/-- After the predicate the first character of the object is taken as a path modifier. -/
theorem mod_eaten {p w x : Str} {m : Char} (hp : cPredicate p) (hw : Ws1 w) (hm : m ∈ ['?', '*', '+']) (hx : ¬ StartsWs x)
    (hb : NotStart (· = '|') x) : Fails propertyListPathNotEmpty (p ++ (w ++ m :: x)) := by
  obtain ⟨pp, hpp⟩ := predicate_primary hp
  obtain ⟨h1, h2, h3, y, h4⟩ := isMod hm
  have hn : ¬ StartsWs (m :: x) := not_startsWs_cons h1
  have hF : Follow (w ++ m :: x) := Follow.ws hw.1 (.inl hw.2) hn (notStart_cons h2)
  have he : pathElt (p ++ (w ++ m :: x)) = .ok x (.mk pp (some y)) :=
    map_eval (a := (pp, some y)) (f := fun x => PathElt.mk x.1 x.2)
      (pair_eval (hpp _ hF) (opt_eval (preceded_eval (sp1_eval hw hn) (pathMod_eval h4 h3))))
  have hei : pathEltOrInverse (p ++ (w ++ m :: x)) = .ok x (.pathElt (.mk pp (some y))) :=
    alt_eval1 (map_eval (f := PathEltOrInverse.pathElt) he)
  have hpa := path_one hei (bar_fails (w := []) .nil hx hb)
  exact Fails.map (Fails.tuple3 (Fails.terminated2 (alt_eval1 (map_eval (f := VerbPathOrSimple.path) hpa)) (sp1_fails hx)))

theorem subject_fails {o : VarOrTerm} {s w x : Str} (h : cVarOrTerm o s) (hw : Ws1 w) (hx : ¬ StartsWs x) (hc : NotStart (· = ':') x)
    (hp : Fails propertyListPathNotEmpty x) : Fails triplesSameSubjectPath (s ++ (w ++ x)) :=
  Fails.alt_cons (Fails.map (Fails.pair2 (varOrTerm_accepts o s _ h (Follow.ws hw.1 (.inl hw.2) hx hc)) (Fails.preceded2 (sp1_eval hw hx) hp)))
    (Fails.map (Fails.separatedPair (triplesNodePath_fails o s _ h)))

/-- Whatever the subject, an IRI (or `a`) as predicate and an object whose text begins with a character of the path modifiers:
the group is rejected, whatever follows. -/
theorem C33_modifier_violated (o : VarOrTerm) (w0 s w1 p w2 x : Str) (m : Char) (hw0 : Ws w0) (hs : cVarOrTerm o s) (hw1 : Ws1 w1)
    (hp : cPredicate p) (hw2 : Ws1 w2) (hm : m ∈ ['?', '*', '+']) (hx : ¬ StartsWs x) (hb : NotStart (· = '|') x) :
    ∃ pos k, groupGraphPattern ('{' :: (w0 ++ (s ++ (w1 ++ (p ++ (w2 ++ m :: x)))))) = .err (.error pos k) := by
  obtain ⟨c, t, rfl, hc⟩ := predicate_toks p hp
  exact group_fails hw0 hs (Fails.map (Fails.sep1 (subject_fails hs hw1 (hc.not_startsWs _) (notStart_cons (hc.ne (by simp)))
    (mod_eaten hp hw2 hm hx hb))))

theorem varName_head {v : Var} {s : Str} (h : cVar v s) (r : Str) :
    ¬ StartsWs (varNameOf v ++ r) ∧ NotStart (· = '|') (varNameOf v ++ r) := by
  obtain ⟨_, h1, h2⟩ := h
  cases hv : varNameOf v with
  | nil => exact absurd hv h1
  | cons c t =>
    rw [hv] at h2
    have := (h2 c (by simp)).1
    refine ⟨not_startsWs_cons ?_, notStart_cons (by rintro rfl; exact absurd this (by decide))⟩
    cases hs : wsStart c with
    | false => rfl
    | true => rcases wsStart_iff.mp hs with rfl | rfl | rfl | rfl | rfl <;> exact absurd this (by decide)

/-- In particular every basic triple pattern `subject predicate ?object` is rejected. -/
theorem C33_violated (o : VarOrTerm) (n w0 s w1 p w2 v r : Str) (hw0 : Ws w0) (hs : cVarOrTerm o s) (hw1 : Ws1 w1)
    (hp : cPredicate p) (hw2 : Ws1 w2) (hv : cVar (.qmark n) v) :
    ∃ pos k, groupGraphPattern ('{' :: (w0 ++ (s ++ (w1 ++ (p ++ (w2 ++ (v ++ r))))))) = .err (.error pos k) := by
  have h := varName_head hv r
  obtain ⟨rfl, _⟩ := hv
  exact C33_modifier_violated o w0 s w1 p w2 (n ++ r) '?' hw0 hs hw1 hp hw2 (by simp) h.1 h.2

theorem sparqlQuery_ask_fails {k w g : Str} (hk : CaseVariant c!"ask" k) (hw : Ws1 w) (hg : Fails groupGraphPattern ('{' :: g)) :
    Fails sparqlQuery (k ++ (w ++ '{' :: g)) := by
  have n3 : ¬ StartsWs ('{' :: g) := not_startsWs_cons rfl
  refine Fails.alt_cons (Fails.map (Fails.map (Fails.tuple4 (Fails.terminated (Fails.map (Fails.tuple3 (kw_fails hk (by decide)))))))) ?_
  refine Fails.alt_cons (Fails.map (Fails.preceded (Fails.terminated (kw_fails hk (by decide))))) ?_
  refine Fails.alt_cons (Fails.map (Fails.map (Fails.tuple5 (kw_fails hk (by decide))))) ?_
  refine Fails.map (Fails.map (Fails.pair2 (terminated_eval (kw_eval hk) (sp1_eval hw n3))
    (Fails.pair2 (terminated_eval (Fails.sep0 (First.cons (c := '{') rfl)) (sp_zero n3)) (Fails.pair (Fails.terminated ?_)))))
  exact Fails.preceded2 (Fails.opt (Fails.terminated (First.cons (c := '{') rfl))) hg

theorem sparqlQuery_select_fails {k w w' g : Str} (hk : CaseVariant c!"select" k) (hw : Ws1 w) (hw' : Ws1 w')
    (hg : Fails groupGraphPattern ('{' :: g)) : Fails sparqlQuery (k ++ (w ++ '*' :: (w' ++ '{' :: g))) := by
  have n3 : ¬ StartsWs ('{' :: g) := not_startsWs_cons rfl
  have n1 : ¬ StartsWs ('*' :: (w' ++ '{' :: g)) := not_startsWs_cons rfl
  refine Fails.alt_cons ?_ ?_
  · refine Fails.map (Fails.map (Fails.pair2 (terminated_eval (map_eval (tuple3_eval (kw_eval hk)
      (Fails.opt (Fails.preceded2 (sp1_eval hw n1) (First.cons (c := '*') rfl))) (preceded_eval (sp1_eval hw n1)
        (alt_eval1 (map_eval (f := fun _ => SelectVars.all) char_eval))))) (sp1_eval hw' n3))
      (Fails.pair2 (Fails.sep0 (First.cons (c := '{') rfl)) (Fails.pair (Fails.delimited2 (sp_zero n3) ?_)))))
    exact Fails.preceded2 (Fails.opt (Fails.terminated (First.cons (c := '{') rfl))) hg
  refine Fails.alt_cons (Fails.map (Fails.preceded (Fails.terminated (kw_fails hk (by decide))))) ?_
  refine Fails.alt_cons (Fails.map (Fails.map (Fails.tuple5 (kw_fails hk (by decide))))) ?_
  exact Fails.map (Fails.map (Fails.tuple4 (Fails.terminated (kw_fails hk (by decide)))))

theorem stmt_fails {u k x : Str} (hk : CaseVariant u k) (hu : u ∈ [c!"ask", c!"select", c!"construct", c!"describe"])
    (hq : Fails sparqlQuery (k ++ x)) : Fails sparqlQueryStmt (k ++ x) := by
  have n1 : ¬ StartsWs (k ++ x) := by
    simp only [List.mem_cons, List.not_mem_nil, or_false] at hu
    rcases hu with rfl | rfl | rfl | rfl <;> exact kw_not_ws hk (by decide)
  have := C24_prologue ⟨[]⟩ [] (k ++ x) rfl (noDecl (w := []) .nil hk hu)
  exact Fails.map (Fails.pair2 (terminated_eval this (sp_zero n1)) (Fails.pair hq))

/-- `ASK { s <p> ?o ...` is rejected ... -/
theorem C33_ask_violated (o : VarOrTerm) (n k w w0 s w1 p w2 v r : Str) (hk : CaseVariant c!"ask" k) (hw : Ws1 w) (hw0 : Ws w0)
    (hs : cVarOrTerm o s) (hw1 : Ws1 w1) (hp : cPredicate p) (hw2 : Ws1 w2) (hv : cVar (.qmark n) v) :
    ∃ pos e, sparqlQueryStmt (k ++ (w ++ '{' :: (w0 ++ (s ++ (w1 ++ (p ++ (w2 ++ (v ++ r)))))))) = .err (.error pos e) :=
  stmt_fails hk (by simp) (sparqlQuery_ask_fails hk hw (C33_violated o n w0 s w1 p w2 v r hw0 hs hw1 hp hw2 hv))

/-- ... and so is `SELECT * { s <p> ?o ...`. -/
theorem C33_select_violated (o : VarOrTerm) (n k w w' w0 s w1 p w2 v r : Str) (hk : CaseVariant c!"select" k) (hw : Ws1 w) (hw' : Ws1 w')
    (hw0 : Ws w0) (hs : cVarOrTerm o s) (hw1 : Ws1 w1) (hp : cPredicate p) (hw2 : Ws1 w2) (hv : cVar (.qmark n) v) :
    ∃ pos e, sparqlQueryStmt (k ++ (w ++ '*' :: (w' ++ '{' :: (w0 ++ (s ++ (w1 ++ (p ++ (w2 ++ (v ++ r)))))))))
      = .err (.error pos e) :=
  stmt_fails hk (by simp) (sparqlQuery_select_fails hk hw hw' (C33_violated o n w0 s w1 p w2 v r hw0 hs hw1 hp hw2 hv))

theorem PatternEnd.brace {w r : Str} (hw : Ws w) : PatternEnd true (w ++ '}' :: r) :=
  .of (Follow.ws_close hw (by simp)) hw (not_startsWs_cons rfl) (notStart_cons (by simp))

theorem patterns_head {l : List Pattern} {s : Str} (h : cPatterns l s) : ∃ o x y, s = x ++ y ∧ cVarOrTerm o x := by
  cases l with
  | nil => exact h.elim
  | cons a l => obtain ⟨_, z, rfl, ⟨x, y, rfl, hx, _⟩, _⟩ := h; exact ⟨_, x, y ++ z, by simp, hx⟩

/-- The group with a block of patterns read, up to `r`. -/
theorem groupSub_patterns {l : List Pattern} {w s w' x : Str} {c : Char} (hw : Ws w) (h : cPatterns l s) (hw' : Ws w') (hc : wsStart c = false)
    (hb : triplesBlock (s ++ (w' ++ c :: x)) = .ok (w' ++ c :: x) (.mk (l.map Pattern.ast)))
    (hn : Fails (groupGraphPatternAndTriplesS R₀) (c :: x)) :
    spEnc (alt [map (subSelectS R₀) GroupGraphPattern.subSelect, map (groupGraphPatternSubS R₀) .groupGraphPatternSub])
      (w ++ (s ++ (w' ++ c :: x))) = .ok (c :: x) (.groupGraphPatternSub (.mk (some (.mk (l.map Pattern.ast))) [])) := by
  obtain ⟨o, a, b, rfl, ha⟩ := patterns_head h
  have hn' := (patterns_toks l).not_startsWs h (w' ++ c :: x)
  have h1 : groupGraphPatternSubS R₀ (a ++ b ++ (w' ++ c :: x)) = .ok (c :: x) (.mk (some (.mk (l.map Pattern.ast))) []) := by
    unfold groupGraphPatternSubS
    exact map_eval (a := (some (TriplesBlock.mk (l.map Pattern.ast)), [])) (f := fun x => GroupGraphPatternSub.mk x.1 x.2)
      (pair_eval (opt_eval (terminated_eval hb (sp_eval hw' (not_startsWs_cons hc)))) (Fails.sep0 hn))
  refine delimited_eval (sp_eval hw hn') (alt_eval2 (Fails.map ?_) (map_eval (f := GroupGraphPattern.groupGraphPatternSub) h1))
    (sp_zero (not_startsWs_cons hc))
  rw [List.append_assoc]
  exact subSelect_fails ha _

/-- Groups of patterns are accepted and returned in order, when every object is a term or `$` variable or the predicate is a
variable.  Missing for the full property: `?` objects after a path, see `C33_violated`. -/
theorem C33_patterns_partial (l : List Pattern) (w s w' r : Str) (hw : Ws w) (h : cPatterns l s) (hw' : Ws w') :
    groupGraphPattern ('{' :: (w ++ (s ++ (w' ++ '}' :: r)))) =
      .ok r (.groupGraphPatternSub (.mk (some (.mk (l.map Pattern.ast))) [])) := by
  rw [groupGraphPattern_eq]
  refine delimited_eval char_eval (groupSub_patterns hw h hw' rfl ?_ (First.cons rfl)) char_eval
  exact patterns_accept l s _ h (by simp) (PatternEnd.brace hw')
    (.inl (Fails.many1 (Fails.delimited2 (sp_eval hw' (not_startsWs_cons rfl)) (First.cons rfl))))

/-- Patterns with a dot after the last one are rejected. -/
theorem C33_final_dot_violated (l : List Pattern) (w s d r : Str) (hw : Ws w) (h : cPatterns l s) (hd : cDots d) :
    ∃ pos k, groupGraphPattern ('{' :: (w ++ (s ++ (d ++ '}' :: r)))) = .err (.error pos k) := by
  obtain ⟨y, hy, _⟩ := cDots_eval (r := '}' :: r) hd (not_startsWs_cons rfl) (notStart_cons (by decide)) (.inl rfl)
  obtain ⟨w', _, rfl, hw', _, x, rfl, rfl, hx⟩ := hd
  simp only [List.append_assoc] at hy ⊢
  rw [groupGraphPattern_eq]
  refine Fails.delimited3 char_eval (groupSub_patterns (c := '.') (x := x ++ '}' :: r) hw h hw'.1 rfl ?_ (First.cons rfl)) (char_fails (by decide))
  refine patterns_accept (b := true) l s _ h (by simp) (.of ?_ hw'.1 (not_startsWs_cons rfl) (notStart_cons (by simp)))
    (.inr ⟨_, _, hy, ?_, First.cons rfl⟩)
  · exact Follow.ws hw'.1 (.inl hw'.2) (not_startsWs_cons rfl) (notStart_cons (by decide))
  · exact Ne.symm (by
      intro e
      have := congrArg List.length e
      simp at this
      omega)

/-! Cases of C33. -/
example : cPredicate c!"<p>" := .inl ⟨.iri c!"p", rfl, by simp [CIriChar]; decide⟩
example : ∃ e, sparqlQueryStmt c!"SELECT * WHERE { ?s <p> ?o }" = .err e := ⟨_, rfl⟩
example : ∃ e, groupGraphPattern c!"{ ?s a ?o }" = .err e := ⟨_, rfl⟩
example : ∃ e, groupGraphPattern c!"{ ?s <p> +5 }" = .err e := ⟨_, rfl⟩
example : ∃ e, groupGraphPattern c!"{ ?s ?p <o> . }" = .err e := ⟨_, rfl⟩
example : groupGraphPattern c!"{ ?s ?p ?o . <a> <p> $o }" = .ok [] (.groupGraphPatternSub (.mk (some (.mk [
    .term (.var (.qmark c!"s")) (.mk (.simple (.qmark c!"p")) [.varOrTerm (.var (.qmark c!"o"))] []),
    .term (.term (.iri (.iri c!"a"))) (.mk (.path (.mk [.mk [.pathElt (.mk (.iri (.iri c!"p")) none)]]))
      [.varOrTerm (.var (.dollar c!"o"))] [])])) [])) := rfl


/-! ## C34: triples templates -/

theorem triples_ne {l : List TriplesSameSubject} {s : Str} (h : cTriples l s) : l ≠ [] := by
  rintro rfl; exact h

/-- The template of a CONSTRUCT query is returned as written: subjects, verbs and object lists in order. -/
theorem C34_construct_template (l : List TriplesSameSubject) (s r : Str) (h : cConstructTemplate l s) :
    constructTemplate (s ++ r) = .ok r l := by
  obtain ⟨_, _, rfl, rfl, w, _, rfl, hw, x, _, rfl, hx, w', _, rfl, hw', rfl⟩ := h
  simp only [List.append_assoc]
  rcases hx with ⟨rfl, rfl⟩ | hx
  · rw [List.nil_append]
    refine delimited_eval (r1 := '}' :: r) (terminated_eval (r := w ++ (w' ++ '}' :: r)) (b := w ++ w') char_eval ?_) (Fails.sep0 (First.cons rfl))
      (preceded_eval (sp_zero (not_startsWs_cons rfl)) char_eval)
    rw [← List.append_assoc]
    exact sp_eval (hw.append hw') (not_startsWs_cons rfl)
  · obtain ⟨r1, h1, _, h2⟩ := triples_accept l x (w' ++ '}' :: r) hx ⟨false, [], w', _, rfl, rfl, hw', tplEnd_brace _ _⟩
    refine delimited_eval (c := '}') (terminated_eval (r := w ++ (x ++ (w' ++ '}' :: r))) char_eval
      (sp_eval hw ((triplesTemplate_toks l).not_startsWs hx _))) h2 ?_
    rw [h1.preceded]
    exact preceded_eval (sp_eval hw' (not_startsWs_cons rfl)) char_eval

/-- Triples with an optional dot after the last (WHERE of the short form of CONSTRUCT, quad blocks). -/
theorem C34_block (o : Option (List TriplesSameSubject)) (s r : Str) (h : cBlock o s) :
    delimited (char '{') (spEnc (opt triplesTemplate)) (char '}') (s ++ r) = .ok r o := block_accept o s r h

/-- Quad data: the triples and the named graphs, in order. -/
theorem C34_quads (q : Quads) (s r : Str) (h : cQuads q s) : quadsPattern (s ++ r) = .ok r q := quads_accept q s r h

theorem modifier_nil : solutionModifier [] = .ok [] (.mk none none none none) :=
  modifier_none not_startsWs_nil (by intro t ht; simp only [List.mem_cons, List.not_mem_nil, or_false] at ht; rcases ht with rfl | rfl | rfl | rfl | rfl <;> exact ⟨_, _, rfl⟩)

/-- A whole query `CONSTRUCT template WHERE { patterns }`. -/
theorem C34_construct_query (l : List TriplesSameSubject) (ps : List Pattern) (k w s w1 k' w2 w3 t w4 : Str)
    (hk : CaseVariant c!"construct" k) (hw : Ws1 w) (hs : cConstructTemplate l s) (hw1 : Ws1 w1) (hk' : CaseVariant c!"where" k')
    (hw2 : Ws1 w2) (hw3 : Ws w3) (ht : cPatterns ps t) (hw4 : Ws w4) :
    sparqlQueryStmt (k ++ (w ++ (s ++ (w1 ++ (k' ++ (w2 ++ '{' :: (w3 ++ (t ++ (w4 ++ ['}']))))))))) = .ok [] {
      prologue := ⟨[]⟩
      query := .construct (.subConstruct {
        constructTemplate := l, datasetClauses := []
        whereClause := .groupGraphPatternSub (.mk (some (.mk (ps.map Pattern.ast))) []), solutionModifier := .mk none none none none })
      values := none } := by
  have hg := C33_patterns_partial ps w3 t w4 [] hw3 ht hw4
  have hT := fun r => C34_construct_template l s r hs
  have nS : ∀ r, ¬ StartsWs (s ++ r) := by
    obtain ⟨_, _, rfl, rfl, _⟩ := hs
    exact fun r => not_startsWs_cons rfl
  generalize eG : GroupGraphPattern.groupGraphPatternSub (.mk (some (.mk (ps.map Pattern.ast))) []) = G at hg ⊢
  have n0 : ¬ StartsWs ('{' :: (w3 ++ (t ++ (w4 ++ ['}'])))) := not_startsWs_cons rfl
  generalize '{' :: (w3 ++ (t ++ (w4 ++ ['}']))) = g at hg n0 ⊢
  have n1 : ¬ StartsWs (k ++ (w ++ (s ++ (w1 ++ (k' ++ (w2 ++ g)))))) := kw_not_ws hk (by decide)
  have n2 : ¬ StartsWs (k' ++ (w2 ++ g)) := kw_not_ws hk' (by decide)
  have hp := C24_prologue ⟨[]⟩ [] (k ++ (w ++ (s ++ (w1 ++ (k' ++ (w2 ++ g)))))) rfl (noDecl (w := []) .nil hk (by simp))
  have hd : dataSetClauses (k' ++ (w2 ++ g)) = .ok (k' ++ (w2 ++ g)) [] := Fails.sep0 (Fails.preceded (Fails.terminated (kw_fails hk' (by decide))))
  have hwc : whereClause (k' ++ (w2 ++ g)) = .ok [] G :=
    preceded_eval (opt_eval (terminated_eval (kw_eval hk') (sp1_eval hw2 n0))) hg
  have hsc : subConstruct (s ++ (w1 ++ (k' ++ (w2 ++ g)))) = .ok [] {
      constructTemplate := l, datasetClauses := [], whereClause := G, solutionModifier := .mk none none none none } := by
    unfold subConstruct
    exact map_eval (a := (l, [], G, SolutionModifier.mk none none none none))
      (f := fun x => ({ constructTemplate := x.1, datasetClauses := x.2.1, whereClause := x.2.2.1, solutionModifier := x.2.2.2 } : SubConstruct))
      (tuple4_eval (terminated_eval (hT _) (sp1_eval hw1 n2)) (terminated_eval hd (sp_zero n2))
        (terminated_eval hwc (sp_zero not_startsWs_nil)) modifier_nil)
  have hq : constructQuery (k ++ (w ++ (s ++ (w1 ++ (k' ++ (w2 ++ g)))))) = .ok [] (.subConstruct {
      constructTemplate := l, datasetClauses := [], whereClause := G, solutionModifier := .mk none none none none }) :=
    preceded_eval (terminated_eval (kw_eval hk) (sp1_eval hw (nS _))) (alt_eval1 (map_eval (f := ConstructQuery.subConstruct) hsc))
  have hall : sparqlQuery (k ++ (w ++ (s ++ (w1 ++ (k' ++ (w2 ++ g)))))) = .ok [] (.construct (.subConstruct {
      constructTemplate := l, datasetClauses := [], whereClause := G, solutionModifier := .mk none none none none })) := by
    refine alt_eval2 (p := map selectQuery SparqlQuery.select)
      (Fails.map (Fails.map (Fails.tuple4 (Fails.terminated (Fails.map (Fails.tuple3 (kw_fails hk (by decide)))))))) ?_
    exact alt_eval1 (map_eval (f := SparqlQuery.construct) hq)
  exact map_eval (a := (⟨[]⟩, _, none)) (f := fun x => ({ prologue := x.1, query := x.2.1, values := x.2.2 } : SparqlQueryStatement))
    (tuple3_eval (terminated_eval hp (sp_zero n1)) hall (Fails.opt (Fails.preceded (sp1_fails not_startsWs_nil))))

/-- The template is rejected when the last triple is followed by a dot ... -/
theorem C34_final_dot_violated (l : List TriplesSameSubject) (w s d w' r : Str) (hw : Ws w) (h : cTriples l s) (hd : cDot true d)
    (hw' : Ws w') : ∃ pos k, constructTemplate ('{' :: (w ++ (s ++ (d ++ (w' ++ '}' :: r))))) = .err (.error pos k) := by
  obtain ⟨r1, h1, _, h2⟩ := triples_accept l s (d ++ (w' ++ '}' :: r)) h ⟨true, d, w', _, rfl, hd, hw', tplEnd_brace _ _⟩
  refine Fails.delimited3 (terminated_eval char_eval (sp_eval hw ((triplesTemplate_toks l).not_startsWs h _))) h2 ?_
  unfold Fails
  rw [h1.preceded]
  obtain ⟨w0, _, rfl, hw0, rfl⟩ := hd
  simp only [List.append_assoc]
  exact Fails.preceded2 (sp_eval hw0.1 (not_startsWs_cons rfl)) (char_fails (by decide))

/-- ... and so is the whole query, whatever its WHERE clause. -/
theorem C34_query_final_dot_violated (l : List TriplesSameSubject) (k w0 w s d w' r : Str) (hk : CaseVariant c!"construct" k) (hw0 : Ws1 w0)
    (hw : Ws w) (h : cTriples l s) (hd : cDot true d) (hw' : Ws w') :
    ∃ pos e, sparqlQueryStmt (k ++ (w0 ++ '{' :: (w ++ (s ++ (d ++ (w' ++ '}' :: r)))))) = .err (.error pos e) := by
  refine stmt_fails hk (by simp) ?_
  have hf := C34_final_dot_violated l w s d w' r hw h hd hw'
  have n : ¬ StartsWs ('{' :: (w ++ (s ++ (d ++ (w' ++ '}' :: r))))) := not_startsWs_cons rfl
  refine Fails.alt_cons (Fails.map (Fails.map (Fails.tuple4 (Fails.terminated (Fails.map (Fails.tuple3 (kw_fails hk (by decide)))))))) ?_
  refine Fails.alt_cons (Fails.map (Fails.preceded2 (terminated_eval (kw_eval hk) (sp1_eval hw0 n)) ?_)) ?_
  · refine Fails.alt_cons (Fails.map (Fails.map (Fails.tuple4 (Fails.terminated hf)))) (Fails.map (Fails.map (Fails.pair2
      (terminated_eval (Fails.sep0 (First.cons (c := '{') rfl)) (sp_zero n)) (Fails.pair (Fails.terminated (First.cons rfl))))))
  refine Fails.alt_cons (Fails.map (Fails.map (Fails.tuple5 (kw_fails hk (by decide))))) ?_
  exact Fails.map (Fails.map (Fails.tuple4 (Fails.terminated (kw_fails hk (by decide)))))

/-! Cases of C34. -/
example : constructTemplate c!"{ ?s <p> 1, 2 ; <q> ?o . (1 2) a <c> }" = .ok [] [
    .term (.var (.qmark c!"s")) (.mk [.mk (.varOrIri (.iri (.iri c!"p"))) [.varOrTerm (.term (.numericLiteral (.int 1))),
      .varOrTerm (.term (.numericLiteral (.int 2)))],
      .mk (.varOrIri (.iri (.iri c!"q"))) [.varOrTerm (.var (.qmark c!"o"))]]),
    .node (.collection [.varOrTerm (.term (.numericLiteral (.int 1))), .varOrTerm (.term (.numericLiteral (.int 2)))])
      (some (.mk [.mk .a [.varOrTerm (.term (.iri (.iri c!"c")))]]))] := rfl
example : ∃ pos k, constructTemplate c!"{ ?s ?p ?o . }" = .err (.error pos k) := ⟨_, _, rfl⟩
example : ∃ q, sparqlQueryStmt c!"CONSTRUCT { ?s ?p ?o } WHERE { ?s ?p ?o }" = .ok [] q := ⟨_, rfl⟩

/-! ## C35: nested collections and property lists -/

/-- A collection that is not `()`. -/
def OpenCollection (s : Str) : Prop := ∃ w x, s = '(' :: (w ++ x) ∧ Ws w ∧ ¬ StartsWs x ∧ NotStart (· = ')') x

/-- A property list that is not `[]`. -/
def OpenPropertyList (s : Str) : Prop := ∃ w x, s = '[' :: (w ++ x) ∧ Ws w ∧ ¬ StartsWs x ∧ NotStart (· = ']') x

theorem varOrTerm_dies {s : Str} (h : OpenCollection s ∨ OpenPropertyList s) : ∃ pos k, Dies (.failure pos k) varOrTerm s := by
  rcases h with ⟨w, x, rfl, hw, hx, hc⟩ | ⟨w, x, rfl, hw, hx, hc⟩
  · obtain ⟨pos, k, hd⟩ := cut_dies (Fails.terminated2 (sp_eval hw hx) (char_notStart hc))
    refine ⟨pos, k, Dies.alt_cons (Fails.map (First.cons rfl)) (Dies.map ?_)⟩
    exact Dies.alt_cons (Fails.map (First.cons rfl)) (Dies.alt_cons (Fails.map (First.cons rfl)) (Dies.alt_cons (Fails.map (First.cons rfl))
      (Dies.alt_cons (Fails.map (First.cons rfl)) (Dies.alt_cons (Fails.map (First.cons rfl)) (Dies.map (Dies.preceded2 char_eval hd))))))
  · obtain ⟨pos, k, hd⟩ := cut_dies (Fails.terminated2 (sp_eval hw hx) (char_notStart hc))
    refine ⟨pos, k, Dies.alt_cons (Fails.map (First.cons rfl)) (Dies.map ?_)⟩
    refine Dies.alt_cons (Fails.map (First.cons rfl)) (Dies.alt_cons (Fails.map (First.cons rfl)) (Dies.alt_cons (Fails.map (First.cons rfl))
      (Dies.alt_cons (Fails.map (First.cons rfl)) (Dies.alt (Dies.map ?_)))))
    exact Dies.alt_cons (Fails.map (Fails.separatedPair (First.cons (c := '[') rfl))) (Dies.map (Dies.preceded2 char_eval hd))

theorem open_head {s : Str} (h : OpenCollection s ∨ OpenPropertyList s) : ¬ StartsWs s ∧ ∃ c t, s = c :: t ∧ (c = '(' ∨ c = '[') := by
  rcases h with ⟨w, x, rfl, _⟩ | ⟨w, x, rfl, _⟩
  · exact ⟨not_startsWs_cons rfl, _, _, rfl, .inl rfl⟩
  · exact ⟨not_startsWs_cons rfl, _, _, rfl, .inr rfl⟩

/-- As graph node, in templates ... -/
theorem C35_node_violated (s : Str) (h : OpenCollection s ∨ OpenPropertyList s) : ∃ pos k, graphNode s = .err (.failure pos k) := by
  obtain ⟨pos, k, hd⟩ := varOrTerm_dies h
  rw [graphNode_eq]
  exact ⟨pos, k, (Dies.alt hd.map).2⟩

/-- ... and in WHERE, they make the parser give up for good. -/
theorem C35_node_path_violated (s : Str) (h : OpenCollection s ∨ OpenPropertyList s) : ∃ pos k, graphNodePath s = .err (.failure pos k) := by
  obtain ⟨pos, k, hd⟩ := varOrTerm_dies h
  rw [graphNodePath_eq]
  exact ⟨pos, k, (Dies.alt hd.map).2⟩

theorem node_dies {s : Str} (h : OpenCollection s ∨ OpenPropertyList s) : ∃ pos k, Dies (.failure pos k) graphNode s := by
  obtain ⟨pos, k, e⟩ := C35_node_violated s h
  exact ⟨pos, k, fatal_failure, e⟩

/-- `s verb ( ...` and `s verb [ ...` in a template. -/
theorem C35_object_violated (o : VarOrTerm) (v : Verb) (s w1 p w2 x : Str) (hs : cVarOrTerm o s) (hw1 : Ws1 w1) (hp : cVerb v p)
    (hw2 : Ws1 w2) (hx : OpenCollection x ∨ OpenPropertyList x) :
    ∃ pos k, triplesSameSubject (s ++ (w1 ++ (p ++ (w2 ++ x)))) = .err (.failure pos k) := by
  obtain ⟨pos, k, hd⟩ := node_dies hx
  obtain ⟨hn, c, t, e, hc⟩ := open_head hx
  refine ⟨pos, k, (Dies.alt_cons (Fails.map (Fails.separatedPair (triplesNode_fails o s _ hs))) (Dies.map ?_)).2⟩
  refine Dies.separatedPair3 (varOrTerm_accepts o s _ hs (Follow.ws1_tok (cVerb_toks v) hw1 hp _)) (sp1_eval hw1 ((cVerb_toks v).not_startsWs hp _))
    (Dies.map (Dies.terminated (Dies.sep1 (Dies.map (Dies.separatedPair3 (verb_accepts v p _ hp ?_) (sp_eval hw2.1 hn) (Dies.sep1 hd))))))
  exact Follow.ws hw2.1 (.inl hw2.2) hn (by rw [e]; exact notStart_cons (by rcases hc with rfl | rfl <;> decide))

/-- `( ( ...`, `( [ ...` as subject of a template. -/
theorem C35_nested_violated (w x : Str) (hw : Ws w) (hx : OpenCollection x ∨ OpenPropertyList x) :
    ∃ pos k, triplesSameSubject ('(' :: (w ++ x)) = .err (.failure pos k) := by
  obtain ⟨pos, k, hd⟩ := node_dies hx
  obtain ⟨hn, _⟩ := open_head hx
  exact ⟨pos, k, (Dies.alt (Dies.map (Dies.separatedPair (Dies.alt (Dies.map (Dies.delimited2 char_eval
    (Dies.many1 (Dies.delimited2 (sp_eval hw hn) hd)))))))).2⟩

theorem group_dies {w x : Str} {pos : Str} {k : Kind} (hw : Ws w) (hn : ¬ StartsWs x) (hs : Fails subSelect x) (h : Dies (.failure pos k) triplesBlock x) :
    groupGraphPattern ('{' :: (w ++ x)) = .err (.failure pos k) := by
  rw [groupGraphPattern_eq]
  exact (Dies.delimited2 char_eval (Dies.delimited2 (sp_eval hw hn) (Dies.alt_cons (Fails.map hs)
    (Dies.map (Dies.map (Dies.pair (Dies.opt (Dies.terminated h)))))))).2

/-- As subject of a triple in WHERE. -/
theorem C35_where_subject_violated (w x : Str) (hw : Ws w) (hx : OpenCollection x ∨ OpenPropertyList x) :
    ∃ pos k, groupGraphPattern ('{' :: (w ++ x)) = .err (.failure pos k) := by
  obtain ⟨pos, k, hd⟩ := varOrTerm_dies hx
  obtain ⟨hn, c, t, rfl, hc⟩ := open_head hx
  refine ⟨pos, k, group_dies hw hn ?_ (Dies.map (Dies.sep1 (Dies.alt (Dies.map (Dies.separatedPair hd)))))⟩
  rcases hc with rfl | rfl <;> exact First.cons rfl

/-- As object in WHERE, the predicate being a variable or a path. -/
theorem C35_where_object_violated (o : VarOrTerm) (v : Var) (w s w1 p w2 x : Str) (hw : Ws w) (hs : cVarOrTerm o s) (hw1 : Ws1 w1) (hp : cVar v p)
    (hw2 : Ws1 w2) (hx : OpenCollection x ∨ OpenPropertyList x) :
    ∃ pos k, groupGraphPattern ('{' :: (w ++ (s ++ (w1 ++ (p ++ (w2 ++ x)))))) = .err (.failure pos k) := by
  obtain ⟨pos, k, hd⟩ : ∃ pos k, Dies (.failure pos k) graphNodePath x := by
    obtain ⟨pos, k, e⟩ := C35_node_path_violated x hx
    exact ⟨pos, k, fatal_failure, e⟩
  obtain ⟨hn, c, t, e, hc⟩ := open_head hx
  have hF : Follow (w2 ++ x) := Follow.ws hw2.1 (.inl hw2.2) hn (by rw [e]; exact notStart_cons (by rcases hc with rfl | rfl <;> decide))
  refine ⟨pos, k, group_dies hw ((cVarOrTerm_toks o).not_startsWs hs _) (subSelect_fails hs _) (Dies.map (Dies.sep1 (Dies.alt (Dies.map
    (Dies.separatedPair3 (varOrTerm_accepts o s _ hs (Follow.ws1_tok (cVar_toks v) hw1 hp _)) (sp1_eval hw1 ((cVar_toks v).not_startsWs hp _)) (Dies.map
      (Dies.tuple3_2 (terminated_eval (alt_eval2 (Fails.map (path_fails_var hp)) (map_eval (f := VerbPathOrSimple.simple) (var_accepts v p _ hp hF)))
        (sp1_eval hw2 hn)) (Dies.sep1 hd))))))))⟩

/-- Collections and property lists of simple nodes are accepted as subjects of templates.  Missing for the full property: everything
the theorems above exclude. -/
theorem C35_subject_partial (n : TriplesNode) (p : Option PropertyList) (w s w' r : Str) (hw : Ws w)
    (h : cTriplesSameSubject (.node n p) s) (hw' : Ws w') :
    constructTemplate ('{' :: (w ++ (s ++ (w' ++ '}' :: r)))) = .ok r [.node n p] := by
  have := C34_construct_template [.node n p] (c!"{" ++ (w ++ (s ++ (w' ++ c!"}")))) r
    ⟨_, _, rfl, rfl, w, _, rfl, hw, s, _, rfl, .inr (sep1_one h), w', _, rfl, hw', rfl⟩
  simpa using this

/-! Cases of C35. -/
example : OpenCollection c!"( 1 2 )" := ⟨c!" ", c!"1 2 )", rfl, ws_rfl rfl, not_startsWs_cons rfl, notStart_cons (by decide)⟩
example : ∃ pos k, groupGraphPattern c!"{ (1 2) ?p ?o }" = .err (.failure pos k) := ⟨_, _, rfl⟩
example : ∃ pos k, groupGraphPattern c!"{ ?s ?p [ <q> 1 ] }" = .err (.failure pos k) := ⟨_, _, rfl⟩
example : ∃ pos k, constructTemplate c!"{ ?s ?p (1) }" = .err (.failure pos k) := ⟨_, _, rfl⟩
example : ∃ t, triplesSameSubject c!"[ <p> 1 ] <q> 2 }" = .ok c!" }" t := ⟨_, rfl⟩

/-! ## C36: property paths -/

/-- On every input: an alternative is returned with exactly one sequence, whatever the operators. -/
theorem C36_one_sequence_violated (i r : Str) (a : PathAlternative) (h : pathAlternative i = .ok r a) : ∃ l, a = .mk [.mk l] := by
  rw [pathAlternative_eq] at h
  obtain ⟨x, h1, rfl⟩ := map_ok.mp h
  obtain ⟨s, l, j, rfl, h2, _, h3⟩ := separatedNonemptyList_ok.mp h1
  obtain ⟨es, h4, rfl⟩ := map_ok.mp h2
  obtain ⟨e, es', j', rfl, _, _, h5⟩ := separatedNonemptyList_ok.mp h4
  have hst : SepStop (delimited sp (tag ['|']) sp) pathSequence j := by
    rcases h5.stop with h | ⟨c, j2, h6, h7, h8⟩
    · exact .inl h
    · exact .inr ⟨c, j2, h6, h7, Fails.map (Fails.sep1 h8)⟩
  obtain ⟨rfl, _⟩ := hst.run h3
  exact ⟨_, rfl⟩

/-- `p1 | p2 | ...` is returned as the sequence `p1 / p2 / ...`: the alternatives are all there, in order, but under the wrong node. -/
theorem C36_alternative_violated (l : List PathEltOrInverse) (s w x : Str) (c : Char) (h : CPath l s) (hl : 2 ≤ l.length) (hw : Ws1 w)
    (hx : NoMod c) (hn : wsStart c = false) (hc : c ≠ ':') (hb : c ≠ '|') :
    pathAlternative (s ++ (w ++ c :: x)) = .ok (w ++ c :: x) (.mk [.mk l]) ∧
    pathAlternative (s ++ (w ++ c :: x)) ≠ .ok (w ++ c :: x) (.mk (l.map fun e => .mk [e])) := by
  have h1 := (path_accepts h).2 (w ++ c :: x) ⟨⟨Follow.ws hw.1 (.inl hw.2) (not_startsWs_cons hn) (notStart_cons hc), w, _, rfl, hw.1,
    not_startsWs_cons hn, fun _ => ⟨c, x, rfl, hx⟩⟩, bar_fails hw.1 (not_startsWs_cons hn) (notStart_cons hb)⟩
  refine ⟨h1, ?_⟩
  rw [h1]
  intro e
  have e := (Res.ok.inj e).2
  have := congrArg List.length (PathAlternative.mk.inj e)
  simp at this
  omega

/-- Paths with bars, modifiers, `^`, `!` and parentheses: elements are returned in order.  Missing for the full property: the node they
are returned under (`C36_alternative_violated`) and the slash (`C36_slash_violated`). -/
theorem C36_elements_partial (l : List PathEltOrInverse) (s w x : Str) (c : Char) (h : CPath l s) (hw : Ws1 w)
    (hx : NoMod c) (hn : wsStart c = false) (hc : c ≠ ':') (hb : c ≠ '|') :
    pathAlternative (s ++ (w ++ c :: x)) = .ok (w ++ c :: x) (.mk [.mk l]) :=
  (path_accepts h).2 (w ++ c :: x) ⟨⟨Follow.ws hw.1 (.inl hw.2) (not_startsWs_cons hn) (notStart_cons hc), w, _, rfl, hw.1,
    not_startsWs_cons hn, fun _ => ⟨c, x, rfl, hx⟩⟩, bar_fails hw.1 (not_startsWs_cons hn) (notStart_cons hb)⟩

theorem iri_stop {i : Iri} {s r : Str} (h : cIri i s) (hr : NameStop r) : iri (s ++ r) = .ok r i := by
  cases i with
  | iri x => exact (C13_iri _ _ _).mpr (iriRef_accepts x s r h)
  | prefixedName n =>
    cases n with
    | pnameNS o => exact h.elim
    | pnameLN o l =>
      cases o with
      | none => exact h.elim
      | some p =>
        obtain ⟨rfl, h1, h2⟩ := h
        have := iri_prefixed.mpr (C14_roundtrip_partial (some p) l r h1 h2 hr)
        simpa [prefixText] using this

/-- After an IRI has been read as predicate, a character that begins neither a modifier nor an object: no property list. -/
theorem propertyList_fails {i : Iri} {t w x : Str} {c : Char} (hi : iri t = .ok (w ++ c :: x) i) (hw : Ws w) (hm : NoMod c)
    (hc : wsStart c = false) (hb : c ≠ '|') (hf : Fails graphNodePath (c :: x)) : Fails propertyListPathNotEmpty t := by
  have he : pathElt t = .ok (w ++ c :: x) (.mk (.iri i) none) := by
    refine map_eval (a := (.iri i, none)) (f := fun x => PathElt.mk x.1 x.2) (pair_eval (alt_eval1 (map_eval (f := PathPrimary.iri) hi)) ?_)
    by_cases h : w = []
    · subst h; exact Fails.opt (Fails.preceded (sp1_fails (not_startsWs_cons hc)))
    · exact Fails.opt (Fails.preceded2 (sp1_eval ⟨hw, h⟩ (not_startsWs_cons hc)) (pathMod_fails hm))
  have hei : pathEltOrInverse t = .ok (w ++ c :: x) (.pathElt (.mk (.iri i) none)) := alt_eval1 (map_eval (f := PathEltOrInverse.pathElt) he)
  have hpa := path_one hei (bar_fails hw (not_startsWs_cons hc) (notStart_cons hb))
  have hv : verbPathOrSimple t = .ok (w ++ c :: x) (.path (.mk [.mk [.pathElt (.mk (.iri i) none)]])) :=
    alt_eval1 (map_eval (f := VerbPathOrSimple.path) hpa)
  by_cases h : w = []
  · subst h; exact Fails.map (Fails.tuple3 (Fails.terminated2 hv (sp1_fails (not_startsWs_cons hc))))
  · exact Fails.map (Fails.pair2 (terminated_eval hv (sp1_eval ⟨hw, h⟩ (not_startsWs_cons hc))) (Fails.pair (Fails.sep1 hf)))

/-- `{ s p1 / ...` is rejected, whatever follows. -/
theorem C36_slash_violated (o : VarOrTerm) (i : Iri) (w0 s w1 p w2 x : Str) (hw0 : Ws w0) (hs : cVarOrTerm o s) (hw1 : Ws1 w1) (hp : cIri i p)
    (hw2 : Ws w2) : ∃ pos k, groupGraphPattern ('{' :: (w0 ++ (s ++ (w1 ++ (p ++ (w2 ++ '/' :: x)))))) = .err (.error pos k) := by
  have hi : iri (p ++ (w2 ++ '/' :: x)) = .ok (w2 ++ '/' :: x) i := by
    by_cases h : w2 = []
    · subst h
      exact iri_stop hp (notStart_cons (by simp [OuterLocalChar, NameChar, AsciiLetter, AsciiDigit]))
    · exact iri_stop hp (Follow.ws hw2 (.inl h) (not_startsWs_cons rfl) (notStart_cons (by decide))).nameStop
  have hf := propertyList_fails hi hw2 (by decide) rfl (by decide) (First.cons rfl)
  obtain ⟨c, t, rfl, hc⟩ := cIri_toks i p hp
  exact group_fails hw0 hs (Fails.map (Fails.sep1 (subject_fails hs hw1 (hc.not_startsWs _) (notStart_cons (hc.ne (by simp))) hf)))

/-! Cases of C36. -/
example : pathAlternative c!"<p> | ^<q> * <o>" = .ok c!" <o>" (.mk [.mk [.pathElt (.mk (.iri (.iri c!"p")) none),
    .inverse (.mk (.iri (.iri c!"q")) (some .asterisk))]]) := rfl
example : ∃ pos k, groupGraphPattern c!"{ ?s <p>/<q> $o }" = .err (.error pos k) := ⟨_, _, rfl⟩

/-! ## C37: the keyword `a` -/

/-- In templates `a` is rdf:type, whatever canonical object follows (these do not begin with `:`) ... -/
theorem C37_template_partial (s o : VarOrTerm) (w x w1 w2 y w3 r : Str) (hw : Ws w) (hx : cVarOrTerm s x) (hw1 : Ws1 w1) (hw2 : Ws1 w2)
    (hy : cVarOrTerm o y) (hw3 : Ws w3) :
    constructTemplate ('{' :: (w ++ (x ++ (w1 ++ ('a' :: (w2 ++ (y ++ (w3 ++ '}' :: r)))))))) = .ok r [.term s (.mk [.mk .a [.varOrTerm o]])] := by
  have hp : cPropertyList (.mk [.mk .a [.varOrTerm o]]) ('a' :: (w2 ++ y)) :=
    ⟨'a' :: (w2 ++ y), [], by simp, sep1_one ⟨c!"a", w2 ++ y, rfl, rfl, w2, y, rfl, hw2, sep1_one hy⟩, .nil⟩
  have := C34_construct_template [.term s (.mk [.mk .a [.varOrTerm o]])] (c!"{" ++ (w ++ ((x ++ (w1 ++ ('a' :: (w2 ++ y)))) ++ (w3 ++ c!"}")))) r
    ⟨_, _, rfl, rfl, w, _, rfl, hw, _, _, rfl, .inr (sep1_one ⟨x, _, rfl, hx, w1, _, rfl, hw1, hp⟩), w3, _, rfl, hw3, rfl⟩
  simpa using this

/-- ... and in WHERE when the object does not begin with a modifier character (so: not `?x`, `+1`; see `C33_violated`). -/
theorem C37_where_partial (s o : VarOrTerm) (w x w1 w2 y w3 r : Str) (hw : Ws w) (hx : cVarOrTerm s x) (hw1 : Ws1 w1) (hw2 : Ws1 w2)
    (hy : cPlainObject o y) (hw3 : Ws w3) :
    groupGraphPattern ('{' :: (w ++ (x ++ (w1 ++ ('a' :: (w2 ++ (y ++ (w3 ++ '}' :: r)))))))) =
      .ok r (.groupGraphPatternSub (.mk (some (.mk [.term s (.mk (.path (.mk [.mk [.pathElt (.mk .a none)]])) [.varOrTerm o] [])])) [])) := by
  have := C33_patterns_partial [⟨s, .path (.mk [.mk [.pathElt (.mk .a none)]]), o, []⟩] w (x ++ (w1 ++ ('a' :: (w2 ++ y)))) w3 r hw
    (sep1_one ⟨x, _, rfl, hx, w1, _, rfl, hw1, _, [], by simp, .path ⟨c!"a", _, rfl, .one (.elt (.plain .a)), w2, y, rfl, hw2, hy⟩, rfl⟩) hw3
  simpa [Pattern.ast] using this

theorem dot_numeric {r : Str} (h : NotStart AsciiDigit r) : Fails numericLiteral ('.' :: r) := by
  refine Fails.alt_cons (Fails.map ⟨_, _, rfl⟩) (Fails.map (Fails.pair ?_))
  have hd : Fails digit1 r := by
    cases r with
    | nil => exact First.nil
    | cons c t =>
      refine First.cons ?_
      cases e : isDecDigit c with
      | false => rfl
      | true => exact absurd (isDecDigit_iff.mp e) (h c t rfl)
  obtain ⟨pos, k, e⟩ : Fails (pair optSign (alt [map (pair digit1 (opt (pair (char '.') (opt digit1)))) (fun _ => ()),
      map (pair (char '.') digit1) (fun _ => ())])) ('.' :: r) :=
    Fails.pair2 (r := '.' :: r) (a := none) rfl (Fails.alt_cons (Fails.map (Fails.pair (First.cons rfl))) (Fails.map (Fails.pair2 char_eval hd)))
  refine ⟨pos, k, ?_⟩
  unfold sparqlDecimal recognizeSparqlFloat recognize
  rw [e]

theorem dot_varOrTerm {r : Str} (h : NotStart AsciiDigit r) : Fails varOrTerm ('.' :: r) :=
  Fails.alt_cons (Fails.map (First.cons rfl)) (Fails.map (Fails.alt_cons (Fails.map (First.cons rfl)) (Fails.alt_cons (Fails.map (First.cons rfl))
    (Fails.alt_cons (Fails.map (dot_numeric h)) (Fails.alt_cons (Fails.map (First.cons rfl)) (Fails.alt_cons (Fails.map (First.cons rfl))
      (Fails.map (First.cons rfl))))))))

theorem dot_node {r : Str} (h : NotStart AsciiDigit r) : Fails graphNode ('.' :: r) := by
  rw [graphNode_eq]
  exact Fails.alt_cons (Fails.map (dot_varOrTerm h)) (Fails.map (First.cons rfl))

theorem dot_node_path {r : Str} (h : NotStart AsciiDigit r) : Fails graphNodePath ('.' :: r) := by
  rw [graphNodePath_eq]
  exact Fails.alt_cons (Fails.map (dot_varOrTerm h)) (Fails.map (First.cons rfl))

theorem a_prefix : PrefixName CommonBase CommonNameChar c!"a" := ⟨'a', [], rfl, by decide, by simp [NameTail]⟩

theorem iri_a {w l r : Str} (hw : Ws w) (hl : LocalName CommonLocalStart CommonLocalChar l) (hr : NameStop r) :
    iri ('a' :: (w ++ ':' :: (l ++ r))) = .ok r (.prefixedName (.pnameLN (some c!"a") l)) :=
  iri_prefixed.mpr (C14_space_inside_violated (some c!"a") w [] l r hw .nil a_prefix hl hr)

/-- `a :local` is read as the prefixed name `a:local`, whatever the local name and the white space. -/
theorem C37_colon_violated (w l r : Str) (hw : Ws w) (hl : LocalName CommonLocalStart CommonLocalChar l) (hr : NameStop r) :
    verb ('a' :: (w ++ ':' :: (l ++ r))) = .ok r (.varOrIri (.iri (.prefixedName (.pnameLN (some c!"a") l)))) :=
  alt_eval1 (map_eval (f := Verb.varOrIri) (alt_eval2 (Fails.map (First.cons (c := 'a') rfl)) (map_eval (f := VarOrIri.iri) (iri_a hw hl hr))))

theorem nameStop_end {w r : Str} {c : Char} (hw : Ws w) (hc : c ∈ ['.', '}']) (h : c = '.' → w ≠ []) : NameStop (w ++ c :: r) := by
  refine Follow.nameStop ?_
  simp only [List.mem_cons, List.not_mem_nil, or_false] at hc
  rcases hc with rfl | rfl
  · exact Follow.ws hw (.inl (h rfl)) (not_startsWs_cons rfl) (notStart_cons (by decide))
  · exact Follow.ws_close hw (by simp)

/-- Hence `s a :local` is rejected in templates ... -/
theorem C37_template_colon_violated (o : VarOrTerm) (s w1 w2 l w3 r : Str) (c : Char) (hs : cVarOrTerm o s) (hw1 : Ws1 w1) (hw2 : Ws w2)
    (hl : LocalName CommonLocalStart CommonLocalChar l) (hw3 : Ws w3) (hc : c ∈ ['.', '}']) (hc' : c = '.' → w3 ≠ [] ∧ NotStart AsciiDigit r) :
    ∃ pos k, triplesSameSubject (s ++ (w1 ++ ('a' :: (w2 ++ ':' :: (l ++ (w3 ++ c :: r)))))) = .err (.error pos k) := by
  have hv := C37_colon_violated w2 l (w3 ++ c :: r) hw2 hl (nameStop_end hw3 hc fun e => (hc' e).1)
  refine Fails.alt_cons (Fails.map (Fails.separatedPair (triplesNode_fails o s _ hs))) (Fails.map ?_)
  refine Fails.pair2 (varOrTerm_accepts o s _ hs (Follow.ws hw1.1 (.inl hw1.2) (not_startsWs_cons rfl) (notStart_cons (by decide))))
    (Fails.preceded2 (sp1_eval hw1 (not_startsWs_cons rfl)) (Fails.map (Fails.terminated (Fails.sep1 (Fails.map (Fails.pair2 hv
      (Fails.preceded2 (sp_eval hw3 ?_) (Fails.sep1 ?_))))))))
  · simp only [List.mem_cons, List.not_mem_nil, or_false] at hc
    rcases hc with rfl | rfl <;> exact not_startsWs_cons rfl
  · simp only [List.mem_cons, List.not_mem_nil, or_false] at hc
    rcases hc with rfl | rfl
    · exact dot_node (hc' rfl).2
    · exact First.cons rfl

/-- ... and in WHERE. -/
theorem C37_where_colon_violated (o : VarOrTerm) (w0 s w1 w2 l w3 r : Str) (c : Char) (hw0 : Ws w0) (hs : cVarOrTerm o s) (hw1 : Ws1 w1)
    (hw2 : Ws w2) (hl : LocalName CommonLocalStart CommonLocalChar l) (hw3 : Ws w3) (hc : c ∈ ['.', '}']) (hc' : c = '.' → w3 ≠ [] ∧ NotStart AsciiDigit r) :
    ∃ pos k, groupGraphPattern ('{' :: (w0 ++ (s ++ (w1 ++ ('a' :: (w2 ++ ':' :: (l ++ (w3 ++ c :: r)))))))) = .err (.error pos k) := by
  have hi := iri_a hw2 hl (nameStop_end (r := r) hw3 hc fun e => (hc' e).1)
  have hf : Fails propertyListPathNotEmpty ('a' :: (w2 ++ ':' :: (l ++ (w3 ++ c :: r)))) := by
    simp only [List.mem_cons, List.not_mem_nil, or_false] at hc
    rcases hc with rfl | rfl
    · exact propertyList_fails hi hw3 (by decide) rfl (by decide) (dot_node_path (hc' rfl).2)
    · exact propertyList_fails hi hw3 (by decide) rfl (by decide) (First.cons rfl)
  exact group_fails hw0 hs (Fails.map (Fails.sep1 (subject_fails hs hw1 (not_startsWs_cons rfl) (notStart_cons (by decide)) hf)))

/-! Cases of C37. -/
example : ∃ pos k, groupGraphPattern c!"{ ?s a :Person }" = .err (.error pos k) := ⟨_, _, rfl⟩
example : ∃ pos k, constructTemplate c!"{ ?s a :Person }" = .err (.error pos k) := ⟨_, _, rfl⟩
example : constructTemplate c!"{ ?s a ?c }" = .ok [] [.term (.var (.qmark c!"s")) (.mk [.mk .a [.varOrTerm (.var (.qmark c!"c"))]])] := rfl
example : ∃ g, groupGraphPattern c!"{ ?s a <c> }" = .ok [] g := ⟨_, rfl⟩

end NomSparql
