import Verif.Spec.Restrictions
import Verif.Lemmas.Occurs
import Verif.Lemmas.GroupsMono
import Verif.Props.C46_C50
import Verif.Props.C51_C55

/-!
# C76: the restrictions that SPARQL puts on top of its grammar

The crate checks none of them; a program that relies on the parser for them gets trees that no SPARQL 1.1 request may have.
-/

namespace NomSparql

/-! ## Variables and blank nodes in data -/

/-- Whatever stands in quads, INSERT DATA, DELETE DATA and DELETE WHERE accept it. -/
theorem C76_data_violated (q : Quads) (s : Str) (h : cQuads q s) :
    (∃ w, Ws w ∧ update (c!"insert data " ++ s) = .ok w (.mk ⟨[]⟩ (some (.insertData q)) none)) ∧
    (∃ w, Ws w ∧ update (c!"delete data " ++ s) = .ok w (.mk ⟨[]⟩ (some (.deleteData q)) none)) ∧
    (∃ w, Ws w ∧ update (c!"delete where " ++ s) = .ok w (.mk ⟨[]⟩ (some (.deleteWhere q)) none)) := by
  have hs : Ws1 c!" " := ws1_rfl rfl
  refine ⟨?_, ?_, ?_⟩
  · simpa using C50_chain_partial (fun _ _ => False) (fun _ _ h => h.elim) (.mk ⟨[]⟩ (some (.insertData q)) none) (c!"insert data " ++ s) []
      ⟨[], _, rfl, rfl, [], _, rfl, .nil, c!"insert", _, rfl, CaseVariant.refl _, c!" ", _, rfl, hs, c!"data", _, rfl, CaseVariant.refl _, c!" ", s, rfl, hs, h⟩ .nil
  · simpa using C50_chain_partial (fun _ _ => False) (fun _ _ h => h.elim) (.mk ⟨[]⟩ (some (.deleteData q)) none) (c!"delete data " ++ s) []
      ⟨[], _, rfl, rfl, [], _, rfl, .nil, c!"delete", _, rfl, CaseVariant.refl _, c!" ", _, rfl, hs, c!"data", _, rfl, CaseVariant.refl _, c!" ", s, rfl, hs, h⟩ .nil
  · simpa using C50_chain_partial (fun _ _ => False) (fun _ _ h => h.elim) (.mk ⟨[]⟩ (some (.deleteWhere q)) none) (c!"delete where " ++ s) []
      ⟨[], _, rfl, rfl, [], _, rfl, .nil, c!"delete", _, rfl, CaseVariant.refl _, c!" ", _, rfl, hs, c!"where", _, rfl, CaseVariant.refl _, c!" ", s, rfl, hs, h⟩ .nil

/-- One triple with `a`. -/
def oneTriple (s o : VarOrTerm) : Quads := ⟨some [.term s (.mk [.mk .a [.varOrTerm o]])], []⟩

theorem oneTriple_canon {s o : VarOrTerm} {x y : Str} (hs : cVarOrTerm s x) (ho : cVarOrTerm o y) : cQuads (oneTriple s o) ('{' :: (x ++ (c!" a " ++ (y ++ c!"}")))) := by
  have hw : Ws1 c!" " := ws1_rfl rfl
  have h1 : cPropertyList (.mk [.mk .a [.varOrTerm o]]) (c!"a " ++ y) :=
    ⟨c!"a " ++ y, [], by simp, ⟨c!"a " ++ y, [], by simp, ⟨c!"a", _, rfl, rfl, c!" ", y, rfl, hw, y, [], by simp, ho, rfl⟩, rfl⟩, .nil⟩
  have h2 : cTriples [.term s (.mk [.mk .a [.varOrTerm o]])] (x ++ (c!" a " ++ y)) :=
    ⟨x ++ (c!" a " ++ y), [], by simp, ⟨x, _, rfl, hs, c!" ", _, rfl, hw, h1⟩, rfl⟩
  refine ⟨c!"{", x ++ (c!" a " ++ (y ++ c!"}")), rfl, rfl, [], _, rfl, .nil, x ++ (c!" a " ++ y), c!"}", by simp, ?_, [], _, rfl, rfl, [], _, rfl, .nil, rfl⟩
  exact ⟨_, [], by simp, h2, [], [], rfl, ⟨false, rfl, fun h => (h rfl).elim⟩, .nil⟩

/-- Every variable is accepted in INSERT DATA and in DELETE DATA. -/
theorem C76_variable_violated (v : Var) (t : Str) (h : cVar v t) : ∃ q, ¬ FQuads noVars q ∧
    (∃ w, Ws w ∧ update (c!"insert data {" ++ (t ++ c!" a <>}")) = .ok w (.mk ⟨[]⟩ (some (.insertData q)) none)) ∧
    ∃ w, Ws w ∧ update (c!"delete data {" ++ (t ++ c!" a <>}")) = .ok w (.mk ⟨[]⟩ (some (.deleteData q)) none) := by
  have h1 : cVarOrTerm (.term (.iri (.iri []))) c!"<>" := ⟨rfl, by simp⟩
  have h2 := C76_data_violated _ _ (oneTriple_canon (s := .var v) h h1)
  refine ⟨_, ?_, h2.1, h2.2.1⟩
  rintro ⟨hf, _⟩
  cases (hf _ rfl).2 _ (List.mem_cons_self ..) with
  | term h _ => cases h with | var h => exact h

/-- Every blank node is accepted in DELETE DATA and in DELETE WHERE. -/
theorem C76_blank_violated (b : BlankNode) (t : Str) (h : cBlankNode b t) : ∃ q, ¬ FQuads noBlanks q ∧
    (∃ w, Ws w ∧ update (c!"delete data {" ++ (t ++ c!" a <>}")) = .ok w (.mk ⟨[]⟩ (some (.deleteData q)) none)) ∧
    ∃ w, Ws w ∧ update (c!"delete where {" ++ (t ++ c!" a <>}")) = .ok w (.mk ⟨[]⟩ (some (.deleteWhere q)) none) := by
  have h1 : cVarOrTerm (.term (.iri (.iri []))) c!"<>" := ⟨rfl, by simp⟩
  have h2 := C76_data_violated _ _ (oneTriple_canon (s := .term (.blankNode b)) h h1)
  refine ⟨_, ?_, h2.2⟩
  rintro ⟨hf, _⟩
  cases (hf _ rfl).2 _ (List.mem_cons_self ..) with
  | term h _ => cases h with | term h => cases h with | blankNode h => exact h

/-! ## Prefixes, BIND and aggregates -/

/-- `ASK` with a canonical group is returned as written, without declarations. -/
theorem ask_group {g : GroupGraphPattern} {s : Str} (h : cGroup g s) :
    ∃ w, Ws w ∧ sparqlQueryStmt (c!"ask " ++ s) = .ok w ⟨⟨[]⟩, .ask ⟨[], g, .mk none none none none⟩, none⟩ :=
  C54_query_partial _ _ ⟨rfl, [], _, rfl, rfl, [], _, rfl, .nil, c!"ask", _, rfl, CaseVariant.refl _, c!" ", _, rfl, ws1_rfl rfl, [], _, rfl, rfl,
    s, [], by simp, ⟨[], _, rfl, .inl rfl, h⟩, [], [], rfl, .nil, [], [], rfl, rfl, [], [], rfl, rfl, [], [], rfl, rfl, rfl⟩

/-- Every prefix is accepted without a declaration. -/
theorem C76_prefix_violated (p l : Str) (hp : PrefixName CommonBase CommonNameChar p) (hl : LocalName CommonLocalStart CommonLocalChar l) :
    ∃ w q, Ws w ∧ sparqlQueryStmt (c!"ask {" ++ (p ++ ':' :: (l ++ c!" a <>}"))) = .ok w q ∧ ¬ FSparqlQueryStatement (declared q.prologue) q := by
  have hw : Ws1 c!" " := ws1_rfl rfl
  let n : Iri := .prefixedName (.pnameLN (some p) l)
  let m : Pattern := ⟨.term (.iri n), .path (.mk [.mk [.pathElt (.mk .a none)]]), .term (.iri (.iri [])), []⟩
  have h1 : cPattern m ((p ++ ':' :: l) ++ c!" a <>") := by
    refine ⟨_, _, rfl, ⟨rfl, hp, hl⟩, c!" ", c!"a <>", rfl, hw, c!"a <>", [], rfl, ?_, rfl⟩
    refine .path ⟨c!"a", _, rfl, .one (.elt (.plain .a)), c!" ", c!"<>", rfl, hw, ⟨rfl, by simp⟩, ?_⟩
    intro c t e
    injection e with e _
    subst e
    decide
  have h3 := cGroup_intro (.patterns (w := []) (w' := []) .nil (l := [m]) ⟨_, [], (List.append_nil _).symm, h1, rfl⟩ .nil)
  obtain ⟨w, h4, h5⟩ := ask_group h3
  refine ⟨w, _, h4, by simpa using h5, ?_⟩
  rintro ⟨_, hf, _⟩
  cases hf with | ask hf =>
  obtain ⟨_, ⟨k, hf⟩, _⟩ := hf
  cases k with
  | zero => exact hf
  | succ k =>
    cases hf with | groupGraphPatternSub hf =>
    obtain ⟨hf, _⟩ := hf
    cases hf _ rfl with | mk _ hf =>
    cases hf _ (List.mem_cons_self ..) with | term hf _ =>
    cases hf with | term hf =>
    cases hf with | iri hf =>
    obtain ⟨_, hf⟩ := hf
    cases hf

/-- BIND accepts a variable that the triples before it already use. -/
theorem C76_bind_violated (l : List Pattern) (s : Str) (hl : cPatterns l s) (m : Pattern) (_ : m ∈ l) (v : Var) (_ : m.subject = .var v) (t : Str) (hv : cVar v t)
    (b : Bool) (e : Expression) (x : Str) (he : cExpr b e x) :
    ∃ w, Ws w ∧ sparqlQueryStmt (c!"ask {" ++ (s ++ (c!" bind (" ++ (x ++ (c!" as " ++ (t ++ c!") }")))))) = .ok w ⟨⟨[]⟩, .ask ⟨[],
      .groupGraphPatternSub (.mk (some (.mk (l.map Pattern.ast))) [.mk (.bind (.mk e v)) none]), .mk none none none none⟩, none⟩ := by
  have hw : Ws1 c!" " := ws1_rfl rfl
  have h1 := CAsVar.mk (cG := cGroup) (w := []) (w' := []) .nil he hw (CaseVariant.refl c!"as") hw.1 hv .nil
  have h2 := CItem.bind (CaseVariant.refl c!"bind" : kw _ _) hw h1
  have h3 := cGroup_intro (.both (w := []) (m := [_]) .nil hl hw ⟨by simp, _, _, rfl, ⟨_, _, rfl, .plain h2, hw⟩, rfl⟩)
  have h4 := ask_group h3
  simpa using h4

/-- FILTER accepts every aggregate. -/
theorem C76_aggregate_violated (a : Aggregate) (x : Str) (h : CCall cGroup (.aggregate a) x) :
    ∃ w, Ws w ∧ sparqlQueryStmt (c!"ask {filter " ++ (x ++ c!" }")) = .ok w ⟨⟨[]⟩, .ask ⟨[],
      .groupGraphPatternSub (.mk none [.mk (.filter (.builtInCall (.aggregate a))) none]), .mk none none none none⟩, none⟩ := by
  have hw : Ws1 c!" " := ws1_rfl rfl
  have h2 := CItem.filter (CaseVariant.refl c!"filter" : kw _ _) hw (.call h)
  have h3 := cGroup_intro (.items (w := []) (l := [_]) .nil ⟨by simp, _, _, rfl, ⟨_, _, rfl, .plain h2, hw⟩, rfl⟩)
  have h4 := ask_group h3
  simpa using h4

/-- `SELECT *` is accepted together with GROUP BY. -/
theorem C76_star_violated (g : GroupGraphPattern) (s : Str) (hg : cGroup g s) (v : Var) (t : Str) (hv : cVar v t) :
    ∃ w, Ws w ∧ sparqlQueryStmt (c!"select * " ++ (s ++ (c!"group by " ++ (t ++ c!" ")))) = .ok w ⟨⟨[]⟩, .select ⟨.mk none .all, [], g,
      .mk none (some (.mk [.var v])) none none⟩, none⟩ := by
  have hw : Ws1 c!" " := ws1_rfl rfl
  have h1 : cGroupClause cGroup (.mk [.var v]) (c!"group by " ++ (t ++ c!" ")) :=
    ⟨c!"group", _, rfl, CaseVariant.refl _, c!" ", _, rfl, hw, c!"by", _, rfl, CaseVariant.refl _, c!" ", _, rfl, hw, by simp, _, [], (List.append_nil _).symm, ⟨t, c!" ", rfl, .var hv, hw⟩, rfl⟩
  exact C54_query_partial _ _ ⟨rfl, [], _, rfl, rfl, [], _, rfl, .nil, c!"select *", _, rfl,
    ⟨c!"select", _, rfl, CaseVariant.refl _, [], _, rfl, rfl, c!" ", _, rfl, hw, rfl⟩, c!" ", _, rfl, hw, [], _, rfl, rfl, s, _, rfl, ⟨[], _, rfl, .inl rfl, hg⟩,
    [], _, rfl, .nil, c!"group by " ++ (t ++ c!" "), [], by simp, h1, [], [], rfl, rfl, [], [], rfl, rfl, rfl⟩

/-! ## What remains to a caller: the marks of the text -/

instance noVars_ok : LeafIn (fun i => '?' ∉ i ∧ '$' ∉ i) noVars where
  var m e := by
    obtain ⟨t, rfl, h⟩ := (inferInstance : Sound var rVar).out e
    rename_i a
    obtain ⟨_, _, rfl, rfl, _⟩ := h
    cases a <;> simp [sigil] at m
  iri _ _ := trivial
  literal _ _ := trivial
  number _ _ := trivial
  blank _ _ := trivial
  limit _ _ := trivial
  separator _ _ := trivial
  prologue _ _ _ _ := trivial
instance : Tails (fun i => '?' ∉ i ∧ '$' ∉ i) := ⟨fun h h' => ⟨fun m => h.1 (h'.subset m), fun m => h.2 (h'.subset m)⟩⟩

/-- A text without `?` and `$` has no variables, in data or elsewhere. -/
theorem C76_no_variable_partial (i r : Str) (u : Update) (h : update i = .ok r u) (h1 : '?' ∉ i) (h2 : '$' ∉ i) : FUpdate noVars u :=
  YieldsIn.out (S := fun i => '?' ∉ i ∧ '$' ∉ i) (T := noVars) ⟨h1, h2⟩ h

instance noBlanks_ok : LeafIn (fun i => '[' ∉ i ∧ '_' ∉ i) noBlanks where
  blank m e := by
    obtain ⟨t, rfl, h⟩ := (inferInstance : Sound blankNode rBlankNode).out e
    rename_i a
    cases a with
    | anon => obtain ⟨_, _, rfl, rfl, _⟩ := h; simp at m
    | label l => obtain ⟨_, _, rfl, rfl, _⟩ := h; simp at m
  iri _ _ := trivial
  literal _ _ := trivial
  number _ _ := trivial
  var _ _ := trivial
  limit _ _ := trivial
  separator _ _ := trivial
  prologue _ _ _ _ := trivial
instance : Tails (fun i => '[' ∉ i ∧ '_' ∉ i) := ⟨fun h h' => ⟨fun m => h.1 (h'.subset m), fun m => h.2 (h'.subset m)⟩⟩

/-- A text without `[` and `_` has no blank nodes. -/
theorem C76_no_blank_partial (i r : Str) (u : Update) (h : update i = .ok r u) (h1 : '[' ∉ i) (h2 : '_' ∉ i) : FUpdate noBlanks u :=
  YieldsIn.out (S := fun i => '[' ∉ i ∧ '_' ∉ i) (T := noBlanks) ⟨h1, h2⟩ h

/-! Cases that meet the hypotheses. -/

example : cVar (.qmark c!"x") c!"?x" := ⟨rfl, by decide, by decide⟩
example : cBlankNode .anon c!"[ ]" := ⟨c!"[", _, rfl, rfl, c!" ", _, rfl, (ws1_rfl rfl : Ws1 c!" ").1, rfl⟩
example : PrefixName CommonBase CommonNameChar c!"ab" ∧ LocalName CommonLocalStart CommonLocalChar c!"cd" :=
  ⟨⟨'a', c!"b", rfl, by decide, by simp; decide, .inr ⟨[], 'b', rfl, by decide⟩⟩,
    c!"c", c!"d", rfl, .ch (by decide), .cons (s := []) (.ch (.inl (by decide))) .nil, 'd', by simp, by decide⟩
example : CCall cGroup (.aggregate (.count (.mk false .all))) c!"count(*)" :=
  .countAll (w := []) (y := []) (CaseVariant.refl c!"count") .nil rfl
example : ∃ u, update c!"INSERT DATA { <s> <p> 5 }" = .ok [] u := ⟨_, rfl⟩
example : '?' ∉ c!"INSERT DATA { <s> <p> 5 }" ∧ '[' ∉ c!"INSERT DATA { <s> <p> 5 }" := by decide

end NomSparql
