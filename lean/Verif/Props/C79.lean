import Verif.Lemmas.EbnfAll
import Verif.Lemmas.EbnfTables
import Verif.Props.C76
import Verif.Lemmas.EbnfFreeCheck

/-!
# C79: accepted requests are SPARQL 1.1

The grammar is that of Spec/Ebnf, a copy of the W3C productions that knows nothing of the crate.  Not every accepted request is legal.
But every accepted request is generated by the same grammar with the crate's terminals, optional white space between words and the additional
productions of `extra`, which is the complete list of the liberties of the crate above the level of tokens.
-/

namespace NomSparql

open Ebnf

/-- What a query consumes is generated by the grammar of SPARQL 1.1 with the additional productions. -/
theorem C79_query_partial {i r : Str} {q : SparqlQueryStatement} (h : sparqlQueryStmt i = .ok r q) :
    ∃ s, i = s ++ r ∧ Gen (lax fun _ => True) (.n .query) s := by
  obtain ⟨s, hs, hr⟩ := Sound.out (R := rStatement) h
  exact ⟨s, hs, fits_statement (fun _ => trivial) s hr⟩

/-- What an update request consumes is generated by the grammar of SPARQL 1.1 with the additional productions. -/
theorem C79_update_partial {i r : Str} {u : Update} (h : update i = .ok r u) : ∃ s, i = s ++ r ∧ Gen (lax fun _ => True) (.n .update) s := by
  obtain ⟨s, hs, hr⟩ := Sound.out (R := rUpdate) h
  exact ⟨s, hs, fits_update trivial trivial (fun _ _ _ _ => trivial) s hr⟩

/-- The liberties that touch neither patterns nor expressions. -/
def dataDevs : Dev → Prop
  | .upperA | .dots => True
  | _ => False

/-- Requests of operations other than modifications take only two liberties: the upper-case `A` and several dots in a row. -/
theorem C79_data_partial {i r : Str} {u : Update} (h : update i = .ok r u) (hu : ∀ s ∈ updateStmts u, ¬ s.isModify) :
    ∃ s, i = s ++ r ∧ Gen (lax dataDevs) (.n .update) s := by
  obtain ⟨s, hs, hr⟩ := Sound.out (R := rUpdate) h
  exact ⟨s, hs, fits_update trivial trivial (fun x hx hm => absurd hm (hu x hx)) s hr⟩

/-! ## The liberties one by one -/

/-- A token of the crate is, up to white space before it, a token of SPARQL 1.1 or takes one of the five liberties. -/
theorem C79_tokens_partial {x : Term} {s : Str} (h : crateTerm x s) : ∃ w s', s = w ++ s' ∧ Ws w ∧ (w3cTerm x s' ∨ ∃ l, Liberty l x s') := by
  obtain ⟨w, s', hs, hw, h | ⟨_, l, _, h⟩⟩ := term_free (S := '(' :: s) (a := ['(']) (b := []) (by simp) (fun _ => .inr (by simp)) (fun _ => rfl) h
  · exact ⟨w, s', hs, hw, .inl h⟩
  · exact ⟨w, s', hs, hw, .inr ⟨l, h⟩⟩

/-- What a query consumes is SPARQL 1.1 up to the liberties that the text is not free of. -/
theorem C79_query_liberties_partial {i r : Str} {q : SparqlQueryStatement} (h : sparqlQueryStmt i = .ok r q) :
    ∃ s, i = s ++ r ∧ Gen (near (fun l => ¬ LibFree l s) (fun d => ¬ DevFree d s)) (.n .query) s := by
  obtain ⟨s, hs, hg⟩ := C79_query_partial h
  exact ⟨s, hs, by simpa [nearIn] using gen_near_top hg (.inl rfl)⟩

/-- What an update request consumes is SPARQL 1.1 up to the liberties that the text is not free of. -/
theorem C79_update_liberties_partial {i r : Str} {u : Update} (h : update i = .ok r u) :
    ∃ s, i = s ++ r ∧ Gen (near (fun l => ¬ LibFree l s) (fun d => ¬ DevFree d s)) (.n .update) s := by
  obtain ⟨s, hs, hg⟩ := C79_update_partial h
  exact ⟨s, hs, by simpa [nearIn] using gen_near_top hg (.inr rfl)⟩

/-- A query that consumes a careful text consumes SPARQL 1.1. -/
theorem C79_query_careful_partial {i r s : Str} {q : SparqlQueryStatement} (h : sparqlQueryStmt i = .ok r q) (hs : i = s ++ r) (hc : Careful s) :
    Gen sparqlWide (.n .query) s := by
  obtain ⟨t, ht, hg⟩ := C79_query_liberties_partial h
  obtain rfl : s = t := List.append_cancel_right (hs.symm.trans ht)
  exact gen_wide (fun l h => h (hc.lib l)) (fun d h => h (hc.dev d)) hg

/-- An update request that consumes a careful text consumes SPARQL 1.1. -/
theorem C79_update_careful_partial {i r s : Str} {u : Update} (h : update i = .ok r u) (hs : i = s ++ r) (hc : Careful s) :
    Gen sparqlWide (.n .update) s := by
  obtain ⟨t, ht, hg⟩ := C79_update_liberties_partial h
  obtain rfl : s = t := List.append_cancel_right (hs.symm.trans ht)
  exact gen_wide (fun l h => h (hc.lib l)) (fun d h => h (hc.dev d)) hg

/-- Operations other than modifications that take no liberty of tokens, no upper-case `A` and no two dots in a row are SPARQL 1.1. -/
theorem C79_data_careful_partial {i r s : Str} {u : Update} (h : update i = .ok r u) (hu : ∀ s ∈ updateStmts u, ¬ s.isModify) (hs : i = s ++ r)
    (hl : ∀ l, LibFree l s) (hA : DevFree .upperA s) (hd : DevFree .dots s) : Gen sparqlWide (.n .update) s := by
  obtain ⟨t, ht, hg⟩ := C79_data_partial h hu
  obtain rfl : s = t := List.append_cancel_right (hs.symm.trans ht)
  refine gen_wide (fun l h => h (hl l)) (fun d h => ?_) (gen_near_top hg (.inr rfl))
  cases d with
  | upperA => exact h.2 hA
  | dots => exact h.2 hd
  | _ => exact h.1

/-! ## What legal requests never are -/

/-- No legal update request begins with the letter `o`. -/
theorem legal_update_not_o {s t : Str} {c : Char} (h : Gen sparqlWide (.n .update) s) (hs : dense s = c :: t) (hc : c = 'o' ∨ c = 'O') (hh : '#' ∉ s) : False := by
  have := (Scan.holds scanO_fine h (by decide) fun c hc hb => hh (by simpa [show c = '#' by simpa [scanO] using hb] using hc)).fst c t hs
    (by simpa [scanO] using hc)
  revert this
  decide

/-- In a legal request a question mark is not followed by a closing brace. -/
theorem legal_no_mark_brace {s a b : Str} {x : Nt} (h : Gen sparqlWide (.n x) s) (hp : Bare s) : dense s ≠ a ++ '?' :: '}' :: b :=
  fun hs => (Scan.holds scanQ_fine h rfl hp.bad).apart _ _ a b hs rfl rfl

/-- In a legal request a dot is not followed by a dot. -/
theorem legal_no_two_dots {s a b : Str} {x : Nt} (h : Gen sparqlWide (.n x) s) (hp : Bare s) : dense s ≠ a ++ '.' :: '.' :: b :=
  fun hs => (Scan.holds scanD_fine h rfl hp.bad).apart _ _ a b hs rfl rfl

/-! ## Violations -/

/-- No request that the crate reads as a single modification with a deletion and without graph is legal. -/
theorem C79_delete_violated {i r : Str} {m : ModifyStatement} {x : Quads} {y : Option Quads} (hm : m.iri = none)
    (hx : m.deleteInsert = .deleteInsert x y) (h : update i = .ok r (.mk ⟨[]⟩ (some (.modify m)) none)) (hh : '#' ∉ i) :
    ∃ s, i = s ++ r ∧ IllegalUpdate s := by
  obtain ⟨s, hs, hr⟩ := Sound.out (R := rUpdate) h
  refine ⟨s, hs, fun hl => ?_⟩
  have hh' : '#' ∉ s := fun hc => hh (by simp [hs, hc])
  simp only [rUpdate, rUpdateStatement, rModify, hm, hx] at hr
  obtain ⟨_, _, rfl, rfl, w, _, rfl, hw, _, _, rfl, rfl, _, t, rfl, ⟨k, u, rfl, hk, _⟩, _⟩ := hr
  cases hk with
  | cons hc _ =>
    rename_i c k' _
    have hc' : c = 'o' ∨ c = 'O' := by
      rcases hc with rfl | ⟨_, _, h3⟩
      · exact .inl rfl
      · refine .inr (Char.ext (UInt32.toNat_inj.mp ?_))
        have h4 : ('o' : Char).toNat = 111 := rfl
        have h5 : ('O' : Char).val.toNat = 79 := rfl
        have : c.val.toNat = c.toNat := rfl
        omega
    have hb : ¬ IsBlank c := by rcases hc' with rfl | rfl <;> decide
    refine legal_update_not_o hl (t := dense (k' ++ u ++ t)) (c := c) ?_ hc' hh'
    simp only [List.nil_append, dense_append, List.cons_append] at hh' ⊢
    rw [dense_ws hw (by simp at hh'; exact hh'.1), dense_cons hb]
    simp [dense_append]

/-- The request `offset {} using <a> where {}` is accepted to its end, and is not legal. -/
theorem C79_update_violated : ∃ i u, update i = .ok [] u ∧ IllegalUpdate i :=
  ⟨c!"offset {} using <a> where {}", _, rfl, fun h => legal_update_not_o h rfl (.inl rfl) (by decide)⟩

/-- The query `ask {{}? }` is accepted to its end, and is not legal. -/
theorem C79_query_violated : ∃ i q, sparqlQueryStmt i = .ok [] q ∧ IllegalQuery i :=
  ⟨c!"ask {{}? }", _, rfl, fun h => legal_no_mark_brace (a := c!"ask{{}") (b := []) h (by decide) rfl⟩

/-- The query `ask { ?s ?p ?o . . ?o ?p ?s }` is accepted to its end, and is not legal. -/
theorem C79_dots_violated : ∃ i q, sparqlQueryStmt i = .ok [] q ∧ IllegalQuery i :=
  ⟨c!"ask { ?s ?p ?o . . ?o ?p ?s }", _, rfl, fun h => legal_no_two_dots (a := c!"ask{?s?p?o") (b := c!"?o?p?s}") h (by decide) rfl⟩

/-! ## Cases -/

example : ∃ q, sparqlQueryStmt c!"ask {?s ?p ?o . . ?o ?p ?s {} ? }" = .ok [] q := ⟨_, rfl⟩
example : ∃ u, update c!"insert data {<a> A <b> .. <a> A <b>} ; clear all" = .ok [] u ∧ ∀ s ∈ updateStmts u, ¬ s.isModify :=
  ⟨_, rfl, by
    intro s hs
    rcases List.mem_cons.mp hs with rfl | hs
    · exact id
    · rcases List.mem_cons.mp hs with rfl | hs
      · exact id
      · cases hs⟩
example : ∃ m x y, m.iri = none ∧ m.deleteInsert = .deleteInsert x y ∧ update c!"offset {} using <a> where {}" = .ok [] (.mk ⟨[]⟩ (some (.modify m)) none) :=
  ⟨_, _, _, rfl, rfl, rfl⟩

/-! Careful texts. -/

example : ∃ q, sparqlQueryStmt c!"base <a> ask { $v <p>|<q> \"x\"@en . $w a <c> filter ($v < $w) }" = .ok [] q := ⟨_, rfl⟩
example : Careful c!"base <a> ask { $v <p>|<q> \"x\"@en . $w a <c> filter ($v < $w) }" :=
  ⟨freeB_sound (by decide +kernel), devB_sound (by decide +kernel)⟩
def personQuery : Str := c!"PREFIX foaf: <http://xmlns.com/foaf/0.1/>\nBASE <http://www.example.org/>\nSELECT ?name WHERE {\n  ?person foaf:nick \"Bob\"@en  ; ^foaf:knows <rob.html> ; a foaf:Person .\n  ?person foaf:age $age .\n  ?age ?than 30\n  FILTER ($age < $max ) } LIMIT 10 OFFSET 20"
example : (match sparqlQueryStmt personQuery with | .ok [] _ => true | _ => false) = true := by decide +kernel
example : Careful personQuery := ⟨freeB_sound (by decide +kernel), devB_sound (by decide +kernel)⟩
def personUpdate : Str := c!"PREFIX foaf: <http://xmlns.com/foaf/0.1/>\nINSERT DATA {\n  <http://example.org/bob> foaf:name \"Bob\" , \"Robert\" .\n  <http://example.org/bob> foaf:age 42 } ;\nINSERT { ?a foaf:knows ?b } USING <http://example.org/g1> WHERE {\n  ?a ?p ?b . ?b foaf:age 42 .\n  ?b ?p ?a }"
example : (match update personUpdate with | .ok [] _ => true | _ => false) = true := by decide +kernel
example : Careful personUpdate := ⟨freeB_sound (by decide +kernel), devB_sound (by decide +kernel)⟩
example : ∃ u, update c!"insert { $s a <b> } using <g> where { $s <p> $o . $o <q> $s }" = .ok [] u := ⟨_, rfl⟩
example : Careful c!"insert { $s a <b> } using <g> where { $s <p> $o . $o <q> $s }" := ⟨freeB_sound (by decide +kernel), devB_sound (by decide +kernel)⟩
example : ∃ u, update c!"insert data { <a> a <b> , 3 ; x:cd \"x\" . <a> <p> _:x1 } ; clear all" = .ok [] u ∧ ∀ s ∈ updateStmts u, ¬ s.isModify :=
  ⟨_, rfl, by
    intro s hs
    rcases List.mem_cons.mp hs with rfl | hs
    · exact id
    · rcases List.mem_cons.mp hs with rfl | hs
      · exact id
      · cases hs⟩
example : let s := c!"insert data { <a> a <b> , 3 ; x:cd \"x\" . <a> <p> _:x1 } ; clear all"
    (∀ l, LibFree l s) ∧ DevFree .upperA s ∧ DevFree .dots s := ⟨freeB_sound (by decide +kernel), upperA_sound (by decide +kernel), dots_sound (by decide) (by decide +kernel)⟩
/-- Each liberty is taken by some token. -/
example : (crateTerm .var c!"? x" ∧ Liberty .gap .var c!"? x") ∧ (crateTerm .number c!"1." ∧ Liberty .dotEnd .number c!"1.") ∧
    (crateTerm .nil c!"(#\n)" ∧ Liberty .comment .nil c!"(#\n)") ∧ (crateTerm .string c!"'\n'" ∧ Liberty .lineEnd .string c!"'\n'") ∧
    crateTerm .var c!"?⩡" ∧ Liberty .foreign .var c!"?⩡" := by
  refine ⟨⟨⟨.qmark c!"x", c!"?", c!" x", rfl, rfl, c!" ", c!"x", rfl, .cons (.char (by decide)) .nil, rfl, by decide, by decide⟩, .inr (.inr (.inr rfl)), c!"?", c!" ", c!"x", rfl,
    ⟨.cons (.char (by decide)) .nil, by decide⟩, by decide, by decide⟩, ⟨⟨⟨.double ⟨false, 1, 0⟩ none, c!"1.", [], rfl,
    ⟨[], false, c!"1", [], .none, .inr rfl, by decide, by decide, rfl, .digit (c := '1') (by decide), rfl⟩, rfl⟩, ?_⟩, .inr ⟨by simp, c!"1", rfl⟩⟩,
    ⟨⟨c!"(", c!"#\n)", rfl, rfl, c!"#\n", c!")", rfl, .cons (.comment (body := []) (c := '\n') (by simp) (by simp)) .nil, rfl⟩, .inl rfl, by decide⟩,
    ⟨⟨c!"\n", '\'', .inl rfl, rfl, .ord (by decide) (by decide) .nil, by decide⟩, rfl, by decide⟩,
    ⟨.qmark c!"⩡", c!"?", c!"⩡", rfl, rfl, [], c!"⩡", rfl, .nil, rfl, by decide, by decide⟩, .inr (.inr (.inr rfl)), '⩡', by decide, by decide⟩
  intro c s h
  cases h; decide

end NomSparql
