import Verif.Lemmas.EbnfRecog
import Verif.Lemmas.EbnfManage
import Verif.Lemmas.EbnfTables
import Verif.Lemmas.EbnfTidyCheck
import Verif.Lemmas.EbnfCanonRequests
import Verif.Props.C46_C50
import Verif.Props.C67

/-!
# C80: legal requests are accepted

A request is accepted when it is read to its end, up to white space.  Many legal requests are not accepted.  Requests that manage graphs are:
every request of the part `plain` of SPARQL 1.1 that has no braces, no ADD and MOVE and no name that is only a prefix.  So are the canonical
queries and updates (the texts of C50 and C54, with groups, paths and expressions of any depth); those that are tidy (Spec/EbnfTidy) are legal.
-/

namespace NomSparql

open Ebnf

/-- The query is not read to its end. -/
def QueryRejected (s : Str) : Prop := ∀ r q, sparqlQueryStmt s = .ok r q → ¬ Ws r
/-- The update request is not read to its end. -/
def UpdateRejected (s : Str) : Prop := ∀ r u, update s = .ok r u → ¬ Ws r

/-! ## Requests that are read -/

/-- Requests of graph management operations, with declarations or without, are read to their end. -/
theorem C80_manage_partial {s : Str} (h : Gen plain (.n .update) s) (hb : '{' ∉ s) (hu : ¬ HasUnread s) (hs : ¬ StartsWs s) :
    LegalUpdate s ∧ ∃ r u, Ws r ∧ update s = .ok r u := by
  refine ⟨plain_legal h, ?_⟩
  obtain ⟨u, w, m, w', rfl, hw, hm, hw'⟩ := manage_update s.length s (Nat.le_refl _) h ⟨hb, hu⟩
  have : w = [] := by
    cases hw with
    | nil => rfl
    | cons ha _ => exact (hs ⟨_, _, ha, by rw [List.append_assoc]⟩).elim
  subst this
  obtain ⟨r, hr, e⟩ := C50_chain_partial (fun _ _ => False) (fun _ _ h => h.elim) u m w' hm hw'
  exact ⟨r, u, hr, e⟩

/-- Canonical queries that are tidy are legal, and are read to their end as the query written.  Missing for the full property: legal queries that
have no canonical text (see below). -/
theorem C80_query_partial {q : SparqlQueryStatement} {s : Str} (h : cQueryStmt q s) (t : Tidy s) :
    LegalQuery s ∧ ∃ w, Ws w ∧ sparqlQueryStmt s = .ok w q := ⟨canon_query_legal h t, C54_query_partial q s h⟩

/-- Canonical update requests that are tidy are legal, and are read to their end as the request written. -/
theorem C80_update_partial {u : Update} {s : Str} (h : cUpdate cGroup u s) (t : Tidy s) :
    LegalUpdate s ∧ ∃ w, Ws w ∧ update s = .ok w u := by
  refine ⟨canon_update_legal h t, ?_⟩
  have := C50_chain_partial cGroup (fun _ _ h => cGroup_reads h) u s [] h .nil
  rwa [List.append_nil] at this

/-! ## Requests that are not read -/

/-- No ADD or MOVE operation is read, however it is written. -/
theorem C80_addMove_violated {s : Str} (h : Gen sparql (.n .add) s ∨ Gen sparql (.n .move) s) (hs : ¬ StartsWs s) : UpdateRejected s := by
  have key : ∃ v w q r, s = w ++ (q ++ r) ∧ Ws w ∧ CaseVariant v q ∧ (v = c!"add" ∨ v = c!"move") := by
    rcases h with h | h
    · obtain ⟨w, q, r, h1, h2, h3⟩ := legal_first h (.inl rfl) rfl
      exact ⟨_, w, q, r, h1, h2, h3, .inl rfl⟩
    · obtain ⟨w, q, r, h1, h2, h3⟩ := legal_first h (.inl rfl) rfl
      exact ⟨_, w, q, r, h1, h2, h3, .inr rfl⟩
  obtain ⟨v, w, q, r, rfl, hw, hq, hv⟩ := key
  cases hw with
  | cons ha _ => exact (hs ⟨_, _, ha, by rw [List.append_assoc]⟩).elim
  | nil =>
    intro r' u e hr
    rw [List.nil_append, C47_violated v q r hv hq] at e
    cases e
    have hn : ¬ StartsWs (q ++ r) := by rcases hv with rfl | rfl <;> exact kw_not_ws hq (by decide)
    cases hr' : q ++ r with
    | nil => rcases hv with rfl | rfl <;> cases hq <;> cases hr'
    | cons c x =>
      rw [hr'] at hr
      generalize hy : c :: x = y at hr
      cases hr with
      | nil => cases hy
      | cons ha _ => exact hn ⟨_, _, ha, hr'.trans hy⟩

theorem apart_nil_left {t : Str} : Apart [] t := .inr fun a c _ _ h => by cases a <;> cases h
theorem apart_nil_right {s : Str} : Apart s [] := .inr fun _ _ _ _ _ h => by cases h

/-- The word ASK directly before a group, as in `ask{}`, is not read. -/
theorem C80_ask_violated {v g : Str} (hv : CaseVariant c!"ask" v) (h : Gen sparql (.n .groupGraphPattern) ('{' :: g)) :
    LegalQuery (v ++ '{' :: g) ∧ QueryRejected (v ++ '{' :: g) := by
  constructor
  · have none : ∀ {e}, Gen sparql (maybe e) [] := .right .nothing
    have seq0 : ∀ {a b}, Gen sparql a [] → Gen sparql b [] → Gen sparql (a ⬩ b) [] := fun h1 h2 => .seq h1 h2 apart_nil_left
    have sol : Gen sparql (.n .solutionModifier) [] := .n (seq0 none (seq0 none (seq0 none none)))
    have wh : Gen sparql (.n .whereClause) ('{' :: g) := .n (Gen.seq none h apart_nil_left)
    have ws : Gen sparql (.n .whereClause ⬩ .n .solutionModifier) ('{' :: g) := by
      simpa using Gen.seq wh sol apart_nil_right
    have st : Gen sparql (.star (.n .datasetClause) ⬩ .n .whereClause ⬩ .n .solutionModifier) ('{' :: g) := Gen.seq .stop ws apart_nil_left
    have ask : Gen sparql (.n .askQuery) (v ++ '{' :: g) := by
      refine .n (Gen.seq (.k hv) st (.inr ?_))
      intro a c d b _ hd hw
      cases hd
      exact absurd hw.2 (by decide)
    have q : Gen sparql ((.n .selectQuery ⫾ .n .constructQuery ⫾ .n .describeQuery ⫾ .n .askQuery) ⬩ .n .valuesClause) (v ++ '{' :: g) := by
      simpa using Gen.seq (Gen.right (.right (.right ask))) (Gen.n (x := .valuesClause) none) apart_nil_right
    have := Gen.seq (D := sparql) (Gen.n (x := .prologue) .stop) q apart_nil_left
    exact .n this
  · have hn : NoKeyword [c!"base", c!"prefix"] (v ++ '{' :: g) := by
      intro w' k' r' u hu e hw'
      simp only [List.mem_cons, List.not_mem_nil, or_false] at hu
      rcases hu with rfl | rfl <;> exact noKeyword_one (w := []) .nil hv (by decide) (by decide) (by decide) _ _ _ e hw'
    have hp := C24_prologue ⟨[]⟩ [] (v ++ '{' :: g) rfl hn
    have hq : Fails sparqlQuery (v ++ '{' :: g) := by
      refine .alt_cons ?_ (.alt_cons ?_ (.alt_cons ?_ (.map (.map (.tuple4 (.terminated2 (kw_eval hv) (sp1_fails (not_startsWs_cons rfl))))))))
      all_goals
        cases hv with
        | cons hc _ =>
          refine Fails.map (First.cons ?_)
          rcases hc with rfl | ⟨_, _, h3⟩
          · rfl
          · rename_i c _ _ _ _
            have : c = 'A' := by
              refine Char.ext (UInt32.toNat_inj.mp ?_)
              have h4 : ('a' : Char).toNat = 97 := rfl
              have h5 : ('A' : Char).val.toNat = 65 := rfl
              have : c.val.toNat = c.toNat := rfl
              omega
            subst this
            rfl
    intro r q e
    refine absurd e (Fails.not_ok (Fails.map (Fails.pair2 (terminated_eval hp (sp_zero (kw_not_ws hv (by decide)))) (Fails.pair hq))))

/-! ## A list of others -/

theorem not_ws_of {r : Str} (h1 : '#' ∉ r) (h2 : dense r ≠ []) : ¬ Ws r := fun h => h2 (dense_ws h h1)

/-- Something is left, decided. -/
def leaves {α : Type} : Res α → Bool
  | .ok r _ => decide ('#' ∉ r) && decide (dense r ≠ [])
  | .err _ => true

theorem leaves_sound {α : Type} {x : Res α} (h : leaves x = true) {r : Str} {a : α} (e : x = .ok r a) : ¬ Ws r := by
  subst e
  simp only [leaves, Bool.and_eq_true, decide_eq_true_eq] at h
  exact not_ws_of h.1 h.2

/-- Legal queries that are not accepted. -/
def unreadQueries : List Str := [
  c!"ask where{}",
  c!"select ?a ?b { }",
  c!"select ?a{ }",
  c!"select ?a { } order by ?a",
  c!"select ?a { } group by ?a",
  c!"select (1+2 as ?c) { }",
  c!"select * where { ?a ?b ?c . }",
  c!"select * where { ?a ?b ?c, ?d }",
  c!"select * where { ?a ?b ?c ; ?d ?e }",
  c!"select * where { ?a <p>/<q> ?c }",
  c!"select * where { ?a <p> ?c }",
  c!"select * where { ?a :p ?c }",
  c!"select * where { <a> <p> \"\" }",
  c!"select * where { <a> <p> \"\"\"a\"\"\" }",
  c!"select * where { ?a ?b (?c) }",
  c!"select * where { ?a ?b ?c filter(?a) }",
  c!"select * where { filter (?a + ?b) }",
  c!"select * where { filter (?a * ?b) }",
  c!"select * where { filter (now()) }",
  c!"select * where { filter (?a in (1,2)) }",
  c!"select * where { {} . {} }",
  c!"select * where {} values ?a { 1 }",
  c!"describe <a>"]

/-- Legal update requests that are not accepted. -/
def unreadUpdates : List Str := [
  c!"insert {} where {}",
  c!"delete {} where {}",
  c!"delete {} insert {} where {}",
  c!"with <g> delete {} where {}",
  c!"load ex: into graph <g>",
  c!"copy ex: to <g>"]

/-- The queries of the list are legal and not accepted. -/
theorem C80_query_violated : ∀ s ∈ unreadQueries, LegalQuery s ∧ QueryRejected s := by
  have : unreadQueries.all (fun s => recog .query s && leaves (sparqlQueryStmt s)) = true := by decide +kernel
  intro s hs
  have := List.all_eq_true.mp this s hs
  simp only [Bool.and_eq_true] at this
  exact ⟨recog_sound this.1, fun r q e => leaves_sound this.2 e⟩

/-- The update requests of the list are legal and not accepted. -/
theorem C80_update_violated : ∀ s ∈ unreadUpdates, LegalUpdate s ∧ UpdateRejected s := by
  have : unreadUpdates.all (fun s => recog .update s && leaves (update s)) = true := by decide +kernel
  intro s hs
  have := List.all_eq_true.mp this s hs
  simp only [Bool.and_eq_true] at this
  exact ⟨recog_sound this.1, fun r q e => leaves_sound this.2 e⟩

/-! ## Cases -/

/-- A request with a declaration, a name and two operations. -/
def sample : Str := c!"prefix ex: <a> clear graph ex:ab ; copy default to <b>"

example : ∃ u, update sample = .ok [] u := ⟨_, rfl⟩

theorem sample_read : ¬ HasUnread sample := not_hasUnread (by decide +kernel)

theorem sample_plain : Gen plain (.n .update) sample := by
  have kk : ∀ w : Str, Gen plain (.k w) w := fun w => .k (CaseVariant.refl w)
  have ref : ∀ c, ¬ W3CIriForbidden c → CIriChar c → Gen plain (.t .iriRef) ['<', c, '>'] := fun c h h' =>
    .t ⟨⟨[c], rfl, by simpa using h⟩, [c], rfl, by simpa using h'⟩
  have tail : W3CNameTail ['x'] := .inr ⟨[], 'x', rfl, by simp, by decide⟩
  have name : Gen plain (.n .iri) c!"ex:ab" := by
    refine .n (.right (.n (.left (.t ⟨?_, ⟨.pnameLN (some c!"ex") c!"ab", ?_⟩, ?_⟩))))
    · exact ⟨c!"ex:", c!"ab", rfl, .inr ⟨c!"ex", rfl, 'e', ['x'], rfl, by decide, tail⟩, ['a'], ['b'], rfl, .ch (by decide),
        .inr ⟨[], ['b'], rfl, .nil, .ch (by decide)⟩⟩
    · exact ⟨rfl, ⟨'e', ['x'], rfl, by decide, by decide, .inr ⟨[], 'x', rfl, by decide⟩⟩, ['a'], ['b'], rfl, .ch (by decide),
        .cons (u := ['b']) (s := []) (.ch (by decide)) .nil, 'b', by simp, by decide⟩
    · intro q r hq hd
      have := tagNoCase_append hd r
      rw [← hq] at this
      cases this
  have pro : Gen plain (.n .prologue) c!"prefix ex: <a>" := by
    have ns : Gen plain (.t .pnameNs) c!"ex:" := .t ⟨.inr ⟨c!"ex", rfl, 'e', ['x'], rfl, by decide, tail⟩, some c!"ex", rfl, 'e', ['x'], rfl, by decide, by decide,
      .inr ⟨[], 'x', rfl, by decide⟩⟩
    have d : Gen plain (.n .prefixDecl) c!"prefix ex: <a>" := .n (Gen.spaced (kk c!"prefix") (Gen.spaced ns (ref 'a' (by decide) (by decide))))
    exact .n (Gen.more (.right d) .stop spaced_nil_right)
  have clear : Gen plain (.n .update1) c!"clear graph ex:ab" := by
    have : Gen plain (.n .clear) c!"clear graph ex:ab" := .n (Gen.spaced (kk c!"clear") (.skipL (.n (.left (.n (Gen.spaced (kk c!"graph") name))))))
    exact .n (.right (.left this))
  have copy : Gen plain (.n .update1) c!"copy default to <b>" := by
    have i : Gen plain (.n .iri) c!"<b>" := .n (.left (ref 'b' (by decide) (by decide)))
    have : Gen plain (.n .copy) c!"copy default to <b>" := .n (Gen.spaced (kk c!"copy") (.skipL (Gen.spaced (.n (x := .graphOrDefault) (.left (kk c!"default")))
      (Gen.spaced (kk c!"to") (.n (x := .graphOrDefault) (.right (.skipL i)))))))
    exact .n (.right (.right (.right (.right (.right (.left this))))))
  have rest : Gen plain (.n .update) c!"copy default to <b>" :=
    .n (Gen.seq (s := []) (.n .stop) (.left (.skipR copy)) spaced_nil_left)
  exact .n (Gen.spaced pro (.left (Gen.spaced clear (.left (Gen.spaced .p rest)))))

example : LegalUpdate sample ∧ ∃ r u, Ws r ∧ update sample = .ok r u :=
  C80_manage_partial sample_plain (by decide) sample_read (not_startsWs_cons rfl)

/-- An ADD operation. -/
example : Gen sparql (.n .add) c!"add <a> to <b>" ∧ ¬ StartsWs c!"add <a> to <b>" := ⟨recog_sound (by decide +kernel), not_startsWs_cons rfl⟩
example : CaseVariant c!"ask" c!"Ask" ∧ Gen sparql (.n .groupGraphPattern) c!"{ ?s ?p ?o }" := ⟨kw_rfl rfl, recog_sound (by decide +kernel)⟩

/-- The query of C67 as printed, and its update request. -/
theorem query_tidy : Tidy (pQueryStmt (printer 3) exQuery) := tidyB_sound (by decide +kernel)
theorem update_tidy : Tidy (pUpdate (printer 0) exUpdate) := tidyB_sound (by decide +kernel)
example : LegalQuery (pQueryStmt (printer 3) exQuery) ∧ ∃ w, Ws w ∧ sparqlQueryStmt (pQueryStmt (printer 3) exQuery) = .ok w exQuery :=
  C80_query_partial (queryStmt_p (printer_ok 3) exQuery_ok) query_tidy
example : LegalUpdate (pUpdate (printer 0) exUpdate) ∧ ∃ w, Ws w ∧ update (pUpdate (printer 0) exUpdate) = .ok w exUpdate :=
  C80_update_partial (update_p (printer_ok 0) exUpdate_ok) update_tidy

end NomSparql
