import Verif.Props.C08_C10
import Verif.Props.C51_C55

/-!
# C72: no text is both a query and an update
-/

namespace NomSparql

/-- What is left after a text's declarations and white space does not start with an update's keyword if it starts with a query's. -/
theorem update_fails_form {f : Form} {k s : Str} (hk : CaseVariant (formKeyword f) k) : Fails updateStmt (k ++ s) := by
  have F : ∀ t ∈ [c!"load", c!"clear", c!"drop", c!"create", c!"copy", c!"insert", c!"delete", c!"where", c!"offset"], Fails (tagNoCase t) (k ++ s) := by
    intro t ht
    refine kw_fails hk ?_
    simp only [List.mem_cons, List.not_mem_nil, or_false] at ht
    rcases ht with rfl | rfl | rfl | rfl | rfl | rfl | rfl | rfl | rfl <;> cases f <;> decide
  exact Fails.alt_cons (Fails.map (Fails.map (Fails.tuple4 (Fails.pair (F _ (by simp))))))
    (Fails.alt_cons (Fails.map (Fails.map (Fails.pair (Fails.pair (F _ (by simp))))))
    (Fails.alt_cons (Fails.map (Fails.map (Fails.pair (Fails.pair (F _ (by simp))))))
    (Fails.alt_cons (Fails.map (Fails.map (Fails.tuple3 (Fails.pair (F _ (by simp))))))
    (Fails.alt_cons (Fails.map (Fails.map (Fails.pair (Fails.pair (F _ (by simp))))))
    (Fails.alt_cons (Fails.map (Fails.preceded (Fails.terminated (F _ (by simp)))))
    (Fails.alt_cons (Fails.map (Fails.preceded (Fails.terminated (F _ (by simp)))))
    (Fails.alt_cons (Fails.map (Fails.preceded (Fails.terminated (F _ (by simp)))))
    (Fails.map (Fails.map (Fails.pair2 (Fails.opt (Fails.delimited (F _ (by simp)))) (Fails.pair (Fails.terminated
      (Fails.alt_cons (Fails.map (Fails.pair (Fails.preceded (Fails.terminated (F _ (by simp))))))
        (Fails.map (Fails.preceded (Fails.terminated (F _ (by simp))))))))))))))))))

/-- A text that is read as a query is read by `update` as its declarations and no statement. -/
theorem C72_query (i r : Str) (q : SparqlQueryStatement) (h : sparqlQueryStmt i = .ok r q) :
    ∃ r', update i = .ok r' (.mk q.prologue none none) ∧ r' ≠ [] := by
  unfold sparqlQueryStmt at h
  obtain ⟨⟨p, q', v⟩, h', rfl⟩ := map_ok.mp h
  obtain ⟨r1, h1, h2⟩ := pair_ok_iff.mp h'
  obtain ⟨r2, h2, _⟩ := pair_ok_iff.mp h2
  obtain ⟨r0, w, h0, hw⟩ := terminated_ok.mp h1
  obtain ⟨k, s, rfl, hk⟩ := C10_form _ _ _ h2
  refine ⟨r0, ?_, ?_⟩
  · rw [update_eq]
    unfold updateStep
    exact map_ok.mpr ⟨(p, none), pair_eval h0 (Fails.opt (Fails.pair (Fails.preceded2 hw (update_fails_form hk)))), rfl⟩
  · rintro rfl
    obtain ⟨e, _, _⟩ := sp_ok_iff.mp hw
    have : k = [] := by
      cases k with
      | nil => rfl
      | cons => cases w <;> cases e
    subst this
    cases hq : formOf q' <;> rw [hq] at hk <;> cases hk

/-- A text that starts with an update statement is no query. -/
theorem C72_update (i r : Str) (p : Prologue) (s : UpdateStatement) (u : Option Update) (h : update i = .ok r (.mk p (some s) u)) (r' : Str)
    (q : SparqlQueryStatement) : sparqlQueryStmt i ≠ .ok r' q := fun h' => by
  obtain ⟨_, e, _⟩ := C72_query _ _ _ h'
  rw [h] at e
  cases e

/-- No text is read to its end as both. -/
theorem C72_both (i : Str) (q : SparqlQueryStatement) (u : Update) : ¬ (sparqlQueryStmt i = .ok [] q ∧ update i = .ok [] u) := fun ⟨h, h'⟩ => by
  obtain ⟨_, e, hne⟩ := C72_query _ _ _ h
  rw [h'] at e
  cases e
  exact hne rfl

/-- Both entry points read the same declarations. -/
theorem C72_prologue (i r r' : Str) (q : SparqlQueryStatement) (p : Prologue) (s : Option UpdateStatement) (u : Option Update)
    (h : sparqlQueryStmt i = .ok r q) (h' : update i = .ok r' (.mk p s u)) : p = q.prologue ∧ s = none ∧ u = none := by
  obtain ⟨_, e, _⟩ := C72_query _ _ _ h
  rw [h'] at e
  cases e
  exact ⟨rfl, rfl, rfl⟩

example : ∃ q, sparqlQueryStmt c!"PREFIX a: <b> ASK {}" = .ok [] q := ⟨_, rfl⟩
example : ∃ p s, update c!"PREFIX a: <b> DROP ALL" = .ok [] (.mk p (some s) none) := ⟨_, _, rfl⟩

end NomSparql
