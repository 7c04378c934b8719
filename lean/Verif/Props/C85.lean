import Verif.Lemmas.Stored

/-!
# C85: nothing that was written is lost

A `$` and the characters outside ASCII are in no keyword, no number and no punctuation of SPARQL.  So wherever one of them stands in a request, outside
comments, it belongs to a name, an IRI, a literal or (the `$`) to a variable.  The tree has every one of them: `c` is stored as many times (Spec/Stored) as
it was written.
-/

namespace NomSparql

/-- Reading off the count: `x` is the consumed text. -/
theorem kept_out {c : Char} [Occ α] {p : P α} (hk : Keeps c p (Kept c)) {x r : Str} {a : α} (h : p (x ++ r) = .ok r a) :
    occ c a ≤ x.count c ∧ (PlainIn c x → occ c a = x.count c) := by
  obtain ⟨y, n, w, h1, h2, h3, rfl⟩ := hk.out (post := fun a n => n = occ c a) (fun _ => rfl) h
  have : x = y := List.append_cancel_right h1
  subst this
  exact ⟨by omega, fun h => by have := h3 h; omega⟩

/-- Queries: what is stored was written, and what was written outside comments is stored, each time. -/
theorem C85_query {c : Char} (hc : c = '$' ∨ 128 ≤ c.toNat) {x r : Str} {q} (h : sparqlQueryStmt (x ++ r) = .ok r q) :
    occ c q ≤ x.count c ∧ (PlainIn c x → occ c q = x.count c) :=
  have : Quiet c := ⟨hc⟩
  kept_out inferInstance h

/-- Update requests. -/
theorem C85_update {c : Char} (hc : c = '$' ∨ 128 ≤ c.toNat) {x r : Str} {u} (h : update (x ++ r) = .ok r u) :
    occ c u ≤ x.count c ∧ (PlainIn c x → occ c u = x.count c) :=
  have : Quiet c := ⟨hc⟩
  kept_out inferInstance h

/-- Expressions. -/
theorem C85_expression {c : Char} (hc : c = '$' ∨ 128 ≤ c.toNat) {x r : Str} {e} (h : expression (x ++ r) = .ok r e) :
    occ c e ≤ x.count c ∧ (PlainIn c x → occ c e = x.count c) :=
  have : Quiet c := ⟨hc⟩
  kept_out inferInstance h

/-- Groups. -/
theorem C85_group {c : Char} (hc : c = '$' ∨ 128 ≤ c.toNat) {x r : Str} {g} (h : groupGraphPattern (x ++ r) = .ok r g) :
    occ c g ≤ x.count c ∧ (PlainIn c x → occ c g = x.count c) :=
  have : Quiet c := ⟨hc⟩
  kept_out inferInstance h

/-- In a text without `#` no condition is left. -/
theorem C85_query_plain {c : Char} (hc : c = '$' ∨ 128 ≤ c.toNat) {x r : Str} {q} (hx : '#' ∉ x) (h : sparqlQueryStmt (x ++ r) = .ok r q) :
    occ c q = x.count c :=
  (C85_query hc h).2 fun a body b e => absurd (by rw [e]; simp) hx
theorem C85_update_plain {c : Char} (hc : c = '$' ∨ 128 ≤ c.toNat) {x r : Str} {u} (hx : '#' ∉ x) (h : update (x ++ r) = .ok r u) :
    occ c u = x.count c :=
  (C85_update hc h).2 fun a body b e => absurd (by rw [e]; simp) hx

/-- The count of `c` in an answer, and the rest of the text. -/
def storedIn [Occ α] (c : Char) (p : P α) (i : Str) : Option (Nat × Str) :=
  match p i with
  | .ok r a => some (occ c a, r)
  | _ => none

/-- The condition on comments is needed: a `$` in a comment is read and not stored. -/
theorem C85_comments_needed : ∃ x u, update x = .ok [] u ∧ occ '$' u < x.count '$' := by
  have h : storedIn '$' update c!"clear all ;#$\n" = some (0, []) := by decide +kernel
  unfold storedIn at h
  split at h
  · rename_i r a e
    simp at h
    obtain ⟨h1, rfl⟩ := h
    exact ⟨_, a, e, by rw [h1]; decide⟩
  · cases h

/-- Three letters outside ASCII in a query, in a name of a variable, an IRI and a literal. -/
example : storedIn 'é' sparqlQueryStmt c!"ask {?é <é> 'é' }" = some (3, []) := by decide +kernel
/-- One variable with a `$`, one literal with another. -/
example : storedIn '$' sparqlQueryStmt c!"ask {$s <a> '5$' }" = some (2, []) := by decide +kernel
example : storedIn '$' update c!"insert data {<a$> <b> '$$'}" = some (3, []) := by decide +kernel
example : storedIn '$' expression c!"$a && $b)" = some (2, c!")") := by decide +kernel

end NomSparql
