import Verif.Lemmas.Ink

/-!
# C86: what was written is stored in the order it was written

C85 counts; here the order counts as well.  `ink` (Spec/Ink) reads the strings of a tree in the order in which SPARQL writes the parts.  As far as the quiet
characters go (`$` and everything outside ASCII), this is the text again.  So no two parts of a request are swapped, at any depth.
-/

namespace NomSparql

theorem inked_shed [Ink α] {p : P α} (hk : Inks p Inked) {x r : Str} {a : α} (h : p (x ++ r) = .ok r a) :
    ∃ y, Shed x y ∧ ink a = y.filter fun c => c == '$' || decide (128 ≤ c.toNat) := by
  obtain ⟨y, n, h1, ⟨z, h2, h3⟩, rfl⟩ := hk.out (post := fun a n => n = ink a) (fun _ => rfl) h
  have : x = y := List.append_cancel_right h1
  subst this
  exact ⟨z, h2, h3.symm⟩
theorem inked_out [Ink α] {p : P α} (hk : Inks p Inked) {x r : Str} {a : α} (h : p (x ++ r) = .ok r a)
    (hx : ∀ c, c = '$' ∨ 128 ≤ c.toNat → PlainIn c x) : ink a = x.filter fun c => c == '$' || decide (128 ≤ c.toNat) := by
  obtain ⟨y, h1, h2⟩ := inked_shed hk h
  rw [h2]
  exact h1.clear fun c hc => hx c (by simpa [isQuiet] using hc)

/-- Queries: the quiet characters are those of the text with some of its white space (comments are white space) taken out. -/
theorem C86_query_shed {x r : Str} {q} (h : sparqlQueryStmt (x ++ r) = .ok r q) : ∃ y, Shed x y ∧ ink q = y.filter fun c => c == '$' || decide (128 ≤ c.toNat) :=
  inked_shed inferInstance h

/-- Queries: if no quiet character is in a comment, they are those of the text. -/
theorem C86_query {x r : Str} {q} (h : sparqlQueryStmt (x ++ r) = .ok r q) (hx : ∀ c, c = '$' ∨ 128 ≤ c.toNat → PlainIn c x) :
    ink q = x.filter fun c => c == '$' || decide (128 ≤ c.toNat) := inked_out inferInstance h hx

/-- Update requests: the quiet characters are those of the text with some of its white space (comments are white space) taken out. -/
theorem C86_update_shed {x r : Str} {u} (h : update (x ++ r) = .ok r u) : ∃ y, Shed x y ∧ ink u = y.filter fun c => c == '$' || decide (128 ≤ c.toNat) :=
  inked_shed inferInstance h

/-- Update requests: if no quiet character is in a comment, they are those of the text. -/
theorem C86_update {x r : Str} {u} (h : update (x ++ r) = .ok r u) (hx : ∀ c, c = '$' ∨ 128 ≤ c.toNat → PlainIn c x) :
    ink u = x.filter fun c => c == '$' || decide (128 ≤ c.toNat) := inked_out inferInstance h hx

/-- Expressions: the quiet characters are those of the text with some of its white space (comments are white space) taken out. -/
theorem C86_expression_shed {x r : Str} {e} (h : expression (x ++ r) = .ok r e) : ∃ y, Shed x y ∧ ink e = y.filter fun c => c == '$' || decide (128 ≤ c.toNat) :=
  inked_shed inferInstance h

/-- Expressions: if no quiet character is in a comment, they are those of the text. -/
theorem C86_expression {x r : Str} {e} (h : expression (x ++ r) = .ok r e) (hx : ∀ c, c = '$' ∨ 128 ≤ c.toNat → PlainIn c x) :
    ink e = x.filter fun c => c == '$' || decide (128 ≤ c.toNat) := inked_out inferInstance h hx

/-- Groups: the quiet characters are those of the text with some of its white space (comments are white space) taken out. -/
theorem C86_group_shed {x r : Str} {g} (h : groupGraphPattern (x ++ r) = .ok r g) : ∃ y, Shed x y ∧ ink g = y.filter fun c => c == '$' || decide (128 ≤ c.toNat) :=
  inked_shed inferInstance h

/-- Groups: if no quiet character is in a comment, they are those of the text. -/
theorem C86_group {x r : Str} {g} (h : groupGraphPattern (x ++ r) = .ok r g) (hx : ∀ c, c = '$' ∨ 128 ≤ c.toNat → PlainIn c x) :
    ink g = x.filter fun c => c == '$' || decide (128 ≤ c.toNat) := inked_out inferInstance h hx

/-- Two texts without `#` that are read as the same tree have the same quiet characters in the same order. -/
theorem C86_same_query {x y r t : Str} {q} (hx : '#' ∉ x) (hy : '#' ∉ y) (h : sparqlQueryStmt (x ++ r) = .ok r q) (h' : sparqlQueryStmt (y ++ t) = .ok t q) :
    (x.filter fun c => c == '$' || decide (128 ≤ c.toNat)) = y.filter fun c => c == '$' || decide (128 ≤ c.toNat) := by
  rw [← C86_query h fun c _ a body b e => absurd (by rw [e]; simp) hx, ← C86_query h' fun c _ a body b e => absurd (by rw [e]; simp) hy]

/-- The quiet characters of an answer, and the rest of the text. -/
def inkOf [Ink α] (p : P α) (i : Str) : Option (Str × Str) :=
  match p i with
  | .ok r a => some (ink a, r)
  | _ => none

example : inkOf sparqlQueryStmt c!"ask {?é <è> 'ê' }" = some (c!"éèê", []) := by decide +kernel
example : inkOf sparqlQueryStmt c!"select $é where {$à <ü> $ö }" = some (c!"$é$àü$ö", []) := by decide +kernel
example : inkOf update c!"insert data {<é> <è> 'ê'}" = some (c!"éèê", []) := by decide +kernel
/-- ORDER BY is written behind GROUP BY; the struct has them the other way round. -/
example : inkOf sparqlQueryStmt c!"ask {?é <è> 'ê' } group by ?ä order by ?ö " = some (c!"éèêäö", c!" ") := by decide +kernel
/-- A comment is taken out. -/
example : inkOf update c!"insert data {<é> <è> #ü\n'ê'}" = some (c!"éèê", []) := by decide +kernel
/-- A `#` in an IRI is no comment: the premise of C86_update fails here, C86_update_shed has none. -/
example : inkOf update c!"insert data {<a#é> <è> 'ê'}" = some (c!"éèê", []) := by decide +kernel
/-- A swap of two variables shows. -/
example : inkOf expression c!"?ä && ?ö)" ≠ inkOf expression c!"?ö && ?ä)" := by decide +kernel

end NomSparql
