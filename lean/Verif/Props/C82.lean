import Verif.Lemmas.Size

/-!
# C82: what the crate returns is not larger than a fixed multiple of the text

The size (Spec/Size) counts the values of the types of the crate, the places in its vectors and the characters in its strings.  It is at most twelve for
every character the parser consumed.  So a text of a megabyte cannot make the crate build a tree of a gigabyte.
-/

namespace NomSparql

/-- Expressions. -/
theorem C82_expression {i r e} (h : expression i = .ok r e) : size e + 12 * r.length ≤ 12 * i.length := by
  obtain ⟨n, h1, h2⟩ := (inferInstance : Weighs expression (Std 0)).out (post := fun e n => size e + 0 ≤ 12 * n) (fun _ _ h => h) h
  omega

/-- Groups. -/
theorem C82_group {i r g} (h : groupGraphPattern i = .ok r g) : size g + 12 * r.length + 20 ≤ 12 * i.length := by
  obtain ⟨n, h1, h2⟩ := (inferInstance : Weighs groupGraphPattern (Std 20)).out (post := fun e n => size e + 20 ≤ 12 * n) (fun _ _ h => h) h
  omega

/-- Queries. -/
theorem C82_query {i r q} (h : sparqlQueryStmt i = .ok r q) : size q + 12 * r.length + 16 ≤ 12 * i.length := by
  obtain ⟨n, h1, h2⟩ := (inferInstance : Weighs sparqlQueryStmt (Std 16)).out (post := fun e n => size e + 16 ≤ 12 * n) (fun _ _ h => h) h
  omega

/-- Update requests.  The empty request is two values. -/
theorem C82_update {i r u} (h : update i = .ok r u) : size u + 12 * r.length ≤ 12 * i.length + 2 := by
  obtain ⟨n, h1, h2⟩ := (inferInstance : Weighs update (Lax 2)).out (post := fun e n => size e ≤ 12 * n + 2) (fun _ _ h => h) h
  omega

/-- The size of an answer and the rest of the text. -/
def sizeOfAnswer [Size α] (p : P α) (i : Str) : Option (Nat × Str) :=
  match p i with
  | .ok r a => some (size a, r)
  | _ => none

theorem sizeOfAnswer_eq [Size α] {p : P α} {i r : Str} {k : Nat} (h : sizeOfAnswer p i = some (k, r)) : ∃ a, p i = .ok r a ∧ size a = k := by
  unfold sizeOfAnswer at h
  split at h
  · rename_i r' a e
    simp at h
    obtain ⟨rfl, rfl⟩ := h
    exact ⟨a, e, rfl⟩
  · cases h

/-- Twelve is the least factor for expressions: the one character `:` in front of a bracket becomes twelve units. -/
theorem C82_expression_tight : ∃ e, expression c!":)" = .ok c!")" e ∧ size e = 12 := sizeOfAnswer_eq (by decide +kernel)

/-- For update requests two more are needed. -/
theorem C82_update_tight : ∃ u, update [] = .ok [] u ∧ size u = 2 := sizeOfAnswer_eq (by decide +kernel)

/-- So a bound `k n + d` needs `12 ≤ k + d` for expressions, and `2 ≤ d` for update requests. -/
theorem C82_expression_least {k d : Nat} (h : ∀ i r e, expression i = .ok r e → size e + k * r.length ≤ k * i.length + d) : 12 ≤ k + d := by
  obtain ⟨e, h1, h2⟩ := C82_expression_tight
  have := h _ _ _ h1
  simp at this
  omega
theorem C82_update_least {k d : Nat} (h : ∀ i r u, update i = .ok r u → size u + k * r.length ≤ k * i.length + d) : 2 ≤ d := by
  obtain ⟨e, h1, h2⟩ := C82_update_tight
  have := h _ _ _ h1
  simp at this
  omega

/-- Seventeen characters, thirty units; white space and comments add nothing. -/
example : sizeOfAnswer sparqlQueryStmt c!"ask {?s <a> <b> }" = some (30, []) := by decide +kernel
example : sizeOfAnswer sparqlQueryStmt c!"ask {?s <a> <b> }\n# c\n" = some (30, []) := by decide +kernel
example : sizeOfAnswer update c!"insert data {<a> <b> <c>}" = some (23, []) := by decide +kernel

end NomSparql
