import Verif.Spec.Render

/-!
# Answers up to the letter case of a leading keyword
-/

namespace NomSparql

/-- The characters of the (lower-case) keywords. -/
def KwLetter (c : Char) : Prop := (0x61 ≤ c.toNat ∧ c.toNat ≤ 0x7A) ∨ c = '_' ∨ AsciiDigit c

instance : DecidablePred KwLetter := fun c => by unfold KwLetter; infer_instance

/-- `i'` is `i` with a leading keyword text respelled in another letter case. -/
def Twin (i i' : Str) : Prop :=
  ∃ t a a' s, (∀ c ∈ t, KwLetter c) ∧ CaseVariant t a ∧ CaseVariant t a' ∧ i = a ++ s ∧ i' = a' ++ s

/-- The same answer on two twin inputs: the same kind of outcome; error positions are twins again (an
error is reported at the input, whose spelling differs).  With `strict` an accepted input leaves the same
remainder (otherwise a twin), with `vals` it has the same value. -/
def Alike (strict vals : Bool) : Res α → Res α → Prop
  | .ok r v, .ok r' v' => Twin r r' ∧ (strict = true → r = r') ∧ (vals = true → v = v')
  | .err (.error p k), .err (.error p' k') => Twin p p' ∧ k = k'
  | .err (.failure p k), .err (.failure p' k') => Twin p p' ∧ k = k'
  | .err e, .err e' => e = e'
  | _, _ => False

/-- Re-spelling keyword characters at the front in another letter case never changes the answer. -/
def CaseInsensitive (p : P α) : Prop :=
  ∀ t k k' s, (∀ c ∈ t, KwLetter c) → CaseVariant t k → CaseVariant t k' → Alike true true (p (k ++ s)) (p (k' ++ s))

/-- The same for one keyword `t`. -/
def CaseInsensitiveAt (t : Str) (p : P α) : Prop :=
  ∀ k k' s, CaseVariant t k → CaseVariant t k' → Alike true true (p (k ++ s)) (p (k' ++ s))

end NomSparql
