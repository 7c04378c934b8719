import Verif.Lemmas.UnitsBlocks
import Verif.Spec.Parts

/-!
# Semicolons between update requests
-/

namespace NomSparql

theorem partsOf_ne (u : Update) : partsOf u ≠ [] := by
  obtain ⟨p, s, _ | u⟩ := u <;> simp [partsOf]

theorem semi_read' {w1 w2 y : Str} (h1 : Ws w1) (h2 : Ws w2) (hy : ¬ StartsWs y) : spEnc (char ';') (w1 ++ ';' :: (w2 ++ y)) = .ok y ';' := by
  rw [spEnc, delimited, preceded_cont (sp_append h1 (not_startsWs_cons rfl))]
  exact terminated_eval (r := w2 ++ y) (by simp [char]) (sp_append h2 hy)

theorem semi_read {w y : Str} (h : Ws w) (hy : ¬ StartsWs y) : spEnc (char ';') (';' :: (w ++ y)) = .ok y ';' :=
  semi_read' (w1 := []) .nil h hy

end NomSparql
