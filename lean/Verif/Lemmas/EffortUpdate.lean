import Verif.Model.CostUpdate
import Verif.Lemmas.EffortAll

/-! # The effort of reading updates -/

namespace NomSparql.Cost

/-! ## The same results -/

@[simp] theorem erase_modifyStmt : erase modifyStmt = NomSparql.modifyStmt := by
  simp [modifyStmt, NomSparql.modifyStmt, erase_groupGraphPattern]
@[simp] theorem erase_updateStmt : erase updateStmt = NomSparql.updateStmt := by simp [updateStmt, NomSparql.updateStmt]
theorem erase_updateStep (up : K Update) : erase (updateStep up) = NomSparql.updateStep (erase up) := by
  simp [updateStep, NomSparql.updateStep]
  rfl

theorem erase_updateF (n : Nat) : erase (updateF n) = NomSparql.updateF n := by
  induction n with
  | zero => rfl
  | succ n ih =>
    show erase (tick (updateStep (updateF n))) = _
    rw [erase_tick, erase_updateStep, ih]
    rfl

theorem erase_update : erase update = NomSparql.update := funext fun i => congrFun (erase_updateF (i.length + 1)) i

/-! ## The count of a call -/

instance : KGood groupGraphPattern := inferInstanceAs (KGood R₀.ggp)
instance : KGood modifyStmt := by unfold modifyStmt; infer_instance
instance : KGood updateStmt := by unfold updateStmt; infer_instance
instance : KConsumes updateStmt := ⟨by rw [erase_updateStmt]; infer_instance⟩
instance {up : K Update} [KGood up] : KGood (updateStep up) := by unfold updateStep; infer_instance
instance updateF_kgood (n : Nat) : KGood (updateF n) := ⟨by rw [erase_updateF]; infer_instance⟩
instance : KGood update := ⟨by rw [erase_update]; infer_instance⟩

instance {m : Nat} : KAgree m updateStmt updateStmt :=
  ⟨by rw [erase_updateStmt]; infer_instance, fun _ _ => rfl⟩
instance {m : Nat} {up up' : K Update} [KAgree m up up'] [KGood up] : KAgree (m + 1) (updateStep up) (updateStep up') := by
  unfold updateStep; infer_instance

theorem updateF_kagree : ∀ n k, KAgree n (updateF n) (updateF (n + k))
  | 0, k => ⟨⟨fun _ h => absurd h (by omega)⟩, fun _ h => absurd h (by omega)⟩
  | n + 1, k => by
    have := updateF_kagree n k
    have h : KAgree (n + 1) (updateStep (updateF n)) (updateStep (updateF (n + k))) := inferInstance
    rw [show n + 1 + k = n + k + 1 by omega]
    exact ⟨h.res, fun i hi => congrArg (· + 1) (h.cost i hi)⟩

theorem updateF_kagree_closed (n : Nat) : KAgree n (updateF n) update where
  res := by rw [erase_updateF, erase_update]; exact updateF_agree_closed n
  cost i hi := by
    have h := (updateF_kagree (i.length + 1) (n - (i.length + 1))).cost i (by omega)
    rw [show i.length + 1 + (n - (i.length + 1)) = n by omega] at h
    exact h.symm

/-- A call of `update` counts one and then what its body counts. -/
theorem update_cost (i : Input) : (update i).2 = (updateStep update i).2 + 1 := by
  have := updateF_kagree_closed i.length
  exact congrArg (· + 1) ((inferInstance : KAgree (i.length + 1) (updateStep (updateF i.length)) (updateStep update)).cost i (by omega))

/-! ## Linear effort -/

section
variable {W : Nat}

instance : Lin W 4 1 NoD groupGraphPattern := inferInstanceAs (Lin W 4 1 NoD R₀.ggp)
instance : Lin W 4 0 NoD modifyStmt := Lin.lit (p := map (tuple5
      (lift (NomSparql.opt (NomSparql.delimited (NomSparql.tagNoCase c!"where") NomSparql.iri NomSparql.sp1)))
      (lift (NomSparql.terminated NomSparql.deleteInsert NomSparql.sp))
      (lift (NomSparql.separatedList NomSparql.sp NomSparql.usingClause))
      (spEnc1 (tagNoCase c!"where"))
      groupGraphPattern) _) inferInstance (by omega) (by omega) fun _ h => h

/-- An alternative without calls. -/
theorem Lin.alt_free {q : K α} {qs : List (K α)} {f : β → α} {p : P β} [Good p] {k b : Int} (hk : k ≤ 0) (hb : 0 ≤ b) (h : Lin W k b NoD (alt (q :: qs))) : Lin W k b NoD (alt (map (lift p) f :: q :: qs)) :=
  Lin.weaken (Lin.alt_cons (c := 0) (c' := 0) (D₂ := NoD) (inferInstance : Lin W 0 0 NoD (map (lift p) f)) h (fun _ _ _ _ => .inl (Nat.le_refl _)) (fun _ h => h) fun _ h => h)
    (by omega) (by omega) fun _ h => h

instance : Lin W 0 0 NoD updateStmt := by
  have h : Lin W 0 0 NoD (alt [map modifyStmt UpdateStatement.modify]) := Lin.weaken inferInstance (k := 4) (b := 0) (by omega) (by omega) fun _ h => h
  unfold updateStmt
  iterate 8 refine Lin.alt_free (Int.le_refl _) (Int.le_refl _) ?_
  exact h

/-- Calls of `update` are made after a semicolon. -/
instance {up : K Update} [KGood up] [h : Lin W (-1) 1 AnyD up] : Lin W 0 0 AnyD (opt (preceded (spEnc (char ';')) up)) := by
  have h1 : Lin W 0 0 AnyD (preceded (spEnc (char ';')) up) := Lin.lit inferInstance (by omega) (by omega) fun _ h => h
  exact Lin.weaken (Lin.opt (c := 0) (D' := AnyD) h1 (by omega) (fun _ h => h) fun _ _ _ _ => .inr trivial) (by omega) (by omega) fun _ h => h

instance {up : K Update} [KGood up] [h : Lin W (-1) 1 AnyD up] : Lin W 0 0 AnyD (updateStep up) := by
  have h1 : Lin W 0 0 AnyD (pair (preceded sp updateStmt) (opt (preceded (spEnc (char ';')) up))) := Lin.lit inferInstance (by omega) (by omega) fun _ h => h
  have h2 : Lin W 0 0 AnyD (opt (pair (preceded sp updateStmt) (opt (preceded (spEnc (char ';')) up)))) :=
    Lin.weaken (Lin.opt (c := 0) (D' := AnyD) h1 (by omega) (fun _ h => h) fun _ _ _ _ => .inr trivial) (by omega) (by omega) fun _ h => h
  unfold updateStep
  exact Lin.lit inferInstance (by omega) (by omega) fun _ h => h

theorem updateF_lin_zero : Lin W (-1) 1 AnyD (updateF 0) where
  ok _ e := by cases e
  err {i _} _ _ := by
    have := sz_nonneg (W := W) (i := i)
    show ((0 : Nat) : Int) ≤ _
    omega

instance updateF_lin : ∀ n, Lin W (-1) 1 AnyD (updateF n)
  | 0 => updateF_lin_zero
  | n + 1 => by
    have := updateF_lin n
    exact Lin.lit (p := tick (updateStep (updateF n))) inferInstance (by omega) (by omega) fun _ h => h

instance update_lin : Lin W (-1) 1 AnyD update := ⟨fun {i _ _} hw e => (updateF_lin (i.length + 1)).ok hw e, fun {i _} hw e => (updateF_lin (i.length + 1)).err hw e⟩

end

end NomSparql.Cost
