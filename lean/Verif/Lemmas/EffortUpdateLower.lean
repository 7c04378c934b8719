import Verif.Lemmas.EffortUpdate
import Verif.Props.C46_C50

/-! # Lower bounds for the effort of groups and updates -/

namespace NomSparql

theorem filter_cost {n : Nat} {v k w v' s : Str} (hv : Ws v) (hk : CaseVariant c!"filter" k) (hw : Ws1 w) (hv' : Ws v') (hs : ¬ StartsWs s)
    (h : n ≤ (Cost.expression s).2) : n ≤ (Cost.groupGraphPattern ('{' :: (v ++ (k ++ (w ++ '(' :: (v' ++ s)))))).2 := by
  have hn : ¬ StartsWs (k ++ (w ++ '(' :: (v' ++ s))) := kw_not_ws hk (by decide)
  rw [Cost.groupGraphPattern_cost]
  refine Nat.le_succ_of_le ?_
  unfold Cost.groupGraphPatternStep Cost.spEnc
  refine Cost.cost_delimited Cost.kchar_eval (Cost.cost_delimited (sp_eval hv hn) ?_)
  rw [Cost.alt_cost]
  refine Cost.cost_alt_tail ?_ (Cost.cost_alt_head ?_)
  · rw [Cost.erase_map, Cost.erase_subSelectS]
    exact Fails.map (Fails.map (Fails.pair (Fails.map (Fails.pair (kw_fails hk (by decide))))))
  · rw [Cost.map_cost]
    have hf : Follow (w ++ '(' :: (v' ++ s)) := Follow.ws_close hw.1 (by simp)
    have ht : Fails triplesBlock (k ++ (w ++ '(' :: (v' ++ s))) := Fails.map (Fails.sep1 (kw_triples hk hf (by decide)))
    unfold Cost.groupGraphPatternSubS
    rw [Cost.map_cost]
    refine Cost.cost_pair_snd (a := none) (r := k ++ (w ++ '(' :: (v' ++ s))) (Fails.opt (Fails.terminated ht)) (Cost.cost_list ?_)
    unfold Cost.groupGraphPatternAndTriplesS Cost.separatedPair
    rw [Cost.map_cost]
    refine Cost.cost_pair_fst ?_
    unfold Cost.graphPatternNotTriplesS
    rw [Cost.alt_cost]
    refine Cost.cost_alt_tail ?_ (Cost.cost_alt_tail ?_ (Cost.cost_alt_tail ?_ (Cost.cost_alt_tail ?_ (Cost.cost_alt_tail ?_ (Cost.cost_alt_head ?_)))))
    · rw [Cost.erase_map, Cost.erase_groupOrUnionGraphPatternS, Cost.eraseR_R₀]; exact kw_first hk rfl
    · rw [Cost.erase_map, Cost.erase_optionalGroupGraphPatternS]; exact kw_first hk rfl
    · rw [Cost.erase_map, Cost.erase_minusGraphPatternS]; exact kw_first hk rfl
    · rw [Cost.erase_map, Cost.erase_graphGraphPatternS]; exact kw_first hk rfl
    · rw [Cost.erase_map, Cost.erase_serviceGraphPatternS]; exact kw_first hk rfl
    · rw [Cost.map_cost]
      unfold Cost.filterS Cost.precededTag1
      refine Cost.cost_preceded (terminated_eval (kw_eval hk) (sp1_eval hw (not_startsWs_cons rfl))) ?_
      unfold Cost.constraintS
      rw [Cost.alt_cost]
      refine Cost.cost_alt_head ?_
      rw [Cost.map_cost]
      unfold Cost.brackettedExpressionS Cost.bracketted Cost.spEnc
      exact Cost.cost_delimited Cost.kchar_eval (Cost.cost_delimited (sp_eval hv' hs) h)

/-- The group of a modification. -/
theorem modify_cost {n : Nat} {q : Quads} {l : List DefaultOrNamedIri} {k w x w1 u w2 k' w3 g : Str} (hk : CaseVariant c!"insert" k) (hw : Ws1 w)
    (hx : cQuads q x) (hw1 : Ws w1) (hu : Sep1 Ws1 cUsingClause l u) (hw2 : Ws1 w2) (hk' : CaseVariant c!"where" k') (hw3 : Ws1 w3)
    (h : n ≤ (Cost.groupGraphPattern ('{' :: g)).2) : n ≤ (Cost.update (k ++ (w ++ (x ++ (w1 ++ (u ++ (w2 ++ (k' ++ (w3 ++ '{' :: g))))))))).2 := by
  have n1 : ∀ r, ¬ StartsWs (x ++ r) := by
    obtain ⟨_, _, rfl, rfl, _⟩ := hx
    exact fun _ => not_startsWs_cons rfl
  have n3 : ¬ StartsWs (k' ++ (w3 ++ '{' :: g)) := kw_not_ws hk' (by decide)
  have hu0 : Sep0 Ws1 cUsingClause l u := by cases l with
    | nil => exact hu.elim
    | cons a l => exact hu
  have n2 : ∀ r, ¬ StartsWs (u ++ r) := by
    cases l with
    | nil => exact hu.elim
    | cons a l =>
      obtain ⟨y, z, rfl, hy, _⟩ := hu
      intro r
      rw [List.append_assoc]
      exact (cUsingClause_toks a).not_startsWs hy _
  have hus := C25_using_sequence_partial l u w2 (k' ++ (w3 ++ '{' :: g)) hu0 hw2 n3 (kw_notStart hk' (by decide)) (by
    intro w' k'' r' t ht e hw'
    simp only [List.mem_cons, List.not_mem_nil, or_false] at ht
    subst ht
    exact noKeyword_one hw2.1 hk' (by decide) (by decide) (by decide) _ _ _ e hw')
  generalize hi : k ++ (w ++ (x ++ (w1 ++ (u ++ (w2 ++ (k' ++ (w3 ++ '{' :: g))))))) = i
  have hdi : deleteInsert i = .ok (w1 ++ (u ++ (w2 ++ (k' ++ (w3 ++ '{' :: g))))) (.insert q) := by
    rw [← hi]
    refine alt_eval2 (p := map (pair deleteClause (opt (preceded sp insertClause))) (fun x => DeleteInsert.deleteInsert x.1 x.2))
      (Fails.map (Fails.pair (Fails.preceded (Fails.terminated (kw_fails hk (by decide)))))) ?_
    refine alt_eval1 (p := map insertClause DeleteInsert.insert) ?_
    exact map_eval (f := DeleteInsert.insert) (preceded_eval (terminated_eval (kw_eval hk) (sp1_eval hw (n1 _))) (quads_accept q x _ hx))
  have hm : n ≤ (Cost.modifyStmt i).2 := by
    unfold Cost.modifyStmt Cost.tuple5
    rw [Cost.map_cost]
    refine Cost.cost_pair_snd (r := i) (a := none) ?_ (Cost.cost_pair_snd (terminated_eval hdi (sp_eval hw1 (n2 _))) (Cost.cost_pair_snd hus
      (Cost.cost_pair_snd (p := Cost.spEnc1 (Cost.tagNoCase c!"where")) (a := k') ?_ h)))
    · rw [← hi]; exact Fails.opt (Fails.delimited (kw_fails (t := c!"where") hk (by decide)))
    · exact delimited_eval (p := sp1) (s := sp1) (sp1_eval hw2 n3) (kw_eval hk') (sp1_eval hw3 (not_startsWs_cons rfl))
  have hn : ¬ StartsWs i := by rw [← hi]; exact kw_not_ws hk (by decide)
  have hp : prologue i = .ok i ⟨[]⟩ := by
    rw [← hi]
    exact C24_prologue ⟨[]⟩ [] _ rfl (noDecl_update (w := []) .nil hk (by simp))
  rw [Cost.update_cost]
  refine Nat.le_succ_of_le ?_
  unfold Cost.updateStep
  rw [Cost.map_cost]
  refine Cost.cost_pair_snd hp ?_
  show n ≤ (Cost.pair _ _ i).2
  refine Cost.cost_pair_fst (Cost.cost_preceded (sp_zero hn) ?_)
  subst hi
  unfold Cost.updateStmt
  rw [Cost.alt_cost]
  refine Cost.cost_alt_tail (by other_kw hk) (Cost.cost_alt_tail (by other_kw hk) (Cost.cost_alt_tail (by other_kw hk) (Cost.cost_alt_tail (by other_kw hk)
      (Cost.cost_alt_tail (by other_kw hk) (Cost.cost_alt_tail ?_ (Cost.cost_alt_tail (by other_kw hk) (Cost.cost_alt_tail (by other_kw hk) (Cost.cost_alt_head hm))))))))
  have n1' : ∃ t, x = '{' :: t := by obtain ⟨_, _, rfl, rfl, _⟩ := hx; exact ⟨_, rfl⟩
  obtain ⟨t, rfl⟩ := n1'
  exact Fails.map (Fails.preceded2 (terminated_eval (kw_eval hk) (sp1_eval hw (n1 _))) (Fails.preceded (Fails.terminated (First.cons rfl))))

end NomSparql
