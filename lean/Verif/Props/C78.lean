import Verif.Lemmas.UnitsUpdate

/-!
# C78: update requests can be joined with a semicolon

`Units p 0 a` says that the braces of `a` are balanced outside strings, comments, escapes and IRIs; see `Spec/Units.lean`.
-/

namespace NomSparql

/-- The request `a` read alone, followed by a semicolon, white space and a request `b`: the operations of both, in order. -/
theorem C78_join_partial {p : Prop} {a w b r : Str} {ua ub : Update} (ha : update a = .ok [] ua) (hu : Units p 0 a) (he : EndsWithStmt ua)
    (hw : Ws w) (hb : ¬ StartsWs b) (h : update b = .ok r ub) :
    ∃ u, update (a ++ ';' :: (w ++ b)) = .ok r u ∧ partsOf u = partsOf ua ++ partsOf ub := by
  induction hl : a.length using Nat.strongRecOn generalizing a ua with
  | ind l ih =>
    subst hl
    let X : Str → Prop := fun x => x = [] ∨ x = ';' :: (w ++ b)
    have hX : 0 = 0 → ∀ x, X x → AtSemi x := by
      rintro _ x (rfl | rfl)
      · exact .inl rfl
      · exact .inr ⟨_, rfl⟩
    have x0 : X [] := .inl rfl
    have x1 : X (';' :: (w ++ b)) := .inr rfl
    have hpro : Loc 0 prologue := inferInstance
    have hst : Loc 0 (preceded sp updateStmt) := inferInstance
    rw [update_eq] at ha ⊢
    unfold updateStep at ha
    rcases hpro.cases (n := 0) hX hu with ⟨m, u1, pl, rfl, hu1, e1⟩ | e | e
    rotate_left
    · obtain ⟨_, _, e⟩ := e [] x0
      rw [List.append_nil] at e
      rw [map_stop (pair_stop e)] at ha; cases ha
    · obtain ⟨_, e, _⟩ := e [] x0
      rw [List.append_nil] at e
      rw [map_stop (pair_stop e)] at ha; cases ha
    have e1a := e1 [] x0
    have e1b := e1 _ x1
    rw [List.append_nil, List.append_nil] at e1a
    rcases hst.cases (n := 0) hX hu1 with ⟨m2, u2, st, rfl, hu2, e2⟩ | e | e
    rotate_left
    · obtain ⟨_, _, e⟩ := e [] x0
      rw [List.append_nil] at e
      rw [map_eval (pair_eval e1a (opt_soft (pair_stop e)))] at ha
      cases ha
      obtain ⟨_, _, he⟩ := he
      cases he
    · obtain ⟨_, e, hh⟩ := e [] x0
      rw [List.append_nil] at e
      rw [map_stop (pair_stop2 e1a (opt_hard (pair_stop e) hh))] at ha; cases ha
    have e2a := e2 [] x0
    have e2b := e2 _ x1
    rw [List.append_nil, List.append_nil] at e2a
    obtain ⟨w1, u3, rfl, hw1, hu3, hs⟩ := hu2.space (X := X) (fun _ => hX rfl)
    have hsa := hs [] x0
    rw [List.append_nil] at hsa
    -- what follows the operation
    cases u3 with
    | nil =>
      have hk : opt (preceded (spEnc (char ';')) update) (w1 ++ []) = .ok (w1 ++ []) none :=
        opt_soft (preceded_stop (by rw [spEnc, delimited, preceded_cont (sp_append hw1 hsa)]; exact terminated_stop rfl))
      rw [map_eval (pair_eval e1a (opt_eval (pair_eval e2a hk)))] at ha
      cases ha' : w1 with
      | cons c t => subst ha'; cases ha
      | nil =>
        subst ha'
        cases ha
        refine ⟨.mk pl (some st) (some ub), ?_, by simp [partsOf]⟩
        unfold updateStep
        refine map_eval (pair_eval (by simpa using e1b) (opt_eval (pair_eval (by simpa using e2b) (opt_eval ?_))))
        rw [preceded_cont (semi_read hw hb)]
        exact h
    | cons c u4 =>
      have hk : c ≠ ';' → opt (preceded (spEnc (char ';')) update) (w1 ++ c :: u4) = .ok (w1 ++ c :: u4) none := fun hc =>
        opt_soft (preceded_stop (by
          rw [spEnc, delimited, preceded_cont (sp_append hw1 hsa)]
          exact terminated_stop (e := .error (c :: u4) .Char) (by simp [char, hc])))
      by_cases hc : c = ';'
      rotate_left
      · rw [map_eval (pair_eval e1a (opt_eval (pair_eval e2a (hk hc))))] at ha
        simp at ha
      subst hc
      have hu4 : Units p 0 u4 := by
        rcases hu3.at with ⟨e, _⟩ | ⟨c, s, e, _, _, h4⟩ | ⟨c, s, e, h4⟩
        · cases e
        · cases e; exact h4
        · cases e; exact absurd h4 (by simp [oddChars])
      obtain ⟨w2, u5, rfl, hw2, hu5, hs5⟩ := hu4.space (X := X) (fun _ => hX rfl)
      have h5a := hs5 [] x0
      have h5b := hs5 _ x1
      rw [List.append_nil] at h5a
      have hsemi : ∀ y, ¬ StartsWs (u5 ++ y) → preceded (spEnc (char ';')) update (w1 ++ ';' :: (w2 ++ u5) ++ y) = update (u5 ++ y) := by
        intro y hy
        have := semi_read' hw1 hw2 hy
        rw [preceded_cont (by simpa using this)]
      have hka := hsemi [] (by simpa using h5a)
      rw [List.append_nil, List.append_nil] at hka
      cases hup : update u5 with
      | err e =>
        rw [hup] at hka
        by_cases hh : ∀ pos k, e ≠ .error pos k
        · rw [map_stop (pair_stop2 e1a (opt_hard (pair_stop2 e2a (opt_hard hka hh)) hh))] at ha; cases ha
        · simp only [Classical.not_forall, Classical.not_not] at hh
          obtain ⟨pos, k, rfl⟩ := hh
          rw [map_eval (pair_eval e1a (opt_eval (pair_eval e2a (opt_soft hka))))] at ha
          simp at ha
      | ok r5 v5 =>
        rw [hup] at hka
        rw [map_eval (pair_eval e1a (opt_eval (pair_eval e2a (opt_eval hka))))] at ha
        cases ha
        have he5 : EndsWithStmt v5 := by
          obtain ⟨p', s', he⟩ := he
          refine ⟨p', s', ?_⟩
          rw [partsOf, List.getLast?_cons] at he
          cases hl : (partsOf v5).getLast? with
          | some z => rw [hl] at he; simpa using he
          | none => exact absurd (List.getLast?_eq_none_iff.mp hl) (partsOf_ne v5)
        obtain ⟨u, hu, hp⟩ := ih u5.length (by simp; omega) hup hu5 he5 rfl
        refine ⟨.mk pl (some st) (some u), ?_, by simp [partsOf, hp]⟩
        unfold updateStep
        refine map_eval (pair_eval (by simpa using e1b) (opt_eval (pair_eval (by simpa using e2b) (opt_eval ?_))))
        have := hsemi _ h5b
        rw [hu] at this
        simpa using this

/-- Texts without `<` need no condition on their units. -/
theorem C78_join_plain_partial {a w b r : Str} {ua ub : Update} (ha : update a = .ok [] ua) (hl : '<' ∉ a) (he : EndsWithStmt ua)
    (hw : Ws w) (hb : ¬ StartsWs b) (h : update b = .ok r ub) :
    ∃ u, update (a ++ ';' :: (w ++ b)) = .ok r u ∧ partsOf u = partsOf ua ++ partsOf ub := by
  have hu := (nested_of (p := update) (v := a) (r := []) (by simpa using ha)).units hl .nil
  rw [List.append_nil] at hu
  exact C78_join_partial ha hu he hw hb h

/-! ## Cases -/

/-- Two operations with prologues of their own, an IRI with `#` and a semicolon in a comment. -/
def c78Left : Str := c!"prefix a: <http://a.b/c#> clear all; # ; {\n drop silent default"

def c78Right : Str := c!"insert data { ?a ?b 'x;' }"

example : wellCut true c78Left = true ∧ ¬ StartsWs c78Right ∧ (∃ u, update c78Left = .ok [] u ∧ EndsWithStmt u) ∧ ∃ u, update c78Right = .ok [] u :=
  ⟨by decide +kernel, not_startsWs_cons rfl, ⟨_, rfl, _, _, rfl⟩, ⟨_, rfl⟩⟩

/-- The premise on the end is needed: after a request that ends with a semicolon, a second one is not read. -/
example : (∃ u, update c!"clear all;" = .ok [] u ∧ ¬ EndsWithStmt u) ∧ ∃ u, update (c!"clear all;" ++ ';' :: c!" clear all") = .ok c!"; clear all" u :=
  ⟨⟨_, rfl, by rintro ⟨_, _, h⟩; cases h⟩, ⟨_, rfl⟩⟩

end NomSparql
