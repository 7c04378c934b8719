import Verif.Lemmas.GroupsMono

/-!
# Lists separated by optional white space

The crate separates several lists by `sp`, which also accepts nothing.  `nom` rejects a list as soon as a separator consumes nothing, so
such a list has to be followed by white space.
-/

namespace NomSparql

theorem sp_progress {i j w : Str} (h : sp i = .ok j w) (hj : j ≠ i) : StartsWs i := by
  obtain ⟨rfl, hw, hn⟩ := sp_ok_iff.mp h
  cases hw with
  | nil => exact absurd rfl hj
  | cons h1 h2 => exact ⟨_, _, h1, by rw [List.append_assoc]⟩

theorem sp_stops {i j w : Str} (h : sp i = .ok j w) : ¬ StartsWs j := (sp_ok_iff.mp h).2.2

section
variable {p : P α}

/-- Where a run stops there is white space; also where it begins, and after every element. -/
theorem wsRun_facts : ∀ {l i r}, SepRun sp p i r l → StartsWs i ∧ StartsWs r ∧ ∀ a ∈ l, ∃ j x, p j = .ok x a ∧ StartsWs x
  | _, _, _, .stopSep h => by
    obtain ⟨r', w, e'⟩ := Total.out (p := sp) (_ : Str)
    rw [h] at e'; cases e'
  | _, _, _, .stopElem h1 h2 _ => ⟨sp_progress h1 h2, sp_progress h1 h2, by simp⟩
  | _, _, _, .step h1 h2 h3 h4 h5 => by
    obtain ⟨g1, g2, g3⟩ := wsRun_facts h5
    refine ⟨sp_progress h1 h2, g2, ?_⟩
    intro a ha
    rcases List.mem_cons.mp ha with rfl | ha
    · exact ⟨_, _, h3, g1⟩
    · exact g3 a ha

/-- After an accepted list there is white space, and also after each of its elements. -/
theorem wsList1_ok [Good p] {i r : Str} {l : List α} (h : separatedNonemptyList sp p i = .ok r l) :
    StartsWs r ∧ ∀ a ∈ l, ∃ j x, p j = .ok x a ∧ StartsWs x := by
  obtain ⟨a, l', j, rfl, h1, _, h3⟩ := separatedNonemptyList_ok.mp h
  obtain ⟨g1, g2, g3⟩ := wsRun_facts h3
  refine ⟨g2, fun b hb => ?_⟩
  rcases List.mem_cons.mp hb with rfl | hb
  · exact ⟨_, _, h1, g1⟩
  · exact g3 b hb

theorem wsList0_ok [Good p] {i r : Str} {l : List α} (h : separatedList sp p i = .ok r l) :
    (l = [] ∧ r = i) ∨ StartsWs r ∧ ∀ a ∈ l, ∃ j x, p j = .ok x a ∧ StartsWs x := by
  rcases separatedList_ok.mp h with ⟨rfl, rfl, _⟩ | ⟨a, l', j, rfl, h1, h2, h3⟩
  · exact .inl ⟨rfl, rfl⟩
  · exact .inr (wsList1_ok (separatedNonemptyList_ok.mpr ⟨a, l', j, rfl, h1, h2, h3⟩))

theorem sepLoop_stuck {n : Nat} {j : Str} (hj : ¬ StartsWs j) : Fails (sepLoop sp p (n + 1)) j := by
  refine ⟨j, .SeparatedList, ?_⟩
  unfold sepLoop
  rw [sp_zero hj]
  simp

/-- Without white space after the first element the list is rejected. -/
theorem wsList1_fails {i j : Str} {a : α} (h : p i = .ok j a) (hj : ¬ StartsWs j) : Fails (separatedNonemptyList sp p) i := by
  obtain ⟨pos, k, h'⟩ := sepLoop_stuck (p := p) (n := j.length) hj
  unfold Fails separatedNonemptyList
  rw [h]
  by_cases e : j = i
  · simp [e]
  · simp [e, h']

theorem wsList0_fails {i j : Str} {a : α} (h : p i = .ok j a) (hj : ¬ StartsWs j) : Fails (separatedList sp p) i := by
  obtain ⟨pos, k, h'⟩ := sepLoop_stuck (p := p) (n := j.length) hj
  unfold Fails separatedList
  rw [h]
  by_cases e : j = i
  · simp [e]
  · simp [e, h']

end

theorem alt_ok : ∀ {ps : List (P α)} {i r : Str} {a : α}, alt ps i = .ok r a → ∃ p ∈ ps, p i = .ok r a
  | [], _, _, _, h => by cases h
  | [p], _, _, _, h => ⟨p, by simp, h⟩
  | p :: q :: ps, i, r, a, h => by
    unfold alt at h
    cases e : p i with
    | ok r' a' => rw [e] at h; exact ⟨p, by simp, e.trans h⟩
    | err e' =>
      rw [e] at h
      cases e' with
      | error pos k =>
        obtain ⟨p', hp, h⟩ := alt_ok h
        exact ⟨p', by simp [hp], h⟩
      | _ => cases h

end NomSparql
