import Verif.Lemmas.UnitsRead

/-!
# Braced blocks
-/

namespace NomSparql

theorem units_open {a : Prop} {n : Nat} {s : Str} (h : Units a n ('{' :: s)) : Units a (n + 1) s := by
  rcases opens_units (X := (· = [])) (d := 0) (n := n) (fun _ x hx => .inl hx) h with ⟨s', e, h⟩ | h
  · cases e; exact h
  · exact absurd rfl (h [] rfl)

theorem group_fixed {a : Prop} {s : Str} (h : Units a 0 ('{' :: s)) :
    Fixed (fun _ => True) (Units a 0) ('{' :: s) (fun x => groupGraphPattern ('{' :: s ++ x)) := by
  rw [groupGraphPattern_eq]
  refine Fixed.braces (n := 0) (.read (b := '{') ['{'] (units_open h) fun x _ => by simp [char]) fun u' hu' => ?_
  have : ClosesB 0 (char '}') := inferInstance
  exact this.out (n := 0) hu'

theorem quads_fixed {a : Prop} {s : Str} (h : Units a 0 ('{' :: s)) :
    Fixed (fun _ => True) (Units a 0) ('{' :: s) (fun x => quadData ('{' :: s ++ x)) := by
  unfold quadData quadsPattern
  have hs : Loc 1 sp := inferInstance
  have h1 : Fixed (fun _ => True) (Units a 1) ('{' :: s) (fun x => terminated (tag ['{']) sp ('{' :: s ++ x)) :=
    (Fixed.pair (L := Units a 1) (.read (b := ['{']) ['{'] (units_open h) fun x _ => by simp [tag, stripPrefix])
      fun u' hu' => hs.out (n := 0) (fun h => by omega) hu').map
  refine Fixed.braces (n := 0) h1 fun u' hu' => ?_
  have : ClosesB 0 (terminated sp (tag ['}'])) := inferInstance
  exact this.out (n := 0) hu'

theorem fixed_same {L : Str → Prop} {v r : Str} {p : P α} {g : α} (h : Fixed (fun _ => True) L v (fun x => p (v ++ x))) (hr : p (v ++ r) = .ok r g)
    (r' : Str) : p (v ++ r') = .ok r' g := by
  rcases h with ⟨m, u', b, rfl, _, h⟩ | h | h
  · have e := h r trivial
    have e' := h r' trivial
    simp only at e e'
    rw [hr] at e
    simp only [Res.ok.injEq] at e
    have : u' = [] := by
      have := congrArg List.length e.1
      simp only [List.length_append] at this
      exact List.length_eq_zero_iff.mp (by omega)
    subst this
    rw [e', e.2]; rfl
  · obtain ⟨_, _, e⟩ := h r trivial
    simp only at e
    rw [hr] at e; cases e
  · obtain ⟨_, e, _⟩ := h r trivial
    simp only at e
    rw [hr] at e; cases e

theorem fixed_verdict {L : Str → Prop} {v : Str} {p : P α} (h : Fixed (fun _ => True) L v (fun x => p (v ++ x))) (r r' : Str)
    (hr : ∀ k g, p (v ++ r) ≠ .ok k g) : ∀ k g, p (v ++ r') ≠ .ok k g := by
  rcases h with ⟨m, u', b, rfl, _, h⟩ | h | h
  · exact absurd (h r trivial) (hr _ _)
  · intro k g e; obtain ⟨_, _, e'⟩ := h r' trivial; simp only at e'; rw [e] at e'; cases e'
  · intro k g e; obtain ⟨_, e', _⟩ := h r' trivial; simp only at e'; rw [e] at e'; cases e'

theorem group_head {v r : Str} {g : GroupGraphPattern} (h : groupGraphPattern (v ++ r) = .ok r g) : ∃ s, v = '{' :: s := by
  cases v with
  | nil =>
    have := Consumes.out (p := groupGraphPattern) _ _ _ h
    simp at this
  | cons c s =>
    by_cases hc : c = '{'
    · exact ⟨s, by rw [hc]⟩
    · rw [groupGraphPattern_eq, groupGraphPatternStep, delimited, preceded_stop (e := .error (c :: (s ++ r)) .Char) (by simp [char, hc])] at h
      cases h

theorem quads_head {v r : Str} {g : Quads} (h : quadData (v ++ r) = .ok r g) : ∃ s, v = '{' :: s := by
  cases v with
  | nil =>
    have := Consumes.out (p := quadData) _ _ _ h
    simp at this
  | cons c s =>
    by_cases hc : c = '{'
    · exact ⟨s, by rw [hc]⟩
    · rw [quadData, quadsPattern, delimited, preceded_stop (e := .error (c :: (s ++ r)) .Tag) (terminated_stop (by simp [tag, stripPrefix, hc]))] at h
      cases h

theorem nested_of {p : P α} [Bal p] {v r : Str} {g : α} (h : p (v ++ r) = .ok r g) : Nested v := by
  obtain ⟨s, e, hn⟩ := Bal.out h
  rw [List.append_cancel_right e]; exact hn

/-- A braced block is balanced inside the braces. -/
theorem inside_braces {o : P α} {q : P β} {c : P γ} [Bal q] {s r i1 : Str} {g : β} (ho : ∃ w x, Nested w ∧ s ++ r = w ++ i1 ∧ o ('{' :: (s ++ r)) = .ok i1 x)
    (hc : ∀ i x, c i = .ok r x → ∃ w, Nested w ∧ i = w ++ '}' :: r) (h : delimited o q c ('{' :: (s ++ r)) = .ok r g) :
    ∃ b, s = b ++ ['}'] ∧ Nested b := by
  obtain ⟨w, x, hw, e, ho⟩ := ho
  rw [delimited, preceded_cont ho] at h
  unfold terminated map pair at h
  cases hq : q i1 with
  | err e => rw [hq] at h; cases h
  | ok r2 y =>
    rw [hq] at h
    simp only at h
    cases hcl : c r2 with
    | err e => rw [hcl] at h; cases h
    | ok r3 z =>
      rw [hcl] at h
      cases h
      obtain ⟨w', hw', rfl⟩ := hc _ _ hcl
      obtain ⟨b, rfl, hb⟩ := Bal.out hq
      refine ⟨w ++ (b ++ w'), ?_, hw.append (hb.append hw')⟩
      refine List.append_cancel_right (bs := r) ?_
      rw [e]; simp

end NomSparql
