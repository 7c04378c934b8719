import Verif.Lemmas.UnitsBlocks

/-!
# C77: what a braced block means does not depend on the text after it

`Units a 0 v` says that the braces of `v` are balanced outside strings, comments, escapes and IRIs; see `Spec/Units.lean`.
-/

namespace NomSparql

/-- A group that is read when `r` follows is read with the same tree whatever follows. -/
theorem C77_group_partial {a : Prop} {v r : Str} {g : GroupGraphPattern} (h : groupGraphPattern (v ++ r) = .ok r g) (hu : Units a 0 v) (r' : Str) :
    groupGraphPattern (v ++ r') = .ok r' g := by
  obtain ⟨s, rfl⟩ := group_head h
  exact fixed_same (group_fixed hu) h r'

/-- A block of quads likewise. -/
theorem C77_quads_partial {a : Prop} {v r : Str} {g : Quads} (h : quadData (v ++ r) = .ok r g) (hu : Units a 0 v) (r' : Str) :
    quadData (v ++ r') = .ok r' g := by
  obtain ⟨s, rfl⟩ := quads_head h
  exact fixed_same (quads_fixed hu) h r'

/-- A text with balanced braces that is not read as a group when `r` follows is never read as one. -/
theorem C77_group_verdict_partial {a : Prop} {s : Str} (hu : Units a 0 ('{' :: s)) (r r' : Str) (h : ∀ k g, groupGraphPattern ('{' :: s ++ r) ≠ .ok k g) :
    ∀ k g, groupGraphPattern ('{' :: s ++ r') ≠ .ok k g := fixed_verdict (group_fixed hu) r r' h

theorem C77_quads_verdict_partial {a : Prop} {s : Str} (hu : Units a 0 ('{' :: s)) (r r' : Str) (h : ∀ k g, quadData ('{' :: s ++ r) ≠ .ok k g) :
    ∀ k g, quadData ('{' :: s ++ r') ≠ .ok k g := fixed_verdict (quads_fixed hu) r r' h

/-- No condition on texts without `<`. -/
theorem C77_group_plain_partial {v r : Str} {g : GroupGraphPattern} (h : groupGraphPattern (v ++ r) = .ok r g) (hv : '<' ∉ v) (r' : Str) :
    groupGraphPattern (v ++ r') = .ok r' g := by
  have hu := (nested_of h).units hv .nil
  rw [List.append_nil] at hu
  exact C77_group_partial h hu r'

theorem C77_quads_plain_partial {v r : Str} {g : Quads} (h : quadData (v ++ r) = .ok r g) (hv : '<' ∉ v) (r' : Str) :
    quadData (v ++ r') = .ok r' g := by
  have hu := (nested_of h).units hv .nil
  rw [List.append_nil] at hu
  exact C77_quads_partial h hu r'

/-- Groups without `#` and apostrophes, with any IRIs and comparisons. -/
theorem C77_group_angle_partial {v r : Str} {g : GroupGraphPattern} (h : groupGraphPattern (v ++ r) = .ok r g) (h1 : '#' ∉ v) (h2 : '\'' ∉ v) (r' : Str) :
    groupGraphPattern (v ++ r') = .ok r' g := by
  obtain ⟨s, rfl⟩ := group_head h
  have h' := h
  rw [groupGraphPattern_eq] at h'
  obtain ⟨b, rfl, hb⟩ := inside_braces (s := s) (r := r) (i1 := s ++ r) ⟨[], '{', .nil, rfl, by simp [char]⟩ (fun i x hx => by
    rcases char_tag (c := '}') (i := i) with ⟨k, e, rfl⟩ | ⟨⟨_, _, e⟩, _⟩
    · rw [hx] at e; cases e; exact ⟨[], .nil, rfl⟩
    · rw [hx] at e; cases e) h'
  simp only [List.mem_cons, List.mem_append, not_or] at h1 h2
  exact C77_group_partial h (.open (hb.units_angle h1.2.1 h2.2.1 (.close .nil))) r'

/-! ## Cases -/

/-- A string in apostrophes, a comment, an IRI with `#`, a comparison and nested braces. -/
def c77Text : Str := c!"{ ?s <http://a.b/c#d> 'x {' # note {\n { filter (?a < 3) } }"

example : wellCut true c77Text = true ∧ (∃ g, groupGraphPattern (c77Text ++ c!" limit 1") = .ok c!" limit 1" g) := ⟨by decide +kernel, ⟨_, rfl⟩⟩

/-- So it can be followed by anything, even by something that looks like its continuation. -/
example : ∃ g, groupGraphPattern (c77Text ++ c!"} # 'x") = .ok c!"} # 'x" g := by
  have h : ∃ g, groupGraphPattern (c77Text ++ c!" limit 1") = .ok c!" limit 1" g := ⟨_, rfl⟩
  obtain ⟨g, h⟩ := h
  exact ⟨g, C77_group_partial h (wellCut_sound (a := true) (by decide +kernel)) _⟩

/-- A block of quads. -/
example : ∃ g, quadData (c!"{ graph ?g {?a ?b 'x' } }" ++ c!"; clear all") = .ok c!"; clear all" g := ⟨_, rfl⟩

/-- Never a group. -/
example : wellCut true c!"{ bind }" = true ∧ ∃ e, groupGraphPattern (c!"{ bind }" ++ []) = .err e := ⟨by decide +kernel, ⟨_, rfl⟩⟩

end NomSparql
