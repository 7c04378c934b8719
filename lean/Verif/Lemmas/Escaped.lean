import Verif.Lemmas.Tokens

/-!
# `escaped` with any stop set that contains the backslash
-/

namespace NomSparql

/-- Characters outside `stop`, and a backslash with one of `esc`. -/
inductive EscBody (stop esc : List Char) : Str → Prop
  | nil : EscBody stop esc []
  | ord {c s} : c ∉ stop → EscBody stop esc s → EscBody stop esc (c :: s)
  | esc {c s} : c ∈ esc → EscBody stop esc s → EscBody stop esc ('\\' :: c :: s)

theorem noneOf_stop {l : List Char} {c : Char} {cs : Input} (h : c ∈ l) : noneOf l (c :: cs) = .err (.error (c :: cs) .NoneOf) := by
  unfold noneOf
  simp [h]
theorem noneOf_go {l : List Char} {c : Char} {cs : Input} (h : c ∉ l) : noneOf l (c :: cs) = .ok cs c := noneOf_ok.mpr ⟨h, rfl⟩

variable {stop esc : List Char}

theorem escapedLoop_imp (_hs : '\\' ∈ stop) {input : Input} : ∀ {n i r s}, i <:+ input →
    escapedLoop (noneOf stop) '\\' (oneOf esc) input n i = .ok r s →
    ∃ b, i = b ++ r ∧ EscBody stop esc b ∧ input = s ++ r ∧ (r ≠ [] → (∃ c r', r = c :: r' ∧ c ∈ stop ∧ c ≠ '\\') ∧ s ≠ []) := by
  intro n
  induction n with
  | zero => intro i r s _ h; cases h
  | succ n ih =>
    intro i r s hsuf h
    cases i with
    | nil => unfold escapedLoop at h; cases h; exact ⟨[], rfl, .nil, by simp, by simp⟩
    | cons c cs =>
      have hsuf' : cs <:+ input := List.IsSuffix.trans (List.suffix_cons c cs) hsuf
      unfold escapedLoop at h
      by_cases hc : c ∈ stop
      · rw [noneOf_stop hc] at h
        simp only at h
        split at h
        · rename_i hb
          subst hb
          split at h
          · cases h
          · split at h
            · rename_i r1 a e2
              obtain ⟨h1, h2⟩ := oneOf_ok.mp e2
              subst h2
              split at h
              · rename_i hr
                cases h
                subst hr
                exact ⟨['\\', a], rfl, .esc h1 .nil, by simp, by simp⟩
              · obtain ⟨b, rfl, h3, h4⟩ := ih (List.IsSuffix.trans (List.suffix_cons a _) hsuf') h
                exact ⟨'\\' :: a :: b, rfl, .esc h1 h3, h4⟩
            · cases h
        · rename_i hb
          split at h
          · cases h
          · rename_i hlen
            cases h
            obtain ⟨t, rfl⟩ := hsuf
            refine ⟨[], rfl, .nil, by simp, fun _ => ⟨⟨c, cs, rfl, hc, hb⟩, ?_⟩⟩
            intro ht
            simp at ht hlen
            rw [ht] at hlen
            simp at hlen
      · rw [noneOf_go hc] at h
        simp only at h
        split at h
        · rename_i hr
          cases h
          subst hr
          exact ⟨[c], rfl, .ord hc .nil, by simp, by simp⟩
        · obtain ⟨b, rfl, h3, h4⟩ := ih hsuf' h
          exact ⟨c :: b, rfl, .ord hc h3, h4⟩

theorem escapedLoop_eval (hs : '\\' ∈ stop) {r : Input} (hr : r = [] ∨ ∃ c r', r = c :: r' ∧ c ∈ stop ∧ c ≠ '\\') {b : Str} (hb : EscBody stop esc b) :
    ∀ (pre : Str) (n : Nat), (pre ++ b ≠ [] ∨ r = []) → b.length < n →
    escapedLoop (noneOf stop) '\\' (oneOf esc) (pre ++ (b ++ r)) n (b ++ r) = .ok r (pre ++ b) := by
  induction hb with
  | nil =>
    intro pre n hne hn
    obtain ⟨n, rfl⟩ : ∃ k, n = k + 1 := ⟨n - 1, by omega⟩
    rcases hr with rfl | ⟨c, r', rfl, hc, hb⟩
    · simp [escapedLoop]
    · simp only [List.nil_append, List.append_nil] at hne ⊢
      unfold escapedLoop
      rw [noneOf_stop hc]
      simp only [if_neg hb]
      rw [if_neg]
      · simp
      · intro h
        rcases hne with hne | hne
        · apply hne
          simp only [List.length_append, List.length_cons] at h
          exact List.eq_nil_of_length_eq_zero (by omega)
        · cases hne
  | @ord c s hc _ ih =>
    intro pre n hne hn
    obtain ⟨n, rfl⟩ : ∃ k, n = k + 1 := ⟨n - 1, by simp at hn; omega⟩
    have h := ih (pre ++ [c]) n (.inl (by simp)) (by simp at hn; omega)
    simp only [List.append_assoc, List.cons_append, List.nil_append] at h ⊢
    unfold escapedLoop
    rw [noneOf_go hc]
    simp only
    split
    · rename_i he
      rw [List.append_eq_nil_iff] at he
      obtain ⟨rfl, rfl⟩ := he
      simp
    · exact h
  | @esc c s hc _ ih =>
    intro pre n hne hn
    obtain ⟨n, rfl⟩ : ∃ k, n = k + 1 := ⟨n - 1, by simp at hn; omega⟩
    have h := ih (pre ++ ['\\', c]) n (.inl (by simp)) (by simp at hn; omega)
    simp only [List.append_assoc, List.cons_append, List.nil_append] at h ⊢
    unfold escapedLoop
    rw [noneOf_stop hs]
    simp only [if_true]
    rw [if_neg (by simp), oneOf_ok.mpr ⟨hc, rfl⟩]
    simp only
    split
    · rename_i he
      rw [List.append_eq_nil_iff] at he
      obtain ⟨rfl, rfl⟩ := he
      simp
    · exact h

theorem escaped_ok (hs : '\\' ∈ stop) {i r s : Str} : escaped (noneOf stop) '\\' (oneOf esc) i = .ok r s ↔
    i = s ++ r ∧ EscBody stop esc s ∧ (r = [] ∨ (∃ c r', r = c :: r' ∧ c ∈ stop ∧ c ≠ '\\') ∧ s ≠ []) := by
  unfold escaped
  constructor
  · intro h
    obtain ⟨b, h1, h2, h3, h4⟩ := escapedLoop_imp hs (List.suffix_refl _) h
    have : b = s := List.append_cancel_right (h1.symm.trans h3)
    subst this
    exact ⟨h1, h2, (Classical.em (r = [])).imp id h4⟩
  · rintro ⟨rfl, h, hr⟩
    exact escapedLoop_eval hs (hr.imp id And.left) h [] _ (hr.elim .inr fun h => .inl (by simpa using h.2)) (by simp; omega)

end NomSparql
