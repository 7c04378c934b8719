import Verif.Lemmas.UnitsAll
import Verif.Lemmas.BracketsAll

/-!
# Texts of units: a reader, and balanced texts
-/

namespace NomSparql

theorem readString_sound {q : Char} : ∀ {s b r : Str}, readString q s = some (b, r) → s = b ++ q :: r ∧ StrBody q b := by
  intro s
  induction s using readString.induct q with
  | case1 => intro b r h; simp [readString] at h
  | case2 c s hc ih =>
    intro b r h
    rw [readString, if_pos hc] at h
    cases hs : readString q s with
    | none => rw [hs] at h; cases h
    | some x =>
      rw [hs] at h
      cases h
      obtain ⟨h1, h2⟩ := ih hs
      exact ⟨by rw [h1]; rfl, .esc hc h2⟩
  | case3 c s hc => intro b r h; rw [readString, if_neg hc] at h; cases h
  | case4 s hne =>
    intro b r h
    rw [readString, if_pos rfl] at h
    · cases h; exact ⟨rfl, .nil⟩
    · exact hne
  | case5 s hne hq =>
    intro b r h
    rw [readString, if_neg hq, if_pos rfl] at h
    · cases h
    · exact hne
  | case6 c s hne hq hb ih =>
    intro b r h
    rw [readString, if_neg hq, if_neg hb] at h
    · cases hs : readString q s with
      | none => rw [hs] at h; cases h
      | some x =>
        rw [hs] at h
        cases h
        obtain ⟨h1, h2⟩ := ih hs
        exact ⟨by rw [h1]; rfl, .ord hq hb h2⟩
    · exact hne

theorem readIri_sound : ∀ {s b r : Str}, readIri s = some (b, r) → s = b ++ '>' :: r ∧ ∀ c ∈ b, UnitIriChar c := by
  intro s
  induction s with
  | nil => intro b r h; cases h
  | cons c s ih =>
    intro b r h
    rw [readIri] at h
    split at h
    · rename_i hc; cases h; subst hc; exact ⟨rfl, by simp⟩
    · split at h
      · rename_i hc
        cases hs : readIri s with
        | none => rw [hs] at h; cases h
        | some x =>
          rw [hs] at h
          cases h
          obtain ⟨h1, h2⟩ := ih hs
          exact ⟨by rw [h1]; rfl, by
            intro e he
            rcases List.mem_cons.mp he with rfl | he
            · exact hc
            · exact h2 e he⟩
      · cases h

theorem readUnits_sound {a : Bool} : ∀ {k n : Nat} {s : Str}, readUnits a k n s = true → Units (a = true) n s := by
  intro k
  induction k with
  | zero =>
    intro n s h
    cases s with
    | nil => simp only [readUnits, beq_iff_eq] at h; subst h; exact .nil
    | cons c s => cases h
  | succ k ih =>
    intro n s h
    cases s with
    | nil => simp only [readUnits, beq_iff_eq] at h; subst h; exact .nil
    | cons c s =>
      rw [readUnits.eq_def] at h
      dsimp only at h
      split at h
      · rename_i hc; subst hc; exact .open (ih h)
      split at h
      · rename_i hc
        subst hc
        cases n with
        | zero => cases h
        | succ n => exact .close (ih h)
      split at h
      · rename_i hc; exact .gap (w := []) hc .nil (ih h)
      split at h
      · rename_i hc
        subst hc
        have e := List.takeWhile_append_dropWhile (p := fun d => decide (d ∉ ['\n', '\r'])) (l := s)
        have hb := List.all_takeWhile (p := fun d => decide (d ∉ ['\n', '\r'])) (l := s)
        cases hd : s.dropWhile fun d => decide (d ∉ ['\n', '\r']) with
        | nil => simp only [hd] at h; cases h
        | cons x r =>
          simp only [hd, Bool.and_eq_true] at h
          have hx : x ∈ ['\n', '\r'] := by
            have := List.head?_dropWhile_not (fun d => decide (d ∉ ['\n', '\r'])) s
            rw [hd] at this
            simp only [decide_not] at this
            by_cases e1 : x = '\n' <;> simp_all
          rw [← e, hd]
          refine .comment ?_ hx ?_ (ih h.2)
          · intro c hc
            have := List.all_eq_true.mp hb c hc
            simpa using this
          · intro ha
            have := h.1
            rw [ha] at this
            simpa using this
      split at h
      · rename_i hq
        split at h
        · cases h
        · rename_i b r hr
          obtain ⟨rfl, hb⟩ := readString_sound hr
          simp only [Bool.and_eq_true] at h
          refine .str hq hb ?_ (ih h.2)
          intro ha hc
          have := h.1
          subst hc
          rw [ha] at this
          simpa using this
      split at h
      · rename_i hc
        subst hc
        cases s with
        | nil => cases h
        | cons e r =>
          simp only [Bool.and_eq_true, decide_eq_true_eq] at h
          exact .escape h.1 (ih h.2)
      rename_i g1 g2 g3 g4 g5 g6
      split at h
      · rename_i hc
        obtain ⟨rfl, rfl⟩ := hc
        split at h
        · cases h
        · rename_i b r hr
          obtain ⟨rfl, hb⟩ := readIri_sound hr
          exact .iri hb (ih h)
      have hc : OrdinaryChar c := by
        simp only [IsBlank, List.mem_cons, List.not_mem_nil, or_false, not_or] at g3 g5
        simp only [OrdinaryChar, List.mem_cons, List.not_mem_nil, or_false, not_or]
        grind
      rename_i g7
      split at h
      · rename_i e
        subst e
        simp only [Bool.and_eq_true] at h
        exact .char hc (fun _ => ⟨h.1, by simp at g7; omega⟩) (ih h.2)
      rename_i g8
      split at h
      · rename_i b r hr
        split at hr
        · rename_i hs
          obtain ⟨rfl, hs⟩ := hs
          cases s with
          | nil => cases hs
          | cons e t =>
            simp only [List.head?_cons, Option.some.injEq] at hs
            subst hs
            obtain ⟨h1, hb⟩ := readIri_sound hr
            simp only [List.tail_cons] at h1
            subst h1
            exact .url hb (ih h)
        · cases hr
      · exact .char hc (fun e => absurd e g8) (ih h)

theorem wellCut_sound {a : Bool} {s : Str} (h : wellCut a s = true) : Units (a = true) 0 s := readUnits_sound h

/-! ## Balanced texts -/

theorem ordinary_of {c : Char} (h : c ∉ special) (hb : ¬ IsBlank c) : OrdinaryChar c := by
  simp only [special, IsBlank, List.mem_cons, List.not_mem_nil, or_false, not_or] at h hb
  simp only [OrdinaryChar, List.mem_cons, List.not_mem_nil, or_false, not_or]
  grind

theorem unit_char {a : Prop} {n : Nat} {c : Char} {s : Str} (h : c ∉ special) (hl : c = '<' → a ∧ 0 < n) (hs : Units a n s) : Units a n (c :: s) := by
  by_cases hb : IsBlank c
  · exact .gap (w := []) hb .nil hs
  · exact .char (ordinary_of h hb) hl hs

/-- Without `<` every balanced text is cut into units. -/
theorem Nested.units {s : Str} (h : Nested s) : ∀ {n : Nat} {t : Str}, '<' ∉ s → Units False n t → Units False n (s ++ t) := by
  induction h with
  | nil => intro n t _ ht; exact ht
  | char h1 _ ih =>
    intro n t hs ht
    simp only [List.mem_cons, not_or] at hs
    exact unit_char h1 (fun e => absurd e.symm hs.1) (ih hs.2 ht)
  | @group o c s1 s2 h1 _ _ ih1 ih2 =>
    intro n t hs ht
    simp only [List.mem_cons, List.mem_append, not_or] at hs
    have e : o :: (s1 ++ c :: s2) ++ t = o :: (s1 ++ c :: (s2 ++ t)) := by simp
    rw [e]
    have h2 := ih2 hs.2.2.2 ht
    simp only [brackets, List.mem_cons, Prod.mk.injEq, List.not_mem_nil, or_false] at h1
    rcases h1 with ⟨rfl, rfl⟩ | ⟨rfl, rfl⟩ | ⟨rfl, rfl⟩
    · exact .char (by decide) (by simp) (ih1 hs.2.1 (.char (by decide) (by simp) h2))
    · exact .char (by decide) (by simp) (ih1 hs.2.1 (.char (by decide) (by simp) h2))
    · exact .open (ih1 hs.2.1 (.close h2))
  | string h1 h2 _ ih =>
    intro n t hs ht
    simp only [List.mem_cons, List.mem_append, not_or] at hs
    rw [List.cons_append, List.append_assoc, List.cons_append]
    exact .str h1 h2 (fun h => h.elim) (ih hs.2.2.2 ht)
  | iri => intro n t hs; simp at hs
  | comment h1 h2 _ ih =>
    intro n t hs ht
    simp only [List.mem_cons, List.mem_append, not_or] at hs
    rw [List.cons_append, List.append_assoc, List.cons_append]
    exact .comment h1 h2 (fun h => h.elim) (ih hs.2.2.2 ht)
  | escape h1 _ ih =>
    intro n t hs ht
    simp only [List.mem_cons, not_or] at hs
    exact .escape h1 (ih hs.2.2 ht)

/-- Inside braces every balanced text without `#` and apostrophes is cut into units. -/
theorem Nested.units_angle {s : Str} (h : Nested s) : ∀ {n : Nat} {t : Str}, '#' ∉ s → '\'' ∉ s → Units True (n + 1) t → Units True (n + 1) (s ++ t) := by
  induction h with
  | nil => intro n t _ _ ht; exact ht
  | char h1 _ ih =>
    intro n t hs hq ht
    simp only [List.mem_cons, not_or] at hs hq
    exact unit_char h1 (fun _ => ⟨trivial, by omega⟩) (ih hs.2 hq.2 ht)
  | @group o c s1 s2 h1 _ _ ih1 ih2 =>
    intro n t hs hq ht
    simp only [List.mem_cons, List.mem_append, not_or] at hs hq
    have e : o :: (s1 ++ c :: s2) ++ t = o :: (s1 ++ c :: (s2 ++ t)) := by simp
    rw [e]
    have h2 := ih2 hs.2.2.2 hq.2.2.2 ht
    simp only [brackets, List.mem_cons, Prod.mk.injEq, List.not_mem_nil, or_false] at h1
    rcases h1 with ⟨rfl, rfl⟩ | ⟨rfl, rfl⟩ | ⟨rfl, rfl⟩
    · exact .char (by decide) (by simp) (ih1 hs.2.1 hq.2.1 (.char (by decide) (by simp) h2))
    · exact .char (by decide) (by simp) (ih1 hs.2.1 hq.2.1 (.char (by decide) (by simp) h2))
    · exact .open (ih1 hs.2.1 hq.2.1 (.close h2))
  | string h1 h2 _ ih =>
    intro n t hs hq ht
    simp only [List.mem_cons, List.mem_append, not_or] at hs hq
    rw [List.cons_append, List.append_assoc, List.cons_append]
    exact .str h1 h2 (fun _ e => absurd e.symm hq.1) (ih hs.2.2.2 hq.2.2.2 ht)
  | @iri b s2 h1 _ ih =>
    intro n t hs hq ht
    simp only [List.mem_cons, List.mem_append, not_or] at hs hq
    have h2 := ih hs.2.2.2 hq.2.2.2 ht
    rw [List.cons_append, List.append_assoc, List.cons_append]
    refine .char (by decide) (fun _ => ⟨trivial, by omega⟩) ?_
    have hb : ∀ c ∈ b, OrdinaryChar c ∧ c ≠ '<' := by
      intro c hc
      have g1 := h1 c hc
      have g2 : c ≠ '#' := fun e => hs.2.1 (e ▸ hc)
      have g3 : c ≠ '\'' := fun e => hq.2.1 (e ▸ hc)
      simp only [iriStops, List.mem_cons, List.not_mem_nil, or_false, not_or] at g1
      simp only [OrdinaryChar, List.mem_cons, List.not_mem_nil, or_false, not_or]
      grind
    clear h1 ih hs hq
    induction b with
    | nil => exact .char (by decide) (by simp) h2
    | cons c b ih => exact .char (hb c (by simp)).1 (fun e => absurd e (hb c (by simp)).2) (ih fun c hc => hb c (by simp [hc]))
  | comment => intro n t hs; simp at hs
  | escape h1 _ ih =>
    intro n t hs hq ht
    simp only [List.mem_cons, not_or] at hs hq
    exact .escape h1 (ih hs.2.2 hq.2.2 ht)

end NomSparql
