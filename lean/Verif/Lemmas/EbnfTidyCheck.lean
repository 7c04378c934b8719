import Verif.Lemmas.EbnfCanonTerms

/-!
# A check for tidy texts
-/

namespace NomSparql

/-- The test holds for every non-empty end of the text. -/
def allTails (f : Str → Bool) : Str → Bool
  | [] => true
  | c :: s => f (c :: s) && allTails f s

theorem allTails_at {f : Str → Bool} {c : Char} {b : Str} : ∀ {a : Str}, allTails f (a ++ c :: b) = true → f (c :: b) = true
  | [], h => by simp only [List.nil_append, allTails, Bool.and_eq_true] at h; exact h.1
  | _ :: a, h => by simp only [List.cons_append, allTails, Bool.and_eq_true] at h; exact allTails_at (a := a) h.2

/-- What tidiness asks of the text from here on. -/
def tidyHere : Str → Bool
  | '.' :: b => (b.dropWhile fun c => decide (IsBlank c)).head? != some '.'
  | _ => true

def tidyDot : Str → Bool
  | c :: '.' :: b => decide (IsBlank c) || c == '}' || (match b with | d :: _ => decide (W3CPnChars d) | [] => false)
  | _ => true

def tidyPrefix (s : Str) : Bool :=
  match tagNoCase c!"prefix" s with
  | .ok (c :: _) _ => !decide (WordChar c)
  | _ => true

def tidyValues : Str → Bool
  | c :: s => match tagNoCase c!"values" s with
    | .ok _ _ => !decide (WordChar c)
    | _ => true
  | [] => true

/-- A check that is enough for texts without comments and line ends. -/
def tidyB (s : Str) : Bool :=
  s.all (fun c => c != '#' && c != '\n' && c != '\r') &&
    allTails (fun s => tidyHere s && tidyDot s && tidyPrefix s && tidyValues s) s

theorem ws_blank {w : Str} (h : Ws w) (hn : '#' ∉ w) : ∀ c ∈ w, IsBlank c := ws_noComment h hn

theorem dropWhile_blanks {w b : Str} (h : ∀ c ∈ w, IsBlank c) : (w ++ '.' :: b).dropWhile (fun c => decide (IsBlank c)) = '.' :: b := by
  induction w with
  | nil => simp [List.dropWhile, show ¬ IsBlank '.' by decide]
  | cons c w ih =>
    rw [List.cons_append, List.dropWhile_cons_of_pos (by simpa using h c (by simp))]
    exact ih fun c hc => h c (by simp [hc])

theorem tidyB_sound {s : Str} (h : tidyB s = true) : Tidy s := by
  simp only [tidyB, Bool.and_eq_true, List.all_eq_true, bne_iff_ne] at h
  obtain ⟨hc, ht⟩ := h
  have at' : ∀ a c b, s = a ++ c :: b → tidyHere (c :: b) = true ∧ tidyDot (c :: b) = true ∧ tidyPrefix (c :: b) = true ∧ tidyValues (c :: b) = true := by
    rintro a c b rfl
    have := allTails_at ht
    simp only [Bool.and_eq_true] at this
    exact ⟨this.1.1.1, this.1.1.2, this.1.2, this.2⟩
  refine ⟨?_, ?_, ?_, ?_, .inr fun c h => ⟨(hc c h).1.2, (hc c h).2⟩, ?_, ?_⟩
  · rintro a w b hw rfl
    have := (at' a _ _ rfl).1
    have hn : '#' ∉ w := fun hh => (hc '#' (by simp [hh])).1.1 rfl
    rw [tidyHere, dropWhile_blanks (ws_blank hw hn)] at this
    simp at this
  · rintro a c b rfl
    have := (at' a _ _ rfl).2.1
    cases b with
    | nil => simp [tidyDot] at this; rcases this with h | h <;> simp [h]
    | cons d r => simp [tidyDot] at this; rcases this with (h | h) | h <;> simp [h]
  · rintro a w b _ hh rfl
    exact (hc '#' (by simp [hh])).1.1 rfl
  · rintro a w b _ hh rfl
    exact (hc '#' (by simp [hh])).1.1 rfl
  · rintro a v c b rfl hv
    have e := tagNoCase_append hv (c :: b)
    cases v with
    | nil => cases hv
    | cons d v =>
      have := (at' a d (v ++ c :: b) rfl).2.2.1
      rw [tidyPrefix, ← List.cons_append, e] at this
      simpa using this
  · rintro a c v b rfl hv
    have := (at' a c (v ++ b) rfl).2.2.2
    rw [tidyValues, tagNoCase_append hv b] at this
    simpa using this

end NomSparql
