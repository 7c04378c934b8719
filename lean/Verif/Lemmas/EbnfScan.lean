import Verif.Spec.Ebnf
import Verif.Spec.Layout

/-!
# Which characters may follow each other in SPARQL 1.1

A table tells of every non-terminal whether it generates a text without visible character, a text beginning with a character of a class,
and a text ending in a character of another class.  If the table agrees with the productions then no legal text has a character of
the second class followed, up to white space, by one of the first.
-/

namespace NomSparql

open Ebnf

theorem dense_append (s t : Str) : dense (s ++ t) = dense s ++ dense t := List.filter_append ..

theorem dense_ws {w : Str} (h : Ws w) (h' : '#' ∉ w) : dense w = [] := by
  induction h with
  | nil => rfl
  | cons ha _ ih =>
    rw [List.mem_append, not_or] at h'
    rw [dense_append, ih h'.2, List.append_nil]
    cases ha with
    | char hc => exact List.filter_eq_nil_iff.mpr fun d hd => by simp_all [IsBlank]
    | comment => simp at h'

/-- The classes of characters and the table. -/
structure Scan where
  /-- characters that the text must not have -/
  bad : Char → Bool
  /-- the character on the left -/
  x : Char → Bool
  /-- the character on the right -/
  y : Char → Bool
  nulT : List Nt
  fstT : List Nt
  lstT : List Nt
  fstTerm : List Term
  lstTerm : List Term

namespace Scan
variable (T : Scan)

/-- May be without visible character. -/
def nul : Ebnf → Bool
  | .t _ => false
  | .k _ => false
  | .p w => (dense w).isEmpty
  | .n x => T.nulT.contains x
  | .nothing => true
  | .seq a b => nul a && nul b
  | .alt a b => nul a || nul b
  | .star _ => true

/-- May begin with a character of the class on the right. -/
def fst : Ebnf → Bool
  | .t x => T.fstTerm.contains x
  | .k w => w.head?.any T.y
  | .p w => (dense w).head?.any T.y
  | .n x => T.fstT.contains x
  | .nothing => false
  | .seq a b => fst a || (T.nul a && fst b)
  | .alt a b => fst a || fst b
  | .star a => fst a

/-- May end in a character of the class on the left. -/
def lst : Ebnf → Bool
  | .t x => T.lstTerm.contains x
  | .k _ => false
  | .p w => (dense w).getLast?.any T.x
  | .n x => T.lstT.contains x
  | .nothing => false
  | .seq a b => lst b || (T.nul b && lst a)
  | .alt a b => lst a || lst b
  | .star a => lst a

/-- Does not put the two classes beside each other. -/
def ok : Ebnf → Bool
  | .t _ => true
  | .k w => !w.isEmpty && w.all fun c => c.isAlphanum || c == '_'
  | .p w => (dense w).length ≤ 1 || !(dense w).any T.x
  | .n _ => true
  | .nothing => true
  | .seq a b => ok a && ok b && !(T.lst a && T.fst b)
  | .alt a b => ok a && ok b
  | .star a => ok a && !(T.lst a && T.fst a)

/-- The table agrees with the productions. -/
def agrees (x : Nt) : Bool :=
  (!T.nul (rule x) || T.nulT.contains x) && (!T.fst (rule x) || T.fstT.contains x) && (!T.lst (rule x) || T.lstT.contains x) && T.ok (rule x)

/-- What is claimed of a text. -/
structure Holds (e : Ebnf) (s : Str) : Prop where
  nul : dense s = [] → T.nul e
  fst : ∀ c b, dense s = c :: b → T.y c → T.fst e
  lst : ∀ c a, dense s = a ++ [c] → T.x c → T.lst e
  apart : ∀ c d a b, dense s = a ++ c :: d :: b → T.x c → T.y d → False

/-- The conditions on the classes and the terminals. -/
structure Fine : Prop where
  hash : T.bad '#'
  kwy : ∀ c c', SameLetter c c' → T.y c' → T.y c
  kwx : ∀ c, T.x c → c.isAlphanum = false ∧ c ≠ '_'
  term : ∀ t s, w3cTerm t s → (∀ c ∈ s, ¬ T.bad c) → T.Holds (.t t) s
  table : ∀ x, T.agrees x

variable {T}

theorem alnum_not_blank {c : Char} (h : (c.isAlphanum || c == '_') = true) : ¬ IsBlank c := by
  intro hb
  simp only [IsBlank, List.mem_cons, List.not_mem_nil, or_false] at hb
  rcases hb with rfl | rfl | rfl | rfl <;> revert h <;> decide

theorem alnum_upper {c c' : Char} (h : (c.isAlphanum || c == '_') = true) (hs : SameLetter c c') : (c'.isAlphanum || c' == '_') = true := by
  rcases hs with rfl | ⟨h1, h2, h3⟩
  · exact h
  · have : c'.isUpper := by
      simp only [Char.isUpper, Char.toNat] at *
      simp only [ge_iff_le, UInt32.le_iff_toNat_le, decide_eq_true_eq]
      have h1' : 'A'.val.toBitVec.toNat = 65 := rfl
      have h2' : 'Z'.val.toBitVec.toNat = 90 := rfl
      simp only [UInt32.toNat] at *
      omega
    simp [Char.isAlphanum, Char.isAlpha, this]

theorem kw_alnum {w s : Str} (h : CaseVariant w s) (hw : (w.all fun c => c.isAlphanum || c == '_') = true) :
    ∀ c ∈ s, (c.isAlphanum || c == '_') = true := by
  induction h with
  | nil => simp
  | cons hxy _ ih =>
    simp only [List.all_cons, Bool.and_eq_true] at hw
    intro c hc
    rcases List.mem_cons.mp hc with rfl | hc
    · exact alnum_upper hw.1 hxy
    · exact ih hw.2 c hc

theorem holds (hT : T.Fine) {e : Ebnf} {s : Str} (h : Gen sparqlWide e s) (he : T.ok e) (hb : ∀ c ∈ s, ¬ T.bad c) : T.Holds e s := by
  induction h with
  | t h => exact hT.term _ _ h hb
  | @k w s h =>
    simp only [ok, Bool.and_eq_true] at he
    have hal := kw_alnum h he.2
    have hd : dense s = s := List.filter_eq_self.mpr fun c hc => by simpa using alnum_not_blank (hal c hc)
    have hx : ∀ c ∈ s, ¬ T.x c := fun c hc hx => by
      have := hal c hc
      have := hT.kwx c hx
      simp_all
    refine ⟨fun h0 => ?_, fun c b h0 hy => ?_, fun c a h0 hx' => ?_, fun c d a b h0 hx' _ => ?_⟩ <;> rw [hd] at h0
    · subst h0
      cases h
      simp at he
    · subst h0
      cases h with
      | cons hxy _ => simpa [Scan.fst] using hT.kwy _ _ hxy hy
    · exact absurd hx' (hx c (by simp [h0]))
    · exact absurd hx' (hx c (by simp [h0]))
  | @p w =>
    refine ⟨fun h0 => by simp [Scan.nul, h0], fun c b h0 hy => by simp [Scan.fst, h0, hy], fun c a h0 hx => by simp [Scan.lst, h0, hx],
      fun c d a b h0 hx _ => ?_⟩
    simp only [ok, Bool.or_eq_true, decide_eq_true_eq] at he
    rcases he with he | he
    · rw [h0] at he; simp at he; omega
    · simp [h0, hx] at he
  | @n x s _ ih =>
    have ht := hT.table x
    simp only [agrees, Bool.and_eq_true, Bool.or_eq_true, Bool.not_eq_true'] at ht
    have ih := ih ht.2 hb
    exact ⟨fun h => ht.1.1.1.resolve_left (by simp [ih.nul h]), fun c b h hy => ht.1.1.2.resolve_left (by simp [ih.fst c b h hy]),
      fun c a h hx => ht.1.2.resolve_left (by simp [ih.lst c a h hx]), ih.apart⟩
  | extra hd => exact hd.elim
  | nothing => exact ⟨fun _ => rfl, by simp [dense], by simp [dense], by simp [dense]⟩
  | @seq a b s t _ _ _ iha ihb =>
    simp only [ok, Bool.and_eq_true, Bool.not_eq_true', Bool.and_eq_false_imp] at he
    have ha := iha he.1.1 fun c hc => hb c (by simp [hc])
    have hb' := ihb he.1.2 fun c hc => hb c (by simp [hc])
    refine ⟨fun h => ?_, fun c r h hy => ?_, fun c r h hx => ?_, fun c d l r h hx hy => ?_⟩ <;> rw [dense_append] at h
    · rw [List.append_eq_nil_iff] at h
      simp [Scan.nul, ha.nul h.1, hb'.nul h.2]
    · rcases List.append_eq_cons_iff.mp h with ⟨h1, h2⟩ | ⟨u, h1, h2⟩
      · simp [Scan.fst, ha.nul h1, hb'.fst c r h2 hy]
      · simp [Scan.fst, ha.fst c u h1 hy]
    · rcases List.append_eq_append_iff.mp h with ⟨u, h1, h2⟩ | ⟨u, h1, h2⟩
      · simp [Scan.lst, hb'.lst c u h2 hx]
      · rcases List.cons_eq_append_iff.mp h2 with ⟨rfl, h2⟩ | ⟨u', rfl, h3⟩
        · simp [Scan.lst, hb'.lst c [] h2.symm hx]
        · rw [eq_comm, List.append_eq_nil_iff] at h3
          obtain ⟨rfl, h3⟩ := h3
          simp [Scan.lst, hb'.nul h3, ha.lst c r h1 hx]
    · rcases List.append_eq_append_iff.mp h with ⟨u, h1, h2⟩ | ⟨u, h1, h2⟩
      · exact hb'.apart c d u r h2 hx hy
      · rcases List.cons_eq_append_iff.mp h2 with ⟨rfl, h2⟩ | ⟨u', rfl, h3⟩
        · exact hb'.apart c d [] r h2.symm hx hy
        · rcases List.cons_eq_append_iff.mp h3 with ⟨rfl, h3⟩ | ⟨u'', rfl, h4⟩
          · have := he.2 (ha.lst c l h1 hx)
            rw [hb'.fst d r h3.symm hy] at this
            cases this
          · exact ha.apart c d l u'' h1 hx hy
  | left _ ih =>
    simp only [ok, Bool.and_eq_true] at he
    have ih := ih he.1 hb
    exact ⟨fun h => by simp [Scan.nul, ih.nul h], fun c b h hy => by simp [Scan.fst, ih.fst c b h hy],
      fun c a h hx => by simp [Scan.lst, ih.lst c a h hx], ih.apart⟩
  | right _ ih =>
    simp only [ok, Bool.and_eq_true] at he
    have ih := ih he.2 hb
    exact ⟨fun h => by simp [Scan.nul, ih.nul h], fun c b h hy => by simp [Scan.fst, ih.fst c b h hy],
      fun c a h hx => by simp [Scan.lst, ih.lst c a h hx], ih.apart⟩
  | stop => exact ⟨fun _ => rfl, by simp [dense], by simp [dense], by simp [dense]⟩
  | @more a s t _ _ _ iha ihb =>
    have he' := he
    simp only [ok, Bool.and_eq_true, Bool.not_eq_true', Bool.and_eq_false_imp] at he
    have ha := iha he.1 fun c hc => hb c (by simp [hc])
    have hb' := ihb he' fun c hc => hb c (by simp [hc])
    refine ⟨fun _ => rfl, fun c r h hy => ?_, fun c r h hx => ?_, fun c d l r h hx hy => ?_⟩ <;> rw [dense_append] at h
    · rcases List.append_eq_cons_iff.mp h with ⟨h1, h2⟩ | ⟨u, h1, h2⟩
      · exact hb'.fst c r h2 hy
      · exact ha.fst c u h1 hy
    · rcases List.append_eq_append_iff.mp h with ⟨u, h1, h2⟩ | ⟨u, h1, h2⟩
      · exact hb'.lst c u h2 hx
      · rcases List.cons_eq_append_iff.mp h2 with ⟨rfl, h2⟩ | ⟨u', rfl, h3⟩
        · exact hb'.lst c [] h2.symm hx
        · rw [eq_comm, List.append_eq_nil_iff] at h3
          obtain ⟨rfl, h3⟩ := h3
          exact ha.lst c r h1 hx
    · rcases List.append_eq_append_iff.mp h with ⟨u, h1, h2⟩ | ⟨u, h1, h2⟩
      · exact hb'.apart c d u r h2 hx hy
      · rcases List.cons_eq_append_iff.mp h2 with ⟨rfl, h2⟩ | ⟨u', rfl, h3⟩
        · exact hb'.apart c d [] r h2.symm hx hy
        · rcases List.cons_eq_append_iff.mp h3 with ⟨rfl, h3⟩ | ⟨u'', rfl, h4⟩
          · have := he.2 (ha.lst c l h1 hx)
            have h5 : T.fst a := hb'.fst d r h3.symm hy
            rw [h5] at this
            cases this
          · exact ha.apart c d l u'' h1 hx hy
  | @before e w s hw _ ih =>
    have ih := ih he fun c hc => hb c (by simp [hc])
    have h0 : dense (w ++ s) = dense s := by
      rw [dense_append, dense_ws hw fun h => hb '#' (by simp [h]) hT.hash, List.nil_append]
    exact ⟨fun h => ih.nul (h0 ▸ h), fun c b h => ih.fst c b (h0 ▸ h), fun c a h => ih.lst c a (h0 ▸ h), fun c d a b h => ih.apart c d a b (h0 ▸ h)⟩
  | @after e w s _ hw ih =>
    have ih := ih he fun c hc => hb c (by simp [hc])
    have h0 : dense (s ++ w) = dense s := by
      rw [dense_append, dense_ws hw fun h => hb '#' (by simp [h]) hT.hash, List.append_nil]
    exact ⟨fun h => ih.nul (h0 ▸ h), fun c b h => ih.fst c b (h0 ▸ h), fun c a h => ih.lst c a (h0 ▸ h), fun c d a b h => ih.apart c d a b (h0 ▸ h)⟩

end Scan

end NomSparql
