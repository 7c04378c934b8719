import Verif.Spec.Occurs
import Verif.Lemmas.Yields

/-!
# Leaves that stand in the text: the parsers of the leaves
-/

namespace NomSparql

theorem occurs_of {p : P α} {R : α → Lang} [h : Sound p R] {i j r : Str} {a : α} (m : j <:+ i) (e : p j = .ok r a) : Occurs R i a := by
  obtain ⟨c, rfl, h⟩ := h.out e
  exact ⟨c, (List.prefix_append c r).isInfix.trans m.isInfix, h⟩

theorem Occurs.mono {R : α → Lang} {i j : Str} {a : α} (m : j <:+: i) (h : Occurs R j a) : Occurs R i a := by
  obtain ⟨t, h1, h2⟩ := h
  exact ⟨t, h1.trans m, h2⟩

theorem occurs_many {sep : Lang} {R : α → Lang} : ∀ {l : List α} {s : Str}, Many (fun a => sep ⬝ R a) l s → ∀ a ∈ l, Occurs R s a
  | [], _, _ => fun _ h => by cases h
  | a :: l, _, ⟨x, y, e, ⟨u, v, e', _, h1⟩, h2⟩ => by
    subst e e'
    intro b hb
    rcases List.mem_cons.mp hb with rfl | hb
    · exact ⟨v, ⟨u, y, by simp⟩, h1⟩
    · exact (occurs_many h2 b hb).mono (List.suffix_append _ _).isInfix

theorem prologue_occurs {i j r : Str} {p : Prologue} (m : j <:+ i) (e : prologue j = .ok r p) : ∀ d ∈ p.decls, Occurs rBaseOrPrefixDecl i d := by
  obtain ⟨s, rfl, h⟩ := (inferInstance : Sound prologue rPrologue).out e
  have hs : s <:+: i := (List.prefix_append s r).isInfix.trans m.isInfix
  obtain ⟨l⟩ := p
  cases l with
  | nil => intro d hd; cases hd
  | cons a l =>
    obtain ⟨x, y, rfl, h1, h2⟩ := h
    intro d hd
    rcases List.mem_cons.mp hd with rfl | hd
    · exact ⟨x, (List.prefix_append x y).isInfix.trans hs, h1⟩
    · exact ((occurs_many h2 d hd).mono (List.suffix_append x y).isInfix).mono hs

instance textLeaves_ok {i : Str} : LeafIn (· <:+ i) (textLeaves i) :=
  ⟨occurs_of, occurs_of, occurs_of, occurs_of, occurs_of, occurs_of, occurs_of, prologue_occurs⟩

theorem Occurs.mem {R : α → Lang} {i : Str} {a : α} {c : Char} (h : Occurs R i a) (hc : ∀ t, R a t → c ∈ t) : c ∈ i := by
  obtain ⟨t, h1, h2⟩ := h
  exact h1.subset (hc t h2)

theorem Occurs.exists_mem {R : α → Lang} {i : Str} {a : α} {C : Char → Prop} (h : Occurs R i a) (hc : ∀ t, R a t → ∃ c ∈ t, C c) : ∃ c ∈ i, C c := by
  obtain ⟨t, h1, h2⟩ := h
  obtain ⟨c, h3, h4⟩ := hc t h2
  exact ⟨c, h1.subset h3, h4⟩

theorem decVal_digit {s : Str} {n : Nat} (h : DecVal s n) : ∃ c ∈ s, AsciiDigit c := by
  cases h with
  | digit h => exact ⟨_, List.mem_cons_self .., h⟩
  | snoc _ h => exact ⟨_, List.mem_append_right _ (List.mem_cons_self ..), h⟩

theorem iriRef_marks {x t : Str} (h : rIriRef x t) : '<' ∈ t ∧ '>' ∈ t := by
  obtain ⟨rfl, _⟩ := h
  simp

theorem string_marks {x t : Str} (h : StringText x t) : '"' ∈ t ∨ '\'' ∈ t := by
  obtain ⟨q, rfl | rfl, rfl, _⟩ := h <;> simp

theorem pnameNs_mark {o : Option Str} {t : Str} (h : rPnameNs o t) : ':' ∈ t := by
  obtain ⟨_, _, rfl, _, _, _, rfl, _, rfl⟩ := h
  simp

theorem number_digit {n : NumericLiteral} {t : Str} (h : rNumericLiteral n t) : ∃ c ∈ t, AsciiDigit c := by
  cases n with
  | int v =>
    obtain ⟨⟨_, _, ds, _, rfl, _, h, _⟩, _⟩ := h
    obtain ⟨c, h1, h2⟩ := decVal_digit h
    exact ⟨c, List.mem_append_right _ h1, h2⟩
  | double d e =>
    obtain ⟨_, _, rfl, ⟨sg, _, w, f, _, ht, hne, hd, _⟩, _⟩ := h
    obtain ⟨c, l, e⟩ := List.exists_cons_of_ne_nil hne
    have hc : c ∈ w ++ f := by rw [e]; exact List.mem_cons_self ..
    refine ⟨c, List.mem_append_left _ ?_, hd c hc⟩
    rcases ht with ⟨rfl, rfl⟩ | rfl
    · simp at hc; simp [hc]
    · rcases List.mem_append.mp hc with h | h <;> simp [h]

theorem limit_digit {n : Nat} {k t : Str} (h : (kw k ⬝ Ws ⬝ rU64 n) t) : ∃ c ∈ t, AsciiDigit c := by
  obtain ⟨_, _, rfl, _, _, _, rfl, _, h, _⟩ := h
  obtain ⟨c, h1, h2⟩ := decVal_digit h
  exact ⟨c, by simp [h1], h2⟩

theorem limitOffset_digit {l : LimitOffsetClause} {t : Str} (h : rLimitOffset l t) : ∃ c ∈ t, AsciiDigit c := by
  cases l with
  | limitOffset | offsetLimit =>
    obtain ⟨_, _, rfl, h, _⟩ := h
    obtain ⟨c, h1, h2⟩ := limit_digit h
    exact ⟨c, List.mem_append_left _ h1, h2⟩

instance markLeaves_ok {i : Str} : LeafIn (· <:+ i) (markLeaves i) where
  var m e := (textLeaves_ok.var m e : Occurs rVar i _).mem fun t h => by obtain ⟨_, _, rfl, rfl, _⟩ := h; simp
  iri m e := by
    have h : Occurs rIri i _ := textLeaves_ok.iri m e
    rename_i a
    cases a with
    | iri x => exact ⟨h.mem fun _ h => (iriRef_marks h).1, h.mem fun _ h => (iriRef_marks h).2⟩
    | prefixedName n =>
      refine h.mem fun t h => ?_
      cases n with
      | pnameLN o l => obtain ⟨_, _, rfl, h, _⟩ := h; exact List.mem_append_left _ (pnameNs_mark h)
      | pnameNS o => exact pnameNs_mark h
  literal m e := by
    obtain ⟨t, h1, _, _, rfl, h2, _⟩ : Occurs rRdfLiteral i _ := textLeaves_ok.literal m e
    exact (string_marks h2).imp (fun h => h1.subset (List.mem_append_left _ h)) (fun h => h1.subset (List.mem_append_left _ h))
  number m e := (textLeaves_ok.number m e : Occurs rNumericLiteral i _).exists_mem fun _ h => number_digit h
  blank m e := by
    have h : Occurs rBlankNode i _ := textLeaves_ok.blank m e
    rename_i a
    cases a with
    | anon => exact ⟨h.mem fun t h => by obtain ⟨_, _, rfl, rfl, _, _, rfl, _, rfl⟩ := h; simp, h.mem fun t h => by obtain ⟨_, _, rfl, rfl, _, _, rfl, _, rfl⟩ := h; simp⟩
    | label l => exact ⟨h.mem fun t h => by obtain ⟨_, _, rfl, rfl, _⟩ := h; simp, h.mem fun t h => by obtain ⟨_, _, rfl, rfl, _⟩ := h; simp⟩
  limit m e := (textLeaves_ok.limit m e : Occurs rLimitOffset i _).exists_mem fun _ h => limitOffset_digit h
  separator m e := by
    obtain ⟨t, h1, h2⟩ : Occurs StringText i _ := textLeaves_ok.separator m e
    exact (string_marks h2).imp (fun h => h1.subset h) (fun h => h1.subset h)
  prologue m e d hd := by
    have h : Occurs rBaseOrPrefixDecl i d := textLeaves_ok.prologue m e d hd
    have key : ∀ t, rBaseOrPrefixDecl d t → '<' ∈ t ∧ '>' ∈ t := by
      intro t h
      cases d with
      | base x =>
        obtain ⟨_, _, rfl, _, _, _, rfl, _, h⟩ := h
        simp [iriRef_marks h]
      | «prefix» d =>
        obtain ⟨_, _, rfl, _, _, _, rfl, _, h⟩ := h
        simp [iriRef_marks h]
    exact ⟨h.mem fun t h => (key t h).1, h.mem fun t h => (key t h).2⟩

end NomSparql
