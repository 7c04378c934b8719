import Verif.Lemmas.EbnfCanonTerms

/-!
# Canonical triples in the grammar of SPARQL 1.1
-/

namespace NomSparql

open Ebnf

variable {S : Str} {x : Bool} {s t w : Str}

/-! ## Separators -/

/-- Semicolons. -/
theorem leg_semis0 {b : Ebnf} (h : Star (Ws ⬝ lit c!";") s) : Leg S false (.star (.p c!";" ⬩ maybe b)) s ∧ NW s ∧ Cl s := by
  induction h with
  | nil => exact ⟨.stop, .nil, .nil⟩
  | cons h _ ih =>
    obtain ⟨w, _, rfl, hw, rfl⟩ := h
    have hc : Cl (w ++ c!";") := .snoc (by decide)
    exact ⟨.moreC (.ws hw (Leg.endM .p)) ih.1 hc, .append (hw.nw.op (.cons (by decide))).nw ih.2.1, .append' hc ih.2.2⟩

/-- Semicolons before an entry. -/
theorem leg_semis {b : Ebnf} {m v : Str} (h : cSemis m) (hv : Leg S true b v) (ht : Leg S true (.star (.p c!";" ⬩ maybe b)) t) (hn : NW t) :
    Leg S true (.star (.p c!";" ⬩ maybe b)) (m ++ (v ++ t)) ∧ Op m := by
  obtain ⟨_, w, rfl, ⟨u, m, rfl, hu, hm⟩, hw⟩ := h
  obtain ⟨w0, _, rfl, hw0, rfl⟩ := hu
  refine ⟨?_, ((hw0.nw.op (.cons (by decide))).append).append⟩
  rw [List.append_assoc]
  induction hm generalizing w0 with
  | nil =>
    have : Leg S true (.p c!";" ⬩ maybe b) (w0 ++ ';' :: (w ++ v)) := .ws hw0 (.pc (.left (.ws hw hv)) (by decide))
    have := Leg.more0 this ht hn
    simpa using this
  | @cons u m hu _ ih =>
    obtain ⟨w1, _, rfl, hw1, rfl⟩ := hu
    rw [List.append_assoc]
    refine .moreC (.ws hw0 (Leg.endM .p)) (ih w1 hw1) (.snoc (by decide))

section
variable (T : Tidy S)
include T

/-- Members separated by dots, with a last dot or without. -/
theorem leg_dots {α : Type} {X : Nt} {i : Ebnf} {R : α → Lang} {l : List α} {d : Str} {y : Bool} (hX : rule X = i ⬩ maybe (.p c!"." ⬩ maybe (.n X)))
    (h : ∀ y t, R y t → Leg S true i t) (hs : Sep1 cDots R l s) (hd : cDot y d) : Leg S (!y) (.n X) (s ++ d) ∧ (y = true → Cl d ∧ d ≠ []) := by
  constructor
  · induction l generalizing s with
    | nil => cases hs
    | cons z l ih =>
      refine .n ?_
      rw [hX]
      obtain ⟨u, v, rfl, hu, hv⟩ := hs
      cases l with
      | nil =>
        cases hv
        rw [List.append_nil]
        cases y with
        | false => cases hd; rw [List.append_nil]; exact .endM (h _ _ hu)
        | true =>
          obtain ⟨w, _, rfl, hw, rfl⟩ := hd
          exact .seq (h _ _ hu) (.left (.ws hw.1 (Leg.endM .p))) hw.op
      | cons z' l =>
        obtain ⟨_, r, rfl, ⟨m, v, rfl, hm, hv⟩, hr⟩ := hv
        obtain ⟨w, _, rfl, hw, _, _, rfl, rfl, g, w', rfl, hg, hw'⟩ := hm
        have ih := ih ⟨v, r, rfl, hv, hr⟩
        intro a b hS hb
        have : g = [] := by
          cases hg with
          | nil => rfl
          | @cons _ g hg _ =>
            obtain ⟨w2, _, rfl, hw2, rfl⟩ := hg
            exact (T.dots (a ++ (u ++ w)) w2 (g ++ (w' ++ (v ++ (r ++ (d ++ b))))) hw2 (by rw [hS]; simp)).elim
        subst this
        have : Leg S (!y) (.p c!"." ⬩ maybe (.n X)) ('.' :: (w' ++ ((v ++ r) ++ d))) := .pc (.left (.ws hw' ih)) (by decide)
        have := Leg.seq (h _ _ hu) (Leg.left (b := .nothing) (.ws hw.1 this)) hw.op
        have hb := this a b (by simpa using hS) hb
        show Gen sparql (i ⬩ (.p c!"." ⬩ maybe (.n X) ⫾ .nothing)) _
        simpa using hb
  · rintro rfl
    obtain ⟨w, _, rfl, hw, rfl⟩ := hd
    exact ⟨.snoc (by decide), by simp⟩

theorem leg_dots0 {α : Type} {X : Nt} {i : Ebnf} {R : α → Lang} {l : List α} (hX : rule X = i ⬩ maybe (.p c!"." ⬩ maybe (.n X)))
    (h : ∀ y t, R y t → Leg S true i t) (hs : Sep1 cDots R l s) : Leg S true (.n X) s := by
  have := (leg_dots T (y := false) hX h hs rfl).1
  rwa [List.append_nil] at this

/-! ## Templates -/

theorem leg_node {g : GraphNode} (h : cNode g s) : Leg S true (.n .graphNode) s := by
  cases g with
  | varOrTerm v => exact .n (.left (leg_varOrTerm T h))
  | triplesNode _ => exact h.elim

theorem leg_verb {v : Verb} (h : cVerb v s) : Leg S true (.n .verb) s := by
  cases v with
  | varOrIri v => exact .n (.left (leg_varOrIri T h))
  | a => cases h; exact .n (.right .p)

theorem leg_objects {l : List GraphNode} (h : Sep1 commaL cNode l s) : Leg S true (.n .objectList) s :=
  .n (.sep (fun _ => Leg.comma) (fun _ _ h => .n (leg_node T h)) h)

theorem leg_verbList {l : VerbList} (h : cVerbList l s) : Leg S true (.n .verb ⬩ .n .objectList) s := by
  obtain ⟨v, os⟩ := l
  obtain ⟨u, _, rfl, hu, w, r, rfl, hw, hr⟩ := h
  exact .seq (leg_verb T hu) (.ws hw.1 (leg_objects T hr)) hw.op

theorem leg_moreLists {l : List VerbList} (h : (Many (fun v => cSemis ⬝ cVerbList v) l ⬝ Star (Ws ⬝ lit c!";")) s) :
    Leg S true (.star (.p c!";" ⬩ maybe (.n .verb ⬩ .n .objectList))) s ∧ NW s := by
  obtain ⟨u, v, rfl, hu, hv⟩ := h
  induction l generalizing u with
  | nil => cases hu; exact ⟨(leg_semis0 hv).1.up, (leg_semis0 (S := S) (b := .nothing) hv).2.1⟩
  | cons y l ih =>
    obtain ⟨_, r, rfl, ⟨m, e, rfl, hm, he⟩, hr⟩ := hu
    have := ih r hr
    have := leg_semis hm (leg_verbList T he) this.1 this.2
    simp only [List.append_assoc]
    exact ⟨this.1, this.2.append.nw⟩

theorem leg_propertyList {l : PropertyList} (h : cPropertyList l s) : Leg S true (.n .propertyListNotEmpty) s := by
  obtain ⟨l⟩ := l
  obtain ⟨u, v, rfl, hu, hv⟩ := h
  cases l with
  | nil => cases hu
  | cons y l =>
    obtain ⟨e, r, rfl, he, hr⟩ := hu
    obtain ⟨z, os⟩ := y
    obtain ⟨u, _, rfl, hu, w, o, rfl, hw, ho⟩ := he
    have := leg_moreLists T ⟨r, v, rfl, hr, hv⟩
    have := Leg.seq0 (leg_objects T ho) this.1 this.2
    have : Leg S true (rule .propertyListNotEmpty) (u ++ (w ++ (o ++ (r ++ v)))) := .seq (leg_verb T hu) (.ws hw.1 this) hw.op
    simpa using Leg.n this

theorem leg_triplesNode {n : TriplesNode} (h : cTriplesNode n s) : Leg S false (.n .triplesNode) s ∧ Cl s := by
  cases n with
  | collection l =>
    obtain ⟨_, _, rfl, rfl, _, _, rfl, ⟨w, _, rfl, hw, u, w', rfl, hu, hw'⟩, rfl⟩ := h
    refine ⟨.n (.left (.n (.parens (.ws hw (.tail (.sepWs (fun _ _ h => leg_node T h) hu) hw'))))), cl_close (c := '(') (by decide)⟩
  | blankNodePropertyList l =>
    obtain ⟨_, _, rfl, rfl, w, _, rfl, hw, u, _, rfl, hu, w', _, rfl, hw', rfl⟩ := h
    have : Leg S true (.n .propertyListNotEmpty) (w ++ (u ++ w')) := .ws hw (.tail (leg_propertyList T hu) hw')
    have : Leg S false (.p c!"[" ⬩ .n .propertyListNotEmpty ⬩ .p c!"]") ('[' :: ((w ++ (u ++ w')) ++ [']'])) := .pc (.close this (by decide)) (by decide)
    refine ⟨.n (.right (.n ?_)), ?_⟩
    · have h2 : Leg S false (rule .blankNodePropertyList) _ := this
      simpa using h2
    · have := cl_close (c := '[') (d := ']') (s := w ++ (u ++ w')) (by decide)
      simpa using this

theorem leg_triples1 {y : TriplesSameSubject} (h : cTriplesSameSubject y s) : Leg S true (.n .triplesSameSubject) s := by
  match y, h with
  | .term v m, h =>
    obtain ⟨u, _, rfl, hu, w, r, rfl, hw, hr⟩ := h
    exact .n (.left (.seq (leg_varOrTerm T hu) (.ws hw.1 (leg_propertyList T hr)) hw.op))
  | .node z none, h => exact .n (.right (.endR (leg_triplesNode T h).1.up (.n (.right .nothing))))
  | .node z (some m), h =>
    obtain ⟨u, _, rfl, hu, w, r, rfl, hw, hr⟩ := h
    exact .n (.right (.seqC (leg_triplesNode T hu).1 (.ws hw (.n (.left (leg_propertyList T hr)))) (leg_triplesNode T hu).2))

theorem leg_template {l : List TriplesSameSubject} (h : cTemplate l s) : Leg S true (.n .triplesTemplate) s := by
  obtain ⟨u, d, rfl, hu, y, hd⟩ := h
  have := (leg_dots T (X := .triplesTemplate) rfl (fun _ _ h => leg_triples1 T h) hu hd).1
  cases y
  · exact this
  · exact this.up

theorem leg_block {o : Option (List TriplesSameSubject)} (h : cBlock o s) : Leg S x (.p c!"{" ⬩ maybe (.n .triplesTemplate) ⬩ .p c!"}") s ∧ Op s ∧ Cl s := by
  obtain ⟨_, _, rfl, rfl, w, _, rfl, hw, u, _, rfl, hu, w', _, rfl, hw', rfl⟩ := h
  have : Leg S true (maybe (.n .triplesTemplate)) (w ++ (u ++ w')) := .ws hw (.tail (.opt (fun _ _ h => leg_template T h) hu) hw')
  refine ⟨?_, .cons (by decide), ?_⟩
  · have : Leg S x (.p c!"{" ⬩ maybe (.n .triplesTemplate) ⬩ .p c!"}") ('{' :: ((w ++ (u ++ w')) ++ ['}'])) := .braces this
    simpa using this
  · have := cl_close (c := '{') (d := '}') (s := w ++ (u ++ w')) (by decide)
    simpa using this

theorem leg_graphBlock {q : QuadsNotTriples} (h : cGraphBlock q s) : Leg S false (.n .quadsNotTriples) s ∧ Cl s := by
  obtain ⟨k, _, rfl, hk, w, _, rfl, hw, u, _, rfl, hu, w', v, rfl, hw', hv⟩ := h
  have hb := leg_block (x := false) T hv
  refine ⟨.n (.seq (.k hk) (.ws hw.1 (.seq (leg_varOrIri T hu) (.ws hw' hb.1) (hw'.nw.op hb.2.1))) hw.op), ?_⟩
  have hn : v ≠ [] := by obtain ⟨_, _, rfl, _⟩ := hb.2.1; simp
  exact .append (.append (.append (.append hb.2.2 hn) (by simp [hn])) (by simp [hn])) (by simp [hn])

theorem leg_entry {l : Bool} {e : QuadsEntry} (h : cEntry l e s) : Leg S true (.n .quadsNotTriples ⬩ maybe (.p c!".") ⬩ maybe (.n .triplesTemplate)) s ∧
    (l = false → Leg S false (.n .quadsNotTriples ⬩ maybe (.p c!".") ⬩ maybe (.n .triplesTemplate)) s ∧ Cl s) := by
  obtain ⟨u, _, rfl, hu, d, v, rfl, ⟨y, hd⟩, hv⟩ := h
  have hg := leg_graphBlock T hu
  have hd : Leg S false (maybe (.p c!".")) d ∧ Cl d := by
    cases y with
    | false => cases hd; exact ⟨.none, .nil⟩
    | true => cases hd; exact ⟨.left .p, .snoc (s := []) (by decide)⟩
  cases he : e.triplesTemplate with
  | none =>
    rw [he] at hv
    cases hv
    rw [List.append_nil]
    have : Leg S false (.n .quadsNotTriples ⬩ maybe (.p c!".") ⬩ maybe (.n .triplesTemplate)) (u ++ d) := .seqC hg.1 (.endM hd.1) hg.2
    exact ⟨this.up, fun _ => ⟨this, .append' hg.2 hd.2⟩⟩
  | some m =>
    rw [he] at hv
    obtain ⟨v, z, rfl, hv, g, hz, hl⟩ := hv
    have ht := leg_dots T (X := .triplesTemplate) rfl (fun _ _ h => leg_triples1 T h) hv hz
    have : Leg S (!g) (.n .quadsNotTriples ⬩ maybe (.p c!".") ⬩ maybe (.n .triplesTemplate)) (u ++ (d ++ (v ++ z))) :=
      .seqC hg.1 (.seqC hd.1 (.left ht.1) hd.2) hg.2
    constructor
    · cases g
      · exact this
      · exact this.up
    · intro hf
      have := hl hf
      subst this
      refine ⟨this, .append (.append (.append (ht.2 rfl).1 (ht.2 rfl).2) ?_) ?_⟩ <;> simp [(ht.2 rfl).2]

theorem leg_entries {l : List QuadsEntry} (h : cEntries l s) :
    Leg S true (.star (.n .quadsNotTriples ⬩ maybe (.p c!".") ⬩ maybe (.n .triplesTemplate))) s := by
  induction l generalizing s with
  | nil => cases h; exact .stop
  | cons e l ih =>
    cases l with
    | nil =>
      have := Leg.more0 (leg_entry T (l := true) h).1 .stop .nil
      rwa [List.append_nil] at this
    | cons e' l =>
      obtain ⟨u, v, rfl, hu, hv⟩ := h
      have := (leg_entry T hu).2 rfl
      exact .moreC this.1 (ih hv) this.2

theorem leg_quads {q : Quads} (h : cQuads q s) : Leg S x (braces (.n .quads)) s ∧ Op s ∧ Cl s := by
  obtain ⟨_, _, rfl, rfl, w, _, rfl, hw, u, _, rfl, hu, v, _, rfl, hv, w', _, rfl, hw', rfl⟩ := h
  have hq : Leg S true (.n .quads) (u ++ v) := by
    refine .n ?_
    cases hf : q.firstTriple with
    | none =>
      rw [hf] at hu
      cases hu
      exact .skipM (leg_entries T hv)
    | some l =>
      rw [hf] at hu
      obtain ⟨m, _, rfl, hm, d, w1, rfl, ⟨g, hd, hl⟩, hw1⟩ := hu
      have ht := leg_dots T (X := .triplesTemplate) rfl (fun _ _ h => leg_triples1 T h) hm hd
      have h2 : Leg S (!g) (maybe (.n .triplesTemplate)) (m ++ (d ++ w1)) := by
        rw [← List.append_assoc]
        exact .left (.tail ht.1 hw1)
      cases he : q.entries with
      | nil =>
        rw [he] at hv
        cases hv
        rw [List.append_nil]
        refine .endS ?_
        cases g
        · exact h2
        · exact h2.up
      | cons e l =>
        have := hl (by simp [he])
        subst this
        refine .seqC h2 (leg_entries T hv) (.append (.append' (ht.2 rfl).1 hw1.cl) (by simp [(ht.2 rfl).2]))
  have : Leg S true (.n .quads) (w ++ ((u ++ v) ++ w')) := .ws hw (.tail hq hw')
  refine ⟨?_, .cons (by decide), ?_⟩
  · have : Leg S x (braces (.n .quads)) ('{' :: ((w ++ ((u ++ v) ++ w')) ++ ['}'])) := .braces this
    simpa using this
  · have := cl_close (c := '{') (d := '}') (s := w ++ ((u ++ v) ++ w')) (by decide)
    simpa using this

/-! ## Paths -/

theorem leg_oneInSet {y : IriOrAOrCaret} (h : cIriOrAOrCaret y s) : Leg S true (.n .pathOneInPropertySet) s := by
  match y, h with
  | .iriOrA (.iri i), h => exact .n (.left (leg_iri T h))
  | .iriOrA .a, h => cases h; exact .n (.right (.left .p))
  | .caret (.iri i), h =>
    obtain ⟨_, u, rfl, rfl, hu⟩ := h
    exact .n (.right (.right (.pc (.left (leg_iri T hu)) (by decide))))
  | .caret .a, h => cases h; exact .n (.right (.right (.pc (.right .p) (by decide))))

omit T in
theorem leg_bar (h : cBar s) : Leg S false (.p c!"|") s ∧ Op s ∧ Cl s := by
  obtain ⟨w, _, rfl, hw, m, w', rfl, rfl, hw'⟩ := h
  exact ⟨.ws hw.1 (.tail .p hw'), hw.op, .append (.append' (s := c!"|") (.snoc (s := []) (by decide)) hw'.cl) (by simp)⟩

theorem leg_negated {l : List IriOrAOrCaret} (h : cNegated l s) : Leg S x (.n .pathNegatedPropertySet) s := by
  obtain ⟨_, _, rfl, rfl, _, _, rfl, ⟨w, _, rfl, hw, u, w', rfl, hu, hw'⟩, rfl⟩ := h
  exact .n (.right (.parens (.left (.ws hw (.tail (.sep (fun _ => leg_bar) (fun _ _ h => leg_oneInSet T h) hu) hw')))))

omit T in
theorem leg_mod {m : PathMod} (h : cMod m s) : Leg S x (.n .pathMod) s := by
  cases m with
  | questionMark => cases h; exact .n (.left .p)
  | asterisk => cases h; exact .n (.right (.left .p))
  | plus => cases h; exact .n (.right (.right .p))

mutual
theorem leg_pathPrimary : ∀ {y : PathPrimary} {s : Str}, CPrimary y s → Leg S true (.n .pathPrimary) s
  | _, _, .iri h => .n (.left (leg_iri T h))
  | _, _, .a => .n (.right (.left .p))
  | _, _, .negated h => .n (.right (.right (.left (.pc (leg_negated T h) (by decide)))))
  | _, _, .group h => .n (.right (.right (.right (.parens (.n (.n (leg_cPath h).1))))))
theorem leg_elt : ∀ {y : PathElt} {s : Str}, CElt y s → Leg S true (.n .pathElt) s
  | _, _, .plain h => .n (.endM (leg_pathPrimary h))
  | _, _, .mod h hw hm => .n (.seq (leg_pathPrimary h) (.left (.ws hw.1 (leg_mod hm))) hw.op)
theorem leg_eltOrInverse : ∀ {y : PathEltOrInverse} {s : Str}, CEltOrInverse y s → Leg S true (.n .pathEltOrInverse) s
  | _, _, .elt h => .n (.left (leg_elt h))
  | _, _, .inverse h => .n (.right (.pc (leg_elt h) (by decide)))
theorem leg_cPath : ∀ {l : List PathEltOrInverse} {s : Str}, CPath l s → Leg S true (sepBy (.n .pathSequence) (.p c!"|")) s ∧
    ∀ b, cBar b → Leg S true (.star (.p c!"|" ⬩ .n .pathSequence)) (b ++ s)
  | _, _, .one h => ⟨.endS (.n (.endS (leg_eltOrInverse h))), fun b hb => by
      have := Leg.more0 (Leg.seqC (leg_bar hb).1 (Leg.n (y := .pathSequence) (.endS (leg_eltOrInverse h))) (leg_bar (S := S) hb).2.2) .stop .nil
      rwa [List.append_nil] at this⟩
  | _, _, .cons (e := e) (s := s) (b := m) (l := l) (t := v) h hm h' => by
    have ih := (leg_cPath h').2 m hm
    have he : Leg S true (.n .pathSequence) s := .n (.endS (leg_eltOrInverse h))
    have ho : Op (m ++ v) := (leg_bar (S := S) hm).2.1.append
    refine ⟨.seq he ih ho, fun b hb => ?_⟩
    have := Leg.more (Leg.seqC (leg_bar hb).1 he (leg_bar (S := S) hb).2.2) ih ho
    simpa using this
end

theorem leg_path {l : List PathEltOrInverse} (h : CPath l s) : Leg S true (.n .path) s := .n (.n (leg_cPath T h).1)

/-! ## Triples in groups -/

theorem leg_pathObjects {m : PathObjects} (h : cPathObjects m s) : Leg S true ((.n .verbPath ⫾ .n .verbSimple) ⬩ .n .objectList) s := by
  obtain ⟨_, u, _, rfl, hu, w, r, rfl, hw, hr, _⟩ := h
  exact .seq (.left (.n (leg_path T hu))) (.ws hw.1 (.n (.sep (fun _ => Leg.comma) (fun _ _ h => .n (.n (.left (leg_varOrTerm T h)))) hr))) hw.op

theorem leg_morePaths {l : List PathObjects} (h : Many (fun m => cSemis ⬝ cPathObjects m) l s) :
    Leg S true (.star (.p c!";" ⬩ maybe ((.n .verbPath ⫾ .n .verbSimple) ⬩ .n .objectList))) s ∧ NW s := by
  induction l generalizing s with
  | nil => cases h; exact ⟨.stop, .nil⟩
  | cons y l ih =>
    obtain ⟨_, r, rfl, ⟨m, e, rfl, hm, he⟩, hr⟩ := h
    have := ih hr
    have := leg_semis hm (leg_pathObjects T he) this.1 this.2
    rw [List.append_assoc]
    exact ⟨this.1, this.2.append.nw⟩

theorem leg_pattern {m : Pattern} (h : cPattern m s) : Leg S true (.n .triplesSameSubjectPath) s := by
  obtain ⟨_, f, _, _⟩ := m
  obtain ⟨u, _, rfl, hu, w, _, rfl, hw, v, r, rfl, hv, hr⟩ := h
  have hr' := leg_morePaths T hr
  simp only at hv
  refine .n (.left (.seq (leg_varOrTerm T hu) (.ws hw.1 (.n ?_)) hw.op))
  have obj : ∀ {o : VarOrTerm} {z : Str}, cVarOrTerm o z → Leg S true (.n .objectListPath) z := fun h =>
    .n (.endS (.n (.n (.left (leg_varOrTerm T h)))))
  cases hv with
  | var h =>
    obtain ⟨y, _, rfl, hy, w1, z, rfl, hw1, hz⟩ := h
    have : Leg S true (rule .propertyListPathNotEmpty) (y ++ (w1 ++ (z ++ r))) :=
      .seq (.right (.n (leg_var hy).1)) (.ws hw1.1 (.seq0 (obj hz) hr'.1 hr'.2)) hw1.op
    simpa using this
  | path h =>
    obtain ⟨y, _, rfl, hy, w1, z, rfl, hw1, hz, _⟩ := h
    have : Leg S true (rule .propertyListPathNotEmpty) (y ++ (w1 ++ (z ++ r))) :=
      .seq (.left (.n (leg_path T hy))) (.ws hw1.1 (.seq0 (obj hz) hr'.1 hr'.2)) hw1.op
    simpa using this

theorem leg_patterns {l : List Pattern} (h : cPatterns l s) : Leg S true (.n .triplesBlock) s :=
  leg_dots0 T (X := .triplesBlock) rfl (fun _ _ h => leg_pattern T h) h

end

end NomSparql
