import Verif.Lemmas.Quads
import Verif.Spec.CanonWhere

/-!
# Canonical triple patterns are accepted
-/

namespace NomSparql

theorem pathMod_fails {c : Char} {r : Str} (h : NoMod c) : Fails pathMod (c :: r) := by
  obtain ⟨h1, h2, h3, h4⟩ := h
  unfold Fails pathMod
  rw [if_neg (by simp), show (1 : Nat) = 1 + 0 from rfl, takeBytes_ascii h1, takeBytes_zero]
  simp only [Option.map]
  have : PathMod.fromStr [c] = none := by
    unfold PathMod.fromStr
    simp [h2, h3, h4]
  rw [this]
  exact ⟨_, _, rfl⟩

theorem pathMod_eval {c : Char} {r : Str} {m : PathMod} (h : PathMod.fromStr [c] = some m) (hc : c.toNat < 128) :
    pathMod (c :: r) = .ok r m := by
  unfold pathMod
  rw [if_neg (by simp), show (1 : Nat) = 1 + 0 from rfl, takeBytes_ascii hc, takeBytes_zero]
  simp only [Option.map]
  rw [h]

theorem sp1_fails {r : Str} (h : ¬ StartsWs r) : Fails sp1 r := by
  rcases Soft.cases sp1 r with ⟨r', w, e⟩ | e
  · obtain ⟨e, h1, _⟩ := sp1_ok_iff.mp e
    exact absurd (e ▸ startsWs_of_ws1 h1) h
  · exact e

/-- A path element can end here: no white space follows, or white space and a character that begins no modifier. -/
def EltEnd (r : Str) : Prop := Follow r ∧ ∃ w x, r = w ++ x ∧ Ws w ∧ ¬ StartsWs x ∧ (w ≠ [] → ∃ c t, x = c :: t ∧ NoMod c)

/-- A path can end here: also no bar follows. -/
def PathEnd (r : Str) : Prop := EltEnd r ∧ Fails (delimited sp (tag ['|']) sp) r

theorem EltEnd.mod {r : Str} (h : EltEnd r) : opt (preceded sp1 pathMod) r = .ok r none := by
  obtain ⟨_, w, x, rfl, hw, hx, hm⟩ := h
  cases w with
  | nil => exact Fails.opt (Fails.preceded (sp1_fails hx))
  | cons d w =>
    obtain ⟨c, t, rfl, hc⟩ := hm (by simp)
    exact Fails.opt (Fails.preceded2 (sp1_eval ⟨hw, by simp⟩ hx) (pathMod_fails hc))

theorem bar_fails {w x : Str} (hw : Ws w) (hx : ¬ StartsWs x) (hb : NotStart (· = '|') x) :
    Fails (delimited sp (tag ['|']) sp) (w ++ x) := by
  refine Fails.delimited2 (sp_eval hw hx) ?_
  cases x with
  | nil => exact First.nil
  | cons c t => exact First.cons (by simpa using hb c t rfl)

theorem EltEnd.bar {b s r : Str} (hb : cBar b) : EltEnd (b ++ (s ++ r)) := by
  obtain ⟨w, _, rfl, hw, _, w', rfl, rfl, hw'⟩ := hb
  have hd : ¬ StartsWs ('|' :: (w' ++ (s ++ r))) := not_startsWs_cons rfl
  simp only [List.append_assoc]
  exact ⟨Follow.ws hw.1 (.inl hw.2) hd (notStart_cons (by decide)), w, _, rfl, hw.1, hd, fun _ => ⟨_, _, rfl, by decide⟩⟩

theorem EltEnd.paren (r : Str) : EltEnd (')' :: r) :=
  ⟨Follow.ws_close .nil (by simp), [], _, rfl, .nil, not_startsWs_cons rfl, by simp⟩

theorem PathEnd.paren (r : Str) : PathEnd (')' :: r) :=
  ⟨EltEnd.paren r, bar_fails .nil (not_startsWs_cons rfl) (notStart_cons (by decide))⟩

theorem PathEnd.of {w s : Str} (hw : Ws1 w) {L : Lang} (hL : Toks L) (hs : L s) (hm : ∀ c t, s = c :: t → NoMod c) (r : Str) :
    PathEnd (w ++ (s ++ r)) := by
  have hn := hL.not_startsWs hs r
  refine ⟨⟨Follow.ws1_tok hL hw hs r, w, s ++ r, rfl, hw.1, hn, fun _ => ?_⟩, bar_fails hw.1 hn ?_⟩
  · obtain ⟨c, t, rfl, hc⟩ := hL s hs
    exact ⟨c, t ++ r, rfl, hm c t rfl⟩
  · obtain ⟨c, t, rfl, hc⟩ := hL s hs
    exact notStart_cons (hc.ne (by simp))

/-! ### Negated property sets -/

theorem iriOrA_a {r : Str} (hr : Follow r) : iriOrA ('a' :: r) = .ok r .a :=
  alt_eval2 (Fails.map (iri_fails_word (k := c!"a") ⟨by simp, by decide⟩ hr))
    (map_eval (f := fun _ => IriOrA.a) (kw_eval (t := c!"a") (k := c!"a") (kw_rfl rfl)))

theorem iriOrA_accepts {i : Iri} {s r : Str} (h : cIri i s) (hr : Follow r) : iriOrA (s ++ r) = .ok r (.iri i) :=
  alt_eval1 (map_eval (iri_accepts i s r h hr))

theorem iriOrAOrCaret_accepts (x : IriOrAOrCaret) (s r : Str) (h : cIriOrAOrCaret x s) (hr : Follow r) :
    pathOneInPropertySet (s ++ r) = .ok r x := by
  unfold pathOneInPropertySet iriOrAOrCaret
  rcases x with x | x <;> rcases x with i | _
  · exact alt_eval1 (map_eval (f := IriOrAOrCaret.iriOrA) (iriOrA_accepts h hr))
  · obtain rfl := h
    exact alt_eval1 (map_eval (f := IriOrAOrCaret.iriOrA) (iriOrA_a hr))
  · obtain ⟨_, s, rfl, rfl, h⟩ := h
    refine alt_eval2 (p := map iriOrA IriOrAOrCaret.iriOrA) (Fails.map ?_) ?_
    · exact First.cons (c := '^') rfl
    · exact map_eval (f := IriOrAOrCaret.caret) (preceded_eval char_eval (iriOrA_accepts h hr))
  · obtain rfl := h
    refine alt_eval2 (p := map iriOrA IriOrAOrCaret.iriOrA) (Fails.map ?_) ?_
    · exact First.cons (c := '^') rfl
    · exact map_eval (f := IriOrAOrCaret.caret) (preceded_eval char_eval (iriOrA_a hr))

theorem cIriOrAOrCaret_head (x : IriOrAOrCaret) (s : Str) (h : cIriOrAOrCaret x s) : ∃ c t, s = c :: t ∧ wsStart c = false ∧ c ≠ '|' := by
  rcases x with x | x <;> rcases x with i | _
  · obtain ⟨c, t, rfl, hc⟩ := cIri_toks i s h
    exact ⟨c, t, rfl, hc.ws, hc.ne (by simp)⟩
  · obtain rfl := h; exact ⟨_, _, rfl, by decide⟩
  · obtain ⟨_, s, rfl, rfl, h⟩ := h; exact ⟨_, _, rfl, by decide⟩
  · obtain rfl := h; exact ⟨_, _, rfl, by decide⟩

theorem bar_eval {b x : Str} (hb : cBar b) (hx : ¬ StartsWs x) : ∃ y, delimited sp (tag ['|']) sp (b ++ x) = .ok x y := by
  obtain ⟨w, _, rfl, hw, _, w', rfl, rfl, hw'⟩ := hb
  simp only [List.append_assoc]
  exact ⟨_, delimited_eval (sp_eval hw.1 (not_startsWs_cons rfl)) (tag_eval (t := ['|'])) (sp_eval hw' hx)⟩

theorem bar_eval' {b x : Str} (hb : cBar b) (hx : ¬ StartsWs x) : ∃ y, delimited sp (char '|') sp (b ++ x) = .ok x y := by
  obtain ⟨w, _, rfl, hw, _, w', rfl, rfl, hw'⟩ := hb
  simp only [List.append_assoc]
  exact ⟨_, delimited_eval (sp_eval hw.1 (not_startsWs_cons rfl)) char_eval (sp_eval hw' hx)⟩

theorem bar_ne {b : Str} (hb : cBar b) : b ≠ [] := by
  obtain ⟨w, _, rfl, hw, _, w', rfl, rfl, hw'⟩ := hb
  simp

theorem bar_follow {b x : Str} (hb : cBar b) : Follow (b ++ x) := by
  have := (EltEnd.bar (s := x) (r := []) hb).1
  simpa using this

theorem negated_accepts (l : List IriOrAOrCaret) (s r : Str) (h : cNegated l s) : pathNegatedPropertySet (s ++ r) = .ok r l := by
  obtain ⟨_, _, rfl, rfl, _, _, rfl, ⟨w, _, rfl, hw, x, w', rfl, hx, hw'⟩, rfl⟩ := h
  simp only [List.append_assoc]
  have hws : ∀ x s r, cIriOrAOrCaret x s → ¬ StartsWs (s ++ r) := by
    intro x s r h
    obtain ⟨c, t, rfl, hc, _⟩ := cIriOrAOrCaret_head x s h
    exact not_startsWs_cons hc
  have hx0 : ∀ y, ¬ StartsWs (x ++ y) := by
    intro y
    cases l with
    | nil => exact hx.elim
    | cons a l =>
      obtain ⟨u, v, rfl, hu, _⟩ := hx
      rw [List.append_assoc]
      exact hws _ _ _ hu
  have hend : Follow (w' ++ ')' :: r) := Follow.ws_close hw' (by simp)
  refine delimited_eval (terminated_eval (tag_eval (t := ['('])) (sp_eval hw (hx0 _)))
    (sep1_accept (E := Follow) (Sp := cBar) iriOrAOrCaret_accepts (fun a s h => ?_) (fun b a s r hb h => bar_eval' hb (hws a s r h))
      (fun b hb => bar_ne hb) (fun b a s r hb h => bar_follow hb) hend (.inl ?_) hx)
    (preceded_eval (sp_eval hw' (not_startsWs_cons rfl)) (tag_eval (t := [')'])))
  · obtain ⟨c, t, rfl, _⟩ := cIriOrAOrCaret_head a s h
    simp
  · exact Fails.delimited2 (sp_eval hw' (not_startsWs_cons rfl)) (First.cons rfl)

/-! ### Paths -/

theorem modText {m : PathMod} {t : Str} (h : cMod m t) (r : Str) : pathMod (t ++ r) = .ok r m ∧ ∃ c, t = [c] ∧ wsStart c = false := by
  cases m <;> obtain rfl := h <;> exact ⟨pathMod_eval rfl (by decide), _, rfl, rfl⟩

theorem list_ne_append {s r : Str} (h : s ≠ []) : r ≠ s ++ r := append_ne_self h

mutual
theorem primary_accepts : ∀ {p : PathPrimary} {s : Str}, CPrimary p s → (∃ c t, s = c :: t ∧ wsStart c = false ∧ c ≠ '^' ∧ c ≠ '|' ∧ c ≠ ':') ∧
    ∀ r, Follow r → pathPrimary (s ++ r) = .ok r p
  | _, _, .iri (i := i) (s := s) h => by
    refine ⟨?_, fun r hr => alt_eval1 (map_eval (f := PathPrimary.iri) (iri_accepts i s r h hr))⟩
    obtain ⟨c, t, rfl, hc⟩ := cIri_toks i s h
    exact ⟨c, t, rfl, hc.ws, hc.ne (by simp), hc.ne (by simp), hc.ne (by simp)⟩
  | _, _, .a => by
    refine ⟨⟨_, _, rfl, by decide⟩, fun r hr => alt_eval2 (Fails.map (iri_fails_word (k := c!"a") ⟨by simp, by decide⟩ hr)) ?_⟩
    exact alt_eval1 (map_eval (f := fun _ => PathPrimary.a) (tag_eval (t := c!"a")))
  | _, _, .negated (l := l) (s := s) h => by
    refine ⟨⟨_, _, rfl, by decide⟩, fun r hr => ?_⟩
    show pathPrimary ('!' :: (s ++ r)) = _
    refine alt_eval2 (p := map iri PathPrimary.iri) (Fails.map (First.cons (c := '!') rfl)) ?_
    refine alt_eval2 (p := map (tag ['a']) (fun _ => PathPrimary.a)) (Fails.map (First.cons (c := '!') rfl)) ?_
    refine alt_eval1 (p := map (preceded (tag ['!']) pathNegatedPropertySet) PathPrimary.pathNegatedPropertySet) ?_
    exact map_eval (f := PathPrimary.pathNegatedPropertySet) (preceded_eval (tag_eval (t := ['!'])) (negated_accepts l s r h))
  | _, _, .group (l := l) (s := s) h => by
    refine ⟨⟨_, _, rfl, by decide⟩, fun r hr => ?_⟩
    obtain ⟨_, h2⟩ := path_accepts h
    show pathPrimary ('(' :: ((s ++ [')']) ++ r)) = _
    rw [List.append_assoc]
    refine alt_eval2 (p := map iri PathPrimary.iri) (Fails.map (First.cons (c := '(') rfl)) ?_
    refine alt_eval2 (p := map (tag ['a']) (fun _ => PathPrimary.a)) (Fails.map (First.cons (c := '(') rfl)) ?_
    refine alt_eval2 (p := map (preceded (tag ['!']) pathNegatedPropertySet) PathPrimary.pathNegatedPropertySet)
      (Fails.map (Fails.preceded (First.cons (c := '(') rfl))) ?_
    exact map_eval (f := PathPrimary.path) (delimited_eval (tag_eval (t := ['('])) (h2 (')' :: r) (PathEnd.paren r)) (tag_eval (t := [')'])))
theorem elt_accepts : ∀ {e : PathElt} {s : Str}, CElt e s → (∃ c t, s = c :: t ∧ wsStart c = false ∧ c ≠ '^' ∧ c ≠ '|' ∧ c ≠ ':') ∧
    ∀ r, EltEnd r → pathElt (s ++ r) = .ok r e
  | _, _, .plain (p := p) (s := s) h => by
    obtain ⟨h1, h2⟩ := primary_accepts h
    exact ⟨h1, fun r hr => map_eval (a := (p, none)) (f := fun x => PathElt.mk x.1 x.2) (pair_eval (h2 r hr.1) hr.mod)⟩
  | _, _, .mod (p := p) (s := s) (w := w) (m := m) (t := t) h hw hm => by
    obtain ⟨⟨c, t', rfl, hc⟩, h2⟩ := primary_accepts h
    refine ⟨⟨c, _, rfl, hc⟩, fun r hr => ?_⟩
    obtain ⟨e1, d, rfl, hd⟩ := modText hm r
    have hd' : ¬ StartsWs (d :: r) := not_startsWs_cons hd
    have hF : Follow (w ++ ([d] ++ r)) := by
      refine Follow.ws hw.1 (.inl hw.2) hd' (notStart_cons ?_)
      cases m <;> obtain ⟨rfl, _⟩ := List.cons.inj hm <;> decide
    show pathElt (((c :: t') ++ (w ++ [d])) ++ r) = _
    simp only [List.append_assoc]
    exact map_eval (a := (p, some m)) (f := fun x => PathElt.mk x.1 x.2)
      (pair_eval (h2 _ hF) (opt_eval (preceded_eval (sp1_eval hw hd') e1)))
theorem eltOrInverse_accepts : ∀ {e : PathEltOrInverse} {s : Str}, CEltOrInverse e s → (∃ c t, s = c :: t ∧ wsStart c = false ∧ c ≠ '|' ∧ c ≠ ':') ∧
    ∀ r, EltEnd r → pathEltOrInverse (s ++ r) = .ok r e
  | _, _, .elt (e := e) (s := s) h => by
    obtain ⟨⟨c, t, rfl, hc, _, hc'⟩, h2⟩ := elt_accepts h
    exact ⟨⟨c, t, rfl, hc, hc'⟩, fun r hr => alt_eval1 (map_eval (f := PathEltOrInverse.pathElt) (h2 r hr))⟩
  | _, _, .inverse (e := e) (s := s) h => by
    obtain ⟨_, h2⟩ := elt_accepts h
    refine ⟨⟨_, _, rfl, by decide⟩, fun r hr => alt_eval2 (p := map pathElt PathEltOrInverse.pathElt) (Fails.map (First.cons (c := '^') rfl)) ?_⟩
    exact map_eval (f := PathEltOrInverse.inverse) (preceded_eval (tag_eval (t := ['^'])) (h2 r hr))
theorem path_run : ∀ {l : List PathEltOrInverse} {s : Str}, CPath l s → (∃ c t, s = c :: t ∧ wsStart c = false ∧ c ≠ '|' ∧ c ≠ ':') ∧
    ∀ r, PathEnd r → ∃ e l' j, l = e :: l' ∧ pathEltOrInverse (s ++ r) = .ok j e ∧ j ≠ s ++ r ∧
      SepRun (delimited sp (tag ['|']) sp) pathEltOrInverse j r l'
  | _, _, .one (e := e) (s := s) h => by
    obtain ⟨⟨c, t, rfl, hc, hc'⟩, h2⟩ := eltOrInverse_accepts h
    refine ⟨⟨c, t, rfl, hc, hc'⟩, fun r hr => ⟨e, [], r, rfl, h2 r hr.1, append_ne_self (by simp), ?_⟩⟩
    obtain ⟨_, _, hb⟩ := hr.2
    exact .stopSep hb
  | _, _, .cons (e := e) (s := s) (b := b) (l := l) (t := t) h hb hl => by
    obtain ⟨⟨c, u, rfl, hc, hc'⟩, h2⟩ := eltOrInverse_accepts h
    obtain ⟨⟨d, v, rfl, hd, hd'⟩, h3⟩ := path_run hl
    refine ⟨⟨c, _, rfl, hc, hc'⟩, fun r hr => ?_⟩
    obtain ⟨e', l', j, rfl, h4, h5, h6⟩ := h3 r hr
    simp only [List.append_assoc]
    refine ⟨e, e' :: l', b ++ ((d :: v) ++ r), rfl, h2 _ (EltEnd.bar hb), append_ne_self (by simp), ?_⟩
    obtain ⟨y, hy⟩ := bar_eval (x := (d :: v) ++ r) hb (not_startsWs_cons hd)
    refine .step hy (append_ne_self (bar_ne hb)) h4 ?_ h6
    intro e
    have h7 := Consumes.out _ _ _ h4
    rw [e] at h7
    simp at h7
    omega
theorem path_accepts : ∀ {l : List PathEltOrInverse} {s : Str}, CPath l s → (∃ c t, s = c :: t ∧ wsStart c = false ∧ c ≠ '|' ∧ c ≠ ':') ∧
    ∀ r, PathEnd r → pathAlternative (s ++ r) = .ok r (.mk [.mk l])
  | l, s, h => by
    obtain ⟨⟨c, t, rfl, hc, hc'⟩, h2⟩ := path_run h
    refine ⟨⟨c, t, rfl, hc, hc'⟩, fun r hr => ?_⟩
    obtain ⟨e, l', j, rfl, h4, h5, h6⟩ := h2 r hr
    have h1 : pathSequence (c :: t ++ r) = .ok r (.mk (e :: l')) :=
      map_eval (f := PathSequence.mk) (separatedNonemptyList_ok.mpr ⟨e, l', j, rfl, h4, h5, h6⟩)
    rw [pathAlternative_eq]
    obtain ⟨_, _, hb⟩ := hr.2
    exact map_eval (f := PathAlternative.mk) (separatedNonemptyList_ok.mpr ⟨_, [], r, rfl, h1, append_ne_self (by simp), .stopSep hb⟩)
end

theorem cPlainObject_toks (o : VarOrTerm) : Toks (cPlainObject o) := fun s h => cVarOrTerm_toks o s h.1

theorem path_fails_var {v : Var} {s r : Str} (h : cVar v s) : Fails pathAlternative (s ++ r) := by
  obtain ⟨t, rfl | rfl⟩ := cVar_head h <;> exact First.cons rfl

/-- Predicate and object. -/
theorem predObj_split {v o s} (h : CPredObj v o s) : ∃ x w y, s = x ++ (w ++ y) ∧ Ws1 w ∧ cVarOrTerm o y ∧
    (∃ c t, s = c :: t ∧ wsStart c = false ∧ c ≠ ':') ∧ ∀ r, terminated verbPathOrSimple sp1 (x ++ (w ++ (y ++ r))) = .ok (y ++ r) v := by
  cases h with
  | @var v o s h =>
    obtain ⟨x, _, rfl, hx, w, y, rfl, hw, hy⟩ := h
    refine ⟨x, w, y, rfl, hw, hy, ?_, fun r => ?_⟩
    · obtain ⟨c, t, rfl, hc⟩ := cVar_toks v x hx
      exact ⟨c, _, rfl, hc.ws, hc.ne (by simp)⟩
    · refine terminated_eval (alt_eval2 (Fails.map (path_fails_var hx)) (map_eval (f := VerbPathOrSimple.simple)
        (var_accepts v x _ hx (Follow.ws1_tok (cVarOrTerm_toks o) hw hy r)))) (sp1_eval hw ((cVarOrTerm_toks o).not_startsWs hy r))
  | @path l o s h =>
    obtain ⟨x, _, rfl, hx, w, y, rfl, hw, hy⟩ := h
    obtain ⟨⟨c, t, rfl, hc, _, hc'⟩, hp⟩ := path_accepts hx
    refine ⟨c :: t, w, y, rfl, hw, hy.1, ⟨c, _, rfl, hc, hc'⟩, fun r => ?_⟩
    · have hE : PathEnd (w ++ (y ++ r)) := PathEnd.of hw (cPlainObject_toks o) hy hy.2 r
      exact terminated_eval (alt_eval1 (map_eval (f := VerbPathOrSimple.path) (hp _ hE)))
        (sp1_eval hw ((cVarOrTerm_toks o).not_startsWs hy.1 r))

theorem graphNodePath_accepts (o : VarOrTerm) (s r : Str) (h : cVarOrTerm o s) (hr : Follow r) :
    graphNodePath (s ++ r) = .ok r (.varOrTerm o) := by
  rw [graphNodePath_eq]
  exact alt_eval1 (map_eval (f := GraphNodePath.varOrTerm) (varOrTerm_accepts o s r h hr))

/-- What may follow a triple pattern; with the flag, also one with further paths. -/
structure PatternEnd (b : Bool) (r : Str) : Prop where
  follow : Follow r
  stop : SepStop (spEnc (tag [';'])) graphNodePath r
  entry : Fails (preceded (many1 (spEnc (char ';'))) propertyListPathEntry) r
  comma : b = true → Fails (spEnc (tag [','])) r

theorem PatternEnd.of {b : Bool} {w x : Str} (hF : Follow (w ++ x)) (hw : Ws w) (hx : ¬ StartsWs x)
    (hs : NotStart (fun c => c = ';' ∨ (b = true ∧ c = ',')) x) : PatternEnd b (w ++ x) := by
  have key : Fails (spEnc (tag [';'])) (w ++ x) ∧ Fails (spEnc (char ';')) (w ++ x) := by
    constructor <;> refine Fails.delimited2 (sp_eval hw hx) ?_ <;> cases x with
    | nil => exact First.nil
    | cons c t => exact First.cons (by have := hs c t rfl; simp at this ⊢; exact this.1)
  refine ⟨hF, .inl key.1, Fails.preceded (Fails.many1 key.2), ?_⟩
  rintro rfl
  refine Fails.delimited2 (sp_eval hw hx) ?_
  cases x with
  | nil => exact First.nil
  | cons c t => exact First.cons (by have := hs c t rfl; simp at this ⊢; exact this.2)

/-! ### Further paths -/

theorem objects_accept {l : List VarOrTerm} {s r : Str} (h : Sep1 commaL cVarOrTerm l s) (hr : Follow r) (hc : Fails (spEnc (tag [','])) r) :
    objectList (s ++ r) = .ok r (l.map .varOrTerm) := by
  have h : Sep1 commaL cNode (l.map GraphNode.varOrTerm) s := by
    cases l with
    | nil => exact h.elim
    | cons a l =>
      obtain ⟨x, y, e, hx, hy⟩ := h
      refine ⟨x, y, e, hx, ?_⟩
      clear e hx
      induction l generalizing y with
      | nil => exact hy
      | cons b l ih => obtain ⟨u, v, e, ⟨m, n, e', hm, hn⟩, hv⟩ := hy; exact ⟨u, v, e, ⟨m, n, e', hm, hn⟩, ih _ hv⟩
  refine sep1_accept (E := Follow) graphNode_accepts (fun a s h => (cNode_toks a).ne_nil h)
    (fun w a s r hw h => comma_sep hw ((cNode_toks a).not_startsWs h r)) ?_ ?_ hr (.inl hc) h
  · rintro w ⟨w1, _, rfl, _, _, _, rfl, rfl, _⟩; simp
  · rintro _ a s r ⟨w1, _, rfl, h1, _, w2, rfl, rfl, h2⟩ _
    simp only [List.append_assoc]
    exact Follow.ws_close h1 (by simp)

theorem a_node {r : Str} (hr : Follow r) : Fails graphNodePath ('a' :: r) := by
  have hi : Fails iri ('a' :: r) := iri_fails_word (k := c!"a") ⟨by simp, by decide⟩ hr
  have hg : Fails graphTerm ('a' :: r) := Fails.alt_cons (Fails.map hi)
    (Fails.alt_cons (Fails.map (First.cons rfl)) (Fails.alt_cons (Fails.map (First.cons rfl)) (Fails.alt_cons (Fails.map (First.cons rfl))
        (Fails.alt_cons (Fails.map (First.cons rfl)) (Fails.map (First.cons rfl))))))
  rw [graphNodePath_eq]
  exact Fails.alt_cons (Fails.map (Fails.alt_cons (Fails.map (First.cons rfl)) (Fails.map hg))) (Fails.map (First.cons rfl))

theorem mod_follow {w t r : Str} {m : PathMod} (hw : Ws1 w) (ht : cMod m t) : Follow (w ++ (t ++ r)) := by
  cases m <;> obtain rfl := ht <;> exact Follow.ws hw.1 (.inl hw.2) (not_startsWs_cons rfl) (notStart_cons (by decide))

/-- A path that begins with `a`, `!` or `^` is no object. -/
theorem noObject_node {l : List PathEltOrInverse} {s r : Str} (hl : NoObject l) (h : CPath l s) (hr : Follow r) :
    (∃ c t, s = c :: t ∧ c ∈ ['a', '!', '^']) ∧ Fails graphNodePath (s ++ r) := by
  have key : ∀ {e : PathEltOrInverse} {l' : List PathEltOrInverse} {u v : Str}, CEltOrInverse e u → NoObject (e :: l') → Follow (v ++ r) →
      (∃ c t, u ++ v = c :: t ∧ c ∈ ['a', '!', '^']) ∧ Fails graphNodePath (u ++ (v ++ r)) := by
    intro e l' u v he hn hf
    cases he with
    | inverse he => exact ⟨⟨'^', _, rfl, by simp⟩, First.cons rfl⟩
    | elt he =>
      cases he with
      | plain hp =>
        cases hp with
        | a => exact ⟨⟨'a', _, rfl, by simp⟩, a_node hf⟩
        | negated _ => exact ⟨⟨'!', _, rfl, by simp⟩, First.cons rfl⟩
        | iri _ => exact hn.elim
        | group _ => exact hn.elim
      | mod hp hw ht =>
        rename_i p s w m t
        cases hp with
        | a => 
          refine ⟨⟨'a', _, rfl, by simp⟩, ?_⟩
          have := a_node (mod_follow (r := v ++ r) hw ht)
          simpa using this
        | negated _ => exact ⟨⟨'!', _, rfl, by simp⟩, First.cons rfl⟩
        | iri _ => exact hn.elim
        | group _ => exact hn.elim
  cases h with
  | one he => simpa using key (v := []) he hl hr
  | cons he hb ht =>
    rename_i e s b l t
    have := key (v := b ++ t) he hl (by rw [List.append_assoc]; exact bar_follow hb)
    simpa [List.append_assoc] using this

/-- A further path and its objects. -/
theorem pathObjects_accept {m : PathObjects} {s r : Str} (h : cPathObjects m s) (hr : Follow r) (hc : Fails (spEnc (tag [','])) r) :
    propertyListPathEntry (s ++ r) = .ok r m.ast ∧ (∃ c t, s = c :: t ∧ c ∈ ['a', '!', '^']) ∧ Fails graphNodePath (s ++ r) := by
  obtain ⟨hn, x, _, rfl, hx, w, y, rfl, hw, hy, hm⟩ := h
  simp only [List.append_assoc]
  have ht : Toks (fun t => Sep1 commaL cVarOrTerm m.objects t) := sep1_toks cVarOrTerm_toks _
  have hE : PathEnd (w ++ (y ++ r)) := PathEnd.of hw ht hy hm r
  obtain ⟨_, hp⟩ := path_accepts hx
  obtain ⟨⟨c, t, rfl, h1⟩, h2⟩ := noObject_node hn hx hE.1.1
  exact ⟨map_eval (a := (VerbPathOrSimple.path (.mk [.mk m.path]), m.objects.map GraphNode.varOrTerm)) (f := fun x => PropertyListPathEntry.mk x.1 x.2)
    (separatedPair_eval (alt_eval1 (map_eval (f := VerbPathOrSimple.path) (hp _ hE))) (sp1_eval hw (ht.not_startsWs hy r)) (objects_accept hy hr hc)),
    ⟨c, _, rfl, h1⟩, h2⟩

/-- After semicolons. -/
theorem semis_split {d x : Str} (hd : cSemis d) (hx : ¬ StartsWs x) (hs : NotStart (· = ';') x) :
    (∃ l, many1 (spEnc (char ';')) (d ++ x) = .ok x l) ∧ (∃ y a, spEnc (tag [';']) (d ++ x) = .ok y a ∧ y ≠ d ++ x ∧ (y = x ∨ ∃ t, y = ';' :: t)) ∧
      Follow (d ++ x) ∧ Fails (spEnc (tag [','])) (d ++ x) ∧ x ≠ d ++ x := by
  obtain ⟨t, w, rfl, ht, hw⟩ := hd
  have hne := semi_ne ht
  refine ⟨by rw [List.append_assoc]; exact seps_many1 rfl (plus_star ht) hne hw hx hs, ?_, ?_⟩
  · obtain ⟨_, t', rfl, ⟨w0, _, rfl, hw0, rfl⟩, ht'⟩ := ht
    obtain ⟨v, e1, e2, e3, e4⟩ := sp_strip (t' ++ (w ++ x))
    refine ⟨strip (t' ++ (w ++ x)), [';'], ?_, ?_, ?_⟩
    · simp only [List.append_assoc]
      exact delimited_eval (sp_eval hw0 (not_startsWs_cons rfl)) (tag_eval (t := [';'])) e1
    · intro e
      have h1 := congrArg List.length e
      have h2 := congrArg List.length e2
      simp at h1 h2
      omega
    · cases ht' with
      | nil => exact .inl (strip_ws hw hx)
      | cons ha hs =>
        obtain ⟨w1, _, rfl, hw1, rfl⟩ := ha
        simp only [List.append_assoc]
        exact .inr ⟨_, strip_ws hw1 (not_startsWs_cons rfl)⟩
  · obtain ⟨_, t', rfl, ⟨w0, _, rfl, hw0, rfl⟩, ht'⟩ := ht
    simp only [List.append_assoc]
    refine ⟨Follow.ws_close hw0 (by simp), Fails.delimited2 (sp_eval hw0 (not_startsWs_cons rfl)) (First.cons rfl), ?_⟩
    intro e
    have h1 := congrArg List.length e
    simp at h1
    omega

theorem more_run {l : List PathObjects} {s r : Str} (h : Many (fun m => cSemis ⬝ cPathObjects m) l s) (hr : PatternEnd true r) :
    ManyRun (preceded (many1 (spEnc (char ';'))) propertyListPathEntry) (s ++ r) r (l.map PathObjects.ast) ∧ Follow (s ++ r) ∧
      Fails (spEnc (tag [','])) (s ++ r) ∧ SepStop (spEnc (tag [';'])) graphNodePath (s ++ r) := by
  induction l generalizing s with
  | nil =>
    obtain rfl := h
    obtain ⟨_, _, e⟩ := hr.entry
    exact ⟨.stop e, hr.follow, hr.comma rfl, hr.stop⟩
  | cons m l ih =>
    obtain ⟨_, y, rfl, ⟨d, x, rfl, hd, hx⟩, hy⟩ := h
    obtain ⟨h1, h2, h3, _⟩ := ih hy
    obtain ⟨h4, ⟨c, t, rfl, hc⟩, h5⟩ := pathObjects_accept hx h2 h3
    simp only [List.append_assoc]
    have hn : ¬ StartsWs (c :: t ++ (y ++ r)) ∧ NotStart (· = ';') (c :: t ++ (y ++ r)) := by
      simp only [List.mem_cons, List.not_mem_nil, or_false] at hc
      rcases hc with rfl | rfl | rfl <;> exact ⟨not_startsWs_cons rfl, notStart_cons (by decide)⟩
    obtain ⟨⟨_, g1⟩, ⟨z, a, g2, g3, g4⟩, g5, g6, g7⟩ := semis_split hd hn.1 hn.2
    refine ⟨.step (preceded_eval g1 h4) ?_ h1, g5, g6, .inr ⟨z, a, g2, g3, ?_⟩⟩
    · intro e
      have := congrArg List.length e
      simp at this
      omega
    · rcases g4 with rfl | ⟨u, rfl⟩
      · exact h5
      · exact First.cons rfl

theorem semi1_toks (o : VarOrTerm) (x : Str) (hx : (Ws ⬝ lit c!";" ⬝ Ws ⬝ cVarOrTerm o) x) (r : Str) :
    ∃ y, spEnc (tag [';']) (x ++ r) = .ok (y ++ r) [';'] ∧ cVarOrTerm o y ∧ y ++ r ≠ x ++ r ∧ Follow (x ++ r) ∧ x ≠ [] := by
  obtain ⟨w, _, rfl, hw, _, _, rfl, rfl, w', y, rfl, hw', hy⟩ := hx
  simp only [List.append_assoc]
  refine ⟨y, delimited_eval (sp_eval hw (not_startsWs_cons rfl)) (tag_eval (t := [';'])) (sp_eval hw' ((cVarOrTerm_toks _).not_startsWs hy r)), hy, ?_,
    Follow.ws_close hw (by simp), by simp⟩
  intro e
  have := congrArg List.length e
  simp at this
  omega

/-- Objects: after the first each with a semicolon before it. -/
theorem objectsPath_run {l : List VarOrTerm} {t r : Str} (ht : Many (fun o => Ws ⬝ lit c!";" ⬝ Ws ⬝ cVarOrTerm o) l t) (hr : Follow r)
    (hs : SepStop (spEnc (tag [';'])) graphNodePath r) :
    SepRun (spEnc (tag [';'])) graphNodePath (t ++ r) r (l.map .varOrTerm) ∧ Follow (t ++ r) := by
  induction l generalizing t with
  | nil =>
    obtain rfl := ht
    refine ⟨?_, hr⟩
    rcases hs with ⟨_, _, e⟩ | ⟨_, _, e1, e2, _, _, e3⟩
    · exact .stopSep e
    · exact .stopElem e1 e2 e3
  | cons o l ih =>
    obtain ⟨x, y, rfl, hx, hy⟩ := ht
    obtain ⟨h1, h2⟩ := ih hy
    obtain ⟨z, e, hz, hn, hF, hne⟩ := semi1_toks o x hx (y ++ r)
    simp only [List.append_assoc]
    exact ⟨.step e hn (graphNodePath_accepts o z _ hz h2) (append_ne_self hne) h1, hF⟩

/-- Subject, predicate, objects with semicolons between them, further entries. -/
theorem pattern_core {o o' : VarOrTerm} {v : VerbPathOrSimple} {l : List VarOrTerm} {es : List PropertyListPathEntry} {a w y t r0 r : Str}
    (ha : cVarOrTerm o a) (hw : Ws1 w) (hy : CPredObj v o' y) (ht : Many (fun o => Ws ⬝ lit c!";" ⬝ Ws ⬝ cVarOrTerm o) l t)
    (hM : ManyRun (preceded (many1 (spEnc (char ';'))) propertyListPathEntry) r0 r es) (hF : Follow r0)
    (hs : SepStop (spEnc (tag [';'])) graphNodePath r0) :
    triplesSameSubjectPath (a ++ (w ++ (y ++ (t ++ r0)))) = .ok r (.term o (.mk v ((o' :: l).map .varOrTerm) es)) := by
  obtain ⟨x, w', z, rfl, hw', hz, ⟨c, t', e, hc, hc'⟩, hv⟩ := predObj_split hy
  obtain ⟨h1, h2⟩ := objectsPath_run ht hF hs
  have hn : ¬ StartsWs (x ++ (w' ++ (z ++ (t ++ r0)))) := by
    have : ¬ StartsWs ((c :: t') ++ (t ++ r0)) := not_startsWs_cons hc
    rw [← e] at this
    simpa [List.append_assoc] using this
  have hF : Follow (w ++ (x ++ (w' ++ (z ++ (t ++ r0))))) := by
    refine Follow.ws hw.1 (.inl hw.2) hn ?_
    have : NotStart (· = ':') ((c :: t') ++ (t ++ r0)) := notStart_cons hc'
    rw [← e] at this
    simpa [List.append_assoc] using this
  simp only [List.append_assoc]
  refine alt_eval1 (map_eval (a := (o, _)) (f := fun x => TriplesSameSubjectPath.term x.1 x.2)
    (separatedPair_eval (varOrTerm_accepts _ a _ ha hF) (sp1_eval hw hn) (map_eval
      (a := (v, (o' :: l).map GraphNodePath.varOrTerm, es)) (f := fun x => PropertyListPath.mk x.1 x.2.1 x.2.2) ?_)))
  exact tuple3_eval (hv (t ++ r0)) (separatedNonemptyList_ok.mpr ⟨_, _, t ++ r0, rfl, graphNodePath_accepts _ z _ hz h2,
    append_ne_self ((cVarOrTerm_toks _).ne_nil hz), h1⟩) (many0_ok.mpr hM)

theorem pattern_accept {b : Bool} (p : Pattern) (s r : Str) (h : cPattern p s) (hb : b = false → p.more = []) (hr : PatternEnd b r) :
    triplesSameSubjectPath (s ++ r) = .ok r p.ast := by
  obtain ⟨a, _, rfl, ha, w, _, rfl, hw, y, m, rfl, hy, hm⟩ := h
  have hM : ManyRun (preceded (many1 (spEnc (char ';'))) propertyListPathEntry) (m ++ r) r (p.more.map PathObjects.ast) ∧ Follow (m ++ r) ∧
      SepStop (spEnc (tag [';'])) graphNodePath (m ++ r) := by
    cases b with
    | true => obtain ⟨h1, h2, _, h3⟩ := more_run hm hr; exact ⟨h1, h2, h3⟩
    | false =>
      rw [hb rfl] at hm ⊢
      obtain rfl := hm
      obtain ⟨_, _, e⟩ := hr.entry
      exact ⟨.stop e, hr.follow, hr.stop⟩
  obtain ⟨h1, h2, h3⟩ := hM
  simp only [List.append_assoc]
  exact pattern_core (l := []) (t := []) ha hw hy rfl h1 h2 h3

theorem cPattern_toks (p : Pattern) : Toks (cPattern p) := by
  rintro _ ⟨a, _, rfl, ha, _⟩
  obtain ⟨c, t, rfl, hc⟩ := cVarOrTerm_toks _ a ha
  exact ⟨c, _, rfl, hc⟩

/-- The texts of a pattern given its AST; without the flag, of patterns with one object only. -/
def cPatternAst (b : Bool) (t : TriplesSameSubjectPath) : Lang := fun s => ∃ p, Pattern.ast p = t ∧ cPattern p s ∧ (b = false → p.more = [])

theorem many_map {α β : Type} {R : α → Lang} {Q : β → Lang} {f : α → β} (h : ∀ a s, R a s → Q (f a) s) :
    ∀ {l : List α} {s : Str}, Many R l s → Many Q (l.map f) s
  | [], _, hs => hs
  | _ :: _, _, ⟨x, y, e, hx, hy⟩ => ⟨x, y, e, h _ _ hx, many_map h hy⟩

theorem sep1_map {α β : Type} {R : α → Lang} {Q : β → Lang} {Sp : Lang} {f : α → β} (h : ∀ a s, R a s → Q (f a) s)
    {l : List α} {s : Str} (hs : Sep1 Sp R l s) : Sep1 Sp Q (l.map f) s := by
  cases l with
  | nil => exact hs.elim
  | cons a l =>
    obtain ⟨x, y, e, hx, hy⟩ := hs
    exact ⟨x, y, e, h _ _ hx, many_map (R := fun b => Sp ⬝ R b) (Q := fun b => Sp ⬝ Q b)
      (fun a s ⟨u, v, e, hu, hv⟩ => ⟨u, v, e, hu, h _ _ hv⟩) hy⟩

theorem cPatternAst_toks (b : Bool) (t : TriplesSameSubjectPath) : Toks (cPatternAst b t) := fun s ⟨p, _, h, _⟩ => cPattern_toks p s h

theorem sep1_mem {α : Type} {R : α → Lang} {Sp : Lang} {l : List α} {s : Str} (hs : Sep1 Sp R l s) : Sep1 Sp (fun a s => a ∈ l ∧ R a s) l s := by
  have key : ∀ (l' l : List α) (s : Str), Many (fun b => Sp ⬝ R b) l s → (∀ a ∈ l, a ∈ l') → Many (fun b => Sp ⬝ fun s => b ∈ l' ∧ R b s) l s := by
    intro l' l
    induction l with
    | nil => exact fun _ h _ => h
    | cons b l ih =>
      rintro s ⟨x, y, e, ⟨u, v, e', hu, hv⟩, hy⟩ hm
      exact ⟨x, y, e, ⟨u, v, e', hu, hm b (by simp), hv⟩, ih y hy fun a h => hm a (by simp [h])⟩
  cases l with
  | nil => exact hs
  | cons a l =>
    obtain ⟨x, y, e, hx, hy⟩ := hs
    exact ⟨x, y, e, ⟨by simp, hx⟩, key _ l y hy (by simp +contextual)⟩

/-- A block of patterns. -/
theorem patterns_accept {b : Bool} (l : List Pattern) (s r : Str) (h : cPatterns l s) (hb : b = false → ∀ p ∈ l, p.more = []) (hr : PatternEnd b r)
    (hstop : SepStop (many1 (spEnc (char '.'))) triplesSameSubjectPath r) :
    triplesBlock (s ++ r) = .ok r (.mk (l.map Pattern.ast)) := by
  refine map_eval (f := TriplesBlock.mk) (sep1_accept (E := PatternEnd b) (R := cPatternAst b) (Sp := cDots) ?_ ?_ ?_ ?_ ?_ hr hstop
    (sep1_map (fun a s h => ⟨a, rfl, h.2, fun e => hb e a h.1⟩) (sep1_mem h)))
  · rintro _ s r ⟨p, rfl, h, hb⟩ hr
    exact pattern_accept p s r h hb hr
  · exact fun a s h => (cPatternAst_toks b a).ne_nil h
  · intro w a s r hw ha
    obtain ⟨y, hy, _⟩ := cDots_eval (r := s ++ r) hw ((cPatternAst_toks b a).not_startsWs ha r) (toks_not_dot (cPatternAst_toks b a) ha r) (.inl rfl)
    exact ⟨y, hy⟩
  · rintro _ ⟨w, _, rfl, hw, _⟩ e
    simp at e
    exact hw.2 e.1
  · rintro _ a s r ⟨w, _, rfl, hw, _, x, rfl, rfl, _⟩ ha
    have hd : ¬ StartsWs ('.' :: (x ++ (s ++ r))) := not_startsWs_cons rfl
    simp only [List.append_assoc]
    exact .of (Follow.ws hw.1 (.inl hw.2) hd (notStart_cons (by decide))) hw.1 hd (notStart_cons (by simp))

theorem patterns_toks (l : List Pattern) : Toks (cPatterns l) := by
  intro s h
  cases l with
  | nil => exact h.elim
  | cons a l =>
    obtain ⟨x, y, rfl, hx, _⟩ := h
    obtain ⟨c, t, rfl, hc⟩ := cPattern_toks a x hx
    exact ⟨c, _, rfl, hc⟩

/-! ## What a term is not -/

theorem kw_sp1_split {t : Str} [KwPlain t] {i : Str} (h : Fails (terminated (tagNoCase t) sp1) i) :
    Fails (tagNoCase t) i ∨ ∃ r k, tagNoCase t i = .ok r k ∧ Fails sp1 r := by
  rcases Soft.cases (tagNoCase t) i with ⟨r, k, e⟩ | e
  · rcases Soft.cases sp1 r with ⟨r', w, e'⟩ | e'
    · exact absurd (terminated_eval e e') h.not_ok
    · exact .inr ⟨r, k, e, e'⟩
  · exact .inl e

/-- Keywords before white space fail on terms. -/
theorem cVarOrTerm_kw {a : Char} {t : Str} [KwPlain (a :: t)] (ht : ∀ c ∈ a :: t, AsciiLetter c)
    (hb : (a :: t).all (fun c => decide (KwLetter c)) = true ∧ clash (a :: t) c!"true" = true ∧ clash (a :: t) c!"false" = true)
    {o : VarOrTerm} {s : Str} (h : cVarOrTerm o s) (r : Str) : Fails (terminated (tagNoCase (a :: t)) sp1) (s ++ r) := by
  have hw : Word (a :: t) := ⟨by simp, ht⟩
  have key : ∀ c x, s = c :: x → ¬ AsciiLetter c → Fails (terminated (tagNoCase (a :: t)) sp1) (s ++ r) := by
    rintro c x rfl hc
    refine Fails.terminated ⟨_, _, tagNoCase_error fun k r' e hk => hc ?_⟩
    obtain ⟨h1, h2⟩ := caseVariant_word hk (by simp) ht
    cases k with
    | nil => contradiction
    | cons d k =>
      obtain ⟨rfl, _⟩ := List.cons.inj e
      exact h2 c (by simp)
  cases o with
  | var v => obtain ⟨x, rfl | rfl⟩ := cVar_head h <;> exact key _ _ rfl (by decide)
  | term t =>
    cases t with
    | iri i => exact cIri_kw_sp1 ht (by simp) h r
    | rdfLiteral l => obtain ⟨x, rfl | rfl⟩ := cRdfLiteral_head h <;> exact key _ _ rfl (by decide)
    | numericLiteral n =>
      obtain ⟨c, x, rfl, hc⟩ := cNumericLiteral_head h
      refine key _ _ rfl ?_
      rcases numHeads_cases hc with rfl | rfl | rfl | rfl | rfl | rfl | rfl | rfl | rfl | rfl | rfl | rfl <;> decide
    | booleanLiteral b =>
      rcases rBoolean_kw h with h | h
      · exact Fails.terminated (kw_fails h ⟨hb.1, by decide, hb.2.1⟩)
      · exact Fails.terminated (kw_fails h ⟨hb.1, by decide, hb.2.2⟩)
    | blankNode b => obtain ⟨x, rfl | rfl⟩ := cBlankNode_head h <;> exact key _ _ rfl (by decide)
    | nil => obtain ⟨x, rfl⟩ := rNil_head h; exact key _ _ rfl (by decide)

theorem cVarOrTerm_brace {o : VarOrTerm} {s : Str} (h : cVarOrTerm o s) (r : Str) : Fails (char '{') (s ++ r) := by
  obtain ⟨c, t, rfl, hc⟩ := cVarOrTerm_toks o s h
  exact char_fails (hc.ne (by simp))

/-- No pattern keyword and no group at a term. -/
theorem notTriples_fails {o : VarOrTerm} {s : Str} (h : cVarOrTerm o s) (r : Str) : Fails graphPatternNotTriples (s ++ r) := by
  refine Fails.alt_cons (Fails.map (Fails.sep1 ?_)) <|
    Fails.alt_cons (Fails.map (Fails.preceded (cVarOrTerm_kw (by decide) (by decide) h r))) <|
    Fails.alt_cons (Fails.map (Fails.preceded (cVarOrTerm_kw (by decide) (by decide) h r))) <|
    Fails.alt_cons (Fails.map (Fails.map (Fails.tuple3 (cVarOrTerm_kw (by decide) (by decide) h r)))) <|
    Fails.alt_cons (Fails.map (Fails.map (Fails.tuple4 (cVarOrTerm_kw (by decide) (by decide) h r)))) <|
    Fails.alt_cons (Fails.map (Fails.preceded (cVarOrTerm_kw (by decide) (by decide) h r))) <|
    Fails.alt_cons (Fails.map (Fails.preceded (cVarOrTerm_kw (by decide) (by decide) h r))) <|
    Fails.map (Fails.preceded (cVarOrTerm_kw (by decide) (by decide) h r))
  show Fails groupGraphPattern _
  rw [groupGraphPattern_eq]
  exact Fails.delimited (cVarOrTerm_brace h r)

theorem subSelect_fails {o : VarOrTerm} {s : Str} (h : cVarOrTerm o s) (r : Str) : Fails subSelect (s ++ r) := by
  refine Fails.map (Fails.tuple4 (Fails.map ?_))
  rcases kw_sp1_split (cVarOrTerm_kw (a := 's') (t := c!"elect") (by decide) (by decide) h r) with e | ⟨r', k, e, e'⟩
  · exact Fails.tuple3 e
  · exact Fails.pair2 e (Fails.pair2 (Fails.opt (Fails.preceded e')) (Fails.preceded e'))

/-- If the text inside the braces begins with a term and the triples block fails, so does the group. -/
theorem group_fails {o : VarOrTerm} {s r w : Str} (hw : Ws w) (h : cVarOrTerm o s) (hb : Fails triplesBlock (s ++ r)) :
    Fails groupGraphPattern ('{' :: (w ++ (s ++ r))) := by
  have hn := (cVarOrTerm_toks o).not_startsWs h r
  have hc : Fails (char '}') (s ++ r) := by
    obtain ⟨c, t, rfl, hc⟩ := cVarOrTerm_toks o s h
    exact char_fails (hc.ne (by simp))
  have hs : groupGraphPatternSub (s ++ r) = .ok (s ++ r) (.mk none []) :=
    map_eval (a := (none, [])) (f := fun x => GroupGraphPatternSub.mk x.1 x.2)
      (pair_eval (Fails.opt (Fails.terminated hb)) (Fails.sep0 (Fails.map (Fails.separatedPair (notTriples_fails h r)))))
  have h2 : alt [map (subSelectS R₀) GroupGraphPattern.subSelect, map (groupGraphPatternSubS R₀) .groupGraphPatternSub] (s ++ r) =
      .ok (s ++ r) (.groupGraphPatternSub (.mk none [])) :=
    alt_eval2 (Fails.map (subSelect_fails h r)) (map_eval (f := GroupGraphPattern.groupGraphPatternSub) hs)
  rw [groupGraphPattern_eq]
  exact Fails.delimited3 char_eval (delimited_eval (sp_eval hw hn) h2 (sp_zero hn)) hc

end NomSparql
