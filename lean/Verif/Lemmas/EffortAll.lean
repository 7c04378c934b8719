import Verif.Lemmas.EffortLex
import Verif.Lemmas.Dead

/-!
# Effort: rules for the parsers of queries

Every parser of Model/Cost satisfies `Lin` with small constants, given that the two recursive ones do; the class `RecLin` collects what is
used of those.
-/

namespace NomSparql.Cost

set_option synthInstance.maxSize 4000
set_option synthInstance.maxHeartbeats 400000

/-! ## Leaves -/

instance {W : Nat} {c : Char} : Lin W W 0 NoD (char c) := inferInstanceAs (Lin W W 0 NoD (lift (NomSparql.char c)))
instance {W : Nat} {c : Char} {t : Str} : Lin W W 0 NoD (tag (c :: t)) := inferInstanceAs (Lin W W 0 NoD (lift (NomSparql.tag (c :: t))))
instance {W : Nat} {c : Char} {t : Str} : Lin W W 0 NoD (tagNoCase (c :: t)) := inferInstanceAs (Lin W W 0 NoD (lift (NomSparql.tagNoCase (c :: t))))
instance {W : Nat} {c : Char} {t : Str} : Lin W W 0 NoD (tagNoCaseStreaming (c :: t)) :=
  inferInstanceAs (Lin W W 0 NoD (lift (NomSparql.tagNoCaseStreaming (c :: t))))
instance {W : Nat} : Lin W W 0 NoD var := inferInstanceAs (Lin W W 0 NoD (lift NomSparql.var))
instance {W : Nat} : Lin W W 0 NoD iri := inferInstanceAs (Lin W W 0 NoD (lift NomSparql.iri))
instance {W : Nat} : Lin W W 0 NoD nil := inferInstanceAs (Lin W W 0 NoD (lift NomSparql.nil))
instance {W : Nat} : Lin W W 0 NoD stringLiteral := inferInstanceAs (Lin W W 0 NoD (lift NomSparql.stringLiteral))
instance {W : Nat} : Lin W W 0 NoD rdfLiteral := inferInstanceAs (Lin W W 0 NoD (lift NomSparql.rdfLiteral))
instance {W : Nat} : Lin W W 0 NoD numericLiteral := inferInstanceAs (Lin W W 0 NoD (lift NomSparql.numericLiteral))
instance {W : Nat} : Lin W W 0 NoD boolean := inferInstanceAs (Lin W W 0 NoD (lift NomSparql.boolean))
instance {W : Nat} : Lin W W 0 NoD varOrIri := inferInstanceAs (Lin W W 0 NoD (lift NomSparql.varOrIri))
instance {W : Nat} : Lin W W 0 NoD inlineData := inferInstanceAs (Lin W W 0 NoD (lift NomSparql.inlineData))
instance {W : Nat} : Lin W W 0 NoD triplesBlock := inferInstanceAs (Lin W W 0 NoD (lift NomSparql.triplesBlock))
instance {W : Nat} : Lin W W 0 NoD limitOffsetClause := inferInstanceAs (Lin W W 0 NoD (lift NomSparql.limitOffsetClause))
instance {W : Nat} : Lin W W 0 NoD comma := inferInstanceAs (Lin W W 0 NoD (lift NomSparql.comma))
instance {W : Nat} : Lin W W 0 NoD separatorEq := inferInstanceAs (Lin W W 0 NoD (lift NomSparql.separatorEq))
instance {W : Nat} : Lin W W 0 NoD order := inferInstanceAs (Lin W W 0 NoD (lift NomSparql.order))
instance {W : Nat} : Lin W W 0 NoD selectModifier := inferInstanceAs (Lin W W 0 NoD (lift NomSparql.selectModifier))
instance {W : Nat} : Lin W W 0 NoD varOrIrisOrAll := inferInstanceAs (Lin W W 0 NoD (lift NomSparql.varOrIrisOrAll))
instance {W : Nat} : Lin W W 0 NoD constructTemplate := inferInstanceAs (Lin W W 0 NoD (lift NomSparql.constructTemplate))
instance {W : Nat} : Lin W W 0 NoD triplesTemplate := inferInstanceAs (Lin W W 0 NoD (lift NomSparql.triplesTemplate))
instance {W : Nat} : Lin W W 0 NoD sp1 := inferInstanceAs (Lin W W 0 NoD (lift NomSparql.sp1))
instance {W : Nat} : Lin W W 0 NoD datablock := inferInstanceAs (Lin W W 0 NoD (lift NomSparql.datablock))
instance {W : Nat} : Lin W 0 0 NoD sp := inferInstanceAs (Lin W 0 0 NoD (lift NomSparql.sp))
instance {W : Nat} : Lin W 0 0 NoD valuesClause := inferInstanceAs (Lin W 0 0 NoD (lift NomSparql.valuesClause))
instance {W : Nat} : Lin W 0 0 NoD optDistinct := inferInstanceAs (Lin W 0 0 NoD (lift NomSparql.optDistinct))
instance {W : Nat} : Lin W 0 0 NoD optSilent := inferInstanceAs (Lin W 0 0 NoD (lift NomSparql.optSilent))
instance {W : Nat} : Lin W 0 0 NoD dataSetClauses := inferInstanceAs (Lin W 0 0 NoD (lift NomSparql.dataSetClauses))
instance {W : Nat} : Lin W 0 0 NoD prologue := inferInstanceAs (Lin W 0 0 NoD (lift NomSparql.prologue))

instance {F} [First NomSparql.var F] : KFirst var F := inferInstanceAs (KFirst (lift NomSparql.var) F)
instance {F} [First NomSparql.iri F] : KFirst iri F := inferInstanceAs (KFirst (lift NomSparql.iri) F)
instance {F} [First NomSparql.nil F] : KFirst nil F := inferInstanceAs (KFirst (lift NomSparql.nil) F)
instance {F} [First NomSparql.stringLiteral F] : KFirst stringLiteral F := inferInstanceAs (KFirst (lift NomSparql.stringLiteral) F)
instance {F} [First NomSparql.rdfLiteral F] : KFirst rdfLiteral F := inferInstanceAs (KFirst (lift NomSparql.rdfLiteral) F)
instance {F} [First NomSparql.numericLiteral F] : KFirst numericLiteral F := inferInstanceAs (KFirst (lift NomSparql.numericLiteral) F)
instance {F} [First NomSparql.boolean F] : KFirst boolean F := inferInstanceAs (KFirst (lift NomSparql.boolean) F)
instance {F} [First NomSparql.varOrIri F] : KFirst varOrIri F := inferInstanceAs (KFirst (lift NomSparql.varOrIri) F)
instance {F} [First NomSparql.inlineData F] : KFirst inlineData F := inferInstanceAs (KFirst (lift NomSparql.inlineData) F)
instance {F} [First NomSparql.triplesBlock F] : KFirst triplesBlock F := inferInstanceAs (KFirst (lift NomSparql.triplesBlock) F)
instance {F} [First NomSparql.limitOffsetClause F] : KFirst limitOffsetClause F := inferInstanceAs (KFirst (lift NomSparql.limitOffsetClause) F)
instance {F} [First NomSparql.comma F] : KFirst comma F := inferInstanceAs (KFirst (lift NomSparql.comma) F)
instance {F} [First NomSparql.separatorEq F] : KFirst separatorEq F := inferInstanceAs (KFirst (lift NomSparql.separatorEq) F)
instance {F} [First NomSparql.order F] : KFirst order F := inferInstanceAs (KFirst (lift NomSparql.order) F)
instance {F} [First NomSparql.selectModifier F] : KFirst selectModifier F := inferInstanceAs (KFirst (lift NomSparql.selectModifier) F)
instance {F} [First NomSparql.varOrIrisOrAll F] : KFirst varOrIrisOrAll F := inferInstanceAs (KFirst (lift NomSparql.varOrIrisOrAll) F)
instance {F} [First NomSparql.constructTemplate F] : KFirst constructTemplate F := inferInstanceAs (KFirst (lift NomSparql.constructTemplate) F)
instance {F} [First NomSparql.triplesTemplate F] : KFirst triplesTemplate F := inferInstanceAs (KFirst (lift NomSparql.triplesTemplate) F)
instance {F} [First NomSparql.sp1 F] : KFirst sp1 F := inferInstanceAs (KFirst (lift NomSparql.sp1) F)
instance {F} [First NomSparql.datablock F] : KFirst datablock F := inferInstanceAs (KFirst (lift NomSparql.datablock) F)
instance {c : Char} {t : Str} [KwTag (c :: t)] : KFirst (tagNoCaseStreaming (c :: t)) (fun d => lower d == lower c) where
  out i hi := ⟨Nat.le_refl _, fun r a e => by
    have e : NomSparql.tagNoCaseStreaming (c :: t) i = .ok r a := e
    have h1 := NomSparql.tagNoCase_ok_iff.mpr (tagNoCaseStreaming_ok_iff.mp e)
    obtain ⟨_, _, h2⟩ := First.out (p := NomSparql.tagNoCase (c :: t)) i hi
    rw [h1] at h2; cases h2⟩

open Lean Meta Elab Command in
/-- `kfirst! f g ...` derives `KFirst f F` by unfolding `f`. -/
elab "kfirst! " ns:ident* : command => do
  for n in ns do
    liftTermElabM do
      let name ← resolveGlobalConstNoOverload n
      let info ← getConstInfo name
      let val := info.value!
      let (ty, prf) ← lambdaTelescope val fun xs body => do
        let app := mkAppN (mkConst name) xs
        let α := (← inferType body).consumeMData
        let α := match α with
          | .app (.const ``K _) a => a
          | _ => α
        let F ← mkFreshExprMVar (← mkArrow (mkConst ``Char) (mkConst ``Bool))
        let inst ← synthInstance (mkAppN (mkConst ``KFirst) #[α, body, F])
        let F ← instantiateMVars F
        let instTy ← whnfR (← inferType inst)
        let F := if F.hasMVar then instTy.getAppArgs[2]! else F
        let ty := mkAppN (mkConst ``KFirst) #[α, app, F]
        return (← mkForallFVars xs ty, ← mkLambdaFVars xs inst)
      let declName := name ++ `kfirst
      addDecl (.thmDecl { name := declName, levelParams := [], type := ty, value := prf })
      addInstance declName .global (eval_prio default)

instance {p : K α} : KFirst (bracketted3 p) (· == '(') := inferInstanceAs (KFirst (bracketted _) _)
kfirst! expressionAsVarOptS expressionAsVarS expressionListS brackettedExpressionS bindS brackettedExpr3S
  regexExpressionS substringExpressionS strReplaceExpressionS argListS functionCallS iriOrFunS countS
  groupConcatS aggregateS builtInCall1S builtInCall2S builtInCallS primaryExpressionS unaryExpressionS
  multExpressionS multiplicativeExpressionS addExpressionS additiveExpressionS opExpressionS relationalExpressionS
  conditionalAndExpressionS expressionStep constraintS filterS orderExpressionS orderConditionS
  groupConditionS groupClauseS orderClauseS havingClauseS varOrExpressionAsVarS selectVarsS
  selectClauseS subSelectS optionalGroupGraphPatternS minusGraphPatternS graphGraphPatternS
  serviceGraphPatternS groupGraphPatternStep

/-! ## Dirty rests -/

section
variable {W : Nat} {k b k' b' : Int} {D D' : Input → Prop} {c : Nat} {p : K α} {q : K β} {i : Input} {F : Char → Bool} {L : List Char}

theorem Lin.lit (h : Lin W k b D p) (hk : 4 ≤ (W : Int) → k' ≤ k) (hb : 4 ≤ (W : Int) → b ≤ b') (hD : ∀ r, D r → D' r) : Lin W k' b' D' p where
  ok hw e := by
    have h4 : 4 ≤ (W : Int) := Int.ofNat_le.mpr hw.four
    have := hk h4
    have := hb h4
    rcases h.ok hw e with h1 | ⟨h1, h2⟩
    · exact .inl (by omega)
    · exact .inr ⟨hD _ h1, by omega⟩
  err hw e := by
    have := hb (Int.ofNat_le.mpr hw.four)
    have := h.err hw e
    omega

/-- A parser that makes no calls. -/
theorem Lin.free [KGood p] (h : ∀ i, (p i).2 = 0) : Lin W 0 0 D p where
  ok {i _ _} _ e := by
    have := sz_le (W := W) (KGood.le e)
    rw [h i]
    left
    omega
  err {i _} _ _ := by
    have := sz_nonneg (W := W) (i := i)
    rw [h i]
    omega

theorem Aft.idle [KFirst p F] (hL : ∀ c ∈ L ++ [' ', '\t', '\r', '\n', '#'], F c = false) : Idle 0 (Aft L) D' p := Dead.idle fun _ h => KFirst.aft h hL
theorem Hd.idle [KFirst p F] (hL : ∀ c ∈ L, F c = false) : Idle 0 (Hd L) D' p := Dead.idle fun _ h => KFirst.hd h hL

theorem sp_idle : Idle 0 (Aft L) (Hd L) sp := Idle.lift fun i r a h e => by
  obtain ⟨r', w, e', h', _⟩ := h.skip
  rw [e'] at e; cases e; exact h'

theorem Aft.dead_sp [KFirst p F] (h : Aft L i) (hL : ∀ c ∈ L, F c = false) : Dead 0 (pair sp p) i := .pair2 fun r a e => by
  obtain ⟨r', w, e', h', _⟩ := h.skip
  rw [e'] at e; cases e
  exact KFirst.hd h' hL

theorem Aft.dead_sp1 [KFirst p F] (h : Aft L i) (hL : ∀ c ∈ L, F c = false) : Dead 0 (pair sp1 p) i := .pair2 fun r a e => by
  obtain ⟨rfl, hw, hn⟩ := sp1_ok_iff.mp e
  obtain ⟨r', w, e', h', _⟩ := h.skip
  rw [sp_eval hw.1 hn] at e'; cases e'
  exact KFirst.hd h' hL

theorem Dead.term (h : Dead c p i) : Dead c (terminated p q) i := .map (.pair h)

/-- White space after a parser. -/
instance [KGood p] [h : Lin W k b (Aft L) p] : Lin W k (max b (0 - 2 * k)) (Hd L) (terminated p sp) := by
  have h1 : Lin W 0 0 (Hd L) sp := Lin.weaken (inferInstance : Lin W 0 0 NoD sp) (Int.le_refl _) (Int.le_refl _) fun _ h => h.elim
  have h2 : Idle 0 (Aft L) (Hd L) sp := sp_idle
  have h3 := Lin.seq (h := h) (h' := h1) (hi := h2)
  have h4 : Lin W _ _ (Hd L) (map (pair p sp) Prod.fst) := inferInstance
  exact Lin.weaken (p := map (pair p sp) Prod.fst) h4 (by omega) (by omega) fun _ h => h

theorem separatedList_dead {s : K γ} (h : Dead c p i) : (separatedList s p i).2 ≤ c ∧ ∀ r a, (separatedList s p i).1 = .ok r a → r = i := by
  have h1 := h.1
  constructor
  · show listCost s p i ≤ c
    unfold listCost
    split
    · omega
    · rename_i e; exact absurd e (h.2 _ _)
  · intro r a e
    have e : NomSparql.separatedList (erase s) (erase p) i = .ok r a := e
    unfold NomSparql.separatedList at e
    rw [show erase p i = (p i).1 from rfl] at e
    split at e
    · cases e; rfl
    · cases e
    · rename_i e'; exact absurd e' (h.2 _ _)

/-- An alternative that is dead does not matter. -/
def Like (p q : K α) (i : Input) : Prop := (p i).2 ≤ (q i).2 ∧ ∀ r a, (p i).1 = .ok r a → (q i).1 = .ok r a

theorem Like.trans {p q s : K α} (h : Like p q i) (h' : Like q s i) : Like p s i := ⟨Nat.le_trans h.1 h'.1, fun _ _ e => h'.2 _ _ (h.2 _ _ e)⟩
theorem Like.refl {p : K α} : Like p p i := ⟨Nat.le_refl _, fun _ _ e => e⟩
theorem alt_skip {p q : K α} {qs : List (K α)} (h : Dead 0 p i) : Like (alt (p :: q :: qs)) (alt (q :: qs)) i := by
  have h1 := h.1
  rcases alt_cases (p := p) (p₂ := q) (ps := qs) i with ⟨_, h3, h4⟩ | ⟨_, h3, h4⟩
  · exact ⟨by omega, fun _ _ e => h3 ▸ e⟩
  · exact ⟨by omega, fun _ _ e => absurd (h3 ▸ e) (h.2 _ _)⟩
theorem alt_head {p q : K α} {qs : List (K α)} (h : Dead 0 (alt (q :: qs)) i) : Like (alt (p :: q :: qs)) p i := by
  have h1 := h.1
  rcases alt_cases (p := p) (p₂ := q) (ps := qs) i with ⟨_, h3, h4⟩ | ⟨_, h3, h4⟩
  · exact ⟨by omega, fun _ _ e => absurd (h3 ▸ e) (h.2 _ _)⟩
  · exact ⟨by omega, fun _ _ e => h3 ▸ e⟩

/-- Alternatives of which at most one matters. -/
theorem Lin.excl {p q : K α} {qs : List (K α)} (h : Lin W k b D p) (h' : Lin W k b D (alt (q :: qs))) (ex : ∀ i, Dead 0 p i ∨ Dead 0 (alt (q :: qs)) i) :
    Lin W k b D (alt (p :: q :: qs)) where
  ok {i r a} hw e := by
    rcases ex i with h1 | h1
    · obtain ⟨h2, h3⟩ := alt_skip (q := q) (qs := qs) h1
      rcases h'.ok hw (h3 _ _ e) with h4 | ⟨h4, h5⟩
      · exact .inl (by omega)
      · exact .inr ⟨h4, by omega⟩
    · obtain ⟨h2, h3⟩ := alt_head (p := p) h1
      rcases h.ok hw (h3 _ _ e) with h4 | ⟨h4, h5⟩
      · exact .inl (by omega)
      · exact .inr ⟨h4, by omega⟩
  err {i e} hw e' := by
    rcases alt_cases (p := p) (p₂ := q) (ps := qs) i with ⟨⟨pos, x, e1⟩, h1, h2⟩ | ⟨_, h1, h2⟩
    · rw [h1] at e'
      have h5 := h'.err hw e'
      have h6 := h.err hw e1
      rcases ex i with h3 | h3 <;> have := h3.1 <;> omega
    · rw [h1] at e'
      have h6 := h.err hw e'
      rw [h2]
      omega

end

/-! ## The recursive parsers -/

abbrev mulL : List Char := ['*', '/']
abbrev addL : List Char := mulL ++ ['+', '-', '.', '0', '1', '2', '3', '4', '5', '6', '7', '8', '9']
abbrev relL : List Char := addL ++ ['=', '!', '<', '>']
abbrev andL : List Char := relL ++ ['&']
abbrev deL : List Char := andL ++ ['|']
abbrev De : Input → Prop := Aft deL

class RecLin (R : Rec) : Prop where
  expr : ∀ W, Lin W 2 3 De R.expr
  ggp : ∀ W, Lin W 4 1 NoD R.ggp
  close : ∀ s, Dead 1 R.expr (')' :: s)
  unit : ∀ w s, Ws w → Dead 2 R.expr ('(' :: (w ++ ')' :: s))
  brace : ∀ i, NoHead (· == '{') i → Dead 1 R.ggp i
  shift : ∀ w x r a, Ws w → ¬ StartsWs x → (R.expr (w ++ x)).1 = .ok r a → (R.expr x).1 = .ok r a ∧ (R.expr x).2 = (R.expr (w ++ x)).2

section
variable {R : Rec} [KRecGood R] [RecLin R] {W : Nat} {D' : Input → Prop}

instance : Lin W 2 3 De R.expr := RecLin.expr W
instance : Lin W 4 1 NoD R.ggp := RecLin.ggp W

/-! What cannot follow an expression that was left off. -/

instance : Idle 0 De D' (char ')') := Aft.idle (by decide)
instance : Idle 0 (Hd deL) D' (char ')') := Hd.idle (by decide)
instance comma_idle : Idle 0 De D' comma := Dead.idle fun _ h => ⟨Nat.le_refl _, fun r a e => by
  obtain ⟨r', w, e', h', _⟩ := h.skip
  obtain ⟨_, _, e2⟩ := Fails.delimited2 (q := NomSparql.char ',') (s := NomSparql.sp) e' (h'.fails (by decide))
  have e : NomSparql.comma _ = .ok r a := e
  unfold NomSparql.comma NomSparql.spEnc at e
  rw [e] at e2; cases e2⟩
instance : Idle 0 De D' (spEnc1 (tagNoCase c!"as")) := Dead.idle fun _ h => .map (Aft.dead_sp1 (p := terminated (tagNoCase c!"as") sp1) h (by decide))

end

/-! ## Built-in calls -/

section
variable {R : Rec} [KRecGood R] [RecLin R] {W : Nat} {D' : Input → Prop}

instance : Lin W 6 3 De (exprPairS R) := Lin.lit (p := separatedPair R.expr comma R.expr) inferInstance (by omega) (by omega) fun _ h => h
instance : Lin W 2 3 De (distinctExpressionS R) := Lin.lit (p := map (pair optDistinct R.expr) _) inferInstance (by omega) (by omega) fun _ h => h
instance : Lin W 3 0 NoD (brackettedExpressionS R) := Lin.lit (p := bracketted (spEnc R.expr)) inferInstance (by omega) (by omega) fun _ h => h

/-- After the last optional argument. -/
abbrev De' : Input → Prop := Aft (',' :: deL)
instance : Idle 0 De' D' (char ')') := Aft.idle (by decide)

omit [KRecGood R] [RecLin R] in
theorem Aft.of_comma {i r : Input} {a} (e : NomSparql.comma i = .ok r a) : Aft [','] i := by
  unfold NomSparql.comma NomSparql.spEnc at e
  simp only [NomSparql.delimited, NomSparql.preceded_ok, NomSparql.terminated_ok, NomSparql.sp_ok_iff, NomSparql.char_ok] at e
  obtain ⟨r1, w, ⟨rfl, hw, _⟩, r2, _, ⟨rfl, rfl⟩, _⟩ := e
  exact ⟨w, ',', _, rfl, hw, by simp, rfl⟩

instance optArg_lin : Lin W 0 0 De' (opt (preceded comma R.expr)) := by
  have h : Lin W (W + 2) 0 De (preceded comma R.expr) := Lin.lit inferInstance (by omega) (by omega) fun _ h => h
  refine Lin.weaken (Lin.opt (c := 0) (D' := De') h (by omega) (fun _ h => Aft.mono h (by simp)) fun i pos x e => ?_) (by omega) (by omega) fun _ h => h
  cases e' : NomSparql.comma i with
  | ok r a => exact .inr (Aft.mono (Aft.of_comma e') (by simp))
  | err y =>
    left
    have : Dead 0 (preceded comma R.expr) i := .map (.pair ⟨Nat.le_refl _, fun r a e => by
      have e : NomSparql.comma i = .ok r a := e
      rw [e'] at e; cases e⟩)
    exact this.1
instance optArg_idle : Idle 0 De De' (opt (preceded comma R.expr)) :=
  Idle.weaken (D := De) (D' := De) (inferInstance : Idle 0 De De (opt (preceded comma R.expr))) (Nat.le_refl _) (fun _ h => h) fun _ h => Aft.mono h (by simp)

instance : Lin W 3 0 NoD (brackettedExpr3S R) :=
  Lin.lit (p := bracketted (tuple3 R.expr (preceded comma R.expr) (opt (preceded comma R.expr)))) inferInstance (by omega) (by omega) fun _ h => h
instance : Lin W 3 0 NoD (strReplaceExpressionS R) :=
  Lin.lit (p := map (bracketted (tuple4 R.expr (preceded comma R.expr) (preceded comma R.expr) (opt (preceded comma R.expr)))) _) inferInstance
    (by omega) (by omega) fun _ h => h

/-! Lists of expressions are never read. -/

omit [KRecGood R] [RecLin R] in
theorem expressionListS_free (i : Input) : (expressionListS R i).2 = 0 := by
  unfold expressionListS
  rcases alt_cases (p := map nil (fun _ => ExpressionList.nil)) (p₂ := map (delimited (char '(') (separatedNonemptyList comma R.expr) (char ')')) ExpressionList.list)
    (ps := []) i with ⟨⟨pos, x, e⟩, _, h⟩ | ⟨_, _, h⟩
  · rw [h]
    have e := map_err e
    have h0 : (map nil (fun _ => ExpressionList.nil) i).2 = 0 := rfl
    rw [h0, Nat.zero_add]
    have : Dead 0 (alt [map (delimited (char '(') (separatedNonemptyList comma R.expr) (char ')')) ExpressionList.list]) i := by
      refine KFirst.out (F := (· == '(')) i fun d s e' => ?_
      subst e'
      cases hd : d == '(' with
      | false => exact hd
      | true =>
        exfalso
        simp only [beq_iff_eq] at hd
        subst hd
        exact nil_hard _ ⟨_, _, e⟩
    exact Nat.le_zero.mp this.1
  · rw [h]; rfl

omit [KRecGood R] [RecLin R] in
theorem argListS_free (i : Input) : (argListS R i).2 = 0 := by
  unfold argListS
  rcases alt_cases (p := map nil (fun _ => ArgList.nil)) (p₂ := map (delimited (terminated (char '(') sp)
        (pair optDistinct (separatedNonemptyList comma R.expr)) (char ')')) (fun x => ArgList.expression x.1 x.2))
    (ps := []) i with ⟨⟨pos, x, e⟩, _, h⟩ | ⟨_, _, h⟩
  · rw [h]
    have e := map_err e
    have h0 : (map nil (fun _ => ArgList.nil) i).2 = 0 := rfl
    rw [h0, Nat.zero_add]
    have : Dead 0 (alt [map (delimited (terminated (char '(') sp)
        (pair optDistinct (separatedNonemptyList comma R.expr)) (char ')')) (fun x => ArgList.expression x.1 x.2)]) i := by
      refine KFirst.out (F := (· == '(')) i fun d s e' => ?_
      subst e'
      cases hd : d == '(' with
      | false => exact hd
      | true =>
        exfalso
        simp only [beq_iff_eq] at hd
        subst hd
        exact nil_hard _ ⟨_, _, e⟩
    exact Nat.le_zero.mp this.1
  · rw [h]; rfl

instance : Lin W 0 0 NoD (expressionListS R) := Lin.free expressionListS_free
instance : Lin W 0 0 NoD (argListS R) := Lin.free argListS_free
instance : Lin W W 0 NoD (functionCallS R) := Lin.lit (p := map (separatedPair iri sp (argListS R)) _) inferInstance (by omega) (by omega) fun _ h => h
omit [KRecGood R] [RecLin R] in
theorem optArgList_free (i : Input) : (opt (preceded sp1 (argListS R)) i).2 = 0 := by
  exact Nat.le_zero.mp (pair_bound (p := sp1) (q := argListS R) (i := i) (a := 0) (b := 0) (Nat.le_refl _) fun r _ _ => Nat.le_of_eq (argListS_free r))
instance : Lin W 0 0 NoD (opt (preceded sp1 (argListS R))) := Lin.free optArgList_free
instance : Lin W W 0 NoD (iriOrFunS R) := Lin.lit (p := map (pair iri (opt (preceded sp1 (argListS R)))) _) inferInstance (by omega) (by omega) fun _ h => h
instance : Lin W 3 0 NoD (substringExpressionS R) := Lin.lit (p := map (precededTag1 c!"substr" (brackettedExpr3S R)) _) inferInstance (by omega) (by omega) fun _ h => h

end

/-! ### Keywords -/

section
variable {W : Nat} {p : K α} {q : K β}

/-- A parser that begins with one of the keywords `ts`. -/
structure Kws (W : Nat) (ts : List Str) (p : K α) : Prop where
  lin : Lin W 3 0 NoD p
  plain : ∀ t ∈ ts, ∀ c ∈ t, KwLetter c
  word : ∀ i, (∀ t ∈ ts, ¬ At t i) → Dead 0 p i
  call : ∀ i, (∀ t ∈ ts, ¬ Call t i) → Dead 1 p i

theorem Kws.map {ts : List Str} (h : Kws W ts p) (f : α → β) : Kws W ts (map p f) where
  lin := have := h.lin; inferInstance
  plain := h.plain
  word i hi := (h.word i hi).map
  call i hi := (h.call i hi).map

theorem Kws.one {ts : List Str} (h : Kws W ts p) : Kws W ts (alt [p]) where
  lin := have := h.lin; inferInstance
  plain := h.plain
  word i hi := h.word i hi
  call i hi := h.call i hi

/-- At most one of the words is there. -/
theorem Kws.cases {ts us : List Str} {p : K α} {q : K β} (h : Kws W ts p) (h' : Kws W us q) (hd : ∀ t ∈ ts, ∀ u ∈ us, t ≠ u) (i : Input) :
    Dead 0 p i ∨ Dead 0 q i := by
  by_cases hi : ∃ t ∈ ts, At t i
  · obtain ⟨t, ht, hi⟩ := hi
    exact .inr (h'.word i fun u hu hu' => hd t ht u hu (hi.inj hu' (h.plain t ht) (h'.plain u hu)))
  · exact .inl (h.word i fun t ht h1 => hi ⟨t, ht, h1⟩)

theorem Kws.cons {ts us : List Str} {p q : K α} {qs : List (K α)} (h : Kws W ts p) (h' : Kws W us (alt (q :: qs))) (hd : ∀ t ∈ ts, ∀ u ∈ us, t ≠ u) :
    Kws W (ts ++ us) (alt (p :: q :: qs)) where
  lin := Lin.excl h.lin h'.lin (h.cases h' hd)
  plain t ht := (List.mem_append.mp ht).elim (h.plain t) (h'.plain t)
  word i hi := (h.word i fun t ht => hi t (by simp [ht])).alt (h'.word i fun t ht => hi t (by simp [ht]))
  call i hi := by
    have h1 := h.call i fun t ht => hi t (by simp [ht])
    have h2 := h'.call i fun t ht => hi t (by simp [ht])
    rcases h.cases h' hd i with h3 | h3
    · exact (h3.alt h2).mono (by omega)
    · exact (h1.alt h3).mono (by omega)

theorem Kws.br {c : Char} {t : Str} [ht : KwTag (c :: t)] [KGood p] {k b : Int} {D : Input → Prop} (h : Lin W k b D p) (hk : 4 ≤ (W : Int) → 0 ≤ k)
    (hb : 4 ≤ (W : Int) → b ≤ 4) (hp : ∀ d ∈ c :: t, KwLetter d) (hi : Idle 0 D NoD (char ')')) :
    Kws W [c :: t] (precededBracketted (c :: t) p) where
  lin := by
    have h1 : Lin W (W + (k + W)) 0 NoD (bracketted p) := Lin.lit inferInstance (by omega) (by omega) fun _ h => h
    exact Lin.lit inferInstance (by omega) (by omega) fun _ h => h
  plain := by simpa using hp
  word i hi := .wordB (hi _ (by simp))
  call i hi := (Dead.callB (hi _ (by simp))).mono (by omega)

theorem Kws.tag1 {c : Char} {t : Str} [ht : KwTag (c :: t)] [KGood p] {F : Char → Bool} [KFirst p F] (h : Lin W 0 4 NoD p) (hF : ∀ d, F d = true → d ∈ ['{', '('])
    (hp : ∀ d ∈ c :: t, KwLetter d) : Kws W [c :: t] (precededTag1 (c :: t) p) where
  lin := Lin.lit inferInstance (by omega) (by omega) fun _ h => h
  plain := by simpa using hp
  word i hi := .word1 (hi _ (by simp))
  call i hi := (Dead.call1 (hi _ (by simp)) hF).mono (by omega)

end

/-! ### `STRLEN` -/

theorem strlen_lower {k : Str} (h : CaseVariant c!"strlen" k) : k.length = 6 ∧ k.map Char.toLower = c!"strlen" := by
  obtain ⟨a, _, rfl, ha, h⟩ := CaseVariant.cons_iff.mp h
  obtain ⟨b, _, rfl, hb, h⟩ := CaseVariant.cons_iff.mp h
  obtain ⟨c, _, rfl, hc, h⟩ := CaseVariant.cons_iff.mp h
  obtain ⟨d, _, rfl, hd, h⟩ := CaseVariant.cons_iff.mp h
  obtain ⟨e, _, rfl, he, h⟩ := CaseVariant.cons_iff.mp h
  obtain ⟨f, _, rfl, hf, h⟩ := CaseVariant.cons_iff.mp h
  cases h
  refine ⟨rfl, ?_⟩
  have g : ∀ x y, SameLetter x y → (x.toLower == x && (upperOf x).toLower == x) = true → y.toLower = x := by
    intro x y h h'
    simp only [Bool.and_eq_true, beq_iff_eq] at h'
    rcases sameLetter_cases h with rfl | rfl
    · exact h'.1
    · exact h'.2
  simp only [List.map_cons, List.map_nil]
  rw [g _ _ ha (by decide), g _ _ hb (by decide), g _ _ hc (by decide), g _ _ hd (by decide), g _ _ he (by decide), g _ _ hf (by decide)]

theorem strlen_enough {W : Nat} {k w x : Str} (hk : CaseVariant c!"strlen" k) (hw : Ws1 w) (h : Enough W (k ++ (w ++ x))) : Enough (W / 2) x := by
  obtain ⟨h1, h2⟩ := strlen_lower hk
  have h3 : strlenAt (k ++ (w ++ x)) = true := by
    unfold strlenAt
    rw [List.take_append_of_le_length (by omega), List.take_of_length_le (by omega), h2,
      List.drop_append_of_le_length (by omega), List.drop_of_length_le (by omega)]
    obtain ⟨hw, hn⟩ := hw
    cases w with
    | nil => contradiction
    | cons d w =>
      have := ws_first hw _ _ rfl
      rcases wsStart_iff.mp this with rfl | rfl | rfl | rfl | rfl <;> rfl
  cases k with
  | nil => cases h1
  | cons a k =>
    have h4 : strlens (a :: (k ++ (w ++ x))) = 1 + strlens (k ++ (w ++ x)) := by
      rw [strlens, show a :: (k ++ (w ++ x)) = (a :: k) ++ (w ++ x) from rfl, h3]; rfl
    have h5 := strlens_suffix (r := x) (i := k ++ (w ++ x)) ⟨k ++ w, by simp⟩
    have h6 := Nat.pow_le_pow_right (n := 2) (by omega) h5
    have h7 : 4 * 2 ^ strlens (a :: (k ++ (w ++ x))) ≤ W := h
    rw [h4, Nat.add_comm, Nat.pow_succ] at h7
    show 4 * 2 ^ strlens x ≤ W / 2
    omega

theorem sz_half {V W : Nat} {x r : Input} (h : 2 * V ≤ W) (hr : r.length ≤ x.length) : 2 * sz V x - 2 * sz V r ≤ sz W x - sz W r := by
  unfold sz
  obtain ⟨n, hn⟩ := Nat.le.dest hr
  rw [← hn]
  have := Nat.mul_le_mul_right n h
  rw [Nat.mul_assoc] at this
  simp only [Nat.mul_add]
  omega

theorem preceded_run {p : K α} {q : K β} {i r : Input} {a : α} (h : p i = (.ok r a, 0)) : preceded p q i = q r := by
  have h1 : erase p i = .ok r a := by unfold erase; rw [h]
  refine Prod.ext ?_ ?_
  · show NomSparql.preceded (erase p) (erase q) i = erase q r
    unfold NomSparql.preceded NomSparql.map NomSparql.pair
    rw [h1]
    simp only
    cases erase q r <;> rfl
  · show (p i).2 + _ = (q r).2
    rw [h]
    simp

theorem terminated_run' {p : K α} {q : P β} {i r r' : Input} {a : α} {b : β} {n : Nat} (h : p i = (.ok r a, n)) (h' : q r = .ok r' b) :
    terminated p (lift q) i = (.ok r' a, n) := by
  simp [terminated, map, pair, erase, lift, NomSparql.map, NomSparql.pair, h, h']

theorem terminated_run {p : P α} {q : P β} {i r r' : Input} {a : α} {b : β} (h : p i = .ok r a) (h' : q r = .ok r' b) :
    terminated (lift p) (lift q) i = (.ok r' a, 0) := terminated_run' (by unfold lift; rw [h]) h'

theorem terminated_stop {p : K α} {q : P β} {i r : Input} {a : α} {n : Nat} (h : p i = (.ok r a, n)) (h' : Fails q r) : Dead n (terminated p (lift q)) i := by
  obtain ⟨x, y, h'⟩ := h'
  have : terminated p (lift q) i = (.err (.error x y), n) := by
    simp [terminated, map, pair, erase, lift, NomSparql.map, NomSparql.pair, h, h']
  rw [Dead, this]
  exact ⟨Nat.le_refl _, fun _ _ e => by cases e⟩

theorem tag1_run {t k w x : Str} [KwTag t] {p : K α} (hk : CaseVariant t k) (hw : Ws1 w) (hx : ¬ StartsWs x) :
    precededTag1 t p (k ++ (w ++ x)) = p x :=
  preceded_run (terminated_run (p := NomSparql.tagNoCase t) (q := NomSparql.sp1) (tagNoCase_ok_iff.mpr ⟨rfl, hk⟩) (sp1_ok_iff.mpr ⟨rfl, hw, hx⟩))

theorem tag0_run {t k w x : Str} [KwTag t] {p : K α} (hk : CaseVariant t k) (hw : Ws w) (hx : ¬ StartsWs x) :
    precededTag t p (k ++ (w ++ x)) = p x :=
  preceded_run (terminated_run (p := NomSparql.tagNoCase t) (q := NomSparql.sp) (tagNoCase_ok_iff.mpr ⟨rfl, hk⟩) (sp_ok_iff.mpr ⟨rfl, hw, hx⟩))

section
variable (R : Rec)

/-- The first alternative for `STRLEN`. -/
abbrev strlen₁ : K BuiltInCall :=
  map (precededTag1 c!"strlen" (separatedPair (brackettedExpressionS R) sp (strReplaceExpressionS R))) (fun x => .strLen x.1 x.2)
/-- The second one. -/
abbrev strlen₂ : K BuiltInCall := map (precededBracketted c!"strlen" (exprPairS R)) (fun x => .contains x.1 x.2)

variable {R} [KRecGood R] [RecLin R] {W : Nat}

instance strlenArgs_lin : Lin W 3 0 NoD (separatedPair (brackettedExpressionS R) sp (strReplaceExpressionS R)) :=
  Lin.lit inferInstance (by omega) (by omega) fun _ h => h
instance : Lin W (W + 6 + W) 0 NoD (bracketted (exprPairS R)) := Lin.lit inferInstance (by omega) (by omega) fun _ h => h
instance strlen₁_lin : Lin W 3 0 NoD (strlen₁ R) := Lin.lit inferInstance (by omega) (by omega) fun _ h => h
instance strlen₂_lin : Lin W 3 0 NoD (strlen₂ R) := Lin.lit inferInstance (by omega) (by omega) fun _ h => h

/-- Both alternatives together. -/
theorem strlen_both {i : Input} (hw : Enough W i) :
    (∀ r a, (strlen₂ R i).1 = .ok r a → (∀ r a, (strlen₁ R i).1 ≠ .ok r a) → ((strlen₁ R i).2 : Int) + (strlen₂ R i).2 + sz W r + 3 ≤ sz W i) ∧
    (∀ e e', (strlen₁ R i).1 = .err e → (strlen₂ R i).1 = .err e' → ((strlen₁ R i).2 : Int) + (strlen₂ R i).2 ≤ 2 * sz W i) := by
  by_cases hd : Dead 0 (strlen₁ R) i
  · have h0 := hd.1
    refine ⟨fun r a e _ => ?_, fun e e' _ h2 => ?_⟩
    · rcases (strlen₂_lin (W := W)).ok hw e with h1 | ⟨h1, _⟩
      · omega
      · exact h1.elim
    · have := (strlen₂_lin (W := W)).err hw h2
      omega
  · have : ∃ k w y, i = k ++ (w ++ '(' :: y) ∧ CaseVariant c!"strlen" k ∧ Ws1 w := by
      apply Classical.byContradiction
      intro hn
      refine hd (Dead.map (.tag1 fun k w x e hk hw hx => ?_))
      cases x with
      | nil => exact .pair (.map (.pair (.lift ⟨_, _, rfl⟩)))
      | cons d x =>
        by_cases h : d = '('
        · subst h; exact (hn ⟨k, w, x, e, hk, hw⟩).elim
        · exact KFirst.cons (by simpa using h)
    obtain ⟨k, w, y, rfl, hk, hws⟩ := this
    have hx : ¬ StartsWs ('(' :: y) := not_startsWs_cons rfl
    have hV := strlen_enough hk hws hw
    have h2V : 2 * (W / 2) ≤ W := by omega
    have hl : ('(' :: y).length ≤ (k ++ (w ++ '(' :: y)).length := by simp; omega
    have hl' := sz_le (W := W) hl
    have e1 : (strlen₁ R (k ++ (w ++ '(' :: y))).2 = (separatedPair (brackettedExpressionS R) sp (strReplaceExpressionS R) ('(' :: y)).2 := by
      show (precededTag1 _ _ _).2 = _
      rw [tag1_run hk hws hx]
    have e2 : (strlen₂ R (k ++ (w ++ '(' :: y))).2 = (bracketted (exprPairS R) ('(' :: y)).2 := by
      show (precededTag _ _ _).2 = _
      rw [tag0_run hk hws.1 hx]
    have h0 := sz_nonneg (W := W / 2) (i := '(' :: y)
    have hz := sz_half (x := '(' :: y) (r := []) h2V (by simp)
    have hz0 : sz W ([] : Input) = 0 ∧ sz (W / 2) ([] : Input) = 0 := ⟨rfl, rfl⟩
    refine ⟨fun r a e hne => ?_, fun e e' h1 h2 => ?_⟩
    · obtain ⟨a', e⟩ := map_ok e
      have e : (precededTag c!"strlen" (bracketted (exprPairS R)) (k ++ (w ++ '(' :: y))).1 = .ok r a' := e
      rw [tag0_run hk hws.1 hx] at e
      rw [e1, e2]
      have g0 : ((bracketted (exprPairS R) ('(' :: y)).2 : Int) + sz (W / 2) r + ((W / 2 : Nat) + 6 + (W / 2 : Nat)) ≤ sz (W / 2) ('(' :: y) := by
        rcases Lin.ok (W := W / 2) (p := bracketted (exprPairS R)) hV e with h | ⟨h, _⟩
        · exact h
        · exact h.elim
      -- the first argument
      have : ∃ y₁ v, (R.expr y).1 = .ok y₁ v ∧ Aft [','] y₁ ∧ r.length ≤ y₁.length := by
        obtain ⟨b, e3⟩ := map_ok e
        obtain ⟨y', c, d, e4, e5, _⟩ := pair_ok e3
        have e4 : NomSparql.char '(' ('(' :: y) = .ok y' c := e4
        cases (NomSparql.char_ok.mp e4).2
        obtain ⟨f, e6⟩ := map_ok e5
        obtain ⟨y₂, g, h, e7, e8, _⟩ := pair_ok e6
        have hl2 := KGood.le (p := char ')') e8
        obtain ⟨y₁, v, v', e9, e10, _⟩ := pair_ok e7
        obtain ⟨z, e11⟩ := map_ok e10
        have hl1 := KGood.le (p := pair comma R.expr) e11
        obtain ⟨y₃, v'', _, e12, _, _⟩ := pair_ok e11
        exact ⟨y₁, v, e9, Aft.of_comma e12, by omega⟩
      obtain ⟨y₁, v, e3, hc, hly⟩ := this
      -- the cost of the first alternative
      have hsuf : y <:+ '(' :: y := List.suffix_cons _ _
      have c1 : ((R.expr y).2 : Int) + sz (W / 2) y₁ + 2 ≤ sz (W / 2) y := by
        rcases Lin.ok (W := W / 2) (p := R.expr) (hV.suffix hsuf) e3 with h | ⟨h, _⟩
        · exact h
        · exfalso
          obtain ⟨r', w', e', ⟨c, s, rfl, hc'⟩, _⟩ := h.skip
          obtain ⟨r'', w'', e'', ⟨c₂, s₂, rfl, hc''⟩, _⟩ := hc.skip
          rw [e'] at e''
          cases e''
          revert hc'
          simp only [List.mem_singleton] at hc''
          subst hc''
          decide
      have c2 : (separatedPair (brackettedExpressionS R) sp (strReplaceExpressionS R) ('(' :: y)).2 ≤ (R.expr y).2 := by
        have hb : Dead (R.expr y).2 (brackettedExpressionS R) ('(' :: y) := by
          obtain ⟨x₀, w₀, e₀⟩ := Total.out (p := NomSparql.sp) y
          obtain ⟨rfl, hw₀, hx₀⟩ := sp_ok_iff.mp e₀
          obtain ⟨g1, g2⟩ := RecLin.shift (R := R) w₀ x₀ y₁ v hw₀ hx₀ e3
          obtain ⟨y₂, w₂, g3, g4, _⟩ := hc.skip
          have g5 : R.expr x₀ = (.ok y₁ v, (R.expr (w₀ ++ x₀)).2) := Prod.ext g1 g2
          have g6 : spEnc R.expr (w₀ ++ x₀) = (.ok y₂ v, (R.expr (w₀ ++ x₀)).2) := by
            show preceded sp (terminated R.expr sp) _ = _
            rw [preceded_run (p := sp) (r := x₀) (a := w₀) (by unfold sp lift; rw [e₀])]
            exact terminated_run' g5 g3
          have g7 := terminated_stop (q := NomSparql.char ')') g6 (g4.fails (by decide))
          have g8 : brackettedExpressionS R ('(' :: (w₀ ++ x₀)) = terminated (spEnc R.expr) (char ')') (w₀ ++ x₀) :=
            preceded_run (p := char '(') (a := '(') rfl
          unfold Dead
          rw [g8]
          exact g7
        exact (Dead.pair (p := brackettedExpressionS R) (q := preceded sp (strReplaceExpressionS R)) hb).1
      have c3 := sz_le (W := W / 2) hsuf.length_le
      have c4 := sz_le (W := W / 2) hly
      have c5 := sz_half (x := '(' :: y) (r := r) h2V (by have := hsuf.length_le; have := KGood.le (p := R.expr) e3; omega)
      omega
    · have h1 := map_err h1
      have h2 : (precededTag c!"strlen" (bracketted (exprPairS R)) (k ++ (w ++ '(' :: y))).1 = .err e' := map_err h2
      rw [tag1_run hk hws hx] at h1
      rw [tag0_run hk hws.1 hx] at h2
      have h3 := Lin.err (W := W / 2) (p := separatedPair (brackettedExpressionS R) sp (strReplaceExpressionS R)) hV h1
      have h4 := Lin.err (W := W / 2) (p := bracketted (exprPairS R)) hV h2
      rw [e1, e2]
      omega

end

/-! ### All of them -/

section
variable {R : Rec} [KRecGood R] [RecLin R] {W : Nat} {D' : Input → Prop}

instance : Lin W 2 3 De (countTargetS R) :=
  Lin.lit (Lin.alt_cons (c := 0) (c' := 0) (D₂ := De) (p := map (char '*') (fun _ => CountTarget.all)) (p₂ := map R.expr CountTarget.expr) (ps := [])
    inferInstance inferInstance (fun _ _ _ _ => .inl (Nat.le_refl _)) (fun _ h => h.elim) fun _ h => h) (by omega) (by omega) fun _ h => h

instance : Lin W 2 3 De (alt [map R.expr some, map nil (fun _ => none)]) :=
  Lin.lit (Lin.alt_cons (c := 2) (c' := 0) (D₂ := De) (p := map R.expr some) (p₂ := map nil (fun _ => none)) (ps := [])
    inferInstance inferInstance (fun i _ _ _ => by
      cases e : NomSparql.nil i with
      | err y =>
        refine .inr ⟨Nat.le_refl _, fun r a e' => ?_⟩
        obtain ⟨x, e'⟩ := map_ok e'
        have e' : NomSparql.nil i = .ok r x := e'
        rw [e] at e'; cases e'
      | ok r s =>
        obtain ⟨hs, rfl⟩ := nil_ok.mp e
        exact .inl (RecLin.unit (R := R) s r hs).1) (fun _ h => h) fun _ h => h.elim) (by omega) (by omega) fun _ h => h

/-- The optional separator of `GROUP_CONCAT`. -/
abbrev sepArg : K (Option Str) := opt (preceded sp (preceded separatorEq stringLiteral))
instance : Lin W 0 0 De sepArg := Lin.weaken (Lin.opt (c := 0) (D' := De) (p := preceded sp (preceded separatorEq stringLiteral)) inferInstance (by omega) (fun _ h => h.elim)
  fun i _ _ _ => .inl (pair_bound (p := sp) (q := preceded separatorEq stringLiteral) (i := i) (a := 0) (b := 0) (Nat.le_refl _) fun r _ _ => pair_bound (p := separatorEq) (q := stringLiteral) (i := r) (a := 0) (b := 0) (Nat.le_refl _) fun _ _ _ => Nat.le_refl _)) (by omega) (by omega) fun _ h => h
instance : Idle 0 De De sepArg := by
  have : Idle 0 De NoD (preceded sp (preceded separatorEq stringLiteral)) := Dead.idle fun _ h => .map (Aft.dead_sp h (by decide))
  exact (inferInstance : Idle 0 De De (opt (preceded sp (preceded separatorEq stringLiteral))))

theorem kws_aggregate : Kws W [c!"count", c!"sum", c!"min", c!"max", c!"avg", c!"sample", c!"group_concat"] (aggregateS R) :=
  .cons (.map (.map (.br (inferInstance : Lin W _ _ _ (pair optDistinct (countTargetS R))) (by omega) (by omega) (by decide) inferInstance) _) _) (.cons (.map (.br (inferInstance : Lin W _ _ _ (distinctExpressionS R)) (by omega) (by omega) (by decide) inferInstance) _) (.cons (.map (.br (inferInstance : Lin W _ _ _ (distinctExpressionS R)) (by omega) (by omega) (by decide) inferInstance) _) (.cons (.map (.br (inferInstance : Lin W _ _ _ (distinctExpressionS R)) (by omega) (by omega) (by decide) inferInstance) _) (.cons (.map (.br (inferInstance : Lin W _ _ _ (distinctExpressionS R)) (by omega) (by omega) (by decide) inferInstance) _) (.cons (.map (.br (inferInstance : Lin W _ _ _ (distinctExpressionS R)) (by omega) (by omega) (by decide) inferInstance) _) (.one (.map (.map (.br (inferInstance : Lin W _ _ _ (pair (distinctExpressionS R) sepArg)) (by omega) (by omega) (by decide) inferInstance) _) _)) (by decide)) (by decide)) (by decide)) (by decide)) (by decide)) (by decide)

theorem kws_call2 : Kws W callTags2 (builtInCall2S R) :=
  .cons (.map (.br (inferInstance : Lin W _ _ _ (exprPairS R)) (by omega) (by omega) (by decide) inferInstance) _) (.cons (.map (.br (inferInstance : Lin W _ _ _ (exprPairS R)) (by omega) (by omega) (by decide) inferInstance) _) (.cons (.map (.br (inferInstance : Lin W _ _ _ (exprPairS R)) (by omega) (by omega) (by decide) inferInstance) _) (.cons (.map (.br (inferInstance : Lin W _ _ _ R.expr) (by omega) (by omega) (by decide) inferInstance) _) (.cons (.map (.br (inferInstance : Lin W _ _ _ R.expr) (by omega) (by omega) (by decide) inferInstance) _) (.cons (.map (.br (inferInstance : Lin W _ _ _ R.expr) (by omega) (by omega) (by decide) inferInstance) _) (.cons (.map (.br (inferInstance : Lin W _ _ _ R.expr) (by omega) (by omega) (by decide) inferInstance) _) (.cons (.map (.br (inferInstance : Lin W _ _ _ R.expr) (by omega) (by omega) (by decide) inferInstance) _) (.cons (.map (.br (inferInstance : Lin W _ _ _ R.expr) (by omega) (by omega) (by decide) inferInstance) _) (.cons (.map (.br (inferInstance : Lin W _ _ _ R.expr) (by omega) (by omega) (by decide) inferInstance) _) (.cons (.map (.br (inferInstance : Lin W _ _ _ R.expr) (by omega) (by omega) (by decide) inferInstance) _) (.cons (.map (.br (inferInstance : Lin W _ _ _ (nil)) (by omega) (by omega) (by decide) inferInstance) _) (.cons (.map (.br (inferInstance : Lin W _ _ _ (nil)) (by omega) (by omega) (by decide) inferInstance) _) (.one (.map (.br (inferInstance : Lin W _ _ _ (nil)) (by omega) (by omega) (by decide) inferInstance) _)) (by decide)) (by decide)) (by decide)) (by decide)) (by decide)) (by decide)) (by decide)) (by decide)) (by decide)) (by decide)) (by decide)) (by decide)) (by decide)

theorem kws_exists : Kws W [c!"exists"] (precededTag1 c!"exists" R.ggp) where
  lin := Lin.lit inferInstance (by omega) (by omega) fun _ h => h
  plain := by decide
  word i hi := .word1 (hi _ (by simp))
  call i hi := .tag1 fun k w x e hk hw _ => RecLin.brace x fun d s e' => by
    subst e'
    simp only [beq_eq_false_iff_ne]
    rintro rfl
    exact hi _ (by simp) ⟨k, _, e, hk, Follow.ws_close hw.1 (by simp)⟩

theorem kws_notExists : Kws W [c!"not"] (tuple3 (tagNoCase c!"not") (spEnc1 (tagNoCase c!"exists")) R.ggp) := by
  have key : ∀ i, ¬ Call c!"not" i → Dead 0 (tuple3 (tagNoCase c!"not") (spEnc1 (tagNoCase c!"exists")) R.ggp) i := by
    intro i hi
    refine .pair2 (p := NomSparql.tagNoCase c!"not") fun r a e => .pair (.map ?_)
    obtain ⟨rfl, hk⟩ := tagNoCase_ok_iff.mp e
    refine .pair2 (p := NomSparql.sp1) fun r' w e => ?_
    obtain ⟨rfl, hw, hx⟩ := sp1_ok_iff.mp e
    refine KFirst.out (F := fun d => lower d == lower 'e') r' fun d s e' => ?_
    subst e'
    cases hd : (lower d == lower 'e') with
    | false => exact hd
    | true =>
      exfalso
      refine hi ⟨_, _, rfl, hk, Follow.ws hw.1 (.inl hw.2) hx (notStart_cons ?_)⟩
      rintro rfl
      revert hd; decide
  exact {
    lin := Lin.lit inferInstance (by omega) (by omega) fun _ h => h
    plain := by decide
    word := fun i hi => key i fun h => hi _ (by simp) h.at
    call := fun i hi => (key i (hi _ (by simp))).mono (by omega) }

theorem kws_strlen {us : List Str} {qs : List (K BuiltInCall)} {q : K BuiltInCall} (h : Kws W us (alt (q :: qs))) (hs : c!"strlen" ∈ us)
    (like : ∀ i, At c!"strlen" i → Like (alt (q :: qs)) (strlen₂ R) i) : Kws W us (alt (strlen₁ R :: q :: qs)) where
  lin := by
    refine ⟨fun {i r a} hw e => ?_, fun {i e} hw e' => ?_⟩
    · by_cases hi : At c!"strlen" i
      · rcases alt_cases (p := strlen₁ R) (p₂ := q) (ps := qs) i with ⟨⟨pos, x, e1⟩, h1, h2⟩ | ⟨_, h1, h2⟩
        · obtain ⟨l1, l2⟩ := like i hi
          have := (strlen_both (R := R) hw).1 r a (l2 _ _ (h1 ▸ e)) fun r a e => by rw [e1] at e; cases e
          exact .inl (by omega)
        · rw [h2]
          exact (strlen₁_lin (R := R)).ok hw (h1 ▸ e)
      · obtain ⟨l1, l2⟩ := alt_skip (q := q) (qs := qs) (p := strlen₁ R) (.map (.word1 hi))
        rcases h.lin.ok hw (l2 _ _ e) with h1 | ⟨h1, h2⟩
        · exact .inl (by omega)
        · exact .inr ⟨h1, by omega⟩
    · rcases alt_cases (p := strlen₁ R) (p₂ := q) (ps := qs) i with ⟨⟨pos, x, e1⟩, h1, h2⟩ | ⟨_, h1, h2⟩
      · by_cases hi : At c!"strlen" i
        · obtain ⟨l1, l2⟩ := like i hi
          cases e2 : (strlen₂ R i).1 with
          | err e3 =>
            have := (strlen_both (R := R) hw).2 _ _ e1 e2
            omega
          | ok r a =>
            have := (strlen_both (R := R) hw).1 r a e2 fun r a e => by rw [e1] at e; cases e
            have := sz_nonneg (W := W) (i := r)
            have := sz_nonneg (W := W) (i := i)
            omega
        · have h3 : (strlen₁ R i).2 ≤ 0 := (Dead.map (.word1 hi) : Dead 0 (strlen₁ R) i).1
          have := h.lin.err hw (h1 ▸ e')
          omega
      · rw [h2]
        exact (strlen₁_lin (R := R)).err hw (h1 ▸ e')
  plain := h.plain
  word i hi := (Dead.map (.word1 (hi _ hs)) : Dead 0 (strlen₁ R) i).alt (h.word i hi)
  call i hi := by
    have h1 : Dead 0 (strlen₁ R) i := .map (.call1 (hi _ hs) (by simp))
    exact (h1.alt (h.call i hi)).mono (by omega)

/-- The tags of the first list, without the repetition. -/
def callTags1' : List Str := [c!"count", c!"sum", c!"min", c!"max", c!"avg", c!"sample", c!"group_concat", c!"str", c!"lang", c!"langmatches",
  c!"datatype", c!"bound", c!"iri", c!"uri", c!"bnode", c!"rand", c!"abs", c!"ceil", c!"floor", c!"round", c!"concat",
  c!"ucase", c!"lcase", c!"encode_for_uri", c!"strlen", c!"strstarts"]

theorem kws_strlens : Kws W [c!"ucase", c!"lcase", c!"encode_for_uri", c!"strlen", c!"strstarts"] (alt [strlen₁ R,
    map (precededBracketted c!"ucase" R.expr) BuiltInCall.uCase, map (precededBracketted c!"lcase" R.expr) .lCase,
    map (precededBracketted c!"encode_for_uri" R.expr) .encodeForUri, strlen₂ R,
    map (precededBracketted c!"strstarts" (exprPairS R)) (fun x => .strStarts x.1 x.2)]) := by
  refine kws_strlen (.cons (.map (.br (inferInstance : Lin W _ _ _ R.expr) (by omega) (by omega) (by decide) inferInstance) _) (.cons (.map (.br (inferInstance : Lin W _ _ _ R.expr) (by omega) (by omega) (by decide) inferInstance) _) (.cons (.map (.br (inferInstance : Lin W _ _ _ R.expr) (by omega) (by omega) (by decide) inferInstance) _) (.cons (.map (.br (inferInstance : Lin W _ _ _ (exprPairS R)) (by omega) (by omega) (by decide) inferInstance) _) (.one (.map (.br (inferInstance : Lin W _ _ _ (exprPairS R)) (by omega) (by omega) (by decide) inferInstance) _)) (by decide)) (by decide)) (by decide)) (by decide)) (by decide) fun i hi => ?_
  have hd : ∀ {c : Char} {t : Str} [KwTag (c :: t)] {β : Type} {p : K β} {f : β → BuiltInCall}, (∀ d ∈ c :: t, KwLetter d) → c :: t ≠ c!"strlen" →
      Dead 0 (map (precededBracketted (c :: t) p) f) i := fun h1 h2 => .map (.wordB fun h => h2 (h.inj hi h1 (by decide)))
  refine (alt_skip (hd (by decide) (by decide))).trans ((alt_skip (hd (by decide) (by decide))).trans ((alt_skip (hd (by decide) (by decide))).trans (alt_head ?_)))
  exact hd (by decide) (by decide)

theorem kws_call1 : Kws W callTags1' (builtInCall1S R) :=
  .cons (.map kws_aggregate _) (.cons (.map (.br (inferInstance : Lin W _ _ _ R.expr) (by omega) (by omega) (by decide) inferInstance) _) (.cons (.map (.br (inferInstance : Lin W _ _ _ R.expr) (by omega) (by omega) (by decide) inferInstance) _) (.cons (.map (.br (inferInstance : Lin W _ _ _ (exprPairS R)) (by omega) (by omega) (by decide) inferInstance) _) (.cons (.map (.br (inferInstance : Lin W _ _ _ R.expr) (by omega) (by omega) (by decide) inferInstance) _) (.cons (.map (.br (inferInstance : Lin W _ _ _ (var)) (by omega) (by omega) (by decide) inferInstance) _) (.cons (.map (.br (inferInstance : Lin W _ _ _ R.expr) (by omega) (by omega) (by decide) inferInstance) _) (.cons (.map (.br (inferInstance : Lin W _ _ _ R.expr) (by omega) (by omega) (by decide) inferInstance) _) (.cons (.map (.br (inferInstance : Lin W _ _ _ (alt [map R.expr some, map nil (fun _ => none)])) (by omega) (by omega) (by decide) inferInstance) _) (.cons (.map (.br (inferInstance : Lin W _ _ _ (nil)) (by omega) (by omega) (by decide) inferInstance) _) (.cons (.map (.br (inferInstance : Lin W _ _ _ R.expr) (by omega) (by omega) (by decide) inferInstance) _) (.cons (.map (.br (inferInstance : Lin W _ _ _ R.expr) (by omega) (by omega) (by decide) inferInstance) _) (.cons (.map (.br (inferInstance : Lin W _ _ _ R.expr) (by omega) (by omega) (by decide) inferInstance) _) (.cons (.map (.br (inferInstance : Lin W _ _ _ R.expr) (by omega) (by omega) (by decide) inferInstance) _) (.cons (.map (.tag1 (p := separatedPair (expressionListS R) sp (substringExpressionS R)) (Lin.lit inferInstance (by omega) (by omega) fun _ h => h) (by simp) (by decide)) _) (kws_strlens) (by decide)) (by decide)) (by decide)) (by decide)) (by decide)) (by decide)) (by decide)) (by decide)) (by decide)) (by decide)) (by decide)) (by decide)) (by decide)) (by decide)) (by decide)

/-- The keywords of built-in calls, without the repetition. -/
def callTags' : List Str := callTags1' ++ (callTags2 ++ [c!"md5", c!"sha1", c!"sha256", c!"sha384", c!"sha512", c!"coalesce", c!"if",
  c!"strlang", c!"strdt", c!"sameterm", c!"isiri", c!"isuri", c!"isblank", c!"isliteral", c!"isnumeric", c!"regex", c!"exists", c!"not"])

theorem kws_call : Kws W callTags' (builtInCallS R) :=
  .cons (kws_call1) (.cons (kws_call2) (.cons (.map (.br (inferInstance : Lin W _ _ _ R.expr) (by omega) (by omega) (by decide) inferInstance) _) (.cons (.map (.br (inferInstance : Lin W _ _ _ R.expr) (by omega) (by omega) (by decide) inferInstance) _) (.cons (.map (.br (inferInstance : Lin W _ _ _ R.expr) (by omega) (by omega) (by decide) inferInstance) _) (.cons (.map (.br (inferInstance : Lin W _ _ _ R.expr) (by omega) (by omega) (by decide) inferInstance) _) (.cons (.map (.br (inferInstance : Lin W _ _ _ R.expr) (by omega) (by omega) (by decide) inferInstance) _) (.cons (.map (.tag1 (p := expressionListS R) (Lin.lit inferInstance (by omega) (by omega) fun _ h => h) (by simp) (by decide)) _) (.cons (.map (.br (inferInstance : Lin W _ _ _ (tuple3 R.expr (preceded comma R.expr) (preceded comma R.expr))) (by omega) (by omega) (by decide) inferInstance) _) (.cons (.map (.br (inferInstance : Lin W _ _ _ (exprPairS R)) (by omega) (by omega) (by decide) inferInstance) _) (.cons (.map (.br (inferInstance : Lin W _ _ _ (exprPairS R)) (by omega) (by omega) (by decide) inferInstance) _) (.cons (.map (.br (inferInstance : Lin W _ _ _ (exprPairS R)) (by omega) (by omega) (by decide) inferInstance) _) (.cons (.map (.br (inferInstance : Lin W _ _ _ R.expr) (by omega) (by omega) (by decide) inferInstance) _) (.cons (.map (.br (inferInstance : Lin W _ _ _ R.expr) (by omega) (by omega) (by decide) inferInstance) _) (.cons (.map (.br (inferInstance : Lin W _ _ _ R.expr) (by omega) (by omega) (by decide) inferInstance) _) (.cons (.map (.br (inferInstance : Lin W _ _ _ R.expr) (by omega) (by omega) (by decide) inferInstance) _) (.cons (.map (.br (inferInstance : Lin W _ _ _ R.expr) (by omega) (by omega) (by decide) inferInstance) _) (.cons (.map (.map (.tag1 (p := brackettedExpr3S R) (Lin.lit inferInstance (by omega) (by omega) fun _ h => h) (by simp) (by decide)) _) _) (.cons (.map kws_exists _) (.one (.map kws_notExists _)) (by decide)) (by decide)) (by decide)) (by decide)) (by decide)) (by decide)) (by decide)) (by decide)) (by decide)) (by decide)) (by decide)) (by decide)) (by decide)) (by decide)) (by decide)) (by decide)) (by decide)) (by decide)) (by decide)

end

/-! ## Expressions -/

section
variable {W : Nat} {k b : Int} {D D' : Input → Prop} {p : K α} {q : K β} {i : Input} {F : Char → Bool} {L : List Char}

theorem lower_sym {c d : Char} (h : (lower c == lower d) = true) (hd : d ∈ ['!', '+', '-', '*', '/', '=', '<', '>']) : c = d := by
  have h := beq_iff_eq.mp h
  have h1 : d.toNat < 65 ∧ d.toNat ≠ 0x212A := by
    simp only [List.mem_cons, List.not_mem_nil, or_false] at hd
    rcases hd with rfl | rfl | rfl | rfl | rfl | rfl | rfl | rfl <;> decide
  have h2 : lower d = d := by
    unfold lower
    rw [if_neg (by omega), if_neg h1.2]
  rw [h2] at h
  unfold lower at h
  split at h
  · rename_i h3
    have h4 : ∀ n < 128, (65 ≤ n ∧ n ≤ 90) → ¬ (Char.ofNat (n + 32)).toNat < 65 := by decide
    exact absurd (h ▸ h1.1) (h4 c.toNat (by omega) h3)
  · split at h
    · subst h; exact absurd h1.1 (by decide)
    · exact h

theorem digit_mem {c : Char} (h : isDecDigit c = true) : c ∈ ['0', '1', '2', '3', '4', '5', '6', '7', '8', '9'] := by
  have h1 : 48 ≤ c.toNat ∧ c.toNat ≤ 57 := by
    unfold isDecDigit isAsciiDigitCode at h
    simpa using h
  have h2 : ∀ n < 128, (48 ≤ n ∧ n ≤ 57) → Char.ofNat n ∈ ['0', '1', '2', '3', '4', '5', '6', '7', '8', '9'] := by decide
  have := h2 c.toNat (by omega) h1
  rwa [Char.ofNat_toNat] at this

theorem Dead.one {c : Nat} (h : Dead c p i) : Dead c (Cost.alt [p]) i := h

theorem KFirst.or_hd [h : KFirst p F] (hF : ∀ c, F c = true → c ∈ L) (i : Input) : Dead 0 p i ∨ Hd L i := by
  cases i with
  | nil => exact .inl (h.out _ fun _ _ e => by cases e)
  | cons c s =>
    cases hc : F c with
    | false => exact .inl (KFirst.cons hc)
    | true => exact .inr ⟨c, s, rfl, hF c hc⟩

/-- Alternatives with different first characters. -/
theorem Lin.first {p q : K α} {qs : List (K α)} {G : Char → Bool} [KFirst p F] [KFirst (alt (q :: qs)) G] (h : Lin W k b D p) (h' : Lin W k b D (alt (q :: qs)))
    (L : List Char) (hF : ∀ c, F c = true → c ∈ L) (hG : ∀ c ∈ L, G c = false) : Lin W k b D (alt (p :: q :: qs)) :=
  Lin.excl h h' fun i => (KFirst.or_hd hF i).imp id fun h => KFirst.hd h hG

theorem alt_free {p q : K α} {qs : List (K α)} (h : (p i).2 = 0) (h' : (alt (q :: qs) i).2 = 0) : (alt (p :: q :: qs) i).2 = 0 := by
  rcases alt_cases (p := p) (p₂ := q) (ps := qs) i with ⟨_, _, h1⟩ | ⟨_, _, h1⟩ <;> omega

/-- Alternatives without effort. -/
theorem Lin.zero {p q : K α} {qs : List (K α)} (h : Lin W k b D p) (h' : Lin W k b D (alt (q :: qs))) (h0 : ∀ i, (p i).2 = 0) : Lin W k b D (alt (p :: q :: qs)) :=
  Lin.weaken (Lin.alt_cons (c := 0) (c' := 0) h h' (fun i _ _ _ => .inl (Nat.le_of_eq (h0 i))) (fun _ h => h) fun _ h => h) (by omega) (by omega) fun _ h => h

/-- Both alternatives fail, and together they cost little. -/
theorem Lin.twice {p q : K α} {qs : List (K α)} (h : Lin W k b D p) (h' : Lin W k b D (alt (q :: qs))) (hb : 0 ≤ b) (ex : ∀ i, Enough W i → Dead 0 p i ∨ Dead 0 (alt (q :: qs)) i ∨
      ∀ pos x, (p i).1 = .err (.error pos x) → (∀ r a, (alt (q :: qs) i).1 ≠ .ok r a) ∧ ((p i).2 : Int) + (alt (q :: qs) i).2 ≤ 2 * sz W i) :
    Lin W k b D (alt (p :: q :: qs)) where
  ok {i r a} hw e := by
    rcases ex i hw with h1 | h1 | h1
    · obtain ⟨h2, h3⟩ := alt_skip (q := q) (qs := qs) h1
      rcases h'.ok hw (h3 _ _ e) with h4 | ⟨h4, h5⟩
      · exact .inl (by omega)
      · exact .inr ⟨h4, by omega⟩
    · obtain ⟨h2, h3⟩ := alt_head (p := p) h1
      rcases h.ok hw (h3 _ _ e) with h4 | ⟨h4, h5⟩
      · exact .inl (by omega)
      · exact .inr ⟨h4, by omega⟩
    · rcases alt_cases (p := p) (p₂ := q) (ps := qs) i with ⟨⟨pos, x, e1⟩, h2, _⟩ | ⟨_, h2, h3⟩
      · exact absurd (h2 ▸ e) ((h1 _ _ e1).1 _ _)
      · rw [h3]; exact h.ok hw (h2 ▸ e)
  err {i e} hw e' := by
    rcases alt_cases (p := p) (p₂ := q) (ps := qs) i with ⟨⟨pos, x, e1⟩, h1, h2⟩ | ⟨_, h1, h2⟩
    · rw [h1] at e'
      have h5 := h'.err hw e'
      have h6 := h.err hw e1
      rcases ex i hw with h3 | h3 | h3
      · have := h3.1; omega
      · have := h3.1; omega
      · have := (h3 _ _ e1).2; omega
    · rw [h1] at e'
      have h6 := h.err hw e'
      rw [h2]
      omega

/-- A number after its sign begins with a digit or a point. -/
abbrev numL : List Char := ['.', '0', '1', '2', '3', '4', '5', '6', '7', '8', '9']

theorem numL_of {d : Char} (h : d = '.' ∨ AsciiDigit d) : d ∈ numL := by
  rcases h with rfl | h
  · simp
  · have : isDecDigit d = true := by
      unfold AsciiDigit at h
      unfold isDecDigit isAsciiDigitCode
      simpa using h
    exact List.mem_cons_of_mem _ (digit_mem this)

theorem numL_ws {s : Str} (h : Hd numL s) : ¬ StartsWs s := by
  obtain ⟨d, t, rfl, hd⟩ := h
  refine not_startsWs_cons ?_
  revert d; decide

theorem signed_head {c : Char} {s r : Str} {v : NumericLiteral} (hc : c = '+' ∨ c = '-') (h : NomSparql.numericLiteral (c :: s) = .ok r v) : Hd numL s := by
  cases v with
  | int v =>
    obtain ⟨t, e, ⟨sg, neg, ds, n, rfl, h1, h2, h3⟩, h4, h5⟩ := sparqlInt_ok.mp (numericLiteral_int.mp h)
    have hds : ds ≠ [] ∧ ∀ d ∈ ds, AsciiDigit d := ⟨(decVal_imp h2).1, (decVal_imp h2).2.1⟩
    cases ds with
    | nil => exact absurd rfl hds.1
    | cons d ds =>
      cases h1 with
      | none =>
        exfalso
        cases e
        have := hds.2 c (by simp)
        rcases hc with rfl | rfl <;> revert this <;> decide
      | plus => cases e; exact ⟨d, _, rfl, numL_of (.inr (hds.2 d (by simp)))⟩
      | minus => cases e; exact ⟨d, _, rfl, numL_of (.inr (hds.2 d (by simp)))⟩
  | double d ex =>
    obtain ⟨_, e2⟩ := numericLiteral_double.mp h
    unfold sparqlDouble at e2
    obtain ⟨r1, e3, e4⟩ := pair_ok_iff.mp e2
    obtain ⟨_, d₀, t₀, rfl, hd₀⟩ := sparqlDecimal_unsigned hc e3
    exact ⟨d₀, t₀, rfl, numL_of hd₀⟩

end

section
variable {R : Rec} [KRecGood R] [RecLin R] {W : Nat} {D' : Input → Prop}

/-- The alternatives of a primary expression that make no calls. -/
abbrev atoms (R : Rec) : K PrimaryExpression := alt [map (iriOrFunS R) .iriOrFunction, map rdfLiteral .rdfLiteral, map numericLiteral .numericLiteral,
  map boolean .booleanLiteral, map var .var]

omit [KRecGood R] [RecLin R] in
theorem iriOrFunS_free (i : Input) : (iriOrFunS R i).2 = 0 :=
  Nat.le_zero.mp (pair_bound (p := iri) (q := opt (preceded sp1 (argListS R))) (i := i) (a := 0) (b := 0) (Nat.le_refl _) fun r _ _ => Nat.le_of_eq (optArgList_free r))

omit [KRecGood R] [RecLin R] in
theorem atoms_free (i : Input) : (atoms R i).2 = 0 := alt_free (iriOrFunS_free i) (alt_free rfl (alt_free rfl (alt_free rfl rfl)))

instance atoms_lin : Lin W W 0 NoD (atoms R) :=
  .zero inferInstance (.zero inferInstance (.zero inferInstance (.zero inferInstance inferInstance fun _ => rfl) fun _ => rfl) fun _ => rfl) iriOrFunS_free

theorem callTags'_plain : ∀ t ∈ callTags', ∀ c ∈ t, KwLetter c := by decide
theorem callTags'_head : ∀ t ∈ callTags', ∃ x u, t = x :: u ∧ AsciiLetter x := by
  have : ∀ t ∈ callTags', (match t with | [] => false | x :: _ => decide (AsciiLetter x)) = true := by decide +kernel
  intro t ht
  have := this t ht
  cases t with
  | nil => cases this
  | cons x u => exact ⟨x, u, rfl, by simpa using this⟩

omit [KRecGood R] [RecLin R] in
theorem Call.atoms {t i : Str} (h : Call t i) (ht : t ∈ callTags') : Dead 0 (atoms R) i := by
  obtain ⟨x, u, rfl, hx⟩ := callTags'_head t ht
  have hc : ∀ v ∈ [c!"false", c!"true"], Fails (NomSparql.tagNoCase v) i := by
    have : ∀ v ∈ [c!"false", c!"true"], ∀ t ∈ callTags', v.all (fun c => decide (KwLetter c)) = true ∧ t.all (fun c => decide (KwLetter c)) = true ∧ clash v t = true := by
      decide +kernel
    exact fun v hv => h.at.fails (this v hv _ ht)
  have hf : ∀ (F : Char → Bool), (∀ t ∈ callTags', (match t with | [] => false | x :: _ => F x || F (upperOf x)) = false) → (F x || F (upperOf x)) = false := fun F hF => hF _ ht
  refine .alt (c := 0) (.map (.map (.pair (.lift (h.iri hx (callTags'_plain _ ht)))))) (.alt (c := 0) (.map (.lift ?_)) (.alt (c := 0) (.map (.lift ?_)) (.alt (c := 0) (c' := 0) (.map (.lift ?_)) (.one (.map (.lift ?_))))))
  · exact h.at.first (hf _ (by decide +kernel))
  · exact h.at.first (hf _ (by decide +kernel))
  · exact Fails.alt_cons (Fails.map (hc _ (by simp))) (Fails.map (hc _ (by simp)))
  · exact h.at.first (hf _ (by decide +kernel))

/-- A primary expression without parentheses around it. -/
abbrev unbracketted (R : Rec) : K PrimaryExpression := alt [map (builtInCallS R) .builtInCall, map (iriOrFunS R) .iriOrFunction, map rdfLiteral .rdfLiteral,
  map numericLiteral .numericLiteral, map boolean .booleanLiteral, map var .var]

instance unbracketted_lin : Lin W 3 1 NoD (unbracketted R) := by
  have hk := kws_call (R := R) (W := W)
  refine Lin.lit (Lin.alt_cons (c := 1) (c' := 0) (D₂ := NoD) (hk.map PrimaryExpression.builtInCall).lin (atoms_lin (R := R) (W := W)) (fun i _ _ _ => ?_) (fun _ h => h) fun _ h => h)
    (by omega) (by omega) fun _ h => h
  by_cases h : ∃ t ∈ callTags', Call t i
  · obtain ⟨t, ht, h⟩ := h
    have := h.atoms (R := R) ht
    exact .inr ⟨this.1, fun r a e => this.2 r a e⟩
  · exact .inl (hk.call i fun t ht h' => h ⟨t, ht, h'⟩).1

instance : Lin W 3 1 NoD (primaryExpressionS R) :=
  Lin.first (Lin.weaken (inferInstance : Lin W 3 0 NoD (map (brackettedExpressionS R) PrimaryExpression.brackettedExpression)) (by omega) (by omega) fun _ h => h) unbracketted_lin
    ['('] (by simp) (by decide +kernel)

omit [KRecGood R] [RecLin R] in
/-- Apart from what begins with a letter or a parenthesis a primary expression makes no calls. -/
theorem primary_plain {L : List Char} {i : Input} {F : Char → Bool} [KFirst (builtInCallS R) F] (h : Hd L i)
    (h1 : ∀ c ∈ L, (c == '(') = false) (h2 : ∀ c ∈ L, F c = false) : (primaryExpressionS R i).2 = 0 := by
  have g1 : Dead 0 (brackettedExpressionS R) i := KFirst.hd h h1
  have g2 : Dead 0 (builtInCallS R) i := KFirst.hd h h2
  exact alt_free (Nat.le_zero.mp g1.1) (alt_free (Nat.le_zero.mp g2.1) (atoms_free i))

/-- An Error without calls. -/
def KFails (p : K α) (i : Input) : Prop := ∃ pos x, p i = (.err (.error pos x), 0)

theorem KFails.mk {p : K α} {i : Input} (h : Dead 0 p i) (h' : Fails (erase p) i) : KFails p i := by
  obtain ⟨pos, x, e⟩ := h'
  exact ⟨pos, x, Prod.ext e (Nat.le_zero.mp h.1)⟩

theorem KFails.hd {p : K α} {p' : P α} {i : Input} {F G : Char → Bool} [KFirst p F] [First p' G] {L : List Char} (h : Hd L i) (e : erase p = p')
    (hF : ∀ c ∈ L, F c = false) (hG : ∀ c ∈ L, G c = false) : KFails p i := .mk (KFirst.hd h hF) (e ▸ h.fails hG)

theorem alt_next {p q : K α} {qs : List (K α)} {i : Input} (h : KFails p i) : alt (p :: q :: qs) i = alt (q :: qs) i := by
  obtain ⟨pos, x, e⟩ := h
  rcases alt_cases (p := p) (p₂ := q) (ps := qs) i with ⟨_, h1, h2⟩ | ⟨h1, _⟩
  · refine Prod.ext h1 ?_
    rw [h2, e]; simp
  · exact absurd (by rw [e]) (h1 pos x)

theorem alt_now {p q : K α} {qs : List (K α)} {i r : Input} {a : α} {n : Nat} (h : p i = (.ok r a, n)) : alt (p :: q :: qs) i = (.ok r a, n) := by
  rcases alt_cases (p := p) (p₂ := q) (ps := qs) i with ⟨⟨_, _, h1⟩, _⟩ | ⟨_, h1, h2⟩
  · rw [h] at h1; cases h1
  · exact Prod.ext (by rw [h1, h]) (by rw [h2, h])

theorem map_run {p : K α} {f : α → β} {i r : Input} {a : α} {n : Nat} (h : p i = (.ok r a, n)) : map p f i = (.ok r (f a), n) := by
  simp [map, erase, NomSparql.map, h]

omit [KRecGood R] [RecLin R] in
theorem primary_num {s r : Str} {v : NumericLiteral} (hd : Hd numL s) (h : NomSparql.numericLiteral s = .ok r v) :
    primaryExpressionS R s = (.ok r (.numericLiteral v), 0) := by
  unfold primaryExpressionS
  rw [alt_next (.hd (p' := NomSparql.map (NomSparql.brackettedExpressionS (eraseR R)) PrimaryExpression.brackettedExpression) hd (by simp) (by decide +kernel) (by decide +kernel)),
    alt_next (.hd (p' := NomSparql.map (NomSparql.builtInCallS (eraseR R)) PrimaryExpression.builtInCall) hd (by simp) (by decide +kernel) (by decide +kernel)),
    alt_next (.hd (p' := NomSparql.map (NomSparql.iriOrFunS (eraseR R)) PrimaryExpression.iriOrFunction) hd (by simp) (by decide +kernel) (by decide +kernel)),
    alt_next (.hd (p' := NomSparql.map NomSparql.rdfLiteral PrimaryExpression.rdfLiteral) hd (by simp) (by decide +kernel) (by decide +kernel))]
  exact alt_now (map_run (by unfold numericLiteral lift; rw [h]))

omit [KRecGood R] [RecLin R] in
theorem unary_num {s r : Str} {v : NumericLiteral} (hd : Hd numL s) (h : NomSparql.numericLiteral s = .ok r v) :
    unaryExpressionS R s = (.ok r (.default (.numericLiteral v)), 0) := by
  unfold unaryExpressionS
  rw [alt_next (.hd (p' := NomSparql.map (NomSparql.precededTag c!"!" (NomSparql.primaryExpressionS (eraseR R))) UnaryExpression.not) hd (by simp) (by decide +kernel) (by decide +kernel)),
    alt_next (.hd (p' := NomSparql.map (NomSparql.precededTag c!"+" (NomSparql.primaryExpressionS (eraseR R))) UnaryExpression.add) hd (by simp) (by decide +kernel) (by decide +kernel)),
    alt_next (.hd (p' := NomSparql.map (NomSparql.precededTag c!"-" (NomSparql.primaryExpressionS (eraseR R))) UnaryExpression.sub) hd (by simp) (by decide +kernel) (by decide +kernel))]
  exact map_run (primary_num hd h)

omit [KRecGood R] [RecLin R] in
/-- What a signed number excludes. -/
theorem primary_sign {c : Char} {s : Str} (hc : c = '+' ∨ c = '-') (h : ∀ r v, NomSparql.numericLiteral (c :: s) ≠ .ok r v) : Dead 0 (primaryExpressionS R) (c :: s) := by
  have hd : Hd ['+', '-'] (c :: s) := ⟨c, s, rfl, by simpa using hc⟩
  unfold primaryExpressionS
  refine .alt (c := 0) (KFirst.hd hd (by decide +kernel)) (.alt (c := 0) (KFirst.hd hd (by decide +kernel)) (.alt (c := 0) (KFirst.hd hd (by decide +kernel))
    (.alt (c := 0) (KFirst.hd hd (by decide +kernel)) (.alt (c := 0) (.map ⟨Nat.le_refl _, h⟩) (KFirst.hd (p := alt [map boolean PrimaryExpression.booleanLiteral, map var .var]) hd (by decide +kernel))))))

omit [KRecGood R] [RecLin R] in
/-- A sign before a symbol that is not white space. -/
theorem sym_run {c : Char} {s : Str} [KwTag [c]] {p : K α} (hs : SameLetter c c) (hx : ¬ StartsWs s) : precededTag [c] p (c :: s) = p s :=
  tag0_run (t := [c]) (k := [c]) (w := []) (.cons hs .nil) .nil hx


omit [KRecGood R] [RecLin R] in
/-- Of the sign and the signed number only one matters. -/
theorem sign_ex {c : Char} (hc : c = '+' ∨ c = '-') [KwTag [c]] (hs : SameLetter c c) {s : Str} :
    (precededTag [c] (primaryExpressionS R) (c :: s)).2 ≤ 0 ∨ Dead 0 (primaryExpressionS R) (c :: s) := by
  by_cases e : ∃ r v, NomSparql.numericLiteral (c :: s) = .ok r v
  · obtain ⟨r, v, e⟩ := e
    have hd := signed_head hc e
    have hx := numL_ws hd
    left
    rw [sym_run hs hx]
    exact Nat.le_of_eq (primary_plain hd (by decide) (by decide +kernel))
  · exact .inr (primary_sign hc fun r v h => e ⟨r, v, h⟩)

instance : Lin W 3 1 NoD (unaryExpressionS R) := by
  have hp : ∀ {c : Char} {f : PrimaryExpression → UnaryExpression}, Lin W 3 1 NoD (map (precededTag [c] (primaryExpressionS R)) f) := fun {c f} =>
    Lin.lit inferInstance (by omega) (by omega) fun _ h => h
  have h1 : Lin W 3 1 NoD (alt [map (precededTag c!"-" (primaryExpressionS R)) UnaryExpression.sub, map (primaryExpressionS R) .default]) := by
    refine Lin.weaken (Lin.alt_cons (c := 0) (c' := 0) (D₂ := NoD) hp (inferInstance : Lin W 3 1 NoD _) (fun i _ _ _ => ?_) (fun _ h => h) fun _ h => h) (by omega) (by omega) fun _ h => h
    rcases KFirst.or_hd (p := map (precededTag c!"-" (primaryExpressionS R)) UnaryExpression.sub) (L := ['-']) (fun c h => by simpa using lower_sym h (by simp)) i with h | ⟨c, s, rfl, h⟩
    · exact .inl h.1
    · simp only [List.mem_singleton] at h
      subst h
      rcases sign_ex (R := R) (c := '-') (s := s) (.inr rfl) (.inl rfl) with h | h
      · exact .inl h
      · exact .inr ⟨h.1, fun r a e => h.map.2 r a e⟩
  have h2 : Lin W 3 1 NoD (alt [map (precededTag c!"+" (primaryExpressionS R)) UnaryExpression.add, map (precededTag c!"-" (primaryExpressionS R)) .sub, map (primaryExpressionS R) .default]) := by
    refine Lin.weaken (Lin.alt_cons (c := 0) (c' := 0) (D₂ := NoD) hp h1 (fun i _ _ _ => ?_) (fun _ h => h) fun _ h => h) (by omega) (by omega) fun _ h => h
    rcases KFirst.or_hd (p := map (precededTag c!"+" (primaryExpressionS R)) UnaryExpression.add) (L := ['+']) (fun c h => by simpa using lower_sym h (by simp)) i with h | ⟨c, s, rfl, h⟩
    · exact .inl h.1
    · simp only [List.mem_singleton] at h
      subst h
      rcases sign_ex (R := R) (c := '+') (s := s) (.inl rfl) (.inl rfl) with h | h
      · exact .inl h
      · have : Dead 0 (alt [map (precededTag c!"-" (primaryExpressionS R)) UnaryExpression.sub, map (primaryExpressionS R) .default]) ('+' :: s) :=
          .alt (c := 0) (c' := 0) (KFirst.cons (by decide)) (.one (.map h))
        exact .inr ⟨this.1, fun r a e => this.2 r a e⟩
  exact Lin.first hp h2 ['!'] (fun c h => by simpa using lower_sym h (by simp)) (by decide +kernel)

instance : Lin W 4 0 NoD (multExpressionS R) := by
  have hp : ∀ {c : Char} {f : UnaryExpression → MultExpression}, Lin W 4 0 NoD (map (precededTag [c] (unaryExpressionS R)) f) := fun {c f} =>
    Lin.lit inferInstance (by omega) (by omega) fun _ h => h
  exact Lin.first hp (inferInstanceAs (Lin W 4 0 NoD (alt [map (precededTag ['/'] (unaryExpressionS R)) MultExpression.div]))) ['*'] (fun c h => by simpa using lower_sym h (by simp)) (by decide +kernel)

omit [KRecGood R] [RecLin R] in
theorem mult_or (i : Input) : Dead 0 (multExpressionS R) i ∨ Hd mulL i := KFirst.or_hd (fun c h => by
  rcases Bool.or_eq_true_iff.mp h with h | h
  · simp [lower_sym h (by simp)]
  · simp [lower_sym h (by simp)]) i

theorem mulRule : ListRule W 4 0 NoD (Aft mulL) 0 sp (multExpressionS R) where
  lin := inferInstance
  free _ := rfl
  wake i r x pos kd e e' := (mult_or r).imp (fun h => h.1) fun h => Aft.of_sp e h (by decide)
  stop _ h := h.elim

instance : Lin W 0 0 (Aft mulL) (separatedList sp (multExpressionS R)) :=
  Lin.weaken (mulRule.lin0 (by omega) fun i pos x e => (mult_or i).imp (fun h => h.1) fun h => h.aft (by decide)) (by omega) (by omega) fun _ h => h

instance : Lin W 3 1 (Aft mulL) (multiplicativeExpressionS R) :=
  Lin.lit (p := map (pair (unaryExpressionS R) (preceded sp (separatedList sp (multExpressionS R)))) _) inferInstance (by omega) (by omega) fun _ h => h


/-- The tail of a product. -/
abbrev mulTail (R : Rec) : K (List MultExpression) := preceded sp (separatedList sp (multExpressionS R))

theorem mulTail_error {i pos : Input} {x : Kind} (hw : Enough W i) (e : (mulTail R i).1 = .err (.error pos x)) : ((mulTail R i).2 : Int) ≤ sz W i := by
  rcases pair_err (p := sp) (map_err e) with ⟨e1, h⟩ | ⟨r, w, e1, e2, h⟩
  · have : ((mulTail R i).2 : Int) = 0 := by rw [show (mulTail R i).2 = _ from h]; rfl
    have := sz_nonneg (W := W) (i := i)
    omega
  · have hs : r <:+ i := Good.ok (h := KGood.out (p := sp)) e1
    have h1 := (mulRule (R := R) (W := W)).error (by omega) (fun _ h => h) (hw.suffix hs) e2
    have h2 : (mulTail R i).2 = 0 + (separatedList sp (multExpressionS R) r).2 := h
    have := sz_le (W := W) hs.length_le
    omega

/-- A sign and a product, and a signed number and a product. -/
theorem signed_both {c : Char} (hc : c = '+' ∨ c = '-') [KwTag [c]] (hs : SameLetter c c) {f : MultiplicativeExpression → AddExpression} {g : NumericLiteral × List MultExpression → AddExpression}
    {s : Str} (hw : Enough W (c :: s)) : Dead 0 (map (pair numericLiteral (mulTail R)) g) (c :: s) ∨
      ∀ pos x, (map (precededTag [c] (multiplicativeExpressionS R)) f (c :: s)).1 = .err (.error pos x) →
        (∀ r a, (map (pair numericLiteral (mulTail R)) g (c :: s)).1 ≠ .ok r a) ∧
        ((map (precededTag [c] (multiplicativeExpressionS R)) f (c :: s)).2 : Int) + (map (pair numericLiteral (mulTail R)) g (c :: s)).2 ≤ 2 * sz W (c :: s) := by
  by_cases e : ∃ r v, NomSparql.numericLiteral (c :: s) = .ok r v
  · obtain ⟨r, v, e⟩ := e
    have hd := signed_head hc e
    obtain ⟨v', e'⟩ := numericLiteral_unsigned hc e
    have hx := numL_ws hd
    refine .inr fun pos x h => ?_
    have h1 := map_err h
    rw [sym_run hs hx] at h1
    have hu := unary_num (R := R) hd e'
    have hsuf : r <:+ c :: s := Good.ok (h := (inferInstance : Good NomSparql.numericLiteral)) e
    have hl := sz_le (W := W) hsuf.length_le
    have c1 : (map (precededTag [c] (multiplicativeExpressionS R)) f (c :: s)).2 = (mulTail R r).2 := by
      show (precededTag [c] (multiplicativeExpressionS R) (c :: s)).2 = _
      rw [sym_run hs hx]
      show (unaryExpressionS R s).2 + _ = _
      rw [hu]
      simp
    have c2 : (map (pair numericLiteral (mulTail R)) g (c :: s)).2 = (mulTail R r).2 := by
      show (numericLiteral (c :: s)).2 + _ = _
      rw [show numericLiteral (c :: s) = (.ok r v, 0) from by unfold numericLiteral lift; rw [e]]
      simp
    have h2 : (mulTail R r).1 = .err (.error pos x) := by
      rcases pair_err (p := unaryExpressionS R) (map_err h1) with ⟨e1, _⟩ | ⟨r', w, e1, e2, _⟩
      · rw [hu] at e1; cases e1
      · rw [hu] at e1; cases e1; exact e2
    have h3 := mulTail_error (hw.suffix hsuf) h2
    refine ⟨fun r' a h4 => ?_, by omega⟩
    obtain ⟨y, h4⟩ := map_ok h4
    obtain ⟨r₁, v₁, y₁, e1, e2, _⟩ := pair_ok h4
    have e1 : NomSparql.numericLiteral (c :: s) = .ok r₁ v₁ := e1
    rw [e] at e1
    cases e1
    rw [h2] at e2
    cases e2
  · exact .inl (.map (.pair ⟨Nat.le_refl _, fun r v h => e ⟨r, v, h⟩⟩))

instance : Lin W 4 0 (Aft mulL) (addExpressionS R) := by
  have hp : ∀ {c : Char} {f : MultiplicativeExpression → AddExpression}, Lin W 4 0 (Aft mulL) (map (precededTag [c] (multiplicativeExpressionS R)) f) := fun {c f} =>
    Lin.lit inferInstance (by omega) (by omega) fun _ h => h
  have h0 : Lin W 4 0 (Aft mulL) (alt [map (pair numericLiteral (preceded sp (separatedList sp (multExpressionS R)))) (fun x => AddExpression.numeric x.1 x.2)]) :=
    Lin.lit inferInstance (by omega) (by omega) fun _ h => h
  have h1 : Lin W 4 0 (Aft mulL) (alt [map (precededTag c!"-" (multiplicativeExpressionS R)) AddExpression.sub,
      map (pair numericLiteral (preceded sp (separatedList sp (multExpressionS R)))) (fun x => AddExpression.numeric x.1 x.2)]) := by
    refine Lin.twice hp h0 (by omega) fun i hw => ?_
    rcases KFirst.or_hd (p := map (precededTag c!"-" (multiplicativeExpressionS R)) AddExpression.sub) (L := ['-']) (fun c h => by simpa using lower_sym h (by simp)) i with h | ⟨c, s, rfl, h⟩
    · exact .inl h
    · simp only [List.mem_singleton] at h
      subst h
      exact .inr (signed_both (R := R) (.inr rfl) (.inl rfl) hw)
  refine Lin.twice hp h1 (by omega) fun i hw => ?_
  rcases KFirst.or_hd (p := map (precededTag c!"+" (multiplicativeExpressionS R)) AddExpression.add) (L := ['+']) (fun c h => by simpa using lower_sym h (by simp)) i with h | ⟨c, s, rfl, h⟩
  · exact .inl h
  · simp only [List.mem_singleton] at h
    subst h
    have hl : Like (alt [map (precededTag c!"-" (multiplicativeExpressionS R)) AddExpression.sub, map (pair numericLiteral (mulTail R)) (fun x => AddExpression.numeric x.1 x.2)])
      (alt [map (pair numericLiteral (mulTail R)) (fun x => AddExpression.numeric x.1 x.2)]) ('+' :: s) := alt_skip (KFirst.cons (by decide))
    obtain ⟨l1, l2⟩ := hl
    rcases signed_both (R := R) (f := AddExpression.add) (g := fun x => AddExpression.numeric x.1 x.2) (.inl rfl) (.inl rfl) hw with h | h
    · refine .inr (.inl ⟨Nat.le_trans l1 h.1, fun r a e => h.2 r a (l2 r a e)⟩)
    · refine .inr (.inr fun pos x e => ?_)
      obtain ⟨h1, h2⟩ := h pos x e
      refine ⟨fun r a e => h1 r a (l2 r a e), ?_⟩
      exact Int.le_trans (Int.add_le_add_left (Int.ofNat_le.mpr l1) _) h2

omit [KRecGood R] [RecLin R] in
theorem add_or (i : Input) : Dead 0 (addExpressionS R) i ∨ Hd addL i := KFirst.or_hd (fun c h => by
  simp only [Bool.or_eq_true] at h
  have : c = '+' ∨ c = '-' ∨ c = '.' ∨ isDecDigit c = true := by
    rcases h with h | h | h
    · exact .inl (lower_sym h (by simp))
    · exact .inr (.inl (lower_sym h (by simp)))
    · grind
  rcases this with rfl | rfl | rfl | h
  · decide
  · decide
  · decide
  · have := digit_mem h
    simp only [List.mem_append]
    right
    simp only [List.mem_cons] at this ⊢
    grind) i

theorem addRule : ListRule W 4 0 (Aft mulL) (Aft addL) 0 sp (addExpressionS R) where
  lin := inferInstance
  free _ := rfl
  wake i r x pos kd e e' := (add_or r).imp (fun h => h.1) fun h => Aft.of_sp e h (by decide)
  stop i h := ⟨Aft.mono h (by decide), fun r x e => by
    obtain ⟨r', w, e', h', _⟩ := h.skip
    have e : NomSparql.sp i = .ok r x := e
    rw [e] at e'; cases e'
    exact KFirst.hd (p := addExpressionS R) h' (by decide +kernel)⟩

instance : Lin W 0 0 (Aft addL) (separatedList sp (addExpressionS R)) :=
  Lin.weaken (addRule.lin0 (by omega) fun i pos x e => (add_or i).imp (fun h => h.1) fun h => h.aft (by decide)) (by omega) (by omega) fun _ h => h

instance addTail_idle : Idle 0 (Aft mulL) (Aft addL) (preceded sp (separatedList sp (addExpressionS R))) := by
  have h : Idle 0 (Hd mulL) (Aft addL) (separatedList sp (addExpressionS R)) := ⟨fun h => (separatedList_dead (KFirst.hd (p := addExpressionS R) h (by decide +kernel))).1, fun {i r a} h e => by
    rw [(separatedList_dead (KFirst.hd (p := addExpressionS R) h (by decide +kernel))).2 r a e]
    exact Aft.mono (h.aft (by decide)) (by decide)⟩
  have := Idle.pair sp_idle h
  exact inferInstance

instance : Lin W 3 1 (Aft addL) (additiveExpressionS R) :=
  Lin.lit (p := map (pair (multiplicativeExpressionS R) (preceded sp (separatedList sp (addExpressionS R)))) _) inferInstance (by omega) (by omega) fun _ h => h

end

/-! ### Comparisons -/

section
variable {R : Rec} [KRecGood R] [RecLin R] {W : Nat} {D' : Input → Prop}

/-- The comparisons with lists, which make no calls. -/
abbrev inOps (R : Rec) : K OpExpression := alt [map (precededTag c!"in" (expressionListS R)) .in,
  map (preceded (terminated (tagNoCaseStreaming c!"not") (spEnc1 (tagNoCaseStreaming c!"in"))) (expressionListS R)) .nin]

theorem pair_free {p : K α} {q : K β} (h : ∀ i, (p i).2 = 0) (h' : ∀ i, (q i).2 = 0) (i : Input) : (pair p q i).2 = 0 :=
  Nat.le_zero.mp (pair_bound (p := p) (q := q) (i := i) (a := 0) (b := 0) (Nat.le_of_eq (h i)) fun r _ _ => Nat.le_of_eq (h' r))

omit [KRecGood R] [RecLin R] in
theorem inOps_free (i : Input) : (inOps R i).2 = 0 := by
  refine alt_free ?_ ?_
  · exact pair_free (p := terminated (tagNoCase c!"in") sp) (pair_free (p := tagNoCase c!"in") (q := sp) (fun _ => rfl) fun _ => rfl) expressionListS_free i
  · exact pair_free (p := terminated (tagNoCaseStreaming c!"not") (spEnc1 (tagNoCaseStreaming c!"in")))
      (pair_free (p := tagNoCaseStreaming c!"not") (q := spEnc1 (tagNoCaseStreaming c!"in")) (fun _ => rfl)
        (pair_free (p := sp1) (q := terminated (tagNoCaseStreaming c!"in") sp1) (fun _ => rfl) (pair_free (p := tagNoCaseStreaming c!"in") (q := sp1) (fun _ => rfl) fun _ => rfl)))
      expressionListS_free i

/-- `<` and `<=`. -/
theorem less_ex {c : Char} [KwTag [c]] {p : K α} {i : Input} (hp : ∀ s, Dead 0 p ('=' :: s)) (hi : ∃ s, i = c :: '=' :: s) :
    Dead 0 (precededTag [c] p) i := by
  obtain ⟨s, rfl⟩ := hi
  refine .tag0 fun k w x e hk hw hx => ?_
  obtain ⟨d, _, rfl, hd, h⟩ := CaseVariant.cons_iff.mp hk
  cases h
  injection e with e1 e2
  cases w with
  | nil => cases e2; exact hp _
  | cons y w =>
    injection e2 with e2 e3
    subst e2
    exact absurd (ws_first hw _ _ rfl) (by decide)


theorem lessEq_ex {c : Char} [KwTag [c, '=']] {p : K α} {i : Input} (hc : upperOf c = c) (hi : ∀ s, i ≠ c :: '=' :: s) : Dead 0 (precededTag [c, '='] p) i := by
  refine .tag0 fun k w x e hk hw hx => ?_
  obtain ⟨d, _, rfl, hd, h⟩ := CaseVariant.cons_iff.mp hk
  obtain ⟨d', _, rfl, hd', h⟩ := CaseVariant.cons_iff.mp h
  cases h
  have h1 : d = c := (sameLetter_cases hd).elim id fun h => h.trans hc
  have h2 : d' = '=' := (sameLetter_cases hd').elim id fun h => h.trans (by decide)
  subst h1 h2
  exact absurd e (hi _)

instance : Lin W 0 0 (Aft addL) (opExpressionS R) := by
  have hp : ∀ {c : Char} {t : Str} {f : AdditiveExpression → OpExpression}, Lin W 0 0 (Aft addL) (map (precededTag (c :: t) (additiveExpressionS R)) f) := fun {c t f} =>
    Lin.lit inferInstance (by omega) (by omega) fun _ h => h
  have h0 : Lin W 0 0 (Aft addL) (inOps R) := Lin.free inOps_free
  have h1 := Lin.first (hp (c := '>') (t := ['=']) (f := OpExpression.ge)) h0 ['>'] (fun c h => by simpa using lower_sym h (by simp)) (by decide +kernel)
  have h2 := Lin.first (hp (c := '<') (t := ['=']) (f := OpExpression.le)) h1 ['<'] (fun c h => by simpa using lower_sym h (by simp)) (by decide +kernel)
  have hd : ∀ s, Dead 0 (additiveExpressionS R) ('=' :: s) := fun s => KFirst.cons (by decide +kernel)
  have h3 : Lin W 0 0 (Aft addL) (alt (map (precededTag c!">" (additiveExpressionS R)) OpExpression.gt :: _)) := Lin.excl hp h2 fun i => by
    by_cases hi : ∃ s, i = '>' :: '=' :: s
    · exact .inl (.map (less_ex hd hi))
    · rcases KFirst.or_hd (p := map (precededTag c!">" (additiveExpressionS R)) OpExpression.gt) (L := ['>']) (fun c h => by simpa using lower_sym h (by simp)) i with h | h
      · exact .inl h
      · exact .inr (.alt (c := 0) (c' := 0) (KFirst.hd h (by decide)) (.alt (c := 0) (c' := 0) (.map (lessEq_ex (by decide) fun s e => hi ⟨s, e⟩)) (KFirst.hd h (by decide +kernel))))
  have h4 : Lin W 0 0 (Aft addL) (alt (map (precededTag c!"<" (additiveExpressionS R)) OpExpression.lt :: _)) := Lin.excl hp h3 fun i => by
    by_cases hi : ∃ s, i = '<' :: '=' :: s
    · exact .inl (.map (less_ex hd hi))
    · rcases KFirst.or_hd (p := map (precededTag c!"<" (additiveExpressionS R)) OpExpression.lt) (L := ['<']) (fun c h => by simpa using lower_sym h (by simp)) i with h | h
      · exact .inl h
      · exact .inr (.alt (c := 0) (c' := 0) (KFirst.hd h (by decide)) (.alt (c := 0) (c' := 0) (.map (lessEq_ex (by decide) fun s e => hi ⟨s, e⟩)) (KFirst.hd h (by decide +kernel))))
  have h5 := Lin.first (hp (c := '!') (t := ['=']) (f := OpExpression.ne)) h4 ['!'] (fun c h => by simpa using lower_sym h (by simp)) (by decide +kernel)
  exact Lin.first (hp (c := '=') (t := []) (f := OpExpression.eq)) h5 ['='] (fun c h => by simpa using lower_sym h (by simp)) (by decide +kernel)

omit [KRecGood R] [RecLin R] in
/-- Only the symbols make calls. -/
theorem op_or (i : Input) : (opExpressionS R i).2 = 0 ∨ Hd ['=', '!', '<', '>'] i := by
  by_cases h : Hd ['=', '!', '<', '>'] i
  · exact .inr h
  · have hd : ∀ {c : Char} {t : Str} {f : AdditiveExpression → OpExpression}, c ∈ ['=', '!', '<', '>'] → (map (precededTag (c :: t) (additiveExpressionS R)) f i).2 = 0 := by
      intro c t f hc
      have hc' : c ∈ ['!', '+', '-', '*', '/', '=', '<', '>'] := by revert c; decide
      rcases KFirst.or_hd (p := map (precededTag (c :: t) (additiveExpressionS R)) f) (L := [c]) (fun d h => by simpa using lower_sym h hc') i with h' | ⟨d, s, rfl, h'⟩
      · exact Nat.le_zero.mp h'.1
      · simp only [List.mem_singleton] at h'
        subst h'
        exact absurd ⟨d, s, rfl, hc⟩ h
    exact .inl (alt_free (hd (by simp)) (alt_free (hd (by simp)) (alt_free (hd (by simp)) (alt_free (hd (by simp)) (alt_free (hd (by simp)) (alt_free (hd (by simp)) (inOps_free i)))))))

instance : Lin W 0 0 (Aft relL) (opt (preceded sp (opExpressionS R))) := by
  refine Lin.weaken (Lin.opt (c := 0) (D' := Aft relL) (p := preceded sp (opExpressionS R)) inferInstance (by omega) (fun _ h => Aft.mono h (by decide)) fun i pos x e => ?_)
    (by omega) (by omega) fun _ h => h
  cases hs : NomSparql.sp i with
  | err y =>
    left
    have : Dead 0 (preceded sp (opExpressionS R)) i := .map (.pair ⟨Nat.le_refl _, fun r a e => by
      have e : NomSparql.sp i = .ok r a := e
      rw [hs] at e; cases e⟩)
    exact this.1
  | ok r w =>
    rw [preceded_run (p := sp) (r := r) (a := w) (by unfold sp lift; rw [hs])]
    rcases op_or (R := R) r with h | h
    · exact .inl (Nat.le_of_eq h)
    · exact .inr (Aft.mono (Aft.of_sp hs h (by decide)) (by decide))

instance : Idle 0 (Aft addL) (Aft relL) (opt (preceded sp (opExpressionS R))) := by
  have h : Idle 0 (Aft addL) NoD (preceded sp (opExpressionS R)) := Dead.idle fun _ h => .map (Aft.dead_sp h (by decide +kernel))
  exact Idle.weaken (D := Aft addL) (D' := Aft addL) (inferInstance : Idle 0 (Aft addL) (Aft addL) (opt (preceded sp (opExpressionS R)))) (Nat.le_refl _) (fun _ h => h)
    fun _ h => Aft.mono h (by decide)

instance : Lin W 3 1 (Aft relL) (relationalExpressionS R) :=
  Lin.lit (p := map (pair (additiveExpressionS R) (opt (preceded sp (opExpressionS R)))) _) inferInstance (by omega) (by omega) fun _ h => h

/-! ### Lists of operands -/

theorem spEnc_free {t : Str} (i : Input) : (spEnc (tag t) i).2 = 0 :=
  pair_free (p := sp) (q := terminated (tag t) sp) (fun _ => rfl) (pair_free (p := tag t) (q := sp) (fun _ => rfl) fun _ => rfl) i

theorem Aft.of_sep {c : Char} {t : Str} {i r : Input} {a} (hc : wsStart c = false) (e : (spEnc (tag (c :: t)) i).1 = .ok r a) : Aft [c] i := by
  obtain ⟨a, e⟩ := map_ok e
  obtain ⟨r₁, w, y, e1, e2, _⟩ := pair_ok e
  obtain ⟨a, e2⟩ := map_ok e2
  obtain ⟨r₂, w₂, y₂, e3, _⟩ := pair_ok e2
  have e3 : NomSparql.tag (c :: t) r₁ = .ok r₂ w₂ := e3
  obtain ⟨rfl, rfl⟩ := tag_ok.mp e3
  obtain ⟨rfl, hw, _⟩ := sp_ok_iff.mp e1
  exact ⟨w, c, t ++ r₂, by simp, hw, by simp, hc⟩

theorem Aft.no_sep {c : Char} {t : Str} {i : Input} {L : List Char} (h : Aft L i) (hc : c ∉ L) {r : Input} {a} (hw : wsStart c = false) : (spEnc (tag (c :: t)) i).1 ≠ .ok r a := by
  intro e
  obtain ⟨r', w, e', ⟨d, s, rfl, hd⟩, _⟩ := (Aft.of_sep hw e).skip
  obtain ⟨r'', w', e'', ⟨d', s', rfl, hd'⟩, _⟩ := h.skip
  rw [e'] at e''
  cases e''
  simp only [List.mem_singleton] at hd
  subst hd
  exact hc hd'

theorem andRule : ListRule W 3 1 (Aft relL) (Aft andL) 0 (spEnc (tag c!"&&")) (relationalExpressionS R) where
  lin := inferInstance
  free := spEnc_free
  wake _ _ _ _ _ e _ := .inr (Aft.mono (Aft.of_sep rfl e) (by decide))
  stop _ h := ⟨Aft.mono h (by decide), fun _ _ e => absurd e (Aft.no_sep h (by decide) rfl)⟩

instance : Lin W 3 1 (Aft andL) (conditionalAndExpressionS R) := by
  have := (andRule (R := R) (W := W)).lin1 (by omega)
  exact Lin.weaken (p := map (separatedNonemptyList (spEnc (tag c!"&&")) (relationalExpressionS R)) _) inferInstance (by omega) (by omega) fun _ h => h

theorem orRule : ListRule W 3 1 (Aft andL) De 0 (spEnc (tag c!"||")) (conditionalAndExpressionS R) where
  lin := inferInstance
  free := spEnc_free
  wake _ _ _ _ _ e _ := .inr (Aft.mono (Aft.of_sep rfl e) (by decide))
  stop _ h := ⟨Aft.mono h (by decide), fun _ _ e => absurd e (Aft.no_sep h (by decide) rfl)⟩

instance : Lin W 3 1 De (expressionStep R) := by
  have := (orRule (R := R) (W := W)).lin1 (by omega)
  exact Lin.weaken (p := map (separatedNonemptyList (spEnc (tag c!"||")) (conditionalAndExpressionS R)) _) inferInstance (by omega) (by omega) fun _ h => h

/-! ### The other facts about expressions -/

theorem Dead.tick {c : Nat} {p : K α} {i : Input} (h : Dead c p i) : Dead (c + 1) (tick p) i := ⟨Nat.succ_le_succ h.1, h.2⟩

omit [KRecGood R] in
theorem expressionStep_unit {w s : Str} (hw : Ws w) : Dead 1 (expressionStep R) ('(' :: (w ++ ')' :: s)) := by
  have h1 : Dead 1 (brackettedExpressionS R) ('(' :: (w ++ ')' :: s)) := by
    have h2 : Dead 1 (spEnc R.expr) (w ++ ')' :: s) := by
      refine .map (.pair2 fun r a e => ?_)
      rw [sp_eval hw (not_startsWs_cons rfl)] at e
      cases e
      exact .map (.pair (RecLin.close s))
    refine .map (.pair2 fun r a e => ?_)
    cases (NomSparql.char_ok.mp e).2
    exact .map (.pair h2)
  have h2 : Dead 1 (primaryExpressionS R) ('(' :: (w ++ ')' :: s)) := .alt (c := 1) (c' := 0) (.map h1) (KFirst.cons (by decide +kernel))
  have h3 : Dead 1 (unaryExpressionS R) ('(' :: (w ++ ')' :: s)) :=
    .alt (c := 0) (c' := 1) (KFirst.cons (by decide)) (.alt (c := 0) (c' := 1) (KFirst.cons (by decide)) (.alt (c := 0) (c' := 1) (KFirst.cons (by decide)) (.one (.map h2))))
  exact .map (.sep1 (.map (.sep1 (.map (.pair (.map (.pair (.map (.pair h3)))))))))

end

/-! White space before an expression: only a name with an empty prefix can follow it. -/

theorem pnameNs_ws {w s : Str} (hw : Ws w) : NomSparql.pnameNs (w ++ ':' :: s) = .ok s none := by
  have h : Fails pnPrefix (w ++ ':' :: s) := by
    cases w with
    | nil => exact First.cons (by decide +kernel)
    | cons c w =>
      refine First.cons ?_
      rcases wsStart_iff.mp (ws_first hw _ _ rfl) with rfl | rfl | rfl | rfl | rfl <;> decide +kernel
  have h1 : NomSparql.opt pnPrefix (w ++ ':' :: s) = .ok (w ++ ':' :: s) none := by
    obtain ⟨x, y, e⟩ := h
    unfold NomSparql.opt; rw [e]
  unfold NomSparql.pnameNs
  refine NomSparql.terminated_ok.mpr ⟨_, ':', h1, ?_⟩
  refine NomSparql.preceded_ok.mpr ⟨_, w, sp_eval hw (not_startsWs_cons rfl), NomSparql.char_ok.mpr ⟨rfl, rfl⟩⟩

theorem iri_ws {w s : Str} (hw : Ws w) : NomSparql.iri (w ++ ':' :: s) = NomSparql.iri (':' :: s) := by
  have h1 : ∀ w, Ws w → Fails iriRef (w ++ ':' :: s) := by
    intro w hw
    cases w with
    | nil => exact First.cons (by decide +kernel)
    | cons c w =>
      refine First.cons ?_
      rcases wsStart_iff.mp (ws_first hw _ _ rfl) with rfl | rfl | rfl | rfl | rfl <;> decide +kernel
  have h2 : ∀ w, Ws w → NomSparql.iri (w ++ ':' :: s) = NomSparql.map prefixedName Iri.prefixedName (w ++ ':' :: s) := by
    intro w hw
    obtain ⟨x, y, e⟩ := h1 w hw
    unfold NomSparql.iri
    simp [NomSparql.alt, NomSparql.map, e]
  have h3 : ∀ w, Ws w → NomSparql.pair NomSparql.pnameNs (NomSparql.preceded NomSparql.sp pnLocal) (w ++ ':' :: s) = NomSparql.pair NomSparql.pnameNs (NomSparql.preceded NomSparql.sp pnLocal) (':' :: s) := by
    intro w hw
    unfold NomSparql.pair
    rw [pnameNs_ws hw, show NomSparql.pnameNs (':' :: s) = _ from pnameNs_ws (w := []) .nil]
  rw [h2 w hw, show NomSparql.iri (':' :: s) = _ from h2 [] .nil]
  unfold prefixedName pnameLn
  simp only [NomSparql.alt, NomSparql.map, List.nil_append, h3 w hw, pnameNs_ws hw, show NomSparql.pnameNs (':' :: s) = _ from pnameNs_ws (w := []) .nil]

theorem iri_ws_ok {w x r : Str} {a : Iri} (hw : Ws1 w) (hx : ¬ StartsWs x) (e : NomSparql.iri (w ++ x) = .ok r a) : ∃ s, x = ':' :: s := by
  obtain ⟨hw, hn⟩ := hw
  have key : ∀ {r a}, NomSparql.pnameNs (w ++ x) = .ok r a → ∃ s, x = ':' :: s := by
    intro r a e
    unfold NomSparql.pnameNs at e
    obtain ⟨r₁, _, e1, e2⟩ := NomSparql.terminated_ok.mp e
    have hf : Fails pnPrefix (w ++ x) := by
      cases w with
      | nil => contradiction
      | cons c w =>
        refine First.cons ?_
        rcases wsStart_iff.mp (ws_first hw _ _ rfl) with rfl | rfl | rfl | rfl | rfl <;> decide +kernel
    obtain ⟨y, z, hf⟩ := hf
    unfold NomSparql.opt at e1
    rw [hf] at e1
    cases e1
    obtain ⟨r₂, w₂, e3, e4⟩ := NomSparql.preceded_ok.mp e2
    rw [sp_eval hw hx] at e3
    cases e3
    exact ⟨_, (NomSparql.char_ok.mp e4).2⟩
  unfold NomSparql.iri at e
  obtain ⟨p, hp, e⟩ := alt_ok e
  simp only [List.mem_cons, List.not_mem_nil, or_false] at hp
  rcases hp with rfl | rfl
  · exfalso
    have hf : Fails iriRef (w ++ x) := by
      cases w with
      | nil => contradiction
      | cons c w =>
        refine First.cons ?_
        rcases wsStart_iff.mp (ws_first hw _ _ rfl) with rfl | rfl | rfl | rfl | rfl <;> decide +kernel
    obtain ⟨_, e, _⟩ := NomSparql.map_ok.mp e
    obtain ⟨_, _, e'⟩ := hf
    rw [e] at e'; cases e'
  · obtain ⟨_, e, _⟩ := NomSparql.map_ok.mp e
    unfold prefixedName at e
    obtain ⟨p, hp, e⟩ := alt_ok e
    simp only [List.mem_cons, List.not_mem_nil, or_false] at hp
    rcases hp with rfl | rfl
    · obtain ⟨_, e, _⟩ := NomSparql.map_ok.mp e
      unfold pnameLn at e
      obtain ⟨r₁, e1, _⟩ := pair_ok_iff.mp e
      exact key e1
    · obtain ⟨_, e, _⟩ := NomSparql.map_ok.mp e
      exact key e

/-- A success at `i` is the same success at `j`. -/
def Same (p : K α) (i j : Input) : Prop := ∀ r a, (p i).1 = .ok r a → (p j).1 = .ok r a ∧ (p j).2 = (p i).2

section
variable {p : K α} {q : K β} {i j : Input}

theorem Same.map {f : α → β} (h : Same p i j) : Same (map p f) i j := by
  intro r a e
  have e : NomSparql.map (erase p) f i = .ok r a := e
  obtain ⟨x, e1, rfl⟩ := NomSparql.map_ok.mp e
  obtain ⟨h1, h2⟩ := h r x e1
  exact ⟨NomSparql.map_ok.mpr ⟨x, h1, rfl⟩, h2⟩

theorem Same.pair (h : Same p i j) : Same (pair p q) i j := by
  intro r a e
  have e' : NomSparql.pair (erase p) (erase q) i = .ok r a := e
  obtain ⟨r₁, e1, e2⟩ := pair_ok_iff.mp e'
  obtain ⟨h1, h2⟩ := h r₁ _ e1
  refine ⟨pair_ok_iff.mpr ⟨r₁, h1, e2⟩, ?_⟩
  show (p j).2 + _ = (p i).2 + _
  rw [h1, h2, show (p i).1 = _ from e1]

theorem Same.sep1 {s : K γ} [KConsumes p] (h : Same p i j) : Same (separatedNonemptyList s p) i j := by
  intro r a e
  have e : NomSparql.separatedNonemptyList (erase s) (erase p) i = .ok r a := e
  unfold Cost.separatedNonemptyList listCost
  unfold NomSparql.separatedNonemptyList at e ⊢
  rw [show erase p i = (p i).1 from rfl] at e
  rw [show erase p j = (p j).1 from rfl]
  cases e1 : (p i).1 with
  | err x => rw [e1] at e; cases e
  | ok r₁ x =>
    rw [e1] at e
    obtain ⟨h1, h2⟩ := h r₁ x e1
    have hl := KConsumes.out.out (p := erase p) _ _ _ h1
    have hne : r₁ ≠ j := by rintro rfl; omega
    rw [h1, h2]
    simp only at e ⊢
    split at e
    · cases e
    · rename_i hne'
      rw [if_neg hne, if_neg hne, if_neg hne']
      exact ⟨e, rfl⟩

end

section
variable {R : Rec} [KRecGood R]

abbrev wsL : List Char := [' ', '\t', '\r', '\n', '#']

theorem Hd.ws {w x : Str} (hw : Ws1 w) : Hd wsL (w ++ x) := by
  obtain ⟨hw, hn⟩ := hw
  cases w with
  | nil => contradiction
  | cons c w =>
    refine ⟨c, w ++ x, rfl, ?_⟩
    rcases wsStart_iff.mp (ws_first hw _ _ rfl) with rfl | rfl | rfl | rfl | rfl <;> simp

theorem Same.one {p : K α} {i j : Input} (h : Same p i j) : Same (Cost.alt [p]) i j := h

theorem alt_iff {p q : K α} {qs : List (K α)} {i j : Input} (h : KFails p i) (h' : KFails p j) (hs : Same (alt (q :: qs)) i j) : Same (alt (p :: q :: qs)) i j := by
  intro r a e
  rw [alt_next h] at e ⊢
  rw [alt_next h']
  exact hs r a e

omit [KRecGood R] in
theorem primary_shift {w x : Str} (hw : Ws1 w) (hx : ¬ StartsWs x) : Same (primaryExpressionS R) (w ++ x) x := by
  have hd := Hd.ws (x := x) hw
  by_cases h : ∃ s, x = ':' :: s
  · obtain ⟨s, rfl⟩ := h
    have hc : Hd [':'] (':' :: s) := ⟨_, _, rfl, by simp⟩
    unfold primaryExpressionS
    refine alt_iff (.hd (p' := NomSparql.map (NomSparql.brackettedExpressionS (eraseR R)) PrimaryExpression.brackettedExpression) hd (by simp) (by decide +kernel) (by decide +kernel))
      (.hd (p' := NomSparql.map (NomSparql.brackettedExpressionS (eraseR R)) PrimaryExpression.brackettedExpression) hc (by simp) (by decide +kernel) (by decide +kernel))
      (alt_iff (.hd (p' := NomSparql.map (NomSparql.builtInCallS (eraseR R)) PrimaryExpression.builtInCall) hd (by simp) (by decide +kernel) (by decide +kernel))
        (.hd (p' := NomSparql.map (NomSparql.builtInCallS (eraseR R)) PrimaryExpression.builtInCall) hc (by simp) (by decide +kernel) (by decide +kernel)) ?_)
    intro r a e
    have e1 : map (iriOrFunS R) PrimaryExpression.iriOrFunction (w ++ ':' :: s) = map (iriOrFunS R) PrimaryExpression.iriOrFunction (':' :: s) := by
      simp only [iriOrFunS, map, pair, erase, iri, lift, NomSparql.map, NomSparql.pair, iri_ws hw.1]
    have l := alt_head (p := map (iriOrFunS R) PrimaryExpression.iriOrFunction) (q := map rdfLiteral PrimaryExpression.rdfLiteral) (qs := [map numericLiteral .numericLiteral,
      map boolean .booleanLiteral, map var .var]) (i := w ++ ':' :: s) (KFirst.hd hd (by decide +kernel))
    have e2 := l.2 r a e
    have e3 : map (iriOrFunS R) PrimaryExpression.iriOrFunction (':' :: s) = (.ok r a, 0) := by
      rw [e1] at e2
      exact Prod.ext e2 (iriOrFunS_free _)
    have e4 : (alt [map (iriOrFunS R) PrimaryExpression.iriOrFunction, map rdfLiteral .rdfLiteral, map numericLiteral .numericLiteral,
      map boolean .booleanLiteral, map var .var] (':' :: s)) = (.ok r a, 0) := alt_now e3
    rw [e4]
    exact ⟨rfl, (atoms_free _).symm⟩
  · intro r a e
    exfalso
    have : Dead 0 (primaryExpressionS R) (w ++ x) := by
      refine .alt (c := 0) (c' := 0) (KFirst.hd hd (by decide +kernel)) (.alt (c := 0) (c' := 0) (KFirst.hd hd (by decide +kernel))
        (.alt (c := 0) (c' := 0) (.map (.map (.pair ⟨Nat.le_refl _, fun r a e => h (iri_ws_ok hw hx e)⟩))) (KFirst.hd hd (by decide +kernel))))
    exact this.2 r a e

omit [KRecGood R] in
theorem unary_shift {w x : Str} (hw : Ws1 w) (hx : ¬ StartsWs x) : Same (unaryExpressionS R) (w ++ x) x := by
  have hd := Hd.ws (x := x) hw
  intro r a e
  have h1 : Dead 0 (alt [map (precededTag c!"!" (primaryExpressionS R)) UnaryExpression.not, map (precededTag c!"+" (primaryExpressionS R)) .add,
    map (precededTag c!"-" (primaryExpressionS R)) .sub]) (w ++ x) := KFirst.hd hd (by decide +kernel)
  by_cases h : ∃ s, x = ':' :: s
  · obtain ⟨s, rfl⟩ := h
    have hc : Hd [':'] (':' :: s) := ⟨_, _, rfl, by simp⟩
    unfold unaryExpressionS at e ⊢
    refine alt_iff (.hd (p' := NomSparql.map (NomSparql.precededTag c!"!" (NomSparql.primaryExpressionS (eraseR R))) UnaryExpression.not) hd (by simp) (by decide +kernel) (by decide +kernel))
      (.hd (p' := NomSparql.map (NomSparql.precededTag c!"!" (NomSparql.primaryExpressionS (eraseR R))) UnaryExpression.not) hc (by simp) (by decide +kernel) (by decide +kernel))
      (alt_iff (.hd (p' := NomSparql.map (NomSparql.precededTag c!"+" (NomSparql.primaryExpressionS (eraseR R))) UnaryExpression.add) hd (by simp) (by decide +kernel) (by decide +kernel))
      (.hd (p' := NomSparql.map (NomSparql.precededTag c!"+" (NomSparql.primaryExpressionS (eraseR R))) UnaryExpression.add) hc (by simp) (by decide +kernel) (by decide +kernel))
      (alt_iff (.hd (p' := NomSparql.map (NomSparql.precededTag c!"-" (NomSparql.primaryExpressionS (eraseR R))) UnaryExpression.sub) hd (by simp) (by decide +kernel) (by decide +kernel))
      (.hd (p' := NomSparql.map (NomSparql.precededTag c!"-" (NomSparql.primaryExpressionS (eraseR R))) UnaryExpression.sub) hc (by simp) (by decide +kernel) (by decide +kernel))
      (.one (.map (primary_shift hw hx))))) r a e
  · exfalso
    have : Dead 0 (primaryExpressionS R) (w ++ x) := by
      refine .alt (c := 0) (c' := 0) (KFirst.hd hd (by decide +kernel)) (.alt (c := 0) (c' := 0) (KFirst.hd hd (by decide +kernel))
        (.alt (c := 0) (c' := 0) (.map (.map (.pair ⟨Nat.le_refl _, fun r a e => h (iri_ws_ok hw hx e)⟩))) (KFirst.hd hd (by decide +kernel))))
    have : Dead 0 (unaryExpressionS R) (w ++ x) := .alt (c := 0) (c' := 0) (KFirst.hd hd (by decide +kernel)) (.alt (c := 0) (c' := 0) (KFirst.hd hd (by decide +kernel))
      (.alt (c := 0) (c' := 0) (KFirst.hd hd (by decide +kernel)) (.one (.map this))))
    exact this.2 r a e

theorem expressionStep_shift {w x : Str} (hw : Ws w) (hx : ¬ StartsWs x) : Same (expressionStep R) (w ++ x) x := by
  by_cases hn : w = []
  · subst hn
    exact fun r a e => ⟨e, rfl⟩
  · exact .map (.sep1 (.map (.sep1 (.map (.pair (.map (.pair (.map (.pair (unary_shift ⟨hw, hn⟩ hx))))))))))

end
/-! ## Clauses -/

section
variable {R : Rec} [KRecGood R] [RecLin R] {W : Nat} {D' : Input → Prop}

instance : Idle 0 De D' (spEnc (tagNoCase c!"as")) := Dead.idle fun _ h => .map (Aft.dead_sp (p := terminated (tagNoCase c!"as") sp) h (by decide))

omit [KRecGood R] [RecLin R] in
theorem optAs_free (i : Input) : (opt (preceded (spEnc1 (tagNoCase c!"as")) var) i).2 = 0 :=
  pair_free (p := spEnc1 (tagNoCase c!"as")) (q := var) (pair_free (p := sp1) (q := terminated (tagNoCase c!"as") sp1) (fun _ => rfl)
    (pair_free (p := tagNoCase c!"as") (q := sp1) (fun _ => rfl) fun _ => rfl)) (fun _ => rfl) i
instance : Lin W 0 0 De (opt (preceded (spEnc1 (tagNoCase c!"as")) var)) := Lin.free optAs_free
instance : Lin W 4 0 NoD (expressionAsVarOptS R) :=
  Lin.lit (p := delimited (char '(') (spEnc (map (pair R.expr (opt (preceded (spEnc1 (tagNoCase c!"as")) var))) _)) (char ')')) inferInstance (by omega) (by omega) fun _ h => h
instance : Lin W 4 0 NoD (expressionAsVarS R) :=
  Lin.lit (p := delimited (char '(') (spEnc (map (separatedPair R.expr (spEnc (tagNoCase c!"as")) var) _)) (char ')')) inferInstance (by omega) (by omega) fun _ h => h
instance : Lin W 4 0 NoD (bindS R) := Lin.lit (p := precededTag1 c!"bind" (expressionAsVarS R)) inferInstance (by omega) (by omega) fun _ h => h

omit [KRecGood R] [RecLin R] in
theorem functionCallS_free (i : Input) : (functionCallS R i).2 = 0 :=
  pair_free (p := iri) (q := preceded sp (argListS R)) (fun _ => rfl) (pair_free (p := sp) (q := argListS R) (fun _ => rfl) argListS_free) i

omit [KRecGood R] [RecLin R] in
/-- A call of a function does not begin with the word of a built-in call, unless a colon follows. -/
theorem Call.noFun {t i : Str} (h : Call t i) (ht : t ∈ callTags') : Dead 0 (functionCallS R) i := by
  obtain ⟨x, u, rfl, hx⟩ := callTags'_head t ht
  exact .map (.pair (.lift (h.iri hx (callTags'_plain _ ht))))

omit [KRecGood R] [RecLin R] in
theorem Call.first {p : K α} {F} [KFirst p F] {t i : Str} (h : At t i) (ht : t ∈ callTags')
    (hF : ∀ t ∈ callTags', (match t with | [] => false | x :: _ => F x || F (upperOf x)) = false) : Dead 0 p i := by
  obtain ⟨x, u, rfl, hx⟩ := callTags'_head t ht
  obtain ⟨y, s, rfl, hy⟩ := h.head
  have := hF _ ht
  simp only [Bool.or_eq_false_iff] at this
  rcases hy with rfl | rfl
  · exact KFirst.cons this.1
  · exact KFirst.cons this.2

instance : Lin W 3 1 NoD (constraintS R) := by
  have hk := kws_call (R := R) (W := W)
  have h0 : Lin W W 0 NoD (alt [map (functionCallS R) Constraint.functionCall]) := inferInstance
  have h1 : Lin W 3 1 NoD (alt [map (builtInCallS R) Constraint.builtInCall, map (functionCallS R) Constraint.functionCall]) := by
    refine Lin.lit (Lin.alt_cons (c := 1) (c' := 0) (D₂ := NoD) (hk.map Constraint.builtInCall).lin h0 (fun i _ _ _ => ?_) (fun _ h => h) fun _ h => h)
      (by omega) (by omega) fun _ h => h
    by_cases h : ∃ t ∈ callTags', Call t i
    · obtain ⟨t, ht, h⟩ := h
      have := (h.noFun (R := R) ht).map (f := Constraint.functionCall)
      exact .inr ⟨this.1, fun r a e => absurd e (this.2 r a)⟩
    · exact .inl (hk.call i fun t ht h' => h ⟨t, ht, h'⟩).1
  exact Lin.first (Lin.weaken (inferInstance : Lin W 3 0 NoD (map (brackettedExpressionS R) Constraint.bracketted)) (by omega) (by omega) fun _ h => h) h1
    ['('] (by simp) (by decide +kernel)

instance : Lin W 3 0 NoD (filterS R) := Lin.lit (p := precededTag1 c!"filter" (constraintS R)) inferInstance (by omega) (by omega) fun _ h => h

/-- Effort of a constraint. -/
theorem constraint_or (i : Input) : (constraintS R i).2 = 0 ∨ Hd ['('] i ∨ ∃ t ∈ callTags', At t i := by
  by_cases h : ∃ t ∈ callTags', At t i
  · exact .inr (.inr h)
  · rcases KFirst.or_hd (p := map (brackettedExpressionS R) Constraint.bracketted) (L := ['(']) (by simp) i with h1 | h1
    · have h2 := (kws_call (R := R) (W := 4)).word i fun t ht h' => h ⟨t, ht, h'⟩
      exact .inl (alt_free (Nat.le_zero.mp h1.1) (alt_free (Nat.le_zero.mp h2.1) (functionCallS_free i)))
    · exact .inr (.inl h1)

instance : Lin W 3 0 NoD (orderExpressionS R) :=
  Lin.lit (p := map (separatedPair order sp1 (brackettedExpressionS R)) _) inferInstance (by omega) (by omega) fun _ h => h

omit [KRecGood R] [RecLin R] in
theorem orderExpression_or (i : Input) : Dead 0 (orderExpressionS R) i ∨ ∃ t ∈ [c!"asc", c!"desc"], Call t i := by
  by_cases h : ∃ t ∈ [c!"asc", c!"desc"], Call t i
  · exact .inr h
  · left
    refine .map (.pair2 fun r a e => ?_)
    refine .map (.pair2 fun x w e' => ?_)
    have h1 : ∃ t ∈ [c!"asc", c!"desc"], ∃ k, i = k ++ r ∧ CaseVariant t k := by
      unfold NomSparql.order at e
      obtain ⟨p, hp, e⟩ := alt_ok e
      simp only [List.mem_cons, List.not_mem_nil, or_false] at hp
      rcases hp with rfl | rfl
      · obtain ⟨k, e, _⟩ := NomSparql.map_ok.mp e
        exact ⟨_, by simp, k, (tagNoCase_ok_iff.mp e).1, (tagNoCase_ok_iff.mp e).2⟩
      · obtain ⟨k, e, _⟩ := NomSparql.map_ok.mp e
        exact ⟨_, by simp, k, (tagNoCase_ok_iff.mp e).1, (tagNoCase_ok_iff.mp e).2⟩
    obtain ⟨t, ht, k, rfl, hk⟩ := h1
    obtain ⟨rfl, hw, hx⟩ := sp1_ok_iff.mp e'
    refine KFirst.out (F := (· == '(')) x fun d s e => ?_
    subst e
    cases hd : d == '(' with
    | false => exact hd
    | true =>
      simp only [beq_iff_eq] at hd
      subst hd
      exact absurd ⟨t, ht, k, _, rfl, hk, Follow.ws_close hw.1 (by simp)⟩ h

instance : Lin W 3 1 NoD (orderConditionS R) := by
  have h0 : Lin W 3 1 NoD (alt [map var OrderCondition.var]) := Lin.lit (inferInstance : Lin W W 0 NoD _) (by omega) (by omega) fun _ h => h
  have hv : Lin W 3 1 NoD (alt [map (constraintS R) OrderCondition.constraint, map var OrderCondition.var]) := by
    refine Lin.excl inferInstance h0 fun i => ?_
    rcases KFirst.or_hd (p := alt [map var OrderCondition.var]) (L := ['?', '$']) (by simp) i with h | h
    · exact .inr h
    · exact .inl (KFirst.hd h (by decide +kernel))
  refine Lin.excl (Lin.weaken (inferInstance : Lin W 3 0 NoD (map (orderExpressionS R) OrderCondition.order)) (by omega) (by omega) fun _ h => h) hv fun i => ?_
  rcases orderExpression_or (R := R) i with h | ⟨t, ht, h⟩
  · exact .inl (.map h)
  · right
    have hx : ∃ x u, t = x :: u ∧ AsciiLetter x ∧ (∀ c ∈ t, KwLetter c) ∧ (x = 'a' ∨ x = 'd') ∧ t ∉ callTags' := by
      simp only [List.mem_cons, List.not_mem_nil, or_false] at ht
      rcases ht with rfl | rfl
      · exact ⟨_, _, rfl, by decide, by decide, by simp, by decide⟩
      · exact ⟨_, _, rfl, by decide, by decide, by simp, by decide⟩
    obtain ⟨x, u, rfl, hx, hu, hxx, hn⟩ := hx
    obtain ⟨y, s, e, hy⟩ := h.at.head
    have hd : Hd ['a', 'A', 'd', 'D'] i := by
      refine ⟨y, s, e, ?_⟩
      rcases hxx with rfl | rfl <;> rcases hy with rfl | rfl <;> decide
    have hb := (kws_call (R := R) (W := W)).word i fun t ht h' => hn (h.at.inj h' hu (callTags'_plain t ht) ▸ ht)
    refine .alt (c := 0) (c' := 0) (.map (.alt (c := 0) (c' := 0) (KFirst.hd hd (by decide)) (.alt (c := 0) (c' := 0) (.map hb) (.one (.map (.map (.pair (.lift (h.iri hx hu))))))))) (KFirst.hd hd (by decide))

theorem orderCondition_or (i : Input) : (orderConditionS R i).2 = 0 ∨ Hd ['('] i ∨ ∃ t ∈ callTags' ++ [c!"asc", c!"desc"], At t i := by
  rcases orderExpression_or (R := R) i with h | ⟨t, ht, h⟩
  · rcases constraint_or (R := R) i with h1 | h1 | ⟨t, ht, h1⟩
    · exact .inl (alt_free (Nat.le_zero.mp h.1) (alt_free h1 rfl))
    · exact .inr (.inl h1)
    · exact .inr (.inr ⟨t, by simp [ht], h1⟩)
  · exact .inr (.inr ⟨t, List.mem_append_right _ ht, h.at⟩)

instance : Lin W 3 1 NoD (groupConditionS R) := by
  have hk := kws_call (R := R) (W := W)
  have h0 : Lin W 4 0 NoD (alt [map var GroupCondition.var]) := Lin.lit (inferInstance : Lin W W 0 NoD _) (by omega) (by omega) fun _ h => h
  have h1 : Lin W 4 0 NoD (alt [map (expressionAsVarOptS R) GroupCondition.expressionAsVarOpt, map var GroupCondition.var]) :=
    Lin.first inferInstance h0 ['('] (by simp) (by decide +kernel)
  have h2 : Lin W 4 0 NoD (alt [map (functionCallS R) GroupCondition.functionCall, map (expressionAsVarOptS R) GroupCondition.expressionAsVarOpt, map var GroupCondition.var]) :=
    Lin.zero (Lin.lit (inferInstance : Lin W W 0 NoD (map (functionCallS R) GroupCondition.functionCall)) (by omega) (by omega) fun _ h => h) h1 functionCallS_free
  refine Lin.lit (Lin.alt_cons (c := 1) (c' := 0) (D₂ := NoD) (hk.map GroupCondition.builtInCall).lin h2 (fun i _ _ _ => ?_) (fun _ h => h) fun _ h => h)
    (by omega) (by omega) fun _ h => h
  by_cases h : ∃ t ∈ callTags', Call t i
  · obtain ⟨t, ht, h⟩ := h
    have : Dead 0 (alt [map (functionCallS R) GroupCondition.functionCall, map (expressionAsVarOptS R) GroupCondition.expressionAsVarOpt, map var GroupCondition.var]) i :=
      .alt (c := 0) (c' := 0) (.map (h.noFun ht)) (Call.first h.at ht (by decide +kernel))
    exact .inr ⟨this.1, fun r a e => absurd e (this.2 r a)⟩
  · exact .inl (hk.call i fun t ht h' => h ⟨t, ht, h'⟩).1

theorem groupCondition_or (i : Input) : (groupConditionS R i).2 = 0 ∨ Hd ['('] i ∨ ∃ t ∈ callTags', At t i := by
  by_cases h : ∃ t ∈ callTags', At t i
  · exact .inr (.inr h)
  · rcases KFirst.or_hd (p := map (expressionAsVarOptS R) GroupCondition.expressionAsVarOpt) (L := ['(']) (by simp) i with h1 | h1
    · have h2 := (kws_call (R := R) (W := 4)).word i fun t ht h' => h ⟨t, ht, h'⟩
      exact .inl (alt_free (Nat.le_zero.mp h2.1) (alt_free (functionCallS_free i) (alt_free (Nat.le_zero.mp h1.1) rfl)))
    · exact .inr (.inl h1)

/-! ### Solution modifiers -/

/-- After white space a parenthesis or one of the words `ts`. -/
def DT (ts : List Str) (i : Input) : Prop := ∃ w x, i = w ++ x ∧ Ws w ∧ ¬ StartsWs x ∧ (Hd ['('] x ∨ ∃ t ∈ ts, At t x)

theorem DT.mono {ts us : List Str} {i : Input} (h : DT ts i) (hs : ∀ t ∈ ts, t ∈ us) : DT us i := by
  obtain ⟨w, x, rfl, hw, hx, h⟩ := h
  exact ⟨w, x, rfl, hw, hx, h.imp id fun ⟨t, ht, h⟩ => ⟨t, hs t ht, h⟩⟩

theorem DT.of_sp {ts : List Str} {i r w : Input} (e : NomSparql.sp i = .ok r w) (h : Hd ['('] r ∨ ∃ t ∈ ts, At t r) : DT ts i := by
  obtain ⟨rfl, hw, hx⟩ := sp_ok_iff.mp e
  exact ⟨w, r, rfl, hw, hx, h⟩

theorem DT.dead {ts : List Str} {i : Input} {p : K α} (h : DT ts i) (hp : ∀ x, Hd ['('] x ∨ (∃ t ∈ ts, At t x) → Dead 0 p x) : Dead 0 (preceded sp p) i := by
  obtain ⟨w, x, rfl, hw, hx, h⟩ := h
  refine .map (.pair2 fun r a e => ?_)
  rw [sp_eval hw hx] at e
  cases e
  exact hp x h

theorem DT.tag {u : Str} {ts : List Str} {x : Input} {F : Char → Bool} (h : Hd ['('] x ∨ ∃ t ∈ ts, At t x) [First (NomSparql.tagNoCase u) F] (hF : F '(' = false)
    (hc : ts.all (fun t => u.all (fun c => decide (KwLetter c)) && t.all (fun c => decide (KwLetter c)) && clash u t) = true) : Fails (NomSparql.tagNoCase u) x := by
  rcases h with h | ⟨t, ht, h⟩
  · exact h.fails (by simpa using hF)
  · have := List.all_eq_true.mp hc t ht
    simp only [Bool.and_eq_true] at this
    exact h.fails ⟨this.1.1, this.1.2, this.2⟩

abbrev tags1 : List Str := callTags' ++ [c!"group"]
abbrev tags2 : List Str := tags1 ++ [c!"having"]
abbrev tags3 : List Str := tags2 ++ [c!"order", c!"asc", c!"desc"]

theorem groupRule : ListRule W 3 1 NoD (DT callTags') 0 sp (groupConditionS R) where
  lin := inferInstance
  free _ := rfl
  wake i r w _ _ e _ := by
    rcases groupCondition_or (R := R) r with h | h
    · exact .inl (Nat.le_of_eq h)
    · exact .inr (.of_sp e h)
  stop _ h := h.elim

theorem havingRule : ListRule W 3 1 NoD (DT callTags') 0 sp (constraintS R) where
  lin := inferInstance
  free _ := rfl
  wake i r w _ _ e _ := by
    rcases constraint_or (R := R) r with h | h
    · exact .inl (Nat.le_of_eq h)
    · exact .inr (.of_sp e h)
  stop _ h := h.elim

theorem orderRule : ListRule W 3 1 NoD (DT tags3) 0 sp (orderConditionS R) where
  lin := inferInstance
  free _ := rfl
  wake i r w _ _ e _ := by
    rcases orderCondition_or (R := R) r with h | h
    · exact .inl (Nat.le_of_eq h)
    · refine .inr (DT.mono (.of_sp e h) fun t ht => ?_)
      simp only [List.mem_append, List.mem_cons, List.not_mem_nil, or_false] at ht ⊢
      grind
  stop _ h := h.elim

instance : Lin W 3 0 (DT callTags') (groupClauseS R) := by
  have := (groupRule (R := R) (W := W)).lin1 (by omega)
  exact Lin.lit (p := map (preceded (terminated (delimited (tagNoCase c!"group") sp1 (tagNoCase c!"by")) sp1) (separatedNonemptyList sp (groupConditionS R))) _) inferInstance
    (by omega) (by omega) fun _ h => h
instance : Lin W 3 0 (DT callTags') (havingClauseS R) := by
  have := (havingRule (R := R) (W := W)).lin1 (by omega)
  exact Lin.lit (p := map (preceded (terminated (tagNoCase c!"having") sp1) (separatedNonemptyList sp (constraintS R))) _) inferInstance
    (by omega) (by omega) fun _ h => h
instance : Lin W 3 0 (DT tags3) (orderClauseS R) := by
  have := (orderRule (R := R) (W := W)).lin1 (by omega)
  exact Lin.lit (p := map (preceded (terminated (delimited (tagNoCase c!"order") sp1 (tagNoCase c!"by")) sp1) (separatedNonemptyList sp (orderConditionS R))) _) inferInstance
    (by omega) (by omega) fun _ h => h

/-- A keyword before white space. -/
theorem kw_sp1 {u : Str} [KwTag u] {i : Input} (h : ¬ At u i) {q : K β} (hq : ∀ r, (∀ x w, NomSparql.sp1 r ≠ .ok x w) → Dead 0 q r) : Dead 0 (pair (tagNoCase u) q) i := by
  refine .pair2 fun r a e => hq r fun x w e' => ?_
  obtain ⟨rfl, hk⟩ := tagNoCase_ok_iff.mp e
  obtain ⟨rfl, hw, hx⟩ := sp1_ok_iff.mp e'
  exact absurd ⟨_, _, rfl, hk, ws_notWord hw⟩ h

theorem dead_sp1 {r : Input} (h : ∀ x w, NomSparql.sp1 r ≠ .ok x w) : Dead 0 sp1 r := ⟨Nat.le_refl _, fun x w e => h x w e⟩

omit [KRecGood R] [RecLin R] in
theorem group_or (i : Input) : Dead 0 (groupClauseS R) i ∨ At c!"group" i := by
  by_cases h : At c!"group" i
  · exact .inr h
  · exact .inl (.map (.map (.pair (.map (.pair (.map (kw_sp1 h fun r hr => .map (.pair (dead_sp1 hr)))))))))
omit [KRecGood R] [RecLin R] in
theorem having_or (i : Input) : Dead 0 (havingClauseS R) i ∨ At c!"having" i := by
  by_cases h : At c!"having" i
  · exact .inr h
  · exact .inl (.map (.map (.pair (.map (kw_sp1 h fun r hr => dead_sp1 hr)))))
omit [KRecGood R] [RecLin R] in
theorem order_or (i : Input) : Dead 0 (orderClauseS R) i ∨ At c!"order" i := by
  by_cases h : At c!"order" i
  · exact .inr h
  · exact .inl (.map (.map (.pair (.map (.pair (.map (kw_sp1 h fun r hr => .map (.pair (dead_sp1 hr)))))))))

/-- A clause after white space. -/
theorem lin_optClause {p : K α} [KGood p] {ts us : List Str} {u : Str} (h : Lin W 3 0 (DT ts) p) (hp : ∀ i, Dead 0 p i ∨ At u i) (hs : ∀ t ∈ ts, t ∈ us) (hu : u ∈ us) :
    Lin W 0 0 (DT us) (opt (preceded sp p)) := by
  have h1 : Lin W 3 0 (DT ts) (preceded sp p) := Lin.weaken (inferInstance : Lin W _ _ (DT ts) (preceded sp p)) (by omega) (by omega) fun _ h => h
  refine Lin.weaken (Lin.opt (c := 0) (D' := DT us) h1 (by omega) (fun _ h => DT.mono h hs) fun i pos x e => ?_) (by omega) (by omega) fun _ h => h
  cases e' : NomSparql.sp i with
  | err y =>
    left
    have : Dead 0 (preceded sp p) i := .map (.pair ⟨Nat.le_refl _, fun r a e => by
      have e : NomSparql.sp i = .ok r a := e
      rw [e'] at e; cases e⟩)
    exact this.1
  | ok r w =>
    rw [preceded_run (p := sp) (r := r) (a := w) (by unfold sp lift; rw [e'])]
    rcases hp r with h | h
    · exact .inl h.1
    · exact .inr (.of_sp e' (.inr ⟨u, hu, h⟩))

theorem idle_optClause {p : K α} {ts us : List Str} (hp : ∀ x, Hd ['('] x ∨ (∃ t ∈ ts, At t x) → Dead 0 p x) (hs : ∀ t ∈ ts, t ∈ us) :
    Idle 0 (DT ts) (DT us) (opt (preceded sp p)) := by
  have h1 : Idle 0 (DT ts) NoD (preceded sp p) := Dead.idle fun i h => h.dead hp
  exact Idle.weaken (D := DT ts) (D' := DT ts) (inferInstance : Idle 0 (DT ts) (DT ts) (opt (preceded sp p))) (Nat.le_refl _) (fun _ h => h) fun _ h => DT.mono h hs

theorem tags12 : ∀ t ∈ tags1, t ∈ tags2 := fun _ ht => List.mem_append_left _ ht
theorem tags23 : ∀ t ∈ tags2, t ∈ tags3 := fun _ ht => List.mem_append_left _ ht

instance optGroup_lin : Lin W 0 0 (DT tags1) (opt (groupClauseS R)) := by
  refine Lin.weaken (Lin.opt (c := 0) (D' := DT tags1) (p := groupClauseS R) inferInstance (by omega) (fun _ h => DT.mono h fun t ht => List.mem_append_left _ ht) fun i pos x e => ?_)
    (by omega) (by omega) fun _ h => h
  rcases group_or (R := R) i with h | h
  · exact .inl h.1
  · obtain ⟨y, s, rfl, hy⟩ := h.head
    refine .inr ⟨[], y :: s, rfl, .nil, not_startsWs_cons ?_, .inr ⟨_, List.mem_append_right _ (by simp), h⟩⟩
    rcases hy with rfl | rfl <;> decide
instance optHaving_lin : Lin W 0 0 (DT tags2) (opt (preceded sp (havingClauseS R))) :=
  lin_optClause inferInstance having_or (fun t ht => List.mem_append_left _ (List.mem_append_left _ ht)) (List.mem_append_right _ (by simp))
instance optOrder_lin : Lin W 0 0 (DT tags3) (opt (preceded sp (orderClauseS R))) :=
  lin_optClause inferInstance order_or (fun t ht => ht) (List.mem_append_right _ (by simp))

omit [KRecGood R] [RecLin R] in
theorem DT.having {x : Input} (h : Hd ['('] x ∨ ∃ t ∈ tags1, At t x) : Dead 0 (havingClauseS R) x :=
  .map (.map (.pair (.map (.pair (.lift (DT.tag h (by decide) (by decide +kernel)))))))
omit [KRecGood R] [RecLin R] in
theorem DT.order {x : Input} (h : Hd ['('] x ∨ ∃ t ∈ tags2, At t x) : Dead 0 (orderClauseS R) x :=
  .map (.map (.pair (.map (.pair (.map (.pair (.lift (DT.tag h (by decide) (by decide +kernel)))))))))
theorem DT.limit {x : Input} (h : Hd ['('] x ∨ ∃ t ∈ tags3, At t x) : Dead 0 limitOffsetClause x :=
  .lift (Fails.alt_cons (Fails.map (Fails.separatedPair (Fails.mapRes (Fails.preceded (Fails.terminated (DT.tag h (by decide) (by decide +kernel)))))))
    (Fails.map (Fails.separatedPair (Fails.mapRes (Fails.preceded (Fails.terminated (DT.tag h (by decide) (by decide +kernel))))))))
theorem DT.values {x : Input} (h : Hd ['('] x ∨ ∃ t ∈ tags3, At t x) : NomSparql.valuesClause x = .ok x none :=
  Fails.opt (Fails.preceded (Fails.terminated (DT.tag h (by decide) (by decide +kernel))))

instance having_idle : Idle 0 (DT tags1) (DT tags2) (opt (preceded sp (havingClauseS R))) := idle_optClause (fun _ h => DT.having h) tags12
instance order_idle : Idle 0 (DT tags2) (DT tags3) (opt (preceded sp (orderClauseS R))) := idle_optClause (fun _ h => DT.order h) tags23
instance limit_idle : Idle 0 (DT tags3) (DT tags3) (opt (preceded sp limitOffsetClause)) := idle_optClause (fun _ h => DT.limit h) fun _ h => h
instance : Lin W 0 0 (DT tags3) (opt (preceded sp limitOffsetClause)) := Lin.free (pair_free (p := sp) (q := limitOffsetClause) (fun _ => rfl) fun _ => rfl)

instance solutionModifierS_lin : Lin W 0 0 (DT tags3) (solutionModifierS R) := by
  have i1 : Idle 0 (DT tags1) (DT tags3) (pair (opt (preceded sp (havingClauseS R))) (pair (opt (preceded sp (orderClauseS R))) (opt (preceded sp limitOffsetClause)))) :=
    Idle.pair (c := 0) (c' := 0) having_idle (Idle.pair (c := 0) (c' := 0) order_idle limit_idle)
  have i2 : Idle 0 (DT tags2) (DT tags3) (pair (opt (preceded sp (orderClauseS R))) (opt (preceded sp limitOffsetClause))) :=
    Idle.pair (c := 0) (c' := 0) order_idle limit_idle
  exact Lin.lit (p := map (tuple4 (opt (groupClauseS R)) (opt (preceded sp (havingClauseS R))) (opt (preceded sp (orderClauseS R))) (opt (preceded sp limitOffsetClause))) _)
    inferInstance (by omega) (by omega) fun _ h => h

instance : Lin W 0 0 (DT tags3) (preceded sp valuesClause) := Lin.free (pair_free (p := sp) (q := valuesClause) (fun _ => rfl) fun _ => rfl)
instance : Idle 0 (DT tags3) (DT tags3) (preceded sp valuesClause) where
  cost {i} _ := Nat.le_of_eq (pair_free (p := sp) (q := valuesClause) (fun _ => rfl) (fun _ => rfl) i)
  ok {i r a} h e := by
    obtain ⟨a, e⟩ := map_ok e
    obtain ⟨x, w, y, e1, e2, _⟩ := pair_ok e
    obtain ⟨w', x', rfl, hw, hx, h⟩ := h
    have e1 : NomSparql.sp (w' ++ x') = .ok x w := e1
    rw [sp_eval hw hx] at e1
    injection e1 with e3 e4
    have e2 : NomSparql.valuesClause x = .ok r y := e2
    rw [← e3, DT.values h] at e2
    injection e2 with e2 _
    exact ⟨[], r, rfl, .nil, e2 ▸ hx, e2 ▸ h⟩

/-! ### SELECT in braces -/

instance : Lin W 4 1 NoD (whereClauseS R) := by
  have : Lin W 0 0 NoD (opt (terminated (tagNoCase c!"where") sp1)) := Lin.free (pair_free (p := tagNoCase c!"where") (q := sp1) (fun _ => rfl) fun _ => rfl)
  exact Lin.lit (p := preceded (opt (terminated (tagNoCase c!"where") sp1)) R.ggp) inferInstance (by omega) (by omega) fun _ h => h

omit [KRecGood R] in
theorem whereClause_dead {L : List Char} {i : Input} (h : Hd L i) (hL : ∀ c ∈ L, (lower c == lower 'w') = false ∧ (c == '{') = false) : Dead 1 (whereClauseS R) i := by
  obtain ⟨c, s, rfl, hc⟩ := h
  refine .map (.pairf (pair_free (p := tagNoCase c!"where") (q := sp1) (fun _ => rfl) (fun _ => rfl) _) fun r a e => ?_)
  rcases opt_ok e with ⟨x, e⟩ | ⟨rfl, _⟩
  · exact absurd e ((KFirst.cons (p := terminated (tagNoCase c!"where") sp1) (F := fun d => lower d == lower 'w') (hL c hc).1).2 _ _)
  · exact RecLin.brace _ (noHead_cons (hL c hc).2)

instance : Lin W 4 0 NoD (varOrExpressionAsVarS R) :=
  Lin.first (Lin.lit (inferInstance : Lin W W 0 NoD (map var VarOrExpressionAsVar.var)) (by omega) (by omega) fun _ h => h)
    (inferInstance : Lin W 4 0 NoD (alt [map (expressionAsVarS R) VarOrExpressionAsVar.expressionAsVar])) ['?', '$'] (by simp) (by decide +kernel)

instance : Lin W 4 0 (Hd ['(']) (many1 (varOrExpressionAsVarS R)) := by
  refine Lin.weaken (Lin.many1 (c := 0) (DL := Hd ['(']) (inferInstance : Lin W 4 0 NoD (varOrExpressionAsVarS R)) (by omega) fun i _ _ _ => ?_) (by omega) (by omega) fun _ h => h
  rcases KFirst.or_hd (p := map (expressionAsVarS R) VarOrExpressionAsVar.expressionAsVar) (L := ['(']) (by simp) i with h | h
  · exact .inl (Nat.le_of_eq (alt_free rfl (Nat.le_zero.mp h.1)))
  · exact .inr h

instance : Lin W 4 0 (Hd ['(']) (selectVarsS R) :=
  Lin.first (Lin.lit (inferInstance : Lin W W 0 NoD (map (char '*') (fun _ => SelectVars.all))) (by omega) (by omega) fun _ h => h.elim)
    (inferInstance : Lin W 4 0 (Hd ['(']) (alt [map (many1 (varOrExpressionAsVarS R)) SelectVars.varOrExpressionAsVar])) ['*'] (by simp) (by decide +kernel)

instance : Lin W 4 0 (Hd ['(']) (selectClauseS R) := by
  have : Lin W 0 0 NoD (opt (preceded sp1 selectModifier)) := Lin.free (pair_free (p := sp1) (q := selectModifier) (fun _ => rfl) fun _ => rfl)
  exact Lin.lit (p := map (tuple3 (tagNoCase c!"select") (opt (preceded sp1 selectModifier)) (preceded sp1 (selectVarsS R))) _) inferInstance (by omega) (by omega) fun _ h => h

instance : Idle 1 (Hd ['(']) D' (spEnc (whereClauseS R)) := Dead.idle fun i h => .map (.pair2 fun r a e => by
  obtain ⟨c, s, rfl, hc⟩ := h
  rw [sp_none (not_startsWs_cons (by simp only [List.mem_singleton] at hc; subst hc; decide))] at e
  cases e
  exact .map (.pair (whereClause_dead ⟨c, s, rfl, hc⟩ (by decide))))

instance subSelectS_lin : Lin W 4 1 (DT tags3) (subSelectS R) := by
  exact Lin.lit (p := map (tuple4 (selectClauseS R) (spEnc (whereClauseS R)) (solutionModifierS R) (preceded sp valuesClause)) _) inferInstance (by omega) (by omega) fun _ h => h

omit [KRecGood R] [RecLin R] in
theorem selectClause_or (i : Input) : Dead 0 (selectClauseS R) i ∨ Call c!"select" i := by
  by_cases h : Call c!"select" i
  · exact .inr h
  · refine .inl (.map (.pair2 fun r a e => ?_))
    obtain ⟨rfl, hk⟩ := tagNoCase_ok_iff.mp e
    have key : ∀ x w, NomSparql.sp1 r = .ok x w → ∀ c s, x = c :: s → c = ':' := by
      rintro x w e' c s rfl
      obtain ⟨rfl, hw, hx⟩ := sp1_ok_iff.mp e'
      refine Classical.byContradiction fun hc => h ⟨a, _, rfl, hk, Follow.ws hw.1 (.inl hw.2) hx (notStart_cons hc)⟩
    refine .pairf (pair_free (p := sp1) (q := selectModifier) (fun _ => rfl) (fun _ => rfl) _) fun r' a' e2 => ?_
    rcases opt_ok e2 with ⟨y, e3⟩ | ⟨rfl, _⟩
    · exfalso
      obtain ⟨y, e3⟩ := map_ok e3
      obtain ⟨x, w, z, e4, e5, _⟩ := pair_ok e3
      have : Dead 0 selectModifier x := KFirst.out x fun c s hx => by
        rw [key x w e4 c s hx]; decide
      exact this.2 _ _ e5
    · refine .map (.pair2 fun x w e4 => ?_)
      exact KFirst.out x fun c s hx => by rw [key x w e4 c s hx]; decide

/-! ### Groups -/

theorem Call.block {t i : Str} (h : Call t i) (ht : t ∈ [c!"select", c!"union"]) : Fails NomSparql.triplesBlock i := by
  obtain ⟨k, r, rfl, h, hr⟩ := h
  refine Fails.map (Fails.sep1 ?_)
  simp only [List.mem_cons, List.not_mem_nil, or_false] at ht
  rcases ht with rfl | rfl <;>
  · have hb : Fails NomSparql.boolean (k ++ r) := Fails.alt_cons (Fails.map (kw_fails h (by decide))) (Fails.map (kw_fails h (by decide)))
    have hg : Fails NomSparql.graphTerm (k ++ r) := Fails.alt_cons (Fails.map (iri_fails_kw h (by decide) (by decide) hr))
      (Fails.alt_cons (Fails.map (kw_first h rfl)) (Fails.alt_cons (Fails.map (kw_first h rfl)) (Fails.alt_cons (Fails.map hb)
        (Fails.alt_cons (Fails.map (kw_first h rfl)) (Fails.map (kw_first h rfl))))))
    exact Fails.alt_cons (Fails.map (Fails.pair (Fails.alt_cons (Fails.map (kw_first h rfl)) (Fails.map hg)))) (Fails.map (Fails.separatedPair (kw_first h rfl)))

/-- White space, the word `union`, and no colon. -/
def DU (i : Input) : Prop := ∃ w x, i = w ++ x ∧ Ws w ∧ ¬ StartsWs x ∧ Call c!"union" x

omit [KRecGood R] in
theorem unionRule : ListRule W 4 1 NoD DU 1 (spEnc1 (tagNoCase c!"union")) R.ggp where
  lin := inferInstance
  free := pair_free (p := sp1) (q := terminated (tagNoCase c!"union") sp1) (fun _ => rfl) (pair_free (p := tagNoCase c!"union") (q := sp1) (fun _ => rfl) fun _ => rfl)
  wake i r x _ _ e _ := by
    by_cases h : NoHead (· == '{') r
    · exact .inl (RecLin.brace r h).1
    · right
      obtain ⟨a, e⟩ := map_ok e
      obtain ⟨r₁, w, y, e1, e2, _⟩ := pair_ok e
      obtain ⟨a, e2⟩ := map_ok e2
      obtain ⟨r₂, k, w', e3, e4, _⟩ := pair_ok e2
      obtain ⟨rfl, hw, hx⟩ := sp1_ok_iff.mp e1
      obtain ⟨rfl, hk⟩ := tagNoCase_ok_iff.mp e3
      obtain ⟨rfl, hw', _⟩ := sp1_ok_iff.mp e4
      refine ⟨w, _, rfl, hw.1, hx, k, _, rfl, hk, ?_⟩
      cases r with
      | nil => exact absurd noHead_nil h
      | cons c s =>
        have : c = '{' := by
          refine Classical.byContradiction fun hc => h (noHead_cons (by simpa using hc))
        subst this
        exact Follow.ws_close hw'.1 (by simp)
  stop _ h := h.elim

instance : Lin W 3 2 DU (groupOrUnionGraphPatternS R) := by
  exact Lin.weaken (p := separatedNonemptyList (spEnc1 (tagNoCase c!"union")) R.ggp) ((unionRule (R := R) (W := W)).lin1 (by omega)) (by omega) (by omega) fun _ h => h

end
section
variable {R : Rec} [KRecGood R] [RecLin R] {W : Nat} {D' : Input → Prop}

theorem lower_letter {c d : Char} (h : (lower c == lower d) = true) (hd : d ∈ ['o', 'm', 'g', 's', 'f', 'b', 'v', 'c', 'd', 'a', 'w']) : c = d ∨ c = upperOf d := by
  have h := beq_iff_eq.mp h
  have h2 : lower d = d := by
    have : ∀ d ∈ ['o', 'm', 'g', 's', 'f', 'b', 'v', 'c', 'd', 'a', 'w'], lower d = d := by decide
    exact this d hd
  rw [h2] at h
  unfold lower at h
  split at h
  · right
    rename_i h3
    have h4 : ∀ n < 128, (65 ≤ n ∧ n ≤ 90) → Char.ofNat n = upperOf (Char.ofNat (n + 32)) := by decide
    have := h4 c.toNat (by omega) h3
    rw [h, Char.ofNat_toNat] at this
    exact this
  · split at h
    · subst h; exact absurd hd (by decide)
    · exact .inl h

theorem noHead_mem {L : List Char} {c : Char} {s : Str} {F : Char → Bool} (hc : c ∈ L) (h : ∀ c ∈ L, F c = false) : NoHead F (c :: s) := noHead_cons (h c hc)
theorem mem_no {L : List Char} {c : Char} {F : Char → Bool} (hc : c ∈ L) (h : ∀ c ∈ L, F c = false) : F c = false := h c hc

/-- The keyword alternatives of a group. -/
abbrev kwItems (R : Rec) : K GraphPatternNotTriples := alt [map (optionalGroupGraphPatternS R) .optional, map (minusGraphPatternS R) .minus, map (graphGraphPatternS R) .graph,
  map (serviceGraphPatternS R) .service, map (filterS R) .filter, map (bindS R) .bind, map inlineData .inlineData]

instance : Lin W 3 0 NoD (optionalGroupGraphPatternS R) := Lin.lit (p := precededTag1 c!"optional" R.ggp) inferInstance (by omega) (by omega) fun _ h => h
instance : Lin W 3 0 NoD (minusGraphPatternS R) := Lin.lit (p := precededTag1 c!"minus" R.ggp) inferInstance (by omega) (by omega) fun _ h => h
instance : Lin W 3 0 NoD (graphGraphPatternS R) :=
  Lin.lit (p := map (tuple3 (terminated (tagNoCase c!"graph") sp1) (terminated varOrIri sp) R.ggp) _) inferInstance (by omega) (by omega) fun _ h => h
instance : Lin W 3 0 NoD (serviceGraphPatternS R) :=
  Lin.lit (p := map (tuple4 (terminated (tagNoCase c!"service") sp1) optSilent (terminated varOrIri sp) R.ggp) _) inferInstance (by omega) (by omega) fun _ h => h

instance kwItems_lin : Lin W 3 0 NoD (kwItems R) := by
  have h0 : Lin W 3 0 NoD (alt [map inlineData GraphPatternNotTriples.inlineData]) := Lin.lit (inferInstance : Lin W W 0 NoD _) (by omega) (by omega) fun _ h => h
  have h1 := Lin.first (Lin.weaken (inferInstance : Lin W 4 0 NoD (map (bindS R) GraphPatternNotTriples.bind)) (by omega) (by omega) fun _ h => h) h0 ['b', 'B']
    (fun c h => by rcases lower_letter h (by simp) with rfl | rfl <;> decide) (by decide +kernel)
  have h2 := Lin.first (inferInstance : Lin W 3 0 NoD (map (filterS R) GraphPatternNotTriples.filter)) h1 ['f', 'F'] (fun c h => by rcases lower_letter h (by simp) with rfl | rfl <;> decide) (by decide +kernel)
  have h3 := Lin.first (inferInstance : Lin W 3 0 NoD (map (serviceGraphPatternS R) GraphPatternNotTriples.service)) h2 ['s', 'S'] (fun c h => by rcases lower_letter h (by simp) with rfl | rfl <;> decide) (by decide +kernel)
  have h4 := Lin.first (inferInstance : Lin W 3 0 NoD (map (graphGraphPatternS R) GraphPatternNotTriples.graph)) h3 ['g', 'G'] (fun c h => by rcases lower_letter h (by simp) with rfl | rfl <;> decide) (by decide +kernel)
  have h5 := Lin.first (inferInstance : Lin W 3 0 NoD (map (minusGraphPatternS R) GraphPatternNotTriples.minus)) h4 ['m', 'M'] (fun c h => by rcases lower_letter h (by simp) with rfl | rfl <;> decide) (by decide +kernel)
  exact Lin.first (inferInstance : Lin W 3 0 NoD (map (optionalGroupGraphPatternS R) GraphPatternNotTriples.optional)) h5 ['o', 'O'] (fun c h => by rcases lower_letter h (by simp) with rfl | rfl <;> decide) (by decide +kernel)

instance : Lin W 2 2 DU (graphPatternNotTriplesS R) := by
  refine Lin.weaken (Lin.alt_cons (c := 1) (c' := 0) (D₂ := DU) (inferInstance : Lin W 3 2 DU (map (groupOrUnionGraphPatternS R) GraphPatternNotTriples.groupOrUnion))
    (kwItems_lin (R := R) (W := W)) (fun i _ _ _ => ?_) (fun _ h => h) fun _ h => h.elim) (by omega) (by omega) fun _ h => h
  by_cases h : NoHead (· == '{') i
  · exact .inl (Dead.map (f := GraphPatternNotTriples.groupOrUnion) (Dead.sep1 (sep := spEnc1 (tagNoCase c!"union")) (RecLin.brace i h))).1
  · right
    have hd : Hd ['{'] i := by
      cases i with
      | nil => exact absurd noHead_nil h
      | cons c s =>
        refine ⟨c, s, rfl, ?_⟩
        have : c = '{' := Classical.byContradiction fun hc => h (noHead_cons (by simpa using hc))
        simp [this]
    have : Dead 0 (kwItems R) i := KFirst.hd hd (by decide +kernel)
    exact ⟨this.1, fun r a e => absurd e (this.2 r a)⟩

omit [KRecGood R] in
/-- An item begins with a brace or a keyword. -/
theorem item_dead {i : Input} (h : NoHead (· == '{') i) (h' : Dead 0 (kwItems R) i) : Dead 1 (groupGraphPatternAndTriplesS R) i :=
  .map (.pair (.alt (c := 1) (c' := 0) (.map (.sep1 (RecLin.brace i h))) h'))

omit [KRecGood R] in
theorem item_hd {L : List Char} {i : Input} (h : Hd L i) (hL : ∀ c ∈ L, c ∈ ['}', 'u', 'U', ' ', '\t', '\r', '\n', '#']) : Dead 1 (groupGraphPatternAndTriplesS R) i := by
  obtain ⟨c, s, rfl, hc⟩ := h
  have hc := hL c hc
  exact item_dead (noHead_mem hc (by decide)) (KFirst.hd ⟨c, s, rfl, hc⟩ (by decide +kernel))

theorem DU.dead {i : Input} {p : K α} (h : DU i) (hp : ∀ x, Call c!"union" x → Dead 0 p x) : Dead 0 (preceded sp p) i := by
  obtain ⟨w, x, rfl, hw, hx, h⟩ := h
  refine .map (.pair2 fun r a e => ?_)
  rw [sp_eval hw hx] at e
  cases e
  exact hp x h

theorem Call.hdU {x : Input} (h : Call c!"union" x) : Hd ['u', 'U'] x := by
  obtain ⟨y, s, rfl, hy⟩ := h.at.head
  exact ⟨y, s, rfl, by rcases hy with rfl | rfl <;> decide⟩
theorem Call.hdS {x : Input} (h : Call c!"select" x) : Hd ['s', 'S'] x := by
  obtain ⟨y, s, rfl, hy⟩ := h.at.head
  exact ⟨y, s, rfl, by rcases hy with rfl | rfl <;> decide⟩

instance optMark_idle : Idle 0 DU DU (opt (preceded sp (char '?'))) := by
  have : Idle 0 DU NoD (preceded sp (char '?')) := Dead.idle fun i h => h.dead fun x hx => KFirst.hd hx.hdU (by decide)
  infer_instance
instance optBlock_idle : Idle 0 DU DU (opt (preceded sp triplesBlock)) := by
  have : Idle 0 DU NoD (preceded sp triplesBlock) := Dead.idle fun i h => h.dead fun x hx => .lift (hx.block (by simp))
  infer_instance
instance : Lin W 0 0 NoD (opt (preceded sp (char '?'))) := Lin.free (pair_free (p := sp) (q := char '?') (fun _ => rfl) fun _ => rfl)
instance : Lin W 0 0 DU (opt (preceded sp triplesBlock)) := Lin.free (pair_free (p := sp) (q := triplesBlock) (fun _ => rfl) fun _ => rfl)

instance : Lin W 2 2 DU (groupGraphPatternAndTriplesS R) := by
  have i1 : Idle 0 DU DU (pair (opt (preceded sp (char '?'))) (opt (preceded sp triplesBlock))) := Idle.pair (c := 0) (c' := 0) optMark_idle optBlock_idle
  exact Lin.lit (p := map (separatedPair (graphPatternNotTriplesS R) (opt (preceded sp (char '?'))) (opt (preceded sp triplesBlock))) _) inferInstance
    (by omega) (by omega) fun _ h => h

/-- After white space there is no closing brace. -/
def NC (i : Input) : Prop := ∀ r w, NomSparql.sp i = .ok r w → NoHead (· == '}') r

theorem DU.nc {i : Input} (h : DU i) : NC i := by
  intro r a e
  obtain ⟨w, x, rfl, hw, hx, h⟩ := h
  rw [sp_eval hw hx] at e
  injection e with e _
  subst e
  obtain ⟨c, s, rfl, hc⟩ := h.hdU
  exact noHead_mem hc (by decide)

theorem DT.nc {i : Input} (h : DT tags3 i) : NC i := by
  intro r a e
  obtain ⟨w, x, rfl, hw, hx, h⟩ := h
  rw [sp_eval hw hx] at e
  injection e with e _
  subst e
  rcases h with ⟨c, s, rfl, hc⟩ | ⟨t, ht, h⟩
  · exact noHead_mem hc (by decide)
  · have h1 : ∀ t ∈ tags3, (match t with | [] => false | x :: _ => x != '}' && upperOf x != '}') = true := by decide +kernel
    have h1 := h1 t ht
    cases t with
    | nil => cases h1
    | cons x u =>
      obtain ⟨y, s, rfl, hy⟩ := h.head
      simp only [Bool.and_eq_true, bne_iff_ne] at h1
      refine noHead_cons ?_
      rcases hy with rfl | rfl
      · simpa using h1.1
      · simpa using h1.2

omit [KRecGood R] in
theorem item_or (i r : Input) (w : Str) (e : NomSparql.sp i = .ok r w) : Dead 1 (groupGraphPatternAndTriplesS R) r ∨ NC i := by
  cases r with
  | nil =>
    right
    intro r' w' e'
    rw [e] at e'
    cases e'
    exact noHead_nil
  | cons c s =>
    by_cases hc : c = '}'
    · exact .inl (item_hd (L := ['}']) ⟨c, s, rfl, by simp [hc]⟩ (by simp))
    · right
      intro r' w' e'
      rw [e] at e'
      cases e'
      exact noHead_cons (by simpa using hc)

theorem itemRule : ListRule W 2 2 DU NC 1 sp (groupGraphPatternAndTriplesS R) where
  lin := inferInstance
  free _ := rfl
  wake i r w _ _ e _ := (item_or (R := R) i r w e).imp (fun h => h.1) id
  stop i h := ⟨h.nc, fun r x e => by
    obtain ⟨w, x, rfl, hw, hx, h⟩ := h
    have e : NomSparql.sp (w ++ x) = .ok r _ := e
    rw [sp_eval hw hx] at e
    injection e with e _
    subst e
    exact item_hd h.hdU (by decide)⟩

instance : Lin W (-1) 3 NC (separatedList sp (groupGraphPatternAndTriplesS R)) := by
  refine Lin.weaken ((itemRule (R := R) (W := W)).lin0 (by omega) fun i _ _ _ => ?_) (by omega) (by omega) fun _ h => h
  by_cases h : StartsWs i
  · left
    cases i with
    | nil => exact absurd h not_startsWs_nil
    | cons c s =>
      have : wsStart c = true := Classical.byContradiction fun hc => not_startsWs_cons (Bool.eq_false_iff.mpr hc) h
      refine (item_hd (L := [' ', '\t', '\r', '\n', '#']) ⟨c, s, rfl, ?_⟩ (by decide)).1
      rcases wsStart_iff.mp this with rfl | rfl | rfl | rfl | rfl <;> simp
  · exact (item_or (R := R) i i [] (sp_none h)).imp (fun h => h.1) id

omit [KRecGood R] [RecLin R] in
theorem optBlock_free (i : Input) : (opt (terminated triplesBlock sp) i).2 = 0 := pair_free (p := triplesBlock) (q := sp) (fun _ => rfl) (fun _ => rfl) i

instance : Lin W (-1) 3 NC (groupGraphPatternSubS R) := by
  have : Lin W 0 0 NoD (opt (terminated triplesBlock sp)) := Lin.free optBlock_free
  exact Lin.lit (p := map (pair (opt (terminated triplesBlock sp)) (separatedList sp (groupGraphPatternAndTriplesS R))) _) inferInstance (by omega) (by omega) fun _ h => h

omit [KRecGood R] in
/-- After a SELECT that was left off there is nothing to read. -/
theorem sub_select {i : Input} (h : Call c!"select" i) : (groupGraphPatternSubS R i).2 ≤ 1 ∧ ∀ r a, (groupGraphPatternSubS R i).1 = .ok r a → NC r := by
  have hd := h.hdS
  have hk : Dead 0 (kwItems R) i := by
    refine .alt (c := 0) (c' := 0) (KFirst.hd hd (by decide +kernel)) (.alt (c := 0) (c' := 0) (KFirst.hd hd (by decide +kernel)) (.alt (c := 0) (c' := 0) (KFirst.hd hd (by decide +kernel))
      (.alt (c := 0) (c' := 0) (.map (.map (.pair (.map (.pair (.lift (h.at.fails (by decide)))))))) (KFirst.hd hd (by decide +kernel)))))
  have hn : NoHead (· == '{') i := by
    obtain ⟨c, s, rfl, hc⟩ := hd
    exact noHead_mem hc (by decide)
  obtain ⟨h1, h2⟩ := separatedList_dead (s := sp) (item_dead hn hk)
  have ho : ∀ r a, (opt (terminated triplesBlock sp) i).1 = .ok r a → r = i := fun r a e => by
    have e : NomSparql.opt (NomSparql.terminated NomSparql.triplesBlock NomSparql.sp) i = .ok r a := e
    rw [Fails.opt (Fails.terminated (h.block (by simp)))] at e
    cases e; rfl
  constructor
  · have := pair_bound (p := opt (terminated triplesBlock sp)) (q := separatedList sp (groupGraphPatternAndTriplesS R)) (i := i) (a := 0) (b := 1) (Nat.le_of_eq (optBlock_free i))
      fun r a e => by rw [ho r a e]; exact h1
    exact this
  · intro r a e
    obtain ⟨x, e⟩ := map_ok e
    obtain ⟨r₁, x, y, e1, e2, _⟩ := pair_ok e
    rw [ho _ _ e1] at e2
    rw [h2 _ _ e2]
    obtain ⟨c, s, rfl, hc⟩ := hd
    intro r' w' e'
    rw [sp_none (not_startsWs_cons (mem_no hc (by decide)))] at e'
    cases e'
    exact noHead_mem hc (by decide)

abbrev groupBody (R : Rec) : K GroupGraphPattern := alt [map (subSelectS R) .subSelect, map (groupGraphPatternSubS R) .groupGraphPatternSub]

instance : Lin W (-1) 3 NC (groupBody R) := by
  refine Lin.weaken (Lin.alt_cons (c := 0) (c' := 1) (D₂ := NC) (inferInstance : Lin W 4 1 (DT tags3) (map (subSelectS R) GroupGraphPattern.subSelect))
    (inferInstance : Lin W (-1) 3 NC (alt [map (groupGraphPatternSubS R) GroupGraphPattern.groupGraphPatternSub])) (fun i _ _ _ => ?_) (fun _ h => h.nc) fun _ h => h)
    (by omega) (by omega) fun _ h => h
  rcases selectClause_or (R := R) i with h | h
  · exact .inl (Dead.map (f := GroupGraphPattern.subSelect) (Dead.map (Dead.pair h))).1
  · obtain ⟨h1, h2⟩ := sub_select (R := R) h
    refine .inr ⟨h1, fun r a e => ?_⟩
    obtain ⟨x, e⟩ := map_ok (p := groupGraphPatternSubS R) (f := GroupGraphPattern.groupGraphPatternSub) e
    exact h2 r x e

abbrev NH : Input → Prop := NoHead (· == '}')
instance : Idle 0 NH D' (char '}') := Dead.idle fun i h => KFirst.out i h

instance : Lin W 5 0 NoD (groupGraphPatternStep R) := by
  have h1 : Lin W 0 0 NH sp := Lin.weaken (inferInstance : Lin W 0 0 NoD sp) (Int.le_refl _) (Int.le_refl _) fun _ h => h.elim
  have h2 : Idle 0 NC NH sp := Idle.lift fun i r a h e => h r a e
  have h3 := Lin.seq (p := groupBody R) (q := sp) (h := (inferInstance : Lin W (-1) 3 NC (groupBody R))) (h' := h1) (hi := h2)
  have h4 : Lin W (-1) 3 NH (terminated (groupBody R) sp) := Lin.weaken (p := map (pair (groupBody R) sp) Prod.fst) inferInstance (by omega) (by omega) fun _ h => h
  exact Lin.lit (p := delimited (char '{') (spEnc (groupBody R)) (char '}')) inferInstance (by omega) (by omega) fun _ h => h

end

/-! ## Closing the recursion -/

instance recF_lin : ∀ n, RecLin (recF n)
  | 0 => {
      expr := fun W => ⟨fun _ e => (by cases e), fun {i _} _ _ => by
        have := sz_nonneg (W := W) (i := i)
        show ((0 : Nat) : Int) ≤ _
        omega⟩
      ggp := fun W => ⟨fun _ e => (by cases e), fun {i _} _ _ => by
        have := sz_nonneg (W := W) (i := i)
        show ((0 : Nat) : Int) ≤ _
        omega⟩
      close := fun _ => ⟨Nat.zero_le _, fun _ _ e => by cases e⟩
      unit := fun _ _ _ => ⟨Nat.zero_le _, fun _ _ e => by cases e⟩
      brace := fun _ _ => ⟨Nat.zero_le _, fun _ _ e => by cases e⟩
      shift := fun _ _ _ _ _ _ e => by cases e }
  | n + 1 => by
    have := recF_lin n
    exact {
      expr := fun W => Lin.weaken (p := tick (expressionStep (recF n))) inferInstance (by omega) (by omega) fun _ h => h
      ggp := fun W => Lin.weaken (p := tick (groupGraphPatternStep (recF n))) inferInstance (by omega) (by omega) fun _ h => h
      close := fun _ => Dead.tick (c := 0) (p := expressionStep (recF n)) (KFirst.cons (by decide +kernel))
      unit := fun _ _ hw => Dead.tick (c := 1) (p := expressionStep (recF n)) (expressionStep_unit hw)
      brace := fun i h => Dead.tick (c := 0) (p := groupGraphPatternStep (recF n)) (KFirst.out (F := (· == '{')) i h)
      shift := fun w x r a hw hx e => by
        obtain ⟨h1, h2⟩ := expressionStep_shift (R := recF n) hw hx r a e
        exact ⟨h1, congrArg (· + 1) h2⟩ }

theorem closed_expr {n : Nat} {i : Input} (h : i.length < n) : R₀.expr i = (recF n).expr i := by
  have := (krecF_agree_closed n).expr
  exact (Prod.ext (this.res.out i h).1 (this.cost i h)).symm
theorem closed_ggp {n : Nat} {i : Input} (h : i.length < n) : R₀.ggp i = (recF n).ggp i := by
  have := (krecF_agree_closed n).ggp
  exact (Prod.ext (this.res.out i h).1 (this.cost i h)).symm

theorem Dead.congr {c : Nat} {p q : K α} {i : Input} (e : p i = q i) (h : Dead c q i) : Dead c p i := by
  unfold Dead at h ⊢; rw [e]; exact h

instance : RecLin R₀ where
  expr W := ⟨fun {i r a} hw e => by
      have h := closed_expr (Nat.lt_succ_self i.length)
      rw [h] at e ⊢
      exact (RecLin.expr (R := recF _) W).ok hw e, fun {i _} hw e => by
      have h := closed_expr (Nat.lt_succ_self i.length)
      rw [h] at e ⊢
      exact (RecLin.expr (R := recF _) W).err hw e⟩
  ggp W := ⟨fun {i r a} hw e => by
      have h := closed_ggp (Nat.lt_succ_self i.length)
      rw [h] at e ⊢
      exact (RecLin.ggp (R := recF _) W).ok hw e, fun {i _} hw e => by
      have h := closed_ggp (Nat.lt_succ_self i.length)
      rw [h] at e ⊢
      exact (RecLin.ggp (R := recF _) W).err hw e⟩
  close s := Dead.congr (closed_expr (Nat.lt_succ_self _)) (RecLin.close s)
  unit w s hw := Dead.congr (closed_expr (Nat.lt_succ_self _)) (RecLin.unit w s hw)
  brace i h := Dead.congr (closed_ggp (Nat.lt_succ_self _)) (RecLin.brace i h)
  shift w x r a hw hx e := by
    have h1 := closed_expr (Nat.lt_succ_self (w ++ x).length)
    have h2 : R₀.expr x = (recF ((w ++ x).length + 1)).expr x := closed_expr (by simp; omega)
    rw [h1] at e ⊢
    rw [h2]
    exact RecLin.shift w x r a hw hx e

/-! ## Queries -/

section
variable {W : Nat} {D D' : Input → Prop}

abbrev AnyD : Input → Prop := fun _ => True

instance : KFirst selectQuery (fun c => lower c == lower 's') := inferInstanceAs (KFirst (map (pair (terminated (map (pair (tagNoCase c!"select") _) _) sp1) _) _) _)
instance : KFirst constructQuery (fun c => lower c == lower 'c') := inferInstanceAs (KFirst (precededTag1 c!"construct" _) _)
instance : KFirst describeQuery (fun c => lower c == lower 'd') := inferInstanceAs (KFirst (map (pair (tagNoCase c!"describe") _) _) _)
instance : KFirst askQuery (fun c => lower c == lower 'a') := inferInstanceAs (KFirst (map (pair (terminated (tagNoCase c!"ask") sp1) _) _) _)

instance : KGood selectQuery := by unfold selectQuery; infer_instance
instance : KGood subConstruct := by unfold subConstruct; infer_instance
instance : KGood subTriples := by unfold subTriples; infer_instance
instance : KGood constructQuery := by unfold constructQuery; infer_instance
instance : KGood describeQuery := by unfold describeQuery; infer_instance
instance : KGood askQuery := by unfold askQuery; infer_instance
instance : KGood sparqlQuery := by unfold sparqlQuery; infer_instance
instance : KGood sparqlQueryStmt := by unfold sparqlQueryStmt; infer_instance

instance : Lin W 4 1 NoD whereClause := inferInstanceAs (Lin W 4 1 NoD (whereClauseS R₀))
instance : Lin W 0 0 AnyD solutionModifier := Lin.weaken (solutionModifierS_lin (R := R₀)) (Int.le_refl _) (Int.le_refl _) fun _ _ => trivial
instance : Lin W 4 0 (Hd ['(']) selectClause := inferInstanceAs (Lin W 4 0 _ (selectClauseS R₀))
instance : Idle 0 (Hd ['(']) D' sp1 := Idle.fails fun i h => by
  obtain ⟨c, s, rfl, hc⟩ := h
  exact sp1_fails (not_startsWs_cons (mem_no hc (by decide)))

instance : Lin W 3 0 AnyD selectQuery := Lin.lit (p := map (tuple4 (terminated selectClause sp1) dataSetClauses (spEnc whereClause) solutionModifier) _) inferInstance
  (by omega) (by omega) fun _ h => h
instance : Lin W 3 0 AnyD askQuery := Lin.lit (p := map (tuple4 (terminated (tagNoCase c!"ask") sp1) (terminated dataSetClauses sp)
        (terminated whereClause sp) solutionModifier) _) inferInstance
  (by omega) (by omega) fun _ h => h

abbrev whereL : List Char := ['{', 'w', 'W']

theorem whereClause_or (i : Input) : (terminated whereClause sp i).2 ≤ 1 ∨ Hd whereL i := by
  by_cases h : Hd whereL i
  · exact .inr h
  · left
    have h1 : NoHead (· == '{') i := fun c s e => by
      cases hc : c == '{' with
      | false => exact hc
      | true => exact absurd ⟨c, s, e, by simp at hc; simp [hc]⟩ h
    have h2 : Dead 0 (terminated (tagNoCase c!"where") sp1) i := by
      rcases KFirst.or_hd (p := terminated (tagNoCase c!"where") sp1) (L := ['w', 'W']) (fun c hc => by rcases lower_letter hc (by simp) with rfl | rfl <;> decide) i with h' | ⟨c, s, e, hc⟩
      · exact h'
      · exact absurd ⟨c, s, e, by simp at hc; rcases hc with rfl | rfl <;> simp⟩ h
    have : Dead 1 (terminated whereClause sp) i := .map (.pair (.map (.pairf (pair_free (p := tagNoCase c!"where") (q := sp1) (fun _ => rfl) (fun _ => rfl) _) fun r a e => by
      rcases opt_ok e with ⟨x, e⟩ | ⟨rfl, _⟩
      · exact absurd e (h2.2 _ _)
      · exact RecLin.brace _ h1)))
    exact this.1

instance : Lin W (-1) 1 (Hd whereL) (opt (terminated whereClause sp)) := by
  refine Lin.weaken (Lin.opt (c := 1) (D' := Hd whereL) (inferInstance : Lin W 4 1 NoD (terminated whereClause sp)) (by omega) (fun _ h => h.elim) fun i _ _ _ => ?_) (by omega) (by omega) fun _ h => h
  exact whereClause_or i

instance : Idle 0 (Hd whereL) AnyD solutionModifier := by
  have hw : ∀ {x i}, Hd whereL i → NomSparql.sp i = x → x = .ok i [] := by
    intro x i h e
    obtain ⟨c, s, rfl, hc⟩ := h
    rw [← e]
    exact sp_none (not_startsWs_cons (mem_no hc (by decide)))
  have hs : ∀ {β : Type} {p : K β} {i}, Hd whereL i → Dead 0 p i → Dead 0 (preceded sp p) i := fun h hp => .map (.pair2 fun r a e => by
    cases hw h e
    exact hp)
  have hp : ∀ {β : Type} {p : K β}, (∀ i, Hd whereL i → Dead 0 p i) → Idle 0 (Hd whereL) (Hd whereL) (opt p) := fun h => by
    have h1 : Idle 0 (Hd whereL) NoD _ := Dead.idle h
    infer_instance
  have i1 := hp (p := groupClauseS R₀) fun i h => KFirst.hd h (by decide)
  have i2 := hp (p := preceded sp (havingClauseS R₀)) fun i h => hs h (KFirst.hd h (by decide))
  have i3 := hp (p := preceded sp (orderClauseS R₀)) fun i h => hs h (KFirst.hd h (by decide))
  have i4 := hp (p := preceded sp limitOffsetClause) fun i h => hs h (KFirst.hd h (by decide))
  have i5 := Idle.pair (c := 0) (c' := 0) i1 (Idle.pair (c := 0) (c' := 0) i2 (Idle.pair (c := 0) (c' := 0) i3 i4))
  have i6 : Idle 0 (Hd whereL) (Hd whereL) solutionModifier := inferInstanceAs (Idle 0 (Hd whereL) (Hd whereL) (map (tuple4 (opt (groupClauseS R₀)) (opt (preceded sp (havingClauseS R₀)))
    (opt (preceded sp (orderClauseS R₀))) (opt (preceded sp limitOffsetClause))) _))
  exact Idle.weaken i6 (Nat.le_refl _) (fun _ h => h) fun _ _ => trivial

instance : Lin W 3 0 AnyD describeQuery := Lin.lit (p := map (tuple5 (tagNoCase c!"describe") (spEnc1 varOrIrisOrAll) (terminated dataSetClauses sp)
        (opt (terminated whereClause sp)) solutionModifier) _) inferInstance
  (by omega) (by omega) fun _ h => h

/-- Between the word `construct` and a template there is no `where`. -/
theorem subTriples_dead {i : Input} (h : Hd ['{'] i) : Dead 0 subTriples i := by
  obtain ⟨c, s, rfl, hc⟩ := h
  simp only [List.mem_singleton] at hc
  subst hc
  refine .map (.pairf (pair_free (p := dataSetClauses) (q := sp) (fun _ => rfl) (fun _ => rfl) _) fun r a e => ?_)
  have e : NomSparql.terminated NomSparql.dataSetClauses NomSparql.sp ('{' :: s) = .ok r a := e
  obtain ⟨r₁, w, e1, e2⟩ := NomSparql.terminated_ok.mp e
  have hd : NomSparql.dataSetClauses ('{' :: s) = .ok ('{' :: s) [] := by
    obtain ⟨x, y, e⟩ : Fails dataSetClause ('{' :: s) := First.cons (by decide +kernel)
    unfold NomSparql.dataSetClauses NomSparql.separatedList
    rw [e]
  rw [hd] at e1
  cases e1
  rw [sp_none (not_startsWs_cons rfl)] at e2
  cases e2
  exact .pair (KFirst.cons (by decide))

instance : Lin W 0 0 AnyD (preceded sp solutionModifier) := Lin.weaken (inferInstance : Lin W _ _ AnyD (preceded sp solutionModifier)) (by omega) (by omega) fun _ h => h

theorem optTemplate_free (i : Input) : (delimited (char '{') (spEnc (opt triplesTemplate)) (char '}') i).2 = 0 :=
  pair_free (p := char '{') (q := terminated (spEnc (opt triplesTemplate)) (char '}')) (fun _ => rfl)
    (pair_free (p := spEnc (opt triplesTemplate)) (q := char '}') (pair_free (p := sp) (q := terminated (opt triplesTemplate) sp) (fun _ => rfl)
      (pair_free (p := opt triplesTemplate) (q := sp) (fun _ => rfl) fun _ => rfl)) fun _ => rfl) i

instance : Lin W 0 0 AnyD subTriples := by
  have : Lin W 0 0 NoD (delimited (char '{') (spEnc (opt triplesTemplate)) (char '}')) := Lin.free optTemplate_free
  exact Lin.lit (p := map (tuple4 (terminated dataSetClauses sp) (terminated (tagNoCase c!"where") sp1)
        (delimited (char '{') (spEnc (opt triplesTemplate)) (char '}')) (preceded sp solutionModifier)) _) inferInstance (by omega) (by omega) fun _ h => h

instance : Lin W 0 0 AnyD subConstruct := Lin.lit (p := map (tuple4 (terminated constructTemplate sp1) (terminated dataSetClauses sp)
        (terminated whereClause sp) solutionModifier) _) inferInstance (by omega) (by omega) fun _ h => h

instance : Lin W 3 0 AnyD constructQuery := by
  have h : Lin W 0 0 AnyD (alt [map subConstruct ConstructQuery.subConstruct, map subTriples ConstructQuery.subTriples]) := by
    refine Lin.excl inferInstance inferInstance fun i => ?_
    rcases KFirst.or_hd (p := constructTemplate) (L := ['{']) (by simp) i with h | h
    · exact .inl (.map (.map (.pair (.map (.pair h)))))
    · exact .inr (.one (.map (subTriples_dead h)))
  exact Lin.lit (p := precededTag1 c!"construct" _) inferInstance (by omega) (by omega) fun _ h => h

instance : Lin W 3 0 AnyD sparqlQuery := by
  have h1 : Lin W 3 0 AnyD (alt [map askQuery SparqlQuery.ask]) := inferInstance
  have h2 : Lin W 3 0 AnyD (alt [map describeQuery SparqlQuery.describe, map askQuery SparqlQuery.ask]) :=
    Lin.first inferInstance h1 ['d', 'D'] (fun c hc => by rcases lower_letter hc (by simp) with rfl | rfl <;> decide) (by decide +kernel)
  have h3 : Lin W 3 0 AnyD (alt [map constructQuery SparqlQuery.construct, map describeQuery SparqlQuery.describe, map askQuery SparqlQuery.ask]) :=
    Lin.first inferInstance h2 ['c', 'C'] (fun c hc => by rcases lower_letter hc (by simp) with rfl | rfl <;> decide) (by decide +kernel)
  exact Lin.first inferInstance h3 ['s', 'S'] (fun c hc => by rcases lower_letter hc (by simp) with rfl | rfl <;> decide) (by decide +kernel)

theorem optValues_free (i : Input) : (opt (preceded sp1 (precededTag1 c!"values" datablock)) i).2 = 0 :=
  pair_free (p := sp1) (q := precededTag1 c!"values" datablock) (fun _ => rfl) (pair_free (p := terminated (tagNoCase c!"values") sp1) (q := datablock)
    (pair_free (p := tagNoCase c!"values") (q := sp1) (fun _ => rfl) fun _ => rfl) fun _ => rfl) i

instance sparqlQueryStmt_lin : Lin W 0 0 AnyD sparqlQueryStmt := by
  have h : Lin W 0 0 AnyD (opt (preceded sp1 (precededTag1 c!"values" datablock))) := Lin.free optValues_free
  have h' : Idle 0 AnyD AnyD (opt (preceded sp1 (precededTag1 c!"values" datablock))) := ⟨fun _ => Nat.le_of_eq (optValues_free _), fun _ _ => trivial⟩
  exact Lin.lit (p := map (tuple3 (terminated prologue sp) sparqlQuery (opt (preceded sp1 (precededTag1 c!"values" datablock)))) _) inferInstance (by omega) (by omega) fun _ h => h

end

end NomSparql.Cost
