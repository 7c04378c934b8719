import Verif.Lemmas.Avoid

/-!
# C05 and C06: no panic, no Incomplete

Both properties fail for the crate as written; the `_violated` theorems give the inputs.  The `_partial` theorems
say on which inputs they hold, and the parsers of data (no expressions, no property paths) have them
on every input.
-/

namespace NomSparql

set_option maxRecDepth 8000

/-! ## Specification -/

/-- The input has no KELVIN SIGN (whose lower case is the ASCII letter `k`) and no non-ASCII character
right after a blank. -/
def Calm (i : Str) : Prop :=
  Char.ofNat 0x212A ∉ i ∧
  ∀ a w c b, i = a ++ w :: c :: b → w ∈ [' ', '\t', '\r', '\n'] → c.toNat < 128

/-- `p` never panics on inputs satisfying `S`. -/
def NeverPanics (S : Str → Prop) (p : P α) : Prop := ∀ i, S i → p i ≠ .err .panic

/-- `p` never answers Incomplete on inputs satisfying `S`. -/
def NeverIncomplete (S : Str → Prop) (p : P α) : Prop := ∀ i, S i → ∀ n, p i ≠ .err (.incomplete n)

/-- Any text followed by a NUL character. -/
def NulTerminated (i : Str) : Prop := ∃ t, i = t ++ ['\x00']

def Anything (_ : Str) : Prop := True

/-! ## Environments -/

theorem calm_suffix {c r : Str} (h : Calm (c ++ r)) : Calm r := by
  refine ⟨fun hm => h.1 (by simp [hm]), fun a w x b e hw => ?_⟩
  exact h.2 (c ++ a) w x b (by rw [e]; simp) hw

def IsPanic (e : Err) : Prop := e = .panic
def IsIncomplete (e : Err) : Prop := ∃ n, e = .incomplete n
def IsPanicOrIncomplete (e : Err) : Prop := e = .panic ∨ ∃ n, e = .incomplete n

instance : Env Calm IsPanic where
  error := by simp [IsPanic]
  failure := by simp [IsPanic]
  fuel := by simp [IsPanic]
  keeps h e _ := by subst e; exact calm_suffix h

instance : EnvE Calm IsPanic where
  tagk t ht := ⟨fun i hi e h hx => by cases hx; exact tagNoCase_noPanic hi.1 h⟩
  streaming t ht _ := ⟨fun i hi e h hx => by cases hx; exact tagNoCaseStreaming_noPanic hi.1 h⟩
  mod := ⟨fun i hi e h hx => by
    cases hx
    rcases Soft.cases sp1 i with ⟨r, w, e1⟩ | ⟨pos, k, e1⟩
    · rw [preceded_cont e1] at h
      obtain ⟨rfl, hw, _⟩ := sp1_ok_iff.mp e1
      obtain ⟨w', c, rfl, hc⟩ := hw.last
      unfold pathMod at h
      split at h
      · cases h
      · cases r with
        | nil => contradiction
        | cons x r =>
          have := hi.2 w' c x r (by simp) hc
          rw [show (1 : Nat) = 1 + 0 from rfl, takeBytes_ascii this, takeBytes_zero] at h
          simp only [Option.map] at h
          split at h <;> cases h
    · rw [preceded_stop e1] at h; cases h⟩

instance : Env EndsNul IsIncomplete where
  error := by simp [IsIncomplete]
  failure := by simp [IsIncomplete]
  fuel := by simp [IsIncomplete]
  keeps h e hk := hk h

theorem lower_nul {c : Char} (h : lower '\x00' = lower c) : c = '\x00' := by
  have h0 : lower '\x00' = '\x00' := rfl
  rw [h0] at h
  unfold lower at h
  split at h
  · rename_i h1
    have h2 : (Char.ofNat (c.toNat + 32)).toNat = 0 := by rw [← h]; rfl
    have h3 : (c.toNat + 32).isValidChar := Or.inl (by omega)
    rw [Char.ofNat, dif_pos h3] at h2
    have h4 : (Char.ofNatAux (c.toNat + 32) h3).toNat = c.toNat + 32 := by
      simp only [Char.toNat, Char.ofNatAux]; rfl
    omega
  · split at h
    · exact absurd h (by decide)
    · exact h.symm

theorem overlap_endsNul {i t : Str} (hi : EndsNul i) (ht : ∀ c ∈ t, c ≠ '\x00') (h : overlapNoCase i t = true)
    (hk : ∀ c ∈ t, c.toNat < 128) : byteLen t ≤ byteLen i := by
  induction t generalizing i with
  | nil => simp [byteLen]
  | cons c t ih =>
    cases i with
    | nil => simp [EndsNul] at hi
    | cons d i =>
      simp only [overlapNoCase, Bool.and_eq_true, beq_iff_eq] at h
      have hd : 1 ≤ d.utf8Size := Char.utf8Size_pos d
      have hc : c.utf8Size = 1 := utf8Size_ascii (hk c (by simp))
      cases i with
      | nil =>
        have : d = '\x00' := by simpa [EndsNul] using hi
        subst this
        exact absurd (lower_nul h.1) (ht c (by simp))
      | cons d' i =>
        have := ih (i := d' :: i) (by simpa [EndsNul] using hi) (fun x hx => ht x (by simp [hx])) h.2
          (fun x hx => hk x (by simp [hx]))
        rw [byteLen_cons, byteLen_cons (c := d)]
        omega

theorem kwTag_ascii {t : Str} (h : KwTag t) : ∀ c ∈ t, c.toNat < 128 := by
  induction h with
  | nil => simp
  | k => simp
  | cons hc _ ih =>
    intro x hx
    rcases List.mem_cons.mp hx with rfl | hx
    · exact hc.ascii
    · exact ih x hx

instance : EnvE EndsNul IsIncomplete where
  tagk t ht := ⟨fun i hi e h hx => by
    obtain ⟨n, rfl⟩ := hx
    unfold tagNoCase at h
    split at h
    · split at h <;> cases h
    · cases h⟩
  streaming t ht hn := ⟨fun i hi e h hx => by
    obtain ⟨n, rfl⟩ := hx
    unfold tagNoCaseStreaming at h
    split at h
    · rename_i ho
      rw [if_pos (overlap_endsNul hi hn ho (kwTag_ascii ht))] at h
      split at h <;> cases h
    · cases h⟩
  mod := ⟨fun i hi e h hx => by
    obtain ⟨n, rfl⟩ := hx
    rcases Soft.cases sp1 i with ⟨r, w, e1⟩ | ⟨pos, k, e1⟩
    · rw [preceded_cont e1] at h
      have hr := KeepsNul.out (p := sp1) _ _ _ hi e1
      unfold pathMod at h
      rw [if_neg (by rintro rfl; simp [EndsNul] at hr)] at h
      split at h
      · cases h
      · split at h <;> cases h
    · rw [preceded_stop e1] at h; cases h⟩

instance : Env Anything IsPanicOrIncomplete where
  error := by simp [IsPanicOrIncomplete]
  failure := by simp [IsPanicOrIncomplete]
  fuel := by simp [IsPanicOrIncomplete]
  keeps _ _ _ := trivial

theorem neverPanics_of {p : P α} (h : Avoids Calm IsPanic p) : NeverPanics Calm p :=
  fun i hi e => h.out i hi _ e rfl
theorem neverIncomplete_of {p : P α} (h : Avoids EndsNul IsIncomplete p) : NeverIncomplete NulTerminated p := by
  rintro i ⟨t, rfl⟩ n e
  exact h.out _ (by simp [EndsNul]) _ e ⟨n, rfl⟩
theorem neverPanics_data {p : P α} (h : Avoids Anything IsPanicOrIncomplete p) : NeverPanics Anything p :=
  fun i hi e => h.out i hi _ e (.inl rfl)
theorem neverIncomplete_data {p : P α} (h : Avoids Anything IsPanicOrIncomplete p) : NeverIncomplete Anything p :=
  fun i hi n e => h.out i hi _ e (.inr ⟨n, rfl⟩)

/-! ## C05 -/

theorem C05_sparqlQueryStmt_partial : NeverPanics Calm sparqlQueryStmt := neverPanics_of inferInstance
theorem C05_sparqlQuery_partial : NeverPanics Calm sparqlQuery := neverPanics_of inferInstance
theorem C05_selectQuery_partial : NeverPanics Calm selectQuery := neverPanics_of inferInstance
theorem C05_constructQuery_partial : NeverPanics Calm constructQuery := neverPanics_of inferInstance
theorem C05_describeQuery_partial : NeverPanics Calm describeQuery := neverPanics_of inferInstance
theorem C05_askQuery_partial : NeverPanics Calm askQuery := neverPanics_of inferInstance
theorem C05_subTriples_partial : NeverPanics Calm subTriples := neverPanics_of inferInstance
theorem C05_subConstruct_partial : NeverPanics Calm subConstruct := neverPanics_of inferInstance
theorem C05_update_partial : NeverPanics Calm update := neverPanics_of inferInstance
theorem C05_groupGraphPattern_partial : NeverPanics Calm groupGraphPattern := neverPanics_of inferInstance
theorem C05_expression_partial : NeverPanics Calm expression := neverPanics_of inferInstance

/-- Parsers without expressions and paths: on every input. -/
theorem C05_prologue : NeverPanics Anything prologue := neverPanics_data inferInstance
theorem C05_dataSetClause : NeverPanics Anything dataSetClause := neverPanics_data inferInstance
theorem C05_usingClause : NeverPanics Anything usingClause := neverPanics_data inferInstance
theorem C05_datablock : NeverPanics Anything datablock := neverPanics_data inferInstance
theorem C05_limitOffsetClause : NeverPanics Anything limitOffsetClause := neverPanics_data inferInstance
theorem C05_triplesTemplate : NeverPanics Anything triplesTemplate := neverPanics_data inferInstance
theorem C05_quads : NeverPanics Anything quads := neverPanics_data inferInstance
theorem C05_quadData : NeverPanics Anything quadData := neverPanics_data inferInstance
theorem C05_insertData : NeverPanics Anything insertData := neverPanics_data inferInstance
theorem C05_deleteData : NeverPanics Anything deleteData := neverPanics_data inferInstance
theorem C05_deleteWhereData : NeverPanics Anything deleteWhereData := neverPanics_data inferInstance
theorem C05_deleteInsert : NeverPanics Anything deleteInsert := neverPanics_data inferInstance
theorem C05_loadStmt : NeverPanics Anything loadStmt := neverPanics_data inferInstance
theorem C05_clearStmt : NeverPanics Anything clearStmt := neverPanics_data inferInstance
theorem C05_dropStmt : NeverPanics Anything dropStmt := neverPanics_data inferInstance
theorem C05_createStmt : NeverPanics Anything createStmt := neverPanics_data inferInstance
theorem C05_copyStmt : NeverPanics Anything copyStmt := neverPanics_data inferInstance

/-- Non-vacuity: calm inputs that are accepted, also with non-ASCII characters. -/
example : ∃ a, groupGraphPattern c!"{?s <pé> $o}" = .ok [] a := ⟨_, rfl⟩
example : Calm c!"ask" := ⟨by decide, fun a w c b e hw => by
  have hm : w ∈ c!"ask" := by rw [e]; simp
  exfalso; revert hm; revert hw
  simp; rintro (rfl | rfl | rfl | rfl) <;> decide⟩

/-- C05 fails: after a predicate and a blank, a non-ASCII character makes `path_mod` slice inside it. -/
theorem C05_groupGraphPattern_violated (r : Str) : groupGraphPattern (c!"{?s <p> é" ++ r) = .err .panic := rfl
theorem C05_query_violated : sparqlQueryStmt c!"ask {?s <p> é}" = .err .panic := rfl
theorem C05_query_kelvin_violated : sparqlQueryStmt ['A', 'S', Char.ofNat 0x212A, ' ', '{', '}'] = .err .panic := rfl

/-! ## C06 -/

theorem C06_sparqlQueryStmt_partial : NeverIncomplete NulTerminated sparqlQueryStmt := neverIncomplete_of inferInstance
theorem C06_sparqlQuery_partial : NeverIncomplete NulTerminated sparqlQuery := neverIncomplete_of inferInstance
theorem C06_selectQuery_partial : NeverIncomplete NulTerminated selectQuery := neverIncomplete_of inferInstance
theorem C06_constructQuery_partial : NeverIncomplete NulTerminated constructQuery := neverIncomplete_of inferInstance
theorem C06_describeQuery_partial : NeverIncomplete NulTerminated describeQuery := neverIncomplete_of inferInstance
theorem C06_askQuery_partial : NeverIncomplete NulTerminated askQuery := neverIncomplete_of inferInstance
theorem C06_subTriples_partial : NeverIncomplete NulTerminated subTriples := neverIncomplete_of inferInstance
theorem C06_subConstruct_partial : NeverIncomplete NulTerminated subConstruct := neverIncomplete_of inferInstance
theorem C06_update_partial : NeverIncomplete NulTerminated update := neverIncomplete_of inferInstance
theorem C06_groupGraphPattern_partial : NeverIncomplete NulTerminated groupGraphPattern := neverIncomplete_of inferInstance
theorem C06_expression_partial : NeverIncomplete NulTerminated expression := neverIncomplete_of inferInstance

/-- Parsers without expressions and paths: on every input. -/
theorem C06_prologue : NeverIncomplete Anything prologue := neverIncomplete_data inferInstance
theorem C06_dataSetClause : NeverIncomplete Anything dataSetClause := neverIncomplete_data inferInstance
theorem C06_usingClause : NeverIncomplete Anything usingClause := neverIncomplete_data inferInstance
theorem C06_datablock : NeverIncomplete Anything datablock := neverIncomplete_data inferInstance
theorem C06_limitOffsetClause : NeverIncomplete Anything limitOffsetClause := neverIncomplete_data inferInstance
theorem C06_triplesTemplate : NeverIncomplete Anything triplesTemplate := neverIncomplete_data inferInstance
theorem C06_quads : NeverIncomplete Anything quads := neverIncomplete_data inferInstance
theorem C06_quadData : NeverIncomplete Anything quadData := neverIncomplete_data inferInstance
theorem C06_insertData : NeverIncomplete Anything insertData := neverIncomplete_data inferInstance
theorem C06_deleteData : NeverIncomplete Anything deleteData := neverIncomplete_data inferInstance
theorem C06_deleteWhereData : NeverIncomplete Anything deleteWhereData := neverIncomplete_data inferInstance
theorem C06_deleteInsert : NeverIncomplete Anything deleteInsert := neverIncomplete_data inferInstance
theorem C06_loadStmt : NeverIncomplete Anything loadStmt := neverIncomplete_data inferInstance
theorem C06_clearStmt : NeverIncomplete Anything clearStmt := neverIncomplete_data inferInstance
theorem C06_dropStmt : NeverIncomplete Anything dropStmt := neverIncomplete_data inferInstance
theorem C06_createStmt : NeverIncomplete Anything createStmt := neverIncomplete_data inferInstance
theorem C06_copyStmt : NeverIncomplete Anything copyStmt := neverIncomplete_data inferInstance

/-- Non-vacuity: a NUL terminated input that is accepted. -/
example : ∃ a, sparqlQueryStmt (c!"ask {?s <p> $o}" ++ ['\x00']) = .ok ['\x00'] a := ⟨_, rfl⟩

/-- C06 fails: an expression at the end of the input, a predicate and a blank at the end of the input. -/
theorem C06_expression_violated : expression c!"?x" = .err (.incomplete 3) := rfl
theorem C06_query_expression_violated : sparqlQueryStmt c!"SELECT * WHERE { FILTER (?x" = .err (.incomplete 3) := rfl
theorem C06_query_path_violated : sparqlQueryStmt c!"SELECT * WHERE {?s <p> " = .err (.incomplete 1) := rfl

end NomSparql
