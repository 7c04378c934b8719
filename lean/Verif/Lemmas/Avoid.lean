import Verif.Lemmas.Kw

/-!
# Parsers that avoid an answer

`Avoids S X p`: on inputs satisfying `S`, parser `p` never answers an error of class `X`.  The class is
instantiated twice (see `Props/C05_C06.lean`): `X` = panic with `S` = "no KELVIN SIGN and no non-ASCII
character right after white space", and `X` = Incomplete with `S` = "the last character is NUL".

`KeepsNul p`: a final NUL is never consumed.
-/

namespace NomSparql

set_option linter.unusedVariables false
set_option synthInstance.maxSize 4000
set_option synthInstance.maxHeartbeats 400000

/-! ## A final NUL is never consumed -/

def EndsNul (i : Input) : Prop := i.getLast? = some '\x00'

class KeepsNul (p : P α) : Prop where
  out : ∀ i r a, EndsNul i → p i = .ok r a → EndsNul r

theorem endsNul_drop {c r : Str} (h : EndsNul (c ++ r)) (hc : c.getLast? ≠ some '\x00') : EndsNul r := by
  unfold EndsNul at *
  rw [List.getLast?_append] at h
  cases e : r.getLast? with
  | some x => rw [e] at h; exact h
  | none => rw [e] at h; exact absurd h hc

theorem keepsNul_of_text {p : P α} (h : ∀ i r a, p i = .ok r a → ∃ c, i = c ++ r ∧ c.getLast? ≠ some '\x00') :
    KeepsNul p where
  out i r a hi e := by
    obtain ⟨c, rfl, hc⟩ := h _ _ _ e
    exact endsNul_drop hi hc

section
variable {p : P α} {q : P β}

instance [h : KeepsNul p] {f : α → β} : KeepsNul (map p f) where
  out i r a hi e := by obtain ⟨a', e', _⟩ := map_ok.mp e; exact h.out _ _ _ hi e'
instance [h : KeepsNul p] [h' : KeepsNul q] : KeepsNul (pair p q) where
  out i r a hi e := by obtain ⟨r1, e1, e2⟩ := pair_ok e; exact h'.out _ _ _ (h.out _ _ _ hi e1) e2
instance [KeepsNul p] [KeepsNul q] : KeepsNul (preceded p q) := by unfold preceded; infer_instance
instance [KeepsNul p] [KeepsNul q] : KeepsNul (terminated p q) := by unfold terminated; infer_instance
instance {s : P γ} [KeepsNul p] [KeepsNul q] [KeepsNul s] : KeepsNul (delimited p q s) := by
  unfold delimited; infer_instance
instance {s : P γ} [KeepsNul p] [KeepsNul q] [KeepsNul s] : KeepsNul (separatedPair p s q) := by
  unfold separatedPair; infer_instance
instance {s : P γ} [KeepsNul p] [KeepsNul q] [KeepsNul s] : KeepsNul (tuple3 p q s) := by
  unfold tuple3; infer_instance
instance {s : P γ} {t : P δ} [KeepsNul p] [KeepsNul q] [KeepsNul s] [KeepsNul t] : KeepsNul (tuple4 p q s t) := by
  unfold tuple4; infer_instance
instance {s : P γ} {t : P δ} {u : P ε} [KeepsNul p] [KeepsNul q] [KeepsNul s] [KeepsNul t] [KeepsNul u] :
    KeepsNul (tuple5 p q s t u) := by
  unfold tuple5; infer_instance
instance [h : KeepsNul p] : KeepsNul (opt p) where
  out i r a hi e := by
    rcases opt_ok.mp e with ⟨a', _, e'⟩ | ⟨_, rfl, _⟩
    · exact h.out _ _ _ hi e'
    · exact hi
instance [h : KeepsNul p] : KeepsNul (cut p) where
  out i r a hi e := h.out _ _ _ hi (cut_ok.mp e)
instance [h : KeepsNul p] : KeepsNul (recognize p) where
  out i r a hi e := by obtain ⟨a', e', _⟩ := recognize_ok.mp e; exact h.out _ _ _ hi e'
instance [h : KeepsNul p] {f : α → Option β} : KeepsNul (mapRes p f) where
  out i r a hi e := by obtain ⟨a', e', _⟩ := mapRes_ok.mp e; exact h.out _ _ _ hi e'
instance : KeepsNul (alt ([] : List (P α))) := ⟨fun _ _ _ _ h => by cases h⟩
instance {ps : List (P α)} [h : KeepsNul p] [h' : KeepsNul (alt ps)] : KeepsNul (alt (p :: ps)) where
  out i r a hi e := by
    cases ps with
    | nil => exact h.out _ _ _ hi e
    | cons p' ps =>
      rcases alt_two_ok.mp e with e' | ⟨_, e'⟩
      · exact h.out _ _ _ hi e'
      · exact h'.out _ _ _ hi e'
theorem manyRun_nul [h : KeepsNul p] {i r as} (hr : ManyRun p i r as) : EndsNul i → EndsNul r := by
  induction hr with
  | stop _ => exact id
  | step e _ _ ih => exact fun hi => ih (h.out _ _ _ hi e)
instance [Good p] [h : KeepsNul p] : KeepsNul (many0 p) where
  out i r a hi e := manyRun_nul (many0_ok.mp e) hi
instance [Good p] [h : KeepsNul p] : KeepsNul (many1 p) where
  out i r a hi e := by
    obtain ⟨_, _, j, _, e1, e2⟩ := many1_ok.mp e
    exact manyRun_nul e2 (h.out _ _ _ hi e1)
theorem sepRun_nul [h : KeepsNul p] [h' : KeepsNul q] {i r as} (hr : SepRun q p i r as) : EndsNul i → EndsNul r := by
  induction hr with
  | stopSep _ => exact id
  | stopElem _ _ _ => exact id
  | step e1 _ e2 _ _ ih => exact fun hi => ih (h.out _ _ _ (h'.out _ _ _ hi e1) e2)
instance [Good p] [Good q] [h : KeepsNul p] [KeepsNul q] : KeepsNul (separatedNonemptyList q p) where
  out i r a hi e := by
    obtain ⟨_, _, j, _, e1, _, e2⟩ := separatedNonemptyList_ok.mp e
    exact sepRun_nul e2 (h.out _ _ _ hi e1)
instance [Good p] [Good q] [h : KeepsNul p] [KeepsNul q] : KeepsNul (separatedList q p) where
  out i r a hi e := by
    rcases separatedList_ok.mp e with ⟨_, rfl, _⟩ | ⟨_, _, j, _, e1, _, e2⟩
    · exact hi
    · exact sepRun_nul e2 (h.out _ _ _ hi e1)

/-- `pair` ending in one character: only that character counts. -/
theorem keepsNul_last [Good p] {q : P β} (hc : ∀ i r a, q i = .ok r a → ∃ x, i = x :: r ∧ x ≠ '\x00') :
    KeepsNul (pair p q) where
  out i r a hi h := by
    obtain ⟨r1, h1, h2⟩ := pair_ok h
    obtain ⟨x, rfl, hx⟩ := hc _ _ _ h2
    obtain ⟨c, rfl⟩ := Good.ok h1
    refine endsNul_drop (c := c ++ [x]) (by simpa using hi) ?_
    simpa using hx

end

/-! ### Leaves -/

class NotNul (c : Char) : Prop where
  out : c ≠ '\x00'

open Lean in
/-- `notNul 'a' 'b'` declares the instances. -/
macro "notNul" cs:char* : command => do
  let cmds ← cs.mapM fun c => `(command| instance : NotNul $c := ⟨by decide⟩)
  return ⟨mkNullNode (cmds.map (·.raw))⟩
notNul '#' '$' '(' ')' '*' '+' ',' '-' '.' ':' ';' '=' '?' '@' 'E' 'e' '[' ']' '^' '{' '}' '|' '<' '>' '!' '/' '&'
  '"' '\'' '_' '%' '\\' ' ' '\t' '\n' '\r' '~'
  'a' 'b' 'c' 'd' 'f' 'g' 'h' 'i' 'j' 'k' 'l' 'm' 'n' 'o' 'p' 'q' 'r' 's' 't' 'u' 'v' 'w' 'x' 'y' 'z'
  '0' '1' '2' '3' '4' '5' '6' '7' '8' '9'

instance {c} [h : NotNul c] : KeepsNul (char c) := keepsNul_of_text fun i r a e => by
  obtain ⟨_, rfl⟩ := char_ok.mp e
  exact ⟨[c], rfl, by simpa using h.out⟩

class NotNuls (t : List Char) : Prop where
  out : ∀ c ∈ t, c ≠ '\x00'
instance : NotNuls [] := ⟨by simp⟩
instance {c t} [h : NotNul c] [h' : NotNuls t] : NotNuls (c :: t) where
  out d hd := by
    rcases List.mem_cons.mp hd with rfl | hd
    · exact h.out
    · exact h'.out _ hd

theorem last_ne {c : Str} (h : '\x00' ∉ c) : c.getLast? ≠ some '\x00' :=
  fun e => h (List.mem_of_getLast? e)

instance {t} [h : NotNuls t] : KeepsNul (tag t) := keepsNul_of_text fun i r a e => by
  obtain ⟨_, rfl⟩ := tag_ok.mp e
  exact ⟨t, rfl, last_ne fun hm => h.out _ hm rfl⟩

theorem caseVariant_nul {t a : Str} (ht : ∀ c ∈ t, c ≠ '\x00') (h : CaseVariant t a) : '\x00' ∉ a := by
  induction h with
  | nil => simp
  | @cons x y t s hs _ ih =>
    intro hm
    rcases List.mem_cons.mp hm with rfl | hm
    · rcases hs with h | ⟨h1, h2, h3⟩
      · exact ht x (by simp) h.symm
      · have : ('\x00' : Char).toNat = 0 := rfl
        omega
    · exact ih (fun c hc => ht c (by simp [hc])) hm

instance {t} [KwTag t] [h : NotNuls t] : KeepsNul (tagNoCase t) := keepsNul_of_text fun i r a e => by
  obtain ⟨rfl, hv⟩ := tagNoCase_ok_iff.mp e
  exact ⟨a, rfl, last_ne (caseVariant_nul h.out hv)⟩
instance {t} [KwTag t] [h : NotNuls t] : KeepsNul (tagNoCaseStreaming t) := keepsNul_of_text fun i r a e => by
  obtain ⟨rfl, hv⟩ := tagNoCaseStreaming_ok_iff.mp e
  exact ⟨a, rfl, last_ne (caseVariant_nul h.out hv)⟩

/-- The character class does not contain NUL. -/
class NoNulIn (f : Char → Bool) : Prop where
  out : f '\x00' = false
instance : NoNulIn isPnCharsBase := ⟨by decide⟩
instance : NoNulIn isPnChar := ⟨by decide⟩
instance : NoNulIn isDot := ⟨by decide⟩
instance : NoNulIn isHexDigit := ⟨by decide⟩
instance : NoNulIn isLocalChar := ⟨by decide⟩
instance : NoNulIn isDigitU8 := ⟨by decide⟩
instance : NoNulIn isIriChar := ⟨by decide⟩
instance : NoNulIn isVarChar := ⟨by decide⟩

theorem noNul_all {f : Char → Bool} [h : NoNulIn f] {s : Str} (hs : ∀ c ∈ s, f c = true) : '\x00' ∉ s := by
  intro hm; have := hs _ hm; rw [h.out] at this; cases this

instance {f} [NoNulIn f] : KeepsNul (takeWhile f) := keepsNul_of_text fun i r a e => by
  obtain ⟨h1, h2, _⟩ := takeWhile_ok.mp e
  exact ⟨a, h1, last_ne (noNul_all h2)⟩
instance {k f} [NoNulIn f] : KeepsNul (takeWhile1K k f) := keepsNul_of_text fun i r a e => by
  obtain ⟨h1, _, h2, _⟩ := takeWhile1K_ok.mp e
  exact ⟨a, h1, last_ne (noNul_all h2)⟩
instance {f} [NoNulIn f] : KeepsNul (takeWhile1 f) := by unfold takeWhile1; infer_instance
instance {n f} [NoNulIn f] : KeepsNul (takeWhileN n f) := keepsNul_of_text fun i r a e => by
  obtain ⟨h1, _, h2⟩ := takeWhileN_ok.mp e
  exact ⟨a, h1, last_ne (noNul_all h2)⟩
instance {cs} [h : NotNuls cs] : KeepsNul (oneOf cs) := keepsNul_of_text fun i r a e => by
  obtain ⟨h1, rfl⟩ := oneOf_ok.mp e
  exact ⟨[a], rfl, by simpa using h.out _ h1⟩

macro "nul! " n:ident : command => `(instance : KeepsNul $n := by unfold $n; infer_instance)

instance : NoNulIn isDecDigit := ⟨by decide⟩
nul! digit1
instance : NoNulIn isAlpha := ⟨by decide⟩
instance : NoNulIn isAlphanum := ⟨by decide⟩
nul! alpha1
nul! alphanumeric1

instance : KeepsNul newLine := by
  unfold newLine
  have : KeepsNul (pair (opt (preceded (char '#') (many0 (noneOf ['\n', '\r'])))) (oneOf ['\r', '\n'])) :=
    keepsNul_last fun i r a h => by
      obtain ⟨h1, rfl⟩ := oneOf_ok.mp h
      refine ⟨a, rfl, ?_⟩
      rintro rfl; simp at h1
  infer_instance
instance : NotNuls pnLocalEsc := by unfold pnLocalEsc; infer_instance
nul! spItem
nul! sp
nul! sp1
instance : KeepsNul stringLiteral := keepsNul_of_text fun i r s e => by
  obtain ⟨q, hq, rfl, _⟩ := stringLiteral_ok.mp e
  refine ⟨q :: (s ++ [q]), by simp, ?_⟩
  have : (q :: (s ++ [q])).getLast? = some q := by
    rw [← List.cons_append, List.getLast?_append]; rfl
  rw [this]
  rcases hq with rfl | rfl <;> simp
instance : KeepsNul sparqlInt where
  out i r a hi h := by
    unfold sparqlInt at h
    split at h
    · rename_i e
      have : KeepsNul (recognize (pair optSign digit1)) := by unfold optSign; infer_instance
      have := this.out _ _ _ hi e
      repeat' split at h
      all_goals cases h <;> assumption
    · cases h
instance : KeepsNul sparqlDecimal where
  out i r a hi h := by
    unfold sparqlDecimal at h
    split at h
    · cases h
    · rename_i e
      have : KeepsNul recognizeSparqlFloat := by unfold recognizeSparqlFloat optSign; infer_instance
      have := this.out _ _ _ hi e
      split at h
      all_goals cases h <;> assumption
instance : KeepsNul pathMod where
  out i r a hi h := by
    unfold pathMod at h
    split at h
    · cases h
    · split at h
      · cases h
      · rename_i a' r' e
        split at h
        · rename_i m hm
          cases h
          obtain rfl := takeBytes_eq e
          refine endsNul_drop hi (last_ne ?_)
          unfold PathMod.fromStr at hm
          repeat' split at hm
          all_goals first | cases hm; done | (rename_i h; subst h; simp)
        · cases h

section
variable {p : P α} {q : P β} {t : List Char} {c : Char}
instance [KeepsNul p] : KeepsNul (bracketted p) := by unfold bracketted; infer_instance
instance [KwTag t] [NotNuls t] [KeepsNul p] : KeepsNul (precededTag1 t p) := by unfold precededTag1; infer_instance
instance [KwTag t] [NotNuls t] [KeepsNul p] : KeepsNul (precededTag t p) := by unfold precededTag; infer_instance
instance [KwTag t] [NotNuls t] [KeepsNul p] : KeepsNul (precededBracketted t p) := by
  unfold precededBracketted; infer_instance
instance [KeepsNul p] : KeepsNul (spEnc p) := by unfold spEnc; infer_instance
instance [KeepsNul p] : KeepsNul (spEnc1 p) := by unfold spEnc1; infer_instance
instance [KeepsNul p] [KeepsNul q] : KeepsNul (spSep1 p q) := by unfold spSep1; infer_instance
instance [KeepsNul p] [KeepsNul q] : KeepsNul (spSep p q) := by unfold spSep; infer_instance
instance [KeepsNul p] : KeepsNul (bracketted3 p) := by unfold bracketted3 comma; infer_instance
instance {pat : P Str} [KeepsNul pat] : KeepsNul (intClause pat) := by unfold intClause; infer_instance
end

/-! ## Avoiding an error class -/

class Avoids (S : Input → Prop) (X : Err → Prop) (p : P α) : Prop where
  out : ∀ i, S i → ∀ e, p i = .err e → ¬ X e

/-- Requirements on `S` and `X` for parsers without expressions and paths. -/
class Env (S : Input → Prop) (X : Err → Prop) : Prop where
  error : ∀ pos k, ¬ X (.error pos k)
  failure : ∀ pos k, ¬ X (.failure pos k)
  fuel : ¬ X .fuel
  keeps : ∀ {i c r : Input}, S i → i = c ++ r → (EndsNul i → EndsNul r) → S r

/-- Additional requirements for parsers with expressions and paths. -/
class EnvE (S : Input → Prop) (X : Err → Prop) : Prop extends Env S X where
  tagk : ∀ t, KwTag t → Avoids S X (tagNoCase t)
  streaming : ∀ t, KwTag t → (∀ c ∈ t, c ≠ '\x00') → Avoids S X (tagNoCaseStreaming t)
  mod : Avoids S X (preceded sp1 pathMod)

section
variable {S : Input → Prop} {X : Err → Prop} {p : P α} {q : P β}

theorem avoids_fuel [h : Env S X] : Avoids S X (fun _ => .err .fuel : P α) :=
  ⟨fun _ _ e h' => by cases h'; exact h.fuel⟩

theorem Env.ok [Good p] [hk : KeepsNul p] [h : Env S X] {i r a} (hs : S i) (e : p i = .ok r a) : S r := by
  obtain ⟨c, hc⟩ := Good.ok e
  exact h.keeps hs hc.symm (fun hn => hk.out _ _ _ hn e)

instance (priority := low) avoids_soft [Soft p] [h : Env S X] : Avoids S X p where
  out i _ e he := by
    obtain ⟨pos, k, rfl⟩ := Soft.out _ _ he
    exact h.error _ _

variable [hE : Env S X]

instance [h : Avoids S X p] {f : α → β} : Avoids S X (map p f) where
  out i hs e he := by
    unfold map at he; split at he
    · cases he
    · rename_i e' h'; cases he; exact h.out _ hs _ h'
instance [Good p] [KeepsNul p] [h : Avoids S X p] [h' : Avoids S X q] : Avoids S X (pair p q) where
  out i hs e he := by
    unfold pair at he; split at he
    · rename_i r a e1
      have := Env.ok (X := X) hs e1
      split at he
      · cases he
      · rename_i e2; cases he; exact h'.out _ this _ e2
    · rename_i e2; cases he; exact h.out _ hs _ e2
instance [Good p] [KeepsNul p] [Avoids S X p] [Avoids S X q] : Avoids S X (preceded p q) := by
  unfold preceded; infer_instance
instance [Good p] [KeepsNul p] [Avoids S X p] [Avoids S X q] : Avoids S X (terminated p q) := by
  unfold terminated; infer_instance
instance {s : P γ} [Good p] [KeepsNul p] [Avoids S X p] [Good q] [KeepsNul q] [Avoids S X q] [Avoids S X s] :
    Avoids S X (delimited p q s) := by
  unfold delimited; infer_instance
instance {s : P γ} [Good p] [KeepsNul p] [Avoids S X p] [Good s] [KeepsNul s] [Avoids S X q] [Avoids S X s] :
    Avoids S X (separatedPair p s q) := by
  unfold separatedPair; infer_instance
instance {s : P γ} [Good p] [KeepsNul p] [Avoids S X p] [Good q] [KeepsNul q] [Avoids S X q] [Avoids S X s] :
    Avoids S X (tuple3 p q s) := by
  unfold tuple3; infer_instance
instance {s : P γ} {t : P δ} [Good p] [KeepsNul p] [Avoids S X p] [Good q] [KeepsNul q] [Avoids S X q]
    [Good s] [KeepsNul s] [Avoids S X s] [Avoids S X t] : Avoids S X (tuple4 p q s t) := by
  unfold tuple4; infer_instance
instance {s : P γ} {t : P δ} {u : P ε} [Good p] [KeepsNul p] [Avoids S X p] [Good q] [KeepsNul q] [Avoids S X q]
    [Good s] [KeepsNul s] [Avoids S X s] [Good t] [KeepsNul t] [Avoids S X t] [Avoids S X u] :
    Avoids S X (tuple5 p q s t u) := by
  unfold tuple5; infer_instance
instance [h : Avoids S X p] : Avoids S X (opt p) where
  out i hs e he := by
    unfold opt at he; split at he
    · cases he
    · cases he
    · rename_i e2; cases he; exact h.out _ hs _ e2
instance [h : Avoids S X p] : Avoids S X (cut p) where
  out i hs e he := by
    unfold cut at he; split at he
    · cases he
    · cases he; exact hE.failure _ _
    · rename_i e2; cases he; exact h.out _ hs _ e2
instance [h : Avoids S X p] : Avoids S X (recognize p) where
  out i hs e he := by
    unfold recognize at he; split at he
    · cases he
    · rename_i e2; cases he; exact h.out _ hs _ e2
instance [h : Avoids S X p] {f : α → Option β} : Avoids S X (mapRes p f) where
  out i hs e he := by
    unfold mapRes at he; split at he
    · split at he
      · cases he
      · cases he; exact hE.error _ _
    · rename_i e2; cases he; exact h.out _ hs _ e2
instance : Avoids S X (alt ([] : List (P α))) := ⟨fun i _ e h => by cases h; exact hE.error _ _⟩
instance {ps : List (P α)} [h : Avoids S X p] [h' : Avoids S X (alt ps)] : Avoids S X (alt (p :: ps)) where
  out i hs e he := by
    cases ps with
    | nil => exact h.out _ hs _ he
    | cons q ps =>
      rw [alt] at he
      split at he
      · exact h'.out _ hs _ he
      · exact h.out _ hs _ he

theorem manyLoop_avoids [Good p] [KeepsNul p] [h : Avoids S X p] {kind : Kind} : ∀ {n i e}, S i →
    manyLoop kind p n i = .err e → ¬ X e := by
  intro n
  induction n with
  | zero => intro i e _ h'; cases h'; exact hE.fuel
  | succ n ih =>
    intro i e hs h'
    unfold manyLoop at h'
    split at h'
    · cases h'
    · rename_i e2; cases h'; exact h.out _ hs _ e2
    · rename_i r a e2
      have := Env.ok (X := X) hs e2
      split at h'
      · cases h'; exact hE.error _ _
      · split at h'
        · cases h'
        · rename_i e3; cases h'; exact ih this e3
instance [Good p] [KeepsNul p] [Avoids S X p] : Avoids S X (many0 p) where
  out _ hs _ he := manyLoop_avoids hs he
instance [Good p] [KeepsNul p] [h : Avoids S X p] : Avoids S X (many1 p) where
  out i hs e he := by
    unfold many1 at he
    split at he
    · rename_i e2; cases he; exact h.out _ hs _ e2
    · rename_i e2
      have := Env.ok (X := X) hs e2
      split at he
      · cases he
      · rename_i e2; cases he; exact manyLoop_avoids this e2
theorem sepLoop_avoids [Good q] [KeepsNul q] [hq : Avoids S X q] [Good p] [KeepsNul p] [h : Avoids S X p] :
    ∀ {n i e}, S i → sepLoop q p n i = .err e → ¬ X e := by
  intro n
  induction n with
  | zero => intro i e _ h'; cases h'; exact hE.fuel
  | succ n ih =>
    intro i e hs h'
    unfold sepLoop at h'
    split at h'
    · cases h'
    · rename_i e2; cases h'; exact hq.out _ hs _ e2
    · rename_i r a e2
      have h1 := Env.ok (X := X) hs e2
      split at h'
      · cases h'; exact hE.error _ _
      · split at h'
        · cases h'
        · rename_i e3; cases h'; exact h.out _ h1 _ e3
        · rename_i r2 a2 e3
          have h2 := Env.ok (X := X) h1 e3
          split at h'
          · cases h'; exact hE.error _ _
          · split at h'
            · cases h'
            · rename_i e4; cases h'; exact ih h2 e4
instance [Good q] [KeepsNul q] [hq : Avoids S X q] [Good p] [KeepsNul p] [h : Avoids S X p] :
    Avoids S X (separatedList q p) where
  out i hs e he := by
    unfold separatedList at he
    split at he
    · cases he
    · rename_i e2; cases he; exact h.out _ hs _ e2
    · rename_i e2
      have := Env.ok (X := X) hs e2
      split at he
      · cases he; exact hE.error _ _
      · split at he
        · cases he
        · rename_i e3; cases he; exact sepLoop_avoids this e3
instance [Good q] [KeepsNul q] [hq : Avoids S X q] [Good p] [KeepsNul p] [h : Avoids S X p] :
    Avoids S X (separatedNonemptyList q p) where
  out i hs e he := by
    unfold separatedNonemptyList at he
    split at he
    · rename_i e2; cases he; exact h.out _ hs _ e2
    · rename_i e2
      have := Env.ok (X := X) hs e2
      split at he
      · cases he; exact hE.error _ _
      · split at he
        · cases he
        · rename_i e3; cases he; exact sepLoop_avoids this e3
end

section
variable {S : Input → Prop} {X : Err → Prop}
instance (priority := low) [h : EnvE S X] {t} [ht : KwTag t] : Avoids S X (tagNoCase t) := h.tagk t ht
instance [h : EnvE S X] {t} [ht : KwTag t] [h' : NotNuls t] : Avoids S X (tagNoCaseStreaming t) :=
  h.streaming t ht h'.out
instance (priority := high) [h : EnvE S X] : Avoids S X (preceded sp1 pathMod) := h.mod

variable {p : P α} {q : P β} {t : List Char} {c : Char}
instance [Env S X] [Good p] [KeepsNul p] [Avoids S X p] : Avoids S X (bracketted p) := by
  unfold bracketted; infer_instance
instance [Env S X] [KwTag t] [NotNuls t] [Avoids S X (tagNoCase t)] [Avoids S X p] : Avoids S X (precededTag1 t p) := by
  unfold precededTag1; infer_instance
instance [Env S X] [KwTag t] [NotNuls t] [Avoids S X (tagNoCase t)] [Avoids S X p] : Avoids S X (precededTag t p) := by
  unfold precededTag; infer_instance
instance [Env S X] [KwTag t] [NotNuls t] [Avoids S X (tagNoCase t)] [Good p] [KeepsNul p] [Avoids S X p] :
    Avoids S X (precededBracketted t p) := by
  unfold precededBracketted; infer_instance
instance [Env S X] [Good p] [KeepsNul p] [Avoids S X p] : Avoids S X (spEnc p) := by unfold spEnc; infer_instance
instance [Env S X] [Good p] [KeepsNul p] [Avoids S X p] : Avoids S X (spEnc1 p) := by unfold spEnc1; infer_instance
instance [Env S X] [Good p] [KeepsNul p] [Avoids S X p] [Avoids S X q] : Avoids S X (spSep1 p q) := by
  unfold spSep1; infer_instance
instance [Env S X] [Good p] [KeepsNul p] [Avoids S X p] [Avoids S X q] : Avoids S X (spSep p q) := by
  unfold spSep; infer_instance
instance [Env S X] [Good p] [KeepsNul p] [Avoids S X p] : Avoids S X (bracketted3 p) := by
  unfold bracketted3 comma; infer_instance
instance [Env S X] {pat : P Str} [Good pat] [KeepsNul pat] [Avoids S X pat] : Avoids S X (intClause pat) := by
  unfold intClause; infer_instance
end

variable {S : Input → Prop} {X : Err → Prop}

macro "av! " n:ident : command =>
  `(instance {S : Input → Prop} {X : Err → Prop} [Env S X] : Avoids S X $n := by unfold $n; infer_instance)
macro "avE! " n:ident : command =>
  `(instance {S : Input → Prop} {X : Err → Prop} [EnvE S X] : Avoids S X $n := by unfold $n; infer_instance)

/-! ## Lexical layer -/

nul! hexPrimary
nul! plx
nul! pnCharsBaseOne
nul! pnCharsUOne
nul! pnChars1
nul! pnCharsTail
nul! pnLocalFirst
nul! pnLocalChunk
nul! pnLocal
nul! pnPrefix
nul! pnameNs
nul! pnameLn
nul! prefixedName
nul! iriRef
nul! iri
nul! languageTag
nul! rdfLiteral
nul! varName
nul! var
nul! boolean
nul! sign
nul! optSign
nul! recognizeSparqlFloat


/-! ## Parsers without expressions and paths -/

nul! namedIri
nul! defaultOrNamedIri
nul! baseDecl
nul! prefixDecl
nul! prologue
nul! anon
nul! nil
nul! silent
nul! distinct
nul! exponent
nul! sparqlDouble
nul! numericLiteral
nul! varOrIri
nul! verb
nul! varOrIrisOrAll
nul! blankNode
nul! graphTerm
nul! varOrTerm
nul! graphRef
nul! graphOrDefault
nul! graphRefAll
nul! dataSetClause
nul! datablockValue
nul! inlineDataFull
nul! inlineDataOneVar
nul! datablock
nul! inlineData
nul! valuesClause
nul! usingClause
nul! limitClause
nul! offsetClause
nul! limitOffsetClause
av! namedIri
av! defaultOrNamedIri
av! baseDecl
av! prefixDecl
av! prologue
av! anon
av! nil
av! silent
av! distinct
av! exponent
av! sparqlDouble
av! numericLiteral
av! varOrIri
av! verb
av! varOrIrisOrAll
av! blankNode
av! graphTerm
av! varOrTerm
av! graphRef
av! graphOrDefault
av! graphRefAll
av! dataSetClause
av! datablockValue
av! inlineDataFull
av! inlineDataOneVar
av! datablock
av! inlineData
av! valuesClause
av! usingClause
av! limitClause
av! offsetClause
av! limitOffsetClause

section
variable {gn : P GraphNode}

instance [KeepsNul gn] [Good gn] : KeepsNul (collectionS gn) := by unfold collectionS; infer_instance
instance [KeepsNul gn] [Good gn] : KeepsNul (objectListS gn) := by unfold objectListS; infer_instance
instance [KeepsNul gn] [Good gn] : KeepsNul (propertyListNotEmptyS gn) := by unfold propertyListNotEmptyS; infer_instance
instance [KeepsNul gn] [Good gn] : KeepsNul (propertyListS gn) := by unfold propertyListS; infer_instance
instance [KeepsNul gn] [Good gn] : KeepsNul (blankNodePropertyListS gn) := by unfold blankNodePropertyListS; infer_instance
instance [KeepsNul gn] [Good gn] : KeepsNul (triplesNodeS gn) := by unfold triplesNodeS; infer_instance
instance [KeepsNul gn] [Good gn] : KeepsNul (graphNodeStep gn) := by unfold graphNodeStep; infer_instance
instance [Env S X] [KeepsNul gn] [Good gn] [Avoids S X gn] : Avoids S X (collectionS gn) := by unfold collectionS; infer_instance
instance [Env S X] [KeepsNul gn] [Good gn] [Avoids S X gn] : Avoids S X (objectListS gn) := by unfold objectListS; infer_instance
instance [Env S X] [KeepsNul gn] [Good gn] [Avoids S X gn] : Avoids S X (propertyListNotEmptyS gn) := by unfold propertyListNotEmptyS; infer_instance
instance [Env S X] [KeepsNul gn] [Good gn] [Avoids S X gn] : Avoids S X (propertyListS gn) := by unfold propertyListS; infer_instance
instance [Env S X] [KeepsNul gn] [Good gn] [Avoids S X gn] : Avoids S X (blankNodePropertyListS gn) := by unfold blankNodePropertyListS; infer_instance
instance [Env S X] [KeepsNul gn] [Good gn] [Avoids S X gn] : Avoids S X (triplesNodeS gn) := by unfold triplesNodeS; infer_instance
instance [Env S X] [KeepsNul gn] [Good gn] [Avoids S X gn] : Avoids S X (graphNodeStep gn) := by unfold graphNodeStep; infer_instance
end

instance graphNodeF_nul : ∀ n, KeepsNul (graphNodeF n)
  | 0 => ⟨fun _ _ _ _ h => by cases h⟩
  | n + 1 => by have := graphNodeF_nul n; unfold graphNodeF; infer_instance
instance graphNodeF_av [Env S X] : ∀ n, Avoids S X (graphNodeF n)
  | 0 => avoids_fuel
  | n + 1 => by have := graphNodeF_av n; unfold graphNodeF; infer_instance
instance : KeepsNul graphNode := ⟨fun i => (graphNodeF_nul _).out i⟩
instance [Env S X] : Avoids S X graphNode := ⟨fun i => (graphNodeF_av _).out i⟩

nul! collection
nul! objectList
nul! propertyListNotEmpty
nul! propertyList
nul! blankNodePropertyList
nul! triplesNode
nul! triplesSameSubject
nul! triplesTemplate
nul! quadsNotTriples
nul! quadsEntry
nul! quads
nul! quadsPattern
nul! quadData
nul! insertClause
nul! deleteClause
nul! iriOrA
nul! iriOrAOrCaret
nul! pathOneInPropertySet
nul! pathNegatedPropertySet
nul! dataSetClauses
nul! constructTemplate
nul! comma
nul! optDistinct
nul! optSilent
nul! separatorEq
nul! order
nul! selectModifier
nul! silentFromTo
nul! addStmt
nul! moveStmt
nul! copyStmt
nul! createStmt
nul! silentGraphRefAll
nul! dropStmt
nul! clearStmt
nul! loadStmt
nul! insertData
nul! deleteData
nul! deleteWhereData
nul! deleteInsert
av! collection
av! objectList
av! propertyListNotEmpty
av! propertyList
av! blankNodePropertyList
av! triplesNode
av! triplesSameSubject
av! triplesTemplate
av! quadsNotTriples
av! quadsEntry
av! quads
av! quadsPattern
av! quadData
av! insertClause
av! deleteClause
av! iriOrA
av! iriOrAOrCaret
av! pathOneInPropertySet
av! pathNegatedPropertySet
av! dataSetClauses
av! constructTemplate
av! comma
av! optDistinct
av! optSilent
av! separatorEq
av! order
av! selectModifier
av! silentFromTo
av! addStmt
av! moveStmt
av! copyStmt
av! createStmt
av! silentGraphRefAll
av! dropStmt
av! clearStmt
av! loadStmt
av! insertData
av! deleteData
av! deleteWhereData
av! deleteInsert

/-! ## Paths -/

section
variable {pa : P PathAlternative}

instance [KeepsNul pa] [Good pa] : KeepsNul (pathPrimaryS pa) := by unfold pathPrimaryS; infer_instance
instance [KeepsNul pa] [Good pa] : KeepsNul (pathEltS pa) := by unfold pathEltS; infer_instance
instance [KeepsNul pa] [Good pa] : KeepsNul (pathEltOrInverseS pa) := by unfold pathEltOrInverseS; infer_instance
instance [KeepsNul pa] [Good pa] : KeepsNul (pathSequenceS pa) := by unfold pathSequenceS; infer_instance
instance [KeepsNul pa] [Good pa] : KeepsNul (pathAlternativeStep pa) := by unfold pathAlternativeStep; infer_instance
instance [EnvE S X] [KeepsNul pa] [Good pa] [Avoids S X pa] : Avoids S X (pathPrimaryS pa) := by unfold pathPrimaryS; infer_instance
instance [EnvE S X] [KeepsNul pa] [Good pa] [Avoids S X pa] : Avoids S X (pathEltS pa) := by unfold pathEltS; infer_instance
instance [EnvE S X] [KeepsNul pa] [Good pa] [Avoids S X pa] : Avoids S X (pathEltOrInverseS pa) := by unfold pathEltOrInverseS; infer_instance
instance [EnvE S X] [KeepsNul pa] [Good pa] [Avoids S X pa] : Avoids S X (pathSequenceS pa) := by unfold pathSequenceS; infer_instance
instance [EnvE S X] [KeepsNul pa] [Good pa] [Avoids S X pa] : Avoids S X (pathAlternativeStep pa) := by unfold pathAlternativeStep; infer_instance
end

instance pathAlternativeF_nul : ∀ n, KeepsNul (pathAlternativeF n)
  | 0 => ⟨fun _ _ _ _ h => by cases h⟩
  | n + 1 => by have := pathAlternativeF_nul n; unfold pathAlternativeF; infer_instance
instance pathAlternativeF_av [EnvE S X] : ∀ n, Avoids S X (pathAlternativeF n)
  | 0 => avoids_fuel
  | n + 1 => by have := pathAlternativeF_av n; unfold pathAlternativeF; infer_instance
instance : KeepsNul pathAlternative := ⟨fun i => (pathAlternativeF_nul _).out i⟩
instance [EnvE S X] : Avoids S X pathAlternative := ⟨fun i => (pathAlternativeF_av _).out i⟩

nul! pathPrimary
nul! pathElt
nul! pathEltOrInverse
nul! pathSequence
nul! verbPathOrSimple
nul! propertyListPathEntry
avE! pathPrimary
avE! pathElt
avE! pathEltOrInverse
avE! pathSequence
avE! verbPathOrSimple
avE! propertyListPathEntry

section
variable {gn : P GraphNodePath}

instance [KeepsNul gn] [Good gn] : KeepsNul (objectListPathS gn) := by unfold objectListPathS; infer_instance
instance [KeepsNul gn] [Good gn] : KeepsNul (propertyListPathNotEmptyS gn) := by unfold propertyListPathNotEmptyS; infer_instance
instance [KeepsNul gn] [Good gn] : KeepsNul (propertyListPathS gn) := by unfold propertyListPathS; infer_instance
instance [KeepsNul gn] [Good gn] : KeepsNul (blankNodePropertyListPathS gn) := by unfold blankNodePropertyListPathS; infer_instance
instance [KeepsNul gn] [Good gn] : KeepsNul (triplesNodePathS gn) := by unfold triplesNodePathS; infer_instance
instance [KeepsNul gn] [Good gn] : KeepsNul (graphNodePathStep gn) := by unfold graphNodePathStep; infer_instance
instance [EnvE S X] [KeepsNul gn] [Good gn] [Avoids S X gn] : Avoids S X (objectListPathS gn) := by unfold objectListPathS; infer_instance
instance [EnvE S X] [KeepsNul gn] [Good gn] [Avoids S X gn] : Avoids S X (propertyListPathNotEmptyS gn) := by unfold propertyListPathNotEmptyS; infer_instance
instance [EnvE S X] [KeepsNul gn] [Good gn] [Avoids S X gn] : Avoids S X (propertyListPathS gn) := by unfold propertyListPathS; infer_instance
instance [EnvE S X] [KeepsNul gn] [Good gn] [Avoids S X gn] : Avoids S X (blankNodePropertyListPathS gn) := by unfold blankNodePropertyListPathS; infer_instance
instance [EnvE S X] [KeepsNul gn] [Good gn] [Avoids S X gn] : Avoids S X (triplesNodePathS gn) := by unfold triplesNodePathS; infer_instance
instance [EnvE S X] [KeepsNul gn] [Good gn] [Avoids S X gn] : Avoids S X (graphNodePathStep gn) := by unfold graphNodePathStep; infer_instance
end

instance graphNodePathF_nul : ∀ n, KeepsNul (graphNodePathF n)
  | 0 => ⟨fun _ _ _ _ h => by cases h⟩
  | n + 1 => by have := graphNodePathF_nul n; unfold graphNodePathF; infer_instance
instance graphNodePathF_av [EnvE S X] : ∀ n, Avoids S X (graphNodePathF n)
  | 0 => avoids_fuel
  | n + 1 => by have := graphNodePathF_av n; unfold graphNodePathF; infer_instance
instance : KeepsNul graphNodePath := ⟨fun i => (graphNodePathF_nul _).out i⟩
instance [EnvE S X] : Avoids S X graphNodePath := ⟨fun i => (graphNodePathF_av _).out i⟩

nul! objectListPath
nul! propertyListPathNotEmpty
nul! propertyListPath
nul! blankNodePropertyListPath
nul! triplesNodePath
nul! triplesSameSubjectPath
nul! triplesBlock
avE! objectListPath
avE! propertyListPathNotEmpty
avE! propertyListPath
avE! blankNodePropertyListPath
avE! triplesNodePath
avE! triplesSameSubjectPath
avE! triplesBlock

/-! ## Expressions and graph patterns -/

class RecNul (R : Rec) : Prop where
  expr : KeepsNul R.expr
  ggp : KeepsNul R.ggp
class RecAvoids (S : Input → Prop) (X : Err → Prop) (R : Rec) : Prop where
  expr : Avoids S X R.expr
  ggp : Avoids S X R.ggp
instance {R : Rec} [RecNul R] : KeepsNul R.expr := RecNul.expr
instance {R : Rec} [RecNul R] : KeepsNul R.ggp := RecNul.ggp
instance {R : Rec} [RecAvoids S X R] : Avoids S X R.expr := RecAvoids.expr
instance {R : Rec} [RecAvoids S X R] : Avoids S X R.ggp := RecAvoids.ggp

section
variable {R : Rec} [RecGood R] [RecNul R]

instance : KeepsNul (brackettedExpr3S R) := by unfold brackettedExpr3S; infer_instance
instance : KeepsNul (expressionAsVarOptS R) := by unfold expressionAsVarOptS; infer_instance
instance : KeepsNul (expressionAsVarS R) := by unfold expressionAsVarS; infer_instance
instance : KeepsNul (expressionListS R) := by unfold expressionListS; infer_instance
instance : KeepsNul (distinctExpressionS R) := by unfold distinctExpressionS; infer_instance
instance : KeepsNul (brackettedExpressionS R) := by unfold brackettedExpressionS; infer_instance
instance : KeepsNul (bindS R) := by unfold bindS; infer_instance
instance : KeepsNul (regexExpressionS R) := by unfold regexExpressionS; infer_instance
instance : KeepsNul (substringExpressionS R) := by unfold substringExpressionS; infer_instance
instance : KeepsNul (strReplaceExpressionS R) := by unfold strReplaceExpressionS; infer_instance
instance : KeepsNul (argListS R) := by unfold argListS; infer_instance
instance : KeepsNul (functionCallS R) := by unfold functionCallS; infer_instance
instance : KeepsNul (iriOrFunS R) := by unfold iriOrFunS; infer_instance
instance : KeepsNul (countTargetS R) := by unfold countTargetS; infer_instance
instance : KeepsNul (countS R) := by unfold countS; infer_instance
instance : KeepsNul (groupConcatS R) := by unfold groupConcatS; infer_instance
instance : KeepsNul (aggregateS R) := by unfold aggregateS; infer_instance
instance : KeepsNul (exprPairS R) := by unfold exprPairS; infer_instance
instance : KeepsNul (builtInCall1S R) := by unfold builtInCall1S; infer_instance
instance : KeepsNul (builtInCall2S R) := by unfold builtInCall2S; infer_instance
instance : KeepsNul (builtInCallS R) := by unfold builtInCallS; infer_instance
instance : KeepsNul (primaryExpressionS R) := by unfold primaryExpressionS; infer_instance
instance : KeepsNul (unaryExpressionS R) := by unfold unaryExpressionS; infer_instance
instance : KeepsNul (multExpressionS R) := by unfold multExpressionS; infer_instance
instance : KeepsNul (multiplicativeExpressionS R) := by unfold multiplicativeExpressionS; infer_instance
instance : KeepsNul (addExpressionS R) := by unfold addExpressionS; infer_instance
instance : KeepsNul (additiveExpressionS R) := by unfold additiveExpressionS; infer_instance
instance : KeepsNul (opExpressionS R) := by unfold opExpressionS; infer_instance
instance : KeepsNul (relationalExpressionS R) := by unfold relationalExpressionS; infer_instance
instance : KeepsNul (conditionalAndExpressionS R) := by unfold conditionalAndExpressionS; infer_instance
instance : KeepsNul (expressionStep R) := by unfold expressionStep; infer_instance
instance : KeepsNul (constraintS R) := by unfold constraintS; infer_instance
instance : KeepsNul (filterS R) := by unfold filterS; infer_instance
instance : KeepsNul (orderExpressionS R) := by unfold orderExpressionS; infer_instance
instance : KeepsNul (orderConditionS R) := by unfold orderConditionS; infer_instance
instance : KeepsNul (groupConditionS R) := by unfold groupConditionS; infer_instance
instance : KeepsNul (groupClauseS R) := by unfold groupClauseS; infer_instance
instance : KeepsNul (orderClauseS R) := by unfold orderClauseS; infer_instance
instance : KeepsNul (havingClauseS R) := by unfold havingClauseS; infer_instance
instance : KeepsNul (solutionModifierS R) := by unfold solutionModifierS; infer_instance
instance : KeepsNul (whereClauseS R) := by unfold whereClauseS; infer_instance
instance : KeepsNul (varOrExpressionAsVarS R) := by unfold varOrExpressionAsVarS; infer_instance
instance : KeepsNul (selectVarsS R) := by unfold selectVarsS; infer_instance
instance : KeepsNul (selectClauseS R) := by unfold selectClauseS; infer_instance
instance : KeepsNul (subSelectS R) := by unfold subSelectS; infer_instance
instance : KeepsNul (groupOrUnionGraphPatternS R) := by unfold groupOrUnionGraphPatternS; infer_instance
instance : KeepsNul (optionalGroupGraphPatternS R) := by unfold optionalGroupGraphPatternS; infer_instance
instance : KeepsNul (minusGraphPatternS R) := by unfold minusGraphPatternS; infer_instance
instance : KeepsNul (graphGraphPatternS R) := by unfold graphGraphPatternS; infer_instance
instance : KeepsNul (serviceGraphPatternS R) := by unfold serviceGraphPatternS; infer_instance
instance : KeepsNul (graphPatternNotTriplesS R) := by unfold graphPatternNotTriplesS; infer_instance
instance : KeepsNul (groupGraphPatternAndTriplesS R) := by unfold groupGraphPatternAndTriplesS; infer_instance
instance : KeepsNul (groupGraphPatternSubS R) := by unfold groupGraphPatternSubS; infer_instance
instance : KeepsNul (groupGraphPatternStep R) := by unfold groupGraphPatternStep; infer_instance

variable [EnvE S X] [RecAvoids S X R]

instance : Avoids S X (brackettedExpr3S R) := by unfold brackettedExpr3S; infer_instance
instance : Avoids S X (expressionAsVarOptS R) := by unfold expressionAsVarOptS; infer_instance
instance : Avoids S X (expressionAsVarS R) := by unfold expressionAsVarS; infer_instance
instance : Avoids S X (expressionListS R) := by unfold expressionListS; infer_instance
instance : Avoids S X (distinctExpressionS R) := by unfold distinctExpressionS; infer_instance
instance : Avoids S X (brackettedExpressionS R) := by unfold brackettedExpressionS; infer_instance
instance : Avoids S X (bindS R) := by unfold bindS; infer_instance
instance : Avoids S X (regexExpressionS R) := by unfold regexExpressionS; infer_instance
instance : Avoids S X (substringExpressionS R) := by unfold substringExpressionS; infer_instance
instance : Avoids S X (strReplaceExpressionS R) := by unfold strReplaceExpressionS; infer_instance
instance : Avoids S X (argListS R) := by unfold argListS; infer_instance
instance : Avoids S X (functionCallS R) := by unfold functionCallS; infer_instance
instance : Avoids S X (iriOrFunS R) := by unfold iriOrFunS; infer_instance
instance : Avoids S X (countTargetS R) := by unfold countTargetS; infer_instance
instance : Avoids S X (countS R) := by unfold countS; infer_instance
instance : Avoids S X (groupConcatS R) := by unfold groupConcatS; infer_instance
instance : Avoids S X (aggregateS R) := by unfold aggregateS; infer_instance
instance : Avoids S X (exprPairS R) := by unfold exprPairS; infer_instance
instance : Avoids S X (builtInCall1S R) := by unfold builtInCall1S; infer_instance
instance : Avoids S X (builtInCall2S R) := by unfold builtInCall2S; infer_instance
instance : Avoids S X (builtInCallS R) := by unfold builtInCallS; infer_instance
instance : Avoids S X (primaryExpressionS R) := by unfold primaryExpressionS; infer_instance
instance : Avoids S X (unaryExpressionS R) := by unfold unaryExpressionS; infer_instance
instance : Avoids S X (multExpressionS R) := by unfold multExpressionS; infer_instance
instance : Avoids S X (multiplicativeExpressionS R) := by unfold multiplicativeExpressionS; infer_instance
instance : Avoids S X (addExpressionS R) := by unfold addExpressionS; infer_instance
instance : Avoids S X (additiveExpressionS R) := by unfold additiveExpressionS; infer_instance
instance : Avoids S X (opExpressionS R) := by unfold opExpressionS; infer_instance
instance : Avoids S X (relationalExpressionS R) := by unfold relationalExpressionS; infer_instance
instance : Avoids S X (conditionalAndExpressionS R) := by unfold conditionalAndExpressionS; infer_instance
instance : Avoids S X (expressionStep R) := by unfold expressionStep; infer_instance
instance : Avoids S X (constraintS R) := by unfold constraintS; infer_instance
instance : Avoids S X (filterS R) := by unfold filterS; infer_instance
instance : Avoids S X (orderExpressionS R) := by unfold orderExpressionS; infer_instance
instance : Avoids S X (orderConditionS R) := by unfold orderConditionS; infer_instance
instance : Avoids S X (groupConditionS R) := by unfold groupConditionS; infer_instance
instance : Avoids S X (groupClauseS R) := by unfold groupClauseS; infer_instance
instance : Avoids S X (orderClauseS R) := by unfold orderClauseS; infer_instance
instance : Avoids S X (havingClauseS R) := by unfold havingClauseS; infer_instance
instance : Avoids S X (solutionModifierS R) := by unfold solutionModifierS; infer_instance
instance : Avoids S X (whereClauseS R) := by unfold whereClauseS; infer_instance
instance : Avoids S X (varOrExpressionAsVarS R) := by unfold varOrExpressionAsVarS; infer_instance
instance : Avoids S X (selectVarsS R) := by unfold selectVarsS; infer_instance
instance : Avoids S X (selectClauseS R) := by unfold selectClauseS; infer_instance
instance : Avoids S X (subSelectS R) := by unfold subSelectS; infer_instance
instance : Avoids S X (groupOrUnionGraphPatternS R) := by unfold groupOrUnionGraphPatternS; infer_instance
instance : Avoids S X (optionalGroupGraphPatternS R) := by unfold optionalGroupGraphPatternS; infer_instance
instance : Avoids S X (minusGraphPatternS R) := by unfold minusGraphPatternS; infer_instance
instance : Avoids S X (graphGraphPatternS R) := by unfold graphGraphPatternS; infer_instance
instance : Avoids S X (serviceGraphPatternS R) := by unfold serviceGraphPatternS; infer_instance
instance : Avoids S X (graphPatternNotTriplesS R) := by unfold graphPatternNotTriplesS; infer_instance
instance : Avoids S X (groupGraphPatternAndTriplesS R) := by unfold groupGraphPatternAndTriplesS; infer_instance
instance : Avoids S X (groupGraphPatternSubS R) := by unfold groupGraphPatternSubS; infer_instance
instance : Avoids S X (groupGraphPatternStep R) := by unfold groupGraphPatternStep; infer_instance
end

instance recF_nul : ∀ n, RecNul (recF n)
  | 0 => ⟨⟨fun _ _ _ _ h => by cases h⟩, ⟨fun _ _ _ _ h => by cases h⟩⟩
  | n + 1 => by
    have := recF_nul n
    exact ⟨inferInstanceAs (KeepsNul (expressionStep (recF n))),
      inferInstanceAs (KeepsNul (groupGraphPatternStep (recF n)))⟩
instance recF_av [EnvE S X] : ∀ n, RecAvoids S X (recF n)
  | 0 => ⟨avoids_fuel, avoids_fuel⟩
  | n + 1 => by
    have := recF_av n
    exact ⟨inferInstanceAs (Avoids S X (expressionStep (recF n))),
      inferInstanceAs (Avoids S X (groupGraphPatternStep (recF n)))⟩
instance : KeepsNul expression := ⟨fun i => (recF_nul _).expr.out i⟩
instance : KeepsNul groupGraphPattern := ⟨fun i => (recF_nul _).ggp.out i⟩
instance [EnvE S X] : Avoids S X expression := ⟨fun i => (recF_av _).expr.out i⟩
instance [EnvE S X] : Avoids S X groupGraphPattern := ⟨fun i => (recF_av _).ggp.out i⟩
instance : RecNul R₀ := ⟨inferInstanceAs (KeepsNul expression), inferInstanceAs (KeepsNul groupGraphPattern)⟩
instance [EnvE S X] : RecAvoids S X R₀ :=
  ⟨inferInstanceAs (Avoids S X expression), inferInstanceAs (Avoids S X groupGraphPattern)⟩

nul! brackettedExpression
nul! expressionList
nul! expressionAsVar
nul! expressionAsVarOpt
nul! distinctExpression
nul! bind
nul! primaryExpression
nul! constraint
nul! filter
nul! functionCall
nul! argList
nul! builtInCall
nul! iriOrFun
nul! aggregate
nul! unaryExpression
nul! multExpression
nul! multiplicativeExpression
nul! addExpression
nul! additiveExpression
nul! opExpression
nul! relationalExpression
nul! conditionalAndExpression
nul! orderCondition
nul! orderClause
nul! havingClause
nul! groupClause
nul! groupCondition
nul! solutionModifier
nul! whereClause
nul! selectClause
nul! subSelect
nul! graphPatternNotTriples
nul! groupGraphPatternSub
nul! selectQuery
nul! askQuery
nul! describeQuery
nul! subTriples
nul! subConstruct
nul! constructQuery
nul! sparqlQuery
nul! sparqlQueryStmt
nul! modifyStmt
nul! updateStmt
avE! brackettedExpression
avE! expressionList
avE! expressionAsVar
avE! expressionAsVarOpt
avE! distinctExpression
avE! bind
avE! primaryExpression
avE! constraint
avE! filter
avE! functionCall
avE! argList
avE! builtInCall
avE! iriOrFun
avE! aggregate
avE! unaryExpression
avE! multExpression
avE! multiplicativeExpression
avE! addExpression
avE! additiveExpression
avE! opExpression
avE! relationalExpression
avE! conditionalAndExpression
avE! orderCondition
avE! orderClause
avE! havingClause
avE! groupClause
avE! groupCondition
avE! solutionModifier
avE! whereClause
avE! selectClause
avE! subSelect
avE! graphPatternNotTriples
avE! groupGraphPatternSub
avE! selectQuery
avE! askQuery
avE! describeQuery
avE! subTriples
avE! subConstruct
avE! constructQuery
avE! sparqlQuery
avE! sparqlQueryStmt
avE! modifyStmt
avE! updateStmt

instance {up : P Update} [KeepsNul up] [Good up] : KeepsNul (updateStep up) := by unfold updateStep; infer_instance
instance {up : P Update} [EnvE S X] [KeepsNul up] [Good up] [Avoids S X up] : Avoids S X (updateStep up) := by
  unfold updateStep; infer_instance
instance updateF_nul : ∀ n, KeepsNul (updateF n)
  | 0 => ⟨fun _ _ _ _ h => by cases h⟩
  | n + 1 => by have := updateF_nul n; unfold updateF; infer_instance
instance updateF_av [EnvE S X] : ∀ n, Avoids S X (updateF n)
  | 0 => avoids_fuel
  | n + 1 => by have := updateF_av n; unfold updateF; infer_instance
instance : KeepsNul update := ⟨fun i => (updateF_nul _).out i⟩
instance [EnvE S X] : Avoids S X update := ⟨fun i => (updateF_av _).out i⟩

end NomSparql
