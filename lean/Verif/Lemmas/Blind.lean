import Verif.Lemmas.Rendered
import Verif.Spec.Case

/-!
# Case-blindness of keyword parsers

Two inputs that only differ in the letter case of a leading run of keyword characters are twins.
`Blind strict vals p`: `p` answers alike on twins; with `strict` an accepted input leaves the same remainder,
with `vals` it gives the same value.
-/

namespace NomSparql

theorem Twin.refl (i : Str) : Twin i i := ⟨[], [], [], i, by simp, .nil, .nil, rfl, rfl⟩

theorem Twin.symm {i i'} (h : Twin i i') : Twin i' i := by
  obtain ⟨t, a, a', s, h1, h2, h3, e, e'⟩ := h
  exact ⟨t, a', a, s, h1, h3, h2, e', e⟩

/-- A letter of a keyword text: not white space, not punctuation. -/
def KwText (c : Char) : Prop := AsciiLetter c ∨ c = '_' ∨ AsciiDigit c

instance : DecidablePred KwText := fun c => by unfold KwText; infer_instance

theorem sameLetter_text {x y : Char} (hx : KwLetter x) (h : SameLetter x y) : KwText y := by
  rcases h with rfl | ⟨h1, h2, h3⟩
  · rcases hx with hx | hx | hx
    · exact .inl (.inr hx)
    · exact .inr (.inl hx)
    · exact .inr (.inr hx)
  · exact .inl (.inl (by omega))

/-- Twins are equal, or start with keyword characters that are equal up to letter case and go on as twins. -/
theorem Twin.cases {i i'} (h : Twin i i') : i = i' ∨ ∃ x y y' j j', i = y :: j ∧ i' = y' :: j' ∧ KwLetter x ∧
    SameLetter x y ∧ SameLetter x y' ∧ Twin j j' := by
  obtain ⟨t, a, a', s, h1, h2, h3, rfl, rfl⟩ := h
  cases h2 with
  | nil => cases h3; exact .inl rfl
  | cons hs h2 =>
    cases h3 with
    | cons hs' h3 =>
      exact .inr ⟨_, _, _, _, _, rfl, rfl, h1 _ (by simp), hs, hs', _, _, _, _,
        fun c hc => h1 c (by simp [hc]), h2, h3, rfl, rfl⟩

theorem Twin.cons {x y y' j j'} (hx : KwLetter x) (h : SameLetter x y) (h' : SameLetter x y') (hj : Twin j j') :
    Twin (y :: j) (y' :: j') := by
  obtain ⟨t, a, a', s, h1, h2, h3, rfl, rfl⟩ := hj
  refine ⟨x :: t, y :: a, y' :: a', s, ?_, .cons h h2, .cons h' h3, rfl, rfl⟩
  intro c hc
  rcases List.mem_cons.mp hc with rfl | hc
  · exact hx
  · exact h1 c hc

theorem Alike.refl {s v} : ∀ r : Res α, Alike s v r r
  | .ok r v => ⟨.refl r, fun _ => rfl, fun _ => rfl⟩
  | .err (.error p k) => ⟨.refl p, rfl⟩
  | .err (.failure p k) => ⟨.refl p, rfl⟩
  | .err (.incomplete _) => rfl
  | .err .panic => rfl
  | .err .fuel => rfl

class Blind (strict vals : Bool) (p : P α) : Prop where
  out : ∀ i i', Twin i i' → Alike strict vals (p i) (p i')

theorem Blind.weak {p : P α} {v} (h : Blind true v p) : Blind false v p where
  out i i' t := by
    have := h.out i i' t
    revert this
    cases p i with
    | ok r a => cases p i' with
      | ok r' a' => rintro ⟨h1, h2, h3⟩; exact ⟨h1, by simp, h3⟩
      | err e' => intro h; cases h
    | err e => cases p i' with
      | ok r' a' => intro h; cases e <;> cases h
      | err e' => intro h; cases e <;> cases e' <;> exact h

theorem Blind.drop {p : P α} {s} (h : Blind s true p) : Blind s false p where
  out i i' t := by
    have := h.out i i' t
    revert this
    cases p i with
    | ok r a => cases p i' with
      | ok r' a' => rintro ⟨h1, h2, h3⟩; exact ⟨h1, h2, by simp⟩
      | err e' => intro h; cases h
    | err e => cases p i' with
      | ok r' a' => intro h; cases e <;> cases h
      | err e' => intro h; cases e <;> cases e' <;> exact h

/-- The three kinds of pairs of related answers. -/
theorem Alike.elim {s v} {x y : Res α} (h : Alike s v x y) :
    (∃ r a r' a', x = .ok r a ∧ y = .ok r' a' ∧ Twin r r' ∧ (s = true → r = r') ∧ (v = true → a = a')) ∨
    (∃ p p' k, x = .err (.error p k) ∧ y = .err (.error p' k) ∧ Twin p p') ∨
    (∃ e e', x = .err e ∧ y = .err e' ∧ (∀ p k, e ≠ .error p k) ∧ (∀ p k, e' ≠ .error p k) ∧
      (∀ {γ : Type} (s v : Bool), Alike s v (.err e : Res γ) (.err e'))) := by
  cases x with
  | ok r a => cases y with
    | ok r' a' => exact .inl ⟨_, _, _, _, rfl, rfl, h⟩
    | err e' => cases h
  | err e => cases y with
    | ok r' a' => cases e <;> cases h
    | err e' =>
      cases e <;> cases e' <;> first
        | (obtain ⟨h1, h2⟩ := h; subst h2; exact .inr (.inl ⟨_, _, _, rfl, rfl, h1⟩))
        | (obtain ⟨h1, h2⟩ := h; subst h2
           exact .inr (.inr ⟨_, _, rfl, rfl, by simp, by simp, fun _ _ => ⟨h1, rfl⟩⟩))
        | (cases h; done)
        | (cases h; exact .inr (.inr ⟨_, _, rfl, rfl, by simp, by simp, fun _ _ => rfl⟩))

theorem alike_error {s v} {p p' : Str} {k} (h : Twin p p') : Alike s v (.err (.error p k) : Res α) (.err (.error p' k)) :=
  ⟨h, rfl⟩

section
variable {p : P α} {q : P β} {s v : Bool}

theorem Blind.pair_strict (h : Blind true v p) : Blind true v (pair p q) where
  out i i' t := by
    rcases (h.out i i' t).elim with ⟨r, a, r', a', e, e', h1, h2, h3⟩ | ⟨x, x', k, e, e', h1⟩ |
      ⟨x, x', e, e', _, _, h1⟩
    · have := h2 rfl
      subst this
      unfold pair
      rw [e, e']
      simp only
      cases q r with
      | ok r2 b => exact ⟨.refl _, fun _ => rfl, fun hv => by rw [h3 hv]⟩
      | err x => exact Alike.refl (α := α × β) _
    · rw [pair_stop e, pair_stop e']; exact alike_error h1
    · rw [pair_stop e, pair_stop e']; exact h1 _ _

theorem Blind.pair_next (h : Blind false v p) (h' : Blind s v q) : Blind s v (pair p q) where
  out i i' t := by
    rcases (h.out i i' t).elim with ⟨r, a, r', a', e, e', h1, _, h3⟩ | ⟨x, x', k, e, e', h1⟩ |
      ⟨x, x', e, e', _, _, h1⟩
    · rcases (h'.out r r' h1).elim with ⟨r2, b, r2', b', f, f', h4, h5, h6⟩ | ⟨x, x', k, f, f', h4⟩ |
        ⟨x, x', f, f', _, _, h4⟩
      · rw [pair_eval e f, pair_eval e' f']
        exact ⟨h4, h5, fun hv => by rw [h3 hv, h6 hv]⟩
      · rw [pair_stop2 e f, pair_stop2 e' f']; exact alike_error h4
      · rw [pair_stop2 e f, pair_stop2 e' f']; exact h4 _ _
    · rw [pair_stop e, pair_stop e']; exact alike_error h1
    · rw [pair_stop e, pair_stop e']; exact h1 _ _

theorem Blind.map (h : Blind s v p) (f : α → β) : Blind s v (map p f) where
  out i i' t := by
    rcases (h.out i i' t).elim with ⟨r, a, r', a', e, e', h1, h2, h3⟩ | ⟨x, x', k, e, e', h1⟩ |
      ⟨x, x', e, e', _, _, h1⟩
    · rw [map_eval e, map_eval e']; exact ⟨h1, h2, fun hv => by rw [h3 hv]⟩
    · rw [map_stop e, map_stop e']; exact alike_error h1
    · rw [map_stop e, map_stop e']; exact h1 _ _

theorem Blind.const (h : Blind s false p) (c : β) : Blind s v (NomSparql.map p (fun _ => c)) where
  out i i' t := by
    rcases (h.out i i' t).elim with ⟨r, a, r', a', e, e', h1, h2, _⟩ | ⟨x, x', k, e, e', h1⟩ |
      ⟨x, x', e, e', _, _, h1⟩
    · rw [map_eval e, map_eval e']; exact ⟨h1, h2, fun _ => rfl⟩
    · rw [map_stop e, map_stop e']; exact alike_error h1
    · rw [map_stop e, map_stop e']; exact h1 _ _

theorem Blind.preceded_strict (h : Blind true false p) : Blind true v (preceded p q) where
  out i i' t := by
    rcases (h.out i i' t).elim with ⟨r, a, r', a', e, e', h1, h2, h3⟩ | ⟨x, x', k, e, e', h1⟩ |
      ⟨x, x', e, e', _, _, h1⟩
    · have := h2 rfl
      subst this
      rw [preceded_cont e, preceded_cont e']
      exact Alike.refl _
    · rw [preceded_stop e, preceded_stop e']; exact alike_error h1
    · rw [preceded_stop e, preceded_stop e']; exact h1 _ _

theorem Blind.preceded_next (h : Blind false false p) (h' : Blind s v q) : Blind s v (preceded p q) where
  out i i' t := by
    rcases (h.out i i' t).elim with ⟨r, a, r', a', e, e', h1, _, h3⟩ | ⟨x, x', k, e, e', h1⟩ |
      ⟨x, x', e, e', _, _, h1⟩
    · rw [preceded_cont e, preceded_cont e']; exact h'.out _ _ h1
    · rw [preceded_stop e, preceded_stop e']; exact alike_error h1
    · rw [preceded_stop e, preceded_stop e']; exact h1 _ _

theorem Blind.terminated_strict (h : Blind true v p) : Blind true v (terminated p q) :=
  Blind.map h.pair_strict _

theorem Blind.terminated_next (h : Blind false v p) (h' : Blind s false q) : Blind s v (terminated p q) where
  out i i' t := by
    rcases (h.out i i' t).elim with ⟨r, a, r', a', e, e', h1, _, h3⟩ | ⟨x, x', k, e, e', h1⟩ |
      ⟨x, x', e, e', _, _, h1⟩
    · rcases (h'.out r r' h1).elim with ⟨r2, b, r2', b', f, f', h4, h5, h6⟩ | ⟨x, x', k, f, f', h4⟩ |
        ⟨x, x', f, f', _, _, h4⟩
      · rw [terminated_eval e f, terminated_eval e' f']; exact ⟨h4, h5, h3⟩
      · rw [terminated_stop2 e f, terminated_stop2 e' f']; exact alike_error h4
      · rw [terminated_stop2 e f, terminated_stop2 e' f']; exact h4 _ _
    · rw [terminated_stop e, terminated_stop e']; exact alike_error h1
    · rw [terminated_stop e, terminated_stop e']; exact h1 _ _

theorem Blind.alt_cons {p' : P α} {ps : List (P α)} (h : Blind s v p) (h' : Blind s v (alt (p' :: ps))) :
    Blind s v (alt (p :: p' :: ps)) where
  out i i' t := by
    rcases (h.out i i' t).elim with ⟨r, a, r', a', e, e', h1⟩ | ⟨x, x', k, e, e', h1⟩ |
      ⟨x, x', e, e', g1, g2, h1⟩
    · rw [alt_take e, alt_take e']; exact h1
    · rw [alt_skip e, alt_skip e']; exact h'.out _ _ t
    · rw [alt_hard e g1, alt_hard e' g2]; exact h1 _ _

theorem Blind.alt_one (h : Blind s v p) : Blind s v (alt [p]) := h

theorem Blind.opt (h : Blind false v p) : Blind false v (opt p) where
  out i i' t := by
    rcases (h.out i i' t).elim with ⟨r, a, r', a', e, e', h1, _, h3⟩ | ⟨x, x', k, e, e', h1⟩ |
      ⟨x, x', e, e', g1, g2, h1⟩
    · rw [opt_eval e, opt_eval e']; exact ⟨h1, by simp, fun hv => by rw [h3 hv]⟩
    · rw [opt_soft e, opt_soft e']; exact ⟨t, by simp, fun _ => rfl⟩
    · rw [opt_hard e g1, opt_hard e' g2]; exact h1 _ _

theorem Blind.mapRes {f : α → Option β} (h : Blind s true p) : Blind s true (mapRes p f) where
  out i i' t := by
    rcases (h.out i i' t).elim with ⟨r, a, r', a', e, e', h1, h2, h3⟩ | ⟨x, x', k, e, e', h1⟩ |
      ⟨x, x', e, e', g1, g2, h1⟩
    · have := h3 rfl
      subst this
      unfold NomSparql.mapRes
      rw [e, e']
      simp only
      cases f a with
      | some b => exact ⟨h1, h2, fun _ => rfl⟩
      | none => exact alike_error t
    · rw [mapRes_stop e, mapRes_stop e']; exact alike_error h1
    · rw [mapRes_stop e, mapRes_stop e']; exact h1 _ _

end

/-! ## Parsers that reject keyword characters at once -/

class NoKw (p : P α) : Prop where
  out : ∃ k, ∀ c i, KwText c → p (c :: i) = .err (.error (c :: i) k)

theorem NoKw.blind {p : P α} (h : NoKw p) {s v} : Blind s v p where
  out i i' t := by
    obtain ⟨k, h⟩ := h.out
    rcases t.cases with rfl | ⟨x, y, y', j, j', rfl, rfl, hx, hy, hy', hj⟩
    · exact Alike.refl _
    · rw [h _ _ (sameLetter_text hx hy), h _ _ (sameLetter_text hx hy')]
      exact alike_error t

/-- Characters that do not occur in keywords. -/
class Punct (c : Char) : Prop where
  both : ¬ KwText c ∧ lower c = c

theorem Punct.out {c : Char} (h : Punct c) : ¬ KwText c := h.both.1

instance : Punct '(' := ⟨by decide⟩
instance : Punct ')' := ⟨by decide⟩
instance : Punct '{' := ⟨by decide⟩
instance : Punct '}' := ⟨by decide⟩
instance : Punct '[' := ⟨by decide⟩
instance : Punct ']' := ⟨by decide⟩
instance : Punct '*' := ⟨by decide⟩
instance : Punct '?' := ⟨by decide⟩
instance : Punct '$' := ⟨by decide⟩
instance : Punct '<' := ⟨by decide⟩
instance : Punct '>' := ⟨by decide⟩
instance : Punct '=' := ⟨by decide⟩
instance : Punct '!' := ⟨by decide⟩
instance : Punct ';' := ⟨by decide⟩

section
variable {p : P α} {q : P β}

instance {c : Char} [h : Punct c] : NoKw (char c) :=
  ⟨_, fun d i hd => char_err (fun e => h.out (e ▸ hd))⟩
instance {c : Char} {t : List Char} [h : Punct c] : NoKw (tag (c :: t)) :=
  ⟨.Tag, fun d i hd => by
    have : d ≠ c := fun e => h.out (e ▸ hd)
    simp [tag, stripPrefix, this]⟩
theorem lower_kwText {c : Char} (h : KwText c) : KwText (lower c) := by
  unfold lower
  split
  · rename_i hu
    refine .inl (.inr ?_)
    rw [toNat_ofNat_small (by omega)]
    omega
  · split
    · decide
    · exact h
instance {c : Char} {t : List Char} [h : Punct c] : NoKw (tagNoCase (c :: t)) :=
  ⟨.Tag, fun d i hd => by
    have : lower d ≠ lower c := fun e => h.out (by rw [← h.both.2, ← e]; exact lower_kwText hd)
    simp [tagNoCase, overlapNoCase, this]⟩
instance [h : NoKw p] {f : α → β} : NoKw (map p f) :=
  let ⟨k, h⟩ := h.out; ⟨k, fun c i hc => map_stop (h c i hc)⟩
instance [h : NoKw p] : NoKw (pair p q) :=
  let ⟨k, h⟩ := h.out; ⟨k, fun c i hc => pair_stop (h c i hc)⟩
instance [NoKw p] : NoKw (preceded p q) := by unfold preceded; infer_instance
instance [NoKw p] : NoKw (terminated p q) := by unfold terminated; infer_instance
instance {s : P γ} [NoKw p] : NoKw (delimited p q s) := by unfold delimited; infer_instance
instance [NoKw p] : NoKw (alt [p]) := ‹NoKw p›
instance {p' : P α} {ps : List (P α)} [h : NoKw p] [h' : NoKw (alt (p' :: ps))] : NoKw (alt (p :: p' :: ps)) :=
  let ⟨_, h⟩ := h.out
  let ⟨k, h'⟩ := h'.out
  ⟨k, fun c i hc => by rw [alt_skip (h c i hc)]; exact h' c i hc⟩
instance [h : NoKw p] : NoKw (separatedNonemptyList q p) :=
  let ⟨k, h⟩ := h.out; ⟨k, fun c i hc => by unfold separatedNonemptyList; rw [h c i hc]⟩
instance [h : NoKw p] : NoKw (many1 p) :=
  let ⟨k, h⟩ := h.out; ⟨k, fun c i hc => by unfold many1; rw [h c i hc]⟩
end

theorem kwText_ws {c : Char} (h : KwText c) : wsStart c = false := by
  cases hw : wsStart c with
  | false => rfl
  | true =>
    exfalso
    rcases wsStart_iff.mp hw with rfl | rfl | rfl | rfl | rfl <;> revert h <;> decide

theorem kwText_not_startsWs {c : Char} {i : Str} (h : KwText c) : ¬ StartsWs (c :: i) :=
  not_startsWs_cons (kwText_ws h)

instance : NoKw sp1 := by
  refine ⟨.OneOf, fun c i hc => ?_⟩
  have h1 : c ≠ ' ' := by rintro rfl; revert hc; decide
  have h2 : c ≠ '\t' := by rintro rfl; revert hc; decide
  have h3 : c ≠ '\n' := by rintro rfl; revert hc; decide
  have h4 : c ≠ '\r' := by rintro rfl; revert hc; decide
  have h5 : c ≠ '#' := by rintro rfl; revert hc; decide
  simp [sp1, recognize, many1, spItem, alt, oneOf, newLine, pair, opt, preceded, map, char, h1, h2, h3, h4, h5]

/-! ## Instances -/

section
variable {p : P α} {q : P β} {s v : Bool}

instance (priority := 50) [h : NoKw p] : Blind s v p := h.blind
instance (priority := 40) [h : Blind true v p] : Blind false v p := h.weak
instance (priority := 30) [h : Blind s true p] : Blind s false p := h.drop
instance (priority := 900) [h : Blind true v p] : Blind true v (pair p q) := h.pair_strict
instance [h : Blind false v p] [h' : Blind s v q] : Blind s v (pair p q) := h.pair_next h'
instance (priority := 900) {f : α → β} [h : Blind s v p] : Blind s v (map p f) := h.map f
instance {c : β} [h : Blind s false p] : Blind s true (map p (fun _ => c)) := h.const c
instance (priority := 900) [h : Blind true false p] : Blind true v (preceded p q) := h.preceded_strict
instance [h : Blind false false p] [h' : Blind s v q] : Blind s v (preceded p q) := h.preceded_next h'
instance (priority := 900) [h : Blind true v p] : Blind true v (terminated p q) := h.terminated_strict
instance [h : Blind false v p] [h' : Blind s false q] : Blind s v (terminated p q) := h.terminated_next h'
instance [h : Blind s v p] : Blind s v (alt [p]) := h
instance {p' : P α} {ps : List (P α)} [h : Blind s v p] [h' : Blind s v (alt (p' :: ps))] :
    Blind s v (alt (p :: p' :: ps)) := h.alt_cons h'
instance [h : Blind false v p] : Blind false v (opt p) := h.opt
instance {f : α → Option β} [h : Blind s true p] : Blind s true (mapRes p f) := h.mapRes
instance {r : P γ} [h : Blind s v (preceded p (terminated q r))] : Blind s v (delimited p q r) := h
instance {r : P γ} [h : Blind s v (pair p (pair q r))] : Blind s v (tuple3 p q r) := h
instance {r : P γ} {u : P δ} [h : Blind s v (pair p (pair q (pair r u)))] : Blind s v (tuple4 p q r u) := h
instance {r : P γ} {u : P δ} {w : P ε} [h : Blind s v (pair p (pair q (pair r (pair u w))))] :
    Blind s v (tuple5 p q r u w) := h
instance {r : P γ} [h : Blind s v (pair p (preceded r q))] : Blind s v (separatedPair p r q) := h

/-- `map (pair p q)` with a function that does not look at the first component. -/
theorem Blind.map_drop {f : α × β → γ} (h : Blind s true (preceded p q)) (hf : ∀ a a' b, f (a, b) = f (a', b)) :
    Blind s true (NomSparql.map (pair p q) f) where
  out i i' t := by
    have := h.out i i' t
    revert this
    unfold preceded NomSparql.map
    cases pair p q i with
    | ok r x => cases pair p q i' with
      | ok r' x' =>
        obtain ⟨a, b⟩ := x
        obtain ⟨a', b'⟩ := x'
        rintro ⟨h1, h2, h3⟩
        have := h3 rfl
        simp only at this
        subst this
        exact ⟨h1, h2, fun _ => hf a a' b⟩
      | err e' => intro h; cases h
    | err e => cases pair p q i' with
      | ok r' a' => intro h; cases e <;> cases h
      | err e' => intro h; cases e <;> cases e' <;> exact h
end

instance : Blind false true sp where
  out i i' t := by
    rcases t.cases with rfl | ⟨x, y, y', j, j', rfl, rfl, hx, hy, hy', hj⟩
    · exact Alike.refl _
    · rw [sp_none (kwText_not_startsWs (sameLetter_text hx hy)),
        sp_none (kwText_not_startsWs (sameLetter_text hx hy'))]
      exact ⟨t, by simp, fun _ => rfl⟩

theorem overlap_twin {t i i'} (h : Twin i i') : overlapNoCase i t = overlapNoCase i' t := by
  induction t generalizing i i' with
  | nil => cases i <;> cases i' <;> rfl
  | cons x t ih =>
    rcases h.cases with rfl | ⟨z, y, y', j, j', rfl, rfl, hx, hy, hy', hj⟩
    · rfl
    · have : lower y = lower y' := by
        have hz : z.toNat < 128 := by
          rcases hx with ⟨_, h⟩ | rfl | ⟨_, h⟩
          · omega
          · decide
          · omega
        have hu : ¬ (0x41 ≤ z.toNat ∧ z.toNat ≤ 0x5A) := by
          rcases hx with ⟨h, _⟩ | rfl | ⟨_, h⟩
          · omega
          · decide
          · omega
        rw [lower_of_same hz hu hy, lower_of_same hz hu hy']
      simp only [overlapNoCase, this, ih hj]

theorem kwText_ascii {c : Char} (h : KwText c) : c.toNat < 128 := by
  rcases h with (⟨_, h⟩ | ⟨_, h⟩) | rfl | ⟨_, h⟩
  · omega
  · omega
  · decide
  · omega

theorem byteLen_twin {i i'} (h : Twin i i') : byteLen i = byteLen i' := by
  obtain ⟨t, a, a', s, h1, h2, h3, rfl, rfl⟩ := h
  induction h2 generalizing a' with
  | nil => cases h3; rfl
  | cons hs _ ih =>
    cases h3 with
    | cons hs' h3 =>
      have k := h1 _ (List.mem_cons_self)
      simp only [List.cons_append, byteLen_cons, utf8Size_ascii (kwText_ascii (sameLetter_text k hs)),
        utf8Size_ascii (kwText_ascii (sameLetter_text k hs'))]
      rw [ih _ (fun c hc => h1 c (by simp [hc])) h3]

theorem takeBytes_twin {n i i'} (h : Twin i i') : (takeBytes n i = none ∧ takeBytes n i' = none) ∨
    ∃ a r a' r', takeBytes n i = some (a, r) ∧ takeBytes n i' = some (a', r') ∧ Twin r r' := by
  induction n generalizing i i' with
  | zero => rw [takeBytes_zero, takeBytes_zero]; exact .inr ⟨_, _, _, _, rfl, rfl, h⟩
  | succ n ih =>
    rcases h.cases with rfl | ⟨z, y, y', j, j', rfl, rfl, hx, hy, hy', hj⟩
    · cases takeBytes (n + 1) i with
      | none => exact .inl ⟨rfl, rfl⟩
      | some x => exact .inr ⟨_, _, _, _, rfl, rfl, .refl _⟩
    · rw [Nat.add_comm, takeBytes_ascii (kwText_ascii (sameLetter_text hx hy)),
        takeBytes_ascii (kwText_ascii (sameLetter_text hx hy'))]
      rcases ih hj with ⟨h1, h2⟩ | ⟨a, r, a', r', h1, h2, h3⟩
      · rw [h1, h2]; exact .inl ⟨rfl, rfl⟩
      · rw [h1, h2]; exact .inr ⟨_, _, _, _, rfl, rfl, h3⟩

instance tagNoCase_blind (t : List Char) : Blind false false (tagNoCase t) where
  out i i' h := by
    unfold tagNoCase
    rw [overlap_twin h, byteLen_twin h]
    split
    · rcases takeBytes_twin (n := byteLen t) h with ⟨h1, h2⟩ | ⟨a, r, a', r', h1, h2, h3⟩
      · rw [h1, h2]; exact rfl
      · rw [h1, h2]; exact ⟨h3, by simp, by simp⟩
    · exact alike_error h

instance tagNoCaseStreaming_blind (t : List Char) : Blind false false (tagNoCaseStreaming t) where
  out i i' h := by
    unfold tagNoCaseStreaming
    rw [overlap_twin h, byteLen_twin h]
    split
    · split
      · rcases takeBytes_twin (n := byteLen t) h with ⟨h1, h2⟩ | ⟨a, r, a', r', h1, h2, h3⟩
        · rw [h1, h2]; exact rfl
        · rw [h1, h2]; exact ⟨h3, by simp, by simp⟩
      · exact rfl
    · exact alike_error h

theorem takeWhile_twin {i i'} (h : Twin i i') :
    i.takeWhile isDigitU8 = i'.takeWhile isDigitU8 ∧ Twin (i.dropWhile isDigitU8) (i'.dropWhile isDigitU8) := by
  obtain ⟨t, a, a', s, h1, h2, h3, rfl, rfl⟩ := h
  induction h2 generalizing a' with
  | nil => cases h3; exact ⟨rfl, .refl _⟩
  | @cons x y t' s' hs h2 ih =>
    cases h3 with
    | @cons _ y' _ s'' hs' h3 =>
      have k := h1 _ (List.mem_cons_self)
      have h1' : ∀ c ∈ t', KwLetter c := fun c hc => h1 c (by simp [hc])
      by_cases hd : AsciiDigit x
      · have e : ∀ z, SameLetter x z → z = x := by
          rintro z (rfl | ⟨h, _, _⟩)
          · rfl
          · have := hd.2; omega
        have := e _ hs; subst this
        have := e _ hs'; subst this
        simp only [List.cons_append, List.takeWhile_cons, List.dropWhile_cons, isDigitU8_of_digit hd, if_true]
        exact ⟨by rw [(ih _ h1' h3).1], (ih _ h1' h3).2⟩
      · have e : ∀ z, SameLetter x z → isDigitU8 z = false := by
          intro z hz
          cases hb : isDigitU8 z with
          | false => rfl
          | true =>
            exfalso
            have ha := kwText_ascii (sameLetter_text k hz)
            have hb := (isDigitU8_ascii (by omega)).mp hb
            rcases hz with rfl | ⟨h, h', h''⟩
            · exact hd hb
            · have := hb.2; omega
        simp only [List.cons_append, List.takeWhile_cons, List.dropWhile_cons, e _ hs, e _ hs']
        exact ⟨rfl, .cons k hs hs' ⟨_, _, _, _, h1', h2, h3, rfl, rfl⟩⟩

instance : Blind false true (takeWhile1 isDigitU8) where
  out i i' h := by
    obtain ⟨h1, h2⟩ := takeWhile_twin h
    unfold takeWhile1 takeWhile1K
    rw [h1]
    split
    · exact alike_error h
    · exact ⟨h2, by simp, fun _ => rfl⟩

/-! ## The crate's combinators -/

section
variable {p : P α} {s v : Bool}
instance [NoKw p] : NoKw (bracketted p) := by unfold bracketted; infer_instance
instance {t} : Blind true v (precededTag1 t p) := by unfold precededTag1; infer_instance
instance {t} [Blind s v p] : Blind s v (precededTag t p) := by unfold precededTag; infer_instance
instance : NoKw (bracketted p) := by unfold bracketted; infer_instance
instance {t} : Blind true v (precededBracketted t p) := by unfold precededBracketted; infer_instance
instance [Blind true v p] : Blind true v (spEnc p) := by unfold spEnc; infer_instance
instance [Blind false v p] : Blind false v (spEnc p) := by unfold spEnc; infer_instance
instance : NoKw (spEnc1 p) := by unfold spEnc1; infer_instance
instance {q : P β} [Blind false v p] : Blind true v (spSep1 p q) := by
  unfold spSep1 separatedPair; infer_instance
end

/-! ## Parsers -/

macro "blind!" ds:ident* : tactic => `(tactic| (unfold $ds:ident*; infer_instance))

instance : NoKw var := by blind! var
instance {R : Rec} : NoKw (expressionAsVarS R) := by blind! expressionAsVarS
instance : NoKw groupGraphPattern := by rw [groupGraphPattern_eq]; blind! groupGraphPatternStep
instance : NoKw R₀.ggp := inferInstanceAs (NoKw groupGraphPattern)
instance : NoKw datablock := by blind! datablock inlineDataOneVar inlineDataFull

section
variable {R : Rec}

instance : NoKw nil := by blind! nil
instance : NoKw (expressionListS R) := by blind! expressionListS
instance {p : P α} {t c} [Punct c] : NoKw (precededTag (c :: t) p) := by blind! precededTag
instance : Blind false true selectModifier := by blind! selectModifier
instance : Blind false true silent := by blind! silent
instance : Blind false true distinct := by blind! distinct
instance : Blind false true boolean := by blind! boolean
instance : Blind false true order := by blind! order
instance : Blind true true (filterS R) := by blind! filterS
instance : Blind true true (bindS R) := by blind! bindS
instance : Blind true true dataSetClause := by blind! dataSetClause
instance : Blind true true usingClause := by blind! usingClause
instance : Blind true true namedIri := by blind! namedIri
instance : Blind true true inlineData := by blind! inlineData
instance : Blind false true valuesClause := by blind! valuesClause
instance : Blind true true insertClause := by blind! insertClause
instance : Blind true true deleteClause := by blind! deleteClause
instance : Blind true true baseDecl := by blind! baseDecl
instance {pat : P Str} [Blind false false pat] : Blind false true (intClause pat) := by blind! intClause
instance : Blind false true limitClause := by blind! limitClause
instance : Blind false true offsetClause := by blind! offsetClause
instance : Blind false true limitOffsetClause := by blind! limitOffsetClause
instance : Blind true true (groupClauseS R) := by blind! groupClauseS
instance : Blind true true (havingClauseS R) := by blind! havingClauseS
instance : Blind true true (orderClauseS R) := by blind! orderClauseS
instance : Blind false true (solutionModifierS R) := by blind! solutionModifierS
instance : Blind true true whereClause := by blind! whereClause whereClauseS
instance : Blind true true graphRef := by
  unfold graphRef spSep1 separatedPair
  exact Blind.map_drop inferInstance (fun _ _ _ => rfl)
instance : Blind false true graphRefAll := by blind! graphRefAll

instance : Blind true true (aggregateS R) := by blind! aggregateS countS groupConcatS
instance : Blind true true (builtInCall1S R) := by
  set_option synthInstance.maxSize 4000 in set_option synthInstance.maxHeartbeats 200000 in
  blind! builtInCall1S
instance : Blind true true (builtInCall2S R) := by
  set_option synthInstance.maxSize 4000 in set_option synthInstance.maxHeartbeats 200000 in
  blind! builtInCall2S
instance : Blind true true (regexExpressionS R) := by blind! regexExpressionS
theorem notExists_blind : Blind true true (map (tuple3 (tagNoCase c!"not") (spEnc1 (tagNoCase c!"exists")) R.ggp)
    (fun x => BuiltInCall.notExistsFunc x.2.2)) := by
  unfold tuple3
  exact Blind.map_drop inferInstance (fun _ _ _ => rfl)
instance : Blind true true (builtInCallS R) := by
  have := notExists_blind (R := R)
  set_option synthInstance.maxSize 4000 in set_option synthInstance.maxHeartbeats 200000 in
  blind! builtInCallS
instance : Blind true true (opExpressionS R) := by
  set_option synthInstance.maxSize 4000 in set_option synthInstance.maxHeartbeats 200000 in
  blind! opExpressionS

instance : NoKw (varOrExpressionAsVarS R) := by blind! varOrExpressionAsVarS
instance : NoKw (selectVarsS R) := by blind! selectVarsS
instance : Blind true true (selectClauseS R) := by
  unfold selectClauseS tuple3
  exact Blind.map_drop inferInstance (fun _ _ _ => rfl)
instance : Blind true true selectQuery := by blind! selectQuery selectClause
instance : Blind true true askQuery := by
  unfold askQuery tuple4
  exact Blind.map_drop inferInstance (fun _ _ _ => rfl)
instance : Blind true true describeQuery := by
  unfold describeQuery tuple5
  exact Blind.map_drop inferInstance (fun _ _ _ => rfl)
instance : Blind true true constructQuery := by blind! constructQuery
instance : Blind true true sparqlQuery := by blind! sparqlQuery

instance : Blind false true optSilent := by blind! optSilent
instance : Blind true true addStmt := by
  unfold addStmt
  exact Blind.map_drop inferInstance (fun _ _ _ => rfl)
instance : Blind true true moveStmt := by
  unfold moveStmt
  exact Blind.map_drop inferInstance (fun _ _ _ => rfl)
instance : Blind true true copyStmt := by
  unfold copyStmt
  exact Blind.map_drop inferInstance (fun _ _ _ => rfl)
instance : Blind true true createStmt := by
  unfold createStmt tuple3
  exact Blind.map_drop inferInstance (fun _ _ _ => rfl)
instance : Blind true true dropStmt := by
  unfold dropStmt
  exact Blind.map_drop inferInstance (fun _ _ _ => rfl)
instance : Blind true true clearStmt := by
  unfold clearStmt
  exact Blind.map_drop inferInstance (fun _ _ _ => rfl)
instance : Blind true true loadStmt := by
  unfold loadStmt tuple4
  exact Blind.map_drop inferInstance (fun _ _ _ => rfl)
instance : Blind true true insertData := by blind! insertData
instance : Blind true true deleteData := by blind! deleteData
instance : Blind true true deleteWhereData := by blind! deleteWhereData
instance : Blind true true deleteInsert := by blind! deleteInsert


instance : NoKw (groupOrUnionGraphPatternS R₀) := by blind! groupOrUnionGraphPatternS
instance : Blind true true (optionalGroupGraphPatternS R) := by blind! optionalGroupGraphPatternS
instance : Blind true true (minusGraphPatternS R) := by blind! minusGraphPatternS
instance : Blind true true (graphGraphPatternS R) := by
  unfold graphGraphPatternS tuple3
  exact Blind.map_drop inferInstance (fun _ _ _ => rfl)
instance : Blind true true (serviceGraphPatternS R) := by
  unfold serviceGraphPatternS tuple4
  exact Blind.map_drop inferInstance (fun _ _ _ => rfl)
instance : Blind true true graphPatternNotTriples := by blind! graphPatternNotTriples graphPatternNotTriplesS
instance : Blind true true (orderExpressionS R) := by blind! orderExpressionS
instance : Blind true true subSelect := by
  blind! subSelect subSelectS
end

/-! ## Parsers whose keyword is followed by a name: one keyword at a time -/

theorem Alike.alt_cons {p p' : P α} {ps : List (P α)} {s v : Bool} {i i' : Str} (h : Alike s v (p i) (p i'))
    (h' : Alike s v (alt (p' :: ps) i) (alt (p' :: ps) i')) :
    Alike s v (alt (p :: p' :: ps) i) (alt (p :: p' :: ps) i') := by
  rcases h.elim with ⟨r, a, r', a', e, e', h1⟩ | ⟨x, x', k, e, e', h1⟩ | ⟨x, x', e, e', g1, g2, h1⟩
  · rw [alt_take e, alt_take e']; exact h1
  · rw [alt_skip e, alt_skip e']; exact h'
  · rw [alt_hard e g1, alt_hard e' g2]; exact h1 _ _

theorem Alike.map {p : P α} {f : α → β} {s v : Bool} {i i' : Str} (h : Alike s v (p i) (p i')) :
    Alike s v (NomSparql.map p f i) (NomSparql.map p f i') := by
  rcases h.elim with ⟨r, a, r', a', e, e', h1, h2, h3⟩ | ⟨x, x', k, e, e', h1⟩ | ⟨x, x', e, e', g1, g2, h1⟩
  · rw [map_eval e, map_eval e']; exact ⟨h1, h2, fun hv => by rw [h3 hv]⟩
  · rw [map_stop e, map_stop e']; exact alike_error h1
  · rw [map_stop e, map_stop e']; exact h1 _ _

theorem twin_of {t k k' : Str} (h : ∀ c ∈ t, KwLetter c) (h1 : CaseVariant t k) (h2 : CaseVariant t k') (s : Str) :
    Twin (k ++ s) (k' ++ s) := ⟨t, k, k', s, h, h1, h2, rfl, rfl⟩

/-- Keywords that differ at some place. -/
def clash : Str → Str → Bool
  | x :: t, y :: u => x != y || clash t u
  | _, _ => false

theorem tagNoCase_clash {t u k s : Str} (hu : ∀ c ∈ u, KwLetter c) (ht : ∀ c ∈ t, KwLetter c)
    (h : clash t u = true) (hk : CaseVariant u k) : tagNoCase t (k ++ s) = .err (.error (k ++ s) .Tag) := by
  have : overlapNoCase (k ++ s) t = false := by
    induction t generalizing u k with
    | nil => simp [clash] at h
    | cons x t ih =>
      cases hk with
      | nil => simp [clash] at h
      | @cons z y u' k' hs hk =>
        simp only [clash, Bool.or_eq_true, bne_iff_ne, ne_eq] at h
        simp only [List.cons_append, overlapNoCase, Bool.and_eq_false_iff, beq_eq_false_iff_ne, ne_eq]
        have a1 : ∀ w, KwLetter w → w.toNat < 128 ∧ ¬ (0x41 ≤ w.toNat ∧ w.toNat ≤ 0x5A) := by
          rintro w (⟨h, _⟩ | rfl | ⟨_, h⟩)
          · omega
          · decide
          · omega
        have hz := a1 z (hu z (by simp))
        have hx := a1 x (ht x (by simp))
        by_cases hxz : x = z
        · refine .inr (ih (u := u') (fun c hc => hu c (by simp [hc])) (fun c hc => ht c (by simp [hc])) ?_ hk)
          rcases h with h | h
          · exact absurd hxz h
          · exact h
        · left
          have l : ∀ w : Char, w.toNat < 128 ∧ ¬ (0x41 ≤ w.toNat ∧ w.toNat ≤ 0x5A) → lower w = w := by
            intro w hw
            unfold lower
            rw [if_neg hw.2, if_neg (by omega)]
          rw [lower_of_same hz.1 hz.2 hs, l x hx, l z hz]
          exact fun e => hxz e.symm
  simp [tagNoCase, this]

theorem limit_alike {t : Str} [KwTag t] {k k' s : Str} (ht : ∀ c ∈ t, KwLetter c)
    (h1 : CaseVariant t k) (h2 : CaseVariant t k') :
    Alike true true (intClause (tagNoCase t) (k ++ s)) (intClause (tagNoCase t) (k' ++ s)) := by
  unfold intClause mapRes
  have e : ∀ k, CaseVariant t k → preceded (terminated (tagNoCase t) sp) (takeWhile1 isDigitU8) (k ++ s) =
      preceded sp (takeWhile1 isDigitU8) s := by
    intro k hk
    obtain ⟨r, w, hw⟩ := Total.out (p := sp) s
    rw [preceded_cont (terminated_eval (tagNoCase_append hk s) hw), preceded_cont hw]
  rw [e k h1, e k' h2]
  cases preceded sp (takeWhile1 isDigitU8) s with
  | ok r a =>
    simp only
    cases parseU64 a with
    | some b => exact Alike.refl _
    | none => exact alike_error (twin_of ht h1 h2 s)
  | err e => exact Alike.refl (α := Nat) _

theorem prefixDecl_alike {k k' s : Str} (h1 : CaseVariant c!"prefix" k) (h2 : CaseVariant c!"prefix" k') :
    Alike true true (prefixDecl (k ++ s)) (prefixDecl (k' ++ s)) := by
  unfold prefixDecl tuple3
  cases e : pair (spEnc pnameNs) iriRef s with
  | ok r a =>
    rw [map_eval (pair_eval (tagNoCase_append h1 s) e), map_eval (pair_eval (tagNoCase_append h2 s) e)]
    exact Alike.refl (α := PrefixDecl) (.ok _ _)
  | err x =>
    rw [map_stop (pair_stop2 (tagNoCase_append h1 s) e), map_stop (pair_stop2 (tagNoCase_append h2 s) e)]
    exact Alike.refl (α := PrefixDecl) _

/-- A modification after its optional graph. -/
theorem modify_alike {t k k' s : Str} (ht : ∀ c ∈ t, KwLetter c) (hw : t = c!"where" ∨ clash c!"where" t = true)
    (h1 : CaseVariant t k) (h2 : CaseVariant t k') :
    Alike true true (modifyStmt (k ++ s)) (modifyStmt (k' ++ s)) := by
  have hwk : ∀ c ∈ c!"where", KwLetter c := by decide
  unfold modifyStmt tuple5
  apply Alike.map
  have hq : Blind true true (pair (terminated deleteInsert sp) (pair (separatedList sp usingClause)
      (pair (spEnc1 (tagNoCase c!"where")) groupGraphPattern))) := inferInstance
  rcases hw with rfl | hw
  · cases e : terminated iri sp1 s with
    | ok r a =>
      have f : ∀ k, CaseVariant c!"where" k → opt (delimited (tagNoCase c!"where") iri sp1) (k ++ s) = .ok r (some a) := by
        intro k hk
        exact opt_eval (by unfold delimited; rw [preceded_cont (tagNoCase_append hk s)]; exact e)
      unfold pair
      rw [f k h1, f k' h2]
      exact Alike.refl _
    | err x =>
      have f : ∀ k, CaseVariant c!"where" k → delimited (tagNoCase c!"where") iri sp1 (k ++ s) = .err x := by
        intro k hk
        unfold delimited; rw [preceded_cont (tagNoCase_append hk s)]; exact e
      by_cases hx : ∃ pos k, x = .error pos k
      · obtain ⟨pos, kd, rfl⟩ := hx
        unfold pair
        rw [opt_soft (f k h1), opt_soft (f k' h2)]
        rcases (hq.out _ _ (twin_of ht h1 h2 s)).elim with ⟨r, a, r', a', e, e', g1, g2, g3⟩ |
          ⟨x, x', k, e, e', g1⟩ | ⟨x, x', e, e', _, _, g1⟩
        · unfold pair at e e'
          simp only
          rw [e, e']
          exact ⟨g1, g2, fun hv => by rw [g3 hv]⟩
        · unfold pair at e e'
          simp only
          rw [e, e']
          exact alike_error g1
        · unfold pair at e e'
          simp only
          rw [e, e']
          exact g1 _ _
      · have hx : ∀ pos k, x ≠ .error pos k := fun pos k e => hx ⟨pos, k, e⟩
        rw [pair_stop (opt_hard (f k h1) hx), pair_stop (opt_hard (f k' h2) hx)]
        exact Alike.refl (α := _ × _) _
  · have f : ∀ k, CaseVariant t k → opt (delimited (tagNoCase c!"where") iri sp1) (k ++ s) = .ok (k ++ s) none := by
      intro k hk
      exact opt_soft (by unfold delimited; exact preceded_stop (tagNoCase_clash ht hwk hw hk))
    rcases (hq.out _ _ (twin_of ht h1 h2 s)).elim with ⟨r, a, r', a', e, e', g1, g2, g3⟩ |
      ⟨x, x', k, e, e', g1⟩ | ⟨x, x', e, e', _, _, g1⟩
    · rw [pair_eval (f k h1) e, pair_eval (f k' h2) e']
      exact ⟨g1, g2, fun hv => by rw [g3 hv]⟩
    · rw [pair_stop2 (f _ h1) e, pair_stop2 (f k' h2) e']; exact alike_error g1
    · rw [pair_stop2 (f k h1) e, pair_stop2 (f k' h2) e']; exact g1 _ _

theorem updateStmt_alike {t k k' s : Str} (ht : ∀ c ∈ t, KwLetter c) (hw : t = c!"where" ∨ clash c!"where" t = true)
    (h1 : CaseVariant t k) (h2 : CaseVariant t k') :
    Alike true true (updateStmt (k ++ s)) (updateStmt (k' ++ s)) := by
  have tw := twin_of ht h1 h2 s
  unfold updateStmt
  refine Alike.alt_cons (Blind.out _ _ tw) (Alike.alt_cons (Blind.out _ _ tw) (Alike.alt_cons (Blind.out _ _ tw)
    (Alike.alt_cons (Blind.out _ _ tw) (Alike.alt_cons (Blind.out _ _ tw) (Alike.alt_cons (Blind.out _ _ tw)
    (Alike.alt_cons (Blind.out _ _ tw) (Alike.alt_cons (Blind.out _ _ tw) ?_)))))))
  rw [alt_last, alt_last]
  exact (modify_alike ht hw h1 h2).map

end NomSparql
