import Verif.Lemmas.Rendered
import Verif.Lemmas.WsLists
import Verif.Spec.Brackets

/-!
# Every parser reads a text with balanced brackets

`Bal p`: what `p` reads is `Nested`.  `OpensWith o p`, `ClosesWith c p`: what `p` reads is one bracket between such texts.
-/

namespace NomSparql

theorem Nested.append {s t : Str} (h : Nested s) (ht : Nested t) : Nested (s ++ t) := by
  induction h with
  | nil => exact ht
  | char h1 _ ih => exact .char h1 ih
  | group h1 h2 _ _ ih => rw [List.cons_append, List.append_assoc]; exact .group h1 h2 ih
  | string h1 h2 _ ih => rw [List.cons_append, List.append_assoc]; exact .string h1 h2 ih
  | iri h1 _ ih => rw [List.cons_append, List.append_assoc]; exact .iri h1 ih
  | comment h1 h2 _ ih => rw [List.cons_append, List.append_assoc]; exact .comment h1 h2 ih
  | escape h1 _ ih => exact .escape h1 ih

theorem Nested.chars : ∀ {s : Str}, (∀ c ∈ s, c ∉ special) → Nested s
  | [], _ => .nil
  | c :: s, h => .char (h c (by simp)) (Nested.chars fun d hd => h d (by simp [hd]))

theorem Ws.nested {w : Str} (h : Ws w) : Nested w := by
  induction h with
  | nil => exact .nil
  | cons h1 _ ih =>
    cases h1 with
    | char hc => exact .char (by revert hc; simp only [List.mem_cons, List.not_mem_nil, or_false]; rintro (rfl | rfl | rfl | rfl) <;> decide) ih
    | comment hb hc =>
      rw [List.cons_append, List.append_assoc]
      exact .comment hb (by simp only [List.mem_cons, List.not_mem_nil, or_false] at hc ⊢; grind) ih

class Bal (p : P α) : Prop where
  out : ∀ {i r a}, p i = .ok r a → ∃ s, i = s ++ r ∧ Nested s

class OpensWith (o : outParam Char) (p : P α) : Prop where
  out : ∀ {i r a}, p i = .ok r a → ∃ s t, i = s ++ o :: (t ++ r) ∧ Nested s ∧ Nested t

class ClosesWith (c : outParam Char) (p : P α) : Prop where
  out : ∀ {i r a}, p i = .ok r a → ∃ s t, i = s ++ c :: (t ++ r) ∧ Nested s ∧ Nested t

class Match (o c : Char) : Prop where
  out : (o, c) ∈ brackets

instance : Match '(' ')' := ⟨by decide⟩
instance : Match '[' ']' := ⟨by decide⟩
instance : Match '{' '}' := ⟨by decide⟩

/-- Characters without meaning for the nesting. -/
class Dull (c : Char) : Prop where
  out : c ∉ special

macro "dull! " cs:char* : command => do
  let is ← cs.mapM fun c => `(instance : Dull $c := ⟨by decide⟩)
  return ⟨Lean.mkNullNode is⟩

dull! 'a' 'b' 'c' 'd' 'e' 'f' 'g' 'h' 'i' 'j' 'k' 'l' 'm' 'n' 'o' 'p' 'q' 'r' 's' 't' 'u' 'v' 'w' 'x' 'y' 'z' 'E'
dull! '0' '1' '2' '3' '4' '5' '6' '7' '8' '9' '_' ':' '<' '>' '=' '!' '+' '-' '*' '/' '.' ',' ';' '|' '&' '^' '?' '$' '@' '%'

class DullTag (t : List Char) : Prop where
  out : ∀ c ∈ t, c ∉ special

instance : DullTag [] := ⟨by simp⟩
instance {c t} [h : Dull c] [h' : DullTag t] : DullTag (c :: t) :=
  ⟨fun d hd => by
    rcases List.mem_cons.mp hd with rfl | hd
    · exact h.out
    · exact h'.out d hd⟩

class DullClass (f : Char → Bool) : Prop where
  out : ∀ c ∈ special, f c = false

theorem DullClass.not {f : Char → Bool} [h : DullClass f] {c : Char} (hc : f c = true) : c ∉ special := fun hs => by rw [h.out c hs] at hc; cases hc

section
variable {p : P α} {q : P β} {s : P γ} {t : P δ} {u : P ε} {o c : Char}

/-! ## Combinators -/

instance [h : Bal p] (f : α → β) : Bal (map p f) where
  out e := by obtain ⟨_, e, _⟩ := map_ok.mp e; exact h.out e
instance [h : Bal p] : Bal (cut p) where
  out e := h.out (cut_ok.mp e)
instance [h : Bal p] (f : α → Option β) : Bal (mapRes p f) where
  out e := by obtain ⟨_, e, _⟩ := mapRes_ok.mp e; exact h.out e
instance [h : Bal p] : Bal (opt p) where
  out e := by
    rcases opt_ok.mp e with ⟨_, _, e⟩ | ⟨_, rfl, _⟩
    · exact h.out e
    · exact ⟨[], rfl, .nil⟩
instance [Good p] [h : Bal p] : Bal (recognize p) where
  out e := by obtain ⟨_, _, e⟩ := recognize_ok_iff.mp e; exact h.out e
instance [h : Bal p] [h' : Bal q] : Bal (pair p q) where
  out e := by
    obtain ⟨_, e1, e2⟩ := pair_ok_iff.mp e
    obtain ⟨x, rfl, hx⟩ := h.out e1
    obtain ⟨y, rfl, hy⟩ := h'.out e2
    exact ⟨x ++ y, by simp, hx.append hy⟩
instance [Bal p] [Bal q] : Bal (preceded p q) := inferInstanceAs (Bal (map _ _))
instance [Bal p] [Bal q] : Bal (terminated p q) := inferInstanceAs (Bal (map _ _))
instance [Bal p] [Bal q] [Bal s] : Bal (delimited p q s) := inferInstanceAs (Bal (preceded _ (terminated _ _)))
instance [Bal p] [Bal q] [Bal s] : Bal (separatedPair p s q) := inferInstanceAs (Bal (pair _ (preceded _ _)))
instance [Bal p] [Bal q] [Bal s] : Bal (tuple3 p q s) := inferInstanceAs (Bal (pair _ (pair _ _)))
instance [Bal p] [Bal q] [Bal s] [Bal t] : Bal (tuple4 p q s t) := inferInstanceAs (Bal (pair _ (pair _ (pair _ _))))
instance [Bal p] [Bal q] [Bal s] [Bal t] [Bal u] : Bal (tuple5 p q s t u) := inferInstanceAs (Bal (pair _ (pair _ (pair _ (pair _ _)))))
instance : Bal (alt ([] : List (P α))) := ⟨fun e => by cases e⟩
instance {ps : List (P α)} [h : Bal p] [h' : Bal (alt ps)] : Bal (alt (p :: ps)) where
  out {i r a} e := by
    cases ps with
    | nil => exact h.out e
    | cons p₂ ps =>
      rcases alt_two_ok.mp e with e | ⟨_, e⟩
      · exact h.out e
      · exact h'.out e

theorem manyRun_bal [h : Bal p] {i r as} (hr : ManyRun p i r as) : ∃ x, i = x ++ r ∧ Nested x := by
  induction hr with
  | stop _ => exact ⟨[], rfl, .nil⟩
  | step e _ _ ih =>
    obtain ⟨x, rfl, hx⟩ := h.out e
    obtain ⟨y, rfl, hy⟩ := ih
    exact ⟨x ++ y, by simp, hx.append hy⟩
instance [Bal p] : Bal (many0 p) := ⟨fun e => manyRun_bal (manyLoop_run e)⟩
instance [h : Bal p] : Bal (many1 p) where
  out e := by
    obtain ⟨_, _, _, _, e1, e2⟩ := many1_run e
    obtain ⟨x, rfl, hx⟩ := h.out e1
    obtain ⟨y, rfl, hy⟩ := manyRun_bal e2
    exact ⟨x ++ y, by simp, hx.append hy⟩

theorem sepLoop_bal [h : Bal s] [h' : Bal p] : ∀ {n i r as}, sepLoop s p n i = .ok r as → ∃ x, i = x ++ r ∧ Nested x := by
  intro n
  induction n with
  | zero => intro i r as e; cases e
  | succ n ih =>
    intro i r as e
    unfold sepLoop at e
    split at e
    · cases e; exact ⟨[], rfl, .nil⟩
    · cases e
    · rename_i e1
      split at e
      · cases e
      · split at e
        · cases e; exact ⟨[], rfl, .nil⟩
        · cases e
        · rename_i e2
          split at e
          · cases e
          · split at e
            · rename_i e3
              cases e
              obtain ⟨x, rfl, hx⟩ := h.out e1
              obtain ⟨y, rfl, hy⟩ := h'.out e2
              obtain ⟨z, rfl, hz⟩ := ih e3
              exact ⟨x ++ (y ++ z), by simp, hx.append (hy.append hz)⟩
            · cases e
instance [Bal s] [h : Bal p] : Bal (separatedList s p) where
  out e := by
    unfold separatedList at e
    split at e
    · cases e; exact ⟨[], rfl, .nil⟩
    · cases e
    · rename_i e1
      split at e
      · cases e
      · split at e
        · rename_i e2
          cases e
          obtain ⟨x, rfl, hx⟩ := h.out e1
          obtain ⟨y, rfl, hy⟩ := sepLoop_bal e2
          exact ⟨x ++ y, by simp, hx.append hy⟩
        · cases e
instance [Bal s] [h : Bal p] : Bal (separatedNonemptyList s p) where
  out e := by
    unfold separatedNonemptyList at e
    split at e
    · cases e
    · rename_i e1
      split at e
      · cases e
      · split at e
        · rename_i e2
          cases e
          obtain ⟨x, rfl, hx⟩ := h.out e1
          obtain ⟨y, rfl, hy⟩ := sepLoop_bal e2
          exact ⟨x ++ y, by simp, hx.append hy⟩
        · cases e

/-! ## Leaves -/

instance [h : Dull c] : Bal (char c) where
  out e := by obtain ⟨_, rfl⟩ := char_ok.mp e; exact ⟨[c], rfl, .char h.out .nil⟩
instance {l : List Char} [h : DullTag l] : Bal (oneOf l) where
  out e := by obtain ⟨hc, rfl⟩ := oneOf_ok.mp e; exact ⟨[_], rfl, .char (h.out _ hc) .nil⟩
instance {l : List Char} [h : DullTag l] : Bal (tag l) where
  out e := by obtain ⟨_, rfl⟩ := tag_ok.mp e; exact ⟨l, rfl, .chars h.out⟩

theorem SameLetter.dull {x y : Char} (h : SameLetter x y) (hx : x ∉ special) : y ∉ special := by
  rcases h with rfl | ⟨h1, h2, h3⟩
  · exact hx
  · have : ∀ y ∈ special, y.toNat < 0x41 ∨ 0x5A < y.toNat := by decide
    intro hy
    have := this y hy
    omega

theorem CaseVariant.dull {t k : Str} (h : CaseVariant t k) (ht : ∀ c ∈ t, c ∉ special) : ∀ c ∈ k, c ∉ special := by
  induction h with
  | nil => simp
  | cons h1 _ ih =>
    intro c hc
    rcases List.mem_cons.mp hc with rfl | hc
    · exact h1.dull (ht _ (by simp))
    · exact ih (fun c hc => ht c (by simp [hc])) c hc

instance {l : List Char} [KwTag l] [h : DullTag l] : Bal (tagNoCase l) where
  out e := by obtain ⟨rfl, hv⟩ := tagNoCase_ok_iff.mp e; exact ⟨_, rfl, .chars (hv.dull h.out)⟩
instance {l : List Char} [KwTag l] [h : DullTag l] : Bal (tagNoCaseStreaming l) where
  out e := by obtain ⟨rfl, hv⟩ := tagNoCaseStreaming_ok_iff.mp e; exact ⟨_, rfl, .chars (hv.dull h.out)⟩

instance : Bal sp where
  out e := by obtain ⟨rfl, hw, _⟩ := sp_ok_iff.mp e; exact ⟨_, rfl, hw.nested⟩
instance : Bal sp1 where
  out e := by obtain ⟨rfl, hw, _⟩ := sp1_ok_iff.mp e; exact ⟨_, rfl, hw.1.nested⟩

instance : DullClass isPnCharsBase := ⟨by decide⟩
instance : DullClass isPnCharsU := ⟨by decide⟩
instance : DullClass isPnChar := ⟨by decide⟩
instance : DullClass isDigitU8 := ⟨by decide⟩
instance : DullClass isDecDigit := ⟨by decide⟩
instance : DullClass isAlpha := ⟨by decide⟩
instance : DullClass isAlphanum := ⟨by decide⟩
instance : DullClass isDot := ⟨by decide⟩
instance : DullClass isLocalChar := ⟨by decide⟩
instance : DullClass isVarChar := ⟨by decide⟩
instance : DullClass isHexDigit := ⟨by decide⟩
instance : DullClass isPathMod := ⟨by decide⟩

section
variable {f : Char → Bool} [DullClass f]
instance : Bal (takeWhile f) where
  out e := by obtain ⟨rfl, h, _⟩ := takeWhile_ok.mp e; exact ⟨_, rfl, .chars fun c hc => DullClass.not (h c hc)⟩
instance {k} : Bal (takeWhile1K k f) where
  out e := by obtain ⟨rfl, h⟩ := takeWhile1K_ok.mp e; exact ⟨_, rfl, .chars fun c hc => DullClass.not (f := f) (by grind)⟩
instance : Bal (takeWhile1 f) := by unfold takeWhile1; infer_instance
instance {n} : Bal (takeWhileN n f) where
  out e := by obtain ⟨rfl, h⟩ := takeWhileN_ok.mp e; exact ⟨_, rfl, .chars fun c hc => DullClass.not (f := f) (by grind)⟩
end

instance : Bal digit1 := by unfold digit1; infer_instance
instance : Bal alpha1 := by unfold alpha1; infer_instance
instance : Bal alphanumeric1 := by unfold alphanumeric1; infer_instance

instance : Bal stringLiteral where
  out e := by
    obtain ⟨q, hq, rfl, hb, _⟩ := stringLiteral_ok.mp e
    exact ⟨q :: (_ ++ [q]), by simp, .string hq.symm hb .nil⟩

theorem isIriChar_stops {c : Char} (h : isIriChar c = true) : c ∉ iriStops := by
  have : ∀ c ∈ iriStops, isIriChar c = false := by decide
  intro hc
  rw [this c hc] at h
  cases h
instance : Bal iriRef where
  out e := by
    obtain ⟨rfl, h⟩ := iriRef_ok.mp e
    exact ⟨'<' :: (_ ++ ['>']), by simp, .iri (fun c hc => isIriChar_stops (h c hc)) .nil⟩

instance : Bal hexPrimary := by unfold hexPrimary; infer_instance
instance : Bal (pair (tag ['\\']) (recognize (oneOf pnLocalEsc))) where
  out e := by
    obtain ⟨_, e1, e2⟩ := pair_ok_iff.mp e
    obtain ⟨_, rfl⟩ := tag_ok.mp e1
    obtain ⟨rfl, _, e3⟩ := recognize_ok_iff.mp e2
    obtain ⟨hc, e4⟩ := oneOf_ok.mp e3
    rw [e4]
    exact ⟨['\\', _], rfl, .escape hc .nil⟩
instance : Bal plx := by unfold plx; infer_instance

/-! ## Brackets -/

instance : OpensWith o (char o) where
  out e := by obtain ⟨_, rfl⟩ := char_ok.mp e; exact ⟨[], [], rfl, .nil, .nil⟩
instance : OpensWith o (tag [o]) where
  out e := by obtain ⟨_, rfl⟩ := tag_ok.mp e; exact ⟨[], [], rfl, .nil, .nil⟩
instance [h : OpensWith o p] [h' : Bal q] : OpensWith o (terminated p q) where
  out e := by
    obtain ⟨_, _, e1, e2⟩ := terminated_ok.mp e
    obtain ⟨x, y, rfl, hx, hy⟩ := h.out e1
    obtain ⟨z, rfl, hz⟩ := h'.out e2
    exact ⟨x, y ++ z, by simp, hx, hy.append hz⟩
instance [h : Bal p] [h' : OpensWith o q] : OpensWith o (preceded p q) where
  out e := by
    obtain ⟨_, _, e1, e2⟩ := preceded_ok.mp e
    obtain ⟨z, rfl, hz⟩ := h.out e1
    obtain ⟨x, y, rfl, hx, hy⟩ := h'.out e2
    exact ⟨z ++ x, y, by simp, hz.append hx, hy⟩
instance [OpensWith o p] : OpensWith o (spEnc p) := by unfold spEnc delimited; infer_instance
instance : ClosesWith c (char c) where
  out e := by obtain ⟨_, rfl⟩ := char_ok.mp e; exact ⟨[], [], rfl, .nil, .nil⟩
instance : ClosesWith c (tag [c]) where
  out e := by obtain ⟨_, rfl⟩ := tag_ok.mp e; exact ⟨[], [], rfl, .nil, .nil⟩
instance [h : Bal p] [h' : ClosesWith c q] : ClosesWith c (preceded p q) where
  out e := by
    obtain ⟨_, _, e1, e2⟩ := preceded_ok.mp e
    obtain ⟨z, rfl, hz⟩ := h.out e1
    obtain ⟨x, y, rfl, hx, hy⟩ := h'.out e2
    exact ⟨z ++ x, y, by simp, hz.append hx, hy⟩
instance [h : Bal p] [h' : ClosesWith c q] : ClosesWith c (terminated p q) where
  out e := by
    obtain ⟨_, _, e1, e2⟩ := terminated_ok.mp e
    obtain ⟨z, rfl, hz⟩ := h.out e1
    obtain ⟨x, y, rfl, hx, hy⟩ := h'.out e2
    exact ⟨z ++ x, y, by simp, hz.append hx, hy⟩
instance [h : ClosesWith c p] : ClosesWith c (cut p) where
  out e := h.out (cut_ok.mp e)

theorem Nested.enclosed {x y z x' y' r : Str} (h : (o, c) ∈ brackets) (h1 : Nested x) (h2 : Nested y) (h3 : Nested z) (h4 : Nested x') (h5 : Nested y') :
    ∃ s, x ++ o :: (y ++ (z ++ (x' ++ c :: (y' ++ r)))) = s ++ r ∧ Nested s :=
  ⟨x ++ o :: ((y ++ (z ++ x')) ++ c :: y'), by simp, h1.append (.group h (h2.append (h3.append h4)) h5)⟩

instance (priority := low) [h : OpensWith o p] [h1 : Bal q] [h2 : ClosesWith c s] [hm : Match o c] : Bal (delimited p q s) where
  out e := by
    obtain ⟨_, _, _, _, e1, e2, e3⟩ := delimited_ok.mp e
    obtain ⟨x, y, rfl, hx, hy⟩ := h.out e1
    obtain ⟨z, rfl, hz⟩ := h1.out e2
    obtain ⟨x', y', rfl, hx', hy'⟩ := h2.out e3
    exact Nested.enclosed hm.out hx hy hz hx' hy'
instance (priority := low) [h : OpensWith o p] [h2 : ClosesWith c s] [hm : Match o c] : Bal (preceded p s) where
  out e := by
    obtain ⟨_, _, e1, e3⟩ := preceded_ok.mp e
    obtain ⟨x, y, rfl, hx, hy⟩ := h.out e1
    obtain ⟨x', y', rfl, hx', hy'⟩ := h2.out e3
    exact (Nested.enclosed (z := []) hm.out hx hy .nil hx' hy')

end

/-! ## The reader with a stack -/

theorem scan_string {q : Char} (hq : q = '"' ∨ q = '\'') {s t : Str} (h : StrBody q s) (st : List Char) :
    scan (.string q) st (s ++ q :: t) = scan .code st t := by
  induction h with
  | nil => simp [scan]
  | ord h1 h2 _ ih => rw [List.cons_append, scan, if_neg h1, if_neg h2]; exact ih
  | esc _ _ ih =>
    have : '\\' ≠ q := by rcases hq with rfl | rfl <;> decide
    rw [List.cons_append, List.cons_append, scan, if_neg this, if_pos rfl, scan]
    exact ih

theorem scan_comment {e : Char} (he : e ∈ ['\n', '\r']) {t : Str} (st : List Char) : ∀ {s : Str}, (∀ c ∈ s, c ≠ '\n' ∧ c ≠ '\r') →
    scan .comment st (s ++ e :: t) = scan .code st t
  | [], _ => by
    rw [List.nil_append, scan, if_pos (by simpa using he)]
  | c :: s, h => by
    rw [List.cons_append, scan, if_neg (by have := h c (by simp); grind)]
    exact scan_comment he st fun d hd => h d (by simp [hd])

theorem Nested.scan {s : Str} (h : Nested s) : '<' ∉ s → ∀ (t : Str) (st : List Char), NomSparql.scan .code st (s ++ t) = NomSparql.scan .code st t := by
  induction h with
  | nil => intro _ t st; rfl
  | @char c s h1 _ ih =>
    intro hs t st
    simp only [special, List.mem_cons, List.not_mem_nil, or_false, not_or] at h1
    simp only [List.cons_append, NomSparql.scan, List.mem_cons, List.not_mem_nil, or_false, h1, if_false]
    exact ih (fun h => hs (by simp [h])) t st
  | @group o c s t' h1 _ _ ih1 ih2 =>
    intro hs t st
    have e1 : o ∈ ['(', '[', '{'] ∧ c ∉ ['(', '[', '{'] ∧ c ∈ [')', ']', '}'] := by
      simp only [brackets, List.mem_cons, Prod.mk.injEq, List.not_mem_nil, or_false] at h1
      rcases h1 with ⟨rfl, rfl⟩ | ⟨rfl, rfl⟩ | ⟨rfl, rfl⟩ <;> decide
    rw [List.cons_append, List.append_assoc, NomSparql.scan, if_pos e1.1, ih1 (fun h => hs (by simp [h])), List.cons_append, NomSparql.scan,
      if_neg e1.2.1, if_pos e1.2.2]
    simp only [close, h1, if_true, Option.bind_some]
    exact ih2 (fun h => hs (by simp [h])) t st
  | @string q s t' hq hb _ ih =>
    intro hs t st
    rw [List.cons_append, List.append_assoc, NomSparql.scan, List.cons_append]
    have e1 : q ∉ ['(', '[', '{'] ∧ q ∉ [')', ']', '}'] := by rcases hq with rfl | rfl <;> decide
    rw [if_neg e1.1, if_neg e1.2, if_pos hq, scan_string hq hb]
    exact ih (fun h => hs (by simp [h])) t st
  | iri _ _ _ => intro hs; exact absurd (by simp) hs
  | @comment s e t' hb he _ ih =>
    intro hs t st
    rw [List.cons_append, List.append_assoc, NomSparql.scan, List.cons_append, if_neg (by decide), if_neg (by decide), if_neg (by decide),
      if_pos rfl, scan_comment he st hb]
    exact ih (fun h => hs (by simp [h])) t st
  | @escape c s hc _ ih =>
    intro hs t st
    rw [List.cons_append, List.cons_append, NomSparql.scan, if_neg (by decide), if_neg (by decide), if_neg (by decide), if_neg (by decide),
      if_pos rfl, NomSparql.scan]
    exact ih (fun h => hs (by simp [h])) t st

theorem nested_scan_all {i r : Input} (h : ∃ s, i = s ++ r ∧ Nested s) (hi : '<' ∉ i) (st : List Char) : scan .code st i = scan .code st r := by
  obtain ⟨s, rfl, h⟩ := h
  exact h.scan (fun h => hi (by simp [h])) r st

theorem Nested.count_eq {s : Str} (h : Nested s) (hb : ∀ c ∈ s, c ∉ ['"', '\'', '#', '\\', '<']) {o c : Char} (hoc : (o, c) ∈ brackets) :
    s.count o = s.count c := by
  induction h with
  | nil => rfl
  | @char d s h1 _ ih =>
    have h2 : d ≠ o ∧ d ≠ c := by
      simp only [brackets, List.mem_cons, Prod.mk.injEq, List.not_mem_nil, or_false] at hoc
      constructor <;> rintro rfl <;> apply h1 <;> rcases hoc with ⟨rfl, rfl⟩ | ⟨rfl, rfl⟩ | ⟨rfl, rfl⟩ <;> decide
    rw [List.count_cons_of_ne h2.1, List.count_cons_of_ne h2.2]
    exact ih fun d hd => hb d (by simp [hd])
  | @group o' c' s t h1 _ _ ih1 ih2 =>
    have i1 := ih1 fun d hd => hb d (by simp [hd])
    have i2 := ih2 fun d hd => hb d (by simp [hd])
    have e1 : (o' = o) = (c' = c) ∧ o' ≠ c ∧ c' ≠ o := by
      simp only [brackets, List.mem_cons, Prod.mk.injEq, List.not_mem_nil, or_false] at hoc h1
      rcases h1 with ⟨rfl, rfl⟩ | ⟨rfl, rfl⟩ | ⟨rfl, rfl⟩ <;> rcases hoc with ⟨rfl, rfl⟩ | ⟨rfl, rfl⟩ | ⟨rfl, rfl⟩ <;> decide
    simp only [List.count_cons, List.count_append, beq_iff_eq, e1, if_false]
    omega
  | @string q s t hq _ _ _ => exact absurd (hb q (by simp)) (by rcases hq with rfl | rfl <;> decide)
  | iri _ _ _ => exact absurd (hb '<' (by simp)) (by decide)
  | comment _ _ _ _ => exact absurd (hb '#' (by simp)) (by decide)
  | escape _ _ _ => exact absurd (hb '\\' (by simp)) (by decide)

end NomSparql
