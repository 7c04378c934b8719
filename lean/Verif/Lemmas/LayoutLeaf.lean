import Verif.Lemmas.Layout

/-!
# The layout judgement for the terminals
-/

namespace NomSparql

variable {s v : Bool}

/-! ## White space -/

instance : Lay false false sp where
  out i i' t := by
    obtain ⟨w, w', s, s', rfl, rfl, h1, h2, h3, h4, h5, h6⟩ := t.space
    rw [sp_append h1 h4, sp_append h2 h5]
    exact .ok h6 rfl rfl h3 (by simp) (by simp)

theorem sp1_odd {c : Char} {i : Str} (h : wsStart c = false) : sp1 (c :: i) = .err (.error (c :: i) .OneOf) := by
  simp only [wsStart, decide_eq_false_iff_not, List.mem_cons, List.not_mem_nil, or_false, not_or] at h
  obtain ⟨h1, h2, h3, h4, h5⟩ := h
  simp [sp1, recognize, many1, spItem, alt, oneOf, newLine, pair, opt, preceded, map, char, h1, h2, h3, h4, h5]

theorem sp1_end : sp1 [] = .err (.error [] .OneOf) := by
  simp [sp1, recognize, many1, spItem, alt, oneOf, newLine, pair, opt, preceded, map, char]

instance : Lay false false sp1 where
  out i i' t := by
    rcases t.head with ⟨rfl, rfl⟩ | ⟨c, s, s', rfl, rfl, h3, h4, _⟩ | ⟨c, w, s, c', w', s', rfl, rfl, h3, h4, h5⟩ |
      ⟨q, b, s, s', rfl, rfl, h3, _⟩
    · rw [sp1_end]; exact .error t
    · rw [sp1_odd (plain_ws h3), sp1_odd (plain_ws h3)]; exact .error t
    · obtain ⟨u, u', r, r', e, e', h1, h2, h3', h4', h5', h6⟩ := t.space
      have hu : u ≠ [] := by
        rintro rfl
        exact h4' ⟨[c], w ++ s, .char h3, by simpa using e.symm⟩
      have hu' : u' ≠ [] := fun x => hu (h3'.mpr x)
      rw [e, e', sp1_ok_iff.mpr ⟨rfl, ⟨h1, hu⟩, h4'⟩, sp1_ok_iff.mpr ⟨rfl, ⟨h2, hu'⟩, h5'⟩]
      exact .ok h6 rfl rfl h3' (by simp) (by simp)
    · have : wsStart q = false := by rcases h3 with rfl | rfl <;> decide
      rw [sp1_odd this, sp1_odd this]; exact .error t

/-! ## Characters and tags -/

/-- Characters of punctuation and keywords. -/
class Plain (c : Char) : Prop where
  out : PlainChar c ∧ c.toNat < 128

macro "plain! " cs:char* : command => do
  let is ← cs.mapM fun c => `(instance : Plain $c := ⟨by decide⟩)
  return ⟨Lean.mkNullNode is⟩

plain! 'a' 'b' 'c' 'd' 'e' 'f' 'g' 'h' 'i' 'j' 'k' 'l' 'm' 'n' 'o' 'p' 'q' 'r' 's' 't' 'u' 'v' 'w' 'x' 'y' 'z' 'E'
plain! '0' '1' '2' '3' '4' '5' '6' '7' '8' '9' '_' ':' '(' ')' '[' ']' '{' '}' '<' '>' '=' '!' '+' '-' '*' '/' '.' ',' ';' '|' '&' '^'
plain! '?' '$' '@' '%'

/-- A tag of such characters. -/
class PlainTag (t : List Char) : Prop where
  out : ∀ c ∈ t, PlainChar c ∧ c.toNat < 128

instance : PlainTag [] := ⟨by simp⟩
instance {c t} [h : Plain c] [h' : PlainTag t] : PlainTag (c :: t) :=
  ⟨fun d hd => by
    rcases List.mem_cons.mp hd with rfl | hd
    · exact h.out
    · exact h'.out d hd⟩

instance {c : Char} [h : Plain c] : Lay s v (char c) where
  out i i' t := by
    rcases t.first with ⟨rfl, rfl⟩ | ⟨d, j, j', rfl, rfl, h1, h2⟩ | ⟨d, j, d', j', rfl, rfl, h1, h2⟩
    · exact .error t
    · unfold char
      simp only
      split
      · exact .read (m := [d]) h2
      · exact .error t
    · unfold char
      simp only
      rw [if_neg (h.out.1.ne (odd_not_plain h1)).symm, if_neg (h.out.1.ne (odd_not_plain h2)).symm]
      exact .error t

theorem strip_lay {t : List Char} (h : ∀ c ∈ t, PlainChar c) {i i' : Str} (hi : Relaid i i') :
    (stripPrefix t i = none ∧ stripPrefix t i' = none) ∨
    ∃ r r', stripPrefix t i = some r ∧ stripPrefix t i' = some r' ∧ i = t ++ r ∧ i' = t ++ r' ∧ Relaid r r' := by
  induction t generalizing i i' with
  | nil => exact .inr ⟨i, i', rfl, rfl, rfl, rfl, hi⟩
  | cons x t ih =>
    have hx := h x (by simp)
    rcases hi.first with ⟨rfl, rfl⟩ | ⟨d, j, j', rfl, rfl, h1, h2⟩ | ⟨d, j, d', j', rfl, rfl, h1, h2⟩
    · exact .inl ⟨rfl, rfl⟩
    · by_cases hd : d = x
      · subst hd
        rcases ih (fun c hc => h c (by simp [hc])) h2 with ⟨g1, g2⟩ | ⟨r, r', g1, g2, rfl, rfl, g3⟩
        · exact .inl (by simp [stripPrefix, g1, g2])
        · exact .inr ⟨r, r', by simp [stripPrefix, g1], by simp [stripPrefix, g2], rfl, rfl, g3⟩
      · exact .inl (by simp [stripPrefix, hd])
    · exact .inl (by simp [stripPrefix, (hx.ne (odd_not_plain h1)).symm, (hx.ne (odd_not_plain h2)).symm])

instance {t : List Char} [h : PlainTag t] : Lay s v (tag t) where
  out i i' hi := by
    unfold tag
    rcases strip_lay (fun c hc => (h.out c hc).1) hi with ⟨g1, g2⟩ | ⟨r, r', g1, g2, rfl, rfl, g3⟩
    · rw [g1, g2]; exact .error hi
    · rw [g1, g2]; exact .read g3

/-! ## Keywords -/

theorem plain_of_lower {x c : Char} (hc : PlainChar c) (h : lower x = lower c) : PlainChar x := by
  intro hx
  have e : lower x = x := by
    simp only [List.mem_cons, List.not_mem_nil, or_false] at hx
    rcases hx with rfl | rfl | rfl | rfl | rfl | rfl | rfl <;> decide
  rw [e] at h
  unfold lower at h
  split at h
  · rename_i hu
    have : x.toNat = c.toNat + 32 := by rw [h, toNat_ofNat_small (by omega)]
    simp only [List.mem_cons, List.not_mem_nil, or_false] at hx
    rcases hx with rfl | rfl | rfl | rfl | rfl | rfl | rfl <;> simp at this <;> omega
  · split at h
    · subst h; revert hx; decide
    · exact hc (h ▸ hx)

theorem overlap_lay {t : List Char} (h : ∀ c ∈ t, PlainChar c) {i i' : Str} (hi : Relaid i i') :
    overlapNoCase i t = overlapNoCase i' t := by
  induction t generalizing i i' with
  | nil => cases i <;> cases i' <;> rfl
  | cons x t ih =>
    have hx := h x (by simp)
    rcases hi.first with ⟨rfl, rfl⟩ | ⟨d, j, j', rfl, rfl, h1, h2⟩ | ⟨d, j, d', j', rfl, rfl, h1, h2⟩
    · rfl
    · simp only [overlapNoCase, ih (fun c hc => h c (by simp [hc])) h2]
    · have e : ∀ d, ¬ PlainChar d → (lower d == lower x) = false := fun d hd => by
        simp only [beq_eq_false_iff_ne, ne_eq]
        exact fun e => hd (plain_of_lower hx e)
      simp only [overlapNoCase, e d (odd_not_plain h1), e d' (odd_not_plain h2), Bool.false_and]

/-- After a match of the first character both texts go on alike. -/
theorem overlap_step {x : Char} {t : List Char} (hx : PlainChar x) {i i' : Str} (hi : Relaid i i') (h : overlapNoCase i (x :: t) = true) :
    (i = [] ∧ i' = []) ∨ ∃ c j j', i = c :: j ∧ i' = c :: j' ∧ Relaid j j' ∧ overlapNoCase j t = true := by
  rcases hi.first with h0 | ⟨d, j, j', rfl, rfl, h1, h2⟩ | ⟨d, j, d', j', rfl, rfl, h1, h2⟩
  · exact .inl h0
  · simp only [overlapNoCase, Bool.and_eq_true] at h
    exact .inr ⟨d, j, j', rfl, rfl, h2, h.2⟩
  · simp only [overlapNoCase, Bool.and_eq_true, beq_iff_eq] at h
    exact absurd (plain_of_lower hx h.1) (odd_not_plain h1)

theorem size_pos (c : Char) : 0 < c.utf8Size := Char.utf8Size_pos c

theorem byteLen_lay {t : List Char} (h : ∀ c ∈ t, PlainChar c) {i i' : Str} (hi : Relaid i i') (ho : overlapNoCase i t = true) {k : Nat}
    (hk : k ≤ t.length) : k ≤ byteLen i ↔ k ≤ byteLen i' := by
  induction t generalizing i i' k with
  | nil => simp at hk; subst hk; simp
  | cons x t ih =>
    rcases overlap_step (h x (by simp)) hi ho with ⟨rfl, rfl⟩ | ⟨c, j, j', rfl, rfl, h1, h2⟩
    · exact Iff.rfl
    · have := ih (fun c hc => h c (by simp [hc])) h1 h2 (k := k - c.utf8Size) (by
        have := size_pos c
        simp only [List.length_cons] at hk
        omega)
      simp only [byteLen_cons]
      omega

theorem takeBytes_lay {t : List Char} (h : ∀ c ∈ t, PlainChar c) {i i' : Str} (hi : Relaid i i') (ho : overlapNoCase i t = true) {n : Nat}
    (hn : n ≤ t.length) : (takeBytes n i = none ∧ takeBytes n i' = none) ∨
    ∃ a r r', takeBytes n i = some (a, r) ∧ takeBytes n i' = some (a, r') ∧ i = a ++ r ∧ i' = a ++ r' ∧ Relaid r r' := by
  induction t generalizing i i' n with
  | nil =>
    simp at hn
    subst hn
    exact .inr ⟨[], i, i', takeBytes_zero _, takeBytes_zero _, rfl, rfl, hi⟩
  | cons x t ih =>
    by_cases h0 : n = 0
    · subst h0
      exact .inr ⟨[], i, i', takeBytes_zero _, takeBytes_zero _, rfl, rfl, hi⟩
    rcases overlap_step (h x (by simp)) hi ho with ⟨rfl, rfl⟩ | ⟨c, j, j', rfl, rfl, h1, h2⟩
    · exact .inl ⟨by simp [takeBytes, h0], by simp [takeBytes, h0]⟩
    · have hp := size_pos c
      simp only [List.length_cons] at hn
      simp only [takeBytes, if_neg h0]
      split
      · rcases ih (fun c hc => h c (by simp [hc])) h1 h2 (n := n - c.utf8Size) (by omega) with ⟨g1, g2⟩ | ⟨a, r, r', g1, g2, rfl, rfl, g3⟩
        · rw [g1, g2]; exact .inl ⟨rfl, rfl⟩
        · rw [g1, g2]; exact .inr ⟨_, _, _, rfl, rfl, rfl, rfl, g3⟩
      · exact .inl ⟨rfl, rfl⟩

theorem byteLen_ascii {t : List Char} (h : ∀ c ∈ t, c.toNat < 128) : byteLen t = t.length := by
  induction t with
  | nil => rfl
  | cons x t ih =>
    rw [byteLen_cons, utf8Size_ascii (h x (by simp)), ih (fun c hc => h c (by simp [hc])), List.length_cons]
    omega

instance {t : List Char} [h : PlainTag t] : Lay s v (tagNoCase t) where
  out i i' hi := by
    have hp := fun c hc => (h.out c hc).1
    have hl := byteLen_ascii (fun c hc => (h.out c hc).2)
    unfold tagNoCase
    rw [← overlap_lay hp hi]
    cases ho : overlapNoCase i t with
    | false => exact .error hi
    | true =>
      simp only [Bool.true_and, decide_eq_true_eq]
      have := byteLen_lay hp hi ho (k := byteLen t) (by omega)
      by_cases hk : byteLen t ≤ byteLen i
      · rw [if_pos hk, if_pos (this.mp hk)]
        rcases takeBytes_lay hp hi ho (n := byteLen t) (by omega) with ⟨g1, g2⟩ | ⟨a, r, r', g1, g2, rfl, rfl, g3⟩
        · rw [g1, g2]; exact rfl
        · rw [g1, g2]; exact .read g3
      · rw [if_neg hk, if_neg (fun x => hk (this.mpr x))]; exact .error hi

instance {t : List Char} [h : PlainTag t] : Lay s v (tagNoCaseStreaming t) where
  out i i' hi := by
    have hp := fun c hc => (h.out c hc).1
    have hl := byteLen_ascii (fun c hc => (h.out c hc).2)
    unfold tagNoCaseStreaming
    rw [← overlap_lay hp hi]
    cases ho : overlapNoCase i t with
    | false => exact .error hi
    | true =>
      simp only [if_true]
      have := byteLen_lay hp hi ho (k := byteLen t) (by omega)
      by_cases hk : byteLen t ≤ byteLen i
      · rw [if_pos hk, if_pos (this.mp hk)]
        rcases takeBytes_lay hp hi ho (n := byteLen t) (by omega) with ⟨g1, g2⟩ | ⟨a, r, r', g1, g2, rfl, rfl, g3⟩
        · rw [g1, g2]; exact rfl
        · rw [g1, g2]; exact .read g3
      · rw [if_neg hk, if_neg (fun x => hk (this.mpr x))]; exact rfl

/-! ## Runs of characters of a class -/

/-- A class without white space and quotes. -/
class Stops (f : Char → Bool) : Prop where
  out : ∀ c ∈ [' ', '\t', '\r', '\n', '"', '\''], f c = false

instance : Stops isPnCharsBase := ⟨by decide⟩
instance : Stops isPnCharsU := ⟨by decide⟩
instance : Stops isPnChar := ⟨by decide⟩
instance : Stops isDigitU8 := ⟨by decide⟩
instance : Stops isDecDigit := ⟨by decide⟩
instance : Stops isAlpha := ⟨by decide⟩
instance : Stops isAlphanum := ⟨by decide⟩
instance : Stops isDot := ⟨by decide⟩
instance : Stops isLocalChar := ⟨by decide⟩
instance : Stops isVarChar := ⟨by decide⟩
instance : Stops isHexDigit := ⟨by decide⟩

theorem while_lay {f : Char → Bool} [h : Stops f] {i i' : Str} (hi : Relaid i i') :
    i.takeWhile f = i'.takeWhile f ∧ Relaid (i.dropWhile f) (i'.dropWhile f) := by
  induction i generalizing i' with
  | nil => rw [hi.refl_nil]; exact ⟨rfl, .nil⟩
  | cons c i ih =>
    rcases hi.first with ⟨h1, _⟩ | ⟨d, j, j', h1, rfl, h3, h4⟩ | ⟨d, j, d', j', h1, rfl, h3, h4⟩
    · cases h1
    · cases h1
      simp only [List.takeWhile_cons, List.dropWhile_cons]
      split
      · exact ⟨by rw [(ih h4).1], (ih h4).2⟩
      · exact ⟨rfl, hi⟩
    · cases h1
      simp only [List.takeWhile_cons, List.dropWhile_cons, h.out c h3, h.out d' h4]
      exact ⟨rfl, hi⟩

theorem while_split (f : Char → Bool) (i : Str) : i = i.takeWhile f ++ i.dropWhile f := List.takeWhile_append_dropWhile.symm

instance {f : Char → Bool} [Stops f] : Lay s v (takeWhile f) where
  out i i' hi := by
    obtain ⟨h1, h2⟩ := while_lay (f := f) hi
    unfold takeWhile
    exact .ok h2 (while_split f i) (by rw [h1]; exact while_split f i') Iff.rfl (fun _ => rfl) (fun _ => h1)

instance {k} {f : Char → Bool} [Stops f] : Lay s v (takeWhile1K k f) where
  out i i' hi := by
    obtain ⟨h1, h2⟩ := while_lay (f := f) hi
    have e := while_split f i
    have e' := while_split f i'
    unfold takeWhile1K
    rw [← h1] at e' ⊢
    cases hw : List.takeWhile f i with
    | nil => exact .error hi
    | cons c cs =>
      rw [hw] at e e'
      exact .ok h2 e e' Iff.rfl (fun _ => rfl) (fun _ => rfl)

instance {f : Char → Bool} [Stops f] : Lay s v (takeWhile1 f) := by unfold takeWhile1; infer_instance

theorem takeN_lay {f : Char → Bool} [h : Stops f] {n : Nat} {i i' : Str} (hi : Relaid i i') (hl : (i.take n).length = n)
    (ha : (i.take n).all f = true) : i'.take n = i.take n ∧ Relaid (i.drop n) (i'.drop n) := by
  induction n generalizing i i' with
  | zero => exact ⟨by simp, hi⟩
  | succ n ih =>
    rcases hi.first with ⟨rfl, rfl⟩ | ⟨d, j, j', rfl, rfl, h3, h4⟩ | ⟨d, j, d', j', rfl, rfl, h3, h4⟩
    · simp at hl
    · simp only [List.take_succ_cons, List.length_cons, List.all_cons, Bool.and_eq_true, List.drop_succ_cons] at hl ha ⊢
      obtain ⟨g1, g2⟩ := ih h4 (by omega) ha.2
      exact ⟨by rw [g1], g2⟩
    · simp only [List.take_succ_cons, List.all_cons, h.out d h3, Bool.false_and] at ha
      cases ha

instance {n} {f : Char → Bool} [Stops f] : Lay s v (takeWhileN n f) where
  out i i' hi := by
    unfold takeWhileN
    by_cases hc : (i.take n).length = n ∧ (i.take n).all f = true
    · obtain ⟨h1, h2⟩ := takeN_lay hi hc.1 hc.2
      rw [if_pos hc, if_pos (by rw [h1]; exact hc)]
      exact .ok h2 (List.take_append_drop n i).symm (by rw [← h1]; exact (List.take_append_drop n i').symm) Iff.rfl (fun _ => rfl)
        (fun _ => h1.symm)
    · have hc' : ¬ ((i'.take n).length = n ∧ (i'.take n).all f = true) := by
        intro hc'
        obtain ⟨h1, _⟩ := takeN_lay hi.symm.1 hc'.1 hc'.2
        exact hc (by rw [h1]; exact hc')
      rw [if_neg hc, if_neg hc']
      exact .error hi

instance : Lay s v digit1 := by unfold digit1; infer_instance
instance : Lay s v alpha1 := by unfold alpha1; infer_instance
instance : Lay s v alphanumeric1 := by unfold alphanumeric1; infer_instance

/-! ## Strings -/

theorem stringLiteral_other {c : Char} {i : Str} (h1 : c ≠ '"') (h2 : c ≠ '\'') : stringLiteral (c :: i) = .err (.error (c :: i) .Tag) := by
  unfold stringLiteral
  rw [alt_skip (delimited_tag_err h2), alt_last]
  exact delimited_tag_err h1

theorem stringLiteral_end : stringLiteral [] = .err (.error [] .Tag) := by
  simp [stringLiteral, alt, delimited, preceded, map, pair, tag, stripPrefix]

theorem stringLiteral_dq {i : Str} : stringLiteral ('"' :: '"' :: i) = .err (.error ('"' :: i) .Escaped) := by
  unfold stringLiteral
  rw [alt_skip (delimited_tag_err (by decide)), alt_last]
  simp [delimited, preceded, terminated, map, pair, tag, stripPrefix, escaped, escapedLoop, noneOf]

theorem stringLiteral_sq {i : Str} : stringLiteral ('\'' :: '\'' :: i) = .err (.error ('\'' :: '\'' :: i) .Tag) := by
  unfold stringLiteral
  rw [alt_skip (pos := '\'' :: i) (k := .Escaped), alt_last]
  · exact delimited_tag_err (by decide)
  · simp [delimited, preceded, terminated, map, pair, tag, stripPrefix, escaped, escapedLoop, noneOf]

instance : Lay s v stringLiteral where
  out i i' t := by
    rcases t.head with ⟨rfl, rfl⟩ | ⟨c, j, j', rfl, rfl, h3, h4, _⟩ | ⟨c, w, j, c', w', j', rfl, rfl, h3, h4, h5⟩ |
      ⟨q, b, j, j', rfl, rfl, h3, h4, h5, h6⟩
    · rw [stringLiteral_end]; exact .error t
    · have e1 : c ≠ '"' := h3.ne (by decide)
      have e2 : c ≠ '\'' := h3.ne (by decide)
      rw [stringLiteral_other e1 e2, stringLiteral_other e1 e2]; exact .error t
    · have e1 : ∀ c, IsBlank c → c ≠ '"' ∧ c ≠ '\'' := by
        intro c hc
        constructor <;> (rintro rfl; revert hc; decide)
      rw [stringLiteral_other (e1 c h3).1 (e1 c h3).2, stringLiteral_other (e1 c' h4).1 (e1 c' h4).2]; exact .error t
    · by_cases hb : b = []
      · subst hb
        simp only [List.nil_append] at t ⊢
        rcases h3 with rfl | rfl
        · rw [stringLiteral_dq, stringLiteral_dq]; exact ⟨⟨['"'], j, j', rfl, rfl, h6⟩, rfl⟩
        · rw [stringLiteral_sq, stringLiteral_sq]; exact .error t
      · have e : ∀ j, stringLiteral (q :: (b ++ q :: j)) = .ok j b := fun j =>
          stringLiteral_ok.mpr ⟨q, h3.symm, rfl, h4, hb⟩
        rw [e, e]
        exact .ok (m := q :: (b ++ [q])) (m' := q :: (b ++ [q])) h6 (by simp) (by simp) Iff.rfl (fun _ => rfl) (fun _ => rfl)

/-! ## IRI references -/

/-- Where an IRI cannot go on or end. -/
def Halt (p : Str) : Prop := ∀ c t, p = c :: t → isIriChar c = false ∧ c ≠ '>'

/-- The text after `<`: the same IRI in both, or the same characters up to a place where it cannot go on. -/
def IriEnd (j j' : Str) : Prop :=
  (∃ m r r', j = m ++ '>' :: r ∧ j' = m ++ '>' :: r' ∧ (∀ c ∈ m, isIriChar c = true) ∧ Relaid r r') ∨
  (∃ m p p', j = m ++ p ∧ j' = m ++ p' ∧ (∀ c ∈ m, isIriChar c = true) ∧ SamePlace p p' ∧ Halt p ∧ Halt p')

theorem IriEnd.cons {b j j'} (hb : ∀ c ∈ b, isIriChar c = true) (h : IriEnd j j') : IriEnd (b ++ j) (b ++ j') := by
  have key : ∀ m : Str, (∀ c ∈ m, isIriChar c = true) → ∀ c ∈ b ++ m, isIriChar c = true := by
    intro m hm c hc
    rcases List.mem_append.mp hc with hc | hc
    · exact hb c hc
    · exact hm c hc
  rcases h with ⟨m, r, r', rfl, rfl, h1, h2⟩ | ⟨m, p, p', rfl, rfl, h1, h2⟩
  · exact .inl ⟨b ++ m, r, r', by simp, by simp, key m h1, h2⟩
  · exact .inr ⟨b ++ m, p, p', by simp, by simp, key m h1, h2⟩

theorem IriEnd.here {p p'} (h : SamePlace p p') (h1 : Halt p) (h2 : Halt p') : IriEnd p p' :=
  .inr ⟨[], p, p', rfl, rfl, by simp, h, h1, h2⟩

theorem halt_cons {c : Char} {t : Str} (h : isIriChar c = false) (h' : c ≠ '>') : Halt (c :: t) := by
  intro d u e
  cases e
  exact ⟨h, h'⟩

/-- A string body: IRI characters only, or an obstacle at the same place. -/
theorem iri_body {b j j' : Str} (hb : '>' ∉ b) (h : IriEnd j j') (hs : SamePlace j j') : IriEnd (b ++ j) (b ++ j') := by
  by_cases hall : ∀ c ∈ b, isIriChar c = true
  · exact h.cons hall
  · clear h
    induction b with
    | nil => exact absurd (by simp) hall
    | cons c b ih =>
      by_cases hc : isIriChar c = true
      · have := ih (fun h => hb (by simp [h])) (fun h => hall (by simpa [hc] using h))
        exact IriEnd.cons (b := [c]) (by simpa using hc) this
      · have hc : isIriChar c = false := by simpa using hc
        have ne : c ≠ '>' := fun e => hb (by simp [e])
        obtain ⟨d, u, u', rfl, rfl, hu⟩ := hs
        exact .here ⟨c :: (b ++ d), u, u', by simp, by simp, hu⟩ (halt_cons hc ne) (halt_cons hc ne)

theorem iri_end {j j' : Str} (h : Relaid j j') : IriEnd j j' := by
  induction h with
  | nil => exact .here Relaid.nil.same (fun _ _ e => by cases e) (fun _ _ e => by cases e)
  | @char c s s' h1 h2 h3 ih =>
    by_cases hc : isIriChar c = true
    · exact IriEnd.cons (b := [c]) (by simpa using hc) ih
    · by_cases e : c = '>'
      · subst e; exact .inl ⟨[], s, s', rfl, rfl, by simp, h3⟩
      · have hc : isIriChar c = false := by simpa using hc
        exact .here (Relaid.char h1 h2 h3).same (halt_cons hc e) (halt_cons hc e)
  | @gap c c' w w' s s' h1 h2 h3 h4 h5 _ =>
    have key : ∀ c, IsBlank c → isIriChar c = false ∧ c ≠ '>' := by
      intro c hc
      simp only [IsBlank, List.mem_cons, List.not_mem_nil, or_false] at hc
      rcases hc with rfl | rfl | rfl | rfl <;> decide
    exact .here (Relaid.gap h1 h2 h3 h4 h5).same (halt_cons (key c h1).1 (key c h1).2) (halt_cons (key c' h2).1 (key c' h2).2)
  | @str q b s s' h1 h2 h3 h4 ih =>
    rcases h1 with rfl | rfl
    · exact .here (Relaid.str (.inl rfl) h2 h3 h4).same (halt_cons (by decide) (by decide)) (halt_cons (by decide) (by decide))
    · refine IriEnd.cons (b := ['\'']) (by decide) (iri_body (h3 rfl) (j := '\'' :: s) (j' := '\'' :: s')
        (IriEnd.cons (b := ['\'']) (by decide) ih) ?_)
      exact ⟨['\''], s, s', rfl, rfl, h4⟩

theorem iri_halt {m p : Str} (hm : ∀ c ∈ m, isIriChar c = true) (hp : Halt p) : iriRef ('<' :: (m ++ p)) = .err (.error p .Tag) := by
  have h1 : (m ++ p).takeWhile isIriChar = m ∧ (m ++ p).dropWhile isIriChar = p := by
    rw [List.takeWhile_append_of_pos hm, List.dropWhile_append_of_pos hm]
    cases p with
    | nil => simp
    | cons c t => simp [(hp c t rfl).1]
  have h2 : stripPrefix ['>'] p = none := by
    cases p with
    | nil => rfl
    | cons c t => simp [stripPrefix, (hp c t rfl).2]
  simp [iriRef, delimited, preceded, terminated, map, pair, tag, stripPrefix, takeWhile, h1, h2]

theorem iriRef_other {i : Str} (h : i.head? ≠ some '<') : iriRef i = .err (.error i .Tag) := by
  cases i with
  | nil => simp [iriRef, delimited, preceded, map, pair, tag, stripPrefix]
  | cons c t =>
    simp only [List.head?_cons, ne_eq, Option.some.injEq] at h
    exact delimited_tag_err h

instance : Lay s v iriRef where
  out i i' t := by
    have odd : ∀ c ∈ [' ', '\t', '\r', '\n', '"', '\''], c ≠ '<' := by decide
    rcases t.first with ⟨rfl, rfl⟩ | ⟨d, j, j', rfl, rfl, h1, h2⟩ | ⟨d, j, d', j', rfl, rfl, h1, h2⟩
    · rw [iriRef_other (by simp)]; exact .error t
    · by_cases hd : d = '<'
      · subst hd
        rcases iri_end h2 with ⟨m, r, r', rfl, rfl, g1, g2⟩ | ⟨m, p, p', rfl, rfl, g1, g2, g3, g4⟩
        · rw [iriRef_ok.mpr ⟨rfl, g1⟩, iriRef_ok.mpr ⟨rfl, g1⟩]
          exact .ok (m := '<' :: (m ++ ['>'])) (m' := '<' :: (m ++ ['>'])) g2 (by simp) (by simp) Iff.rfl (fun _ => rfl) (fun _ => rfl)
        · rw [iri_halt g1 g3, iri_halt g1 g4]; exact ⟨g2, rfl⟩
      · rw [iriRef_other (by simpa using hd), iriRef_other (by simpa using hd)]; exact .error t
    · rw [iriRef_other (by simpa using odd d h1), iriRef_other (by simpa using odd d' h2)]; exact .error t

/-! ## Escapes in local names -/

theorem esc_other {c : Char} {i : Str} {p : P α} (h : c ≠ '\\') : pair (tag ['\\']) p (c :: i) = .err (.error (c :: i) .Tag) :=
  pair_stop (by simp [tag, stripPrefix, h])

instance : Lay s v (pair (tag ['\\']) (recognize (oneOf pnLocalEsc))) where
  out i i' t := by
    have odd : ∀ c ∈ [' ', '\t', '\r', '\n', '"', '\''], c ≠ '\\' := by decide
    have hdr : ∀ {j : Str}, tag ['\\'] ('\\' :: j) = .ok j ['\\'] := fun {j} => by simp [tag, stripPrefix]
    rcases t.head with ⟨rfl, rfl⟩ | ⟨d, j, j', rfl, rfl, h1, h2, h3⟩ | ⟨c, w, j, c', w', j', rfl, rfl, h3, h4, h5⟩ |
      ⟨q, b, j, j', rfl, rfl, h3, h4, h5, h6⟩
    · rw [pair_stop (show tag ['\\'] [] = .err (.error [] .Tag) from rfl)]; exact .error t
    · by_cases hd : d = '\\'
      · subst hd
        have bad : ∀ {j : Str}, (∀ c t, j = c :: t → c ∉ pnLocalEsc) → recognize (oneOf pnLocalEsc) j = .err (.error j .OneOf) := by
          intro j h
          cases j with
          | nil => rfl
          | cons c t => simp [recognize, oneOf, h c t rfl]
        rcases h2.head with ⟨rfl, rfl⟩ | ⟨e, k, k', rfl, rfl, g1, g2, g3⟩ | ⟨c, w, k, c', w', k', rfl, rfl, g3, g4, g5⟩ |
          ⟨q, b, k, k', rfl, rfl, g3, g4, g5, g6⟩
        · rw [pair_stop2 hdr (bad (by simp))]; exact .error .nil
        · by_cases he : e ∈ pnLocalEsc
          · have ok : ∀ {k : Str}, recognize (oneOf pnLocalEsc) (e :: k) = .ok k [e] := fun {k} => by simp [recognize, oneOf, he]
            rw [pair_eval hdr ok, pair_eval hdr ok]
            exact .read (m := ['\\', e]) g2
          · have b1 : ∀ {k : Str}, recognize (oneOf pnLocalEsc) (e :: k) = .err (.error (e :: k) .OneOf) := fun {k} => bad (by
              intro c t e; cases e; exact he)
            rw [pair_stop2 hdr b1, pair_stop2 hdr b1]
            exact .error h2
        · have key : ∀ c, IsBlank c → c ∉ pnLocalEsc := by
            intro c hc
            simp only [IsBlank, List.mem_cons, List.not_mem_nil, or_false] at hc
            rcases hc with rfl | rfl | rfl | rfl <;> decide
          rw [pair_stop2 hdr (bad (by intro d t e; cases e; exact key c g3)), pair_stop2 hdr (bad (by intro d t e; cases e; exact key c' g4))]
          exact .error h2
        · rcases g3 with rfl | rfl
          · rw [pair_stop2 hdr (bad (by intro d t e; cases e; decide)), pair_stop2 hdr (bad (by intro d t e; cases e; decide))]
            exact .error h2
          · exact absurd rfl (h3 rfl)
      · rw [esc_other hd, esc_other hd]; exact .error t
    · have key : ∀ c, IsBlank c → c ≠ '\\' := by
        intro c hc
        simp only [IsBlank, List.mem_cons, List.not_mem_nil, or_false] at hc
        rcases hc with rfl | rfl | rfl | rfl <;> decide
      rw [esc_other (key c h3), esc_other (key c' h4)]; exact .error t
    · have : q ≠ '\\' := by rcases h3 with rfl | rfl <;> decide
      rw [esc_other this, esc_other this]; exact .error t

/-! ## Path modifiers and numbers -/

instance : Lay s v pathMod where
  out i i' t := by
    have one : ∀ {c : Char} {j : Str}, pathMod (c :: j) = if c.utf8Size ≤ 1 then
        (match PathMod.fromStr [c] with | some m => .ok j m | none => .err (.error (c :: j) .Char)) else .err .panic := by
      intro c j
      unfold pathMod
      simp only [reduceCtorEq, if_false, takeBytes, Nat.one_ne_zero]
      by_cases h : c.utf8Size ≤ 1
      · have : 1 - c.utf8Size = 0 := by have := size_pos c; omega
        rw [if_pos h, if_pos h, this, takeBytes_zero]; rfl
      · rw [if_neg h, if_neg h]
    have odd : ∀ c ∈ [' ', '\t', '\r', '\n', '"', '\''], c.utf8Size ≤ 1 ∧ PathMod.fromStr [c] = none := by decide
    rcases t.first with ⟨rfl, rfl⟩ | ⟨d, j, j', rfl, rfl, h1, h2⟩ | ⟨d, j, d', j', rfl, rfl, h1, h2⟩
    · exact rfl
    · rw [one, one]
      split
      · cases PathMod.fromStr [d] with
        | some m => exact .read (m := [d]) h2
        | none => exact .error t
      · exact rfl
    · rw [one, one, if_pos (odd d h1).1, if_pos (odd d' h2).1, (odd d h1).2, (odd d' h2).2]
      exact .error t

instance : Lay s v optSign := by unfold optSign; infer_instance
instance : Lay s v exponent := by unfold exponent; infer_instance
instance : Lay s v recognizeSparqlFloat := by unfold recognizeSparqlFloat; infer_instance

instance : Lay s v sparqlDecimal where
  out i i' t := by
    have h : Lay s true recognizeSparqlFloat := inferInstance
    have h := h.out i i' t
    revert h
    unfold sparqlDecimal
    cases recognizeSparqlFloat i with
    | ok r a => cases recognizeSparqlFloat i' with
      | ok r' a' =>
        rintro ⟨h1, h2, h3⟩
        have := h3 rfl
        subst this
        simp only
        cases parseDecimal a with
        | some b => exact ⟨h1, h2, fun _ => rfl⟩
        | none => exact .error h1
      | err e' => intro h; cases h
    | err e => cases recognizeSparqlFloat i' with
      | ok r' a' => intro h; cases e <;> cases h
      | err e' => intro h; cases e <;> cases e' <;> exact h

theorem starts_lay {i i' : Str} (h : Relaid i i') : startsDotE i = startsDotE i' := by
  have odd : ∀ c ∈ [' ', '\t', '\r', '\n', '"', '\''], ∀ j, startsDotE (c :: j) = false := by
    intro c hc j
    simp only [startsDotE]
    revert c
    decide
  rcases h.first with ⟨rfl, rfl⟩ | ⟨d, j, j', rfl, rfl, h1, h2⟩ | ⟨d, j, d', j', rfl, rfl, h1, h2⟩
  · rfl
  · rfl
  · rw [odd d h1, odd d' h2]

instance : Lay s v sparqlInt where
  out i i' t := by
    have h : Lay s true (recognize (pair optSign digit1)) := inferInstance
    have h := h.out i i' t
    revert h
    unfold sparqlInt
    cases recognize (pair optSign digit1) i with
    | ok r a => cases recognize (pair optSign digit1) i' with
      | ok r' a' =>
        rintro ⟨h1, h2, h3⟩
        have := h3 rfl
        subst this
        simp only
        rw [← starts_lay h1]
        split
        · exact .error h1
        · cases parseI64 a with
          | some b => exact ⟨h1, h2, fun _ => rfl⟩
          | none => exact .error h1
      | err e' => intro h; cases h
    | err e => cases recognize (pair optSign digit1) i' with
      | ok r' a' => intro h; cases e <;> cases h
      | err e' => intro h; cases e <;> cases e' <;> exact h

end NomSparql
