import Verif.Lemmas.Swap
import Verif.Lemmas.Accept
import Verif.Lemmas.Rendered

/-!
# Opaque strings and names: the terminals
-/

namespace NomSparql

variable {T : Swap} {s a : Bool}

instance cIriCharDec : DecidablePred CIriChar := fun c => by unfold CIriChar; infer_instance

/-- First characters that are not always punctuation or part of a word. -/
abbrev oddStart : List Char := [' ', '\t', '\r', '\n', '"', '\'', '?', '$']

/-- Characters of an IRI, read one by one. -/
theorem Swapped.plains {m : Str} (hm : ∀ c ∈ m, CIriChar c ∧ PlainChar c) (hk : ∀ c ∈ m, c = '?' ∨ c = '$' → T.Keeps) {j j' : Str} (h : Swapped T j j') : Swapped T (m ++ j) (m ++ j') := by
  induction m with
  | nil => exact h
  | cons c m ih =>
    have hc := hm c (List.mem_cons_self ..)
    refine .char hc.2 ?_ ?_ (fun e => .inl (hk c (List.mem_cons_self ..) e))
      (ih (fun d hd => hm d (List.mem_cons_of_mem _ hd)) (fun d hd => hk d (List.mem_cons_of_mem _ hd)))
    · rintro rfl; exact absurd hc.1 (by decide)
    · rintro rfl; exact absurd hc.1 (by decide)

theorem Swapped.iri_tail {m : Str} (hm : ∀ c ∈ m, CIriChar c ∧ PlainChar c) (hk : ∀ c ∈ m, c = '?' ∨ c = '$' → T.Keeps) {j j' : Str} (h : Swapped T j j') :
    Swapped T (m ++ '>' :: j) (m ++ '>' :: j') :=
  .plains hm hk (.char (by decide) (fun e => by cases e) (fun e => by cases e) (fun e => by rcases e with e | e <;> cases e) h)

/-- How such texts begin. -/
theorem Swapped.head {i i' : Str} (h : Swapped T i i') :
    (i = [] ∧ i' = []) ∨
    (∃ c s s', i = c :: s ∧ i' = c :: s' ∧ PlainChar c ∧ Swapped T s s' ∧ (c = '\\' → s.head? ∉ [some '\'', some '$', some '?']) ∧
      (c = '<' → LoneLess s ∨ ∃ m t t', s = m ++ '>' :: t ∧ s' = m ++ '>' :: t' ∧ (∀ c ∈ m, CIriChar c) ∧ Swapped T t t') ∧
      (c = '?' ∨ c = '$' → T.Keeps ∨ NoName s)) ∨
    (∃ c w s c' w' s', i = c :: (w ++ s) ∧ i' = c' :: (w' ++ s') ∧ IsBlank c ∧ IsBlank c' ∧ Ws w ∧ Ws w' ∧ Swapped T s s') ∨
    (∃ q b b' s s', i = q :: (b ++ q :: s) ∧ i' = q :: (b' ++ q :: s') ∧ (q = '"' ∨ q = '\'') ∧ StrBody q b ∧ StrBody q b' ∧
      (b = [] ↔ b' = []) ∧ T.text b b' ∧ Swapped T s s') ∨
    (∃ d n n' s s', i = d :: (n ++ s) ∧ i' = d :: (n' ++ s') ∧ (d = '?' ∨ d = '$') ∧ T.name n n' ∧ VarText n ∧ VarText n' ∧ EndsName s ∧
      EndsName s' ∧ Swapped T s s') := by
  cases h with
  | nil => exact .inl ⟨rfl, rfl⟩
  | char h1 h2 h3 h5 h4 => exact .inr (.inl ⟨_, _, _, rfl, rfl, h1, h4, h2, fun e => .inl (h3 e), h5⟩)
  | gap h1 h2 h3 h4 h5 => exact .inr (.inr (.inl ⟨_, _, _, _, _, _, rfl, rfl, h1, h2, h3, h4, h5⟩))
  | str h1 h2 h0 h3 => exact .inr (.inr (.inr (.inl ⟨_, _, _, _, _, rfl, rfl, h1, h2, h2, Iff.rfl, h0, h3⟩)))
  | text h1 h2 h3 h4 h5 =>
    exact .inr (.inr (.inr (.inl ⟨_, _, _, _, _, rfl, rfl, h1, h3.2, h4.2, by simp [h3.1, h4.1], h2, h5⟩)))
  | iri h1 h0 h2 =>
    exact .inr (.inl ⟨_, _, _, rfl, rfl, by decide, .iri_tail h1 h0 h2, fun e => (by cases e),
      fun _ => .inr ⟨_, _, _, rfl, rfl, fun c hc => (h1 c hc).1, h2⟩, fun e => (by rcases e with e | e <;> cases e)⟩)
  | var h1 h2 h3 h4 h5 h6 h7 => exact .inr (.inr (.inr (.inr ⟨_, _, _, _, _, rfl, rfl, h1, h2, h3, h4, h5, h6, h7⟩)))

theorem blank_odd {c : Char} (h : IsBlank c) : c ∈ oddStart := by
  simp only [IsBlank, oddStart, List.mem_cons, List.not_mem_nil, or_false] at h ⊢; grind

/-- First characters: both absent, both the same plain character, or both odd. -/
theorem Swapped.first {i i' : Str} (h : Swapped T i i') :
    (i = [] ∧ i' = []) ∨ (∃ c s s', i = c :: s ∧ i' = c :: s' ∧ PlainChar c ∧ Swapped T s s') ∨
    (∃ c s c' s', i = c :: s ∧ i' = c' :: s' ∧ c ∈ oddStart ∧ c' ∈ oddStart) := by
  rcases h.head with h | ⟨c, s, s', h1, h2, h3, h4, _⟩ | ⟨c, w, s, c', w', s', h1, h2, h3, h4, _⟩ | ⟨q, b, b', s, s', h1, h2, h3, _⟩ |
    ⟨d, n, n', s, s', h1, h2, h3, _⟩
  · exact .inl h
  · exact .inr (.inl ⟨c, s, s', h1, h2, h3, h4⟩)
  · exact .inr (.inr ⟨_, _, _, _, h1, h2, blank_odd h3, blank_odd h4⟩)
  · refine .inr (.inr ⟨_, _, _, _, h1, h2, ?_, ?_⟩) <;> (rcases h3 with rfl | rfl <;> decide)
  · refine .inr (.inr ⟨_, _, _, _, h1, h2, ?_, ?_⟩) <;> (rcases h3 with rfl | rfl <;> decide)

/-- White space at the front. -/
theorem Swapped.space {i i' : Str} (h : Swapped T i i') :
    ∃ w w' s s', i = w ++ s ∧ i' = w' ++ s' ∧ Ws w ∧ Ws w' ∧ (w = [] ↔ w' = []) ∧ ¬ StartsWs s ∧ ¬ StartsWs s' ∧ Swapped T s s' := by
  have none : ∀ {i i'}, Swapped T i i' → (∀ c, i.head? = some c → wsStart c = false) → (∀ c, i'.head? = some c → wsStart c = false) →
      ∃ w w' s s', i = w ++ s ∧ i' = w' ++ s' ∧ Ws w ∧ Ws w' ∧ (w = [] ↔ w' = []) ∧ ¬ StartsWs s ∧ ¬ StartsWs s' ∧ Swapped T s s' := by
    intro i i' h h1 h2
    have key : ∀ {i : Str}, (∀ c, i.head? = some c → wsStart c = false) → ¬ StartsWs i := by
      intro i h
      cases i with
      | nil => exact not_startsWs_nil
      | cons c i => exact not_startsWs_cons (h c rfl)
    exact ⟨[], [], i, i', rfl, rfl, .nil, .nil, by simp, key h1, key h2, h⟩
  induction h with
  | nil => exact none .nil (by simp) (by simp)
  | @char c s s' h1 h2 h3 h0 h4 _ =>
    exact none (.char h1 h2 h3 h0 h4) (by intro c h; cases h; exact plain_ws h1) (by intro c h; cases h; exact plain_ws h1)
  | @gap c c' w w' s s' h1 h2 h3 h4 h5 ih =>
    obtain ⟨v, v', t, t', rfl, rfl, g1, g2, _, g4, g5, g6⟩ := ih
    refine ⟨c :: (w ++ v), c' :: (w' ++ v'), t, t', by simp, by simp, ?_, ?_, by simp, g4, g5, g6⟩
    · exact Ws.cons (.char h1) (h3.append g1)
    · exact Ws.cons (.char h2) (h4.append g2)
  | @str q b s s' h1 h2 h0 h3 _ =>
    have : wsStart q = false := by rcases h1 with rfl | rfl <;> decide
    exact none (.str h1 h2 h0 h3) (by intro c h; cases h; exact this) (by intro c h; cases h; exact this)
  | @text q b b' s s' h1 h2 h3 h4 h5 _ =>
    have : wsStart q = false := by rcases h1 with rfl | rfl <;> decide
    exact none (.text h1 h2 h3 h4 h5) (by intro c h; cases h; exact this) (by intro c h; cases h; exact this)
  | @iri m s s' h1 h0 h2 _ => exact none (.iri h1 h0 h2) (by intro c h; cases h; decide) (by intro c h; cases h; decide)
  | @var d n n' s s' h1 h2 h3 h4 h5 h6 h7 _ =>
    have : wsStart d = false := by rcases h1 with rfl | rfl <;> decide
    exact none (.var h1 h2 h3 h4 h5 h6 h7) (by intro c h; cases h; exact this) (by intro c h; cases h; exact this)

/-! ## Names of variables -/

theorem varText_char {c : Char} (h : W3CVarStart c ∧ c.toNat < 0x10000) : isVarChar c = true := by
  rw [isVarChar_iff]
  obtain ⟨h | h | h, h'⟩ := h
  · exact .inl (isPnCharsBase_of_w3c h h')
  · exact .inr (.inl h)
  · exact .inr (.inr h)

/-- The first characters of names are not punctuation. -/
theorem varText_first {n : Str} (h : VarText n) : ∃ c t, n = c :: t ∧ isVarChar c = true := by
  cases n with
  | nil => exact absurd rfl h.1
  | cons c t => exact ⟨c, t, rfl, varText_char (h.2 c (List.mem_cons_self ..))⟩

theorem Mid.first {i i' : Str} (h : Mid T i i') : ∃ c t c' t', i = c :: t ∧ i' = c' :: t' ∧ isVarChar c = true ∧ isVarChar c' = true := by
  obtain ⟨n, n', s, s', rfl, rfl, h1, h2, _⟩ := h
  obtain ⟨c, t, rfl, hc⟩ := varText_first h1
  obtain ⟨c', t', rfl, hc'⟩ := varText_first h2
  exact ⟨c, _, c', _, rfl, rfl, hc, hc'⟩

theorem var_not_ws {c : Char} (h : isVarChar c = true) : wsStart c = false := by
  cases e : wsStart c with
  | false => rfl
  | true =>
    simp only [wsStart, decide_eq_true_eq, List.mem_cons, List.not_mem_nil, or_false] at e
    rcases e with rfl | rfl | rfl | rfl | rfl <;> revert h <;> decide

/-! ## White space -/

theorem sp_here {c : Char} {i : Str} (h : wsStart c = false) : sp (c :: i) = .ok (c :: i) [] :=
  sp_append (w := []) .nil (not_startsWs_cons h)

instance : Sub T false a a sp (fun _ _ => True) where
  out i i' tm t := by
    rcases t with t | ⟨ha, t⟩
    · obtain ⟨w, w', s, s', rfl, rfl, h1, h2, h3, h4, h5, h6⟩ := t.space
      rw [sp_append h1 h4, sp_append h2 h5]
      exact .ok h6.inn rfl rfl h3 (by simp) trivial
    · obtain ⟨c, j, c', j', rfl, rfl, h1, h2⟩ := t.first
      rw [sp_here (var_not_ws h1), sp_here (var_not_ws h2)]
      exact .ok (m := []) (m' := []) (.inr ⟨ha, t⟩) rfl rfl Iff.rfl (by simp) trivial

instance : Sub T false a false sp1 (fun _ _ => True) where
  out i i' tm t := by
    rcases t with t | ⟨ha, t⟩
    · rcases t.head with ⟨rfl, rfl⟩ | ⟨c, s, s', rfl, rfl, h3, h4, _⟩ | ⟨c, w, s, c', w', s', rfl, rfl, h3, h4, h5⟩ |
        ⟨q, b, b', s, s', rfl, rfl, h3, _⟩ | ⟨d, n, n', s, s', rfl, rfl, h3, _⟩
      · rw [sp1_end]; exact .error (a := false) t.inn
      · rw [sp1_odd (plain_ws h3), sp1_odd (plain_ws h3)]; exact .error (a := false) t.inn
      · obtain ⟨u, u', r, r', e, e', h1, h2, h3', h4', h5', h6⟩ := t.space
        have hu : u ≠ [] := by
          rintro rfl
          exact h4' ⟨[c], w ++ s, .char h3, by simpa using e.symm⟩
        have hu' : u' ≠ [] := fun x => hu (h3'.mpr x)
        rw [e, e', sp1_ok_iff.mpr ⟨rfl, ⟨h1, hu⟩, h4'⟩, sp1_ok_iff.mpr ⟨rfl, ⟨h2, hu'⟩, h5'⟩]
        exact .ok h6.inn rfl rfl h3' (by simp) trivial
      · have : wsStart q = false := by rcases h3 with rfl | rfl <;> decide
        rw [sp1_odd this, sp1_odd this]; exact .error (a := false) t.inn
      · have : wsStart d = false := by rcases h3 with rfl | rfl <;> decide
        rw [sp1_odd this, sp1_odd this]; exact .error (a := false) t.inn
    · obtain ⟨c, j, c', j', rfl, rfl, h1, h2⟩ := t.first
      rw [sp1_odd (var_not_ws h1), sp1_odd (var_not_ws h2)]
      exact ⟨t.same, rfl⟩

/-! ## Characters and tags -/

/-- Characters of punctuation and keywords other than `?` and `$`. -/
class Plain2 (c : Char) : Prop where
  out : PlainChar c ∧ c ∉ oddStart ∧ c.toNat < 128

macro "plain2! " cs:char* : command => do
  let is ← cs.mapM fun c => `(instance : Plain2 $c := ⟨by decide⟩)
  return ⟨Lean.mkNullNode is⟩

plain2! 'a' 'b' 'c' 'd' 'e' 'f' 'g' 'h' 'i' 'j' 'k' 'l' 'm' 'n' 'o' 'p' 'q' 'r' 's' 't' 'u' 'v' 'w' 'x' 'y' 'z' 'E'
plain2! '0' '1' '2' '3' '4' '5' '6' '7' '8' '9' '_' ':' '(' ')' '[' ']' '{' '}' '<' '>' '=' '!' '+' '-' '*' '/' '.' ',' ';' '|' '&' '^'
plain2! '@' '%'

/-- A tag of such characters. -/
class PlainTag2 (t : List Char) : Prop where
  out : ∀ c ∈ t, PlainChar c ∧ c ∉ oddStart ∧ c.toNat < 128

instance : PlainTag2 [] := ⟨by simp⟩
instance {c t} [h : Plain2 c] [h' : PlainTag2 t] : PlainTag2 (c :: t) :=
  ⟨fun d hd => by
    rcases List.mem_cons.mp hd with rfl | hd
    · exact h.out
    · exact h'.out d hd⟩

/-- Characters that names do not begin with. -/
class Punct2 (c : Char) : Prop where
  out : isVarChar c = false

macro "punct! " cs:char* : command => do
  let is ← cs.mapM fun c => `(instance : Punct2 $c := ⟨by decide⟩)
  return ⟨Lean.mkNullNode is⟩

punct! '(' ')' '/' '|' '^'

theorem odd_ne {c d : Char} (hc : c ∉ oddStart) (hd : d ∈ oddStart) : d ≠ c := fun e => hc (e ▸ hd)

instance {c : Char} [h : Plain2 c] : Sub T s false false (char c) Eq where
  out i i' tm t := by
    rcases t.out.first with ⟨rfl, rfl⟩ | ⟨d, j, j', rfl, rfl, h1, h2⟩ | ⟨d, j, d', j', rfl, rfl, h1, h2⟩
    · exact .error t
    · unfold char
      simp only
      split
      · exact .read (m := [d]) h2.inn rfl
      · exact .error t
    · unfold char
      simp only
      rw [if_neg (odd_ne h.out.2.1 h1), if_neg (odd_ne h.out.2.1 h2)]
      exact .error t

/-- At the name of a variable. -/
theorem Sub.before {p : P α} {V : α → α → Prop} {k : Kind} (h : Sub T s false false p V)
    (hm : ∀ c i, isVarChar c = true → p (c :: i) = .err (.error (c :: i) k)) : Sub T s true false p V where
  out i i' tm t := by
    rcases t with t | ⟨_, t⟩
    · exact h.out i i' tm t.inn
    · obtain ⟨c, j, c', j', rfl, rfl, h1, h2⟩ := t.first
      rw [hm c j h1, hm c' j' h2]
      exact ⟨t.same, rfl⟩

instance {c : Char} [Plain2 c] [h : Punct2 c] : Sub T s true false (char c) Eq :=
  Sub.before inferInstance (k := .Char) (fun d i hd => by
    have : d ≠ c := by rintro rfl; rw [h.out] at hd; cases hd
    simp [char, this])

theorem strip_sub {t : List Char} (h : ∀ c ∈ t, PlainChar c ∧ c ∉ oddStart) {i i' : Str} (hi : Swapped T i i') :
    (stripPrefix t i = none ∧ stripPrefix t i' = none) ∨
    ∃ r r', stripPrefix t i = some r ∧ stripPrefix t i' = some r' ∧ i = t ++ r ∧ i' = t ++ r' ∧ Swapped T r r' := by
  induction t generalizing i i' with
  | nil => exact .inr ⟨i, i', rfl, rfl, rfl, rfl, hi⟩
  | cons x t ih =>
    have hx := h x (by simp)
    rcases hi.first with ⟨rfl, rfl⟩ | ⟨d, j, j', rfl, rfl, h1, h2⟩ | ⟨d, j, d', j', rfl, rfl, h1, h2⟩
    · exact .inl ⟨rfl, rfl⟩
    · by_cases hd : d = x
      · subst hd
        rcases ih (fun c hc => h c (by simp [hc])) h2 with ⟨g1, g2⟩ | ⟨r, r', g1, g2, rfl, rfl, g3⟩
        · exact .inl (by simp [stripPrefix, g1, g2])
        · exact .inr ⟨r, r', by simp [stripPrefix, g1], by simp [stripPrefix, g2], rfl, rfl, g3⟩
      · exact .inl (by simp [stripPrefix, hd])
    · exact .inl (by simp [stripPrefix, odd_ne hx.2 h1, odd_ne hx.2 h2])

instance {t : List Char} [h : PlainTag2 t] : Sub T s false false (tag t) Eq where
  out i i' tm hi := by
    unfold tag
    rcases strip_sub (fun c hc => ⟨(h.out c hc).1, (h.out c hc).2.1⟩) hi.out with ⟨g1, g2⟩ | ⟨r, r', g1, g2, rfl, rfl, g3⟩
    · rw [g1, g2]; exact .error hi
    · rw [g1, g2]; exact .read g3.inn rfl

instance {c : Char} {t : List Char} [PlainTag2 (c :: t)] [h : Punct2 c] : Sub T s true false (tag (c :: t)) Eq :=
  Sub.before inferInstance (k := .Tag) (fun d i hd => by
    have : d ≠ c := by rintro rfl; rw [h.out] at hd; cases hd
    simp [tag, stripPrefix, this])

/-! ## Keywords -/

theorem odd_of_lower {x c : Char} (hc : c ∉ oddStart) (h : lower x = lower c) : x ∉ oddStart := by
  intro hx
  have e : lower x = x := by
    simp only [oddStart, List.mem_cons, List.not_mem_nil, or_false] at hx
    rcases hx with rfl | rfl | rfl | rfl | rfl | rfl | rfl | rfl <;> decide
  rw [e] at h
  unfold lower at h
  split at h
  · rename_i hu
    have : x.toNat = c.toNat + 32 := by rw [h, toNat_ofNat_small (by omega)]
    simp only [oddStart, List.mem_cons, List.not_mem_nil, or_false] at hx
    rcases hx with rfl | rfl | rfl | rfl | rfl | rfl | rfl | rfl <;> simp at this <;> omega
  · split at h
    · subst h; revert hx; decide
    · exact hc (h ▸ hx)

theorem overlap_sub {t : List Char} (h : ∀ c ∈ t, c ∉ oddStart) {i i' : Str} (hi : Swapped T i i') :
    overlapNoCase i t = overlapNoCase i' t := by
  induction t generalizing i i' with
  | nil => cases i <;> cases i' <;> rfl
  | cons x t ih =>
    have hx := h x (by simp)
    rcases hi.first with ⟨rfl, rfl⟩ | ⟨d, j, j', rfl, rfl, h1, h2⟩ | ⟨d, j, d', j', rfl, rfl, h1, h2⟩
    · rfl
    · simp only [overlapNoCase, ih (fun c hc => h c (by simp [hc])) h2]
    · have e : ∀ d, d ∈ oddStart → (lower d == lower x) = false := fun d hd => by
        simp only [beq_eq_false_iff_ne, ne_eq]
        exact fun e => odd_of_lower hx e hd
      simp only [overlapNoCase, e d h1, e d' h2, Bool.false_and]

/-- After a match of the first character both texts go on alike. -/
theorem overlap_next {x : Char} {t : List Char} (hx : x ∉ oddStart) {i i' : Str} (hi : Swapped T i i') (h : overlapNoCase i (x :: t) = true) :
    (i = [] ∧ i' = []) ∨ ∃ c j j', i = c :: j ∧ i' = c :: j' ∧ Swapped T j j' ∧ overlapNoCase j t = true := by
  rcases hi.first with h0 | ⟨d, j, j', rfl, rfl, h1, h2⟩ | ⟨d, j, d', j', rfl, rfl, h1, h2⟩
  · exact .inl h0
  · simp only [overlapNoCase, Bool.and_eq_true] at h
    exact .inr ⟨d, j, j', rfl, rfl, h2, h.2⟩
  · simp only [overlapNoCase, Bool.and_eq_true, beq_iff_eq] at h
    exact absurd h1 (odd_of_lower hx h.1)

theorem byteLen_sub {t : List Char} (h : ∀ c ∈ t, c ∉ oddStart) {i i' : Str} (hi : Swapped T i i') (ho : overlapNoCase i t = true) {k : Nat}
    (hk : k ≤ t.length) : k ≤ byteLen i ↔ k ≤ byteLen i' := by
  induction t generalizing i i' k with
  | nil => simp at hk; subst hk; simp
  | cons x t ih =>
    rcases overlap_next (h x (by simp)) hi ho with ⟨rfl, rfl⟩ | ⟨c, j, j', rfl, rfl, h1, h2⟩
    · exact Iff.rfl
    · have := ih (fun c hc => h c (by simp [hc])) h1 h2 (k := k - c.utf8Size) (by
        have := size_pos c
        simp only [List.length_cons] at hk
        omega)
      simp only [byteLen_cons]
      omega

theorem takeBytes_sub {t : List Char} (h : ∀ c ∈ t, c ∉ oddStart) {i i' : Str} (hi : Swapped T i i') (ho : overlapNoCase i t = true) {n : Nat}
    (hn : n ≤ t.length) : (takeBytes n i = none ∧ takeBytes n i' = none) ∨
    ∃ a r r', takeBytes n i = some (a, r) ∧ takeBytes n i' = some (a, r') ∧ i = a ++ r ∧ i' = a ++ r' ∧ Swapped T r r' := by
  induction t generalizing i i' n with
  | nil =>
    simp at hn
    subst hn
    exact .inr ⟨[], i, i', takeBytes_zero _, takeBytes_zero _, rfl, rfl, hi⟩
  | cons x t ih =>
    by_cases h0 : n = 0
    · subst h0
      exact .inr ⟨[], i, i', takeBytes_zero _, takeBytes_zero _, rfl, rfl, hi⟩
    rcases overlap_next (h x (by simp)) hi ho with ⟨rfl, rfl⟩ | ⟨c, j, j', rfl, rfl, h1, h2⟩
    · exact .inl ⟨by simp [takeBytes, h0], by simp [takeBytes, h0]⟩
    · have hp := size_pos c
      simp only [List.length_cons] at hn
      simp only [takeBytes, if_neg h0]
      split
      · rcases ih (fun c hc => h c (by simp [hc])) h1 h2 (n := n - c.utf8Size) (by omega) with ⟨g1, g2⟩ | ⟨a, r, r', g1, g2, rfl, rfl, g3⟩
        · rw [g1, g2]; exact .inl ⟨rfl, rfl⟩
        · rw [g1, g2]; exact .inr ⟨_, _, _, rfl, rfl, rfl, rfl, g3⟩
      · exact .inl ⟨rfl, rfl⟩

instance {t : List Char} [h : PlainTag2 t] : Sub T s false false (tagNoCase t) Eq where
  out i i' tm hi := by
    have hp := fun c hc => (h.out c hc).2.1
    have hl := byteLen_ascii (fun c hc => (h.out c hc).2.2)
    unfold tagNoCase
    rw [← overlap_sub hp hi.out]
    cases ho : overlapNoCase i t with
    | false => exact .error hi
    | true =>
      simp only [Bool.true_and, decide_eq_true_eq]
      have := byteLen_sub hp hi.out ho (k := byteLen t) (by omega)
      by_cases hk : byteLen t ≤ byteLen i
      · rw [if_pos hk, if_pos (this.mp hk)]
        rcases takeBytes_sub hp hi.out ho (n := byteLen t) (by omega) with ⟨g1, g2⟩ | ⟨a, r, r', g1, g2, rfl, rfl, g3⟩
        · rw [g1, g2]; exact rfl
        · rw [g1, g2]; exact .read g3.inn rfl
      · rw [if_neg hk, if_neg (fun x => hk (this.mpr x))]; exact .error hi

instance {t : List Char} [h : PlainTag2 t] : Sub T s false false (tagNoCaseStreaming t) Eq where
  out i i' tm hi := by
    have hp := fun c hc => (h.out c hc).2.1
    have hl := byteLen_ascii (fun c hc => (h.out c hc).2.2)
    unfold tagNoCaseStreaming
    rw [← overlap_sub hp hi.out]
    cases ho : overlapNoCase i t with
    | false => exact .error hi
    | true =>
      simp only [if_true]
      have := byteLen_sub hp hi.out ho (k := byteLen t) (by omega)
      by_cases hk : byteLen t ≤ byteLen i
      · rw [if_pos hk, if_pos (this.mp hk)]
        rcases takeBytes_sub hp hi.out ho (n := byteLen t) (by omega) with ⟨g1, g2⟩ | ⟨a, r, r', g1, g2, rfl, rfl, g3⟩
        · rw [g1, g2]; exact rfl
        · rw [g1, g2]; exact .read g3.inn rfl
      · rw [if_neg hk, if_neg (fun x => hk (this.mpr x))]; exact rfl

/-! ## Runs of characters of a class -/

/-- A class without white space, quotes, `?` and `$`. -/
class Stops2 (f : Char → Bool) : Prop where
  out : ∀ c ∈ oddStart, f c = false

instance : Stops2 isPnCharsBase := ⟨by decide⟩
instance : Stops2 isPnCharsU := ⟨by decide⟩
instance : Stops2 isPnChar := ⟨by decide⟩
instance : Stops2 isDigitU8 := ⟨by decide⟩
instance : Stops2 isDecDigit := ⟨by decide⟩
instance : Stops2 isAlpha := ⟨by decide⟩
instance : Stops2 isAlphanum := ⟨by decide⟩
instance : Stops2 isDot := ⟨by decide⟩
instance : Stops2 isLocalChar := ⟨by decide⟩
instance : Stops2 isVarChar := ⟨by decide⟩
instance : Stops2 isHexDigit := ⟨by decide⟩

theorem Swapped.nil_left {i : Str} (h : Swapped T [] i) : i = [] := by
  rcases h.first with ⟨_, h⟩ | ⟨d, j, j', h1, _⟩ | ⟨d, j, d', j', h1, _⟩
  · exact h
  · cases h1
  · cases h1

theorem while_sub {f : Char → Bool} [h : Stops2 f] {i i' : Str} (hi : Swapped T i i') :
    i.takeWhile f = i'.takeWhile f ∧ Swapped T (i.dropWhile f) (i'.dropWhile f) := by
  induction i generalizing i' with
  | nil => rw [hi.nil_left]; exact ⟨rfl, .nil⟩
  | cons c i ih =>
    rcases hi.first with ⟨h1, _⟩ | ⟨d, j, j', h1, rfl, h3, h4⟩ | ⟨d, j, d', j', h1, rfl, h3, h4⟩
    · cases h1
    · cases h1
      simp only [List.takeWhile_cons, List.dropWhile_cons]
      split
      · exact ⟨by rw [(ih h4).1], (ih h4).2⟩
      · exact ⟨rfl, hi⟩
    · cases h1
      simp only [List.takeWhile_cons, List.dropWhile_cons, h.out c h3, h.out d' h4]
      exact ⟨rfl, hi⟩

instance {f : Char → Bool} [Stops2 f] : Sub T s false false (takeWhile f) Eq where
  out i i' tm hi := by
    obtain ⟨h1, h2⟩ := while_sub (f := f) hi.out
    unfold takeWhile
    exact .ok h2.inn (while_split f i) (by rw [h1]; exact while_split f i') Iff.rfl (fun _ => rfl) h1

instance {k} {f : Char → Bool} [Stops2 f] : Sub T s false false (takeWhile1K k f) Eq where
  out i i' tm hi := by
    obtain ⟨h1, h2⟩ := while_sub (f := f) hi.out
    have e := while_split f i
    have e' := while_split f i'
    unfold takeWhile1K
    rw [← h1] at e' ⊢
    cases hw : List.takeWhile f i with
    | nil => exact .error hi
    | cons c cs =>
      rw [hw] at e e'
      exact .ok h2.inn e e' Iff.rfl (fun _ => rfl) rfl

instance {f : Char → Bool} [Stops2 f] : Sub T s false false (takeWhile1 f) Eq := by unfold takeWhile1; infer_instance

theorem takeN_sub {f : Char → Bool} [h : Stops2 f] {n : Nat} {i i' : Str} (hi : Swapped T i i') :
    ((i.take n).length = n ∧ (i.take n).all f = true ∧ i'.take n = i.take n ∧ Swapped T (i.drop n) (i'.drop n)) ∨
    (¬ ((i.take n).length = n ∧ (i.take n).all f = true) ∧ ¬ ((i'.take n).length = n ∧ (i'.take n).all f = true)) := by
  induction n generalizing i i' with
  | zero => exact .inl ⟨by simp, by simp, by simp, hi⟩
  | succ n ih =>
    rcases hi.first with ⟨rfl, rfl⟩ | ⟨d, j, j', rfl, rfl, h3, h4⟩ | ⟨d, j, d', j', rfl, rfl, h3, h4⟩
    · exact .inr (by simp)
    · simp only [List.take_succ_cons, List.length_cons, List.all_cons, Bool.and_eq_true, List.drop_succ_cons, Nat.add_right_cancel_iff]
      rcases ih h4 with ⟨g1, g2, g3, g4⟩ | ⟨g1, g2⟩
      · by_cases hd : f d = true
        · exact .inl ⟨g1, ⟨hd, g2⟩, by rw [g3], g4⟩
        · exact .inr ⟨fun x => hd x.2.1, fun x => hd x.2.1⟩
      · exact .inr ⟨fun x => g1 ⟨x.1, x.2.2⟩, fun x => g2 ⟨x.1, x.2.2⟩⟩
    · refine .inr ⟨?_, ?_⟩ <;> simp [h.out d h3, h.out d' h4]

instance {n} {f : Char → Bool} [Stops2 f] : Sub T s false false (takeWhileN n f) Eq where
  out i i' tm hi := by
    unfold takeWhileN
    rcases takeN_sub (f := f) (n := n) hi.out with ⟨h1, h2, h3, h4⟩ | ⟨h1, h2⟩
    · rw [if_pos ⟨h1, h2⟩, if_pos (by rw [h3]; exact ⟨h1, h2⟩)]
      exact .ok h4.inn (List.take_append_drop n i).symm (by rw [← h3]; exact (List.take_append_drop n i').symm) Iff.rfl (fun _ => rfl)
        h3.symm
    · rw [if_neg h1, if_neg h2]
      exact .error hi

instance : Sub T s false false digit1 Eq := by unfold digit1; infer_instance
instance : Sub T s false false alpha1 Eq := by unfold alpha1; infer_instance
instance : Sub T s false false alphanumeric1 Eq := by unfold alphanumeric1; infer_instance

/-! ## Strings -/

instance : Sub T false false false stringLiteral T.text where
  out i i' tm ht := by
    have t := ht.out
    rcases t.head with ⟨rfl, rfl⟩ | ⟨c, j, j', rfl, rfl, h3, h4, _⟩ | ⟨c, w, j, c', w', j', rfl, rfl, h3, h4, h5⟩ |
      ⟨q, b, b', j, j', rfl, rfl, h3, h4, h4', h5, h6, h7⟩ | ⟨d, n, n', s, s', rfl, rfl, h3, _⟩
    · rw [stringLiteral_end]; exact .error ht
    · have e1 : c ≠ '"' := h3.ne (by decide)
      have e2 : c ≠ '\'' := h3.ne (by decide)
      rw [stringLiteral_other e1 e2, stringLiteral_other e1 e2]; exact .error ht
    · have e1 : ∀ c, IsBlank c → c ≠ '"' ∧ c ≠ '\'' := by
        intro c hc
        constructor <;> (rintro rfl; revert hc; decide)
      rw [stringLiteral_other (e1 c h3).1 (e1 c h3).2, stringLiteral_other (e1 c' h4).1 (e1 c' h4).2]; exact .error ht
    · by_cases hb : b = []
      · have hb' := h5.mp hb
        subst hb; subst hb'
        simp only [List.nil_append] at t ht ⊢
        rcases h3 with rfl | rfl
        · rw [stringLiteral_dq, stringLiteral_dq]; exact ⟨⟨['"'], ['"'], j, j', rfl, rfl, .inl rfl, h7⟩, rfl⟩
        · rw [stringLiteral_sq, stringLiteral_sq]; exact .error ht
      · have hb' : b' ≠ [] := fun e => hb (h5.mpr e)
        have e : ∀ {b} j, StrBody q b → b ≠ [] → stringLiteral (q :: (b ++ q :: j)) = .ok j b := fun j h hb =>
          stringLiteral_ok.mpr ⟨q, h3.symm, rfl, h, hb⟩
        rw [e j h4 hb, e j' h4' hb']
        exact .ok (m := q :: (b ++ [q])) (m' := q :: (b' ++ [q])) h7.inn (by simp) (by simp) (by simp) (by simp) h6
    · have : d ≠ '"' ∧ d ≠ '\'' := by rcases h3 with rfl | rfl <;> decide
      rw [stringLiteral_other this.1 this.2, stringLiteral_other this.1 this.2]; exact .error ht

/-! ## IRI references -/

theorem halt_of {p : Str} (h : ∀ c, p.head? = some c → ¬ CIriChar c ∧ c ≠ '>') : Halt p := by
  rintro c t rfl
  have := h c rfl
  rw [cIri_iff] at this
  exact ⟨by simpa using this.1, this.2⟩

/-- The text before the place where an IRI cannot go on is the same in both. -/
theorem lone_same {m p j' : Str} (hm : ∀ c ∈ m, CIriChar c ∧ c ∉ ['?', '$', '\'']) (hp : ∀ c, p.head? = some c → ¬ CIriChar c ∧ c ≠ '>')
    (h : Swapped T (m ++ p) j') : ∃ p', j' = m ++ p' ∧ Swapped T p p' ∧ ∀ c, p'.head? = some c → ¬ CIriChar c ∧ c ≠ '>' := by
  induction m generalizing j' with
  | nil =>
    refine ⟨j', rfl, h, ?_⟩
    simp only [List.nil_append] at h
    rcases h.head with ⟨rfl, rfl⟩ | ⟨c, j, j', rfl, rfl, h3, h4, _⟩ | ⟨c, w, j, c', w', j', rfl, rfl, h3, h4, h5⟩ |
      ⟨q, b, b', j, j', rfl, rfl, h3, h4, h4', h5, h6, h7⟩ | ⟨d, n, n', s, s', rfl, rfl, h3, _⟩
    · simp
    · intro d hd; cases hd; exact hp c rfl
    · intro d hd; cases hd
      simp only [IsBlank, List.mem_cons, List.not_mem_nil, or_false] at h4
      rcases h4 with rfl | rfl | rfl | rfl <;> decide
    · intro d hd; cases hd; exact hp q rfl
    · intro e he; cases he; exact hp d rfl
  | cons c m ih =>
    have hc := hm c (List.mem_cons_self ..)
    rcases h.first with ⟨h1, _⟩ | ⟨d, j, j', h1, rfl, h3, h4⟩ | ⟨d, j, d', j', h1, rfl, h3, h4⟩
    · cases h1
    · injection h1 with e1 e2
      subst e1; subst e2
      obtain ⟨p', rfl, g1, g2⟩ := ih (fun d hd => hm d (List.mem_cons_of_mem _ hd)) h4
      exact ⟨p', rfl, g1, g2⟩
    · injection h1 with e1 e2
      subst e1
      exfalso
      have odd : ∀ c ∈ oddStart, CIriChar c → c ∈ ['?', '$', '\''] := by decide
      exact hc.2 (odd c h3 hc.1)

instance : Sub T s false false iriRef Eq where
  out i i' tm ht := by
    have t := ht.out
    have odd : ∀ c ∈ oddStart, c ≠ '<' := by decide
    rcases t.head with ⟨rfl, rfl⟩ | ⟨c, j, j', rfl, rfl, h3, h4, _, h5, _⟩ | ⟨c, w, j, c', w', j', rfl, rfl, h3, h4, h5⟩ |
      ⟨q, b, b', j, j', rfl, rfl, h3, h4, h4', h5, h6, h7⟩ | ⟨d, n, n', s, s', rfl, rfl, h3, _⟩
    · rw [iriRef_other (by simp)]; exact .error ht
    · by_cases hd : c = '<'
      · subst hd
        rcases h5 rfl with ⟨m, p, rfl, g1, g2⟩ | ⟨m, r, r', rfl, rfl, g1, g2⟩
        · obtain ⟨p', rfl, g3, g4⟩ := lone_same g1 g2 h4
          have g1 : ∀ c ∈ m, isIriChar c = true := fun c hc => cIri_iff.mp (g1 c hc).1
          rw [iri_halt g1 (halt_of g2), iri_halt g1 (halt_of g4)]; exact ⟨g3.same, rfl⟩
        · have g1 : ∀ c ∈ m, isIriChar c = true := fun c hc => cIri_iff.mp (g1 c hc)
          rw [iriRef_ok.mpr ⟨rfl, g1⟩, iriRef_ok.mpr ⟨rfl, g1⟩]
          exact .ok (m := '<' :: (m ++ ['>'])) (m' := '<' :: (m ++ ['>'])) g2.inn (by simp) (by simp) Iff.rfl (fun _ => rfl) rfl
      · rw [iriRef_other (by simpa using hd), iriRef_other (by simpa using hd)]; exact .error ht
    · rw [iriRef_other (by simpa using odd c (blank_odd h3)), iriRef_other (by simpa using odd c' (blank_odd h4))]; exact .error ht
    · have : q ≠ '<' := by rcases h3 with rfl | rfl <;> decide
      rw [iriRef_other (by simpa using this), iriRef_other (by simpa using this)]; exact .error ht
    · have : d ≠ '<' := by rcases h3 with rfl | rfl <;> decide
      rw [iriRef_other (by simpa using this), iriRef_other (by simpa using this)]; exact .error ht

/-! ## Escapes in local names -/

instance : Sub T s false false (pair (tag ['\\']) (recognize (oneOf pnLocalEsc))) Eq where
  out i i' tm ht := by
    have t := ht.out
    have hdr : ∀ {j : Str}, tag ['\\'] ('\\' :: j) = .ok j ['\\'] := fun {j} => by simp [tag, stripPrefix]
    rcases t.head with ⟨rfl, rfl⟩ | ⟨d, j, j', rfl, rfl, h1, h2, h3, _⟩ | ⟨c, w, j, c', w', j', rfl, rfl, h3, h4, h5⟩ |
      ⟨q, b, b', j, j', rfl, rfl, h3, _⟩ | ⟨d, n, n', s, s', rfl, rfl, h3, _⟩
    · rw [pair_stop (show tag ['\\'] [] = .err (.error [] .Tag) from rfl)]; exact .error ht
    · by_cases hd : d = '\\'
      · subst hd
        have h3 := h3 rfl
        have bad : ∀ {j : Str}, (∀ c t, j = c :: t → c ∉ pnLocalEsc) → recognize (oneOf pnLocalEsc) j = .err (.error j .OneOf) := by
          intro j h
          cases j with
          | nil => rfl
          | cons c t => simp [recognize, oneOf, h c t rfl]
        rcases h2.head with ⟨rfl, rfl⟩ | ⟨e, k, k', rfl, rfl, g1, g2, g3, _⟩ | ⟨c, w, k, c', w', k', rfl, rfl, g3, g4, g5⟩ |
          ⟨q, b, b', k, k', rfl, rfl, g3, _⟩ | ⟨d, n, n', k, k', rfl, rfl, g3, _⟩
        · rw [pair_stop2 hdr (bad (by simp))]; exact .error (a := false) Swapped.nil.inn
        · by_cases he : e ∈ pnLocalEsc
          · have ok : ∀ {k : Str}, recognize (oneOf pnLocalEsc) (e :: k) = .ok k [e] := fun {k} => by simp [recognize, oneOf, he]
            rw [pair_eval hdr ok, pair_eval hdr ok]
            exact .read (m := ['\\', e]) g2.inn rfl
          · have b1 : ∀ {k : Str}, recognize (oneOf pnLocalEsc) (e :: k) = .err (.error (e :: k) .OneOf) := fun {k} => bad (by
              intro c t e; cases e; exact he)
            rw [pair_stop2 hdr b1, pair_stop2 hdr b1]
            exact .error (a := false) h2.inn
        · have key : ∀ c, IsBlank c → c ∉ pnLocalEsc := by
            intro c hc
            simp only [IsBlank, List.mem_cons, List.not_mem_nil, or_false] at hc
            rcases hc with rfl | rfl | rfl | rfl <;> decide
          rw [pair_stop2 hdr (bad (by intro d t e; cases e; exact key c g3)), pair_stop2 hdr (bad (by intro d t e; cases e; exact key c' g4))]
          exact .error (a := false) h2.inn
        · rcases g3 with rfl | rfl
          · rw [pair_stop2 hdr (bad (by intro d t e; cases e; decide)), pair_stop2 hdr (bad (by intro d t e; cases e; decide))]
            exact .error (a := false) h2.inn
          · simp at h3
        · rcases g3 with rfl | rfl <;> simp at h3
      · rw [esc_other hd, esc_other hd]; exact .error ht
    · have key : ∀ c, IsBlank c → c ≠ '\\' := by
        intro c hc
        simp only [IsBlank, List.mem_cons, List.not_mem_nil, or_false] at hc
        rcases hc with rfl | rfl | rfl | rfl <;> decide
      rw [esc_other (key c h3), esc_other (key c' h4)]; exact .error ht
    · have : q ≠ '\\' := by rcases h3 with rfl | rfl <;> decide
      rw [esc_other this, esc_other this]; exact .error ht
    · have : d ≠ '\\' := by rcases h3 with rfl | rfl <;> decide
      rw [esc_other this, esc_other this]; exact .error ht

/-! ## Path modifiers -/

instance : Sub T false false true pathMod Eq where
  out i i' tm ht := by
    have t := ht.out
    have one : ∀ {c : Char} {j : Str}, pathMod (c :: j) = if c.utf8Size ≤ 1 then
        (match PathMod.fromStr [c] with | some m => .ok j m | none => .err (.error (c :: j) .Char)) else .err .panic := by
      intro c j
      unfold pathMod
      simp only [reduceCtorEq, if_false, takeBytes, Nat.one_ne_zero]
      by_cases h : c.utf8Size ≤ 1
      · have : 1 - c.utf8Size = 0 := by have := size_pos c; omega
        rw [if_pos h, if_pos h, this, takeBytes_zero]; rfl
      · rw [if_neg h, if_neg h]
    have odd : ∀ c ∈ [' ', '\t', '\r', '\n', '"', '\'', '$'], c.utf8Size ≤ 1 ∧ PathMod.fromStr [c] = none := by decide
    have bad : ∀ {c j c' j'}, c ∈ [' ', '\t', '\r', '\n', '"', '\'', '$'] → c' ∈ [' ', '\t', '\r', '\n', '"', '\'', '$'] →
        In T false (c :: j) (c' :: j') → SubRes T false true Eq (c :: j) (c' :: j') (pathMod (c :: j)) (pathMod (c' :: j')) := by
      intro c j c' j' h1 h2 h
      rw [one, one, if_pos (odd c h1).1, if_pos (odd c' h2).1, (odd c h1).2, (odd c' h2).2]
      exact .error h
    have blank : ∀ {c}, IsBlank c → c ∈ [' ', '\t', '\r', '\n', '"', '\'', '$'] := by
      intro c h
      simp only [IsBlank, List.mem_cons, List.not_mem_nil, or_false] at h ⊢; grind
    rcases t.head with ⟨rfl, rfl⟩ | ⟨d, j, j', rfl, rfl, h1, h2, h3, _⟩ | ⟨c, w, j, c', w', j', rfl, rfl, h3, h4, h5⟩ |
      ⟨q, b, b', j, j', rfl, rfl, h3, _⟩ | ⟨d, n, n', s, s', rfl, rfl, h3, h4, h5, h6, h7, h8, h9⟩
    · exact rfl
    · rw [one, one]
      split
      · cases PathMod.fromStr [d] with
        | some m => exact .read (m := [d]) h2.inn rfl
        | none => exact .error ht
      · exact rfl
    · exact bad (blank h3) (blank h4) ht
    · have : q ∈ [' ', '\t', '\r', '\n', '"', '\'', '$'] := by rcases h3 with rfl | rfl <;> decide
      exact bad this this ht
    · rcases h3 with rfl | rfl
      · have e : ∀ j, pathMod ('?' :: j) = .ok j .questionMark := fun j => by rw [one]; rfl
        rw [e, e]
        exact .ok (m := ['?']) (m' := ['?']) (.inr ⟨rfl, n, n', s, s', rfl, rfl, h5, h6, h4, h9⟩) rfl rfl Iff.rfl (fun _ => rfl) rfl
      · exact bad (by decide) (by decide) ht

/-! ## Variables -/

instance : Sub T s false false varName Eq := by
  unfold varName
  exact Sub.recognize (Sub.pair inferInstance inferInstance)

theorem varName_eval {n r : Str} (h : VarText n) (hr : EndsName r) : varName (n ++ r) = .ok r n := by
  refine varName_ok.mpr ⟨rfl, h.1, fun c hc => varText_char (h.2 c hc), ?_⟩
  rintro c s' rfl hc
  have := hr c rfl
  have key : ∀ c ∈ [' ', '\t', '\r', '\n', '(', ')', '{', '}', '[', ']', ',', ';', '.', '=', '!', '<', '>', '+', '-', '*', '/', '&', '|', '^',
    '?', '$', '"', '\'', '@', '\\'], isVarChar c = false := by decide
  rw [key c this] at hc
  cases hc

theorem var_other {c : Char} {i : Str} (h : c ≠ '?') (h' : c ≠ '$') : var (c :: i) = .err (.error (c :: i) .Char) := by
  unfold var
  rw [alt_skip (map_stop (preceded_stop (char_err h))), alt_last, map_stop (preceded_stop (char_err h'))]

theorem var_end : var [] = .err (.error [] .Char) := rfl

theorem var_q {i : Str} : var ('?' :: i) = (match preceded sp varName i with
    | .ok r n => .ok r (.qmark n)
    | .err (.error _ _) => .err (.error ('?' :: i) .Char)
    | .err e => .err e) := by
  have hd : map (preceded (char '$') (preceded sp varName)) Var.dollar ('?' :: i) = .err (.error ('?' :: i) .Char) :=
    map_stop (preceded_stop (char_err (by decide)))
  have e : preceded (char '?') (preceded sp varName) ('?' :: i) = preceded sp varName i := preceded_cont char_eval
  unfold var
  cases h : preceded sp varName i with
  | ok r n => exact alt_take (map_eval (e.trans h))
  | err x =>
    have h' := map_stop (f := Var.qmark) (e.trans h)
    cases x with
    | error p k => rw [alt_skip h', alt_last, hd]
    | _ => exact alt_hard h' (by simp)

theorem var_d {i : Str} : var ('$' :: i) = map (preceded sp varName) .dollar i := by
  have e : preceded (char '$') (preceded sp varName) ('$' :: i) = preceded sp varName i := preceded_cont char_eval
  unfold var
  rw [alt_skip (map_stop (preceded_stop (char_err (by decide)))), alt_last]
  unfold map
  rw [e]

theorem varChar_coded {c : Char} (h : isVarChar c = true) : CodedVarChar c := by
  rw [isVarChar_iff] at h
  exact h.imp_left codedBase_iff.mp

instance : Sub T false false false var (SwVar T) where
  out i i' tm ht := by
    have t := ht.out
    have hv : Sub T false false false (preceded sp varName) Eq := Sub.preceded inferInstance inferInstance
    have none : ∀ {c j c' j'}, c ≠ '?' → c ≠ '$' → c' ≠ '?' → c' ≠ '$' → In T false (c :: j) (c' :: j') →
        SubRes T false false (SwVar T) (c :: j) (c' :: j') (var (c :: j)) (var (c' :: j')) := by
      intro c j c' j' h1 h2 h3 h4 h
      rw [var_other h1 h2, var_other h3 h4]
      exact .error h
    have blank : ∀ {c}, IsBlank c → c ≠ '?' ∧ c ≠ '$' := by
      intro c h
      constructor <;> (rintro rfl; revert h; decide)
    rcases t.head with ⟨rfl, rfl⟩ | ⟨d, j, j', rfl, rfl, h1, h2, h3, _, h0⟩ | ⟨c, w, j, c', w', j', rfl, rfl, h3, h4, h5⟩ |
      ⟨q, b, b', j, j', rfl, rfl, h3, _⟩ | ⟨d, n, n', s, s', rfl, rfl, h3, h4, h5, h6, h7, h8, h9⟩
    · rw [var_end]; exact .error ht
    · have keep : (d = '?' ∨ d = '$') → ∀ {r a}, preceded sp varName j = .ok r a → T.name a a := by
        intro hd r a e
        rcases h0 hd with h0 | h0
        · exact h0 a
        · obtain ⟨k, w, e1, e2⟩ := preceded_ok.mp e
          obtain ⟨e3, e4, _⟩ := sp_ok_iff.mp e1
          obtain ⟨e5, e6, e7, _⟩ := varName_ok.mp e2
          cases a with
          | nil => exact absurd rfl e6
          | cons x a => exact absurd (varChar_coded (e7 x (List.mem_cons_self ..))) (h0 w x (a ++ r) (by rw [e3, e5]; rfl) e4)
      by_cases e1 : d = '?'
      · subst e1
        rw [var_q, var_q]
        rcases (hv.out j j' tm.tail h2.inn).elim with ⟨r, a, r', a', m, m', e, e', h1, h2, h3, h4, h5, h6⟩ | ⟨x, x', k, e, e', h1⟩ |
          ⟨x, x', e, e', g1, g2, h1⟩
        · rw [e, e']
          exact .ok (m := '?' :: m) (m' := '?' :: m') h1 (by rw [h2]; rfl) (by rw [h3]; rfl) (by simp) (by simp) (h6 ▸ .qmark (keep (.inl rfl) e))
        · rw [e, e']; exact .error ht
        · rw [e, e']
          cases x with
          | error p k => exact absurd rfl (g1 p k)
          | _ =>
            cases x' with
            | error p k => exact absurd rfl (g2 p k)
            | _ => exact h1 _ _ _ _ _
      · by_cases e2 : d = '$'
        · subst e2
          rw [var_d, var_d]
          unfold map
          rcases (hv.out j j' tm.tail h2.inn).elim with ⟨r, a, r', a', m, m', e, e', h1, h2, h3, h4, h5, h6⟩ | ⟨x, x', k, e, e', h1⟩ |
            ⟨x, x', e, e', g1, g2, h1⟩
          · rw [e, e']
            exact .ok (m := '$' :: m) (m' := '$' :: m') h1 (by rw [h2]; rfl) (by rw [h3]; rfl) (by simp) (by simp) (h6 ▸ .dollar (keep (.inr rfl) e))
          · rw [e, e']; exact ⟨h1, rfl⟩
          · rw [e, e']; exact h1 _ _ _ _ _
        · exact none e1 e2 e1 e2 ht
    · exact none (blank h3).1 (blank h3).2 (blank h4).1 (blank h4).2 ht
    · have : q ≠ '?' ∧ q ≠ '$' := by rcases h3 with rfl | rfl <;> decide
      exact none this.1 this.2 this.1 this.2 ht
    · have key : ∀ {n r : Str}, VarText n → EndsName r → preceded sp varName (n ++ r) = .ok r n := by
        intro n r h hr
        have e := varName_eval h hr
        obtain ⟨c, t, rfl, hc⟩ := varText_first h
        exact (preceded_cont (sp_here (i := t ++ r) (var_not_ws hc))).trans e
      rcases h3 with rfl | rfl
      · rw [var_q, var_q, key h5 h7, key h6 h8]
        exact .ok (m := '?' :: n) (m' := '?' :: n') h9.inn rfl rfl (by simp) (by simp) (.qmark h4)
      · rw [var_d, var_d, map_eval (key h5 h7), map_eval (key h6 h8)]
        exact .ok (m := '$' :: n) (m' := '$' :: n') h9.inn rfl rfl (by simp) (by simp) (.dollar h4)

/-! ## Numbers -/

instance : Sub T s false false optSign Eq := by unfold optSign; rw [← opt2_eq]; sub
instance : Sub T s false false exponent Eq := by unfold exponent; sub
instance : Sub T s false false recognizeSparqlFloat Eq := by unfold recognizeSparqlFloat; sub

instance : Sub T s false false sparqlDecimal Eq where
  out i i' tm t := by
    have h : Sub T s false false recognizeSparqlFloat Eq := inferInstance
    have h := h.out i i' tm t
    revert h
    unfold sparqlDecimal
    cases recognizeSparqlFloat i with
    | ok r a => cases recognizeSparqlFloat i' with
      | ok r' a' =>
        rintro ⟨h1, h2, h3⟩
        subst h3
        simp only
        cases parseDecimal a with
        | some b => exact ⟨h1, h2, rfl⟩
        | none => exact .error h1
      | err e' => intro h; cases h
    | err e => cases recognizeSparqlFloat i' with
      | ok r' a' => intro h; cases e <;> cases h
      | err e' => intro h; cases e <;> cases e' <;> exact h

theorem starts_sub {i i' : Str} (h : Swapped T i i') : startsDotE i = startsDotE i' := by
  have odd : ∀ c ∈ oddStart, ∀ j, startsDotE (c :: j) = false := by
    intro c hc j
    simp only [startsDotE]
    revert c
    decide
  rcases h.first with ⟨rfl, rfl⟩ | ⟨d, j, j', rfl, rfl, h1, h2⟩ | ⟨d, j, d', j', rfl, rfl, h1, h2⟩
  · rfl
  · rfl
  · rw [odd d h1, odd d' h2]

instance : Sub T s false false sparqlInt Eq where
  out i i' tm t := by
    have h : Sub T s false false (recognize (pair optSign digit1)) Eq := by sub
    have h := h.out i i' tm t
    revert h
    unfold sparqlInt
    cases recognize (pair optSign digit1) i with
    | ok r a => cases recognize (pair optSign digit1) i' with
      | ok r' a' =>
        rintro ⟨h1, h2, h3⟩
        subst h3
        simp only
        rw [← starts_sub h1.out]
        split
        · exact .error h1
        · cases parseI64 a with
          | some b => exact ⟨h1, h2, rfl⟩
          | none => exact .error h1
      | err e' => intro h; cases h
    | err e => cases recognize (pair optSign digit1) i' with
      | ok r' a' => intro h; cases e <;> cases h
      | err e' => intro h; cases e <;> cases e' <;> exact h

end NomSparql
