import Verif.Lemmas.Units

/-!
# Answers that do not depend on what follows: terminals
-/

namespace NomSparql

variable {X : Str → Prop} {a : Prop} {n d : Nat} {u : Str}

/-- What a unit can begin with that is no single character. -/
def oddChars : List Char := [' ', '\t', '\r', '\n', '#', '"', '\'', '\\', '{', '}', '/']

theorem Units.at (h : Units a n u) : (u = [] ∧ n = 0) ∨
    (∃ c s, u = c :: s ∧ c ∉ oddChars ∧ (c = '<' → a ∧ 0 < n) ∧ Units a n s) ∨
    (∃ c s, u = c :: s ∧ (c ∈ oddChars ∨ (c = '<' ∧ n = 0))) := by
  cases h with
  | nil => exact .inl ⟨rfl, rfl⟩
  | @char _ c s h1 h2 h3 =>
    by_cases hc : c = '/'
    · exact .inr (.inr ⟨_, _, rfl, .inl (by subst hc; decide)⟩)
    · refine .inr (.inl ⟨_, _, rfl, ?_, h2, h3⟩)
      simp only [OrdinaryChar, oddChars, List.mem_cons, List.not_mem_nil, or_false, not_or] at h1 ⊢
      exact ⟨h1.1, h1.2.1, h1.2.2.1, h1.2.2.2.1, h1.2.2.2.2.1, h1.2.2.2.2.2.1, h1.2.2.2.2.2.2.1, h1.2.2.2.2.2.2.2.1, h1.2.2.2.2.2.2.2.2.1,
        h1.2.2.2.2.2.2.2.2.2, hc⟩
  | @gap _ c _ _ h1 =>
    refine .inr (.inr ⟨_, _, rfl, .inl ?_⟩)
    simp only [IsBlank, oddChars, List.mem_cons, List.not_mem_nil, or_false] at h1 ⊢
    grind
  | comment => exact .inr (.inr ⟨_, _, rfl, .inl (by decide)⟩)
  | str h1 => exact .inr (.inr ⟨_, _, rfl, .inl (by rcases h1 with rfl | rfl <;> decide)⟩)
  | escape => exact .inr (.inr ⟨_, _, rfl, .inl (by decide)⟩)
  | url => exact .inr (.inr ⟨_, _, rfl, .inl (by decide)⟩)
  | iri => exact .inr (.inr ⟨_, _, rfl, .inr ⟨rfl, rfl⟩⟩)
  | «open» => exact .inr (.inr ⟨_, _, rfl, .inl (by decide)⟩)
  | close => exact .inr (.inr ⟨_, _, rfl, .inl (by decide)⟩)

theorem Fixed.read {L : Str → Prop} {u' : Str} {b : α} (m : Str) {F : Str → Res α} (h : L u') (e : ∀ x, X x → F x = .ok (u' ++ x) b) :
    Fixed X L (m ++ u') F := .inl ⟨m, u', b, rfl, h, e⟩

theorem Fixed.error {L : Str → Prop} {F : Str → Res α} (h : ∀ x, X x → ∃ p k, F x = .err (.error p k)) : Fixed X L u F := .inr (.inl h)

/-- What follows begins with no character of `f`. -/
theorem AtSemi.head {x : Str} (h : AtSemi x) : x = [] ∨ ∃ t, x = ';' :: t := h

/-! ## White space -/

theorem Units.space (h : Units a n u) (hX : n = 0 → ∀ x, X x → AtSemi x) :
    ∃ w s, u = w ++ s ∧ Ws w ∧ Units a n s ∧ ∀ x, X x → ¬ StartsWs (s ++ x) := by
  induction h with
  | nil =>
    refine ⟨[], [], rfl, .nil, .nil, fun x hx => ?_⟩
    rcases hX rfl x hx with rfl | ⟨t, rfl⟩
    · exact not_startsWs_nil
    · exact not_startsWs_cons rfl
  | @char n c s h1 h2 h3 =>
    refine ⟨[], _, rfl, .nil, .char h1 h2 h3, fun x hx => not_startsWs_cons ?_⟩
    simp only [OrdinaryChar, List.mem_cons, List.not_mem_nil, or_false, not_or] at h1
    simp [wsStart, h1]
  | @gap n c w s h1 h2 h3 ih =>
    obtain ⟨v, t, rfl, g1, g2, g3⟩ := ih hX
    exact ⟨c :: (w ++ v), t, by simp, Ws.cons (.char h1) (h2.append g1), g2, g3⟩
  | @comment n b e s h1 h2 h3 h4 ih =>
    obtain ⟨v, t, rfl, g1, g2, g3⟩ := ih hX
    refine ⟨'#' :: (b ++ [e]) ++ v, t, by simp, Ws.cons (.comment h1 ?_) g1, g2, g3⟩
    simp only [List.mem_cons, List.not_mem_nil, or_false] at h2 ⊢
    exact h2.symm
  | @str n q b s h1 h2 h3 h4 =>
    exact ⟨[], _, rfl, .nil, .str h1 h2 h3 h4, fun x hx => not_startsWs_cons (by rcases h1 with rfl | rfl <;> decide)⟩
  | escape h1 h2 => exact ⟨[], _, rfl, .nil, .escape h1 h2, fun x hx => not_startsWs_cons rfl⟩
  | url h1 h2 => exact ⟨[], _, rfl, .nil, .url h1 h2, fun x hx => not_startsWs_cons rfl⟩
  | iri h1 h2 => exact ⟨[], _, rfl, .nil, .iri h1 h2, fun x hx => not_startsWs_cons rfl⟩
  | «open» h1 => exact ⟨[], _, rfl, .nil, .open h1, fun x hx => not_startsWs_cons rfl⟩
  | close h1 => exact ⟨[], _, rfl, .nil, .close h1, fun x hx => not_startsWs_cons rfl⟩

theorem stops_of (hX : d = 0 → ∀ x, X x → AtSemi x) : n + d = 0 → ∀ x, X x → AtSemi x := fun h => hX (by omega)

instance : Loc d sp where
  out hX hu := by
    obtain ⟨w, s, rfl, h1, h2, h3⟩ := hu.space (stops_of hX)
    exact .read w h2 fun x hx => by rw [List.append_assoc]; exact sp_append h1 (h3 x hx)

theorem sp1_none {r : Str} (h : ¬ StartsWs r) : ∃ p k, sp1 r = .err (.error p k) := by
  rcases Soft.cases sp1 r with ⟨r', w, hs⟩ | h'
  · obtain ⟨rfl, ⟨g1, g2⟩, _⟩ := sp1_ok_iff.mp hs
    cases g1 with
    | nil => exact absurd rfl g2
    | cons h1 h2 => exact absurd ⟨_, _, h1, by rw [List.append_assoc]⟩ h
  · exact h'

instance : Loc d sp1 where
  out hX hu := by
    obtain ⟨w, s, rfl, h1, h2, h3⟩ := hu.space (stops_of hX)
    by_cases hw : w = []
    · subst hw
      exact .error fun x hx => sp1_none (h3 x hx)
    · exact .read w h2 fun x hx => by rw [List.append_assoc]; exact sp1_append ⟨h1, hw⟩ (h3 x hx)

/-! ## Characters and tags -/

/-- Characters of punctuation and keywords; semicolons and `<` only inside braces. -/
def SmallChar (d : Nat) (c : Char) : Prop := c ∉ oddChars ∧ c.toNat < 128 ∧ (c = ';' ∨ c = '<' → d ≠ 0)

/-- Such a character, but not `k`, which the Kelvin sign can stand for. -/
class Small (d : Nat) (c : Char) : Prop where
  out : SmallChar d c ∧ c ∉ ['k', 'K']

macro "small! " cs:char* : command => do
  let is ← cs.mapM fun c => `(instance : Small d $c := ⟨⟨by decide, by decide, by simp⟩, by decide⟩)
  return ⟨Lean.mkNullNode is⟩

small! 'a' 'b' 'c' 'd' 'e' 'f' 'g' 'h' 'i' 'j' 'l' 'm' 'n' 'o' 'p' 'q' 'r' 's' 't' 'u' 'v' 'w' 'x' 'y' 'z' 'E'
small! '0' '1' '2' '3' '4' '5' '6' '7' '8' '9' '_' ':' '(' ')' '[' ']' '>' '=' '!' '+' '-' '*' '.' ',' '|' '&' '^' '?' '$' '@' '%'

instance : Small 1 ';' := ⟨⟨by decide, by decide, by simp⟩, by decide⟩
instance : Small 1 '<' := ⟨⟨by decide, by decide, by simp⟩, by decide⟩

/-- A tag of such characters; `k` only at the end. -/
class SmallTag (d : Nat) (t : List Char) : Prop where
  out : (∀ c ∈ t, SmallChar d c) ∧ ∀ c ∈ t.dropLast, c ∉ ['k', 'K']

instance : SmallTag d [] := ⟨by simp, by simp⟩
instance : SmallTag d ['k'] := ⟨by simp [SmallChar, oddChars], by simp⟩
instance {c t} [h : Small d c] [h' : SmallTag d t] : SmallTag d (c :: t) :=
  ⟨by
    intro e he
    rcases List.mem_cons.mp he with rfl | he
    · exact h.out.1
    · exact h'.out.1 e he, by
    cases t with
    | nil => simp
    | cons b t =>
      rw [List.dropLast_cons_cons]
      intro e hk
      rcases List.mem_cons.mp hk with rfl | hk
      · exact h.out.2
      · exact h'.out.2 e hk⟩

/-- The first character of a text of units, for parsers of single characters. -/
theorem Units.small (hX : d = 0 → ∀ x, X x → AtSemi x) (hu : Units a (n + d) u) :
    (u = [] ∧ n + d = 0 ∧ ∀ x, X x → ∀ c t, x = c :: t → ¬ SmallChar d c) ∨
    (∃ c s, u = c :: s ∧ c ∉ oddChars ∧ (c = '<' → a ∧ 0 < n + d) ∧ Units a (n + d) s) ∨
    (∃ c s, u = c :: s ∧ ¬ SmallChar d c ∧ (c ∈ oddChars ∨ c = '<')) := by
  rcases hu.at with ⟨rfl, h⟩ | h | ⟨c, s, rfl, h⟩
  · refine .inl ⟨rfl, h, fun x hx c t e hc => ?_⟩
    rcases hX (by omega) x hx with rfl | ⟨t', rfl⟩
    · cases e
    · cases e; exact hc.2.2 (.inl rfl) (by omega)
  · exact .inr (.inl h)
  · refine .inr (.inr ⟨c, s, rfl, fun hc => ?_, h.imp id And.left⟩)
    rcases h with h | ⟨rfl, h⟩
    · exact hc.1 h
    · exact hc.2.2 (.inr rfl) (by omega)

theorem strip_units {t : List Char} (h : ∀ c ∈ t, SmallChar d c) (hX : d = 0 → ∀ x, X x → AtSemi x) (hu : Units a (n + d) u) :
    (∀ x, X x → stripPrefix t (u ++ x) = none) ∨ ∃ r, u = t ++ r ∧ Units a (n + d) r ∧ ∀ x, stripPrefix t (u ++ x) = some (r ++ x) := by
  induction t generalizing u with
  | nil => exact .inr ⟨u, rfl, hu, fun _ => rfl⟩
  | cons c t ih =>
    have hc := h c (by simp)
    rcases hu.small hX with ⟨rfl, _, h1⟩ | ⟨e, s, rfl, h1, _, h2⟩ | ⟨e, s, rfl, h1, _⟩
    · refine .inl fun x hx => ?_
      cases x with
      | nil => rfl
      | cons e x =>
        have : e ≠ c := fun k => h1 _ hx e x rfl (k ▸ hc)
        simp [stripPrefix, this]
    · by_cases k : e = c
      · subst k
        rcases ih (fun c hc => h c (by simp [hc])) h2 with g | ⟨r, rfl, g2, g3⟩
        · exact .inl fun x hx => by simp [stripPrefix, g x hx]
        · exact .inr ⟨r, rfl, g2, fun x => by have := g3 x; simp only [List.append_assoc] at this; simp [stripPrefix, this]⟩
      · exact .inl fun x hx => by simp [stripPrefix, k]
    · refine .inl fun x hx => ?_
      have : e ≠ c := fun k => h1 (k ▸ hc)
      simp [stripPrefix, this]

instance {t : List Char} [h : SmallTag d t] : Loc d (tag t) where
  out hX hu := by
    rcases strip_units h.out.1 hX hu with h | ⟨r, rfl, h1, h2⟩
    · exact .error fun x hx => ⟨_, .Tag, by simp only [tag, h x hx]; rfl⟩
    · exact .read (b := t) t h1 fun x hx => by simp only [tag, h2]

theorem char_tag {c : Char} {i : Str} : (∃ r, char c i = .ok r c ∧ i = c :: r) ∨ (∃ p k, char c i = .err (.error p k)) ∧ i.head? ≠ some c := by
  cases i with
  | nil => exact .inr ⟨⟨_, _, rfl⟩, by simp⟩
  | cons e i =>
    by_cases h : e = c
    · subst h; exact .inl ⟨i, by simp [char], rfl⟩
    · exact .inr ⟨⟨e :: i, .Char, by simp [char, h]⟩, by simpa using h⟩

instance {c : Char} [h : Small d c] : Loc d (char c) where
  out {X a n u} hX hu := by
    rcases hu.small hX with ⟨rfl, _, h1⟩ | ⟨e, s, rfl, h1, _, h2⟩ | ⟨e, s, rfl, h1, _⟩
    · refine .error fun x hx => ?_
      rcases char_tag (c := c) (i := [] ++ x) with ⟨r, _, e⟩ | ⟨h, _⟩
      · exact absurd h.out.1 (h1 x hx c r e)
      · exact h
    · by_cases k : e = c
      · subst k
        exact .read (b := e) [e] h2 fun x hx => by simp [char]
      · exact .error fun x hx => ⟨_, .Char, by simp [char, k]; rfl⟩
    · have k : e ≠ c := fun k => h1 (k ▸ h.out.1)
      exact .error fun x hx => ⟨_, .Char, by simp [char, k]; rfl⟩

/-! ## Keywords -/

theorem small_of_lower {x c : Char} (hc : SmallChar d c) (h : lower x = lower c) : x ∉ oddChars ∧ (x = ';' ∨ x = '<' → d ≠ 0) := by
  have key : x ∈ oddChars ∨ x = ';' ∨ x = '<' → x = c := by
    intro hx
    have e : lower x = x := by
      simp only [oddChars, List.mem_cons, List.not_mem_nil, or_false] at hx
      rcases hx with (rfl | rfl | rfl | rfl | rfl | rfl | rfl | rfl | rfl | rfl | rfl) | rfl | rfl <;> decide
    rw [e] at h
    unfold lower at h
    split at h
    · rename_i hu
      have : x.toNat = c.toNat + 32 := by rw [h, toNat_ofNat_small (by omega)]
      simp only [oddChars, List.mem_cons, List.not_mem_nil, or_false] at hx
      rcases hx with (rfl | rfl | rfl | rfl | rfl | rfl | rfl | rfl | rfl | rfl | rfl) | rfl | rfl <;> simp at this <;> omega
    · split at h
      · have := hc.2.1; omega
      · exact h
  exact ⟨fun hx => hc.1 (key (.inl hx) ▸ hx), fun hx => hc.2.2 (by rw [← key (.inr hx)]; exact hx)⟩

/-- A character that matches an ASCII one other than `k` is ASCII. -/
theorem ascii_of_lower {x c : Char} (hc : c.toNat < 128) (hk : c ∉ ['k', 'K']) (h : lower x = lower c) : x.utf8Size = 1 := by
  refine utf8Size_ascii ?_
  simp only [List.mem_cons, List.not_mem_nil, or_false, not_or] at hk
  have hK : c.toNat ≠ 75 := fun e => hk.2 (Char.toNat_inj.mp e)
  have hs : 0x41 ≤ c.toNat ∧ c.toNat ≤ 0x5A → (Char.ofNat (c.toNat + 32)).toNat = c.toNat + 32 := fun _ => toNat_ofNat_small (by omega)
  unfold lower at h
  split at h
  · omega
  · split at h
    · exfalso
      split at h
      · rename_i h1
        have := congrArg Char.toNat h
        rw [hs h1] at this
        have e : ('k' : Char).toNat = 107 := rfl
        omega
      · split at h
        · omega
        · exact hk.1 h.symm
    · split at h
      · rename_i h1
        rw [h, hs h1]; omega
      · split at h
        · omega
        · rw [h]; exact hc

/-- A text of units against a keyword: a mismatch, a match, or too short. -/
theorem overlap_units {t : List Char} (h : ∀ c ∈ t, SmallChar d c) (hX : d = 0 → ∀ x, X x → AtSemi x) (hu : Units a (n + d) u) :
    (∀ x, X x → overlapNoCase (u ++ x) t = false) ∨
    (∃ m r, u = m ++ r ∧ m.map lower = t.map lower ∧ ∀ m1 m2, m = m1 ++ m2 → Units a (n + d) (m2 ++ r)) ∨
    (n + d = 0 ∧ ∃ t1 t2, t = t1 ++ t2 ∧ t2 ≠ [] ∧ u.map lower = t1.map lower ∧ ∀ x, X x → x ≠ [] → overlapNoCase (u ++ x) t = false) := by
  induction t generalizing u with
  | nil => exact .inr (.inl ⟨[], u, rfl, rfl, fun m1 m2 e => by cases m1 <;> cases m2 <;> cases e; exact hu⟩)
  | cons c t ih =>
    have hc := h c (by simp)
    have low : ∀ {e}, e ∈ oddChars ∨ ((e = ';' ∨ e = '<') ∧ d = 0) → (lower e == lower c) = false := by
      intro e he
      simp only [beq_eq_false_iff_ne, ne_eq]
      intro k
      obtain ⟨g1, g2⟩ := small_of_lower hc k
      rcases he with he | ⟨he, h0⟩
      · exact g1 he
      · exact g2 he h0
    rcases hu.at with ⟨rfl, h0⟩ | ⟨e, s, rfl, h1, _, h2⟩ | ⟨e, s, rfl, h1⟩
    · refine .inr (.inr ⟨h0, [], c :: t, rfl, by simp, rfl, fun x hx hne => ?_⟩)
      rcases hX (by omega) x hx with rfl | ⟨t', rfl⟩
      · exact absurd rfl hne
      · simp [overlapNoCase, low (.inr ⟨.inl rfl, by omega⟩)]
    · by_cases k : lower e = lower c
      · rcases ih (fun c hc => h c (by simp [hc])) h2 with g | ⟨m, r, rfl, g1, g2⟩ | ⟨h0, t1, t2, rfl, g1, g2, g3⟩
        · exact .inl fun x hx => by simp [overlapNoCase, g x hx]
        · refine .inr (.inl ⟨e :: m, r, rfl, by simp [k, g1], fun m1 m2 eq => ?_⟩)
          cases m1 with
          | nil => simp only [List.nil_append] at eq; subst eq; exact hu
          | cons b m1 => cases eq; exact g2 m1 m2 rfl
        · exact .inr (.inr ⟨h0, c :: t1, t2, rfl, g1, by simp [k, g2], fun x hx hne => by simp [overlapNoCase, g3 x hx hne]⟩)
      · exact .inl fun x hx => by simp [overlapNoCase, k]
    · refine .inl fun x hx => ?_
      have := low (e := e) (h1.imp id fun h => ⟨.inr h.1, by omega⟩)
      simp [overlapNoCase, this]

theorem overlap_of_map {m t : List Char} (h : m.map lower = t.map lower) (y : Str) : overlapNoCase (m ++ y) t = true := by
  induction m generalizing t with
  | nil =>
    cases t with
    | nil => cases y <;> rfl
    | cons => cases h
  | cons c m ih =>
    cases t with
    | nil => cases h
    | cons e t =>
      simp only [List.map_cons, List.cons.injEq] at h
      simp [overlapNoCase, h.1, ih h.2]

theorem length_le_byteLen (m : Str) : m.length ≤ byteLen m := by
  induction m with
  | nil => exact Nat.zero_le _
  | cons c m ih => rw [byteLen_cons]; have := size_pos c; simp only [List.length_cons]; omega

theorem byteLen_append (m y : Str) : byteLen (m ++ y) = byteLen m + byteLen y := by
  induction m with
  | nil => simp [byteLen]
  | cons c m ih => rw [List.cons_append, byteLen_cons, byteLen_cons, ih]; omega

theorem takeBytes_within {k : Nat} {m : Str} (h : k ≤ byteLen m) :
    (∀ y, takeBytes k (m ++ y) = none) ∨ ∃ m1 m2, m = m1 ++ m2 ∧ ∀ y, takeBytes k (m ++ y) = some (m1, m2 ++ y) := by
  induction m generalizing k with
  | nil =>
    simp [byteLen] at h
    subst h
    exact .inr ⟨[], [], rfl, fun y => takeBytes_zero _⟩
  | cons c m ih =>
    by_cases h0 : k = 0
    · subst h0
      exact .inr ⟨[], c :: m, rfl, fun y => takeBytes_zero _⟩
    rw [byteLen_cons] at h
    by_cases hc : c.utf8Size ≤ k
    · rcases ih (k := k - c.utf8Size) (by omega) with g | ⟨m1, m2, rfl, g⟩
      · exact .inl fun y => by simp [takeBytes, h0, hc, g]
      · refine .inr ⟨c :: m1, m2, rfl, fun y => ?_⟩
        have := g y
        simp only [List.append_assoc] at this
        simp [takeBytes, h0, hc, this]
    · exact .inl fun y => by simp [takeBytes, h0, hc]

instance {t : List Char} [h : SmallTag d t] : Loc d (tagNoCase t) where
  out {X a n u} hX hu := by
    have hl := byteLen_ascii (fun c hc => (h.out.1 c hc).2.1)
    rcases overlap_units h.out.1 hX hu with g | ⟨m, r, rfl, g1, g2⟩ | ⟨h0, t1, t2, ht, g2, g1, g3⟩
    · exact .error fun x hx => ⟨u ++ x, .Tag, by simp [tagNoCase, g x hx]⟩
    · have hlen : m.length = t.length := by simpa using congrArg List.length g1
      have hb : byteLen t ≤ byteLen m := by rw [hl, ← hlen]; exact length_le_byteLen m
      have hc : ∀ x, (overlapNoCase (m ++ r ++ x) t && decide (byteLen t ≤ byteLen (m ++ r ++ x))) = true := fun x => by
        rw [List.append_assoc, overlap_of_map g1, byteLen_append]
        simp only [Bool.true_and, decide_eq_true_eq]; omega
      rcases takeBytes_within hb with g | ⟨m1, m2, rfl, g⟩
      · refine .inr (.inr fun x hx => ⟨.panic, ?_, by simp⟩)
        have := g (r ++ x)
        simp only [tagNoCase, hc x, if_true]
        rw [List.append_assoc, this]
      · rw [List.append_assoc]
        refine .read (b := m1) m1 (g2 m1 m2 rfl) fun x hx => ?_
        have e := hc x
        have := g (r ++ x)
        rw [← List.append_assoc m1 m2 r]
        simp only [tagNoCase, e, if_true]
        rw [List.append_assoc, this, List.append_assoc]
    · refine .error fun x hx => ⟨u ++ x, .Tag, ?_⟩
      have : (overlapNoCase (u ++ x) t && decide (byteLen t ≤ byteLen (u ++ x))) = false := by
        by_cases hx0 : x = []
        · subst hx0
          have hk : ∀ c ∈ t1, c ∉ ['k', 'K'] := fun c hc => h.out.2 c (by
            rw [ht, List.dropLast_append_of_ne_nil g2]; exact List.mem_append_left _ hc)
          have hs : ∀ c ∈ t1, c.toNat < 128 := fun c hc => (h.out.1 c (by rw [ht]; exact List.mem_append_left _ hc)).2.1
          have hbu : byteLen u = t1.length := by
            clear ht g3 hu
            induction t1 generalizing u with
            | nil =>
              simp only [List.map_nil, List.map_eq_nil_iff] at g1
              subst g1; rfl
            | cons c t1 ih =>
              cases u with
              | nil => cases g1
              | cons e u =>
                simp only [List.map_cons, List.cons.injEq] at g1
                rw [byteLen_cons, ascii_of_lower (hs c (by simp)) (hk c (by simp)) g1.1,
                  ih g1.2 (fun c hc => hk c (by simp [hc])) (fun c hc => hs c (by simp [hc]))]
                simp only [List.length_cons]; omega
          have := List.length_pos_iff.mpr g2
          have hlt : t.length = t1.length + t2.length := by rw [ht, List.length_append]
          rw [List.append_nil, hbu, hl, Bool.and_eq_false_iff, decide_eq_false_iff_not]
          exact .inr (by omega)
        · simp [g3 x hx hx0]
      simp [tagNoCase, this]

instance {t : List Char} [h : SmallTag 1 t] : Loc 1 (tagNoCaseStreaming t) where
  out {X a n u} hX hu := by
    have hl := byteLen_ascii (fun c hc => (h.out.1 c hc).2.1)
    rcases overlap_units h.out.1 hX hu with g | ⟨m, r, rfl, g1, g2⟩ | ⟨h0, _⟩
    · exact .error fun x hx => ⟨u ++ x, .Tag, by simp [tagNoCaseStreaming, g x hx]⟩
    · have hlen : m.length = t.length := by simpa using congrArg List.length g1
      have hb : byteLen t ≤ byteLen m := by rw [hl, ← hlen]; exact length_le_byteLen m
      have ho : ∀ x, overlapNoCase (m ++ r ++ x) t = true := fun x => by
        rw [List.append_assoc, overlap_of_map g1]
      have hc : ∀ x, byteLen t ≤ byteLen (m ++ r ++ x) := fun x => by
        rw [List.append_assoc, byteLen_append]; omega
      rcases takeBytes_within hb with g | ⟨m1, m2, rfl, g⟩
      · refine .inr (.inr fun x hx => ⟨.panic, ?_, by simp⟩)
        have := g (r ++ x)
        simp only [tagNoCaseStreaming, ho x, if_true, if_pos (hc x)]
        rw [List.append_assoc, this]
      · rw [List.append_assoc]
        refine .read (b := m1) m1 (g2 m1 m2 rfl) fun x hx => ?_
        have e := ho x
        have e' := hc x
        have := g (r ++ x)
        rw [← List.append_assoc m1 m2 r]
        simp only [tagNoCaseStreaming, e, if_true, if_pos e']
        rw [List.append_assoc, this, List.append_assoc]
    · omega

/-! ## Runs of characters of a class -/

/-- A class without white space, quotes, braces, slashes, `#`, `<`, backslashes and semicolons. -/
class Halts (f : Char → Bool) : Prop where
  out : ∀ c ∈ oddChars ++ [';', '<'], f c = false

instance : Halts isPnCharsBase := ⟨by decide⟩
instance : Halts isPnCharsU := ⟨by decide⟩
instance : Halts isPnChar := ⟨by decide⟩
instance : Halts isDigitU8 := ⟨by decide⟩
instance : Halts isDecDigit := ⟨by decide⟩
instance : Halts isAlpha := ⟨by decide⟩
instance : Halts isAlphanum := ⟨by decide⟩
instance : Halts isDot := ⟨by decide⟩
instance : Halts isLocalChar := ⟨by decide⟩
instance : Halts isVarChar := ⟨by decide⟩
instance : Halts isHexDigit := ⟨by decide⟩

/-- The first character for a class. -/
theorem Units.halts {f : Char → Bool} [h : Halts f] (hX : d = 0 → ∀ x, X x → AtSemi x) (hu : Units a (n + d) u) :
    (u = [] ∧ ∀ x, X x → ∀ c t, x = c :: t → f c = false) ∨ (∃ c s, u = c :: s ∧ Units a (n + d) s) ∨
    (∃ c s, u = c :: s ∧ f c = false) := by
  rcases hu.at with ⟨rfl, h0⟩ | ⟨c, s, rfl, _, _, h1⟩ | ⟨c, s, rfl, h1⟩
  · refine .inl ⟨rfl, fun x hx c t e => ?_⟩
    rcases hX (by omega) x hx with rfl | ⟨t', rfl⟩
    · cases e
    · cases e; exact h.out _ (by decide)
  · exact .inr (.inl ⟨c, s, rfl, h1⟩)
  · refine .inr (.inr ⟨c, s, rfl, h.out c ?_⟩)
    rcases h1 with h1 | ⟨rfl, _⟩
    · exact List.mem_append_left _ h1
    · decide

theorem while_units {f : Char → Bool} [h : Halts f] (hX : d = 0 → ∀ x, X x → AtSemi x) (hu : Units a (n + d) u) :
    ∃ m s, u = m ++ s ∧ Units a (n + d) s ∧ ∀ x, X x → (u ++ x).takeWhile f = m ∧ (u ++ x).dropWhile f = s ++ x := by
  induction u with
  | nil =>
    rcases hu.halts (f := f) hX with ⟨_, h⟩ | ⟨_, _, e, _⟩ | ⟨_, _, e, _⟩
    · refine ⟨[], [], rfl, hu, fun x hx => ?_⟩
      cases x with
      | nil => exact ⟨rfl, rfl⟩
      | cons c x => simp [h _ hx c x rfl]
    · cases e
    · cases e
  | cons c u ih =>
    by_cases hc : f c = true
    · rcases hu.halts (f := f) hX with ⟨e, _⟩ | ⟨_, _, e, h1⟩ | ⟨_, _, e, h1⟩
      · cases e
      · cases e
        obtain ⟨m, s, rfl, g1, g2⟩ := ih h1
        refine ⟨c :: m, s, rfl, g1, fun x hx => ?_⟩
        have := g2 x hx
        simp only [List.append_assoc] at this
        simp [hc, this]
      · cases e; rw [hc] at h1; cases h1
    · exact ⟨[], c :: u, rfl, hu, fun x hx => by simp [hc]⟩

instance {f : Char → Bool} [Halts f] : Loc d (takeWhile f) where
  out hX hu := by
    obtain ⟨m, s, rfl, h1, h2⟩ := while_units (f := f) hX hu
    exact .read (b := m) m h1 fun x hx => by simp only [takeWhile, h2 x hx]

instance {k} {f : Char → Bool} [Halts f] : Loc d (takeWhile1K k f) where
  out hX hu := by
    obtain ⟨m, s, rfl, h1, h2⟩ := while_units (f := f) hX hu
    cases m with
    | nil => exact .error fun x hx => ⟨[] ++ s ++ x, k, by simp only [takeWhile1K, h2 x hx]⟩
    | cons c m => exact .read (b := c :: m) (c :: m) h1 fun x hx => by simp only [takeWhile1K, h2 x hx]

instance {f : Char → Bool} [Halts f] : Loc d (takeWhile1 f) := by unfold takeWhile1; infer_instance

theorem takeN_units {f : Char → Bool} [h : Halts f] {k : Nat} (hX : d = 0 → ∀ x, X x → AtSemi x) (hu : Units a (n + d) u) :
    (∀ x, X x → ¬ (((u ++ x).take k).length = k ∧ ((u ++ x).take k).all f = true)) ∨
    ∃ m s, u = m ++ s ∧ Units a (n + d) s ∧ m.length = k ∧ m.all f = true := by
  induction k generalizing u with
  | zero => exact .inr ⟨[], u, rfl, hu, rfl, rfl⟩
  | succ k ih =>
    rcases hu.halts (f := f) hX with ⟨rfl, h⟩ | ⟨c, s, rfl, h1⟩ | ⟨c, s, rfl, h1⟩
    · refine .inl fun x hx => ?_
      cases x with
      | nil => simp
      | cons c x => simp [h _ hx c x rfl]
    · by_cases hc : f c = true
      · rcases ih h1 with g | ⟨m, s, rfl, g1, g2, g3⟩
        · refine .inl fun x hx => ?_
          have := g x hx
          simp only [List.cons_append, List.take_succ_cons, List.length_cons, List.all_cons, hc, Bool.true_and]
          exact fun e => this ⟨by omega, e.2⟩
        · exact .inr ⟨c :: m, s, rfl, g1, by simp [g2], by simp [hc, g3]⟩
      · exact .inl fun x hx => by simp [hc]
    · exact .inl fun x hx => by simp [h1]

instance {k} {f : Char → Bool} [Halts f] : Loc d (takeWhileN k f) where
  out {X a n u} hX hu := by
    rcases takeN_units (f := f) (k := k) hX hu with g | ⟨m, s, rfl, g1, rfl, g3⟩
    · exact .error fun x hx => ⟨_, _, by simp only [takeWhileN, if_neg (g x hx)]; rfl⟩
    · refine .read (b := m) m g1 fun x hx => ?_
      have e1 : (m ++ s ++ x).take m.length = m := by simp
      have e2 : (m ++ s ++ x).drop m.length = s ++ x := by simp
      simp only [takeWhileN, e1, e2, g3, and_self, if_true]

instance : Loc d digit1 := by unfold digit1; infer_instance
instance : Loc d alpha1 := by unfold alpha1; infer_instance
instance : Loc d alphanumeric1 := by unfold alphanumeric1; infer_instance

/-! ## Strings -/

instance : Loc d stringLiteral where
  out {X a n u} hX hu := by
    have other : ∀ {c t}, c ≠ '"' → c ≠ '\'' → ∃ p k, stringLiteral (c :: t) = .err (.error p k) :=
      fun h1 h2 => ⟨_, _, stringLiteral_other h1 h2⟩
    generalize hk : n + d = k at hu ⊢
    have hX : k = 0 → ∀ x, X x → AtSemi x := fun h => hX (by omega)
    cases hu with
    | nil =>
      refine .error fun x hx => ?_
      rcases hX rfl x hx with rfl | ⟨t, rfl⟩
      · exact ⟨_, _, stringLiteral_end⟩
      · exact other (by decide) (by decide)
    | char h1 =>
      refine .error fun x hx => other ?_ ?_ <;> (rintro rfl; revert h1; decide)
    | gap h1 =>
      refine .error fun x hx => other ?_ ?_ <;> (rintro rfl; revert h1; decide)
    | comment => exact .error fun x hx => other (by decide) (by decide)
    | @str _ q b s h1 h2 h3 h4 =>
      by_cases hb : b = []
      · subst hb
        refine .error fun x hx => ?_
        rcases h1 with rfl | rfl
        · exact ⟨_, _, stringLiteral_dq⟩
        · exact ⟨_, _, stringLiteral_sq⟩
      · rw [show q :: (b ++ q :: s) = q :: (b ++ [q]) ++ s by simp]
        exact .read (b := b) _ h4 fun x hx => stringLiteral_ok.mpr ⟨q, h1.symm, by simp, h2, hb⟩
    | escape => exact .error fun x hx => other (by decide) (by decide)
    | url => exact .error fun x hx => other (by decide) (by decide)
    | iri => exact .error fun x hx => other (by decide) (by decide)
    | «open» => exact .error fun x hx => other (by decide) (by decide)
    | close => exact .error fun x hx => other (by decide) (by decide)

/-! ## IRI references -/

theorem UnitIriChar.iri {c : Char} (h : UnitIriChar c) : isIriChar c = true := by
  refine isIriChar_iff.mpr ⟨?_, h.2⟩
  have := h.1
  simp only [iriStops, List.mem_cons, List.not_mem_nil, or_false, not_or] at this ⊢
  grind

/-- The text after `<`: an IRI, or characters of IRIs up to a place where none can go on. -/
def IriStop (L : Str → Prop) (s : Str) : Prop :=
  (∃ m r, s = m ++ '>' :: r ∧ (∀ c ∈ m, isIriChar c = true) ∧ L r) ∨
  (∃ m c t, s = m ++ c :: t ∧ (∀ c ∈ m, isIriChar c = true) ∧ isIriChar c = false ∧ c ≠ '>')

theorem IriStop.cons {L : Str → Prop} {b s : Str} (hb : ∀ c ∈ b, isIriChar c = true) (h : IriStop L s) : IriStop L (b ++ s) := by
  have key : ∀ m : Str, (∀ c ∈ m, isIriChar c = true) → ∀ c ∈ b ++ m, isIriChar c = true := by
    intro m hm c hc
    rcases List.mem_append.mp hc with hc | hc
    · exact hb c hc
    · exact hm c hc
  rcases h with ⟨m, r, rfl, h1, h2⟩ | ⟨m, c, t, rfl, h1, h2⟩
  · exact .inl ⟨b ++ m, r, by simp, key m h1, h2⟩
  · exact .inr ⟨b ++ m, c, t, by simp, key m h1, h2⟩

theorem IriStop.here {L : Str → Prop} {c : Char} {t : Str} (h : isIriChar c = false) (h' : c ≠ '>') : IriStop L (c :: t) :=
  .inr ⟨[], c, t, rfl, by simp, h, h'⟩

/-- Text without `>` before such a place. -/
theorem IriStop.body {L : Str → Prop} {b s : Str} (hb : '>' ∉ b) (h : IriStop L s) : IriStop L (b ++ s) := by
  induction b with
  | nil => exact h
  | cons c b ih =>
    by_cases hc : isIriChar c = true
    · exact IriStop.cons (b := [c]) (by simpa using hc) (ih fun h => hb (by simp [h]))
    · exact .here (by simpa using hc) (fun e => hb (by simp [e]))

theorem blank_iri {c : Char} (hc : IsBlank c) : isIriChar c = false ∧ c ≠ '>' := by
  simp only [IsBlank, List.mem_cons, List.not_mem_nil, or_false] at hc
  rcases hc with rfl | rfl | rfl | rfl <;> decide

theorem Units.iriStop (ha : a) (hn : 0 < n) (hu : Units a n u) : IriStop (Units a n) u := by
  induction hu with
  | nil => omega
  | @char n c s h1 h2 h3 ih =>
    by_cases hc : isIriChar c = true
    · exact IriStop.cons (b := [c]) (by simpa using hc) (ih hn)
    · by_cases e : c = '>'
      · subst e; exact .inl ⟨[], s, rfl, by simp, h3⟩
      · exact .here (by simpa using hc) e
  | gap h1 => exact .here (blank_iri h1).1 (blank_iri h1).2
  | @comment n b e s h1 h2 h3 h4 ih =>
    refine IriStop.cons (b := ['#']) (by decide) (.body (h3 ha) ?_)
    have : isIriChar e = false ∧ e ≠ '>' := by
      simp only [List.mem_cons, List.not_mem_nil, or_false] at h2
      rcases h2 with rfl | rfl <;> decide
    exact .here this.1 this.2
  | @str n q b s h1 h2 h3 h4 ih =>
    rcases h1 with rfl | rfl
    · exact .here (by decide) (by decide)
    · refine IriStop.cons (b := ['\'']) (by decide) (.body (h3 ha rfl) ?_)
      exact IriStop.cons (b := ['\'']) (by decide) (ih hn)
  | escape => exact .here (by decide) (by decide)
  | @url n b s h1 h2 _ =>
    refine .inl ⟨'/' :: '/' :: b, s, by simp, ?_, h2⟩
    intro c hc
    simp only [List.mem_cons] at hc
    rcases hc with rfl | rfl | hc
    · decide
    · decide
    · exact (h1 c hc).iri
  | iri => omega
  | «open» => exact .here (by decide) (by decide)
  | close => exact .here (by decide) (by decide)

instance : Loc d iriRef where
  out {X a n u} hX hu := by
    have other : ∀ {i : Str}, i.head? ≠ some '<' → ∃ p k, iriRef i = .err (.error p k) := fun h => ⟨_, _, iriRef_other h⟩
    generalize hk : n + d = k at hu ⊢
    have hX : k = 0 → ∀ x, X x → AtSemi x := fun h => hX (by omega)
    cases hu with
    | nil =>
      refine .error fun x hx => other ?_
      rcases hX rfl x hx with rfl | ⟨t, rfl⟩ <;> simp
    | @char _ c s h1 h2 h3 =>
      by_cases hc : c = '<'
      · subst hc
        obtain ⟨ha, hn⟩ := h2 rfl
        rcases h3.iriStop ha hn with ⟨m, r, rfl, g1, g2⟩ | ⟨m, c, t, rfl, g1, g2, g3⟩
        · rw [show '<' :: (m ++ '>' :: r) = '<' :: (m ++ ['>']) ++ r by simp]
          exact .read (b := m) _ g2 fun x hx => iriRef_ok.mpr ⟨by simp, g1⟩
        · refine .error fun x hx => ⟨c :: t ++ x, .Tag, ?_⟩
          have := iri_halt (m := m) (p := c :: t ++ x) g1 (halt_cons g2 g3)
          simpa using this
      · exact .error fun x hx => other (by simpa using hc)
    | gap h1 =>
      refine .error fun x hx => other ?_
      simp only [List.cons_append, List.head?_cons, ne_eq, Option.some.injEq]
      rintro rfl; revert h1; decide
    | comment => exact .error fun x hx => other (by simp)
    | str h1 => exact .error fun x hx => other (by rcases h1 with rfl | rfl <;> simp)
    | escape => exact .error fun x hx => other (by simp)
    | url => exact .error fun x hx => other (by simp)
    | @iri b s h1 h2 =>
      rw [show '<' :: (b ++ '>' :: s) = '<' :: (b ++ ['>']) ++ s by simp]
      exact .read (b := b) _ h2 fun x hx => iriRef_ok.mpr ⟨by simp, fun c hc => (h1 c hc).iri⟩
    | «open» => exact .error fun x hx => other (by simp)
    | close => exact .error fun x hx => other (by simp)

/-! ## Escapes in local names -/

instance : Loc d (pair (tag ['\\']) (recognize (oneOf pnLocalEsc))) where
  out {X a n u} hX hu := by
    have other : ∀ {i : Str}, i.head? ≠ some '\\' → ∃ p k, pair (tag ['\\']) (recognize (oneOf pnLocalEsc)) i = .err (.error p k) := by
      intro i h
      cases i with
      | nil => exact ⟨[], .Tag, pair_stop rfl⟩
      | cons c t => exact ⟨_, _, esc_other (by simpa using h)⟩
    generalize hk : n + d = k at hu ⊢
    have hX : k = 0 → ∀ x, X x → AtSemi x := fun h => hX (by omega)
    cases hu with
    | nil =>
      refine .error fun x hx => other ?_
      rcases hX rfl x hx with rfl | ⟨t, rfl⟩ <;> simp
    | char h1 =>
      refine .error fun x hx => other ?_
      simp only [List.cons_append, List.head?_cons, ne_eq, Option.some.injEq]
      rintro rfl; revert h1; decide
    | gap h1 =>
      refine .error fun x hx => other ?_
      simp only [List.cons_append, List.head?_cons, ne_eq, Option.some.injEq]
      rintro rfl; revert h1; decide
    | comment => exact .error fun x hx => other (by simp)
    | str h1 => exact .error fun x hx => other (by rcases h1 with rfl | rfl <;> simp)
    | @escape _ c s h1 h2 =>
      have h1 : c ∈ pnLocalEsc := h1
      refine .read (b := (['\\'], [c])) ['\\', c] h2 fun x hx => ?_
      exact pair_eval (r := c :: (s ++ x)) (by simp [tag, stripPrefix]) (by simp [recognize, oneOf, h1])
    | url => exact .error fun x hx => other (by simp)
    | iri => exact .error fun x hx => other (by simp)
    | «open» => exact .error fun x hx => other (by simp)
    | close => exact .error fun x hx => other (by simp)

/-! ## Path modifiers and numbers -/

instance : Loc 1 pathMod where
  out {X a n u} hX hu := by
    have one : ∀ {c : Char} {j : Str}, pathMod (c :: j) = if c.utf8Size ≤ 1 then
        (match PathMod.fromStr [c] with | some m => .ok j m | none => .err (.error (c :: j) .Char)) else .err .panic := by
      intro c j
      unfold pathMod
      simp only [reduceCtorEq, if_false, takeBytes, Nat.one_ne_zero]
      by_cases h : c.utf8Size ≤ 1
      · have : 1 - c.utf8Size = 0 := by have := size_pos c; omega
        rw [if_pos h, if_pos h, this, takeBytes_zero]; rfl
      · rw [if_neg h, if_neg h]
    have odd : ∀ c ∈ oddChars, c.utf8Size ≤ 1 ∧ PathMod.fromStr [c] = none := by decide
    rcases hu.at with ⟨_, h0⟩ | ⟨c, s, rfl, h1, _, h2⟩ | ⟨c, s, rfl, h1⟩
    · omega
    · by_cases hc : c.utf8Size ≤ 1
      · cases hm : PathMod.fromStr [c] with
        | some m => exact .read (b := m) [c] h2 fun x hx => (one (j := s ++ x)).trans (by rw [if_pos hc, hm])
        | none => exact .error fun x hx => ⟨c :: (s ++ x), .Char, (one (j := s ++ x)).trans (by rw [if_pos hc, hm])⟩
      · exact .inr (.inr fun x hx => ⟨.panic, (one (j := s ++ x)).trans (by rw [if_neg hc]), by simp⟩)
    · rcases h1 with h1 | ⟨_, h0⟩
      · exact .error fun x hx => ⟨c :: (s ++ x), .Char, (one (j := s ++ x)).trans (by rw [if_pos (odd c h1).1, (odd c h1).2])⟩
      · omega

instance : Loc d optSign := by unfold optSign; infer_instance
instance : Loc d exponent := by unfold exponent; infer_instance
instance : Loc d recognizeSparqlFloat := by unfold recognizeSparqlFloat; infer_instance

instance : Loc d sparqlDecimal where
  out {X a n u} hX hu := by
    have h : Loc d recognizeSparqlFloat := inferInstance
    unfold sparqlDecimal
    rcases h.cases hX hu with ⟨m, s, b, rfl, h2, h3⟩ | h | h
    · cases hp : parseDecimal b with
      | some c => exact .read (b := c) m h2 fun x hx => by simp only [h3 x hx, hp]
      | none => exact .error fun x hx => ⟨_, _, by simp only [h3 x hx, hp]; rfl⟩
    · exact .error fun x hx => by obtain ⟨p, k, e⟩ := h x hx; exact ⟨p, k, by simp only [e]⟩
    · exact .inr (.inr fun x hx => by obtain ⟨e, h1, h2⟩ := h x hx; exact ⟨e, by simp only [h1], h2⟩)

theorem starts_units (hX : d = 0 → ∀ x, X x → AtSemi x) (hu : Units a (n + d) u) : ∀ x, X x → startsDotE (u ++ x) = startsDotE u := by
  intro x hx
  rcases hu.at with ⟨rfl, h0⟩ | ⟨c, s, rfl, _⟩ | ⟨c, s, rfl, _⟩
  · rcases hX (by omega) x hx with rfl | ⟨t, rfl⟩
    · rfl
    · simp [startsDotE]
  · rfl
  · rfl

instance : Loc d sparqlInt where
  out {X a n u} hX hu := by
    have h : Loc d (recognize (pair optSign digit1)) := inferInstance
    unfold sparqlInt
    rcases h.cases hX hu with ⟨m, s, b, rfl, h2, h3⟩ | h | h
    · have hs := starts_units hX h2
      by_cases hd : startsDotE s = true
      · exact .error fun x hx => ⟨_, _, by simp only [h3 x hx, hs x hx, hd, if_true]; rfl⟩
      · cases hp : parseI64 b with
        | some c => exact .read (b := c) m h2 fun x hx => by simp only [h3 x hx, hs x hx, hd, hp]; rfl
        | none => exact .error fun x hx => ⟨s ++ x, .Digit, by simp only [h3 x hx, hs x hx, hd, hp]; rfl⟩
    · exact .error fun x hx => by obtain ⟨p, k, e⟩ := h x hx; exact ⟨p, k, by simp only [e]⟩
    · exact .inr (.inr fun x hx => by obtain ⟨e, h1, h2⟩ := h x hx; exact ⟨e, by simp only [h1], h2⟩)

/-! ## Braces -/

/-- Reads an opening brace. -/
class OpensB (d : Nat) (p : P α) : Prop where
  out : ∀ {X : Str → Prop} {a : Prop} {n : Nat} {u : Str}, (d = 0 → ∀ x, X x → AtSemi x) → Units a (n + d) u →
    Fixed X (Units a (n + d + 1)) u (fun x => p (u ++ x))

/-- Reads a closing brace. -/
class ClosesB (d : Nat) (p : P α) : Prop where
  out : ∀ {X : Str → Prop} {a : Prop} {n : Nat} {u : Str}, Units a (n + d + 1) u → Fixed X (Units a (n + d)) u (fun x => p (u ++ x))

theorem opens_units (hX : d = 0 → ∀ x, X x → AtSemi x) (hu : Units a (n + d) u) :
    (∃ s, u = '{' :: s ∧ Units a (n + d + 1) s) ∨ ∀ x, X x → (u ++ x).head? ≠ some '{' := by
  generalize hk : n + d = k at hu ⊢
  have hX : k = 0 → ∀ x, X x → AtSemi x := fun h => hX (by omega)
  cases hu with
  | nil =>
    refine .inr fun x hx => ?_
    rcases hX rfl x hx with rfl | ⟨t, rfl⟩ <;> simp
  | char h1 =>
    refine .inr fun x hx => ?_
    simp only [List.cons_append, List.head?_cons, ne_eq, Option.some.injEq]
    rintro rfl; revert h1; decide
  | gap h1 =>
    refine .inr fun x hx => ?_
    simp only [List.cons_append, List.head?_cons, ne_eq, Option.some.injEq]
    rintro rfl; revert h1; decide
  | str h1 => exact .inr fun x hx => by rcases h1 with rfl | rfl <;> simp
  | «open» h => exact .inl ⟨_, rfl, h⟩
  | _ => exact .inr fun x hx => by simp

theorem closes_units (hu : Units a (k + 1) u) : (∃ s, u = '}' :: s ∧ Units a k s) ∨ ∀ x, (u ++ x).head? ≠ some '}' := by
  generalize hm : k + 1 = m at hu
  cases hu with
  | nil => omega
  | char h1 =>
    refine .inr fun x => ?_
    simp only [List.cons_append, List.head?_cons, ne_eq, Option.some.injEq]
    rintro rfl; revert h1; decide
  | gap h1 =>
    refine .inr fun x => ?_
    simp only [List.cons_append, List.head?_cons, ne_eq, Option.some.injEq]
    rintro rfl; revert h1; decide
  | str h1 => exact .inr fun x => by rcases h1 with rfl | rfl <;> simp
  | close h => cases hm; exact .inl ⟨_, rfl, h⟩
  | _ => exact .inr fun x => by simp

theorem char_no {c : Char} {i : Str} (h : i.head? ≠ some c) : ∃ p k, char c i = .err (.error p k) := by
  rcases char_tag (c := c) (i := i) with ⟨r, _, rfl⟩ | h'
  · simp at h
  · exact h'.1

theorem tag_no {c : Char} {i : Str} (h : i.head? ≠ some c) : ∃ p k, tag [c] i = .err (.error p k) := by
  cases i with
  | nil => exact ⟨_, _, rfl⟩
  | cons e i =>
    have : e ≠ c := by simpa using h
    exact ⟨e :: i, .Tag, by simp [tag, stripPrefix, this]⟩

instance : OpensB d (char '{') where
  out hX hu := by
    rcases opens_units hX hu with ⟨s, rfl, h⟩ | h
    · exact .read (b := '{') ['{'] h fun x hx => by simp [char]
    · exact .error fun x hx => char_no (h x hx)

instance : OpensB d (tag ['{']) where
  out hX hu := by
    rcases opens_units hX hu with ⟨s, rfl, h⟩ | h
    · exact .read (b := ['{']) ['{'] h fun x hx => by simp [tag, stripPrefix]
    · exact .error fun x hx => tag_no (h x hx)

instance : ClosesB d (char '}') where
  out hu := by
    rcases closes_units hu with ⟨s, rfl, h⟩ | h
    · exact .read (b := '}') ['}'] h fun x hx => by simp [char]
    · exact .error fun x hx => char_no (h x)

instance : ClosesB d (tag ['}']) where
  out hu := by
    rcases closes_units hu with ⟨s, rfl, h⟩ | h
    · exact .read (b := ['}']) ['}'] h fun x hx => by simp [tag, stripPrefix]
    · exact .error fun x hx => tag_no (h x)

instance {p : P α} [h : OpensB d p] : OpensB d (terminated p sp) where
  out {X a n u} hX hu := by
    have hs : Loc 1 sp := inferInstance
    exact ((h.out hX hu).pair fun u' hu' => hs.out (n := n + d) (fun h => by omega) hu').map

instance {p : P α} [h : OpensB d p] : OpensB d (spEnc p) where
  out {X a n u} hX hu := by
    have hs : Loc d sp := inferInstance
    have hp : OpensB d (terminated p sp) := inferInstance
    exact ((hs.out hX hu).pair fun u' hu' => hp.out hX hu').map

instance {p : P α} [h : ClosesB d p] : ClosesB d (preceded sp p) where
  out {X a n u} hu := by
    have hs : Loc 1 sp := inferInstance
    exact ((hs.out (n := n + d) (fun h => by omega) hu).pair fun u' hu' => h.out hu').map

instance {p : P α} [h : ClosesB d p] : ClosesB d (terminated sp p) where
  out {X a n u} hu := by
    have hs : Loc 1 sp := inferInstance
    exact ((hs.out (n := n + d) (fun h => by omega) hu).pair fun u' hu' => h.out hu').map

theorem Fixed.braces {o : P α} {q : P β} {c : P γ} (ho : Fixed X (Units a (n + 1)) u (fun x => o (u ++ x))) [hq : Loc 1 q]
    (hc : ∀ u', Units a (n + 1) u' → Fixed X (Units a n) u' (fun x => c (u' ++ x))) :
    Fixed X (Units a n) u (fun x => delimited o q c (u ++ x)) := by
  have h2 : ∀ u', Units a (n + 1) u' → Fixed X (Units a n) u' (fun x => terminated q c (u' ++ x)) := fun u' hu' =>
    ((hq.out (n := n) (fun h => by omega) hu').pair hc).map
  exact (ho.pair h2).map

instance {o : P α} {q : P β} {c : P γ} [ho : OpensB d o] [Loc 1 q] [hc : ClosesB d c] : Loc d (delimited o q c) where
  out hX hu := (ho.out hX hu).braces fun _ hu' => hc.out hu'

end NomSparql
