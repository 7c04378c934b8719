import Verif.Lemmas.LayoutLeaf
import Verif.Spec.Units

/-!
# Answers that do not depend on what follows

`Loc d p`: on a text of units that closes at least `d` braces the answer of `p` is the same whatever follows.  For `d = 0` what follows is the end
or a semicolon.
-/

namespace NomSparql

/-- The end, or a semicolon. -/
def AtSemi (x : Str) : Prop := x = [] ∨ ∃ t, x = ';' :: t

/-- The answers `F x` for the continuations `x` in `X`: one value and one remainder of `u`, which is in `L`; or only errors; or only hard errors. -/
def Fixed (X : Str → Prop) (L : Str → Prop) (u : Str) (F : Str → Res α) : Prop :=
  (∃ m u' a, u = m ++ u' ∧ L u' ∧ ∀ x, X x → F x = .ok (u' ++ x) a) ∨
  (∀ x, X x → ∃ p k, F x = .err (.error p k)) ∨
  (∀ x, X x → ∃ e, F x = .err e ∧ ∀ p k, e ≠ .error p k)

class Loc (d : Nat) (p : P α) : Prop where
  out : ∀ {X : Str → Prop} {a : Prop} {n : Nat} {u : Str}, (d = 0 → ∀ x, X x → AtSemi x) → Units a (n + d) u →
    Fixed X (Units a (n + d)) u (fun x => p (u ++ x))

variable {X : Str → Prop} {L L' : Str → Prop}

theorem Loc.cases {p : P α} {d : Nat} (h : Loc d p) {a : Prop} {n : Nat} {u : Str} (hX : d = 0 → ∀ x, X x → AtSemi x) (hu : Units a (n + d) u) :
    (∃ m u' b, u = m ++ u' ∧ Units a (n + d) u' ∧ ∀ x, X x → p (u ++ x) = .ok (u' ++ x) b) ∨
    (∀ x, X x → ∃ e k, p (u ++ x) = .err (.error e k)) ∨
    (∀ x, X x → ∃ e, p (u ++ x) = .err e ∧ ∀ p k, e ≠ .error p k) := h.out hX hu

theorem Fixed.congr {u : Str} {F G : Str → Res α} (h : Fixed X L u F) (e : ∀ x, X x → G x = F x) : Fixed X L u G := by
  rcases h with ⟨m, u', a, h1, h2, h3⟩ | h | h
  · exact .inl ⟨m, u', a, h1, h2, fun x hx => (e x hx).trans (h3 x hx)⟩
  · exact .inr (.inl fun x hx => by rw [e x hx]; exact h x hx)
  · exact .inr (.inr fun x hx => by rw [e x hx]; exact h x hx)

/-- After a part that has been read. -/
theorem Fixed.after {m u : Str} {F : Str → Res α} (h : Fixed X L u F) : Fixed X L (m ++ u) F := by
  rcases h with ⟨m', u', a, rfl, h2, h3⟩ | h | h
  · exact .inl ⟨m ++ m', u', a, by simp, h2, h3⟩
  · exact .inr (.inl h)
  · exact .inr (.inr h)

theorem Fixed.map {u : Str} {F : Str → Res α} {f : α → β} (h : Fixed X L u F) : Fixed X L u (fun x => match F x with | .ok r a => .ok r (f a) | .err e => .err e) := by
  rcases h with ⟨m, u', a, h1, h2, h3⟩ | h | h
  · exact .inl ⟨m, u', f a, h1, h2, fun x hx => by simp only [h3 x hx]⟩
  · exact .inr (.inl fun x hx => by obtain ⟨p, k, e⟩ := h x hx; exact ⟨p, k, by simp only [e]⟩)
  · exact .inr (.inr fun x hx => by obtain ⟨e, h1, h2⟩ := h x hx; exact ⟨e, by simp only [h1], h2⟩)

section
variable {p : P α} {q : P β} {d : Nat}

/-- One parser after another; the numbers of braces may differ. -/
theorem Fixed.pair {u : Str} (h : Fixed X L u (fun x => p (u ++ x))) (h' : ∀ u', L u' → Fixed X L' u' (fun x => q (u' ++ x))) :
    Fixed X L' u (fun x => NomSparql.pair p q (u ++ x)) := by
  rcases h with ⟨m, u', a, rfl, h2, h3⟩ | h | h
  · rcases h' u' h2 with ⟨m', u2, b, rfl, g2, g3⟩ | g | g
    · exact .inl ⟨m ++ m', u2, (a, b), by simp, g2, fun x hx => pair_eval (h3 x hx) (g3 x hx)⟩
    · exact .inr (.inl fun x hx => by obtain ⟨p, k, e⟩ := g x hx; exact ⟨p, k, pair_stop2 (h3 x hx) e⟩)
    · exact .inr (.inr fun x hx => by obtain ⟨e, g1, g2⟩ := g x hx; exact ⟨e, pair_stop2 (h3 x hx) g1, g2⟩)
  · exact .inr (.inl fun x hx => by obtain ⟨p, k, e⟩ := h x hx; exact ⟨p, k, pair_stop e⟩)
  · exact .inr (.inr fun x hx => by obtain ⟨e, g1, g2⟩ := h x hx; exact ⟨e, pair_stop g1, g2⟩)

theorem Loc.pair (h : Loc d p) (h' : Loc d q) : Loc d (pair p q) where
  out hX hu := (h.out hX hu).pair fun _ hu' => h'.out hX hu'

theorem Loc.map (h : Loc d p) (f : α → β) : Loc d (map p f) where
  out hX hu := (h.out hX hu).map

theorem Loc.preceded (h : Loc d p) (h' : Loc d q) : Loc d (preceded p q) := (h.pair h').map _
theorem Loc.terminated (h : Loc d p) (h' : Loc d q) : Loc d (terminated p q) := (h.pair h').map _

theorem Loc.alt_cons {p' : P α} {ps : List (P α)} (h : Loc d p) (h' : Loc d (alt (p' :: ps))) : Loc d (alt (p :: p' :: ps)) where
  out hX hu := by
    rcases h.cases hX hu with ⟨m, u', a, h1, h2, h3⟩ | h | h
    · exact .inl ⟨m, u', a, h1, h2, fun x hx => alt_take (h3 x hx)⟩
    · exact (h'.out hX hu).congr fun x hx => by obtain ⟨p, k, e⟩ := h x hx; exact alt_skip e
    · exact .inr (.inr fun x hx => by obtain ⟨e, h1, h2⟩ := h x hx; exact ⟨e, alt_hard h1 h2, h2⟩)

theorem Loc.opt (h : Loc d p) : Loc d (opt p) where
  out {X a n u} hX hu := by
    rcases h.cases hX hu with ⟨m, u', a, h1, h2, h3⟩ | h | h
    · exact .inl ⟨m, u', some a, h1, h2, fun x hx => opt_eval (h3 x hx)⟩
    · exact .inl ⟨[], u, none, rfl, hu, fun x hx => by obtain ⟨p, k, e⟩ := h x hx; exact opt_soft e⟩
    · exact .inr (.inr fun x hx => by obtain ⟨e, h1, h2⟩ := h x hx; exact ⟨e, opt_hard h1 h2, h2⟩)

theorem Loc.cut (h : Loc d p) : Loc d (cut p) where
  out {X a n u} hX hu := by
    rcases h.cases hX hu with ⟨m, u', a, h1, h2, h3⟩ | h | h
    · exact .inl ⟨m, u', a, h1, h2, fun x hx => by simp [NomSparql.cut, h3 x hx]⟩
    · exact .inr (.inr fun x hx => by obtain ⟨p, k, e⟩ := h x hx; exact ⟨.failure p k, by simp [NomSparql.cut, e], by simp⟩)
    · refine .inr (.inr fun x hx => ?_)
      obtain ⟨e, h1, h2⟩ := h x hx
      refine ⟨e, ?_, h2⟩
      cases e <;> first | exact absurd rfl (h2 _ _) | simp [NomSparql.cut, h1]

theorem Loc.recognize (h : Loc d p) : Loc d (recognize p) where
  out {X a n u} hX hu := by
    rcases h.cases hX hu with ⟨m, u', a, rfl, h2, h3⟩ | h | h
    · exact .inl ⟨m, u', m, rfl, h2, fun x hx => by simp only [NomSparql.recognize, h3 x hx]; simp⟩
    · exact .inr (.inl fun x hx => by obtain ⟨p, k, e⟩ := h x hx; exact ⟨p, k, by simp [NomSparql.recognize, e]⟩)
    · exact .inr (.inr fun x hx => by obtain ⟨e, h1, h2⟩ := h x hx; exact ⟨e, by simp [NomSparql.recognize, h1], h2⟩)

theorem Loc.mapRes {f : α → Option β} (h : Loc d p) : Loc d (mapRes p f) where
  out {X a n u} hX hu := by
    rcases h.cases hX hu with ⟨m, u', a, rfl, h2, h3⟩ | h | h
    · cases hf : f a with
      | some b => exact .inl ⟨m, u', b, rfl, h2, fun x hx => by simp only [NomSparql.mapRes, h3 x hx, hf]⟩
      | none => exact .inr (.inl fun x hx => ⟨_, .MapRes, by simp only [NomSparql.mapRes, h3 x hx, hf]; rfl⟩)
    · exact .inr (.inl fun x hx => by obtain ⟨p, k, e⟩ := h x hx; exact ⟨p, k, by simp [NomSparql.mapRes, e]⟩)
    · exact .inr (.inr fun x hx => by obtain ⟨e, h1, h2⟩ := h x hx; exact ⟨e, by simp [NomSparql.mapRes, h1], h2⟩)

theorem app_self2 {m u x : Str} : u ++ x = m ++ u ++ x ↔ m = [] := by
  rw [List.append_assoc]; exact app_self

/-- Push an element that has been read in front of a list. -/
theorem Fixed.push {u : Str} {F : Str → Res (List α)} (a : α) (h : Fixed X L u F) :
    Fixed X L u (fun x => match F x with | .ok r' as => .ok r' (a :: as) | .err e => .err e) := by
  refine (h.map (f := (a :: ·))).congr fun x hx => ?_
  cases F x <;> rfl

theorem Loc.manyLoop (h : Loc d p) (kind : Kind) (hX : d = 0 → ∀ x, X x → AtSemi x) {a : Prop} {n : Nat} : ∀ (l : Nat) (u : Str) (N : Str → Nat), u.length ≤ l →
    Units a (n + d) u → (∀ x, (u ++ x).length < N x) → Fixed X (Units a (n + d)) u (fun x => manyLoop kind p (N x) (u ++ x)) := by
  intro l
  induction l using Nat.strongRecOn with
  | ind l ih =>
    intro u N hl hu hN
    have hN' : ∀ x, N x = (N x - 1) + 1 := fun x => by have := hN x; omega
    rcases h.cases hX hu with ⟨m, u', b, rfl, h2, h3⟩ | h | h
    · by_cases hm : m = []
      · subst hm
        refine .inr (.inl fun x hx => ⟨u' ++ x, kind, ?_⟩)
        try dsimp only
        rw [hN' x, NomSparql.manyLoop]
        have := h3 x hx
        simp only [List.nil_append] at this ⊢
        simp only [this, if_true]
      · have hpos := List.length_pos_iff.mpr hm
        simp only [List.length_append] at hl hN
        have := (ih (l - 1) (by omega) u' (fun x => N x - 1) (by omega) h2 (fun x => by have := hN x; simp only [List.length_append]; omega)).push b
        refine (this.after (m := m)).congr fun x hx => ?_
        try dsimp only
        rw [hN' x, NomSparql.manyLoop]
        simp only [h3 x hx, app_self2, if_neg hm, Nat.add_sub_cancel]
        cases NomSparql.manyLoop kind p (N x - 1) (u' ++ x) <;> rfl
    · refine .inl ⟨[], u, [], rfl, hu, fun x hx => ?_⟩
      obtain ⟨p, k, e⟩ := h x hx
      try dsimp only
      rw [hN' x, NomSparql.manyLoop]
      simp only [e]
    · refine .inr (.inr fun x hx => ?_)
      obtain ⟨e, h1, h2⟩ := h x hx
      refine ⟨e, ?_, h2⟩
      try dsimp only
      rw [hN' x, NomSparql.manyLoop]
      cases e <;> first | exact absurd rfl (h2 _ _) | simp only [h1]

theorem Loc.many0 (h : Loc d p) : Loc d (many0 p) where
  out {X a n u} hX hu := h.manyLoop .Many0 hX u.length u (fun x => (u ++ x).length + 1) (Nat.le_refl _) hu (fun _ => by omega)

theorem Loc.many1 (h : Loc d p) : Loc d (many1 p) where
  out {X a n u} hX hu := by
    rcases h.cases hX hu with ⟨m, u', b, rfl, h2, h3⟩ | g | g
    · have := (h.manyLoop .Many1 hX u'.length u' (fun x => (u' ++ x).length + 1) (Nat.le_refl _) h2 (fun _ => by omega)).push b
      refine (this.after (m := m)).congr fun x hx => ?_
      simp only [NomSparql.many1, h3 x hx]
      cases NomSparql.manyLoop .Many1 p _ (u' ++ x) <;> rfl
    · exact .inr (.inl fun x hx => by obtain ⟨p, k, e⟩ := g x hx; exact ⟨p, k, by simp [NomSparql.many1, e]⟩)
    · exact .inr (.inr fun x hx => by obtain ⟨e, h1, h2⟩ := g x hx; exact ⟨e, by simp [NomSparql.many1, h1], h2⟩)

theorem Loc.sepLoop {sep : P γ} (h0 : Loc d sep) (h : Loc d p) (hX : d = 0 → ∀ x, X x → AtSemi x) {a : Prop} {n : Nat} : ∀ (l : Nat) (u : Str) (N : Str → Nat),
    u.length ≤ l → Units a (n + d) u → (∀ x, (u ++ x).length < N x) → Fixed X (Units a (n + d)) u (fun x => sepLoop sep p (N x) (u ++ x)) := by
  intro l
  induction l using Nat.strongRecOn with
  | ind l ih =>
    intro u N hl hu hN
    have hN' : ∀ x, N x = (N x - 1) + 1 := fun x => by have := hN x; omega
    rcases h0.cases hX hu with ⟨m, u', b, rfl, h2, h3⟩ | g | g
    · by_cases hm : m = []
      · subst hm
        refine .inr (.inl fun x hx => ⟨u' ++ x, .SeparatedList, ?_⟩)
        try dsimp only
        rw [hN' x, NomSparql.sepLoop]
        have := h3 x hx
        simp only [List.nil_append] at this ⊢
        simp only [this, if_true]
      · have hpos := List.length_pos_iff.mpr hm
        simp only [List.length_append] at hl hN
        rcases h.cases hX h2 with ⟨m', u2, c, rfl, g2, g3⟩ | g | g
        · have hn : ∀ x, u2 ++ x ≠ m ++ (m' ++ u2) ++ x := fun x e => by
            have := congrArg List.length e
            simp only [List.length_append] at this
            omega
          simp only [List.length_append] at hl hN
          have := (ih (l - 1) (by omega) u2 (fun x => N x - 1) (by omega) g2 (fun x => by have := hN x; simp only [List.length_append]; omega)).push c
          refine ((this.after (m := m')).after (m := m)).congr fun x hx => ?_
          try dsimp only
          rw [hN' x, NomSparql.sepLoop]
          simp only [h3 x hx, app_self2, if_neg hm, g3 x hx, if_neg (hn x), Nat.add_sub_cancel]
          cases NomSparql.sepLoop sep p (N x - 1) (u2 ++ x) <;> rfl
        · refine .inl ⟨[], m ++ u', [], rfl, hu, fun x hx => ?_⟩
          obtain ⟨p, k, e⟩ := g x hx
          try dsimp only
          rw [hN' x, NomSparql.sepLoop]
          simp only [h3 x hx, app_self2, if_neg hm, e]
        · refine .inr (.inr fun x hx => ?_)
          obtain ⟨e, g1, g2⟩ := g x hx
          refine ⟨e, ?_, g2⟩
          try dsimp only
          rw [hN' x, NomSparql.sepLoop]
          simp only [h3 x hx, app_self2, if_neg hm]
          cases e <;> first | exact absurd rfl (g2 _ _) | simp only [g1]
    · refine .inl ⟨[], u, [], rfl, hu, fun x hx => ?_⟩
      obtain ⟨p, k, e⟩ := g x hx
      try dsimp only
      rw [hN' x, NomSparql.sepLoop]
      simp only [e]
    · refine .inr (.inr fun x hx => ?_)
      obtain ⟨e, h1, h2⟩ := g x hx
      refine ⟨e, ?_, h2⟩
      try dsimp only
      rw [hN' x, NomSparql.sepLoop]
      cases e <;> first | exact absurd rfl (h2 _ _) | simp only [h1]

theorem Loc.separatedNonemptyList {sep : P γ} (h0 : Loc d sep) (h : Loc d p) : Loc d (separatedNonemptyList sep p) where
  out {X a n u} hX hu := by
    rcases h.cases hX hu with ⟨m, u', b, rfl, h2, h3⟩ | g | g
    · by_cases hm : m = []
      · subst hm
        exact .inr (.inl fun x hx => ⟨u' ++ x, .SeparatedList, by
          have := h3 x hx
          simp only [List.nil_append] at this ⊢
          simp only [NomSparql.separatedNonemptyList, this, if_true]⟩)
      · have := (h0.sepLoop h hX u'.length u' (fun x => (u' ++ x).length + 1) (Nat.le_refl _) h2 (fun _ => by omega)).push b
        refine (this.after (m := m)).congr fun x hx => ?_
        simp only [NomSparql.separatedNonemptyList, h3 x hx, app_self2, if_neg hm]
        cases NomSparql.sepLoop sep p _ (u' ++ x) <;> rfl
    · exact .inr (.inl fun x hx => by obtain ⟨p, k, e⟩ := g x hx; exact ⟨p, k, by simp [NomSparql.separatedNonemptyList, e]⟩)
    · exact .inr (.inr fun x hx => by obtain ⟨e, h1, h2⟩ := g x hx; exact ⟨e, by simp [NomSparql.separatedNonemptyList, h1], h2⟩)

theorem Loc.separatedList {sep : P γ} (h0 : Loc d sep) (h : Loc d p) : Loc d (separatedList sep p) where
  out {X a n u} hX hu := by
    rcases h.cases hX hu with ⟨m, u', b, rfl, h2, h3⟩ | g | g
    · by_cases hm : m = []
      · subst hm
        exact .inr (.inl fun x hx => ⟨u' ++ x, .SeparatedList, by
          have := h3 x hx
          simp only [List.nil_append] at this ⊢
          simp only [NomSparql.separatedList, this, if_true]⟩)
      · have := (h0.sepLoop h hX u'.length u' (fun x => (u' ++ x).length + 1) (Nat.le_refl _) h2 (fun _ => by omega)).push b
        refine (this.after (m := m)).congr fun x hx => ?_
        simp only [NomSparql.separatedList, h3 x hx, app_self2, if_neg hm]
        cases NomSparql.sepLoop sep p _ (u' ++ x) <;> rfl
    · exact .inl ⟨[], u, [], rfl, hu, fun x hx => by obtain ⟨p, k, e⟩ := g x hx; simp [NomSparql.separatedList, e]⟩
    · refine .inr (.inr fun x hx => ?_)
      obtain ⟨e, h1, h2⟩ := g x hx
      refine ⟨e, ?_, h2⟩
      cases e <;> first | exact absurd rfl (h2 _ _) | simp only [NomSparql.separatedList, h1]

/-- A closed parser from its approximations. -/
theorem loc_closed {pF : Nat → P α} (h : ∀ n, Loc d (pF n)) (ha : ∀ n, Agree n (pF n) p) : Loc d p where
  out {X a n u} hX hu := by
    by_cases hne : ∃ x, X x
    · obtain ⟨x0, hx0⟩ := hne
      have key : ∀ x, ∃ N, (∀ y, (y = x0 ∨ y = x) → pF N (u ++ y) = p (u ++ y)) := fun x =>
        ⟨max (u ++ x0).length (u ++ x).length + 1, by
          rintro y (rfl | rfl)
          · exact ((ha _).out _ (by omega)).1
          · exact ((ha _).out _ (by omega)).1⟩
      obtain ⟨N0, hN0⟩ := key x0
      rcases (h N0).cases hX hu with ⟨m, u', b, rfl, h2, h3⟩ | g | g
      · refine .inl ⟨m, u', b, rfl, h2, fun x hx => ?_⟩
        have e0 := (hN0 x0 (.inl rfl)).symm.trans (h3 x0 hx0)
        obtain ⟨N, hN⟩ := key x
        rcases (h N).cases hX hu with ⟨m', u2, c, e, g2, g3⟩ | g | g
        · have e1 := (hN x0 (.inl rfl)).symm.trans (g3 x0 hx0)
          rw [e0] at e1
          simp only [Res.ok.injEq] at e1
          have e2 := List.append_cancel_right e1.1
          have e3 := e1.2
          subst e2 e3
          exact (hN x (.inr rfl)).symm.trans (g3 x hx)
        · obtain ⟨_, _, e⟩ := g x0 hx0
          rw [hN x0 (.inl rfl), e0] at e; cases e
        · obtain ⟨_, e, _⟩ := g x0 hx0
          rw [hN x0 (.inl rfl), e0] at e; cases e
      · refine .inr (.inl fun x hx => ?_)
        obtain ⟨p0, k0, e0⟩ := g x0 hx0
        rw [hN0 x0 (.inl rfl)] at e0
        obtain ⟨N, hN⟩ := key x
        rcases (h N).cases hX hu with ⟨m', u2, c, e, g2, g3⟩ | g | g
        · have e1 := (hN x0 (.inl rfl)).symm.trans (g3 x0 hx0)
          rw [e0] at e1; cases e1
        · obtain ⟨p1, k1, e⟩ := g x hx
          exact ⟨p1, k1, (hN x (.inr rfl)).symm.trans e⟩
        · obtain ⟨e, e1, e2⟩ := g x0 hx0
          rw [hN x0 (.inl rfl), e0] at e1; cases e1; exact absurd rfl (e2 _ _)
      · refine .inr (.inr fun x hx => ?_)
        obtain ⟨y, e0, hy⟩ := g x0 hx0
        rw [hN0 x0 (.inl rfl)] at e0
        obtain ⟨N, hN⟩ := key x
        rcases (h N).cases hX hu with ⟨m', u2, c, e, g2, g3⟩ | g | g
        · have e1 := (hN x0 (.inl rfl)).symm.trans (g3 x0 hx0)
          rw [e0] at e1; cases e1
        · obtain ⟨p1, k1, e⟩ := g x0 hx0
          rw [hN x0 (.inl rfl), e0] at e; cases e; exact absurd rfl (hy _ _)
        · obtain ⟨e, e1, e2⟩ := g x hx
          exact ⟨e, (hN x (.inr rfl)).symm.trans e1, e2⟩
    · exact .inr (.inl fun x hx => absurd ⟨x, hx⟩ hne)

end

/-! ## Combinators -/

section
variable {p : P α} {q : P β} {d : Nat}

instance [h : Loc d p] [h' : Loc d q] : Loc d (pair p q) := h.pair h'
instance {f : α → β} [h : Loc d p] : Loc d (map p f) := h.map f
instance [h : Loc d p] [h' : Loc d q] : Loc d (preceded p q) := h.preceded h'
instance [h : Loc d p] [h' : Loc d q] : Loc d (terminated p q) := h.terminated h'
instance [h : Loc d p] : Loc d (alt [p]) := h
instance {p' : P α} {ps : List (P α)} [h : Loc d p] [h' : Loc d (alt (p' :: ps))] : Loc d (alt (p :: p' :: ps)) := h.alt_cons h'
instance [h : Loc d p] : Loc d (opt p) := h.opt
instance [h : Loc d p] : Loc d (cut p) := h.cut
instance [h : Loc d p] : Loc d (recognize p) := h.recognize
instance {f : α → Option β} [h : Loc d p] : Loc d (mapRes p f) := h.mapRes
instance [h : Loc d p] : Loc d (many0 p) := h.many0
instance [h : Loc d p] : Loc d (many1 p) := h.many1
instance {sep : P γ} [h0 : Loc d sep] [h : Loc d p] : Loc d (separatedList sep p) := h0.separatedList h
instance {sep : P γ} [h0 : Loc d sep] [h : Loc d p] : Loc d (separatedNonemptyList sep p) := h0.separatedNonemptyList h
instance {r : P γ} [h : Loc d (preceded p (terminated q r))] : Loc d (delimited p q r) := h
instance {r : P γ} [h : Loc d (pair p (pair q r))] : Loc d (tuple3 p q r) := h
instance {r : P γ} {u : P δ} [h : Loc d (pair p (pair q (pair r u)))] : Loc d (tuple4 p q r u) := h
instance {r : P γ} {u : P δ} {w : P ε} [h : Loc d (pair p (pair q (pair r (pair u w))))] : Loc d (tuple5 p q r u w) := h
instance {r : P γ} [h : Loc d (pair p (preceded r q))] : Loc d (separatedPair p r q) := h

end

end NomSparql
