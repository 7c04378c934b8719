import Verif.Lemmas.LayoutLeaf
import Verif.Spec.Swap

/-!
# Parsers treat contents of strings and names of variables as opaque

`Sub T s a b p V`: on texts that differ in contents of strings, names of variables and gaps only, `p` answers alike, with values related by
`V`; with `s` it reads the same text.  With `a` it may be started, with `b` it may stop, between the `?` of a variable and its name.
-/

namespace NomSparql

/-! ## Relations on pairs, options and lists -/

inductive PrRel (V : α → α → Prop) (W : β → β → Prop) : α × β → α × β → Prop
  | mk {a a' b b'} : V a a' → W b b' → PrRel V W (a, b) (a', b')

theorem All2.nil {R : α → α → Prop} : All2 R [] [] := ⟨rfl, fun k a h => by simp at h⟩

theorem All2.cons {R : α → α → Prop} {a a' l l'} (h : R a a') (hl : All2 R l l') : All2 R (a :: l) (a' :: l') := by
  refine ⟨by simp [hl.len], ?_⟩
  intro k x hx x' hx'
  cases k with
  | zero => simp at hx hx'; subst hx; subst hx'; exact h
  | succ k => simp at hx hx'; exact hl.each k x hx x' hx'

theorem Opt2.none {R : α → α → Prop} : Opt2 R Option.none Option.none := ⟨rfl, fun a h => by cases h⟩

theorem Opt2.one {R : α → α → Prop} {a a'} (h : R a a') : Opt2 R (Option.some a) (Option.some a') :=
  ⟨rfl, fun x hx x' hx' => by cases hx; cases hx'; exact h⟩

theorem all2_eq : All2 (Eq : α → α → Prop) = Eq := by
  funext l l'
  apply propext
  constructor
  · intro h
    apply List.ext_getElem? 
    intro k
    cases e : l[k]? with
    | none =>
      rw [List.getElem?_eq_none_iff] at e
      rw [eq_comm, List.getElem?_eq_none_iff, ← h.len]
      exact e
    | some a =>
      cases e' : l'[k]? with
      | none =>
        rw [List.getElem?_eq_none_iff, ← h.len, ← List.getElem?_eq_none_iff] at e'
        rw [e] at e'; cases e'
      | some a' => rw [h.each k a e a' e']
  · rintro rfl
    exact ⟨rfl, fun k a h a' h' => by rw [h] at h'; exact Option.some.inj h'⟩

theorem opt2_eq : Opt2 (Eq : α → α → Prop) = Eq := by
  funext o o'
  apply propext
  constructor
  · intro h
    cases o with
    | none => cases o' with
      | none => rfl
      | some a' => have := h.some; simp at this
    | some a => cases o' with
      | none => have := h.some; simp at this
      | some a' => rw [h.both a rfl a' rfl]
  · rintro rfl
    exact ⟨rfl, fun a h a' h' => by rw [h] at h'; exact Option.some.inj h'⟩

theorem prRel_eq : PrRel (Eq : α → α → Prop) (Eq : β → β → Prop) = Eq := by
  funext x y
  apply propext
  constructor
  · rintro ⟨h1, h2⟩; rw [h1, h2]
  · rintro rfl; exact ⟨rfl, rfl⟩

theorem Opt2.elim {R : α → α → Prop} {o o'} (h : Opt2 R o o') : (o = .none ∧ o' = .none) ∨ ∃ a a', o = .some a ∧ o' = .some a' ∧ R a a' := by
  cases o with
  | none => cases o' with
    | none => exact .inl ⟨rfl, rfl⟩
    | some a' => have := h.some; simp at this
  | some a => cases o' with
    | none => have := h.some; simp at this
    | some a' => exact .inr ⟨a, a', rfl, rfl, h.both a rfl a' rfl⟩

/-! ## Texts -/

variable {T : Swap}

theorem cIri_iff {c : Char} : CIriChar c ↔ isIriChar c = true := by
  rw [isIriChar_iff]
  unfold CIriChar W3CIriForbidden
  constructor
  · rintro ⟨h1, h2⟩; exact ⟨fun h => h1 (.inl h), h2⟩
  · rintro ⟨h1, h2⟩
    refine ⟨?_, h2⟩
    rintro (h | h)
    · exact h1 h
    · omega

/-- The text after a variable's first character. -/
def Mid (T : Swap) (i i' : Str) : Prop := ∃ n n' s s', i = n ++ s ∧ i' = n' ++ s' ∧ VarText n ∧ VarText n' ∧ T.name n n' ∧ Swapped T s s'

def In (T : Swap) (a : Bool) (i i' : Str) : Prop := Swapped T i i' ∨ a = true ∧ Mid T i i'

theorem Swapped.same {i i' : Str} (h : Swapped T i i') : SwPlace T i i' := ⟨[], [], i, i', rfl, rfl, .inl rfl, h⟩

theorem Mid.same {i i' : Str} (h : Mid T i i') : SwPlace T i i' := by
  obtain ⟨n, n', s, s', h1, h2, h3, h4, _, h5⟩ := h
  exact ⟨n, n', s, s', h1, h2, .inr ⟨h3, h4⟩, h5⟩

theorem In.same {a} {i i' : Str} (h : In T a i i') : SwPlace T i i' := by
  rcases h with h | ⟨_, h⟩
  · exact h.same
  · exact h.same

theorem Swapped.inn {a} {i i' : Str} (h : Swapped T i i') : In T a i i' := .inl h

theorem In.out {i i' : Str} (h : In T false i i') : Swapped T i i' := by
  rcases h with h | ⟨h, _⟩
  · exact h
  · cases h

/-- No names are replaced, or names are not read as terms. -/
def Tame (T : Swap) (i i' : Str) : Prop := (∀ n n', T.name n n' → n = n') ∨ NoLeak i ∧ NoLeak i'

theorem NoLeak.drop {m r : Str} (h : NoLeak (m ++ r)) : NoLeak r := fun u b w t e => h (m ++ u) b w t (by rw [e]; simp)

theorem Tame.drop {m m' r r' : Str} (h : Tame T (m ++ r) (m' ++ r')) : Tame T r r' := h.imp_right (fun h => ⟨h.1.drop, h.2.drop⟩)

theorem Tame.tail {c c' : Char} {r r' : Str} (h : Tame T (c :: r) (c' :: r')) : Tame T r r' := Tame.drop (m := [c]) (m' := [c']) h

/-- The outcomes on `i` and `i'`. -/
def SubRes (T : Swap) (s b : Bool) (V : α → α → Prop) (i i' : Str) : Res α → Res α → Prop
  | .ok r v, .ok r' v' => In T b r r' ∧ (∃ m m', i = m ++ r ∧ i' = m' ++ r' ∧ (m = [] ↔ m' = []) ∧ (s = true → m = m')) ∧ V v v'
  | .err (.error p k), .err (.error p' k') => SwPlace T p p' ∧ k = k'
  | .err (.failure p k), .err (.failure p' k') => SwPlace T p p' ∧ k = k'
  | .err e, .err e' => e = e'
  | _, _ => False

class Sub (T : Swap) (s a : Bool) (b : outParam Bool) (p : P α) (V : outParam (α → α → Prop)) : Prop where
  out : ∀ i i', Tame T i i' → In T a i i' → SubRes T s b V i i' (p i) (p i')

/-- The three kinds of pairs of related answers. -/
theorem SubRes.elim {s b V} {i i' : Str} {x y : Res α} (h : SubRes T s b V i i' x y) :
    (∃ r a r' a' m m', x = .ok r a ∧ y = .ok r' a' ∧ In T b r r' ∧ i = m ++ r ∧ i' = m' ++ r' ∧ (m = [] ↔ m' = []) ∧
      (s = true → m = m') ∧ V a a') ∨
    (∃ p p' k, x = .err (.error p k) ∧ y = .err (.error p' k) ∧ SwPlace T p p') ∨
    (∃ e e', x = .err e ∧ y = .err e' ∧ (∀ p k, e ≠ .error p k) ∧ (∀ p k, e' ≠ .error p k) ∧
      (∀ {γ : Type} (s b : Bool) (V : γ → γ → Prop) (i i' : Str), SubRes T s b V i i' (.err e : Res γ) (.err e'))) := by
  cases x with
  | ok r a => cases y with
    | ok r' a' =>
      obtain ⟨h1, ⟨m, m', h2, h3, h4, h5⟩, h6⟩ := h
      exact .inl ⟨_, _, _, _, m, m', rfl, rfl, h1, h2, h3, h4, h5, h6⟩
    | err e' => cases h
  | err e => cases y with
    | ok r' a' => cases e <;> cases h
    | err e' =>
      cases e <;> cases e' <;> first
        | (obtain ⟨h1, h2⟩ := h; subst h2; exact .inr (.inl ⟨_, _, _, rfl, rfl, h1⟩))
        | (obtain ⟨h1, h2⟩ := h; subst h2
           exact .inr (.inr ⟨_, _, rfl, rfl, by simp, by simp, fun _ _ _ _ _ => ⟨h1, rfl⟩⟩))
        | (cases h; done)
        | (cases h; exact .inr (.inr ⟨_, _, rfl, rfl, by simp, by simp, fun _ _ _ _ _ => rfl⟩))

theorem SubRes.ok {s b V} {i i' r r' m m' : Str} {x x' : α} (h : In T b r r') (h1 : i = m ++ r) (h2 : i' = m' ++ r') (h3 : m = [] ↔ m' = [])
    (h4 : s = true → m = m') (h5 : V x x') : SubRes T s b V i i' (.ok r x) (.ok r' x') := ⟨h, ⟨m, m', h1, h2, h3, h4⟩, h5⟩

/-- Reading the same text. -/
theorem SubRes.read {s b V} {r r' m : Str} {x x' : α} (h : In T b r r') (h' : V x x') : SubRes T s b V (m ++ r) (m ++ r') (.ok r x) (.ok r' x') :=
  .ok h rfl rfl Iff.rfl (fun _ => rfl) h'

theorem SubRes.error {s b V} {i i' p p' : Str} {k} (h : In T a p p') : SubRes T s b V i i' (.err (.error p k) : Res α) (.err (.error p' k)) :=
  ⟨h.same, rfl⟩

theorem Sub.same {p : P α} {V} (h : Sub T false false false p V) {i i' : Str} (ht : Tame T i i') (hi : Swapped T i i') : SwAnswer T V (p i) (p i') := by
  have := h.out i i' ht hi.inn
  revert this
  cases p i with
  | ok r a => cases p i' with
    | ok r' a' => rintro ⟨h1, _, h3⟩; exact ⟨h3, h1.out⟩
    | err e' => intro h; cases h
  | err e => cases p i' with
    | ok r' a' => intro h; cases e <;> cases h
    | err e' => intro h; cases e <;> cases e' <;> first | exact ⟨h.2, h.1⟩ | exact h

section
variable {p : P α} {q : P β} {s ka kb kc kd ke kf : Bool} {V : α → α → Prop} {W : β → β → Prop}

theorem Sub.conv {V' : α → α → Prop} (h : Sub T s ka kb p V) (hv : ∀ a a', V a a' → V' a a') : Sub T s ka kb p V' where
  out i i' tm t := by
    rcases (h.out i i' tm t).elim with ⟨r, a, r', a', m, m', e, e', h1, h2, h3, h4, h5, h6⟩ | ⟨x, x', k, e, e', h1⟩ |
      ⟨x, x', e, e', _, _, h1⟩
    · rw [e, e']; exact .ok h1 h2 h3 h4 h5 (hv _ _ h6)
    · rw [e, e']; exact ⟨h1, rfl⟩
    · rw [e, e']; exact h1 _ _ _ _ _

/-- A parser that does not stop inside variables. -/
theorem Sub.wide (h : Sub T s ka false p V) : Sub T s ka kb p V where
  out i i' tm t := by
    rcases (h.out i i' tm t).elim with ⟨r, a, r', a', m, m', e, e', h1, h2, h3, h4, h5, h6⟩ | ⟨x, x', k, e, e', h1⟩ |
      ⟨x, x', e, e', _, _, h1⟩
    · rw [e, e']; exact .ok h1.out.inn h2 h3 h4 h5 h6
    · rw [e, e']; exact ⟨h1, rfl⟩
    · rw [e, e']; exact h1 _ _ _ _ _

theorem Sub.pair (h : Sub T s ka kb p V) (h' : Sub T s kb kc q W) : Sub T s ka kc (pair p q) (PrRel V W) where
  out i i' tm t := by
    rcases (h.out i i' tm t).elim with ⟨r, a, r', a', m, m', e, e', h1, rfl, rfl, h2, h3, h4⟩ | ⟨x, x', k, e, e', h1⟩ |
      ⟨x, x', e, e', _, _, h1⟩
    · rcases (h'.out r r' tm.drop h1).elim with ⟨r2, b, r2', b', n, n', f, f', g1, rfl, rfl, g2, g3, g4⟩ | ⟨x, x', k, f, f', g1⟩ |
        ⟨x, x', f, f', _, _, g1⟩
      · rw [pair_eval e f, pair_eval e' f']
        refine .ok (m := m ++ n) (m' := m' ++ n') g1 (by simp) (by simp) ?_ (fun hs => by rw [h3 hs, g3 hs]) ⟨h4, g4⟩
        simp only [List.append_eq_nil_iff]
        exact and_congr h2 g2
      · rw [pair_stop2 e f, pair_stop2 e' f']; exact ⟨g1, rfl⟩
      · rw [pair_stop2 e f, pair_stop2 e' f']; exact g1 _ _ _ _ _
    · rw [pair_stop e, pair_stop e']; exact ⟨h1, rfl⟩
    · rw [pair_stop e, pair_stop e']; exact h1 _ _ _ _ _

theorem Sub.map {f : α → β} (h : Sub T s ka kb p V) (hf : ∀ a a', V a a' → W (f a) (f a')) : Sub T s ka kb (map p f) W where
  out i i' tm t := by
    rcases (h.out i i' tm t).elim with ⟨r, a, r', a', m, m', e, e', h1, h2, h3, h4, h5, h6⟩ | ⟨x, x', k, e, e', h1⟩ |
      ⟨x, x', e, e', _, _, h1⟩
    · rw [map_eval e, map_eval e']; exact .ok h1 h2 h3 h4 h5 (hf _ _ h6)
    · rw [map_stop e, map_stop e']; exact ⟨h1, rfl⟩
    · rw [map_stop e, map_stop e']; exact h1 _ _ _ _ _

theorem Sub.preceded (h : Sub T s ka kb p V) (h' : Sub T s kb kc q W) : Sub T s ka kc (preceded p q) W where
  out i i' tm t := by
    rcases (h.out i i' tm t).elim with ⟨r, a, r', a', m, m', e, e', h1, rfl, rfl, h2, h3, h4⟩ | ⟨x, x', k, e, e', h1⟩ |
      ⟨x, x', e, e', _, _, h1⟩
    · rw [preceded_cont e, preceded_cont e']
      rcases (h'.out r r' tm.drop h1).elim with ⟨r2, b, r2', b', n, n', f, f', g1, rfl, rfl, g2, g3, g4⟩ | ⟨x, x', k, f, f', g1⟩ |
        ⟨x, x', f, f', _, _, g1⟩
      · rw [f, f']
        refine .ok (m := m ++ n) (m' := m' ++ n') g1 (by simp) (by simp) ?_ (fun hs => by rw [h3 hs, g3 hs]) g4
        simp only [List.append_eq_nil_iff]
        exact and_congr h2 g2
      · rw [f, f']; exact ⟨g1, rfl⟩
      · rw [f, f']; exact g1 _ _ _ _ _
    · rw [preceded_stop e, preceded_stop e']; exact ⟨h1, rfl⟩
    · rw [preceded_stop e, preceded_stop e']; exact h1 _ _ _ _ _

theorem Sub.terminated (h : Sub T s ka kb p V) (h' : Sub T s kb kc q W) : Sub T s ka kc (terminated p q) V where
  out i i' tm t := by
    rcases (h.out i i' tm t).elim with ⟨r, a, r', a', m, m', e, e', h1, rfl, rfl, h2, h3, h4⟩ | ⟨x, x', k, e, e', h1⟩ |
      ⟨x, x', e, e', _, _, h1⟩
    · rcases (h'.out r r' tm.drop h1).elim with ⟨r2, b, r2', b', n, n', f, f', g1, rfl, rfl, g2, g3, g4⟩ | ⟨x, x', k, f, f', g1⟩ |
        ⟨x, x', f, f', _, _, g1⟩
      · rw [terminated_eval e f, terminated_eval e' f']
        refine .ok (m := m ++ n) (m' := m' ++ n') g1 (by simp) (by simp) ?_ (fun hs => by rw [h3 hs, g3 hs]) h4
        simp only [List.append_eq_nil_iff]
        exact and_congr h2 g2
      · rw [terminated_stop2 e f, terminated_stop2 e' f']; exact ⟨g1, rfl⟩
      · rw [terminated_stop2 e f, terminated_stop2 e' f']; exact g1 _ _ _ _ _
    · rw [terminated_stop e, terminated_stop e']; exact ⟨h1, rfl⟩
    · rw [terminated_stop e, terminated_stop e']; exact h1 _ _ _ _ _

theorem Sub.delimited {r : P γ} {U : γ → γ → Prop} (h : Sub T s ka kb p V) (h' : Sub T s kb kc q W) (h'' : Sub T s kc kd r U) :
    Sub T s ka kd (delimited p q r) W := h.preceded (h'.terminated h'')

theorem Sub.separatedPair {r : P γ} {U : γ → γ → Prop} (h : Sub T s ka kb p V) (h' : Sub T s kb kc r U) (h'' : Sub T s kc kd q W) :
    Sub T s ka kd (separatedPair p r q) (PrRel V W) := h.pair (h'.preceded h'')

theorem Sub.tuple3 {r : P γ} {U : γ → γ → Prop} (h : Sub T s ka kb p V) (h' : Sub T s kb kc q W) (h'' : Sub T s kc kd r U) :
    Sub T s ka kd (tuple3 p q r) (PrRel V (PrRel W U)) := h.pair (h'.pair h'')

theorem Sub.tuple4 {r : P γ} {U : γ → γ → Prop} {u : P δ} {X : δ → δ → Prop} (h : Sub T s ka kb p V) (h' : Sub T s kb kc q W)
    (h'' : Sub T s kc kd r U) (h3 : Sub T s kd ke u X) : Sub T s ka ke (tuple4 p q r u) (PrRel V (PrRel W (PrRel U X))) :=
  h.pair (h'.tuple3 h'' h3)

theorem Sub.tuple5 {r : P γ} {U : γ → γ → Prop} {u : P δ} {X : δ → δ → Prop} {w : P ε} {Y : ε → ε → Prop} (h : Sub T s ka kb p V)
    (h' : Sub T s kb kc q W) (h'' : Sub T s kc kd r U) (h3 : Sub T s kd ke u X) (h4 : Sub T s ke kf w Y) :
    Sub T s ka kf (tuple5 p q r u w) (PrRel V (PrRel W (PrRel U (PrRel X Y)))) := h.pair (h'.tuple4 h'' h3 h4)

theorem Sub.alt_one (h : Sub T s ka kb p V) : Sub T s ka kb (alt [p]) V := h

theorem Sub.alt_cons {p' : P α} {ps : List (P α)} (h : Sub T s ka kb p V) (h' : Sub T s ka kb (alt (p' :: ps)) V) :
    Sub T s ka kb (alt (p :: p' :: ps)) V where
  out i i' tm t := by
    rcases (h.out i i' tm t).elim with ⟨r, a, r', a', m, m', e, e', h1, h2, h3, h4, h5, h6⟩ | ⟨x, x', k, e, e', h1⟩ |
      ⟨x, x', e, e', g1, g2, h1⟩
    · rw [alt_take e, alt_take e']; exact .ok h1 h2 h3 h4 h5 h6
    · rw [alt_skip e, alt_skip e']; exact h'.out _ _ tm t
    · rw [alt_hard e g1, alt_hard e' g2]; exact h1 _ _ _ _ _

theorem Sub.opt (h : Sub T s false kb p V) : Sub T s false kb (opt p) (Opt2 V) where
  out i i' tm t := by
    rcases (h.out i i' tm t).elim with ⟨r, a, r', a', m, m', e, e', h1, h2, h3, h4, h5, h6⟩ | ⟨x, x', k, e, e', h1⟩ |
      ⟨x, x', e, e', g1, g2, h1⟩
    · rw [opt_eval e, opt_eval e']; exact .ok h1 h2 h3 h4 h5 (.one h6)
    · rw [opt_soft e, opt_soft e']; exact .read (m := []) t.out.inn .none
    · rw [opt_hard e g1, opt_hard e' g2]; exact h1 _ _ _ _ _

theorem Sub.cut (h : Sub T s ka kb p V) : Sub T s ka kb (cut p) V where
  out i i' tm t := by
    have := h.out i i' tm t
    revert this
    unfold NomSparql.cut
    cases p i with
    | ok r a => cases p i' with
      | ok r' a' => exact fun h => h
      | err e' => intro h; cases h
    | err e => cases p i' with
      | ok r' a' => intro h; cases e <;> cases h
      | err e' => intro h; cases e <;> cases e' <;> first | exact h | cases h

theorem Sub.recognize (h : Sub T true ka kb p V) : Sub T s ka kb (recognize p) Eq where
  out i i' tm t := by
    have h := h.out i i' tm t
    revert h
    unfold NomSparql.recognize
    cases p i with
    | ok r a => cases p i' with
      | ok r' a' =>
        rintro ⟨h1, ⟨m, m', rfl, rfl, _, h5⟩, _⟩
        have := h5 rfl
        subst this
        refine .ok h1 rfl rfl Iff.rfl (fun _ => rfl) ?_
        simp
      | err e' => intro h; cases h
    | err e => cases p i' with
      | ok r' a' => intro h; cases e <;> cases h
      | err e' => intro h; cases e <;> cases e' <;> exact h

theorem Sub.mapRes {f : α → Option β} (h : Sub T s ka kb p V) (hf : ∀ a a', V a a' → f a = f a') : Sub T s ka kb (mapRes p f) Eq where
  out i i' tm t := by
    have h := h.out i i' tm t
    revert h
    unfold NomSparql.mapRes
    cases p i with
    | ok r a => cases p i' with
      | ok r' a' =>
        rintro ⟨h1, h2, h3⟩
        simp only [hf a a' h3]
        cases f a' with
        | some b => exact ⟨h1, h2, rfl⟩
        | none => exact .error t
      | err e' => intro h; cases h
    | err e => cases p i' with
      | ok r' a' => intro h; cases e <;> cases h
      | err e' => intro h; cases e <;> cases e' <;> exact h

theorem Sub.manyLoop (h : Sub T s false false p V) (kind : Kind) : ∀ n n' i i', Tame T i i' → Swapped T i i' → i.length < n → i'.length < n' →
    SubRes T s false (All2 V) i i' (manyLoop kind p n i) (manyLoop kind p n' i')
  | 0, _, _, _, _, _, hn, _ => by omega
  | _ + 1, 0, _, _, _, _, _, hn => by omega
  | n + 1, n' + 1, i, i', tm, t, hn, hn' => by
    unfold NomSparql.manyLoop
    rcases (h.out i i' tm t.inn).elim with ⟨r, a, r', a', m, m', e, e', h1, rfl, rfl, h2, h3, h4⟩ | ⟨x, x', k, e, e', h1⟩ |
      ⟨x, x', e, e', g1, g2, h1⟩
    · rw [e, e']
      simp only [app_self]
      by_cases hm : m = []
      · rw [if_pos hm, if_pos (h2.mp hm)]; exact .error (a := false) t.inn
      · have hm' : m' ≠ [] := fun e => hm (h2.mpr e)
        rw [if_neg hm, if_neg hm']
        have l1 := List.length_pos_iff.mpr hm
        have l2 := List.length_pos_iff.mpr hm'
        simp only [List.length_append] at hn hn'
        rcases (Sub.manyLoop h kind n n' r r' tm.drop h1.out (by omega) (by omega)).elim with
          ⟨r2, b, r2', b', k, k', f, f', g1, rfl, rfl, g2, g3, g4⟩ | ⟨x, x', k, f, f', g1⟩ | ⟨x, x', f, f', _, _, g1⟩
        · rw [f, f']
          exact .ok (m := m ++ k) (m' := m' ++ k') g1 (by simp) (by simp) (by simp [hm, hm']) (fun hs => by rw [h3 hs, g3 hs])
            (.cons h4 g4)
        · rw [f, f']; exact ⟨g1, rfl⟩
        · rw [f, f']; exact g1 _ _ _ _ _
    · rw [e, e']; exact .read (m := []) t.inn .nil
    · rw [e, e']
      cases x with
      | error p k => exact absurd rfl (g1 p k)
      | _ =>
        cases x' with
        | error p k => exact absurd rfl (g2 p k)
        | _ => exact h1 _ _ _ _ _

theorem Sub.many0 (h : Sub T s false false p V) : Sub T s false false (many0 p) (All2 V) where
  out i i' tm t := h.manyLoop .Many0 _ _ i i' tm t.out (by omega) (by omega)

theorem Sub.many1 (h : Sub T s false false p V) : Sub T s false false (many1 p) (All2 V) where
  out i i' tm t := by
    unfold NomSparql.many1
    rcases (h.out i i' tm t).elim with ⟨r, a, r', a', m, m', e, e', h1, rfl, rfl, h2, h3, h4⟩ | ⟨x, x', k, e, e', h1⟩ |
      ⟨x, x', e, e', _, _, h1⟩
    · rw [e, e']
      simp only
      rcases (h.manyLoop .Many1 (r.length + 1) (r'.length + 1) r r' tm.drop h1.out (by omega) (by omega)).elim with
          ⟨r2, b, r2', b', k, k', f, f', g1, rfl, rfl, g2, g3, g4⟩ | ⟨x, x', k, f, f', g1⟩ | ⟨x, x', f, f', _, _, g1⟩
      · rw [f, f']
        refine .ok (m := m ++ k) (m' := m' ++ k') g1 (by simp) (by simp) ?_ (fun hs => by rw [h3 hs, g3 hs]) (.cons h4 g4)
        simp only [List.append_eq_nil_iff]
        exact and_congr h2 g2
      · rw [f, f']; exact ⟨g1, rfl⟩
      · rw [f, f']; exact g1 _ _ _ _ _
    · rw [e, e']; exact ⟨h1, rfl⟩
    · rw [e, e']; exact h1 _ _ _ _ _

theorem Sub.sepLoop {sep : P γ} {U : γ → γ → Prop} (h0 : Sub T s kb false sep U) (h : Sub T s false kb p V) : ∀ n n' i i',
    Tame T i i' → In T kb i i' → i.length < n → i'.length < n' → SubRes T s kb (All2 V) i i' (sepLoop sep p n i) (sepLoop sep p n' i')
  | 0, _, _, _, _, _, hn, _ => by omega
  | _ + 1, 0, _, _, _, _, _, hn => by omega
  | n + 1, n' + 1, i, i', tm, t, hn, hn' => by
    unfold NomSparql.sepLoop
    rcases (h0.out i i' tm t).elim with ⟨r, a, r', a', m, m', e, e', h1, rfl, rfl, h2, h3, _⟩ | ⟨x, x', k, e, e', h1⟩ |
      ⟨x, x', e, e', g1, g2, h1⟩
    · rw [e, e']
      simp only [app_self]
      by_cases hm : m = []
      · rw [if_pos hm, if_pos (h2.mp hm)]; exact .error h1
      · have hm' : m' ≠ [] := fun e => hm (h2.mpr e)
        rw [if_neg hm, if_neg hm']
        have l1 := List.length_pos_iff.mpr hm
        have l2 := List.length_pos_iff.mpr hm'
        simp only [List.length_append] at hn hn'
        rcases (h.out r r' tm.drop h1).elim with ⟨r2, b, r2', b', k, k', f, f', g1, rfl, rfl, g2, g3, g4⟩ | ⟨x, x', k, f, f', g1⟩ |
          ⟨x, x', f, f', y1, y2, g1⟩
        · rw [f, f']
          simp only [List.length_append] at hn hn'
          have n1 : r2 ≠ m ++ (k ++ r2) := by
            intro h
            have := congrArg List.length h
            simp only [List.length_append] at this
            omega
          have n2 : r2' ≠ m' ++ (k' ++ r2') := by
            intro h
            have := congrArg List.length h
            simp only [List.length_append] at this
            omega
          simp only
          rw [if_neg n1, if_neg n2]
          rcases (Sub.sepLoop h0 h n n' r2 r2' tm.drop.drop g1 (by omega) (by omega)).elim with
            ⟨r3, c, r3', c', j, j', u, u', w1, rfl, rfl, w2, w3, w4⟩ | ⟨x, x', k, u, u', w1⟩ | ⟨x, x', u, u', _, _, w1⟩
          · rw [u, u']
            exact .ok (m := m ++ k ++ j) (m' := m' ++ k' ++ j') w1 (by simp) (by simp) (by simp [hm, hm'])
              (fun hs => by rw [h3 hs, g3 hs, w3 hs]) (.cons g4 w4)
          · rw [u, u']; exact ⟨w1, rfl⟩
          · rw [u, u']; exact w1 _ _ _ _ _
        · rw [f, f']; exact .read (m := []) t .nil
        · rw [f, f']
          cases x with
          | error p k => exact absurd rfl (y1 p k)
          | _ =>
            cases x' with
            | error p k => exact absurd rfl (y2 p k)
            | _ => exact g1 _ _ _ _ _
    · rw [e, e']; exact .read (m := []) t .nil
    · rw [e, e']
      cases x with
      | error p k => exact absurd rfl (g1 p k)
      | _ =>
        cases x' with
        | error p k => exact absurd rfl (g2 p k)
        | _ => exact h1 _ _ _ _ _

theorem Sub.separatedNonemptyList {sep : P γ} {U : γ → γ → Prop} (h : Sub T s false kb p V) (h0 : Sub T s kb false sep U) :
    Sub T s false kb (separatedNonemptyList sep p) (All2 V) where
  out i i' tm t := by
    unfold NomSparql.separatedNonemptyList
    rcases (h.out i i' tm t).elim with ⟨r, a, r', a', m, m', e, e', h1, rfl, rfl, h2, h3, h4⟩ | ⟨x, x', k, e, e', h1⟩ |
      ⟨x, x', e, e', _, _, h1⟩
    · rw [e, e']
      simp only [app_self]
      by_cases hm : m = []
      · rw [if_pos hm, if_pos (h2.mp hm)]; exact .error h1
      · have hm' : m' ≠ [] := fun e => hm (h2.mpr e)
        rw [if_neg hm, if_neg hm']
        rcases (Sub.sepLoop h0 h (r.length + 1) (r'.length + 1) r r' tm.drop h1 (by omega) (by omega)).elim with
          ⟨r2, b, r2', b', k, k', f, f', g1, rfl, rfl, g2, g3, g4⟩ | ⟨x, x', k, f, f', g1⟩ | ⟨x, x', f, f', _, _, g1⟩
        · rw [f, f']
          exact .ok (m := m ++ k) (m' := m' ++ k') g1 (by simp) (by simp) (by simp [hm, hm']) (fun hs => by rw [h3 hs, g3 hs])
            (.cons h4 g4)
        · rw [f, f']; exact ⟨g1, rfl⟩
        · rw [f, f']; exact g1 _ _ _ _ _
    · rw [e, e']; exact ⟨h1, rfl⟩
    · rw [e, e']; exact h1 _ _ _ _ _

theorem Sub.separatedList {sep : P γ} {U : γ → γ → Prop} (h : Sub T s false kb p V) (h0 : Sub T s kb false sep U) :
    Sub T s false kb (separatedList sep p) (All2 V) where
  out i i' tm t := by
    unfold NomSparql.separatedList
    rcases (h.out i i' tm t).elim with ⟨r, a, r', a', m, m', e, e', h1, rfl, rfl, h2, h3, h4⟩ | ⟨x, x', k, e, e', h1⟩ |
      ⟨x, x', e, e', y1, y2, h1⟩
    · rw [e, e']
      simp only [app_self]
      by_cases hm : m = []
      · rw [if_pos hm, if_pos (h2.mp hm)]; exact .error h1
      · have hm' : m' ≠ [] := fun e => hm (h2.mpr e)
        rw [if_neg hm, if_neg hm']
        rcases (Sub.sepLoop h0 h (r.length + 1) (r'.length + 1) r r' tm.drop h1 (by omega) (by omega)).elim with
          ⟨r2, b, r2', b', k, k', f, f', g1, rfl, rfl, g2, g3, g4⟩ | ⟨x, x', k, f, f', g1⟩ | ⟨x, x', f, f', _, _, g1⟩
        · rw [f, f']
          exact .ok (m := m ++ k) (m' := m' ++ k') g1 (by simp) (by simp) (by simp [hm, hm']) (fun hs => by rw [h3 hs, g3 hs])
            (.cons h4 g4)
        · rw [f, f']; exact ⟨g1, rfl⟩
        · rw [f, f']; exact g1 _ _ _ _ _
    · rw [e, e']; exact .read (m := []) t.out.inn .nil
    · rw [e, e']
      cases x with
      | error p k => exact absurd rfl (y1 p k)
      | _ =>
        cases x' with
        | error p k => exact absurd rfl (y2 p k)
        | _ => exact h1 _ _ _ _ _

end

/-! ## How values of a type are related, and the rules put together -/

class Rl (T : Swap) (α : Type) (R : outParam (α → α → Prop)) : Prop

instance (priority := 10) : Rl T α Eq where
instance {R : α → α → Prop} [Rl T α R] : Rl T (List α) (All2 R) where
instance {R : α → α → Prop} [Rl T α R] : Rl T (Option α) (Opt2 R) where
instance {R : α → α → Prop} {S : β → β → Prop} [Rl T α R] [Rl T β S] : Rl T (α × β) (PrRel R S) where
instance (priority := 2000) : Rl T (List Char) Eq where

theorem Sub.map' {p : P α} {V : α → α → Prop} {W : β → β → Prop} [Rl T β W] {f : α → β} (h : Sub T s ka kb p V)
    (hf : ∀ a a', V a a' → W (f a) (f a')) : Sub T s ka kb (NomSparql.map p f) W := h.map hf

macro "rel" : tactic => `(tactic| first | (intro _ _ _; with_reducible rfl) | (
  intro x x' h
  (try simp only [all2_eq, opt2_eq, prRel_eq] at h ⊢)
  repeat cases ‹PrRel _ _ _ _›
  (try subst_vars)
  first
    | rfl
    | trivial
    | assumption
    | exact Opt2.none
    | exact Opt2.one ‹_›
    | (repeat cases ‹All2 _ _ _›
       repeat cases ‹Opt2 _ _ _›
       constructor <;> first | rfl | assumption | exact ⟨by assumption, by assumption⟩)))

macro "sub" : tactic => `(tactic| repeat' (first
  | infer_instance
  | with_reducible exact Sub.wide inferInstance
  | with_reducible apply Sub.pair
  | with_reducible apply Sub.map'
  | with_reducible apply Sub.preceded
  | with_reducible apply Sub.terminated
  | with_reducible apply Sub.delimited
  | with_reducible apply Sub.separatedPair
  | with_reducible apply Sub.alt_cons
  | with_reducible apply Sub.alt_one
  | with_reducible apply Sub.opt
  | with_reducible apply Sub.cut
  | with_reducible apply Sub.recognize
  | with_reducible apply Sub.mapRes
  | with_reducible apply Sub.many0
  | with_reducible apply Sub.many1
  | with_reducible apply Sub.separatedNonemptyList
  | with_reducible apply Sub.separatedList
  | with_reducible apply Sub.tuple3
  | with_reducible apply Sub.tuple4
  | with_reducible apply Sub.tuple5
  | rel))

end NomSparql
