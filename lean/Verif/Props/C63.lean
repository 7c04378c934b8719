import Verif.Lemmas.CostLower
import Verif.Lemmas.EffortAll
import Verif.Lemmas.EffortUpdateLower
import Verif.Lemmas.EffortAccepted

/-!
# C63: the effort of parsing

The effort is the number of calls of `expression` (src/expression/mod.rs:202-207) and `group_graph_pattern` (src/graph.rs:237-249), the two
functions through which the grammar of queries nests.  For updates, calls of `update` (src/update.rs:41-66) count too.  Work between two calls
is not counted.
-/

namespace NomSparql

/-- The number of calls of `expression` and `group_graph_pattern` while a query is parsed. -/
def calls (i : Str) : Nat := (Cost.sparqlQueryStmt i).2

/-- The counting parser returns what the parser returns. -/
theorem C63_counted (i : Str) : (Cost.sparqlQueryStmt i).1 = sparqlQueryStmt i := congrFun Cost.erase_sparqlQueryStmt i

/-- The counts of the two functions: one for the call, and then the calls in their bodies. -/
theorem C63_count_expression (i : Str) : (Cost.expression i).2 = (Cost.expressionStep Cost.R₀ i).2 + 1 := Cost.expression_cost i
theorem C63_count_group (i : Str) : (Cost.groupGraphPattern i).2 = (Cost.groupGraphPatternStep Cost.R₀ i).2 + 1 := Cost.groupGraphPattern_cost i

/-- Violated: each `STRLEN (` around an expression doubles the number of calls, in any case and with any white space before the
parenthesis; what follows is any text without a further parenthesis there. -/
theorem C63_expression_violated (n : Nat) (s r : Str) (h : Lens n s) (hr : NoParen r) : 2 ^ n ≤ (Cost.expression (s ++ r)).2 := (h.cost r hr).2

/-- Violated: and so for queries that select such an expression. -/
theorem C63_query_violated (n : Nat) (k w v s r : Str) (hk : CaseVariant c!"select" k) (hw : Ws1 w) (hv : Ws v) (h : Lens n s) (hr : NoParen r) :
    2 ^ n ≤ calls (k ++ (w ++ '(' :: (v ++ (s ++ r)))) := select_cost hk hw hv (h.start r) (h.cost r hr).2

/-- `STRLEN (STRLEN ( … STRLEN (?v)))`, `n` times. -/
def lens : Nat → Str
  | 0 => c!"?v"
  | n + 1 => c!"STRLEN" ++ (c!" " ++ '(' :: (lens n ++ ([] ++ c!")")))

/-- `SELECT (STRLEN ( … ) AS ?n) WHERE { }` -/
def lensQuery (n : Nat) : Str := c!"SELECT" ++ (c!" " ++ '(' :: ([] ++ (lens n ++ c!" AS ?n) WHERE { }")))

theorem lens_lens : ∀ n, Lens (n + 1) (lens (n + 1))
  | 0 => .one (e := .mk [.mk [.mk (.mk (.mk (.default (.var (.qmark c!"v"))) []) []) none]]) (kw_rfl rfl) (ws1_rfl rfl)
    (.mk (.one (.one (.one (.one (.one (.plain (.var ⟨rfl, by simp [varNameOf], by decide⟩)))))))) .nil
  | n + 1 => .more (kw_rfl rfl) (ws1_rfl rfl) (lens_lens n) .nil

theorem lensQuery_length (n : Nat) : (lensQuery n).length = 9 * n + 27 := by
  have : ∀ n, (lens n).length = 9 * n + 2 := by
    intro n
    induction n with
    | zero => rfl
    | succ n ih => simp [lens, ih]; omega
  simp [lensQuery, this]

theorem lensQuery_calls (n : Nat) : 2 ^ n ≤ calls (lensQuery n) := by
  cases n with
  | zero =>
    refine Nat.le_trans (Nat.le_refl 1) (select_cost (kw_rfl rfl) (ws1_rfl rfl) .nil ?_ (Cost.cost_pos _))
    exact not_startsWs_cons rfl
  | succ n =>
    refine C63_query_violated (n + 1) _ _ _ _ _ (kw_rfl rfl) (ws1_rfl rfl) .nil (lens_lens n) ?_
    intro w t hw e
    have h2 := sp_eval hw (not_startsWs_cons (c := '(') (r := t) rfl)
    rw [← e] at h2
    have h3 : sp c!" AS ?n) WHERE { }" = .ok c!"AS ?n) WHERE { }" c!" " := rfl
    rw [h3] at h2
    injection h2 with h2
    injection h2 with h2
    revert h2; decide

theorem exceeds (a d : Nat) : ∃ j, a + d * j < 2 ^ j := by
  refine ⟨2 * (a + 2 * d), ?_⟩
  have h : a + 2 * d < 2 ^ (a + 2 * d) := Nat.lt_two_pow_self
  have h2 : a + d * (2 * (a + 2 * d)) ≤ (a + 2 * d) * (a + 2 * d) := by
    rw [Nat.add_mul a (2 * d) (a + 2 * d), Nat.mul_left_comm d 2, Nat.mul_assoc 2 d]
    refine Nat.add_le_add_right ?_ _
    cases a with
    | zero => simp
    | succ a => exact Nat.le_mul_of_pos_right _ (by omega)
  rw [show 2 * (a + 2 * d) = (a + 2 * d) + (a + 2 * d) from Nat.two_mul _] at h2 ⊢
  rw [Nat.pow_add]
  exact Nat.lt_of_le_of_lt h2 (Nat.mul_lt_mul'' h h)

/-- No polynomial in a linear function of `n` bounds `2 ^ n`. -/
theorem poly_exceeds (L : Nat → Nat) (hL : ∀ j, L (2 ^ j) ≤ 2 ^ (6 + j)) (c d : Nat) : ∃ n, c * L n ^ d + c < 2 ^ n := by
  obtain ⟨j, hj⟩ := exceeds (1 + c + 6 * d) d
  refine ⟨2 ^ j, ?_⟩
  have h2 : L (2 ^ j) ^ d ≤ 2 ^ (6 * d + d * j) := by
    refine Nat.le_trans (Nat.pow_le_pow_left (hL j) d) ?_
    rw [← Nat.pow_mul, Nat.add_mul, Nat.mul_comm j d]
    exact Nat.le_refl _
  have h3 : c * L (2 ^ j) ^ d + c ≤ 2 ^ (1 + c + 6 * d + d * j) := by
    have h4 : c ≤ 2 ^ c := Nat.le_of_lt Nat.lt_two_pow_self
    have h5 := Nat.mul_le_mul h4 h2
    have h6 : c ≤ 2 ^ c * 2 ^ (6 * d + d * j) := Nat.le_trans h4 (Nat.le_mul_of_pos_right _ (Nat.pow_pos (by omega)))
    have h7 : 2 ^ (1 + c + 6 * d + d * j) = 2 * (2 ^ c * 2 ^ (6 * d + d * j)) := by
      rw [← Nat.pow_add, show 1 + c + 6 * d + d * j = (c + (6 * d + d * j)) + 1 by omega, Nat.pow_succ, Nat.mul_comm]
    omega
  exact Nat.lt_of_le_of_lt h3 (Nat.pow_lt_pow_right (by omega) hj)

/-- Violated: no polynomial bounds the number of calls; whatever the factor and the degree, some query
`SELECT (STRLEN ( … STRLEN (?v) … ) AS ?n) WHERE { }` takes more calls. -/
theorem C63_polynomial_violated (c d : Nat) : ∃ n, c * (lensQuery n).length ^ d + c < calls (lensQuery n) := by
  obtain ⟨n, h⟩ := poly_exceeds (fun n => (lensQuery n).length) (fun j => by
    simp only [lensQuery_length]
    rw [Nat.pow_add]
    have := Nat.pow_pos (n := j) (show 0 < 2 by omega)
    omega) c d
  exact ⟨n, Nat.lt_of_lt_of_le h (lensQuery_calls n)⟩

/-- For every input the number of calls is at most exponential in its length.  Missing for the full property: a polynomial bound. -/
theorem C63_bound_partial (i : Str) : calls i ≤ 2387 * 292654 ^ i.length := Cost.bd_sparqlQueryStmt.2.out i

theorem effort_le {α : Type} {p : Cost.K α} {k b : Int} {D : Str → Prop} [Cost.KGood p] (h : ∀ W, Cost.Lin W k b D p) (hk : 0 ≤ k) (hb : 0 ≤ b) (i : Str) :
    (p i).2 ≤ 8 * 2 ^ strlens i * i.length + b.toNat := by
  have h1 := (h (4 * 2 ^ strlens i)).le hk hb (i := i) (Nat.le_refl _)
  have h2 : Cost.sz (4 * 2 ^ strlens i) i = ((4 * 2 ^ strlens i * i.length : Nat) : Int) := rfl
  rw [h2] at h1
  have h3 : 8 * 2 ^ strlens i * i.length = 2 * (4 * 2 ^ strlens i * i.length) := by
    rw [show 8 = 2 * 4 from rfl, Nat.mul_assoc 2 4, Nat.mul_assoc 2]
  omega

/-- For every input the number of calls is at most `8` times its length, doubled for each place where `STRLEN` is followed by white space or a
comment.  Missing for the full property: a bound without the doubling, which `C63_polynomial_violated` rules out. -/
theorem C63_strlen_partial (i : Str) : calls i ≤ 8 * 2 ^ strlens i * i.length := effort_le (fun _ => Cost.sparqlQueryStmt_lin) (by omega) (by omega) i

/-- The same for the two recursive functions. -/
theorem C63_expression_partial (i : Str) : (Cost.expression i).2 ≤ 8 * 2 ^ strlens i * i.length + 3 :=
  effort_le (p := Cost.expression) (fun W => Cost.RecLin.expr (R := Cost.R₀) W) (by omega) (by omega) i
theorem C63_group_partial (i : Str) : (Cost.groupGraphPattern i).2 ≤ 8 * 2 ^ strlens i * i.length + 1 :=
  effort_le (p := Cost.groupGraphPattern) (fun W => Cost.RecLin.ggp (R := Cost.R₀) W) (by omega) (by omega) i

/-- The effort is linear for the queries in which no `STRLEN` is followed by white space or a comment, however they nest and whether they are
accepted or not. -/
theorem C63_linear_partial (i : Str) (h : ∀ s, s <:+ i → strlenAt s = false) : calls i ≤ 8 * i.length := by
  have h0 : ∀ s : Str, s <:+ i → strlens s = 0 := by
    intro s
    induction s with
    | nil => intro _; rfl
    | cons c s ih =>
      intro hs
      unfold strlens
      rw [h _ hs, ih ((List.suffix_cons c s).trans hs)]
      rfl
  have := C63_strlen_partial i
  rw [h0 i (List.suffix_refl i)] at this
  omega

/-- And for the queries with at most a given number of such places. -/
theorem C63_few_partial (n : Nat) (i : Str) (h : strlens i ≤ n) : calls i ≤ 8 * 2 ^ n * i.length :=
  Nat.le_trans (C63_strlen_partial i) (Nat.mul_le_mul_right _ (Nat.mul_le_mul_left _ (Nat.pow_le_pow_right (by omega) h)))

/-! ## Updates -/

/-- The number of calls of `update`, `expression` and `group_graph_pattern` while an update request is parsed. -/
def updateCalls (i : Str) : Nat := (Cost.update i).2

/-- The counting parser returns what the parser returns. -/
theorem C63_update_counted (i : Str) : (Cost.update i).1 = update i := congrFun Cost.erase_update i

/-- A call of `update` counts one and then what its body counts. -/
theorem C63_count_update (i : Str) : (Cost.update i).2 = (Cost.updateStep Cost.update i).2 + 1 := Cost.update_cost i

/-- Violated: each `STRLEN (` in the filter of a modification doubles the number of calls, whatever is inserted. -/
theorem C63_update_violated (n : Nat) (q : Quads) (l : List DefaultOrNamedIri) (k w x w1 u w2 k' w3 v kf wf v' s r : Str) (hk : CaseVariant c!"insert" k)
    (hw : Ws1 w) (hx : cQuads q x) (hw1 : Ws w1) (hu : Sep1 Ws1 cUsingClause l u) (hw2 : Ws1 w2) (hk' : CaseVariant c!"where" k') (hw3 : Ws1 w3)
    (hv : Ws v) (hkf : CaseVariant c!"filter" kf) (hwf : Ws1 wf) (hv' : Ws v') (h : Lens n s) (hr : NoParen r) :
    2 ^ n ≤ updateCalls (k ++ (w ++ (x ++ (w1 ++ (u ++ (w2 ++ (k' ++ (w3 ++ '{' :: (v ++ (kf ++ (wf ++ '(' :: (v' ++ (s ++ r))))))))))))) :=
  modify_cost hk hw hx hw1 hu hw2 hk' hw3 (filter_cost hv hkf hwf hv' (h.start r) (h.cost r hr).2)

/-- `INSERT {} USING <g> WHERE { FILTER (STRLEN ( … )) }` -/
def lensUpdate (n : Nat) : Str :=
  c!"INSERT" ++ (c!" " ++ (c!"{}" ++ (c!" " ++ (c!"USING <g>" ++ (c!" " ++ (c!"WHERE" ++ (c!" " ++ '{' :: (c!" " ++ (c!"FILTER" ++ (c!" " ++ '(' :: ([] ++ (lens n ++ c!") }"))))))))))))

theorem lensUpdate_length (n : Nat) : (lensUpdate n).length = 9 * n + 41 := by
  have : ∀ n, (lens n).length = 9 * n + 2 := by
    intro n
    induction n with
    | zero => rfl
    | succ n ih => simp [lens, ih]; omega
  simp [lensUpdate, this]

theorem lensUpdate_calls (n : Nat) : 2 ^ n ≤ updateCalls (lensUpdate n) := by
  have hx : cQuads ⟨none, []⟩ c!"{}" := ⟨c!"{", c!"}", rfl, rfl, [], _, rfl, .nil, [], _, rfl, rfl, [], _, rfl, rfl, [], _, rfl, .nil, rfl⟩
  have hu : Sep1 Ws1 cUsingClause [.default (.iri c!"g")] c!"USING <g>" :=
    ⟨_, [], rfl, ⟨c!"USING", _, rfl, kw_rfl rfl, c!" ", _, rfl, ws1_rfl rfl, rfl, by decide⟩, rfl⟩
  cases n with
  | zero =>
    refine Nat.le_trans (Nat.le_refl 1) (modify_cost (kw_rfl rfl) (ws1_rfl rfl) hx (ws_rfl rfl) hu (ws1_rfl rfl) (kw_rfl rfl) (ws1_rfl rfl)
      (filter_cost (ws_rfl rfl) (kw_rfl rfl) (ws1_rfl rfl) .nil ?_ (Cost.cost_pos _)))
    exact not_startsWs_cons rfl
  | succ n =>
    exact C63_update_violated (n + 1) _ _ _ _ _ _ _ _ _ _ _ _ _ _ _ _ (kw_rfl rfl) (ws1_rfl rfl) hx (ws_rfl rfl) hu (ws1_rfl rfl) (kw_rfl rfl) (ws1_rfl rfl)
      (ws_rfl rfl) (kw_rfl rfl) (ws1_rfl rfl) .nil (lens_lens n) (noParen_close .nil _)

/-- Violated: no polynomial bounds the number of calls for update requests. -/
theorem C63_update_polynomial_violated (c d : Nat) : ∃ n, c * (lensUpdate n).length ^ d + c < updateCalls (lensUpdate n) := by
  obtain ⟨n, h⟩ := poly_exceeds (fun n => (lensUpdate n).length) (fun j => by
    simp only [lensUpdate_length]
    rw [Nat.pow_add]
    have := Nat.pow_pos (n := j) (show 0 < 2 by omega)
    omega) c d
  exact ⟨n, Nat.lt_of_lt_of_le h (lensUpdate_calls n)⟩

/-- The bounds for queries hold for update requests, whatever their number of operations: `8` times the length, doubled for each place where
`STRLEN` is followed by white space or a comment.  Missing: a bound without the doubling, which is false. -/
theorem C63_update_strlen_partial (i : Str) : updateCalls i ≤ 8 * 2 ^ strlens i * i.length + 1 := by
  have h := Cost.update_lin (W := 4 * 2 ^ strlens i)
  have h2 : Cost.sz (4 * 2 ^ strlens i) i = ((4 * 2 ^ strlens i * i.length : Nat) : Int) := rfl
  have h3 : 8 * 2 ^ strlens i * i.length = 2 * (4 * 2 ^ strlens i * i.length) := by
    rw [show 8 = 2 * 4 from rfl, Nat.mul_assoc 2 4, Nat.mul_assoc 2]
  unfold updateCalls
  cases e : (Cost.update i).1 with
  | err e' =>
    have := h.err (Nat.le_refl _) e
    omega
  | ok r a =>
    have := Cost.sz_nonneg (W := 4 * 2 ^ strlens i) (i := r)
    rcases h.ok (Nat.le_refl _) e with h1 | ⟨_, h1⟩ <;> omega

/-- Linear for the requests with at most a given number of such places. -/
theorem C63_update_few_partial (n : Nat) (i : Str) (h : strlens i ≤ n) : updateCalls i ≤ 8 * 2 ^ n * i.length + 1 :=
  Nat.le_trans (C63_update_strlen_partial i) (Nat.add_le_add_right (Nat.mul_le_mul_right _ (Nat.mul_le_mul_left _ (Nat.pow_le_pow_right (by omega) h))) 1)

/-! ## Accepted texts -/

/-- Violated for accepted queries too: `ASK { FILTER ( STRLEN ( … , e) ) }` with `n` nested calls is accepted, with nothing but white space left,
and takes at least `2 ^ n` calls. -/
theorem C63_accepted_violated (n : Nat) (g : GroupGraphPattern) (k w s : Str) (hk : CaseVariant c!"ask" k) (hw : Ws1 w) (h : Filter (Pairs n) g s) :
    (∃ r, Ws r ∧ sparqlQueryStmt (k ++ (w ++ s)) = .ok r ⟨⟨[]⟩, .ask ⟨[], g, .mk none none none none⟩, none⟩) ∧ 2 ^ n ≤ calls (k ++ (w ++ s)) := by
  have hr := h.reads fun _ _ h => h.reads
  obtain ⟨t, rfl, hc⟩ := h.cost (fun _ _ h => h.reads) fun _ _ h => h.cost
  refine ⟨?_, ask_cost hk hw hc⟩
  have ht : cQuery (fun g s => ReadsAs groupGraphPattern s g) (.ask ⟨[], g, .mk none none none none⟩) (k ++ (w ++ '{' :: t)) :=
    ⟨k, _, rfl, hk, w, _, rfl, hw, [], _, rfl, rfl, '{' :: t, [], (List.append_nil _).symm, ⟨[], _, rfl, .inl rfl, hr⟩, [], [], rfl, .nil,
      [], [], rfl, rfl, [], [], rfl, rfl, [], [], rfl, rfl, rfl⟩
  exact queryStmt_evalG (fun _ _ h => h) (ps := []) (w0 := []) rfl .nil ht

/-- Violated for accepted update requests too. -/
theorem C63_update_accepted_violated (n : Nat) (g : GroupGraphPattern) (q : Quads) (l : List DefaultOrNamedIri) (k w x w1 u w2 k' w3 s : Str)
    (hk : CaseVariant c!"insert" k) (hw : Ws1 w) (hx : cQuads q x) (hw1 : Ws w1) (hu : Sep1 Ws1 cUsingClause l u) (hw2 : Ws1 w2)
    (hk' : CaseVariant c!"where" k') (hw3 : Ws1 w3) (h : Filter (Pairs n) g s) :
    (∃ r, Ws r ∧ update (k ++ (w ++ (x ++ (w1 ++ (u ++ (w2 ++ (k' ++ (w3 ++ s)))))))) =
      .ok r (.mk ⟨[]⟩ (some (.modify { iri := none, deleteInsert := .insert q, usingClauses := l, whereGroupGraph := g })) none)) ∧
    2 ^ n ≤ updateCalls (k ++ (w ++ (x ++ (w1 ++ (u ++ (w2 ++ (k' ++ (w3 ++ s)))))))) := by
  have hr := h.reads fun _ _ h => h.reads
  obtain ⟨t, rfl, hc⟩ := h.cost (fun _ _ h => h.reads) fun _ _ h => h.cost
  refine ⟨?_, modify_cost hk hw hx hw1 hu hw2 hk' hw3 hc⟩
  have hst : cStatement (fun G s => ReadsAs groupGraphPattern s G)
      (.modify { iri := none, deleteInsert := .insert q, usingClauses := l, whereGroupGraph := g })
      (k ++ (w ++ (x ++ (w1 ++ (u ++ (w2 ++ (k' ++ (w3 ++ '{' :: t)))))))) :=
    ⟨_, _, rfl, hk, _, _, rfl, hw, _, _, rfl, hx, _, _, rfl, hw1, _, _, rfl, hu, _, _, rfl, hw2, _, _, rfl, hk', _, _, rfl, hw3, hr⟩
  have hup : cUpdate (fun G s => ReadsAs groupGraphPattern s G)
      (.mk ⟨[]⟩ (some (.modify { iri := none, deleteInsert := .insert q, usingClauses := l, whereGroupGraph := g })) none)
      (k ++ (w ++ (x ++ (w1 ++ (u ++ (w2 ++ (k' ++ (w3 ++ '{' :: t)))))))) := ⟨[], _, rfl, rfl, [], _, rfl, .nil, hst⟩
  have := C50_chain_partial _ (fun _ _ h => h) _ _ [] hup .nil
  rwa [List.append_nil] at this

/-- `STRLEN (STRLEN ( … STRLEN (?v,?v),?v),?v)`, `n` times. -/
def pairs : Nat → Str
  | 0 => c!"?v"
  | n + 1 => c!"STRLEN" ++ (c!" " ++ '(' :: (pairs n ++ (c!"," ++ (c!"?v" ++ ([] ++ c!")")))))

theorem pairs_pairs : ∀ n, ∃ e, Pairs n e (pairs n)
  | 0 => ⟨_, .zero varV⟩
  | n + 1 => have ⟨_, h⟩ := pairs_pairs n
    ⟨_, .more (kw_rfl rfl) (ws1_rfl rfl) h ⟨[], _, rfl, .nil, c!",", [], rfl, rfl, .nil⟩ varV .nil⟩
where
  varV : cExpr true (.mk [.mk [.mk (.mk (.mk (.default (.var (.qmark c!"v"))) []) []) none]]) c!"?v" :=
    .mk (.one (.one (.one (.one (.one (.plain (.var ⟨rfl, by simp [varNameOf], by decide⟩)))))))

/-- `{ FILTER (STRLEN ( … )) }` -/
def pairsGroup (n : Nat) : Str := '{' :: (c!" " ++ (c!"FILTER" ++ (c!" " ++ '(' :: ([] ++ (pairs n ++ ([] ++ ')' :: (c!" " ++ c!"}")))))))

theorem pairsGroup_filter (n : Nat) : ∃ g, Filter (Pairs n) g (pairsGroup n) :=
  have ⟨_, h⟩ := pairs_pairs n
  ⟨_, .mk (ws_rfl rfl) (kw_rfl rfl) (ws1_rfl rfl) .nil h .nil (ws1_rfl rfl)⟩

/-- `ASK { FILTER (STRLEN ( … )) }` -/
def pairsQuery (n : Nat) : Str := c!"ASK" ++ (c!" " ++ pairsGroup n)

theorem pairsQuery_length (n : Nat) : (pairsQuery n).length = 12 * n + 19 := by
  have : ∀ n, (pairs n).length = 12 * n + 2 := by
    intro n
    induction n with
    | zero => rfl
    | succ n ih => simp [pairs, ih]; omega
  simp [pairsQuery, pairsGroup, this]

/-- Violated: no polynomial bounds the number of calls for accepted queries either. -/
theorem C63_accepted_polynomial_violated (c d : Nat) :
    ∃ n r q, Ws r ∧ sparqlQueryStmt (pairsQuery n) = .ok r q ∧ c * (pairsQuery n).length ^ d + c < calls (pairsQuery n) := by
  obtain ⟨n, h⟩ := poly_exceeds (fun n => (pairsQuery n).length) (fun j => by
    simp only [pairsQuery_length]
    rw [Nat.pow_add]
    have := Nat.pow_pos (n := j) (show 0 < 2 by omega)
    omega) c d
  obtain ⟨g, hg⟩ := pairsGroup_filter n
  obtain ⟨⟨r, hr, e⟩, h2⟩ := C63_accepted_violated n g c!"ASK" c!" " _ (kw_rfl rfl) (ws1_rfl rfl) hg
  exact ⟨n, r, _, hr, e, Nat.lt_of_lt_of_le h h2⟩

/-! Cases of C63. -/
example : pairsQuery 2 = c!"ASK { FILTER (STRLEN (STRLEN (?v,?v),?v)) }" := rfl
example : ∃ g, Filter (Pairs 2) g c!"{ FILTER (STRLEN (STRLEN (?v,?v),?v)) }" := pairsGroup_filter 2
example : calls (pairsQuery 0) = 4 ∧ calls (pairsQuery 1) = 7 ∧ calls (pairsQuery 2) = 13 := by decide +kernel
example : lensUpdate 2 = c!"INSERT {} USING <g> WHERE { FILTER (STRLEN (STRLEN (?v))) }" := rfl
example : updateCalls c!"CLEAR ALL" = 1 ∧ updateCalls c!"CLEAR ALL ; DROP ALL" = 2 ∧ updateCalls (lensUpdate 0) = 5 ∧ updateCalls (lensUpdate 1) = 6 ∧
    updateCalls (lensUpdate 2) = 10 := by decide +kernel
example : strlens (lensUpdate 2) = 2 ∧ strlens c!"CLEAR ALL ; DROP ALL" = 0 := by decide +kernel
example : strlens c!"SELECT (STRLEN (?x) AS ?n) WHERE { FILTER(strlen\t(?x) > STRLEN(?y)) }" = 2 ∧ strlens c!"ASK { FILTER (STRLEN(?x) > 1) }" = 0 := ⟨rfl, rfl⟩
example : ∀ s, s <:+ c!"ASK { FILTER (STRLEN(?x) > 1) }" → strlenAt s = false := by
  have : ∀ k < 32, strlenAt (c!"ASK { FILTER (STRLEN(?x) > 1) }".drop k) = false := by decide +kernel
  intro s hs
  rw [List.suffix_iff_eq_drop.mp hs]
  exact this _ (by simp only [List.length_cons, List.length_nil]; omega)
example : calls c!"ASK { FILTER (STRLEN(?x) > 1) }" = 4 ∧ calls c!"ASK { FILTER (STRLEN (?x) > 1) }" = 5 := by decide +kernel
example : lensQuery 2 = c!"SELECT (STRLEN (STRLEN (?v)) AS ?n) WHERE { }" := rfl
example : (Cost.expression c!"?x").2 = 1 ∧ (Cost.expression c!"(?x)").2 = 2 ∧ (Cost.expression c!"STRLEN (?x)").2 = 3 ∧
    (Cost.expression c!"STRLEN (STRLEN (?x))").2 = 7 := ⟨rfl, rfl, rfl, rfl⟩
example : ∃ s, Lens 2 s ∧ s = c!"STRLEN (STRLEN (?v))" := ⟨_, lens_lens 1, rfl⟩
example : NoParen c!" AS ?n) WHERE { }" := fun w t hw e => by
  have h := sp_eval hw (not_startsWs_cons (c := '(') (r := t) rfl)
  rw [← e, show sp c!" AS ?n) WHERE { }" = .ok c!"AS ?n) WHERE { }" c!" " from rfl] at h
  injection h with h
  injection h with h
  revert h; decide
example : calls c!"ASK { }" = 2 ∧ calls c!"SELECT (?x AS ?y) WHERE { }" = 3 := ⟨rfl, rfl⟩

end NomSparql
