import Verif.LPPrepLemmas4

/-
Properties of the preparation of a linear program and of the simplex algorithm.
-/
namespace Verif

open Res

variable {K : Type} [Field K] [LinearOrder K] [IsStrictOrderedRing K]

/-! ### C73: the equality form -/

/-- Full statement: the problem in equality form is equivalent to the given one. `_partial`: every variable
without lower bound whose upper bound is at most zero must have the upper bound zero, and the value of the
equality form differs from the value of the given problem by the constant `trasl_cost`, which the result
does not contain; see `c73_sign_violated` and `c73_cost_violated`. -/
theorem c73_equality_form_partial (p : LPInput K)
    (hf : ∀ i < p.n, p.Flipped i → p.UB i = some 0) :
    ∃ f, p.final = ok f ∧
      (∀ y, (f.std p.bounds).Feasible y → p.Feasible (f.solution p.bounds y)) ∧
      (∀ x, p.Feasible x → ∃ y, (f.std p.bounds).Feasible y ∧ ∀ i < p.n, f.solution p.bounds y i = x i) ∧
      ∀ y, (f.std p.bounds).value y + p.bounds.traslCost = p.value (f.solution p.bounds y) := by
  obtain ⟨f, e, h⟩ := p.final_inv
  have key : ∀ y, ∀ i < p.n, f.solution p.bounds y i = p.point (LPInput.ext y) i := by
    intro y i hi
    refine h.solution_point y hi ?_
    by_cases hfl : p.Flipped i
    · exact Or.inr (hf i hi hfl)
    · exact Or.inl hfl
  refine ⟨f, e, fun y hy => ?_, fun x hx => ?_, fun y => ?_⟩
  · obtain ⟨h1, h2⟩ := h.feasible_of_std hy
    constructor
    · intro i hi
      have := h1 i hi
      unfold LPInput.InBounds at this ⊢
      rw [key y i hi]
      exact this
    · intro r hr
      have := h2 r hr
      have e : p.lhs (f.solution p.bounds y) r = p.lhs (p.point (LPInput.ext y)) r := by
        unfold LPInput.lhs
        refine Finset.sum_congr rfl fun i hi => ?_
        rw [key y i (Finset.mem_range.1 hi)]
      unfold LPInput.RowHolds at this ⊢
      rw [e]
      exact this
  · obtain ⟨y, h1, h2⟩ := h.std_of_feasible hx
    exact ⟨y, h1, fun i hi => by rw [key y i hi, h2 i hi]⟩
  · rw [h.value_std]
    unfold LPInput.value
    refine Finset.sum_congr rfl fun i hi => ?_
    rw [key y i (Finset.mem_range.1 hi)]

/-- The equality form has one row for each constraint and for each upper bound that is not moved, and the
slack variables form a basis exactly if no constraint is an equality. -/
theorem c73_slack_basis (p : LPInput K) :
    ∃ f, p.final = ok f ∧ (f.slack ++ f.noSlack).Perm (List.range p.bounds.nFinal) ∧
      (f.slack.length = p.bounds.mFinal ↔ ∀ r < p.m, p.types r ≠ .eq) := by
  obtain ⟨f, e, h⟩ := p.final_inv
  refine ⟨f, e, ?_, h.slack_length⟩
  rw [← h.addVar_final]
  exact h.perm

/-- One variable with the upper bound -1 and no constraint. -/
def lpBelow : LPInput ℚ where
  n := 1
  m := 0
  cost := fun _ => 1
  A := fun _ _ => 0
  b := fun _ => 0
  types := fun _ => .le
  LB := fun _ => none
  UB := fun _ => some (-1)

/-- The problem with one variable of at least 1 and at most 3 and the value of the variable. -/
def lpOneToThree : LPInput ℚ where
  n := 1
  m := 0
  cost := fun _ => 1
  A := fun _ _ => 0
  b := fun _ => 0
  types := fun _ => .le
  LB := fun _ => some 1
  UB := fun _ => some 3

example : ∀ i < lpOneToThree.n, lpOneToThree.Flipped i → lpOneToThree.UB i = some 0 := by
  rintro i - ⟨h, -⟩
  simp [lpOneToThree] at h

/-- The result of the algorithm as a test. -/
def PrimalResult.is (r : Res (PrimalResult ℚ)) (l : List ℚ) (c : ℚ) : Bool :=
  match r with
  | ok (.success x c') => (List.range l.length).map x == l && c' == c
  | _ => false

theorem PrimalResult.is_true {r : Res (PrimalResult ℚ)} {l : List ℚ} {c : ℚ}
    (h : PrimalResult.is r l c = true) :
    ∃ x, r = ok (.success x c) ∧ ∀ (i : Nat) v, l[i]? = some v → x i = v := by
  unfold PrimalResult.is at h
  split at h
  · rename_i x c'
    rw [Bool.and_eq_true, beq_iff_eq, beq_iff_eq] at h
    obtain ⟨h1, rfl⟩ := h
    refine ⟨x, rfl, fun i v hv => ?_⟩
    have hi : i < l.length := (List.getElem?_eq_some_iff.1 hv).1
    rw [← h1] at hv
    simpa [hi] using hv
  · exact absurd h (by simp)

/-- A variable with the upper bound -1 comes back with the value 1: the shift by the bound is applied after
the change of the sign. -/
theorem c73_sign_violated :
    ∃ p : LPInput ℚ, ∃ x c, p.simplex 10 0 = ok (.success x c) ∧ (∃ x', p.Feasible x') ∧
      ¬ p.Feasible x := by
  obtain ⟨x, e, h⟩ := PrimalResult.is_true (r := lpBelow.simplex 10 0) (l := [1]) (c := 0)
    (by decide +kernel)
  refine ⟨lpBelow, x, 0, e, ⟨fun _ => -1, ?_, ?_⟩, fun hx => ?_⟩
  · intro i _
    refine ⟨fun l hl => ?_, fun u hu => ?_⟩
    · simp [lpBelow] at hl
    · simp [lpBelow] at hu
      rw [← hu]
  · intro r hr
    simp [lpBelow] at hr
  · have h1 := (hx.1 0 (by simp [lpBelow])).2 (-1) rfl
    rw [h 0 1 rfl] at h1
    norm_num at h1

/-- The value that is returned does not contain the value of the lower bounds: for the largest `x` between 1
and 3 it is 2. -/
theorem c73_cost_violated :
    ∃ p : LPInput ℚ, ∃ x c, p.simplex 10 0 = ok (.success x c) ∧ p.value x ≠ c := by
  obtain ⟨x, e, h⟩ := PrimalResult.is_true (r := lpOneToThree.simplex 10 0) (l := [3]) (c := 2)
    (by decide +kernel)
  refine ⟨lpOneToThree, x, 2, e, ?_⟩
  have h1 := h 0 3 rfl
  simp [LPInput.value, lpOneToThree, h1]

/-! ### C74: the algorithm -/

/-- What the ends of the algorithm promise. -/
def SimplexExit.Correct {m n k : Nat} (P : StdLP K m n) (tol : K) : SimplexExit K m n k → Prop
  | .success B _ beta => P.Feasible (basicSolution B beta) ∧
      ∀ y, P.Feasible y → P.value y ≤ P.value (basicSolution B beta) + tol * ∑ j, y j
  | .unbounded => ∀ M, ∃ y, P.Feasible y ∧ M < P.value y
  | .maxIt => True

theorem startBasis_split {m n : Nat} {P : StdLP K m n} {basis noBasis : List Nat}
    (h : P.StartBasis basis noBasis) :
    ∃ B N, columns basis m n = some B ∧ columns noBasis noBasis.length n = some N ∧ IsSplit B N ∧
      ∃ t, P.tableau B N = ok t ∧ ∀ i, 0 ≤ t.beta i := by
  obtain ⟨B, N, b1, n1, hs, b2, n2⟩ := columns_split h.length h.perm
  have hN : ∀ z : Fin n → K, (∀ j : Fin n, j.1 ∈ noBasis → z j = 0) ↔ ∀ q, z (N q) = 0 := by
    intro z
    constructor
    · intro hz q
      exact hz _ (List.mem_of_getElem? (n2 q))
    · intro hz j hj
      obtain ⟨q, hq, e⟩ := List.getElem_of_mem hj
      have := n2 ⟨q, hq⟩
      rw [List.getElem?_eq_getElem hq, e] at this
      rw [show j = N ⟨q, hq⟩ from Fin.ext (Option.some.inj this)]
      exact hz _
  obtain ⟨t, ht⟩ := tableau_ok P N (det_of_independent hs fun z hz hA => h.regular z ((hN z).2 hz) hA)
  obtain ⟨y, hy, h0⟩ := h.feasible
  refine ⟨B, N, b1, n1, hs, t, ht, fun i => ?_⟩
  rw [beta_unique (dictionary hs ht) hy.1 ((hN y).1 h0) i]
  exact hy.2 _

theorem solvePrimal_loop {m n : Nat} {P : StdLP K m n} {basis noBasis : List Nat} (hl : basis.length = m)
    {B : Fin m → Fin n} {N : Fin noBasis.length → Fin n} (b1 : columns basis m n = some B)
    (n1 : columns noBasis noBasis.length n = some N) (maxIt : Nat) (tol : K) :
    P.solvePrimal basis noBasis maxIt tol = P.simplexLoop tol maxIt B N := by
  unfold StdLP.solvePrimal
  rw [if_neg (by simp [hl]), b1, n1]

/-- From a feasible basis the algorithm never does anything undefined; `SUCCESS` comes with a feasible point
whose value is the largest up to the tolerance times the sum of the variables, and `UNBOUNDED` is only
reported if the values are not bounded. -/
theorem c74_simplex {m n : Nat} (P : StdLP K m n) {basis noBasis : List Nat}
    (h : P.StartBasis basis noBasis) (maxIt : Nat) {tol : K} (h0 : 0 ≤ tol)
    (hr : P.PivotsResolved noBasis.length tol) :
    ∃ e, P.solvePrimal basis noBasis maxIt tol = ok e ∧ e.Correct P tol := by
  obtain ⟨B, N, b1, n1, hs, t, ht, hb⟩ := startBasis_split h
  obtain ⟨e, e1, B', N', t', hs', ht', hb', he⟩ := simplexLoop_feasible hr h0 maxIt hs ht hb
  refine ⟨e, by rw [solvePrimal_loop h.length b1 n1, e1], ?_⟩
  have D := dictionary hs' ht'
  have hfeas : P.Feasible (basicSolution B' t'.beta) :=
    ⟨basicSolution_eqs hs' D, basicSolution_nonneg hs' hb'⟩
  cases e with
  | success B1 N1 beta =>
    obtain ⟨rfl, rfl, rfl, hent⟩ := he
    refine ⟨hfeas, fun y hy => (success_gap hs' ht' hent hy.1 fun q => hy.2 _).trans ?_⟩
    gcongr
    rw [hs'.sum y]
    have : 0 ≤ ∑ i, y (B1 i) := Finset.sum_nonneg fun i _ => hy.2 _
    linarith
  | unbounded =>
    obtain ⟨q, hent, hl⟩ := he
    obtain ⟨d, d1, d2, d3⟩ := unbounded_ray hr h0 hs' ht' hent hl
    exact fun M => ray_unbounded hfeas d1 d2 d3 M
  | maxIt => trivial

/-- With the tolerance zero the value is the largest. -/
theorem c74_exact {m n : Nat} (P : StdLP K m n) {basis noBasis : List Nat}
    (h : P.StartBasis basis noBasis) (maxIt : Nat) {B : Fin m → Fin n}
    {N : Fin noBasis.length → Fin n} {beta : Fin m → K}
    (e : P.solvePrimal basis noBasis maxIt 0 = ok (.success B N beta)) :
    P.Feasible (basicSolution B beta) ∧ ∀ y, P.Feasible y → P.value y ≤ P.value (basicSolution B beta) := by
  obtain ⟨e', h1, h2⟩ := c74_simplex P h maxIt (le_refl 0) (pivotsResolved_zero P _)
  rw [e] at h1
  injection h1 with h1
  subst h1
  refine ⟨h2.1, fun y hy => ?_⟩
  simpa using h2.2 y hy

/-- The value of the point of a basis. -/
theorem tableau_beta {m n k : Nat} {P : StdLP K m n} {B : Fin m → Fin n} {N : Fin k → Fin n}
    {t : Tableau K m k} (h : P.tableau B N = ok t) :
    t.beta = ((P.A.submatrix id B).det⁻¹ • (P.A.submatrix id B).adjugate).mulVec P.b := by
  have hd := tableau_det h
  unfold StdLP.tableau at h
  simp only [hd, if_false] at h
  injection h with h
  rw [← h]

/-- If no feasible point has fewer than `m` positive variables, the algorithm ends before the limit as soon as
the limit is at least the number of possible bases. -/
theorem c74_terminates {m n : Nat} (P : StdLP K m n) {basis noBasis : List Nat}
    (h : P.StartBasis basis noBasis) {maxIt : Nat} {tol : K} (h0 : 0 ≤ tol)
    (hr : P.PivotsResolved noBasis.length tol) (hn : P.Nondegenerate) (hm : n ^ m ≤ maxIt) :
    P.solvePrimal basis noBasis maxIt tol ≠ ok .maxIt := by
  obtain ⟨B, N, b1, n1, hs, t, ht, hb⟩ := startBasis_split h
  rw [solvePrimal_loop h.length b1 n1]
  set val : (Fin m → Fin n) → K := fun B => P.value (basicSolution B
    (((P.A.submatrix id B).det⁻¹ • (P.A.submatrix id B).adjugate).mulVec P.b)) with hval
  have key : ∀ (fuel : Nat) (B : Fin m → Fin n) (N : Fin noBasis.length → Fin n)
      (t : Tableau K m noBasis.length), IsSplit B N → P.tableau B N = ok t → (∀ i, 0 ≤ t.beta i) →
      (Finset.univ.filter fun B' => val B < val B').card < fuel →
      P.simplexLoop tol fuel B N ≠ ok .maxIt := by
    intro fuel
    induction fuel with
    | zero => intro _ _ _ _ _ _ hc; exact absurd hc (Nat.not_lt_zero _)
    | succ fuel ih =>
      intro B N t hs ht hb hc
      unfold StdLP.simplexLoop
      rw [ht]
      simp only [ok_bind]
      cases he : entering t.r tol with
      | none => intro hx; injection hx with hx; exact nomatch hx
      | some q =>
        dsimp only
        cases hl : leaving (fun i => t.alpha i q) t.beta tol with
        | none => intro hx; injection hx with hx; exact nomatch hx
        | some p =>
          dsimp only
          have hp := (leaving_some hl).1
          have hneg : t.alpha p q < 0 := by linarith
          obtain ⟨t', ht'⟩ := tableau_ok P (B := Function.update B p (N q))
            (Function.update N q (B p)) (by
              rw [exchange_det ht p q]
              exact mul_ne_zero (neg_ne_zero.2 (tableau_det ht)) hneg.ne)
          have hb' : ∀ i, 0 ≤ t'.beta i := by
            intro i
            obtain ⟨g1, g2⟩ := exchange_nonneg hr h0 hs ht hl (hb p) ht'
            by_cases hi : i = p
            · rw [hi]
              exact g1
            · exact g2 i hi (hb i)
          refine ih _ _ t' (hs.swap p q) ht' hb' ?_
          have hpos : 0 < t.beta p := by
            have := hn B (basicSolution B t.beta)
              ⟨basicSolution_eqs hs (dictionary hs ht), basicSolution_nonneg hs hb⟩ (fun j hj => by
                rcases hs.cases j with ⟨i, hi⟩ | ⟨q', rfl⟩
                · exact absurd hi (hj i)
                · exact basicSolution_other hs _ _) p
            rwa [basicSolution_basic hs] at this
          have hlt : val B < val (Function.update B p (N q)) := by
            obtain ⟨-, -, g3⟩ := exchange_beta hs ht p q hneg.ne ht'
            rw [tableau_beta ht', tableau_beta ht] at g3
            rw [hval]
            dsimp only
            rw [g3]
            have : 0 < -t.beta p / t.alpha p q := div_pos_of_neg_of_neg (by linarith) hneg
            rw [← tableau_beta ht]
            have h3 : 0 < t.r q := lt_of_le_of_lt h0 (entering_some he)
            have := mul_pos this h3
            linarith
          have hss : (Finset.univ.filter fun B' => val (Function.update B p (N q)) < val B')
              ⊂ Finset.univ.filter fun B' => val B < val B' := by
            rw [Finset.ssubset_iff_of_subset]
            · exact ⟨Function.update B p (N q), by simp [hlt], by simp⟩
            · intro B' hB'
              simp only [Finset.mem_filter, Finset.mem_univ, true_and] at hB' ⊢
              exact hlt.trans hB'
          have := Finset.card_lt_card hss
          omega
  refine key maxIt B N t hs ht hb (lt_of_lt_of_le ?_ hm)
  have hss : (Finset.univ.filter fun B' => val B < val B') ⊂ Finset.univ := by
    rw [Finset.ssubset_iff_of_subset (Finset.subset_univ _)]
    exact ⟨B, Finset.mem_univ _, by simp⟩
  have := Finset.card_lt_card hss
  simpa using this

/-! ### C75: the whole computation -/

/-- What the result promises about the given problem; `x0` is the point at which the algorithm starts. -/
def PrimalResult.Correct (p : LPInput K) (x0 : Nat → K) : PrimalResult K → Prop
  | .success x c => p.Feasible x ∧ (∀ x', p.Feasible x' → p.value x' ≤ p.value x) ∧
      c = p.value x - p.value x0
  | .unbounded => ∀ M, ∃ x, p.Feasible x ∧ M < p.value x
  | .noSlack => ∃ r < p.m, p.types r = .eq
  | .maxIt => True

theorem start_point (p : LPInput K) {x0 : Nat → K} (h0 : p.IsStart x0) {i : Nat} (hi : i < p.n) :
    x0 i = p.sgn i * p.lowv i := by
  obtain ⟨h1, h2⟩ := h0 i hi
  unfold LPInput.sgn LPInput.lowv LPInput.low LPInput.norm
  rcases hU : p.UB i with _ | u <;> rcases hL : p.LB i with _ | l
  · simp [(h2 hL).2 (by simp [hU])]
  · simp [h1 l hL]
  · by_cases hu : u ≤ 0
    · simp [hu, (h2 hL).1 u hU hu]
    · simp [hu, (h2 hL).2 (by simpa [hU] using hu)]
  · simp [h1 l hL]

/-- Full statement: the result is a feasible point with the largest value. `_partial`: no variable may have a
negative upper bound and no lower bound; the point with which the algorithm starts, `x0`, must be feasible;
the tolerance must not hide entries. See `c73_sign_violated`, `c75_start_violated`,
`c75_tolerance_violated`. The value that is returned is relative to `x0`. -/
theorem c75_simplex_partial (p : LPInput K) (hf : ∀ i < p.n, p.Flipped i → p.UB i = some 0)
    {x0 : Nat → K} (hx0 : p.IsStart x0) (hfeas : p.Feasible x0) (maxIt : Nat) {tol : K} (h0 : 0 ≤ tol)
    (hr : ∀ f, p.final = ok f → (f.std p.bounds).PivotsResolved f.noSlack.length tol ∧
      (f.std p.bounds).CostsResolved f.noSlack.length tol) :
    ∃ res, p.simplex maxIt tol = ok res ∧ res.Correct p x0 := by
  obtain ⟨f, e, h⟩ := p.final_inv
  obtain ⟨f', e', c1, c2, c3⟩ := c73_equality_form_partial p hf
  rw [e] at e'
  injection e' with e'
  subst e'
  obtain ⟨hr1, hr2⟩ := hr f e
  unfold LPInput.simplex
  simp only [e, ok_bind]
  by_cases hne : ∀ r < p.m, p.types r ≠ .eq
  · have hlen := h.slack_length.2 hne
    rw [if_neg (not_not.2 hlen)]
    obtain ⟨B, N, b1, n1, hs, n2, t, ht⟩ := h.first hne
    rw [solvePrimal_loop hlen b1 n1]
    have hb : ∀ i, 0 ≤ t.beta i := by
      obtain ⟨y, y0, y1, y2, y3, y4, y5⟩ := h.start hne
      intro i
      rw [beta_unique (dictionary hs ht) y0 ((h.zero_noSlack n2).2 ⟨y1, y2⟩) i,
        ← LPInput.ext_of_lt y (B i).2]
      have hpt : ∀ i < p.n, p.point (LPInput.ext y) i = x0 i := by
        intro i hi
        unfold LPInput.point
        rw [y3 i hi, start_point p hx0 hi, zero_add]
      rcases p.col_cases (B i).2 with hc | ⟨j, hj, hjs, hc⟩ | ⟨j, hj, hl, hc⟩ | ⟨r, hrm, hrt, hc⟩
      · rw [y1 _ hc]
      · obtain ⟨u, hu⟩ := Option.isSome_iff_exists.1 hjs
        rw [hc, y4 j hj u hu]
        have := ((p.inBounds_iff x0 j).1 (hfeas.1 j hj)).2 u hu
        rw [start_point p hx0 hj, ← mul_assoc, p.sgn_mul_self, one_mul, sub_self] at this
        exact this
      · rw [hc, y2 j hj hl]
      · rw [hc, y5 r hrm]
        have h1 := (p.rowHolds_iff x0 r).1 (hfeas.2 r hrm)
        have h2 : p.lhs (p.point (LPInput.ext y)) r = p.lhs x0 r := by
          unfold LPInput.lhs
          refine Finset.sum_congr rfl fun i hi => ?_
          rw [hpt i (Finset.mem_range.1 hi)]
        rw [h2]
        simp only [hrt, if_false] at h1
        linarith
    obtain ⟨ex, e1, B', N', t', hs', ht', hb', he⟩ := simplexLoop_feasible hr1 h0 maxIt hs ht hb
    rw [e1]
    have D := dictionary hs' ht'
    have hbf : (f.std p.bounds).Feasible (basicSolution B' t'.beta) :=
      ⟨basicSolution_eqs hs' D, basicSolution_nonneg hs' hb'⟩
    cases ex with
    | success B1 N1 beta =>
      obtain ⟨rfl, rfl, rfl, hent⟩ := he
      refine ⟨_, rfl, c1 _ hbf, fun x' hx' => ?_, ?_⟩
      · obtain ⟨y, hy, hxy⟩ := c2 x' hx'
        have hval : p.value x' = p.value (f.solution p.bounds y) := by
          unfold LPInput.value
          refine Finset.sum_congr rfl fun i hi => ?_
          rw [hxy i (Finset.mem_range.1 hi)]
        rw [hval, ← c3, ← c3, D.value hs' hy.1, basicSolution_value hs' D]
        have : ∑ q, t'.r q * y (N1 q) ≤ 0 := by
          refine Finset.sum_nonpos fun q _ => mul_nonpos_of_nonpos_of_nonneg ?_ (hy.2 _)
          by_contra hpos
          have h1 := hr2 _ _ _ ht' q (not_le.1 hpos)
          exact absurd (entering_none hent q) (not_le.2 h1)
        linarith
      · have h1 := c3 (basicSolution B1 t'.beta)
        have h2 : p.bounds.traslCost = p.value x0 := by
          rw [p.bounds_traslCost]
          unfold LPInput.value
          refine Finset.sum_congr rfl fun i hi => ?_
          rw [start_point p hx0 (Finset.mem_range.1 hi)]
          ring
        rw [← h1, ← h2]
        unfold StdLP.value
        ring
    | unbounded =>
      obtain ⟨q, hent, hl⟩ := he
      obtain ⟨d, d1, d2, d3⟩ := unbounded_ray hr1 h0 hs' ht' hent hl
      refine ⟨_, rfl, fun M => ?_⟩
      obtain ⟨y, hy, hM⟩ := ray_unbounded hbf d1 d2 d3 (M - p.bounds.traslCost)
      exact ⟨_, c1 y hy, by rw [← c3]; linarith⟩
    | maxIt => exact ⟨_, rfl, trivial⟩
  · have hlen : f.slack.length ≠ p.bounds.mFinal := fun hl => hne (h.slack_length.1 hl)
    rw [if_pos hlen]
    refine ⟨_, rfl, ?_⟩
    push Not at hne
    exact hne

/-- With the tolerance zero nothing is hidden. -/
theorem c75_exact_partial (p : LPInput K) (hf : ∀ i < p.n, p.Flipped i → p.UB i = some 0)
    {x0 : Nat → K} (hx0 : p.IsStart x0) (hfeas : p.Feasible x0) (maxIt : Nat) :
    ∃ res, p.simplex maxIt 0 = ok res ∧ res.Correct p x0 :=
  c75_simplex_partial p hf hx0 hfeas maxIt (le_refl 0) fun _ _ =>
    ⟨pivotsResolved_zero _ _, fun _ _ _ _ _ h => h⟩

/-- A problem is refused exactly if one of its constraints is an equality. -/
theorem c75_no_slack (p : LPInput K) (maxIt : Nat) (tol : K) :
    p.simplex maxIt tol = ok .noSlack ↔ ∃ r < p.m, p.types r = .eq := by
  obtain ⟨f, e, h⟩ := p.final_inv
  unfold LPInput.simplex
  simp only [e, ok_bind]
  constructor
  · intro hx
    by_contra hne
    push Not at hne
    rw [if_neg (not_not.2 (h.slack_length.2 hne))] at hx
    rw [bind_eq_ok] at hx
    obtain ⟨ex, -, hx⟩ := hx
    cases ex <;> (injection hx with hx; exact nomatch hx)
  · intro hex
    rw [if_pos]
    intro hl
    obtain ⟨r, hr, ht⟩ := hex
    exact h.slack_length.1 hl r hr ht

/-- The smallest `x ≥ 0` with `x ≥ 1`. -/
def lpAtLeastOne : LPInput ℚ where
  n := 1
  m := 1
  cost := fun _ => -1
  A := fun _ _ => 1
  b := fun _ => 1
  types := fun _ => .ge
  LB := fun _ => some 0
  UB := fun _ => none

/-- If the point of the start is not feasible, a point that is not feasible can be returned with `SUCCESS`:
the smallest `x ≥ 0` with `x ≥ 1` is said to be zero. -/
theorem c75_start_violated :
    ∃ p : LPInput ℚ, ∃ x c, p.simplex 10 0 = ok (.success x c) ∧ (∃ x', p.Feasible x') ∧
      ¬ p.Feasible x := by
  obtain ⟨x, e, h⟩ := PrimalResult.is_true (r := lpAtLeastOne.simplex 10 0) (l := [0]) (c := 0)
    (by decide +kernel)
  refine ⟨lpAtLeastOne, x, 0, e, ⟨fun _ => 1, ?_, ?_⟩, fun hx => ?_⟩
  · intro i _
    refine ⟨fun l hl => ?_, fun u hu => ?_⟩
    · simp [lpAtLeastOne] at hl
      rw [← hl]
      norm_num
    · simp [lpAtLeastOne] at hu
  · intro r hr
    simp [lpAtLeastOne, LPInput.RowHolds, LPInput.lhs]
  · have h1 := hx.2 0 (by simp [lpAtLeastOne])
    have h2 : (1 : ℚ) ≤ x 0 := by simpa [lpAtLeastOne, LPInput.RowHolds, LPInput.lhs] using h1
    rw [h 0 0 rfl] at h2
    norm_num at h2

/-- The largest `x ≥ 0` with `10^-13 x ≤ 1`. -/
def lpSmallEntry : LPInput ℚ where
  n := 1
  m := 1
  cost := fun _ => 1
  A := fun _ _ => 1 / 10 ^ 13
  b := fun _ => 1
  types := fun _ => .le
  LB := fun _ => some 0
  UB := fun _ => none

/-- With the tolerance `10^-12` of the code a bounded problem with a small entry is said to be unbounded. -/
theorem c75_tolerance_violated :
    ∃ p : LPInput ℚ, p.simplex 1000 (1 / 10 ^ 12) = ok .unbounded ∧
      ∃ M, ∀ x, p.Feasible x → p.value x ≤ M := by
  refine ⟨lpSmallEntry, ?_, 10 ^ 13, fun x hx => ?_⟩
  · have h : (match lpSmallEntry.simplex 1000 (1 / 10 ^ 12) with
      | ok .unbounded => true
      | _ => false) = true := by decide +kernel
    split at h
    · assumption
    · exact absurd h (by simp)
  · have h1 := hx.2 0 (by simp [lpSmallEntry])
    have h2 : 1 / 10 ^ 13 * x 0 ≤ (1 : ℚ) := by
      simpa [lpSmallEntry, LPInput.RowHolds, LPInput.lhs] using h1
    have h3 : lpSmallEntry.value x = x 0 := by simp [LPInput.value, lpSmallEntry]
    rw [h3]
    linarith

/-- Two constraints: `x + y ≤ 4` and `2 x + y ≤ 5`, value `3 x + 2 y`. -/
def lpTwo : LPInput ℚ where
  n := 2
  m := 2
  cost := fun c => if c = 0 then 3 else 2
  A := fun r c => if r = 0 then 1 else if c = 0 then 2 else 1
  b := fun r => if r = 0 then 4 else 5
  types := fun _ => .le
  LB := fun _ => some 0
  UB := fun _ => none

example : (∀ i < lpTwo.n, lpTwo.Flipped i → lpTwo.UB i = some 0) ∧ lpTwo.IsStart (fun _ => 0) ∧
    lpTwo.Feasible (fun _ => 0) := by
  refine ⟨?_, ?_, ?_, ?_⟩
  · rintro i - ⟨h, -⟩
    simp [lpTwo] at h
  · intro i _
    simp [lpTwo]
  · intro i _
    simp [lpTwo, LPInput.InBounds]
  · intro r _
    by_cases hr : r = 0 <;> simp [lpTwo, LPInput.RowHolds, LPInput.lhs, hr]

example : ∃ x, lpTwo.simplex 10 0 = ok (.success x 9) ∧ x 0 = 1 ∧ x 1 = 3 := by
  obtain ⟨x, e, h⟩ := PrimalResult.is_true (r := lpTwo.simplex 10 0) (l := [1, 3]) (c := 9)
    (by decide +kernel)
  exact ⟨x, e, h 0 1 rfl, h 1 3 rfl⟩

/-- `y₀ + y₁ = 2`, value `y₀`. -/
def stdTwo : StdLP ℚ 1 2 where
  A := Matrix.of fun _ _ => 1
  b := fun _ => 2
  c := fun j => if j = 0 then 1 else 0

theorem stdTwo_start : stdTwo.StartBasis [1] [0] where
  length := rfl
  perm := by decide
  regular := by
    intro z h1 h2 j
    have a := h1 0 (by simp)
    have b := h2 0
    simp [stdTwo, a] at b
    fin_cases j
    · exact a
    · exact b
  feasible := by
    refine ⟨fun j => if j = 0 then 0 else 2, ⟨fun i => ?_, fun j => ?_⟩, fun j hj => ?_⟩
    · simp [stdTwo]
    · fin_cases j <;> simp
    · simp at hj
      simp [hj]

example : stdTwo.StartBasis [1] [0] ∧ stdTwo.PivotsResolved 1 0 ∧ stdTwo.Nondegenerate ∧ 2 ^ 1 ≤ 2 := by
  refine ⟨stdTwo_start, pivotsResolved_zero _ _, ?_, by norm_num⟩
  intro B y hy h0 i
  have h1 := hy.1 0
  simp [stdTwo] at h1
  have hi : i = 0 := Subsingleton.elim _ _
  subst hi
  have hB : ∀ i, B i = B 0 := fun i => by rw [Subsingleton.elim i 0]
  rcases Fin.exists_fin_two.1 ⟨B 0, rfl⟩ with hb | hb
  · have := h0 1 (fun i => by rw [hB i, hb]; decide)
    rw [this] at h1
    rw [hb]
    linarith
  · have := h0 0 (fun i => by rw [hB i, hb]; decide)
    rw [this] at h1
    rw [hb]
    linarith

end Verif
