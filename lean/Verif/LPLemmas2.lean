import Verif.LPLemmas
import Mathlib.LinearAlgebra.Matrix.ToLinearEquiv

/-
The ends of the simplex loop, and the lists of columns as bases.
-/
namespace Verif

open Res

variable {K : Type} [Field K] [LinearOrder K] [IsStrictOrderedRing K]

section
variable {m n k : Nat}

theorem pivotsResolved_zero (P : StdLP K m n) (k : Nat) : P.PivotsResolved k 0 := by
  intro B N t _ i q h
  simpa using h

/-- The exchange keeps a sign: rows whose entry is seen by the search keep non-negative values, the other
rows do not decrease. -/
theorem exchange_nonneg {P : StdLP K m n} {tol : K} (hr : P.PivotsResolved k tol) (h0 : 0 ≤ tol)
    {B : Fin m → Fin n} {N : Fin k → Fin n} {t t' : Tableau K m k} (hs : IsSplit B N)
    (h : P.tableau B N = ok t) {p : Fin m} {q : Fin k}
    (hl : leaving (fun i => t.alpha i q) t.beta tol = some p) (hp : 0 ≤ t.beta p)
    (h' : P.tableau (Function.update B p (N q)) (Function.update N q (B p)) = ok t') :
    0 ≤ t'.beta p ∧ ∀ i, i ≠ p → 0 ≤ t.beta i → 0 ≤ t'.beta i := by
  obtain ⟨l1, l2⟩ := leaving_some hl
  have hneg : t.alpha p q < 0 := by linarith
  obtain ⟨e1, e2, -⟩ := exchange_beta hs h p q hneg.ne h'
  have hstep : 0 ≤ -t.beta p / t.alpha p q := div_nonneg_of_nonpos (by linarith) hneg.le
  refine ⟨e1 ▸ hstep, fun i hi hb => ?_⟩
  rw [e2 i hi]
  by_cases ha : t.alpha i q < 0
  · have := l2 i (hr _ _ _ h i q ha)
    have h3 : -t.beta i / t.alpha i q * t.alpha i q ≤ -t.beta p / t.alpha p q * t.alpha i q :=
      mul_le_mul_of_nonpos_right this ha.le
    rw [div_mul_cancel₀ _ ha.ne] at h3
    linarith
  · have := mul_nonneg hstep (not_lt.1 ha)
    linarith

/-- Success: the value is largest up to the tolerance. -/
theorem success_gap {P : StdLP K m n} {tol : K} {B : Fin m → Fin n} {N : Fin k → Fin n}
    {t : Tableau K m k} (hs : IsSplit B N) (h : P.tableau B N = ok t) (he : entering t.r tol = none)
    {y : Fin n → K} (hy : ∀ i, ∑ j, P.A i j * y j = P.b i) (hN : ∀ q, 0 ≤ y (N q)) :
    P.value y ≤ P.value (basicSolution B t.beta) + tol * ∑ q, y (N q) := by
  have D := dictionary hs h
  rw [D.value hs hy, basicSolution_value hs D, Finset.mul_sum]
  gcongr with q _
  · exact hN q
  · exact entering_none he q

/-- A direction without a limit. -/
theorem unbounded_ray {P : StdLP K m n} {tol : K} (hr : P.PivotsResolved k tol) (h0 : 0 ≤ tol)
    {B : Fin m → Fin n} {N : Fin k → Fin n} {t : Tableau K m k} (hs : IsSplit B N)
    (h : P.tableau B N = ok t) {q : Fin k} (he : entering t.r tol = some q)
    (hl : leaving (fun i => t.alpha i q) t.beta tol = none) :
    ∃ d : Fin n → K, (∀ i, ∑ j, P.A i j * d j = 0) ∧ (∀ j, 0 ≤ d j) ∧ 0 < P.value d := by
  have D := dictionary hs h
  obtain ⟨d, d1, d2, d3, d4, d5⟩ := D.edge hs q
  refine ⟨d, d1, fun j => ?_, ?_⟩
  · rcases hs.cases j with ⟨i, rfl⟩ | ⟨q', rfl⟩
    · rw [d2]
      by_contra hneg
      have h1 := hr _ _ _ h i q (not_le.1 hneg)
      exact absurd (leaving_none hl i) (not_le.2 h1)
    · by_cases hq : q' = q
      · rw [hq, d3]
        exact zero_le_one
      · rw [d4 q' hq]
  · rw [d5]
    exact lt_of_le_of_lt h0 (entering_some he)

theorem ray_unbounded {P : StdLP K m n} {y d : Fin n → K} (hy : P.Feasible y)
    (d1 : ∀ i, ∑ j, P.A i j * d j = 0) (d2 : ∀ j, 0 ≤ d j) (d3 : 0 < P.value d) (M : K) :
    ∃ y', P.Feasible y' ∧ M < P.value y' := by
  have hs : 0 ≤ (|M - P.value y| + 1) / P.value d := by positivity
  refine ⟨fun j => y j + (|M - P.value y| + 1) / P.value d * d j,
    ⟨eqs_add hy.1 d1 _, fun j => add_nonneg (hy.2 j) (mul_nonneg hs (d2 j))⟩, ?_⟩
  rw [value_add, div_mul_cancel₀ _ d3.ne']
  have := le_abs_self (M - P.value y)
  linarith

/-- The loop from a basis with non-negative values. -/
theorem simplexLoop_feasible {P : StdLP K m n} {tol : K} (hr : P.PivotsResolved k tol) (h0 : 0 ≤ tol)
    (fuel : Nat) {B : Fin m → Fin n} {N : Fin k → Fin n} {t : Tableau K m k} (hs : IsSplit B N)
    (ht : P.tableau B N = ok t) (hb : ∀ i, 0 ≤ t.beta i) :
    ∃ e, P.simplexLoop tol fuel B N = ok e ∧
      ∃ B' N' t', IsSplit B' N' ∧ P.tableau B' N' = ok t' ∧ (∀ i, 0 ≤ t'.beta i) ∧
        e.Ends P tol B' N' t' := by
  refine simplexLoop_inv P tol h0 (fun _ _ t => ∀ i, 0 ≤ t.beta i) ?_ fuel B N t hs ht hb
  intro B N t t' q p hs ht hb _ hl ht' i
  obtain ⟨h1, h2⟩ := exchange_nonneg hr h0 hs ht hl (hb p) ht'
  by_cases hi : i = p
  · rw [hi]
    exact h1
  · exact h2 i hi (hb i)

theorem basicSolution_nonneg {B : Fin m → Fin n} {N : Fin k → Fin n} (hs : IsSplit B N) {beta : Fin m → K}
    (hb : ∀ i, 0 ≤ beta i) (j : Fin n) : 0 ≤ basicSolution B beta j := by
  rcases hs.cases j with ⟨i, rfl⟩ | ⟨q, rfl⟩
  · rw [basicSolution_basic hs]
    exact hb i
  · rw [basicSolution_other hs]

/-! ### Lists of columns -/

theorem columns_some {l : List Nat} {m n : Nat} (h1 : l.length = m) (h2 : ∀ x ∈ l, x < n) :
    ∃ B, columns l m n = some B ∧ ∀ (i : Fin m), l[i.1]? = some (B i).1 := by
  refine ⟨_, dif_pos ⟨h1, h2⟩, fun i => ?_⟩
  have : i.1 < l.length := by rw [h1]; exact i.2
  rw [List.getElem?_eq_getElem this]

theorem columns_split {basis noBasis : List Nat} (h1 : basis.length = m)
    (hp : (basis ++ noBasis).Perm (List.range n)) :
    ∃ B N, columns basis m n = some B ∧ columns noBasis noBasis.length n = some N ∧ IsSplit B N ∧
      (∀ i : Fin m, basis[i.1]? = some (B i).1) ∧ ∀ q : Fin noBasis.length, noBasis[q.1]? = some (N q).1 := by
  have hlt : ∀ x ∈ basis ++ noBasis, x < n := fun x hx => List.mem_range.1 (hp.mem_iff.1 hx)
  obtain ⟨B, b1, b2⟩ := columns_some (n := n) h1 fun x hx => hlt x (List.mem_append_left _ hx)
  obtain ⟨N, n1, n2⟩ := columns_some (n := n) (rfl : noBasis.length = _)
    fun x hx => hlt x (List.mem_append_right _ hx)
  refine ⟨B, N, b1, n1, ?_, b2, n2⟩
  unfold IsSplit
  rw [Fintype.bijective_iff_surjective_and_card]
  constructor
  · intro j
    have hj : j.1 ∈ basis ++ noBasis := hp.mem_iff.2 (List.mem_range.2 j.2)
    rcases List.mem_append.1 hj with hj | hj
    · obtain ⟨i, hi, e⟩ := List.getElem_of_mem hj
      refine ⟨Sum.inl ⟨i, h1 ▸ hi⟩, ?_⟩
      have := b2 ⟨i, h1 ▸ hi⟩
      rw [List.getElem?_eq_getElem hi, e] at this
      exact Fin.ext (Option.some.inj this).symm
    · obtain ⟨i, hi, e⟩ := List.getElem_of_mem hj
      refine ⟨Sum.inr ⟨i, hi⟩, ?_⟩
      have := n2 ⟨i, hi⟩
      rw [List.getElem?_eq_getElem hi, e] at this
      exact Fin.ext (Option.some.inj this).symm
  · have := hp.length_eq
    simp only [List.length_append, List.length_range, h1] at this
    simp [this]

theorem det_of_independent {P : StdLP K m n} {B : Fin m → Fin n} {N : Fin k → Fin n} (hs : IsSplit B N)
    (hi : ∀ z : Fin n → K, (∀ q, z (N q) = 0) → (∀ i, ∑ j, P.A i j * z j = 0) → ∀ j, z j = 0) :
    (P.A.submatrix id B).det ≠ 0 := by
  intro hd
  obtain ⟨v, hv, h⟩ := Matrix.exists_mulVec_eq_zero_iff.2 hd
  obtain ⟨z, z1, z2⟩ := hs.exists_point v (fun _ => (0 : K))
  have := hi z z2 fun i => by
    rw [hs.sum fun j => P.A i j * z j]
    have h1 := congrFun h i
    simp only [z1, z2, mul_zero, Finset.sum_const_zero, add_zero]
    exact h1
  apply hv
  funext i
  rw [← z1 i]
  exact this _

end

end Verif
