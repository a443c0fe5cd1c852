import Verif.QuadSpec
import Mathlib.Tactic.FieldSimp
import Mathlib.Tactic.Ring
import Mathlib.Tactic.Linarith
import Mathlib.Tactic.Positivity

/-
Helper lemmas: integrals of monomials and the step from monomials to polynomials.
-/
namespace Verif

open intervalIntegral

theorem beta_int (s : ℝ) (b n : ℕ) :
    ∫ y in (0 : ℝ)..s, y ^ b * (s - y) ^ n =
      (b.factorial * n.factorial : ℝ) / (b + n + 1).factorial * s ^ (b + n + 1) := by
  induction n generalizing b with
  | zero =>
    simp only [pow_zero, mul_one, integral_pow, Nat.add_zero, Nat.factorial_zero, Nat.cast_one]
    rw [Nat.factorial_succ]
    have h : (b.factorial : ℝ) ≠ 0 := by positivity
    have h' : (b : ℝ) + 1 ≠ 0 := by positivity
    push_cast
    rw [zero_pow (by omega)]
    field_simp
    ring
  | succ n ih =>
    have hd : ∀ y ∈ Set.uIcc (0 : ℝ) s, HasDerivAt (fun y : ℝ => y ^ (b + 1) * (s - y) ^ (n + 1))
        ((b + 1 : ℝ) * (y ^ b * (s - y) ^ (n + 1)) - (n + 1 : ℝ) * (y ^ (b + 1) * (s - y) ^ n)) y := by
      intro y _
      have h1 : HasDerivAt (fun y : ℝ => y ^ (b + 1)) (((b + 1 : ℕ) : ℝ) * y ^ b) y := by
        simpa using hasDerivAt_pow (b + 1) y
      have h2 : HasDerivAt (fun y : ℝ => (s - y) ^ (n + 1)) (((n + 1 : ℕ) : ℝ) * (s - y) ^ n * (-1)) y := by
        have h3 : HasDerivAt (fun y : ℝ => s - y) (-1) y := by
          simpa using (hasDerivAt_id y).const_sub s
        have := h3.pow (n + 1)
        rw [Nat.add_sub_cancel] at this
        exact this
      have h4 := h1.mul h2
      have e : ((b + 1 : ℕ) : ℝ) * y ^ b * (s - y) ^ (n + 1) +
          y ^ (b + 1) * (((n + 1 : ℕ) : ℝ) * (s - y) ^ n * (-1)) =
          (b + 1 : ℝ) * (y ^ b * (s - y) ^ (n + 1)) - (n + 1 : ℝ) * (y ^ (b + 1) * (s - y) ^ n) := by
        push_cast
        ring
      rw [← e]
      exact h4
    have hi : IntervalIntegrable (fun y : ℝ => (b + 1 : ℝ) * (y ^ b * (s - y) ^ (n + 1)) -
        (n + 1 : ℝ) * (y ^ (b + 1) * (s - y) ^ n)) MeasureTheory.volume 0 s :=
      Continuous.intervalIntegrable (by fun_prop) _ _
    have h := integral_eq_sub_of_hasDerivAt hd hi
    rw [integral_sub (Continuous.intervalIntegrable (by fun_prop) _ _)
      (Continuous.intervalIntegrable (by fun_prop) _ _), integral_const_mul, integral_const_mul,
      ih (b + 1)] at h
    simp only [sub_self, ne_eq, Nat.add_eq_zero_iff, one_ne_zero, and_false, not_false_eq_true, zero_pow,
      mul_zero, zero_mul] at h
    have hb : (b : ℝ) + 1 ≠ 0 := by positivity
    have e : (b + 1 + n + 1) = (b + (n + 1) + 1) := by omega
    rw [e] at h
    have : ∫ y in (0 : ℝ)..s, y ^ b * (s - y) ^ (n + 1) =
        (n + 1 : ℝ) / (b + 1) * (((b + 1).factorial * n.factorial : ℝ) / (b + (n + 1) + 1).factorial *
          s ^ (b + (n + 1) + 1)) := by
      field_simp
      field_simp at h
      linarith
    rw [this, Nat.factorial_succ b, Nat.factorial_succ n]
    push_cast
    field_simp

theorem triangle_monomial (a b : ℕ) :
    triangleInt (fun x y => x ^ a * y ^ b) =
      (a.factorial * b.factorial : ℝ) / (a + b + 2).factorial := by
  unfold triangleInt
  have h : ∀ x : ℝ, ∫ y in (0 : ℝ)..(1 - x), x ^ a * y ^ b = x ^ a * (1 - x) ^ (b + 1) * (1 / (b + 1)) := by
    intro x
    rw [integral_const_mul, integral_pow, zero_pow (by omega)]
    ring
  simp only [h]
  rw [integral_mul_const, beta_int, one_pow, Nat.factorial_succ b, show a + (b + 1) + 1 = a + b + 2 by omega]
  have hb : (b : ℝ) + 1 ≠ 0 := by positivity
  push_cast
  field_simp

theorem tetra_monomial (a b c : ℕ) :
    tetraInt (fun x y z => x ^ a * y ^ b * z ^ c) =
      (a.factorial * b.factorial * c.factorial : ℝ) / (a + b + c + 3).factorial := by
  unfold tetraInt
  have h : ∀ x : ℝ, ∫ y in (0 : ℝ)..(1 - x), ∫ z in (0 : ℝ)..(1 - x - y), x ^ a * y ^ b * z ^ c =
      x ^ a * (1 - x) ^ (b + c + 2) *
        ((b.factorial * (c + 1).factorial : ℝ) / (b + (c + 1) + 1).factorial * (1 / (c + 1))) := by
    intro x
    have h' : ∀ y : ℝ, ∫ z in (0 : ℝ)..(1 - x - y), x ^ a * y ^ b * z ^ c =
        y ^ b * (1 - x - y) ^ (c + 1) * (x ^ a * (1 / (c + 1))) := by
      intro y
      rw [integral_const_mul, integral_pow, zero_pow (by omega)]
      ring
    simp only [h']
    rw [integral_mul_const, beta_int, show b + (c + 1) + 1 = b + c + 2 by omega]
    ring
  simp only [h]
  rw [integral_mul_const, beta_int, one_pow, show a + (b + c + 2) + 1 = a + b + c + 3 by omega,
    show b + (c + 1) + 1 = b + c + 2 by omega, Nat.factorial_succ c]
  have hc : (c : ℝ) + 1 ≠ 0 := by positivity
  push_cast
  field_simp

theorem segment_monomial (a : ℕ) : ∫ x in (0 : ℝ)..1, x ^ a = 1 / ((a : ℝ) + 1) := by
  rw [integral_pow, one_pow, zero_pow (by omega), sub_zero]

theorem square_monomial (a b : ℕ) :
    squareInt (fun x y => x ^ a * y ^ b) = 1 / ((a : ℝ) + 1) * (1 / ((b : ℝ) + 1)) := by
  unfold squareInt
  simp only [integral_const_mul, segment_monomial, integral_mul_const]

theorem cube_monomial (a b c : ℕ) :
    cubeInt (fun x y z => x ^ a * y ^ b * z ^ c) =
      1 / ((a : ℝ) + 1) * (1 / ((b : ℝ) + 1)) * (1 / ((c : ℝ) + 1)) := by
  unfold cubeInt
  simp only [integral_const_mul, segment_monomial, integral_mul_const]

/-! From monomials to polynomials. -/

theorem triangle_sum {ι : Type*} (s : Finset ι) (k : ι → ℝ) (a b : ι → ℕ) :
    triangleInt (fun x y => ∑ i ∈ s, k i * (x ^ a i * y ^ b i)) =
      ∑ i ∈ s, k i * triangleInt fun x y => x ^ a i * y ^ b i := by
  unfold triangleInt
  have h : ∀ x : ℝ, ∫ y in (0 : ℝ)..(1 - x), ∑ i ∈ s, k i * (x ^ a i * y ^ b i) =
      ∑ i ∈ s, k i * (x ^ a i * ((1 - x) ^ (b i + 1) * (1 / (b i + 1)))) := by
    intro x
    rw [integral_finset_sum fun i _ => Continuous.intervalIntegrable (by fun_prop) _ _]
    refine Finset.sum_congr rfl fun i _ => ?_
    rw [integral_const_mul, integral_const_mul, integral_pow, zero_pow (by omega)]
    ring
  simp only [h]
  rw [integral_finset_sum fun i _ => Continuous.intervalIntegrable (by fun_prop) _ _]
  refine Finset.sum_congr rfl fun i _ => ?_
  rw [integral_const_mul]
  congr 1
  refine integral_congr fun x _ => ?_
  rw [integral_const_mul, integral_pow, zero_pow (by omega)]
  ring

theorem square_sum {ι : Type*} (s : Finset ι) (k : ι → ℝ) (a b : ι → ℕ) :
    squareInt (fun x y => ∑ i ∈ s, k i * (x ^ a i * y ^ b i)) =
      ∑ i ∈ s, k i * squareInt fun x y => x ^ a i * y ^ b i := by
  unfold squareInt
  have h : ∀ x : ℝ, ∫ y in (0 : ℝ)..1, ∑ i ∈ s, k i * (x ^ a i * y ^ b i) =
      ∑ i ∈ s, k i * (x ^ a i * (1 / ((b i : ℝ) + 1))) := by
    intro x
    rw [integral_finset_sum fun i _ => Continuous.intervalIntegrable (by fun_prop) _ _]
    refine Finset.sum_congr rfl fun i _ => ?_
    rw [integral_const_mul, integral_const_mul, segment_monomial]
  simp only [h]
  rw [integral_finset_sum fun i _ => Continuous.intervalIntegrable (by fun_prop) _ _]
  refine Finset.sum_congr rfl fun i _ => ?_
  rw [integral_const_mul]
  congr 1
  refine integral_congr fun x _ => ?_
  rw [integral_const_mul, segment_monomial]

theorem tetra_sum {ι : Type*} (s : Finset ι) (k : ι → ℝ) (a b c : ι → ℕ) :
    tetraInt (fun x y z => ∑ i ∈ s, k i * (x ^ a i * y ^ b i * z ^ c i)) =
      ∑ i ∈ s, k i * tetraInt fun x y z => x ^ a i * y ^ b i * z ^ c i := by
  have h1 : ∀ i, ∀ x y : ℝ, ∫ z in (0 : ℝ)..(1 - x - y), x ^ a i * y ^ b i * z ^ c i =
      x ^ a i * (1 / ((c i : ℝ) + 1)) * (y ^ b i * (1 - x - y) ^ (c i + 1)) := by
    intro i x y
    rw [integral_const_mul, integral_pow, zero_pow (by omega)]
    ring
  have h2 : ∀ i, ∀ x : ℝ, ∫ y in (0 : ℝ)..(1 - x), ∫ z in (0 : ℝ)..(1 - x - y),
      x ^ a i * y ^ b i * z ^ c i = x ^ a i * (1 / ((c i : ℝ) + 1)) *
        (((b i).factorial * (c i + 1).factorial : ℝ) / (b i + (c i + 1) + 1).factorial *
          (1 - x) ^ (b i + (c i + 1) + 1)) := by
    intro i x
    simp only [h1]
    rw [integral_const_mul, beta_int]
  unfold tetraInt
  have e1 : ∀ x y : ℝ, ∫ z in (0 : ℝ)..(1 - x - y), ∑ i ∈ s, k i * (x ^ a i * y ^ b i * z ^ c i) =
      ∑ i ∈ s, k i * (x ^ a i * (1 / ((c i : ℝ) + 1)) * (y ^ b i * (1 - x - y) ^ (c i + 1))) := by
    intro x y
    rw [integral_finset_sum fun i _ => Continuous.intervalIntegrable (by fun_prop) _ _]
    refine Finset.sum_congr rfl fun i _ => ?_
    rw [integral_const_mul, h1]
  have e2 : ∀ x : ℝ, ∫ y in (0 : ℝ)..(1 - x), ∫ z in (0 : ℝ)..(1 - x - y),
      ∑ i ∈ s, k i * (x ^ a i * y ^ b i * z ^ c i) =
      ∑ i ∈ s, k i * (x ^ a i * (1 / ((c i : ℝ) + 1)) *
        (((b i).factorial * (c i + 1).factorial : ℝ) / (b i + (c i + 1) + 1).factorial *
          (1 - x) ^ (b i + (c i + 1) + 1))) := by
    intro x
    simp only [e1]
    rw [integral_finset_sum fun i _ => Continuous.intervalIntegrable (by fun_prop) _ _]
    refine Finset.sum_congr rfl fun i _ => ?_
    rw [integral_const_mul, integral_const_mul, beta_int]
  simp only [e2, h2]
  rw [integral_finset_sum fun i _ => Continuous.intervalIntegrable (by fun_prop) _ _]
  refine Finset.sum_congr rfl fun i _ => ?_
  rw [integral_const_mul]

theorem cube_sum {ι : Type*} (s : Finset ι) (k : ι → ℝ) (a b c : ι → ℕ) :
    cubeInt (fun x y z => ∑ i ∈ s, k i * (x ^ a i * y ^ b i * z ^ c i)) =
      ∑ i ∈ s, k i * cubeInt fun x y z => x ^ a i * y ^ b i * z ^ c i := by
  unfold cubeInt
  have e1 : ∀ x y : ℝ, ∫ z in (0 : ℝ)..1, ∑ i ∈ s, k i * (x ^ a i * y ^ b i * z ^ c i) =
      ∑ i ∈ s, k i * (x ^ a i * y ^ b i * (1 / ((c i : ℝ) + 1))) := by
    intro x y
    rw [integral_finset_sum fun i _ => Continuous.intervalIntegrable (by fun_prop) _ _]
    refine Finset.sum_congr rfl fun i _ => ?_
    rw [integral_const_mul, integral_const_mul, segment_monomial]
  have e2 : ∀ x : ℝ, ∫ y in (0 : ℝ)..1, ∫ z in (0 : ℝ)..1,
      ∑ i ∈ s, k i * (x ^ a i * y ^ b i * z ^ c i) =
      ∑ i ∈ s, k i * (x ^ a i * (1 / ((b i : ℝ) + 1)) * (1 / ((c i : ℝ) + 1))) := by
    intro x
    simp only [e1]
    rw [integral_finset_sum fun i _ => Continuous.intervalIntegrable (by fun_prop) _ _]
    refine Finset.sum_congr rfl fun i _ => ?_
    rw [integral_const_mul, integral_mul_const, integral_const_mul, segment_monomial]
  simp only [e2]
  rw [integral_finset_sum fun i _ => Continuous.intervalIntegrable (by fun_prop) _ _]
  refine Finset.sum_congr rfl fun i _ => ?_
  simp only [integral_const_mul, segment_monomial, integral_mul_const]

/-! A rule is linear. -/

theorem apply_sum {ι : Type*} (r : QRule) (s : Finset ι) (k : ι → ℝ) (f : ι → ℝ → ℝ → ℝ → ℝ) :
    r.apply (fun x y z => ∑ i ∈ s, k i * f i x y z) = ∑ i ∈ s, k i * r.apply (f i) := by
  unfold QRule.apply
  induction r with
  | nil => simp
  | cons c r ih =>
    simp only [List.map_cons, List.sum_cons]
    rw [ih, Finset.mul_sum, ← Finset.sum_add_distrib]
    refine Finset.sum_congr rfl fun i _ => ?_
    ring

theorem sum_error {ι : Type*} (s : Finset ι) (k q e : ι → ℝ) (ε : ℝ)
    (h : ∀ i ∈ s, |q i - e i| ≤ ε * e i) :
    |∑ i ∈ s, k i * q i - ∑ i ∈ s, k i * e i| ≤ ε * ∑ i ∈ s, |k i| * e i := by
  rw [← Finset.sum_sub_distrib, Finset.mul_sum]
  refine (Finset.abs_sum_le_sum_abs _ _).trans (Finset.sum_le_sum fun i hi => ?_)
  rw [← mul_sub, abs_mul]
  calc |k i| * |q i - e i| ≤ |k i| * (ε * e i) := mul_le_mul_of_nonneg_left (h i hi) (abs_nonneg _)
    _ = ε * (|k i| * e i) := by ring

theorem integratesSegment_of {r : QRule} {o : ℕ} {ε : ℝ}
    (h : ∀ k, k ≤ o → |r.apply (fun x _ _ => x ^ k) - ∫ x in (0 : ℝ)..1, x ^ k| ≤
      ε * ∫ x in (0 : ℝ)..1, x ^ k) : IntegratesSegment r o ε := by
  intro p hp
  have he : ∀ x, p.eval x = ∑ k ∈ Finset.range (o + 1), p.coeff k * x ^ k :=
    fun x => Polynomial.eval_eq_sum_range' (by omega) x
  simp only [he]
  rw [apply_sum r _ _ fun (k : ℕ) (x _ _ : ℝ) => x ^ k,
    integral_finset_sum fun i _ => Continuous.intervalIntegrable (by fun_prop) _ _]
  simp only [integral_const_mul]
  exact sum_error _ _ _ _ _ fun k hk => h k (by simpa [Nat.lt_succ_iff] using hk)

theorem eval2 (p : MvPolynomial (Fin 2) ℝ) (x y : ℝ) :
    MvPolynomial.eval ![x, y] p = ∑ m ∈ p.support, p.coeff m * (x ^ m 0 * y ^ m 1) := by
  rw [MvPolynomial.eval_eq']
  simp [Fin.prod_univ_two]

theorem eval3 (p : MvPolynomial (Fin 3) ℝ) (x y z : ℝ) :
    MvPolynomial.eval ![x, y, z] p = ∑ m ∈ p.support, p.coeff m * (x ^ m 0 * y ^ m 1 * z ^ m 2) := by
  rw [MvPolynomial.eval_eq']
  simp [Fin.prod_univ_three]

theorem degree2 {p : MvPolynomial (Fin 2) ℝ} {m : Fin 2 →₀ ℕ} {o : ℕ} (h : p.totalDegree ≤ o)
    (hm : m ∈ p.support) : m 0 + m 1 ≤ o := by
  have := (MvPolynomial.le_totalDegree hm).trans h
  rwa [Finsupp.sum_fintype _ _ (fun _ => rfl), Fin.sum_univ_two] at this

theorem degree3 {p : MvPolynomial (Fin 3) ℝ} {m : Fin 3 →₀ ℕ} {o : ℕ} (h : p.totalDegree ≤ o)
    (hm : m ∈ p.support) : m 0 + m 1 + m 2 ≤ o := by
  have := (MvPolynomial.le_totalDegree hm).trans h
  rwa [Finsupp.sum_fintype _ _ (fun _ => rfl), Fin.sum_univ_three] at this

theorem integratesTriangle_of {r : QRule} {o : ℕ} {ε : ℝ}
    (h : ∀ a b, a + b ≤ o → |r.apply (fun x y _ => x ^ a * y ^ b) - triangleInt fun x y => x ^ a * y ^ b| ≤
      ε * triangleInt fun x y => x ^ a * y ^ b) : IntegratesTriangle r o ε := by
  intro p hp
  simp only [eval2]
  rw [apply_sum r _ _ fun (m : Fin 2 →₀ ℕ) x y _ => x ^ m 0 * y ^ m 1,
    triangle_sum _ _ (fun m : Fin 2 →₀ ℕ => m 0) (fun m => m 1)]
  exact sum_error _ _ _ _ _ fun m hm => h _ _ (degree2 hp hm)

theorem integratesSquare_of {r : QRule} {o : ℕ} {ε : ℝ}
    (h : ∀ a b, a ≤ o → b ≤ o → |r.apply (fun x y _ => x ^ a * y ^ b) - squareInt fun x y => x ^ a * y ^ b| ≤
      ε * squareInt fun x y => x ^ a * y ^ b) : IntegratesSquare r o ε := by
  intro p hp
  simp only [eval2]
  rw [apply_sum r _ _ fun (m : Fin 2 →₀ ℕ) x y _ => x ^ m 0 * y ^ m 1,
    square_sum _ _ (fun m : Fin 2 →₀ ℕ => m 0) (fun m => m 1)]
  exact sum_error _ _ _ _ _ fun m hm => h _ _ (MvPolynomial.degreeOf_le_iff.1 (hp 0) m hm)
    (MvPolynomial.degreeOf_le_iff.1 (hp 1) m hm)

theorem integratesTetra_of {r : QRule} {o : ℕ} {ε : ℝ}
    (h : ∀ a b c, a + b + c ≤ o → |r.apply (fun x y z => x ^ a * y ^ b * z ^ c) -
      tetraInt fun x y z => x ^ a * y ^ b * z ^ c| ≤ ε * tetraInt fun x y z => x ^ a * y ^ b * z ^ c) :
    IntegratesTetra r o ε := by
  intro p hp
  simp only [eval3]
  rw [apply_sum r _ _ fun (m : Fin 3 →₀ ℕ) x y z => x ^ m 0 * y ^ m 1 * z ^ m 2,
    tetra_sum _ _ (fun m : Fin 3 →₀ ℕ => m 0) (fun m => m 1) (fun m => m 2)]
  exact sum_error _ _ _ _ _ fun m hm => h _ _ _ (degree3 hp hm)

theorem integratesCube_of {r : QRule} {o : ℕ} {ε : ℝ}
    (h : ∀ a b c, a ≤ o → b ≤ o → c ≤ o → |r.apply (fun x y z => x ^ a * y ^ b * z ^ c) -
      cubeInt fun x y z => x ^ a * y ^ b * z ^ c| ≤ ε * cubeInt fun x y z => x ^ a * y ^ b * z ^ c) :
    IntegratesCube r o ε := by
  intro p hp
  simp only [eval3]
  rw [apply_sum r _ _ fun (m : Fin 3 →₀ ℕ) x y z => x ^ m 0 * y ^ m 1 * z ^ m 2,
    cube_sum _ _ (fun m : Fin 3 →₀ ℕ => m 0) (fun m => m 1) (fun m => m 2)]
  exact sum_error _ _ _ _ _ fun m hm => h _ _ _ (MvPolynomial.degreeOf_le_iff.1 (hp 0) m hm)
    (MvPolynomial.degreeOf_le_iff.1 (hp 1) m hm) (MvPolynomial.degreeOf_le_iff.1 (hp 2) m hm)

end Verif
