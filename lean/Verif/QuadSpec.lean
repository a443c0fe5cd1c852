import Mathlib.Analysis.SpecialFunctions.Integrals.Basic
import Mathlib.Algebra.MvPolynomial.Degrees
import Mathlib.Algebra.MvPolynomial.Eval
import Mathlib.Algebra.Polynomial.Eval.Degree

/-
What it means that a quadrature rule integrates polynomials. A rule is a list of columns: weight and
the three coordinates of the point. Integrals are the iterated integrals of Mathlib over the real
numbers, polynomials those of Mathlib.
-/
namespace Verif

/-- A quadrature rule: weight and point of every column. -/
abbrev QRule := List (ℚ × ℚ × ℚ × ℚ)

/-- The sum of weight times value. -/
noncomputable def QRule.apply (r : QRule) (f : ℝ → ℝ → ℝ → ℝ) : ℝ :=
  (r.map fun c => (c.1 : ℝ) * f c.2.1 c.2.2.1 c.2.2.2).sum

/-- Integral over the triangle with corners (0, 0), (1, 0), (0, 1). -/
noncomputable def triangleInt (f : ℝ → ℝ → ℝ) : ℝ := ∫ x in (0 : ℝ)..1, ∫ y in (0 : ℝ)..(1 - x), f x y

/-- Integral over the unit square. -/
noncomputable def squareInt (f : ℝ → ℝ → ℝ) : ℝ := ∫ x in (0 : ℝ)..1, ∫ y in (0 : ℝ)..1, f x y

/-- Integral over the tetrahedron with corners (0, 0, 0), (1, 0, 0), (0, 1, 0), (0, 0, 1). -/
noncomputable def tetraInt (f : ℝ → ℝ → ℝ → ℝ) : ℝ :=
  ∫ x in (0 : ℝ)..1, ∫ y in (0 : ℝ)..(1 - x), ∫ z in (0 : ℝ)..(1 - x - y), f x y z

/-- Integral over the unit cube. -/
noncomputable def cubeInt (f : ℝ → ℝ → ℝ → ℝ) : ℝ :=
  ∫ x in (0 : ℝ)..1, ∫ y in (0 : ℝ)..1, ∫ z in (0 : ℝ)..1, f x y z

/-- The rule integrates the polynomials of degree `o` or less over the unit segment. The error is
measured against the integral of the polynomial with the absolute values of the coefficients. -/
def IntegratesSegment (r : QRule) (o : ℕ) (ε : ℝ) : Prop :=
  ∀ p : Polynomial ℝ, p.natDegree ≤ o →
    |r.apply (fun x _ _ => p.eval x) - ∫ x in (0 : ℝ)..1, p.eval x| ≤
      ε * ∑ k ∈ Finset.range (o + 1), |p.coeff k| * ∫ x in (0 : ℝ)..1, x ^ k

/-- The rule integrates the polynomials of total degree `o` or less over the triangle. -/
def IntegratesTriangle (r : QRule) (o : ℕ) (ε : ℝ) : Prop :=
  ∀ p : MvPolynomial (Fin 2) ℝ, p.totalDegree ≤ o →
    |r.apply (fun x y _ => MvPolynomial.eval ![x, y] p) -
        triangleInt (fun x y => MvPolynomial.eval ![x, y] p)| ≤
      ε * ∑ m ∈ p.support, |p.coeff m| * triangleInt fun x y => x ^ m 0 * y ^ m 1

/-- The rule integrates the polynomials of degree `o` or less in each variable over the square. -/
def IntegratesSquare (r : QRule) (o : ℕ) (ε : ℝ) : Prop :=
  ∀ p : MvPolynomial (Fin 2) ℝ, (∀ i, p.degreeOf i ≤ o) →
    |r.apply (fun x y _ => MvPolynomial.eval ![x, y] p) -
        squareInt (fun x y => MvPolynomial.eval ![x, y] p)| ≤
      ε * ∑ m ∈ p.support, |p.coeff m| * squareInt fun x y => x ^ m 0 * y ^ m 1

/-- The rule integrates the polynomials of total degree `o` or less over the tetrahedron. -/
def IntegratesTetra (r : QRule) (o : ℕ) (ε : ℝ) : Prop :=
  ∀ p : MvPolynomial (Fin 3) ℝ, p.totalDegree ≤ o →
    |r.apply (fun x y z => MvPolynomial.eval ![x, y, z] p) -
        tetraInt (fun x y z => MvPolynomial.eval ![x, y, z] p)| ≤
      ε * ∑ m ∈ p.support, |p.coeff m| * tetraInt fun x y z => x ^ m 0 * y ^ m 1 * z ^ m 2

/-- The rule integrates the polynomials of degree `o` or less in each variable over the cube. -/
def IntegratesCube (r : QRule) (o : ℕ) (ε : ℝ) : Prop :=
  ∀ p : MvPolynomial (Fin 3) ℝ, (∀ i, p.degreeOf i ≤ o) →
    |r.apply (fun x y z => MvPolynomial.eval ![x, y, z] p) -
        cubeInt (fun x y z => MvPolynomial.eval ![x, y, z] p)| ≤
      ε * ∑ m ∈ p.support, |p.coeff m| * cubeInt fun x y z => x ^ m 0 * y ^ m 1 * z ^ m 2

/-- All weights are positive. -/
def QRule.Positive (r : QRule) : Prop := ∀ c ∈ r, 0 < c.1

/-- All points lie in the unit segment on the first axis. -/
def QRule.InSegment (r : QRule) : Prop := ∀ c ∈ r, 0 ≤ c.2.1 ∧ c.2.1 ≤ 1 ∧ c.2.2.1 = 0 ∧ c.2.2.2 = 0

/-- Both end points of the unit segment are points of the rule. -/
def QRule.HasEnds (r : QRule) : Prop := (∃ c ∈ r, c.2.1 = 0) ∧ ∃ c ∈ r, c.2.1 = 1

/-- All points lie in the reference triangle in the plane of the first two axes. -/
def QRule.InTriangle (r : QRule) : Prop :=
  ∀ c ∈ r, 0 ≤ c.2.1 ∧ 0 ≤ c.2.2.1 ∧ c.2.1 + c.2.2.1 ≤ 1 ∧ c.2.2.2 = 0

/-- All points lie in the unit square in the plane of the first two axes. -/
def QRule.InSquare (r : QRule) : Prop :=
  ∀ c ∈ r, 0 ≤ c.2.1 ∧ c.2.1 ≤ 1 ∧ 0 ≤ c.2.2.1 ∧ c.2.2.1 ≤ 1 ∧ c.2.2.2 = 0

/-- All points lie in the reference tetrahedron. -/
def QRule.InTetra (r : QRule) : Prop :=
  ∀ c ∈ r, 0 ≤ c.2.1 ∧ 0 ≤ c.2.2.1 ∧ 0 ≤ c.2.2.2 ∧ c.2.1 + c.2.2.1 + c.2.2.2 ≤ 1

/-- All points lie in the unit cube. -/
def QRule.InCube (r : QRule) : Prop :=
  ∀ c ∈ r, 0 ≤ c.2.1 ∧ c.2.1 ≤ 1 ∧ 0 ≤ c.2.2.1 ∧ c.2.2.1 ≤ 1 ∧ 0 ≤ c.2.2.2 ∧ c.2.2.2 ≤ 1

end Verif
