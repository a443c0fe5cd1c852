import Verif.QuadFactsSegment
import Verif.QuadFactsTriangle
import Verif.QuadFactsTriangle2
import Verif.QuadFactsTetra
import Verif.QuadFactsTetraPos
import Verif.QuadFactsProduct
import Mathlib.Tactic.IntervalCases

/-
The quadrature rules (C58 - C64). The error of a rule on a polynomial is measured against the
integral of the polynomial with the absolute values of its coefficients: the tables hold about 16
digits, so no rule is exact.
-/
namespace Verif

open Res

/-! ### C58: Gauss rule on the segment -/

/-- For every order up to 31 the Gauss rule has `o / 2 + 1` points in the unit segment, positive
weights, and integrates the polynomials of degree `o` or less. -/
theorem c58_gauss (o : ℕ) (ho : o ≤ 31) :
    ∃ (q : QData) (r : QRule), gauss1D o = ok q ∧ q.read = ok r ∧ r.length = o / 2 + 1 ∧
      r.Positive ∧ r.InSegment ∧ IntegratesSegment r o (2 / 10 ^ 15) := by
  interval_cases o
  · exact seg_mk gauss1Tab1_facts rfl (by norm_num) (by norm_num) (by norm_num)
  · exact seg_mk gauss1Tab1_facts rfl (by norm_num) (by norm_num) (by norm_num)
  · exact seg_mk gauss1Tab3_facts rfl (by norm_num) (by norm_num) (by norm_num)
  · exact seg_mk gauss1Tab3_facts rfl (by norm_num) (by norm_num) (by norm_num)
  · exact seg_mk gauss1Tab5_facts rfl (by norm_num) (by norm_num) (by norm_num)
  · exact seg_mk gauss1Tab5_facts rfl (by norm_num) (by norm_num) (by norm_num)
  · exact seg_mk gauss1Tab7_facts rfl (by norm_num) (by norm_num) (by norm_num)
  · exact seg_mk gauss1Tab7_facts rfl (by norm_num) (by norm_num) (by norm_num)
  · exact seg_mk gauss1Tab9_facts rfl (by norm_num) (by norm_num) (by norm_num)
  · exact seg_mk gauss1Tab9_facts rfl (by norm_num) (by norm_num) (by norm_num)
  · exact seg_mk gauss1Tab11_facts rfl (by norm_num) (by norm_num) (by norm_num)
  · exact seg_mk gauss1Tab11_facts rfl (by norm_num) (by norm_num) (by norm_num)
  · exact seg_mk gauss1Tab13_facts rfl (by norm_num) (by norm_num) (by norm_num)
  · exact seg_mk gauss1Tab13_facts rfl (by norm_num) (by norm_num) (by norm_num)
  · exact seg_mk gauss1Tab15_facts rfl (by norm_num) (by norm_num) (by norm_num)
  · exact seg_mk gauss1Tab15_facts rfl (by norm_num) (by norm_num) (by norm_num)
  · exact seg_mk gauss1Tab17_facts rfl (by norm_num) (by norm_num) (by norm_num)
  · exact seg_mk gauss1Tab17_facts rfl (by norm_num) (by norm_num) (by norm_num)
  · exact seg_mk gauss1Tab19_facts rfl (by norm_num) (by norm_num) (by norm_num)
  · exact seg_mk gauss1Tab19_facts rfl (by norm_num) (by norm_num) (by norm_num)
  · exact seg_mk gauss1Tab21_facts rfl (by norm_num) (by norm_num) (by norm_num)
  · exact seg_mk gauss1Tab21_facts rfl (by norm_num) (by norm_num) (by norm_num)
  · exact seg_mk gauss1Tab23_facts rfl (by norm_num) (by norm_num) (by norm_num)
  · exact seg_mk gauss1Tab23_facts rfl (by norm_num) (by norm_num) (by norm_num)
  · exact seg_mk gauss1Tab25_facts rfl (by norm_num) (by norm_num) (by norm_num)
  · exact seg_mk gauss1Tab25_facts rfl (by norm_num) (by norm_num) (by norm_num)
  · exact seg_mk gauss1Tab27_facts rfl (by norm_num) (by norm_num) (by norm_num)
  · exact seg_mk gauss1Tab27_facts rfl (by norm_num) (by norm_num) (by norm_num)
  · exact seg_mk gauss1Tab29_facts rfl (by norm_num) (by norm_num) (by norm_num)
  · exact seg_mk gauss1Tab29_facts rfl (by norm_num) (by norm_num) (by norm_num)
  · exact seg_mk gauss1Tab31_facts rfl (by norm_num) (by norm_num) (by norm_num)
  · exact seg_mk gauss1Tab31_facts rfl (by norm_num) (by norm_num) (by norm_num)

/-- Higher orders throw. -/
theorem c58_unsupported (o : ℕ) (ho : 31 < o) : gauss1D o = throw := by
  obtain ⟨k, rfl⟩ : ∃ k, o = k + 32 := ⟨o - 32, by omega⟩
  rfl

/-- Order 3 on `x ^ 3`. -/
example : ∃ (q : QData) (r : QRule), gauss1D 3 = ok q ∧ q.read = ok r ∧
    |r.apply (fun x _ _ => x ^ 3) - 1 / 4| ≤ 1 / 10 ^ 14 := by
  obtain ⟨q, r, h, hr, -, -, -, hi⟩ := c58_gauss 3 (by norm_num)
  refine ⟨q, r, h, hr, ?_⟩
  have := hi (Polynomial.X ^ 3) (by simp)
  simp only [Polynomial.eval_pow, Polynomial.eval_X, segment_monomial, Polynomial.coeff_X_pow,
    Finset.sum_range_succ, Finset.sum_range_zero] at this
  norm_num at this ⊢
  refine this.trans ?_
  norm_num

/-! ### C59: Gauss-Lobatto rule on the segment -/

/-- The property: for every order up to 43 the rule has `o / 2 + 2` points in the unit segment, the
end points among them, positive weights, and integrates the polynomials of degree `o` or less. -/
def LobattoRules : Prop :=
  ∀ o ≤ 43, ∃ (q : QData) (r : QRule), gaussLobatto1D o = ok q ∧ q.read = ok r ∧
    r.length = o / 2 + 2 ∧ r.Positive ∧ r.InSegment ∧ r.HasEnds ∧ IntegratesSegment r o (1 / 10 ^ 14)

/-- Up to order 15 the property holds. Missing: the orders from 16 on, where the second and the third
row of the points are never written. -/
theorem c59_lobatto_partial (o : ℕ) (ho : o ≤ 15) :
    ∃ (q : QData) (r : QRule), gaussLobatto1D o = ok q ∧ q.read = ok r ∧
      r.length = o / 2 + 2 ∧ r.Positive ∧ r.InSegment ∧ r.HasEnds ∧
      IntegratesSegment r o (1 / 10 ^ 14) := by
  interval_cases o
  · obtain ⟨h1, h2, h3, h4⟩ := seg_rule (ε := 1 / 10 ^ 14) lobatto1Tab1_facts (by norm_num) (o := 0) (by norm_num) (by norm_num)
    exact ⟨_, _, rfl, read_zeroed1 lobatto1Tab1, h1, h2, h3, ends_of lobatto1Tab1_ends, h4⟩
  · obtain ⟨h1, h2, h3, h4⟩ := seg_rule (ε := 1 / 10 ^ 14) lobatto1Tab1_facts (by norm_num) (o := 1) (by norm_num) (by norm_num)
    exact ⟨_, _, rfl, read_zeroed1 lobatto1Tab1, h1, h2, h3, ends_of lobatto1Tab1_ends, h4⟩
  · obtain ⟨h1, h2, h3, h4⟩ := seg_rule (ε := 1 / 10 ^ 14) lobatto1Tab3_facts (by norm_num) (o := 2) (by norm_num) (by norm_num)
    exact ⟨_, _, rfl, read_zeroed1 lobatto1Tab3, h1, h2, h3, ends_of lobatto1Tab3_ends, h4⟩
  · obtain ⟨h1, h2, h3, h4⟩ := seg_rule (ε := 1 / 10 ^ 14) lobatto1Tab3_facts (by norm_num) (o := 3) (by norm_num) (by norm_num)
    exact ⟨_, _, rfl, read_zeroed1 lobatto1Tab3, h1, h2, h3, ends_of lobatto1Tab3_ends, h4⟩
  · obtain ⟨h1, h2, h3, h4⟩ := seg_rule (ε := 1 / 10 ^ 14) lobatto1Tab5_facts (by norm_num) (o := 4) (by norm_num) (by norm_num)
    exact ⟨_, _, rfl, read_zeroed1 lobatto1Tab5, h1, h2, h3, ends_of lobatto1Tab5_ends, h4⟩
  · obtain ⟨h1, h2, h3, h4⟩ := seg_rule (ε := 1 / 10 ^ 14) lobatto1Tab5_facts (by norm_num) (o := 5) (by norm_num) (by norm_num)
    exact ⟨_, _, rfl, read_zeroed1 lobatto1Tab5, h1, h2, h3, ends_of lobatto1Tab5_ends, h4⟩
  · obtain ⟨h1, h2, h3, h4⟩ := seg_rule (ε := 1 / 10 ^ 14) lobatto1Tab7_facts (by norm_num) (o := 6) (by norm_num) (by norm_num)
    exact ⟨_, _, rfl, read_zeroed1 lobatto1Tab7, h1, h2, h3, ends_of lobatto1Tab7_ends, h4⟩
  · obtain ⟨h1, h2, h3, h4⟩ := seg_rule (ε := 1 / 10 ^ 14) lobatto1Tab7_facts (by norm_num) (o := 7) (by norm_num) (by norm_num)
    exact ⟨_, _, rfl, read_zeroed1 lobatto1Tab7, h1, h2, h3, ends_of lobatto1Tab7_ends, h4⟩
  · obtain ⟨h1, h2, h3, h4⟩ := seg_rule (ε := 1 / 10 ^ 14) lobatto1Tab9_facts (by norm_num) (o := 8) (by norm_num) (by norm_num)
    exact ⟨_, _, rfl, read_zeroed1 lobatto1Tab9, h1, h2, h3, ends_of lobatto1Tab9_ends, h4⟩
  · obtain ⟨h1, h2, h3, h4⟩ := seg_rule (ε := 1 / 10 ^ 14) lobatto1Tab9_facts (by norm_num) (o := 9) (by norm_num) (by norm_num)
    exact ⟨_, _, rfl, read_zeroed1 lobatto1Tab9, h1, h2, h3, ends_of lobatto1Tab9_ends, h4⟩
  · obtain ⟨h1, h2, h3, h4⟩ := seg_rule (ε := 1 / 10 ^ 14) lobatto1Tab11_facts (by norm_num) (o := 10) (by norm_num) (by norm_num)
    exact ⟨_, _, rfl, read_zeroed1 lobatto1Tab11, h1, h2, h3, ends_of lobatto1Tab11_ends, h4⟩
  · obtain ⟨h1, h2, h3, h4⟩ := seg_rule (ε := 1 / 10 ^ 14) lobatto1Tab11_facts (by norm_num) (o := 11) (by norm_num) (by norm_num)
    exact ⟨_, _, rfl, read_zeroed1 lobatto1Tab11, h1, h2, h3, ends_of lobatto1Tab11_ends, h4⟩
  · obtain ⟨h1, h2, h3, h4⟩ := seg_rule (ε := 1 / 10 ^ 14) lobatto1Tab13_facts (by norm_num) (o := 12) (by norm_num) (by norm_num)
    exact ⟨_, _, rfl, read_zeroed1 lobatto1Tab13, h1, h2, h3, ends_of lobatto1Tab13_ends, h4⟩
  · obtain ⟨h1, h2, h3, h4⟩ := seg_rule (ε := 1 / 10 ^ 14) lobatto1Tab13_facts (by norm_num) (o := 13) (by norm_num) (by norm_num)
    exact ⟨_, _, rfl, read_zeroed1 lobatto1Tab13, h1, h2, h3, ends_of lobatto1Tab13_ends, h4⟩
  · obtain ⟨h1, h2, h3, h4⟩ := seg_rule (ε := 1 / 10 ^ 14) lobatto1Tab15_facts (by norm_num) (o := 14) (by norm_num) (by norm_num)
    exact ⟨_, _, rfl, read_zeroed1 lobatto1Tab15, h1, h2, h3, ends_of lobatto1Tab15_ends, h4⟩
  · obtain ⟨h1, h2, h3, h4⟩ := seg_rule (ε := 1 / 10 ^ 14) lobatto1Tab15_facts (by norm_num) (o := 15) (by norm_num) (by norm_num)
    exact ⟨_, _, rfl, read_zeroed1 lobatto1Tab15, h1, h2, h3, ends_of lobatto1Tab15_ends, h4⟩

/-- The weights and the first row of the points are those of such a rule for all orders up to 43. -/
theorem c59_first_row_partial (o : ℕ) (ho : o ≤ 43) :
    ∃ (q : QData) (r : QRule), gaussLobatto1D o = ok q ∧
      List.Forall₂ (fun c p => c.1 = p.1 ∧ c.2.1 = some p.2.1) q r ∧
      r.length = o / 2 + 2 ∧ r.Positive ∧ r.InSegment ∧ r.HasEnds ∧
      IntegratesSegment r o (1 / 10 ^ 14) := by
  interval_cases o
  · obtain ⟨h1, h2, h3, h4⟩ := seg_rule (ε := 1 / 10 ^ 14) lobatto1Tab1_facts (by norm_num) (o := 0) (by norm_num) (by norm_num)
    exact ⟨_, _, rfl, agrees_zeroed1 lobatto1Tab1, h1, h2, h3, ends_of lobatto1Tab1_ends, h4⟩
  · obtain ⟨h1, h2, h3, h4⟩ := seg_rule (ε := 1 / 10 ^ 14) lobatto1Tab1_facts (by norm_num) (o := 1) (by norm_num) (by norm_num)
    exact ⟨_, _, rfl, agrees_zeroed1 lobatto1Tab1, h1, h2, h3, ends_of lobatto1Tab1_ends, h4⟩
  · obtain ⟨h1, h2, h3, h4⟩ := seg_rule (ε := 1 / 10 ^ 14) lobatto1Tab3_facts (by norm_num) (o := 2) (by norm_num) (by norm_num)
    exact ⟨_, _, rfl, agrees_zeroed1 lobatto1Tab3, h1, h2, h3, ends_of lobatto1Tab3_ends, h4⟩
  · obtain ⟨h1, h2, h3, h4⟩ := seg_rule (ε := 1 / 10 ^ 14) lobatto1Tab3_facts (by norm_num) (o := 3) (by norm_num) (by norm_num)
    exact ⟨_, _, rfl, agrees_zeroed1 lobatto1Tab3, h1, h2, h3, ends_of lobatto1Tab3_ends, h4⟩
  · obtain ⟨h1, h2, h3, h4⟩ := seg_rule (ε := 1 / 10 ^ 14) lobatto1Tab5_facts (by norm_num) (o := 4) (by norm_num) (by norm_num)
    exact ⟨_, _, rfl, agrees_zeroed1 lobatto1Tab5, h1, h2, h3, ends_of lobatto1Tab5_ends, h4⟩
  · obtain ⟨h1, h2, h3, h4⟩ := seg_rule (ε := 1 / 10 ^ 14) lobatto1Tab5_facts (by norm_num) (o := 5) (by norm_num) (by norm_num)
    exact ⟨_, _, rfl, agrees_zeroed1 lobatto1Tab5, h1, h2, h3, ends_of lobatto1Tab5_ends, h4⟩
  · obtain ⟨h1, h2, h3, h4⟩ := seg_rule (ε := 1 / 10 ^ 14) lobatto1Tab7_facts (by norm_num) (o := 6) (by norm_num) (by norm_num)
    exact ⟨_, _, rfl, agrees_zeroed1 lobatto1Tab7, h1, h2, h3, ends_of lobatto1Tab7_ends, h4⟩
  · obtain ⟨h1, h2, h3, h4⟩ := seg_rule (ε := 1 / 10 ^ 14) lobatto1Tab7_facts (by norm_num) (o := 7) (by norm_num) (by norm_num)
    exact ⟨_, _, rfl, agrees_zeroed1 lobatto1Tab7, h1, h2, h3, ends_of lobatto1Tab7_ends, h4⟩
  · obtain ⟨h1, h2, h3, h4⟩ := seg_rule (ε := 1 / 10 ^ 14) lobatto1Tab9_facts (by norm_num) (o := 8) (by norm_num) (by norm_num)
    exact ⟨_, _, rfl, agrees_zeroed1 lobatto1Tab9, h1, h2, h3, ends_of lobatto1Tab9_ends, h4⟩
  · obtain ⟨h1, h2, h3, h4⟩ := seg_rule (ε := 1 / 10 ^ 14) lobatto1Tab9_facts (by norm_num) (o := 9) (by norm_num) (by norm_num)
    exact ⟨_, _, rfl, agrees_zeroed1 lobatto1Tab9, h1, h2, h3, ends_of lobatto1Tab9_ends, h4⟩
  · obtain ⟨h1, h2, h3, h4⟩ := seg_rule (ε := 1 / 10 ^ 14) lobatto1Tab11_facts (by norm_num) (o := 10) (by norm_num) (by norm_num)
    exact ⟨_, _, rfl, agrees_zeroed1 lobatto1Tab11, h1, h2, h3, ends_of lobatto1Tab11_ends, h4⟩
  · obtain ⟨h1, h2, h3, h4⟩ := seg_rule (ε := 1 / 10 ^ 14) lobatto1Tab11_facts (by norm_num) (o := 11) (by norm_num) (by norm_num)
    exact ⟨_, _, rfl, agrees_zeroed1 lobatto1Tab11, h1, h2, h3, ends_of lobatto1Tab11_ends, h4⟩
  · obtain ⟨h1, h2, h3, h4⟩ := seg_rule (ε := 1 / 10 ^ 14) lobatto1Tab13_facts (by norm_num) (o := 12) (by norm_num) (by norm_num)
    exact ⟨_, _, rfl, agrees_zeroed1 lobatto1Tab13, h1, h2, h3, ends_of lobatto1Tab13_ends, h4⟩
  · obtain ⟨h1, h2, h3, h4⟩ := seg_rule (ε := 1 / 10 ^ 14) lobatto1Tab13_facts (by norm_num) (o := 13) (by norm_num) (by norm_num)
    exact ⟨_, _, rfl, agrees_zeroed1 lobatto1Tab13, h1, h2, h3, ends_of lobatto1Tab13_ends, h4⟩
  · obtain ⟨h1, h2, h3, h4⟩ := seg_rule (ε := 1 / 10 ^ 14) lobatto1Tab15_facts (by norm_num) (o := 14) (by norm_num) (by norm_num)
    exact ⟨_, _, rfl, agrees_zeroed1 lobatto1Tab15, h1, h2, h3, ends_of lobatto1Tab15_ends, h4⟩
  · obtain ⟨h1, h2, h3, h4⟩ := seg_rule (ε := 1 / 10 ^ 14) lobatto1Tab15_facts (by norm_num) (o := 15) (by norm_num) (by norm_num)
    exact ⟨_, _, rfl, agrees_zeroed1 lobatto1Tab15, h1, h2, h3, ends_of lobatto1Tab15_ends, h4⟩
  · obtain ⟨h1, h2, h3, h4⟩ := seg_rule (ε := 1 / 10 ^ 14) lobatto1Tab17_facts (by norm_num) (o := 16) (by norm_num) (by norm_num)
    exact ⟨_, _, rfl, agrees_raw1 lobatto1Tab17, h1, h2, h3, ends_of lobatto1Tab17_ends, h4⟩
  · obtain ⟨h1, h2, h3, h4⟩ := seg_rule (ε := 1 / 10 ^ 14) lobatto1Tab17_facts (by norm_num) (o := 17) (by norm_num) (by norm_num)
    exact ⟨_, _, rfl, agrees_raw1 lobatto1Tab17, h1, h2, h3, ends_of lobatto1Tab17_ends, h4⟩
  · obtain ⟨h1, h2, h3, h4⟩ := seg_rule (ε := 1 / 10 ^ 14) lobatto1Tab19_facts (by norm_num) (o := 18) (by norm_num) (by norm_num)
    exact ⟨_, _, rfl, agrees_raw1 lobatto1Tab19, h1, h2, h3, ends_of lobatto1Tab19_ends, h4⟩
  · obtain ⟨h1, h2, h3, h4⟩ := seg_rule (ε := 1 / 10 ^ 14) lobatto1Tab19_facts (by norm_num) (o := 19) (by norm_num) (by norm_num)
    exact ⟨_, _, rfl, agrees_raw1 lobatto1Tab19, h1, h2, h3, ends_of lobatto1Tab19_ends, h4⟩
  · obtain ⟨h1, h2, h3, h4⟩ := seg_rule (ε := 1 / 10 ^ 14) lobatto1Tab21_facts (by norm_num) (o := 20) (by norm_num) (by norm_num)
    exact ⟨_, _, rfl, agrees_raw1 lobatto1Tab21, h1, h2, h3, ends_of lobatto1Tab21_ends, h4⟩
  · obtain ⟨h1, h2, h3, h4⟩ := seg_rule (ε := 1 / 10 ^ 14) lobatto1Tab21_facts (by norm_num) (o := 21) (by norm_num) (by norm_num)
    exact ⟨_, _, rfl, agrees_raw1 lobatto1Tab21, h1, h2, h3, ends_of lobatto1Tab21_ends, h4⟩
  · obtain ⟨h1, h2, h3, h4⟩ := seg_rule (ε := 1 / 10 ^ 14) lobatto1Tab23_facts (by norm_num) (o := 22) (by norm_num) (by norm_num)
    exact ⟨_, _, rfl, agrees_raw1 lobatto1Tab23, h1, h2, h3, ends_of lobatto1Tab23_ends, h4⟩
  · obtain ⟨h1, h2, h3, h4⟩ := seg_rule (ε := 1 / 10 ^ 14) lobatto1Tab23_facts (by norm_num) (o := 23) (by norm_num) (by norm_num)
    exact ⟨_, _, rfl, agrees_raw1 lobatto1Tab23, h1, h2, h3, ends_of lobatto1Tab23_ends, h4⟩
  · obtain ⟨h1, h2, h3, h4⟩ := seg_rule (ε := 1 / 10 ^ 14) lobatto1Tab25_facts (by norm_num) (o := 24) (by norm_num) (by norm_num)
    exact ⟨_, _, rfl, agrees_raw1 lobatto1Tab25, h1, h2, h3, ends_of lobatto1Tab25_ends, h4⟩
  · obtain ⟨h1, h2, h3, h4⟩ := seg_rule (ε := 1 / 10 ^ 14) lobatto1Tab25_facts (by norm_num) (o := 25) (by norm_num) (by norm_num)
    exact ⟨_, _, rfl, agrees_raw1 lobatto1Tab25, h1, h2, h3, ends_of lobatto1Tab25_ends, h4⟩
  · obtain ⟨h1, h2, h3, h4⟩ := seg_rule (ε := 1 / 10 ^ 14) lobatto1Tab27_facts (by norm_num) (o := 26) (by norm_num) (by norm_num)
    exact ⟨_, _, rfl, agrees_raw1 lobatto1Tab27, h1, h2, h3, ends_of lobatto1Tab27_ends, h4⟩
  · obtain ⟨h1, h2, h3, h4⟩ := seg_rule (ε := 1 / 10 ^ 14) lobatto1Tab27_facts (by norm_num) (o := 27) (by norm_num) (by norm_num)
    exact ⟨_, _, rfl, agrees_raw1 lobatto1Tab27, h1, h2, h3, ends_of lobatto1Tab27_ends, h4⟩
  · obtain ⟨h1, h2, h3, h4⟩ := seg_rule (ε := 1 / 10 ^ 14) lobatto1Tab29_facts (by norm_num) (o := 28) (by norm_num) (by norm_num)
    exact ⟨_, _, rfl, agrees_raw1 lobatto1Tab29, h1, h2, h3, ends_of lobatto1Tab29_ends, h4⟩
  · obtain ⟨h1, h2, h3, h4⟩ := seg_rule (ε := 1 / 10 ^ 14) lobatto1Tab29_facts (by norm_num) (o := 29) (by norm_num) (by norm_num)
    exact ⟨_, _, rfl, agrees_raw1 lobatto1Tab29, h1, h2, h3, ends_of lobatto1Tab29_ends, h4⟩
  · obtain ⟨h1, h2, h3, h4⟩ := seg_rule (ε := 1 / 10 ^ 14) lobatto1Tab31_facts (by norm_num) (o := 30) (by norm_num) (by norm_num)
    exact ⟨_, _, rfl, agrees_raw1 lobatto1Tab31, h1, h2, h3, ends_of lobatto1Tab31_ends, h4⟩
  · obtain ⟨h1, h2, h3, h4⟩ := seg_rule (ε := 1 / 10 ^ 14) lobatto1Tab31_facts (by norm_num) (o := 31) (by norm_num) (by norm_num)
    exact ⟨_, _, rfl, agrees_raw1 lobatto1Tab31, h1, h2, h3, ends_of lobatto1Tab31_ends, h4⟩
  · obtain ⟨h1, h2, h3, h4⟩ := seg_rule (ε := 1 / 10 ^ 14) lobatto1Tab33_facts (by norm_num) (o := 32) (by norm_num) (by norm_num)
    exact ⟨_, _, rfl, agrees_raw1 lobatto1Tab33, h1, h2, h3, ends_of lobatto1Tab33_ends, h4⟩
  · obtain ⟨h1, h2, h3, h4⟩ := seg_rule (ε := 1 / 10 ^ 14) lobatto1Tab33_facts (by norm_num) (o := 33) (by norm_num) (by norm_num)
    exact ⟨_, _, rfl, agrees_raw1 lobatto1Tab33, h1, h2, h3, ends_of lobatto1Tab33_ends, h4⟩
  · obtain ⟨h1, h2, h3, h4⟩ := seg_rule (ε := 1 / 10 ^ 14) lobatto1Tab35_facts (by norm_num) (o := 34) (by norm_num) (by norm_num)
    exact ⟨_, _, rfl, agrees_raw1 lobatto1Tab35, h1, h2, h3, ends_of lobatto1Tab35_ends, h4⟩
  · obtain ⟨h1, h2, h3, h4⟩ := seg_rule (ε := 1 / 10 ^ 14) lobatto1Tab35_facts (by norm_num) (o := 35) (by norm_num) (by norm_num)
    exact ⟨_, _, rfl, agrees_raw1 lobatto1Tab35, h1, h2, h3, ends_of lobatto1Tab35_ends, h4⟩
  · obtain ⟨h1, h2, h3, h4⟩ := seg_rule (ε := 1 / 10 ^ 14) lobatto1Tab37_facts (by norm_num) (o := 36) (by norm_num) (by norm_num)
    exact ⟨_, _, rfl, agrees_raw1 lobatto1Tab37, h1, h2, h3, ends_of lobatto1Tab37_ends, h4⟩
  · obtain ⟨h1, h2, h3, h4⟩ := seg_rule (ε := 1 / 10 ^ 14) lobatto1Tab37_facts (by norm_num) (o := 37) (by norm_num) (by norm_num)
    exact ⟨_, _, rfl, agrees_raw1 lobatto1Tab37, h1, h2, h3, ends_of lobatto1Tab37_ends, h4⟩
  · obtain ⟨h1, h2, h3, h4⟩ := seg_rule (ε := 1 / 10 ^ 14) lobatto1Tab39_facts (by norm_num) (o := 38) (by norm_num) (by norm_num)
    exact ⟨_, _, rfl, agrees_raw1 lobatto1Tab39, h1, h2, h3, ends_of lobatto1Tab39_ends, h4⟩
  · obtain ⟨h1, h2, h3, h4⟩ := seg_rule (ε := 1 / 10 ^ 14) lobatto1Tab39_facts (by norm_num) (o := 39) (by norm_num) (by norm_num)
    exact ⟨_, _, rfl, agrees_raw1 lobatto1Tab39, h1, h2, h3, ends_of lobatto1Tab39_ends, h4⟩
  · obtain ⟨h1, h2, h3, h4⟩ := seg_rule (ε := 1 / 10 ^ 14) lobatto1Tab41_facts (by norm_num) (o := 40) (by norm_num) (by norm_num)
    exact ⟨_, _, rfl, agrees_raw1 lobatto1Tab41, h1, h2, h3, ends_of lobatto1Tab41_ends, h4⟩
  · obtain ⟨h1, h2, h3, h4⟩ := seg_rule (ε := 1 / 10 ^ 14) lobatto1Tab41_facts (by norm_num) (o := 41) (by norm_num) (by norm_num)
    exact ⟨_, _, rfl, agrees_raw1 lobatto1Tab41, h1, h2, h3, ends_of lobatto1Tab41_ends, h4⟩
  · obtain ⟨h1, h2, h3, h4⟩ := seg_rule (ε := 1 / 10 ^ 14) lobatto1Tab43_facts (by norm_num) (o := 42) (by norm_num) (by norm_num)
    exact ⟨_, _, rfl, agrees_raw1 lobatto1Tab43, h1, h2, h3, ends_of lobatto1Tab43_ends, h4⟩
  · obtain ⟨h1, h2, h3, h4⟩ := seg_rule (ε := 1 / 10 ^ 14) lobatto1Tab43_facts (by norm_num) (o := 43) (by norm_num) (by norm_num)
    exact ⟨_, _, rfl, agrees_raw1 lobatto1Tab43, h1, h2, h3, ends_of lobatto1Tab43_ends, h4⟩

/-- From order 16 on, reading the points reads values that were never written. -/
theorem c59_unwritten (o : ℕ) (ho : o ≤ 43) (hl : 16 ≤ o) :
    ∃ q : QData, gaussLobatto1D o = ok q ∧ q.read = ub := by
  interval_cases o
  · exact ⟨_, rfl, read_raw1 (by decide)⟩
  · exact ⟨_, rfl, read_raw1 (by decide)⟩
  · exact ⟨_, rfl, read_raw1 (by decide)⟩
  · exact ⟨_, rfl, read_raw1 (by decide)⟩
  · exact ⟨_, rfl, read_raw1 (by decide)⟩
  · exact ⟨_, rfl, read_raw1 (by decide)⟩
  · exact ⟨_, rfl, read_raw1 (by decide)⟩
  · exact ⟨_, rfl, read_raw1 (by decide)⟩
  · exact ⟨_, rfl, read_raw1 (by decide)⟩
  · exact ⟨_, rfl, read_raw1 (by decide)⟩
  · exact ⟨_, rfl, read_raw1 (by decide)⟩
  · exact ⟨_, rfl, read_raw1 (by decide)⟩
  · exact ⟨_, rfl, read_raw1 (by decide)⟩
  · exact ⟨_, rfl, read_raw1 (by decide)⟩
  · exact ⟨_, rfl, read_raw1 (by decide)⟩
  · exact ⟨_, rfl, read_raw1 (by decide)⟩
  · exact ⟨_, rfl, read_raw1 (by decide)⟩
  · exact ⟨_, rfl, read_raw1 (by decide)⟩
  · exact ⟨_, rfl, read_raw1 (by decide)⟩
  · exact ⟨_, rfl, read_raw1 (by decide)⟩
  · exact ⟨_, rfl, read_raw1 (by decide)⟩
  · exact ⟨_, rfl, read_raw1 (by decide)⟩
  · exact ⟨_, rfl, read_raw1 (by decide)⟩
  · exact ⟨_, rfl, read_raw1 (by decide)⟩
  · exact ⟨_, rfl, read_raw1 (by decide)⟩
  · exact ⟨_, rfl, read_raw1 (by decide)⟩
  · exact ⟨_, rfl, read_raw1 (by decide)⟩
  · exact ⟨_, rfl, read_raw1 (by decide)⟩

theorem c59_lobatto_violated : ¬ LobattoRules := by
  intro h
  obtain ⟨q, r, h1, h2, -⟩ := h 16 (by norm_num)
  obtain ⟨q', h1', h2'⟩ := c59_unwritten 16 (by norm_num) le_rfl
  obtain rfl := Res.ok.inj (h1.symm.trans h1')
  rw [h2'] at h2
  cases h2

/-- Higher orders throw. -/
theorem c59_unsupported (o : ℕ) (ho : 43 < o) : gaussLobatto1D o = throw := by
  obtain ⟨k, rfl⟩ : ∃ k, o = k + 44 := ⟨o - 44, by omega⟩
  rfl

example : (7 : ℕ) ≤ 15 ∧ (20 : ℕ) ≤ 43 ∧ 16 ≤ (20 : ℕ) ∧ 43 < (50 : ℕ) := by norm_num

/-! ### C60: rule on the triangle -/

/-- The property: for every order up to 30 the rule has its points in the reference triangle, positive
weights, and integrates the polynomials of total degree `o` or less. -/
def TriangleRules : Prop :=
  ∀ o ≤ 30, ∃ (q : QData) (r : QRule), gaussTriangle o = ok q ∧ q.read = ok r ∧ 0 < r.length ∧
    r.Positive ∧ r.InTriangle ∧ IntegratesTriangle r o (1 / 10 ^ 12)

/-- The property holds for the orders other than 21. -/
theorem c60_triangle_partial (o : ℕ) (ho : o ≤ 30) (h21 : o ≠ 21) :
    ∃ (q : QData) (r : QRule), gaussTriangle o = ok q ∧ q.read = ok r ∧ 0 < r.length ∧
      r.Positive ∧ r.InTriangle ∧ IntegratesTriangle r o (1 / 10 ^ 12) := by
  interval_cases o
  · exact tri_mk triTab1_facts rfl (by norm_num) (by norm_num) (by norm_num) (by norm_num)
  · exact tri_mk triTab1_facts rfl (by norm_num) (by norm_num) (by norm_num) (by norm_num)
  · exact tri_mk triTab2_facts rfl (by norm_num) (by norm_num) (by norm_num) (by norm_num)
  · exact tri_mk triTab3_facts rfl (by norm_num) (by norm_num) (by norm_num) (by norm_num)
  · exact tri_mk triTab4_facts rfl (by norm_num) (by norm_num) (by norm_num) (by norm_num)
  · exact tri_mk triTab5_facts rfl (by norm_num) (by norm_num) (by norm_num) (by norm_num)
  · exact tri_mk triTab6_facts rfl (by norm_num) (by norm_num) (by norm_num) (by norm_num)
  · exact tri_mk triTab7_facts rfl (by norm_num) (by norm_num) (by norm_num) (by norm_num)
  · exact tri_mk triTab8_facts rfl (by norm_num) (by norm_num) (by norm_num) (by norm_num)
  · exact tri_mk triTab9_facts rfl (by norm_num) (by norm_num) (by norm_num) (by norm_num)
  · exact tri_mk triTab10_facts rfl (by norm_num) (by norm_num) (by norm_num) (by norm_num)
  · exact tri_mk triTab11_facts rfl (by norm_num) (by norm_num) (by norm_num) (by norm_num)
  · exact tri_mk triTab12_facts rfl (by norm_num) (by norm_num) (by norm_num) (by norm_num)
  · exact tri_mk triTab13_facts rfl (by norm_num) (by norm_num) (by norm_num) (by norm_num)
  · exact tri_mk triTab14_facts rfl (by norm_num) (by norm_num) (by norm_num) (by norm_num)
  · exact tri_mk triTab15_facts rfl (by norm_num) (by norm_num) (by norm_num) (by norm_num)
  · exact tri_mk triTab16_facts rfl (by norm_num) (by norm_num) (by norm_num) (by norm_num)
  · exact tri_mk triTab17_facts rfl (by norm_num) (by norm_num) (by norm_num) (by norm_num)
  · exact tri_mk triTab19_facts rfl (by norm_num) (by norm_num) (by norm_num) (by norm_num)
  · exact tri_mk triTab19_facts rfl (by norm_num) (by norm_num) (by norm_num) (by norm_num)
  · exact tri_mk triTab21_facts rfl (by norm_num) (by norm_num) (by norm_num) (by norm_num)
  · exact absurd rfl h21
  · exact tri_mk triTab25_facts rfl (by norm_num) (by norm_num) (by norm_num) (by norm_num)
  · exact tri_mk triTab25_facts rfl (by norm_num) (by norm_num) (by norm_num) (by norm_num)
  · exact tri_mk triTab25_facts rfl (by norm_num) (by norm_num) (by norm_num) (by norm_num)
  · exact tri_mk triTab25_facts rfl (by norm_num) (by norm_num) (by norm_num) (by norm_num)
  · exact tri_mk triTab30_facts rfl (by norm_num) (by norm_num) (by norm_num) (by norm_num)
  · exact tri_mk triTab30_facts rfl (by norm_num) (by norm_num) (by norm_num) (by norm_num)
  · exact tri_mk triTab30_facts rfl (by norm_num) (by norm_num) (by norm_num) (by norm_num)
  · exact tri_mk triTab30_facts rfl (by norm_num) (by norm_num) (by norm_num) (by norm_num)
  · exact tri_mk triTab30_facts rfl (by norm_num) (by norm_num) (by norm_num) (by norm_num)

/-- For order 21 the rule integrates the polynomials of degree 20 or less. -/
theorem c60_order21_partial :
    ∃ (q : QData) (r : QRule), gaussTriangle 21 = ok q ∧ q.read = ok r ∧ 0 < r.length ∧
      r.Positive ∧ r.InTriangle ∧ IntegratesTriangle r 20 (1 / 10 ^ 12) :=
  tri_mk triTab21_facts rfl (by norm_num) (by norm_num) (by norm_num) (by norm_num)

/-- For order 21 the rule does not integrate the polynomials of degree 21: the relative error on
`x ^ 8 * y ^ 13` is more than `10 ^ -7`. -/
theorem c60_order21 :
    ∃ (q : QData) (r : QRule), gaussTriangle 21 = ok q ∧ q.read = ok r ∧
      ¬ IntegratesTriangle r 21 (1 / 10 ^ 7) := by
  refine ⟨_, _, rfl, read_zeroed2 _, ?_⟩
  have := not_integratesTriangle (T := 10 ^ 7) (o := 21) (by norm_num) (by norm_num) triTab21_miss
  have e : (1 : ℝ) / ((10 ^ 7 : ℕ) : ℝ) = 1 / 10 ^ 7 := by norm_num
  rwa [e] at this

theorem c60_triangle_violated : ¬ TriangleRules := by
  intro h
  obtain ⟨q, r, h1, h2, -, -, -, h3⟩ := h 21 (by norm_num)
  obtain ⟨q', r', h1', h2', h3'⟩ := c60_order21
  obtain rfl := Res.ok.inj (h1.symm.trans h1')
  obtain rfl := Res.ok.inj (h2.symm.trans h2')
  apply h3'
  intro p hp
  refine (h3 p hp).trans (mul_le_mul_of_nonneg_right (by norm_num) (Finset.sum_nonneg fun m _ => ?_))
  rw [triangle_monomial]
  positivity

/-- Higher orders throw. -/
theorem c60_unsupported (o : ℕ) (ho : 30 < o) : gaussTriangle o = throw := by
  obtain ⟨k, rfl⟩ : ∃ k, o = k + 31 := ⟨o - 31, by omega⟩
  rfl

example : (30 : ℕ) ≤ 30 ∧ (30 : ℕ) ≠ 21 ∧ 30 < (31 : ℕ) := by norm_num

/-! ### C61: rule on the square -/

/-- For every order up to 31 the rule has `(o / 2 + 1) ^ 2` points in the unit square, positive
weights, and integrates the polynomials of degree `o` or less in each variable. -/
theorem c61_square (o : ℕ) (ho : o ≤ 31) :
    ∃ (q : QData) (r : QRule), gaussSquare o = ok q ∧ q.read = ok r ∧ r.length = (o / 2 + 1) ^ 2 ∧
      r.Positive ∧ r.InSquare ∧ IntegratesSquare r o (1 / 10 ^ 14) := by
  interval_cases o
  · exact square_mk gauss1Tab1_facts squareTab1_facts rfl (by norm_num)
  · exact square_mk gauss1Tab1_facts squareTab1_facts rfl (by norm_num)
  · exact square_mk gauss1Tab3_facts squareTab3_facts rfl (by norm_num)
  · exact square_mk gauss1Tab3_facts squareTab3_facts rfl (by norm_num)
  · exact square_mk gauss1Tab5_facts squareTab5_facts rfl (by norm_num)
  · exact square_mk gauss1Tab5_facts squareTab5_facts rfl (by norm_num)
  · exact square_mk gauss1Tab7_facts squareTab7_facts rfl (by norm_num)
  · exact square_mk gauss1Tab7_facts squareTab7_facts rfl (by norm_num)
  · exact square_mk gauss1Tab9_facts squareTab9_facts rfl (by norm_num)
  · exact square_mk gauss1Tab9_facts squareTab9_facts rfl (by norm_num)
  · exact square_mk gauss1Tab11_facts squareTab11_facts rfl (by norm_num)
  · exact square_mk gauss1Tab11_facts squareTab11_facts rfl (by norm_num)
  · exact square_mk gauss1Tab13_facts squareTab13_facts rfl (by norm_num)
  · exact square_mk gauss1Tab13_facts squareTab13_facts rfl (by norm_num)
  · exact square_mk gauss1Tab15_facts squareTab15_facts rfl (by norm_num)
  · exact square_mk gauss1Tab15_facts squareTab15_facts rfl (by norm_num)
  · exact square_mk gauss1Tab17_facts squareTab17_facts rfl (by norm_num)
  · exact square_mk gauss1Tab17_facts squareTab17_facts rfl (by norm_num)
  · exact square_mk gauss1Tab19_facts squareTab19_facts rfl (by norm_num)
  · exact square_mk gauss1Tab19_facts squareTab19_facts rfl (by norm_num)
  · exact square_mk gauss1Tab21_facts squareTab21_facts rfl (by norm_num)
  · exact square_mk gauss1Tab21_facts squareTab21_facts rfl (by norm_num)
  · exact square_mk gauss1Tab23_facts squareTab23_facts rfl (by norm_num)
  · exact square_mk gauss1Tab23_facts squareTab23_facts rfl (by norm_num)
  · exact square_mk gauss1Tab25_facts squareTab25_facts rfl (by norm_num)
  · exact square_mk gauss1Tab25_facts squareTab25_facts rfl (by norm_num)
  · exact square_mk gauss1Tab27_facts squareTab27_facts rfl (by norm_num)
  · exact square_mk gauss1Tab27_facts squareTab27_facts rfl (by norm_num)
  · exact square_mk gauss1Tab29_facts squareTab29_facts rfl (by norm_num)
  · exact square_mk gauss1Tab29_facts squareTab29_facts rfl (by norm_num)
  · exact square_mk gauss1Tab31_facts squareTab31_facts rfl (by norm_num)
  · exact square_mk gauss1Tab31_facts squareTab31_facts rfl (by norm_num)

/-- Higher orders throw. -/
theorem c61_unsupported (o : ℕ) (ho : 31 < o) : gaussSquare o = throw := by
  obtain ⟨k, rfl⟩ : ∃ k, o = k + 32 := ⟨o - 32, by omega⟩
  rfl

example : (31 : ℕ) ≤ 31 ∧ 31 < (32 : ℕ) := by norm_num

/-! ### C62: rule on the tetrahedron -/

/-- For every order up to 15 the rule has its points in the reference tetrahedron and integrates the
polynomials of total degree `o` or less. -/
theorem c62_tetrahedron (o : ℕ) (ho : o ≤ 15) :
    ∃ (q : QData) (r : QRule), gaussTetra o = ok q ∧ q.read = ok r ∧ 0 < r.length ∧
      r.InTetra ∧ IntegratesTetra r o (1 / 10 ^ 13) := by
  interval_cases o
  · exact tet_mk tetraTab1_facts rfl (by norm_num) (by norm_num) (by norm_num) (by norm_num)
  · exact tet_mk tetraTab1_facts rfl (by norm_num) (by norm_num) (by norm_num) (by norm_num)
  · exact tet_mk tetraTab2_facts rfl (by norm_num) (by norm_num) (by norm_num) (by norm_num)
  · exact tet_mk tetraTab3_facts rfl (by norm_num) (by norm_num) (by norm_num) (by norm_num)
  · exact tet_mk tetraTab4_facts rfl (by norm_num) (by norm_num) (by norm_num) (by norm_num)
  · exact tet_mk tetraTab5_facts rfl (by norm_num) (by norm_num) (by norm_num) (by norm_num)
  · exact tet_mk tetraTab6_facts rfl (by norm_num) (by norm_num) (by norm_num) (by norm_num)
  · exact tet_mk tetraTab8_facts rfl (by norm_num) (by norm_num) (by norm_num) (by norm_num)
  · exact tet_mk tetraTab8_facts rfl (by norm_num) (by norm_num) (by norm_num) (by norm_num)
  · exact tet_mk tetraTab9_facts rfl (by norm_num) (by norm_num) (by norm_num) (by norm_num)
  · exact tet_mk tetraTab11_facts rfl (by norm_num) (by norm_num) (by norm_num) (by norm_num)
  · exact tet_mk tetraTab11_facts rfl (by norm_num) (by norm_num) (by norm_num) (by norm_num)
  · exact tet_mk tetraTab13_facts rfl (by norm_num) (by norm_num) (by norm_num) (by norm_num)
  · exact tet_mk tetraTab13_facts rfl (by norm_num) (by norm_num) (by norm_num) (by norm_num)
  · exact tet_mk tetraTab15_facts rfl (by norm_num) (by norm_num) (by norm_num) (by norm_num)
  · exact tet_mk tetraTab15_facts rfl (by norm_num) (by norm_num) (by norm_num) (by norm_num)

/-- Higher orders throw. -/
theorem c62_unsupported (o : ℕ) (ho : 15 < o) : gaussTetra o = throw := by
  obtain ⟨k, rfl⟩ : ∃ k, o = k + 16 := ⟨o - 16, by omega⟩
  rfl

example : (15 : ℕ) ≤ 15 ∧ 15 < (16 : ℕ) := by norm_num

/-! ### C63: rule with positive weights on the tetrahedron -/

/-- For the orders 0 to 4 and the even orders up to 14 the rule has its points in the reference
tetrahedron, positive weights, and integrates the polynomials of total degree `o` or less. -/
theorem c63_positive (o : ℕ) (ho : o ≤ 14) (h : o ≤ 4 ∨ o % 2 = 0) :
    ∃ (q : QData) (r : QRule), gaussTetraPos o = ok q ∧ q.read = ok r ∧ 0 < r.length ∧
      r.Positive ∧ r.InTetra ∧ IntegratesTetra r o (1 / 10 ^ 14) := by
  interval_cases o
  · exact tetPos_mk tetraPosTab1_facts tetraPosTab1_positive rfl (by norm_num) (by norm_num) (by norm_num) (by norm_num)
  · exact tetPos_mk tetraPosTab1_facts tetraPosTab1_positive rfl (by norm_num) (by norm_num) (by norm_num) (by norm_num)
  · exact tetPos_mk tetraPosTab2_facts tetraPosTab2_positive rfl (by norm_num) (by norm_num) (by norm_num) (by norm_num)
  · exact tetPos_mk tetraPosTab3_facts tetraPosTab3_positive rfl (by norm_num) (by norm_num) (by norm_num) (by norm_num)
  · exact tetPos_mk tetraPosTab4_facts tetraPosTab4_positive rfl (by norm_num) (by norm_num) (by norm_num) (by norm_num)
  · omega
  · exact tetPos_mk tetraPosTab6_facts tetraPosTab6_positive rfl (by norm_num) (by norm_num) (by norm_num) (by norm_num)
  · omega
  · exact tetPos_mk tetraPosTab8_facts tetraPosTab8_positive rfl (by norm_num) (by norm_num) (by norm_num) (by norm_num)
  · omega
  · exact tetPos_mk tetraPosTab10_facts tetraPosTab10_positive rfl (by norm_num) (by norm_num) (by norm_num) (by norm_num)
  · omega
  · exact tetPos_mk tetraPosTab12_facts tetraPosTab12_positive rfl (by norm_num) (by norm_num) (by norm_num) (by norm_num)
  · omega
  · exact tetPos_mk tetraPosTab14_facts tetraPosTab14_positive rfl (by norm_num) (by norm_num) (by norm_num) (by norm_num)

/-- The odd orders from 5 to 13 throw; no rule of another order is returned in their place. -/
theorem c63_odd (o : ℕ) (ho : o ≤ 14) (h5 : 5 ≤ o) (h : o % 2 = 1) : gaussTetraPos o = throw := by
  interval_cases o <;> first | rfl | omega

/-- Higher orders throw. -/
theorem c63_unsupported (o : ℕ) (ho : 14 < o) : gaussTetraPos o = throw := by
  obtain ⟨k, rfl⟩ : ∃ k, o = k + 15 := ⟨o - 15, by omega⟩
  rfl

example : (12 : ℕ) ≤ 14 ∧ (12 ≤ 4 ∨ 12 % 2 = 0) ∧ (7 : ℕ) ≤ 14 ∧ 5 ≤ 7 ∧ 7 % 2 = 1 := by norm_num

/-! ### C64: rule on the hexahedron -/

/-- For every order up to 15 the rule has `(o / 2 + 1) ^ 3` points in the unit cube, positive weights,
and integrates the polynomials of degree `o` or less in each variable. -/
theorem c64_hexahedron (o : ℕ) (ho : o ≤ 15) :
    ∃ (q : QData) (r : QRule), gaussHexa o = ok q ∧ q.read = ok r ∧ r.length = (o / 2 + 1) ^ 3 ∧
      r.Positive ∧ r.InCube ∧ IntegratesCube r o (1 / 10 ^ 14) := by
  interval_cases o
  · exact cube_mk gauss1Tab1_facts hexaTab1_facts rfl (by norm_num)
  · exact cube_mk gauss1Tab1_facts hexaTab1_facts rfl (by norm_num)
  · exact cube_mk gauss1Tab3_facts hexaTab3_facts rfl (by norm_num)
  · exact cube_mk gauss1Tab3_facts hexaTab3_facts rfl (by norm_num)
  · exact cube_mk gauss1Tab5_facts hexaTab5_facts rfl (by norm_num)
  · exact cube_mk gauss1Tab5_facts hexaTab5_facts rfl (by norm_num)
  · exact cube_mk gauss1Tab7_facts hexaTab7_facts rfl (by norm_num)
  · exact cube_mk gauss1Tab7_facts hexaTab7_facts rfl (by norm_num)
  · exact cube_mk gauss1Tab9_facts hexaTab9_facts rfl (by norm_num)
  · exact cube_mk gauss1Tab9_facts hexaTab9_facts rfl (by norm_num)
  · exact cube_mk gauss1Tab11_facts hexaTab11_facts rfl (by norm_num)
  · exact cube_mk gauss1Tab11_facts hexaTab11_facts rfl (by norm_num)
  · exact cube_mk gauss1Tab13_facts hexaTab13_facts rfl (by norm_num)
  · exact cube_mk gauss1Tab13_facts hexaTab13_facts rfl (by norm_num)
  · exact cube_mk gauss1Tab15_facts hexaTab15_facts rfl (by norm_num)
  · exact cube_mk gauss1Tab15_facts hexaTab15_facts rfl (by norm_num)

/-- Higher orders throw. -/
theorem c64_unsupported (o : ℕ) (ho : 15 < o) : gaussHexa o = throw := by
  obtain ⟨k, rfl⟩ : ∃ k, o = k + 16 := ⟨o - 16, by omega⟩
  rfl

example : (15 : ℕ) ≤ 15 ∧ 15 < (16 : ℕ) := by norm_num

end Verif
