import Verif.CompareModel
import Mathlib.Tactic.Linarith
import Mathlib.Tactic.NormNum
import Mathlib.Algebra.Order.Field.Rat
import Mathlib.Tactic.NormNum.Inv
import Mathlib.Tactic.Ring

/-
Properties C27, C28 and C29: comparison of values with tolerance.
-/
namespace Verif

open Res

variable {K : Type} [Field K] [LinearOrder K] [IsStrictOrderedRing K]

/-- Half-width of the interval around `a` in which `b` counts as equal to `a`: the tolerance `t`,
times `|a|` if both values are larger than the tolerance. -/
def window (t a b : K) : K := t * (if t < |a| ∧ t < |b| then |a| else 1)

theorem window_nonneg {t : K} (ht : 0 ≤ t) (a b : K) : 0 ≤ window t a b := by
  unfold window
  split
  · exact mul_nonneg ht (abs_nonneg _)
  · simpa using ht

theorem GeoCfg.compareValues_eq (g : GeoCfg K) (a b tol : K) :
    g.compareValues a b tol =
      if |b - a| ≤ window (max |tol| g.minTolerance) a b then .coincident
      else if b < a then .secondBeforeFirst else .firstBeforeSecond := by
  have ht : 0 ≤ max |tol| g.minTolerance := le_trans (abs_nonneg tol) (le_max_left _ _)
  have hW : max |tol| g.minTolerance *
      (if |a| ≤ max |tol| g.minTolerance ∨ |b| ≤ max |tol| g.minTolerance then 1 else |a|) =
      window (max |tol| g.minTolerance) a b := by
    unfold window
    by_cases h : |a| ≤ max |tol| g.minTolerance ∨ |b| ≤ max |tol| g.minTolerance
    · rw [if_pos h, if_neg]
      rintro ⟨h1, h2⟩
      rcases h with h | h
      · exact absurd h1 (not_lt.2 h)
      · exact absurd h2 (not_lt.2 h)
    · rw [if_neg h, if_pos]
      rw [not_or, not_le, not_le] at h
      exact h
  have hn := window_nonneg ht a b
  unfold GeoCfg.compareValues
  simp only [neg_mul, hW]
  generalize hw : window (max |tol| g.minTolerance) a b = w at *
  split
  · rfl
  · next h =>
    rw [not_le] at h
    by_cases hba : b < a
    · have : b - a < -w := by
        rw [abs_of_neg (by linarith)] at h; linarith
      rw [if_pos this, if_pos hba]
    · have : ¬ b - a < -w := by
        rw [not_lt]; rw [not_lt] at hba; linarith
      rw [if_neg this, if_neg hba]

/-! ### C27 -/

/-- C27: for every pair exactly one of equal, greater and lower is reported; "greater or equal" and
"lower or equal" are the unions; a value equals itself; and when equality is not reported the answer
is the exact order. -/
theorem c27_comparators (g : GeoCfg K) (a b tol : K) :
    ((g.areValuesEqual a b tol = true ∧ g.isValueGreater a b tol = false ∧
        g.isValueLower a b tol = false) ∨
      (g.areValuesEqual a b tol = false ∧ g.isValueGreater a b tol = true ∧
        g.isValueLower a b tol = false) ∨
      (g.areValuesEqual a b tol = false ∧ g.isValueGreater a b tol = false ∧
        g.isValueLower a b tol = true)) ∧
    (g.isValueGreaterOrEqual a b tol = true ↔
      g.isValueGreater a b tol = true ∨ g.areValuesEqual a b tol = true) ∧
    (g.isValueLowerOrEqual a b tol = true ↔
      g.isValueLower a b tol = true ∨ g.areValuesEqual a b tol = true) ∧
    g.areValuesEqual a a tol = true ∧
    (g.areValuesEqual a b tol = false →
      (g.isValueGreater a b tol = true ↔ b < a) ∧ (g.isValueLower a b tol = true ↔ a < b)) := by
  refine ⟨?_, ?_, ?_, ?_, ?_⟩
  · unfold GeoCfg.areValuesEqual GeoCfg.isValueGreater GeoCfg.isValueLower
      GeoCfg.isValueGreaterOrEqual
    cases g.compareValues a b tol <;> simp
  · unfold GeoCfg.areValuesEqual GeoCfg.isValueGreater GeoCfg.isValueGreaterOrEqual
    cases g.compareValues a b tol <;> simp
  · unfold GeoCfg.areValuesEqual GeoCfg.isValueLower GeoCfg.isValueLowerOrEqual
      GeoCfg.isValueGreater GeoCfg.isValueGreaterOrEqual
    cases g.compareValues a b tol <;> simp
  · unfold GeoCfg.areValuesEqual
    rw [g.compareValues_eq, if_pos]
    · rfl
    · rw [sub_self, abs_zero]
      exact window_nonneg (le_trans (abs_nonneg tol) (le_max_left _ _)) _ _
  · unfold GeoCfg.areValuesEqual GeoCfg.isValueGreater GeoCfg.isValueLower
      GeoCfg.isValueGreaterOrEqual
    rw [g.compareValues_eq]
    intro h
    split at h
    · simp at h
    · next h0 =>
      rw [if_neg h0]
      by_cases hba : b < a
      · simp [hba, le_of_lt hba]
      · have hne : a ≠ b := by
          rintro rfl
          rw [sub_self, abs_zero] at h0
          exact h0 (window_nonneg (le_trans (abs_nonneg tol) (le_max_left _ _)) _ _)
        have := lt_of_le_of_ne (not_lt.1 hba) hne
        simp [hba, this]

/-- C27: the size of the region in which equality is reported. The tolerance is absolute when one of
the two values is within tolerance of zero and relative to the first value otherwise. -/
theorem c27_equality_region (g : GeoCfg K) (a b tol : K) :
    g.areValuesEqual a b tol = true ↔
      |b - a| ≤ max |tol| g.minTolerance *
        (if max |tol| g.minTolerance < |a| ∧ max |tol| g.minTolerance < |b| then |a| else 1) := by
  unfold GeoCfg.areValuesEqual
  rw [g.compareValues_eq]
  change _ ↔ |b - a| ≤ window (max |tol| g.minTolerance) a b
  by_cases h : |b - a| ≤ window (max |tol| g.minTolerance) a b
  · simp [h]
  · by_cases h2 : b < a <;> simp [h, h2]

/-- C27 for zero: `IsValuePositive`, `IsValueNegative` and `IsValueZero` compare with the tolerance
itself, and exactly one of them holds. -/
theorem c27_sign (g : GeoCfg K) (v tol : K) :
    (g.isValuePositive v tol = true ↔ max |tol| g.minTolerance < v) ∧
    (g.isValueNegative v tol = true ↔ v < -max |tol| g.minTolerance) ∧
    (g.isValueZero v tol = true ↔ |v| ≤ max |tol| g.minTolerance) := by
  have ht : 0 ≤ max |tol| g.minTolerance := le_trans (abs_nonneg tol) (le_max_left _ _)
  have hw : window (max |tol| g.minTolerance) 0 v = max |tol| g.minTolerance := by
    unfold window
    rw [if_neg, mul_one]
    rintro ⟨h, _⟩
    rw [abs_zero] at h
    exact absurd h (not_lt.2 ht)
  unfold GeoCfg.isValuePositive GeoCfg.isValueNegative GeoCfg.isValueZero
  rw [g.compareValues_eq, hw, sub_zero]
  generalize max |tol| g.minTolerance = t at *
  split
  · next h =>
    rw [abs_le] at h
    simp only [decide_eq_true_eq, reduceCtorEq, false_iff, not_lt, true_iff]
    exact ⟨h.2, h.1, abs_le.2 h⟩
  · next h =>
    split
    · next h0 =>
      rw [not_le, abs_of_neg h0] at h
      simp only [decide_eq_true_eq, reduceCtorEq, false_iff, not_lt, true_iff, not_le]
      refine ⟨by linarith, by linarith, ?_⟩
      rw [abs_of_neg h0]; exact h
    · next h0 =>
      rw [not_lt] at h0
      rw [not_le, abs_of_nonneg h0] at h
      simp only [decide_eq_true_eq, reduceCtorEq, false_iff, not_lt, true_iff, not_le]
      refine ⟨h, by linarith, ?_⟩
      rw [abs_of_nonneg h0]; exact h

example : (⟨0, 1/10⟩ : GeoCfg ℚ).compareValues 10 11 (1/10) = .coincident ∧
    (⟨0, 1/10⟩ : GeoCfg ℚ).compareValues 10 12 (1/10) = .firstBeforeSecond ∧
    (⟨0, 1/10⟩ : GeoCfg ℚ).compareValues 10 8 (1/10) = .secondBeforeFirst := by
  simp only [GeoCfg.compareValues_eq, window]
  norm_num [abs_of_pos, abs_of_neg]

/-! ### C28 -/

/-- C28, part that holds: exchanging the arguments never reverses the answer; and it exchanges the
answer as it should whenever the difference of the values is on the same side of the tolerances
relative to the first and to the second value, in particular if one of the values is within
tolerance of zero or both have the same absolute value.

Missing from the full statement: differences between these two, see the violation below. -/
theorem c28_exchange_partial (g : GeoCfg K) (a b tol : K) :
    (g.isValueLower a b tol = true → g.isValueLower b a tol = false) ∧
    ((max |tol| g.minTolerance < |a| ∧ max |tol| g.minTolerance < |b| →
      (|b - a| ≤ max |tol| g.minTolerance * |a| ↔ |b - a| ≤ max |tol| g.minTolerance * |b|)) →
    g.areValuesEqual a b tol = g.areValuesEqual b a tol ∧
    g.isValueLower a b tol = g.isValueGreater b a tol ∧
    g.isValueGreater a b tol = g.isValueLower b a tol) := by
  have ht : 0 ≤ max |tol| g.minTolerance := le_trans (abs_nonneg tol) (le_max_left _ _)
  unfold GeoCfg.areValuesEqual GeoCfg.isValueGreater GeoCfg.isValueLower
    GeoCfg.isValueGreaterOrEqual
  rw [g.compareValues_eq a b, g.compareValues_eq b a]
  constructor
  · by_cases h1 : |b - a| ≤ window (max |tol| g.minTolerance) a b
    · simp [h1]
    · by_cases h2 : b < a
      · simp [h1, h2]
      · by_cases h3 : |a - b| ≤ window (max |tol| g.minTolerance) b a
        · simp [h3]
        · have : a < b := by
            refine lt_of_le_of_ne (not_lt.1 h2) ?_
            rintro rfl
            rw [sub_self, abs_zero] at h1
            exact h1 (window_nonneg ht _ _)
          simp [h3, this]
  · intro h
    have hiff : |b - a| ≤ window (max |tol| g.minTolerance) a b ↔
        |a - b| ≤ window (max |tol| g.minTolerance) b a := by
      rw [abs_sub_comm a b]
      unfold window
      by_cases h2 : max |tol| g.minTolerance < |a| ∧ max |tol| g.minTolerance < |b|
      · rw [if_pos h2, if_pos h2.symm]; exact h h2
      · rw [if_neg h2, if_neg (fun hh => h2 hh.symm)]
    by_cases h1 : |b - a| ≤ window (max |tol| g.minTolerance) a b
    · simp [h1, hiff.1 h1]
    · have h1' : ¬ |a - b| ≤ window (max |tol| g.minTolerance) b a := fun hh => h1 (hiff.2 hh)
      have hne : a ≠ b := by
        rintro rfl
        rw [sub_self, abs_zero] at h1
        exact h1 (window_nonneg ht _ _)
      rcases lt_or_gt_of_ne hne with h2 | h2
      · simp [h1, h1', h2, not_lt.2 h2.le]
      · simp [h1, h1', h2, not_lt.2 h2.le]

/-- C28 fails: with tolerance 0.1, 100 is lower than 111, but 111 is equal to 100. -/
theorem c28_exchange_violated : ∃ (g : GeoCfg ℚ) (a b : ℚ),
    g.isValueLower a b g.tol1D = true ∧ g.isValueGreater b a g.tol1D = false ∧
    g.areValuesEqual a b g.tol1D = false ∧ g.areValuesEqual b a g.tol1D = true := by
  refine ⟨⟨0, 1/10⟩, 100, 111, ?_⟩
  simp only [GeoCfg.isValueLower, GeoCfg.isValueGreaterOrEqual, GeoCfg.isValueGreater,
    GeoCfg.areValuesEqual, GeoCfg.compareValues_eq, window, GeoCfg.tol1D]
  norm_num [abs_of_pos, abs_of_neg]
  decide

/-- The violation is not tied to one tolerance: it occurs for every tolerance below one half. -/
theorem c28_every_tolerance_violated (g : GeoCfg K) (t : K) (h0 : 0 < t) (ht : t < 1 / 2)
    (hg : g.minTolerance ≤ t) : ∃ a b : K,
    g.areValuesEqual a b t = false ∧ g.areValuesEqual b a t = true := by
  have hm : max |t| g.minTolerance = t := by
    rw [abs_of_pos h0]; exact max_eq_left hg
  refine ⟨1, 1 + t + t * t, ?_, ?_⟩
  · unfold GeoCfg.areValuesEqual
    have : ¬ |1 + t + t * t - 1| ≤ window t 1 (1 + t + t * t) := by
      have h1 : 0 < t * t := mul_pos h0 h0
      have e : 1 + t + t * t - 1 = t + t * t := by ring
      rw [e, abs_of_pos (by linarith)]
      unfold window
      rw [abs_one, mul_ite, mul_one]
      simp only [ite_self]
      linarith
    rw [g.compareValues_eq, hm, if_neg this]
    split <;> simp
  · unfold GeoCfg.areValuesEqual
    have h1 : 0 < t * t := mul_pos h0 h0
    have : |1 - (1 + t + t * t)| ≤ window t (1 + t + t * t) 1 := by
      have e : 1 - (1 + t + t * t) = -(t + t * t) := by ring
      rw [e, abs_neg, abs_of_pos (by linarith)]
      unfold window
      rw [abs_one, abs_of_pos (by linarith), if_pos ⟨by linarith, by linarith⟩]
      have h2 : 0 < t * (t * t) := mul_pos h0 h1
      have : t * (1 + t + t * t) = t + t * t + t * (t * t) := by ring
      linarith
    rw [g.compareValues_eq, hm, if_pos this]
    simp

/-! ### C29 -/

/-- C29: the position of a point on the line of a segment, for every coordinate. The call never
throws. -/
theorem c29_position (g : GeoCfg K) (t : K) (h0 : 0 ≤ g.minTolerance) (hT : g.tol1D < 1 / 2) :
    (g.pointSegmentPosition t = ok .onSegmentLineBeforeOrigin ↔ t < -g.tol1D) ∧
    (g.pointSegmentPosition t = ok .onSegmentOrigin ↔ |t| ≤ g.tol1D) ∧
    (g.pointSegmentPosition t = ok .insideSegment ↔ g.tol1D < t ∧ t < 1 - g.tol1D) ∧
    (g.pointSegmentPosition t = ok .onSegmentEnd ↔ |t - 1| ≤ g.tol1D) ∧
    (g.pointSegmentPosition t = ok .onSegmentLineAfterEnd ↔ 1 + g.tol1D < t) ∧
    ∃ p, g.pointSegmentPosition t = ok p := by
  have hT0 : 0 ≤ g.tol1D := le_trans h0 (le_max_left _ _)
  have hmax : max |g.tol1D| g.minTolerance = g.tol1D := by
    rw [abs_of_nonneg hT0]; exact max_eq_left (le_max_left _ _)
  have hs := c27_sign g t g.tol1D
  rw [hmax] at hs
  have hc : g.compareValues 1 t g.tol1D = if |t - 1| ≤ g.tol1D then .coincident
      else if t < 1 then .secondBeforeFirst else .firstBeforeSecond := by
    rw [g.compareValues_eq, hmax]
    unfold window
    simp
  unfold GeoCfg.pointSegmentPosition
  rw [hc]
  by_cases z : |t| ≤ g.tol1D
  · rw [if_pos (hs.2.2.2 z)]
    rw [abs_le] at z
    simp only [ok.injEq, reduceCtorEq, false_iff, true_iff, not_lt, not_and, not_le, exists_eq']
    refine ⟨by linarith, abs_le.2 z, fun h => by linarith, ?_, by linarith, trivial⟩
    rw [abs_of_neg (by linarith)]; linarith
  rw [if_neg (fun h => z (hs.2.2.1 h))]
  by_cases e : |t - 1| ≤ g.tol1D
  · simp only [e, if_true]
    rw [abs_le] at e
    simp only [ok.injEq, reduceCtorEq, false_iff, true_iff, not_lt, not_and, not_le, exists_eq']
    refine ⟨by linarith, lt_of_not_ge z, fun h => by linarith, trivial, by linarith, trivial⟩
  simp only [e, if_false]
  rw [not_le] at z e
  by_cases l : t < 1
  · simp only [l, if_true, reduceCtorEq, if_false]
    rw [abs_of_neg (by linarith)] at e
    by_cases p : g.tol1D < t
    · rw [if_pos ⟨hs.1.2 p, trivial⟩]
      simp only [ok.injEq, reduceCtorEq, false_iff, true_iff, not_lt, not_and, not_le, exists_eq']
      refine ⟨by linarith, z, ⟨p, by linarith⟩, trivial, by linarith, trivial⟩
    · rw [if_neg (fun h => p (hs.1.1 h.1))]
      rw [not_lt] at p
      have hn : t < -g.tol1D := by
        rcases lt_abs.1 z with h | h <;> linarith
      rw [if_pos (hs.2.1.2 hn)]
      simp only [ok.injEq, reduceCtorEq, false_iff, true_iff, not_lt, not_and, not_le, exists_eq']
      refine ⟨hn, z, fun h => by linarith, trivial, by linarith, trivial⟩
  · rw [not_lt] at l
    simp only [not_lt.2 l, if_false, reduceCtorEq, and_false]
    rw [abs_of_nonneg (by linarith)] at e
    rw [if_neg (fun h => by have := hs.2.1.1 h; linarith)]
    simp only [if_true, ok.injEq, reduceCtorEq, false_iff, true_iff, not_lt, not_and, not_le,
      exists_eq']
    refine ⟨by linarith, z, fun h => by linarith, trivial, by linarith, trivial⟩

example : (0 : ℚ) ≤ (⟨0, 1/10⟩ : GeoCfg ℚ).minTolerance ∧ (⟨0, 1/10⟩ : GeoCfg ℚ).tol1D < 1 / 2 := by
  norm_num [GeoCfg.tol1D]

/-- C29: the side of a plane is the sign of the distance, and 0 exactly within the tolerance. -/
theorem c29_plane_position (g : GeoCfg K) (d : K) (h0 : 0 ≤ g.minTolerance) :
    (g.pointPlanePosition d = 0 ↔ |d| ≤ g.tol1D) ∧ (g.pointPlanePosition d = -1 ↔ d < -g.tol1D) ∧
    (g.pointPlanePosition d = 1 ↔ g.tol1D < d) := by
  have hT0 : 0 ≤ g.tol1D := le_trans h0 (le_max_left _ _)
  have hmax : max |g.tol1D| g.minTolerance = g.tol1D := by
    rw [abs_of_nonneg hT0]; exact max_eq_left (le_max_left _ _)
  obtain ⟨_, hn, hz⟩ := c27_sign g d g.tol1D
  rw [hmax] at hn hz
  unfold GeoCfg.pointPlanePosition
  by_cases z : |d| ≤ g.tol1D
  · rw [if_pos (hz.2 z)]
    obtain ⟨h1, h2⟩ := abs_le.1 z
    exact ⟨by simp [z], by simp [h1], by simp [h2]⟩
  · rw [if_neg (fun h => z (hz.1 h))]
    by_cases n : d < -g.tol1D
    · rw [if_pos (hn.2 n)]
      exact ⟨by simp [z], by simp [n], by norm_num; linarith⟩
    · rw [if_neg (fun h => n (hn.1 h))]
      rw [not_le] at z
      have : g.tol1D < d := by
        rcases lt_abs.1 z with h | h
        · exact h
        · exact absurd (by linarith : d < -g.tol1D) n
      exact ⟨by simp [z], by norm_num; linarith, by simp [this]⟩

example : (⟨0, 1/10⟩ : GeoCfg ℚ).pointPlanePosition (-1) = -1 := by
  rw [(c29_plane_position _ _ (by norm_num)).2.1]
  norm_num [GeoCfg.tol1D]

end Verif
