import Verif.PlaneSpec
import Verif.PointBoxLemmas
import Verif.IntersectProps
import Mathlib.Tactic.LinearCombination
import Mathlib.Tactic.FieldSimp
import Mathlib.Tactic.NormNum.RealSqrt

/-
Rotations of a plane, reflections through a plane and triangles on a plane.
-/
namespace Verif

open Res

variable {K : Type} [Field K] [LinearOrder K] [IsStrictOrderedRing K]

theorem isRotation_one : IsRotation (M3.one : M3 K) := by
  constructor <;> simp [M3.one, M3.col0, M3.col1, M3.col2, V3.dot, M3.det]

/-- The two results of the function for a unit normal. -/
theorem planeRotation_eq (g : GeoCfg K) (h0 : 0 ≤ g.minTolerance) {sqrt : K → K} (hs : IsSqrt sqrt) {n : V3 K}
    (hn : n.dot n = 1) :
    (sqrt (n.x * n.x + n.y * n.y) ≤ g.tol1D ∧ g.planeRotationMatrix sqrt n = ok M3.one) ∨
      (g.tol1D < sqrt (n.x * n.x + n.y * n.y) ∧ ∃ a b h, a * a + b * b = 1 ∧ h * h + n.z * n.z = 1 ∧
        h = sqrt (n.x * n.x + n.y * n.y) ∧ n.x = h * a ∧ n.y = h * b ∧
        g.planeRotationMatrix sqrt n = ok ⟨-b, -a * n.z, n.x, a, -b * n.z, n.y, 0, h, n.z⟩) := by
  have hnorm : n.norm sqrt = 1 := by
    unfold V3.norm
    rw [hn]
    obtain ⟨h1, h2⟩ := hs 1 zero_le_one
    nlinarith
  have ha : g.compareValues (n.norm sqrt) 1 g.tol1D = .coincident := by
    rw [hnorm, g.compareValues_eq, g.max_tol1D h0, if_pos]
    rw [sub_self, abs_zero]
    exact window_nonneg (g.tol1D_nonneg h0) _ _
  obtain ⟨h1, h2⟩ := hs (n.x * n.x + n.y * n.y) (add_nonneg (mul_self_nonneg _) (mul_self_nonneg _))
  unfold GeoCfg.planeRotationMatrix
  rw [assert_true ha, ok_bind]
  by_cases hz : sqrt (n.x * n.x + n.y * n.y) ≤ g.tol1D
  · left
    refine ⟨hz, ?_⟩
    dsimp only
    rw [if_pos ((g.zero_1D h0 _).2 (by rwa [abs_of_nonneg h1]))]
  · right
    have hz' := lt_of_not_ge hz
    have hp : 0 < sqrt (n.x * n.x + n.y * n.y) := lt_of_le_of_lt (g.tol1D_nonneg h0) hz'
    refine ⟨hz', n.x / sqrt (n.x * n.x + n.y * n.y), n.y / sqrt (n.x * n.x + n.y * n.y), _, ?_, ?_, rfl, ?_, ?_, ?_⟩
    · generalize sqrt (n.x * n.x + n.y * n.y) = h at *
      field_simp
      linear_combination -h2
    · simp only [V3.dot] at hn
      linear_combination h2 + hn
    · rw [mul_div_cancel₀ _ hp.ne']
    · rw [mul_div_cancel₀ _ hp.ne']
    · dsimp only
      rw [if_neg (fun h => hz (by simpa [abs_of_nonneg h1] using (g.zero_1D h0 _).1 h))]
      congr 2 <;> ring

/-- C79: for a unit normal `PlaneRotationMatrix` is a rotation. -/
theorem c79_rotation (g : GeoCfg K) (h0 : 0 ≤ g.minTolerance) {sqrt : K → K} (hs : IsSqrt sqrt) {n : V3 K}
    (hn : n.dot n = 1) : ∃ Q, g.planeRotationMatrix sqrt n = ok Q ∧ IsRotation Q := by
  rcases planeRotation_eq g h0 hs hn with ⟨-, e⟩ | ⟨-, a, b, h, h1, h2, -, hx, hy, e⟩
  · exact ⟨_, e, isRotation_one⟩
  · refine ⟨_, e, ?_⟩
    constructor <;> simp only [M3.col0, M3.col1, M3.col2, V3.dot, M3.det]
    · linear_combination h1
    · linear_combination n.z * n.z * h1 + h2
    · exact hn
    · ring
    · rw [hx, hy]; ring
    · rw [hx, hy]; linear_combination (-n.z * h) * h1
    · rw [hx, hy]; linear_combination (n.z ^ 2 + h ^ 2) * h1 + h2

/-- C79: a point of the plane of the first two coordinates is rotated to a point of the plane with the given
normal through the translation, up to the tolerance times the length of the point; to a point exactly on
the plane if the normal is the third axis, or differs from it more than the tolerance. -/
theorem c79_on_plane (g : GeoCfg K) (h0 : 0 ≤ g.minTolerance) (h1D : 0 ≤ g.tolerance1D) {sqrt : K → K}
    (hs : IsSqrt sqrt) {n : V3 K} (hn : n.dot n = 1) (t : V3 K) {p : V3 K} (hp : p.z = 0) :
    ∃ Q q, g.planeRotationMatrix sqrt n = ok Q ∧ g.rotateFrom2DTo3D p Q t = ok q ∧
      planeHeight n t q ^ 2 ≤ g.tol1D ^ 2 * p.dot p ∧
      ((n.x = 0 ∧ n.y = 0) ∨ g.tol1D < sqrt (n.x * n.x + n.y * n.y) → planeHeight n t q = 0) := by
  have hr : ∀ Q : M3 K, g.rotateFrom2DTo3D p Q t = ok ((Q.mulVec p).add t) := by
    intro Q
    unfold GeoCfg.rotateFrom2DTo3D GeoCfg.pointsAre2D
    rw [assert_true (by simp), ok_bind, ok_bind, assert_true (by simp [hp, h1D]), ok_bind]
  have hpp : 0 ≤ p.dot p := dot_self_nonneg p
  rcases planeRotation_eq g h0 hs hn with ⟨hz, e⟩ | ⟨hz, a, b, h, h1, h2, -, hx, hy, e⟩
  · refine ⟨_, _, e, hr _, ?_, ?_⟩
    · obtain ⟨k1, k2⟩ := hs (n.x * n.x + n.y * n.y) (add_nonneg (mul_self_nonneg _) (mul_self_nonneg _))
      have e1 : planeHeight n t ((M3.one.mulVec p).add t) = n.x * p.x + n.y * p.y := by
        simp only [planeHeight, M3.one, M3.mulVec, V3.add, V3.sub, V3.dot, hp]; ring
      have e2 : p.dot p = p.x * p.x + p.y * p.y := by simp only [V3.dot, hp]; ring
      rw [e1]
      calc (n.x * p.x + n.y * p.y) ^ 2 ≤ (n.x * n.x + n.y * n.y) * p.dot p := by
            rw [e2]; nlinarith [sq_nonneg (n.x * p.y - n.y * p.x)]
        _ = sqrt (n.x * n.x + n.y * n.y) ^ 2 * p.dot p := by rw [sq, k2]
        _ ≤ g.tol1D ^ 2 * p.dot p := by
            refine mul_le_mul_of_nonneg_right ?_ hpp
            exact pow_le_pow_left₀ k1 hz 2
    · rintro (⟨hx, hy⟩ | h)
      · simp only [planeHeight, M3.one, M3.mulVec, V3.add, V3.sub, V3.dot, hp, hx, hy]; ring
      · exact absurd h (not_lt.2 hz)
  · have e1 : planeHeight n t (((⟨-b, -a * n.z, n.x, a, -b * n.z, n.y, 0, h, n.z⟩ : M3 K).mulVec p).add t) = 0 := by
      simp only [planeHeight, M3.mulVec, V3.add, V3.sub, V3.dot, hp, hx, hy]
      linear_combination (-(h * n.z * p.y)) * h1
    refine ⟨_, _, e, hr _, ?_, fun _ => e1⟩
    rw [e1, zero_pow two_ne_zero]
    exact mul_nonneg (sq_nonneg _) hpp

/-- C79: the points of the plane of the first two coordinates come back from the plane, and distances are
kept. -/
theorem c79_back (g : GeoCfg K) (h0 : 0 ≤ g.minTolerance) {sqrt : K → K} (hs : IsSqrt sqrt) {n : V3 K}
    (hn : n.dot n = 1) (t : V3 K) :
    ∃ Q, g.planeRotationMatrix sqrt n = ok Q ∧ KeepsDistances (fun p => rotatePoint p Q t) ∧
      ∀ p : V3 K, p.z = 0 → rotateTo2D Q t (rotatePoint p Q t) = p := by
  obtain ⟨Q, e, hQ⟩ := c79_rotation g h0 hs hn
  obtain ⟨u0, u1, u2, o01, o02, o12, -⟩ := hQ
  simp only [M3.col0, M3.col1, M3.col2, V3.dot] at u0 u1 u2 o01 o02 o12
  refine ⟨Q, e, ?_, ?_⟩
  · intro p q
    simp only [rotatePoint, M3.mulVec, V3.add, V3.sub, V3.dot]
    linear_combination (p.x - q.x) ^ 2 * u0 + (p.y - q.y) ^ 2 * u1 + (p.z - q.z) ^ 2 * u2 +
      2 * (p.x - q.x) * (p.y - q.y) * o01 + 2 * (p.x - q.x) * (p.z - q.z) * o02 +
      2 * (p.y - q.y) * (p.z - q.z) * o12
  · intro p hp
    ext
    · simp only [rotateTo2D, rotatePoint, M3.mulVec, V3.add, V3.sub, V3.dot, M3.col0, hp]
      linear_combination p.x * u0 + p.y * o01
    · simp only [rotateTo2D, rotatePoint, M3.mulVec, V3.add, V3.sub, V3.dot, M3.col1, hp]
      linear_combination p.y * u1 + p.x * o01
    · simp only [rotateTo2D, hp]

/-- C79, partial: the third axis is rotated to the normal. The full claim is for every unit normal; here the
normal differs from the third axis more than the tolerance, or is the third axis itself. The opposite of the
third axis is missing (see `c79_down_violated`). -/
theorem c79_normal_partial (g : GeoCfg K) (h0 : 0 ≤ g.minTolerance) {sqrt : K → K} (hs : IsSqrt sqrt) {n : V3 K}
    (hn : n.dot n = 1) (h : g.tol1D < sqrt (n.x * n.x + n.y * n.y) ∨ n = ⟨0, 0, 1⟩) :
    ∃ Q, g.planeRotationMatrix sqrt n = ok Q ∧ Q.mulVec ⟨0, 0, 1⟩ = n := by
  rcases planeRotation_eq g h0 hs hn with ⟨hz, e⟩ | ⟨hz, a, b, h, h1, h2, -, hx, hy, e⟩
  · rcases h with h | rfl
    · exact absurd h (not_lt.2 hz)
    · exact ⟨_, e, by simp [M3.one, M3.mulVec]⟩
  · refine ⟨_, e, ?_⟩
    ext <;> simp [M3.mulVec]

/-- C79, violated: for the opposite of the third axis the matrix is the identity, so that the third axis is
rotated to the opposite of the normal. -/
theorem c79_down_violated (g : GeoCfg K) (h0 : 0 ≤ g.minTolerance) {sqrt : K → K} (hs : IsSqrt sqrt) :
    ∃ Q, g.planeRotationMatrix sqrt ⟨0, 0, -1⟩ = ok Q ∧ Q.mulVec ⟨0, 0, 1⟩ = ⟨0, 0, 1⟩ := by
  refine ⟨M3.one, ?_, by simp [M3.one, M3.mulVec]⟩
  rcases planeRotation_eq g h0 hs (n := ⟨0, 0, -1⟩) (by simp [V3.dot]) with ⟨-, e⟩ | ⟨hz, -⟩
  · exact e
  · exfalso
    have : sqrt 0 = 0 := by
      obtain ⟨-, h⟩ := hs 0 le_rfl
      simpa using h
    simp only [mul_zero, add_zero, this] at hz
    exact absurd hz (not_lt.2 (g.tol1D_nonneg h0))

/-- C80: the reflection through a plane fixes the points of the plane, takes the others to the other side at
the same height along the normal, keeps distances, and applied twice it changes nothing. -/
theorem c80_reflection (g : GeoCfg K) (h0 : 0 ≤ g.minTolerance) {sqrt : K → K} {n : V3 K}
    (hn : g.tol1D < n.norm sqrt) (hd : n.dot n ≠ 0) (o : V3 K) :
    ∃ R t, g.planeReflectionMatrix sqrt n = ok R ∧ g.planeReflectionTranslation sqrt n o = ok t ∧
      (∀ p, planeHeight n o p = 0 → rotatePoint p R t = p) ∧
      (∀ p, planeHeight n o (rotatePoint p R t) = -planeHeight n o p) ∧
      (∀ p, ∃ c, (rotatePoint p R t).sub p = V3.smul c n) ∧
      KeepsDistances (fun p => rotatePoint p R t) ∧
      ∀ p, rotatePoint (rotatePoint p R t) R t = p := by
  have ha := (g.positive_1D h0 _).2 hn
  have hmap : ∀ p : V3 K, rotatePoint p
      ⟨1 - 2 / n.dot n * n.x * n.x, 0 - 2 / n.dot n * n.x * n.y, 0 - 2 / n.dot n * n.x * n.z,
        0 - 2 / n.dot n * n.y * n.x, 1 - 2 / n.dot n * n.y * n.y, 0 - 2 / n.dot n * n.y * n.z,
        0 - 2 / n.dot n * n.z * n.x, 0 - 2 / n.dot n * n.z * n.y, 1 - 2 / n.dot n * n.z * n.z⟩
      (V3.smul (2 / n.dot n * n.dot o) n) = p.add (V3.smul (-(2 / n.dot n * planeHeight n o p)) n) := by
    intro p
    generalize 2 / n.dot n = c
    ext <;> simp only [rotatePoint, planeHeight, M3.mulVec, V3.add, V3.sub, V3.dot, V3.smul] <;> ring
  have hc : 2 / n.dot n * n.dot n = 2 := div_mul_cancel₀ _ hd
  have hh : ∀ p : V3 K, planeHeight n o (p.add (V3.smul (-(2 / n.dot n * planeHeight n o p)) n)) =
      -planeHeight n o p := by
    intro p
    have : ∀ c : K, planeHeight n o (p.add (V3.smul c n)) = planeHeight n o p + c * n.dot n := by
      intro c; simp only [planeHeight, V3.add, V3.sub, V3.dot, V3.smul]; ring
    rw [this]
    linear_combination (-planeHeight n o p) * hc
  unfold GeoCfg.planeReflectionMatrix GeoCfg.planeReflectionTranslation
  rw [assert_true ha, ok_bind, ok_bind]
  refine ⟨_, _, rfl, rfl, ?_, ?_, ?_, ?_, ?_⟩
  · intro p hp
    rw [hmap, hp]
    ext <;> simp [V3.add, V3.smul]
  · intro p
    rw [hmap, hh]
  · intro p
    rw [hmap]
    refine ⟨-(2 / n.dot n * planeHeight n o p), ?_⟩
    ext <;> simp only [V3.add, V3.sub, V3.smul] <;> ring
  · intro p q
    simp only [hmap]
    have e : (p.add (V3.smul (-(2 / n.dot n * planeHeight n o p)) n)).sub
        (q.add (V3.smul (-(2 / n.dot n * planeHeight n o q)) n)) =
        (p.sub q).add (V3.smul (-(2 / n.dot n * n.dot (p.sub q))) n) := by
      generalize 2 / n.dot n = c
      ext <;> simp only [planeHeight, V3.add, V3.sub, V3.dot, V3.smul] <;> ring
    rw [e]
    have : ∀ (c : K) (v : V3 K), (v.add (V3.smul c n)).dot (v.add (V3.smul c n)) =
        v.dot v + 2 * c * n.dot v + c * c * n.dot n := by
      intro c v; simp only [V3.add, V3.dot, V3.smul]; ring
    rw [this]
    linear_combination (2 / n.dot n * n.dot (p.sub q) ^ 2) * hc
  · intro p
    rw [hmap (rotatePoint _ _ _), hmap p, hh]
    ext <;> simp only [V3.add, V3.smul] <;> ring

/-- C80: a vector that is too short for a normal is refused. -/
theorem c80_refused (g : GeoCfg K) (h0 : 0 ≤ g.minTolerance) {sqrt : K → K} {n : V3 K}
    (hn : n.norm sqrt ≤ g.tol1D) (o : V3 K) :
    g.planeReflectionMatrix sqrt n = abort ∧ g.planeReflectionTranslation sqrt n o = abort := by
  unfold GeoCfg.planeReflectionMatrix GeoCfg.planeReflectionTranslation
  have : ¬ g.isValuePositive (n.norm sqrt) g.tol1D = true := fun h => absurd ((g.positive_1D h0 _).1 h) (not_lt.2 hn)
  rw [assert_false this]
  exact ⟨rfl, rfl⟩

/-- C81, partial: `PlaneToPolygon` returns a triangle with a right angle at the origin and two sides of length
one on the plane, and its normal is the normalized normal of the plane. The full claim is for every normal
different from zero; opposite to the third axis, or along it and shorter than `0.9`, the claim is violated
(see `c81_down_violated`). -/
theorem c81_triangle_partial (g : GeoCfg K) (h0 : 0 ≤ g.minTolerance) (ht : g.tol1D < 9 / 10) {sqrt : K → K}
    (hs : IsSqrt sqrt) {n : V3 K} (hn : n.x ≠ 0 ∨ n.y ≠ 0 ∨ 9 / 10 ≤ n.z) (o : V3 K) :
    ∃ t₁ t₂, g.planeToPolygon sqrt n o = (o, o.add t₁, o.add t₂) ∧ n.dot t₁ = 0 ∧ n.dot t₂ = 0 ∧
      t₁.dot t₂ = 0 ∧ t₁.dot t₁ = 1 ∧ t₂.dot t₂ = 1 ∧ t₁.cross t₂ = n.normalized sqrt := by
  unfold GeoCfg.planeToPolygon
  set s : V3 K := if g.isValueLower n.z (9 / 10) g.tol1D then ⟨0, 0, 1⟩ else ⟨0, 1, 0⟩ with hsdef
  have hc : 0 < (n.cross s).dot (n.cross s) := by
    rw [hsdef]
    split
    · rename_i hl
      have hxy : n.x ≠ 0 ∨ n.y ≠ 0 := by
        rcases hn with h | h | h
        · exact Or.inl h
        · exact Or.inr h
        · exfalso
          unfold GeoCfg.isValueLower at hl
          rw [Bool.not_eq_true', ← Bool.not_eq_true, ge_1D g h0] at hl
          have := window_nonneg (g.tol1D_nonneg h0) n.z (9 / 10)
          exact hl (by linarith)
      simp only [V3.cross, V3.dot]
      rcases hxy with h | h
      · have := mul_self_pos.2 h; nlinarith [mul_self_nonneg n.y]
      · have := mul_self_pos.2 h; nlinarith [mul_self_nonneg n.x]
    · rename_i hl
      have hz : n.z ≠ 0 ∨ n.x ≠ 0 := by
        by_contra hcon
        push Not at hcon
        apply hl
        unfold GeoCfg.isValueLower
        rw [Bool.not_eq_true', ← Bool.not_eq_true, ge_1D g h0, hcon.1, not_le]
        have : window g.tol1D 0 (9 / 10) = g.tol1D := by
          unfold window
          rw [if_neg, mul_one]
          rintro ⟨h, -⟩
          rw [abs_zero] at h
          exact absurd h (not_lt.2 (g.tol1D_nonneg h0))
        rw [this, zero_add]
        exact ht
      simp only [V3.cross, V3.dot]
      rcases hz with h | h
      · have := mul_self_pos.2 h; nlinarith [mul_self_nonneg n.x]
      · have := mul_self_pos.2 h; nlinarith [mul_self_nonneg n.z]
  have hn0 : 0 < n.dot n := by
    rcases (dot_self_nonneg n).lt_or_eq with h | h
    · exact h
    · exfalso
      have : (n.cross s).dot (n.cross s) = n.dot n * s.dot s - n.dot s * n.dot s := by
        simp only [V3.cross, V3.dot]; ring
      rw [← h, zero_mul] at this
      nlinarith [mul_self_nonneg (n.dot s)]
  have ht1 := normalized_dot_self hs (n.cross s) hc
  have hnt1 : n.dot ((n.cross s).normalized sqrt) = 0 := by
    unfold V3.normalized
    rw [if_pos hc]
    simp only [V3.smul, V3.dot, V3.cross]; ring
  set t₁ := (n.cross s).normalized sqrt
  have hc2 : (n.cross t₁).dot (n.cross t₁) = n.dot n := by
    have : (n.cross t₁).dot (n.cross t₁) = n.dot n * t₁.dot t₁ - n.dot t₁ * n.dot t₁ := by
      simp only [V3.cross, V3.dot]; ring
    rw [this, ht1, hnt1]; ring
  have e2 : (n.cross t₁).normalized sqrt = V3.smul (1 / sqrt (n.dot n)) (n.cross t₁) := by
    unfold V3.normalized
    rw [hc2, if_pos hn0]
  refine ⟨t₁, _, rfl, hnt1, ?_, ?_, ht1, normalized_dot_self hs _ (by rw [hc2]; exact hn0), ?_⟩
  · rw [e2]
    simp only [V3.smul, V3.dot, V3.cross]; ring
  · rw [e2]
    simp only [V3.smul, V3.dot, V3.cross]; ring
  · rw [e2]
    unfold V3.normalized
    rw [if_pos hn0]
    generalize 1 / sqrt (n.dot n) = c
    simp only [V3.dot] at ht1 hnt1
    ext <;> simp only [V3.smul, V3.cross]
    · linear_combination (c * n.x) * ht1 - c * t₁.x * hnt1
    · linear_combination (c * n.y) * ht1 - c * t₁.y * hnt1
    · linear_combination (c * n.z) * ht1 - c * t₁.z * hnt1

/-- C81, violated: for the opposite of the third axis the three vertices of the triangle coincide. -/
theorem c81_down_violated (g : GeoCfg K) (h0 : 0 ≤ g.minTolerance) (ht : g.tol1D < 9 / 10) {sqrt : K → K}
    (o : V3 K) : g.planeToPolygon sqrt ⟨0, 0, -1⟩ o = (o, o, o) := by
  have hl : g.isValueLower (-1) (9 / 10) g.tol1D = true := by
    unfold GeoCfg.isValueLower
    rw [Bool.not_eq_true', ← Bool.not_eq_true, ge_1D g h0, not_le]
    unfold window
    split
    · rw [abs_neg, abs_one]; linarith
    · linarith
  unfold GeoCfg.planeToPolygon V3.normalized
  simp only [hl, if_true, V3.cross, V3.dot, V3.add]
  norm_num

example : (⟨3 / 5, 0, 4 / 5⟩ : V3 ℝ).dot ⟨3 / 5, 0, 4 / 5⟩ = 1 ∧
    defaultGeo.tol1D < Real.sqrt ((3 / 5 : ℝ) * (3 / 5) + 0 * 0) ∧ (0 : ℝ) ≤ defaultGeo.minTolerance ∧
    (0 : ℝ) ≤ defaultGeo.tolerance1D := by
  refine ⟨by norm_num [V3.dot], ?_, by norm_num [defaultGeo], by norm_num [defaultGeo]⟩
  rw [defaultGeo_tol1D, Real.lt_sqrt (by norm_num)]
  norm_num

/-- The rotation for the first axis. -/
example : defaultGeo.planeRotationMatrix Real.sqrt ⟨1, 0, 0⟩ = ok ⟨0, 0, 1, 1, 0, 0, 0, 1, 0⟩ := by
  unfold GeoCfg.planeRotationMatrix
  have h1 : (⟨1, 0, 0⟩ : V3 ℝ).norm Real.sqrt = 1 := by simp [V3.norm, V3.dot]
  have h2 : ¬ defaultGeo.isValueZero 1 defaultGeo.tol1D = true := by
    rw [defaultGeo.zero_1D (by norm_num [defaultGeo]), defaultGeo_tol1D]
    norm_num
  have h3 : defaultGeo.compareValues 1 1 defaultGeo.tol1D = .coincident := by
    rw [defaultGeo.compareValues_eq, if_pos]
    rw [sub_self, abs_zero]
    exact window_nonneg (le_trans (abs_nonneg _) (le_max_left _ _)) _ _
  rw [h1, assert_true h3, ok_bind]
  simp [h2]

example : defaultGeo.tol1D < (⟨0, 0, 2⟩ : V3 ℝ).norm Real.sqrt ∧ (⟨0, 0, 2⟩ : V3 ℝ).dot ⟨0, 0, 2⟩ ≠ 0 := by
  rw [defaultGeo_tol1D]
  refine ⟨?_, by norm_num [V3.dot]⟩
  rw [V3.norm, Real.lt_sqrt (by norm_num)]
  norm_num [V3.dot]

example : (⟨1, 0, 0⟩ : V3 ℝ).x ≠ 0 ∧ defaultGeo.tol1D < 9 / 10 := by
  rw [defaultGeo_tol1D]
  norm_num

end Verif
