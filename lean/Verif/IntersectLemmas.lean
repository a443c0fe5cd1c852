import Verif.IntersectModel
import Verif.IntersectSpec
import Verif.PolygonLemmas
import Verif.CompareProps
import Mathlib.Tactic.LinearCombination
import Mathlib.Tactic.FieldSimp

/-
Helper lemmas for the properties of the intersections.
-/
namespace Verif

open Res

variable {K : Type} [Field K] [LinearOrder K] [IsStrictOrderedRing K]

theorem GeoCfg.tol1DSquared_nonneg (g : GeoCfg K) : 0 ≤ g.tol1DSquared :=
  le_trans (mul_self_nonneg g.minTolerance) (le_max_left _ _)

theorem GeoCfg.tolSq_nonneg (g : GeoCfg K) : 0 ≤ g.tolSq :=
  le_trans g.tol1DSquared_nonneg (le_max_left _ _)

theorem GeoCfg.positive_sq (g : GeoCfg K) (v : K) :
    g.isValuePositive v g.tol1DSquared = true ↔ g.tolSq < v := by
  rw [(c27_sign g v _).1, abs_of_nonneg g.tol1DSquared_nonneg]; rfl

theorem GeoCfg.zero_sq (g : GeoCfg K) (v : K) :
    g.isValueZero v g.tol1DSquared = true ↔ |v| ≤ g.tolSq := by
  rw [(c27_sign g v _).2.2, abs_of_nonneg g.tol1DSquared_nonneg]; rfl

theorem GeoCfg.max_tol1D (g : GeoCfg K) (h0 : 0 ≤ g.minTolerance) :
    max |g.tol1D| g.minTolerance = g.tol1D := by
  have hT0 : 0 ≤ g.tol1D := le_trans h0 (le_max_left _ _)
  rw [abs_of_nonneg hT0]; exact max_eq_left (le_max_left _ _)

theorem GeoCfg.positive_1D (g : GeoCfg K) (h0 : 0 ≤ g.minTolerance) (v : K) :
    g.isValuePositive v g.tol1D = true ↔ g.tol1D < v := by
  rw [(c27_sign g v _).1, g.max_tol1D h0]

theorem GeoCfg.zero_1D (g : GeoCfg K) (h0 : 0 ≤ g.minTolerance) (v : K) :
    g.isValueZero v g.tol1D = true ↔ |v| ≤ g.tol1D := by
  rw [(c27_sign g v _).2.2, g.max_tol1D h0]

theorem GeoCfg.tol1D_nonneg (g : GeoCfg K) (h0 : 0 ≤ g.minTolerance) : 0 ≤ g.tol1D :=
  le_trans h0 (le_max_left _ _)

theorem dot_self_nonneg (v : V3 K) : 0 ≤ v.dot v := by
  simp only [V3.dot]
  nlinarith [mul_self_nonneg v.x, mul_self_nonneg v.y, mul_self_nonneg v.z]

theorem norm_pos {sqrt : K → K} (hs : IsSqrt sqrt) {v : V3 K} (h : 0 < v.dot v) :
    0 < v.norm sqrt := by
  rcases (norm_nonneg' hs v).lt_or_eq with h1 | h1
  · exact h1
  · have := norm_sq hs v
    rw [← h1] at this; linarith

theorem V3.sub_dot_pointAt (a b : V3 K) : (b.sub a).dot (b.sub a) = dist2 a b := by
  simp only [V3.sub, V3.dot, dist2]; ring

theorem sub_sub_dot (a b c d : V3 K) : (b.sub a).dot (d.sub c) = dot4 a b c d := by
  simp only [V3.sub, V3.dot, dot4]

/-- The unit tangents in terms of the tangents. -/
theorem normalized_dot {sqrt : K → K} (a b : V3 K) (ha : 0 < a.dot a) (hb : 0 < b.dot b) :
    (a.normalized sqrt).dot (b.normalized sqrt) =
      a.dot b / (a.norm sqrt * b.norm sqrt) := by
  rw [V3.normalized, V3.normalized, if_pos ha, if_pos hb]
  simp only [V3.smul, V3.dot, V3.norm, one_div]
  rw [div_eq_mul_inv, mul_inv]; ring

theorem normalized_dot_self {sqrt : K → K} (hs : IsSqrt sqrt) (a : V3 K) (ha : 0 < a.dot a) :
    (a.normalized sqrt).dot (a.normalized sqrt) = 1 := by
  rw [normalized_dot a a ha ha, norm_sq hs, div_self ha.ne']

theorem normalized_dot_left {sqrt : K → K} (a r : V3 K) (ha : 0 < a.dot a) :
    (a.normalized sqrt).dot r = a.dot r / a.norm sqrt := by
  rw [V3.normalized, if_pos ha]
  simp only [V3.smul, V3.dot, V3.norm, one_div]
  rw [div_eq_mul_inv]; ring

/-- Cauchy-Schwarz in the form of the identity of Lagrange. -/
theorem lagrange (a b : V3 K) :
    (a.cross b).dot (a.cross b) = a.dot a * b.dot b - a.dot b * a.dot b := by
  simp only [V3.cross, V3.dot]; ring

/-- The two coordinates that `IntersectionSegmentSegment` finds on lines that are not parallel, in
terms of the tangents. -/
theorem leastSquares2_coords {sqrt : K → K} (hs : IsSqrt sqrt) (a b r : V3 K) (ha : 0 < a.dot a)
    (hb : 0 < b.dot b) (hd : a.dot a * b.dot b - a.dot b * a.dot b ≠ 0) :
    (leastSquares2 (a.normalized sqrt) (b.normalized sqrt) r).1 / a.norm sqrt =
      (b.dot b * a.dot r - a.dot b * b.dot r) / (a.dot a * b.dot b - a.dot b * a.dot b) ∧
    -(leastSquares2 (a.normalized sqrt) (b.normalized sqrt) r).2 / b.norm sqrt =
      -(a.dot a * b.dot r - a.dot b * a.dot r) / (a.dot a * b.dot b - a.dot b * a.dot b) := by
  have pa := norm_pos hs ha
  have pb := norm_pos hs hb
  have ea := norm_sq hs a
  have eb := norm_sq hs b
  unfold leastSquares2
  simp only
  rw [normalized_dot_self hs a ha, normalized_dot_self hs b hb, normalized_dot a b ha hb,
    normalized_dot_left a r ha, normalized_dot_left b r hb]
  generalize a.norm sqrt = l at *
  generalize b.norm sqrt = m at *
  rw [← ea, ← eb] at hd ⊢
  generalize a.dot b = c at *
  generalize a.dot r = p at *
  generalize b.dot r = q at *
  have hl := pa.ne'
  have hm := pb.ne'
  have hw : (1 * 1 - c / (l * m) * (c / (l * m))) = (l * l * (m * m) - c * c) / (l * l * (m * m)) := by
    field_simp
  rw [hw]
  constructor
  · field_simp
  · field_simp

/-- The quantities of the test for parallel tangents. -/
theorem one_sub_sq {sqrt : K → K} (hs : IsSqrt sqrt) (a b : V3 K) (ha : 0 < a.dot a)
    (hb : 0 < b.dot b) :
    (1 - (a.normalized sqrt).dot (b.normalized sqrt)) *
      (1 + (a.normalized sqrt).dot (b.normalized sqrt)) =
      (a.dot a * b.dot b - a.dot b * a.dot b) / (a.dot a * b.dot b) := by
  have pa := norm_pos hs ha
  have pb := norm_pos hs hb
  have ea := norm_sq hs a
  have eb := norm_sq hs b
  rw [normalized_dot a b ha hb]
  generalize a.norm sqrt = l at *
  generalize b.norm sqrt = m at *
  rw [← ea, ← eb]
  have hl := pa.ne'
  have hm := pb.ne'
  field_simp
  ring

/-- The coordinate of the point of the line `x₁ x₂` that is nearest to the line `x₃ x₄`. -/
def nearestFirst (x₁ x₂ x₃ x₄ : V3 K) : K :=
  let a := x₂.sub x₁
  let b := x₄.sub x₃
  let r := x₃.sub x₁
  (b.dot b * a.dot r - a.dot b * b.dot r) / (a.dot a * b.dot b - a.dot b * a.dot b)

/-- The coordinate of the point of the line `x₃ x₄` that is nearest to the line `x₁ x₂`. -/
def nearestSecond (x₁ x₂ x₃ x₄ : V3 K) : K :=
  let a := x₂.sub x₁
  let b := x₄.sub x₃
  let r := x₃.sub x₁
  (-(a.dot a * b.dot r - a.dot b * a.dot r)) / (a.dot a * b.dot b - a.dot b * a.dot b)

theorem nearest_orthogonal (x₁ x₂ x₃ x₄ : V3 K)
    (hd : (x₂.sub x₁).dot (x₂.sub x₁) * (x₄.sub x₃).dot (x₄.sub x₃) -
      (x₂.sub x₁).dot (x₄.sub x₃) * (x₂.sub x₁).dot (x₄.sub x₃) ≠ 0) :
    dot4 x₁ x₂ (pointAt x₁ x₂ (nearestFirst x₁ x₂ x₃ x₄))
      (pointAt x₃ x₄ (nearestSecond x₁ x₂ x₃ x₄)) = 0 ∧
    dot4 x₃ x₄ (pointAt x₁ x₂ (nearestFirst x₁ x₂ x₃ x₄))
      (pointAt x₃ x₄ (nearestSecond x₁ x₂ x₃ x₄)) = 0 := by
  have e1 : ∀ s q, dot4 x₁ x₂ (pointAt x₁ x₂ s) (pointAt x₃ x₄ q) =
      (x₂.sub x₁).dot (x₃.sub x₁) + q * (x₂.sub x₁).dot (x₄.sub x₃) -
        s * (x₂.sub x₁).dot (x₂.sub x₁) := by
    intro s q; simp only [dot4, pointAt, V3.sub, V3.dot]; ring
  have e2 : ∀ s q, dot4 x₃ x₄ (pointAt x₁ x₂ s) (pointAt x₃ x₄ q) =
      (x₄.sub x₃).dot (x₃.sub x₁) + q * (x₄.sub x₃).dot (x₄.sub x₃) -
        s * (x₂.sub x₁).dot (x₄.sub x₃) := by
    intro s q; simp only [dot4, pointAt, V3.sub, V3.dot]; ring
  rw [e1, e2, nearestFirst, nearestSecond]
  generalize (x₂.sub x₁).dot (x₂.sub x₁) = aa at *
  generalize (x₄.sub x₃).dot (x₄.sub x₃) = bb at *
  generalize (x₂.sub x₁).dot (x₄.sub x₃) = ab at *
  generalize (x₂.sub x₁).dot (x₃.sub x₁) = p at *
  generalize (x₄.sub x₃).dot (x₃.sub x₁) = q at *
  generalize hD : aa * bb - ab * ab = D at *
  have h1 : ∀ X, X / D * D = X := fun X => div_mul_cancel₀ X hd
  constructor
  · apply mul_right_cancel₀ hd
    linear_combination ab * h1 (-(aa * q - ab * p)) - aa * h1 (bb * p - ab * q) - p * hD
  · apply mul_right_cancel₀ hd
    linear_combination bb * h1 (-(aa * q - ab * p)) - ab * h1 (bb * p - ab * q) - q * hD

/-- If the lines have a common point, the nearest points are this point. -/
theorem nearest_unique (x₁ x₂ x₃ x₄ : V3 K)
    (hd : (x₂.sub x₁).dot (x₂.sub x₁) * (x₄.sub x₃).dot (x₄.sub x₃) -
      (x₂.sub x₁).dot (x₄.sub x₃) * (x₂.sub x₁).dot (x₄.sub x₃) ≠ 0) (s q : K)
    (h : pointAt x₁ x₂ s = pointAt x₃ x₄ q) :
    nearestFirst x₁ x₂ x₃ x₄ = s ∧ nearestSecond x₁ x₂ x₃ x₄ = q := by
  have hr : x₃.sub x₁ = (V3.smul s (x₂.sub x₁)).sub (V3.smul q (x₄.sub x₃)) := by
    simp only [pointAt, V3.mk.injEq] at h
    obtain ⟨hx, hy, hz⟩ := h
    ext
    · simp only [V3.sub, V3.smul]; linear_combination -hx
    · simp only [V3.sub, V3.smul]; linear_combination -hy
    · simp only [V3.sub, V3.smul]; linear_combination -hz
  rw [nearestFirst, nearestSecond]
  rw [hr]
  have e1 : (x₂.sub x₁).dot ((V3.smul s (x₂.sub x₁)).sub (V3.smul q (x₄.sub x₃))) =
      s * (x₂.sub x₁).dot (x₂.sub x₁) - q * (x₂.sub x₁).dot (x₄.sub x₃) := by
    simp only [V3.sub, V3.smul, V3.dot]; ring
  have e2 : (x₄.sub x₃).dot ((V3.smul s (x₂.sub x₁)).sub (V3.smul q (x₄.sub x₃))) =
      s * (x₂.sub x₁).dot (x₄.sub x₃) - q * (x₄.sub x₃).dot (x₄.sub x₃) := by
    simp only [V3.sub, V3.smul, V3.dot]; ring
  rw [e1, e2]
  generalize (x₂.sub x₁).dot (x₂.sub x₁) = aa at *
  generalize (x₄.sub x₃).dot (x₄.sub x₃) = bb at *
  generalize (x₂.sub x₁).dot (x₄.sub x₃) = ab at *
  constructor
  · rw [div_eq_iff hd]; ring
  · rw [div_eq_iff hd]; ring

theorem onSegment_iff (g : GeoCfg K) (h0 : 0 ≤ g.minTolerance) (hT : g.tol1D < 1 / 2) (s : K)
    (p : PointSegmentPos) (h : g.pointSegmentPosition s = ok p) :
    onSegment p = true ↔ -g.tol1D ≤ s ∧ s ≤ 1 + g.tol1D := by
  obtain ⟨c1, c2, c3, c4, c5, -⟩ := c29_position g s h0 hT
  have hT0 := g.tol1D_nonneg h0
  rw [h] at c1 c2 c3 c4 c5
  simp only [ok.injEq] at c1 c2 c3 c4 c5
  unfold onSegment
  simp only [Bool.or_eq_true, decide_eq_true_eq]
  rw [c2, c3, c4, abs_le, abs_le]
  constructor
  · rintro ((⟨h1, h2⟩ | ⟨h1, h2⟩) | ⟨h1, h2⟩) <;> constructor <;> linarith
  · rintro ⟨h1, h2⟩
    rcases le_total s g.tol1D with h | h
    · exact Or.inl (Or.inl ⟨h1, h⟩)
    · rcases lt_or_ge s (1 - g.tol1D) with h' | h'
      · rcases eq_or_lt_of_le h with h'' | h''
        · exact Or.inl (Or.inl ⟨by linarith, by linarith⟩)
        · exact Or.inl (Or.inr ⟨h'', h'⟩)
      · exact Or.inr ⟨by linarith, by linarith⟩

/-- The test for tangents that are not parallel. -/
def GeoCfg.notParallel (g : GeoCfg K) (sqrt : K → K) (a b : V3 K) : Bool :=
  let d := (a.normalized sqrt).dot (b.normalized sqrt)
  g.isValuePositive |(|d| - 1)| g.tol1DSquared &&
    g.isValuePositive ((1 - d) * (1 + d)) (g.tol1DSquared * g.tol1DSquared)

theorem notParallel_det {sqrt : K → K} (hs : IsSqrt sqrt) (g : GeoCfg K) (a b : V3 K)
    (ha : 0 < a.dot a) (hb : 0 < b.dot b) (h : g.notParallel sqrt a b = true) :
    0 < a.dot a * b.dot b - a.dot b * a.dot b := by
  unfold GeoCfg.notParallel at h
  simp only [Bool.and_eq_true] at h
  have h2 := (c27_sign g _ _).1.1 h.2
  have : 0 ≤ max |g.tol1DSquared * g.tol1DSquared| g.minTolerance :=
    le_trans (abs_nonneg _) (le_max_left _ _)
  rw [one_sub_sq hs a b ha hb] at h2
  have h3 := lt_of_le_of_lt this h2
  have h4 := mul_pos ha hb
  by_contra hc
  exact absurd h3 (not_lt.2 (div_nonpos_of_nonpos_of_nonneg (not_lt.1 hc) h4.le))

/-- The two cases of `IntersectionSegmentSegment` after the tests. -/
theorem segSeg_cases {sqrt : K → K} (hs : IsSqrt sqrt) (g : GeoCfg K) (x₁ x₂ x₃ x₄ : V3 K)
    (ha : g.tolSq < (x₂.sub x₁).dot (x₂.sub x₁)) (hb : g.tolSq < (x₄.sub x₃).dot (x₄.sub x₃)) :
    g.intersectionSegmentSegment sqrt x₁ x₂ x₃ x₄ =
      if g.areLineCoplanar sqrt x₁ (x₂.sub x₁) x₃ (x₄.sub x₃) = false then
        ok ⟨.onDifferentPlanes, .noIntersection, [], [], []⟩
      else if g.notParallel sqrt (x₂.sub x₁) (x₄.sub x₃) = true then do
        let ps ← g.pointSegmentPosition (nearestFirst x₁ x₂ x₃ x₄)
        let pq ← g.pointSegmentPosition (nearestSecond x₁ x₂ x₃ x₄)
        ok ⟨.coPlanarIntersecting,
          if onSegment ps && onSegment pq then .singleIntersection else .noIntersection,
          [0], [⟨ps, nearestFirst x₁ x₂ x₃ x₄⟩], [⟨pq, nearestSecond x₁ x₂ x₃ x₄⟩]⟩
      else g.parallelSegments sqrt x₁ x₂ x₃ x₄ := by
  have pa := lt_of_le_of_lt g.tolSq_nonneg ha
  have pb := lt_of_le_of_lt g.tolSq_nonneg hb
  unfold GeoCfg.intersectionSegmentSegment
  simp only
  rw [assert_true ((g.positive_sq _).2 ha), ok_bind, assert_true ((g.positive_sq _).2 hb), ok_bind]
  by_cases hc : g.areLineCoplanar sqrt x₁ (x₂.sub x₁) x₃ (x₄.sub x₃) = false
  · rw [if_pos hc, hc]; rfl
  rw [if_neg hc]
  simp only [Bool.not_eq_false] at hc
  rw [hc]
  simp only [Bool.not_true, Bool.false_eq_true, if_false]
  by_cases hp : g.notParallel sqrt (x₂.sub x₁) (x₄.sub x₃) = true
  · rw [if_pos hp]
    have hd := notParallel_det hs g _ _ pa pb hp
    unfold GeoCfg.notParallel at hp
    simp only at hp
    rw [if_pos hp]
    obtain ⟨e1, e2⟩ := leastSquares2_coords hs (x₂.sub x₁) (x₄.sub x₃) (x₃.sub x₁) pa pb hd.ne'
    rw [e1, e2]
    rfl
  · rw [if_neg hp]
    unfold GeoCfg.notParallel at hp
    simp only at hp
    rw [if_neg hp]

theorem segSeg_lengths {sqrt : K → K} (g : GeoCfg K) (x₁ x₂ x₃ x₄ : V3 K) (r : SegSegResult K)
    (h : g.intersectionSegmentSegment sqrt x₁ x₂ x₃ x₄ = ok r) :
    g.tolSq < (x₂.sub x₁).dot (x₂.sub x₁) ∧ g.tolSq < (x₄.sub x₃).dot (x₄.sub x₃) := by
  unfold GeoCfg.intersectionSegmentSegment at h
  simp only at h
  by_cases h1 : g.isValuePositive ((x₂.sub x₁).dot (x₂.sub x₁)) g.tol1DSquared = true
  · rw [assert_true h1, ok_bind] at h
    by_cases h2 : g.isValuePositive ((x₄.sub x₃).dot (x₄.sub x₃)) g.tol1DSquared = true
    · exact ⟨(g.positive_sq _).1 h1, (g.positive_sq _).1 h2⟩
    · rw [assert_false h2] at h; cases h
  · rw [assert_false h1] at h; cases h

theorem parallelSegments_lines {sqrt : K → K} (g : GeoCfg K) (x₁ x₂ x₃ x₄ : V3 K)
    (r : SegSegResult K) (h : g.parallelSegments sqrt x₁ x₂ x₃ x₄ = ok r) :
    r.lines = .coPlanarParallel := by
  unfold GeoCfg.parallelSegments at h
  simp only at h
  split at h
  · cases h; rfl
  split at h
  · cases h; rfl
  obtain ⟨_, _, h⟩ := bind_eq_ok.1 h
  obtain ⟨_, _, h⟩ := bind_eq_ok.1 h
  obtain ⟨_, _, h⟩ := bind_eq_ok.1 h
  obtain ⟨_, _, h⟩ := bind_eq_ok.1 h
  cases h; rfl

/-- The determinant of the test for coplanar lines vanishes if the lines have a common point. -/
theorem coplanar_of_meet {sqrt : K → K} (g : GeoCfg K) (h0 : 0 ≤ g.minTolerance) (x₁ x₂ x₃ x₄ : V3 K)
    (s q : K) (h : pointAt x₁ x₂ s = pointAt x₃ x₄ q) :
    g.areLineCoplanar sqrt x₁ (x₂.sub x₁) x₃ (x₄.sub x₃) = true := by
  have hz : ∀ v : V3 K, ∃ c, v.normalized sqrt = V3.smul c v := by
    intro v
    unfold V3.normalized
    split
    · exact ⟨_, rfl⟩
    · exact ⟨1, by ext <;> simp [V3.smul]⟩
  obtain ⟨c0, e0⟩ := hz (x₃.sub x₁)
  obtain ⟨c1, e1⟩ := hz (x₂.sub x₁)
  obtain ⟨c2, e2⟩ := hz ((x₃.add (x₄.sub x₃)).sub x₁)
  unfold GeoCfg.areLineCoplanar
  simp only
  rw [e0, e1, e2]
  have hdet : (⟨(V3.smul c0 (x₃.sub x₁)).x, (V3.smul c1 (x₂.sub x₁)).x,
      (V3.smul c2 ((x₃.add (x₄.sub x₃)).sub x₁)).x, (V3.smul c0 (x₃.sub x₁)).y,
      (V3.smul c1 (x₂.sub x₁)).y, (V3.smul c2 ((x₃.add (x₄.sub x₃)).sub x₁)).y,
      (V3.smul c0 (x₃.sub x₁)).z, (V3.smul c1 (x₂.sub x₁)).z,
      (V3.smul c2 ((x₃.add (x₄.sub x₃)).sub x₁)).z⟩ : M3 K).det = 0 := by
    simp only [pointAt, V3.mk.injEq] at h
    obtain ⟨hx, hy, hz⟩ := h
    have hx' : x₃.x = x₁.x + s * (x₂.x - x₁.x) - q * (x₄.x - x₃.x) := by linear_combination -hx
    have hy' : x₃.y = x₁.y + s * (x₂.y - x₁.y) - q * (x₄.y - x₃.y) := by linear_combination -hy
    have hz' : x₃.z = x₁.z + s * (x₂.z - x₁.z) - q * (x₄.z - x₃.z) := by linear_combination -hz
    simp only [M3.det, V3.smul, V3.sub, V3.add]
    generalize hX : x₄.x - x₃.x = tx at *
    generalize hY : x₄.y - x₃.y = ty at *
    generalize hZ : x₄.z - x₃.z = tz at *
    rw [hx', hy', hz']
    ring
  rw [hdet, abs_zero]
  have : g.isValuePositive 0 g.tol1D = false := by
    rw [← Bool.not_eq_true, g.positive_1D h0]
    exact not_lt.2 (g.tol1D_nonneg h0)
  rw [this]
  simp

/-! ### Segments on one line -/

theorem norm_smul {sqrt : K → K} (hs : IsSqrt sqrt) (c : K) (v : V3 K) :
    (V3.smul c v).norm sqrt = |c| * v.norm sqrt := by
  have h1 := norm_nonneg' hs (V3.smul c v)
  have h2 := norm_sq hs (V3.smul c v)
  have h3 := mul_nonneg (abs_nonneg c) (norm_nonneg' hs v)
  have h4 := norm_sq hs v
  have h5 : (V3.smul c v).dot (V3.smul c v) = c * c * v.dot v := by
    simp only [V3.smul, V3.dot]; ring
  rw [h5, ← h4, ← abs_mul_abs_self c] at h2
  exact (mul_self_inj h1 h3).1 (by linear_combination h2)

theorem norm_zero' {sqrt : K → K} (hs : IsSqrt sqrt) (v : V3 K) (h : v = V3.zero) :
    v.norm sqrt = 0 := by
  have h2 := norm_sq hs v
  rw [h] at h2 ⊢
  have : (V3.zero : V3 K).dot V3.zero = 0 := by simp [V3.zero, V3.dot]
  rw [this] at h2
  exact mul_self_eq_zero.1 h2

theorem pointIsAligned_pointAt {sqrt : K → K} (hs : IsSqrt sqrt) (g : GeoCfg K)
    (h0 : 0 ≤ g.minTolerance) (x₁ x₂ : V3 K) (α : K) :
    g.pointIsAligned sqrt x₁ x₂ (pointAt x₁ x₂ α) = true := by
  have hz : ∀ v : V3 K, ∃ c, v.normalized sqrt = V3.smul c v := by
    intro v
    unfold V3.normalized
    split
    · exact ⟨_, rfl⟩
    · exact ⟨1, by ext <;> simp [V3.smul]⟩
  obtain ⟨c0, e0⟩ := hz (x₂.sub x₁)
  obtain ⟨c1, e1⟩ := hz ((pointAt x₁ x₂ α).sub x₁)
  unfold GeoCfg.pointIsAligned
  simp only
  rw [e0, e1, norm_zero' hs, g.zero_1D h0, abs_zero]
  · exact g.tol1D_nonneg h0
  · ext <;> simp only [V3.cross, V3.smul, V3.sub, pointAt, V3.zero] <;> ring

theorem sub_pointAt (x₁ x₂ : V3 K) (α β : K) :
    (pointAt x₁ x₂ β).sub (pointAt x₁ x₂ α) = V3.smul (β - α) (x₂.sub x₁) := by
  ext <;> simp only [V3.smul, V3.sub, pointAt] <;> ring

theorem pointAt_zero (x₁ x₂ : V3 K) : pointAt x₁ x₂ 0 = x₁ := by
  ext <;> simp only [pointAt] <;> ring

theorem pointAt_one (x₁ x₂ : V3 K) : pointAt x₁ x₂ 1 = x₂ := by
  ext <;> simp only [pointAt] <;> ring

theorem curvilinear_pointAt (x₁ x₂ : V3 K) (h : 0 < (x₂.sub x₁).dot (x₂.sub x₁)) (α β γ : K)
    (hab : β - α ≠ 0) :
    curvilinear (pointAt x₁ x₂ γ) (pointAt x₁ x₂ α) (pointAt x₁ x₂ β) = (γ - α) / (β - α) := by
  unfold curvilinear
  simp only
  rw [sub_pointAt, sub_pointAt]
  have e : ∀ c d : K, (V3.smul c (x₂.sub x₁)).dot (V3.smul d (x₂.sub x₁)) =
      c * d * (x₂.sub x₁).dot (x₂.sub x₁) := by
    intro c d; simp only [V3.smul, V3.dot]; ring
  rw [e, e]
  have := h.ne'
  field_simp

theorem overlap_gap (α β : K) :
    |α + β - 1| * (1 / 2) - (1 / 2 + |β - α| * (1 / 2)) = max (min α β - 1) (-max α β) := by
  rcases le_total α β with h | h
  · rw [min_eq_left h, max_eq_right h, abs_of_nonneg (by linarith : 0 ≤ β - α)]
    rcases le_total 0 (α + β - 1) with h' | h'
    · rw [abs_of_nonneg h', max_eq_left (by linarith)]; ring
    · rw [abs_of_nonpos h', max_eq_right (by linarith)]; ring
  · rw [min_eq_right h, max_eq_left h, abs_of_nonpos (by linarith : β - α ≤ 0)]
    rcases le_total 0 (α + β - 1) with h' | h'
    · rw [abs_of_nonneg h', max_eq_left (by linarith)]; ring
    · rw [abs_of_nonpos h', max_eq_right (by linarith)]; ring

theorem ite_swap_min_max (a b : K) :
    (if b < a then (b, a) else (a, b)) = (min a b, max a b) := by
  by_cases h : b < a
  · rw [if_pos h, min_eq_right h.le, max_eq_left h.le]
  · rw [if_neg h, min_eq_left (not_lt.1 h), max_eq_right (not_lt.1 h)]

theorem notParallel_collinear {sqrt : K → K} (hs : IsSqrt sqrt) (g : GeoCfg K) (x₁ x₂ : V3 K)
    (h : 0 < (x₂.sub x₁).dot (x₂.sub x₁)) (c : K) (hc : c ≠ 0) :
    g.notParallel sqrt (x₂.sub x₁) (V3.smul c (x₂.sub x₁)) = false := by
  have hcc : (V3.smul c (x₂.sub x₁)).dot (V3.smul c (x₂.sub x₁)) =
      c * c * (x₂.sub x₁).dot (x₂.sub x₁) := by
    simp only [V3.smul, V3.dot]; ring
  have h2 : 0 < (V3.smul c (x₂.sub x₁)).dot (V3.smul c (x₂.sub x₁)) := by
    rw [hcc]; exact mul_pos (mul_self_pos.2 hc) h
  have hl := (norm_pos hs h).ne'
  unfold GeoCfg.notParallel
  simp only
  rw [normalized_dot _ _ h h2, norm_smul hs]
  have e : (x₂.sub x₁).dot (V3.smul c (x₂.sub x₁)) = c * (x₂.sub x₁).dot (x₂.sub x₁) := by
    simp only [V3.smul, V3.dot]; ring
  have e2 : (x₂.sub x₁).dot (V3.smul c (x₂.sub x₁)) /
      ((x₂.sub x₁).norm sqrt * (|c| * (x₂.sub x₁).norm sqrt)) = c / |c| := by
    rw [e, ← norm_sq hs]
    have := abs_ne_zero.2 hc
    field_simp
  rw [e2, abs_div, abs_abs, div_self (abs_ne_zero.2 hc), sub_self, abs_zero]
  have : g.isValuePositive 0 g.tol1DSquared = false := by
    rw [← Bool.not_eq_true, g.positive_sq]
    exact not_lt.2 g.tolSq_nonneg
  rw [this]; rfl

/-- The computation for two segments on one line, in terms of the coordinates `α` and `β` of the
ends of the second segment on the first one. -/
theorem segSeg_collinear {sqrt : K → K} (hs : IsSqrt sqrt) (g : GeoCfg K) (h0 : 0 ≤ g.minTolerance)
    (x₁ x₂ : V3 K) (α β : K) (ha : g.tolSq < dist2 x₁ x₂)
    (hb : g.tolSq < (β - α) * (β - α) * dist2 x₁ x₂) :
    g.intersectionSegmentSegment sqrt x₁ x₂ (pointAt x₁ x₂ α) (pointAt x₁ x₂ β) =
      if g.tol1D < (x₂.sub x₁).norm sqrt * max (min α β - 1) (-max α β) then
        ok ⟨.coPlanarParallel, .noIntersection, [], [], []⟩
      else (do
        let pf0 ← g.pointSegmentPosition (min α β)
        let pf1 ← g.pointSegmentPosition (max α β)
        let ps0 ← g.pointSegmentPosition (min ((0 - α) / (β - α)) ((1 - α) / (β - α)))
        let ps1 ← g.pointSegmentPosition (max ((0 - α) / (β - α)) ((1 - α) / (β - α)))
        let a0 := snapFirst0 ⟨pf0, min α β⟩
        let b0 := snapSecond0 ⟨ps0, min ((0 - α) / (β - α)) ((1 - α) / (β - α))⟩
        ok ⟨.coPlanarParallel, .multipleIntersections,
          if g.tolerance1D * (pointAt x₁ x₂ a0.coord).norm sqrt <
            |α + b0.coord * (β - α) - a0.coord| * (x₂.sub x₁).norm sqrt then [1, 0] else [0, 1],
          [a0, snapEnd ⟨pf1, max α β⟩],
          [b0, snapEnd ⟨ps1, max ((0 - α) / (β - α)) ((1 - α) / (β - α))⟩]⟩) := by
  have hda : (x₂.sub x₁).dot (x₂.sub x₁) = dist2 x₁ x₂ := V3.sub_dot_pointAt x₁ x₂
  have hdb : ((pointAt x₁ x₂ β).sub (pointAt x₁ x₂ α)).dot
      ((pointAt x₁ x₂ β).sub (pointAt x₁ x₂ α)) = (β - α) * (β - α) * dist2 x₁ x₂ := by
    rw [sub_pointAt, ← hda]; simp only [V3.smul, V3.dot]; ring
  have pa : 0 < (x₂.sub x₁).dot (x₂.sub x₁) := by
    rw [hda]; exact lt_of_le_of_lt g.tolSq_nonneg ha
  have hab : β - α ≠ 0 := by
    intro h
    rw [h] at hb
    have := g.tolSq_nonneg
    simp only [zero_mul] at hb
    exact absurd hb (not_lt.2 this)
  rw [segSeg_cases hs g x₁ x₂ _ _ (by rw [hda]; exact ha) (by rw [hdb]; exact hb),
    coplanar_of_meet g h0 x₁ x₂ _ _ α 0 (by rw [pointAt_zero]), if_neg (by simp), sub_pointAt,
    notParallel_collinear hs g x₁ x₂ pa _ hab, if_neg (by simp)]
  unfold GeoCfg.parallelSegments
  simp only
  rw [pointIsAligned_pointAt hs g h0, sub_pointAt, norm_smul hs]
  simp only [Bool.not_true, Bool.false_and, Bool.false_eq_true, if_false]
  have hdist : ((V3.smul (1 / 2) ((pointAt x₁ x₂ β).add (pointAt x₁ x₂ α))).sub
      (V3.smul (1 / 2) (x₂.add x₁))).norm sqrt =
      |α + β - 1| * (1 / 2) * (x₂.sub x₁).norm sqrt := by
    have : (V3.smul (1 / 2) ((pointAt x₁ x₂ β).add (pointAt x₁ x₂ α))).sub
        (V3.smul (1 / 2) (x₂.add x₁)) = V3.smul ((α + β - 1) * (1 / 2)) (x₂.sub x₁) := by
      ext <;> simp only [V3.smul, V3.sub, V3.add, pointAt] <;> ring
    rw [this, norm_smul hs, abs_mul, abs_of_pos (by norm_num : (0 : K) < 1 / 2)]
  rw [hdist]
  have hgap : |α + β - 1| * (1 / 2) * (x₂.sub x₁).norm sqrt -
      ((x₂.sub x₁).norm sqrt * (1 / 2) + |β - α| * (x₂.sub x₁).norm sqrt * (1 / 2)) =
      (x₂.sub x₁).norm sqrt * max (min α β - 1) (-max α β) := by
    rw [← overlap_gap]; ring
  rw [hgap]
  have c1 := curvilinear_pointAt x₁ x₂ pa 0 1 α (by simp)
  have c2 := curvilinear_pointAt x₁ x₂ pa 0 1 β (by simp)
  have c3 := curvilinear_pointAt x₁ x₂ pa α β 0 hab
  have c4 := curvilinear_pointAt x₁ x₂ pa α β 1 hab
  rw [pointAt_zero, pointAt_one, sub_zero, sub_zero, div_one] at c1 c2
  rw [pointAt_zero] at c3
  rw [pointAt_one] at c4
  rw [c1, c2, c3, c4, ite_swap_min_max, ite_swap_min_max]
  by_cases hg : g.tol1D < (x₂.sub x₁).norm sqrt * max (min α β - 1) (-max α β)
  · rw [if_pos ((g.positive_1D h0 _).2 hg), if_pos hg]
  · rw [if_neg (fun h => hg ((g.positive_1D h0 _).1 h)), if_neg hg]
    have e1 : ∀ c, x₁.add (V3.smul c (x₂.sub x₁)) = pointAt x₁ x₂ c := by
      intro c; ext <;> simp only [V3.smul, V3.sub, V3.add, pointAt]
    have e2 : ∀ c d, ((pointAt x₁ x₂ α).add (V3.smul c (V3.smul (β - α) (x₂.sub x₁)))).sub
        (pointAt x₁ x₂ d) = V3.smul (α + c * (β - α) - d) (x₂.sub x₁) := by
      intro c d; ext <;> simp only [V3.smul, V3.sub, V3.add, pointAt] <;> ring
    simp only [e1, e2, norm_smul hs]

theorem notParallel_of_lt {sqrt : K → K} (hs : IsSqrt sqrt) (g : GeoCfg K) (a b : V3 K)
    (ha : 0 < a.dot a) (hb : 0 < b.dot b) (h1 : g.tolSq ≤ 1)
    (h : a.dot b * a.dot b < (1 - g.tolSq) * (1 - g.tolSq) * (a.dot a * b.dot b)) :
    g.notParallel sqrt a b = true := by
  have pa := norm_pos hs ha
  have pb := norm_pos hs hb
  have ea := norm_sq hs a
  have eb := norm_sq hs b
  have t0 := g.tolSq_nonneg
  have hlm := mul_pos pa pb
  have hab : |a.dot b| < (1 - g.tolSq) * (a.norm sqrt * b.norm sqrt) := by
    apply abs_lt_of_sq_lt_sq
    · rw [pow_two, pow_two]
      rw [← ea, ← eb] at h
      linarith
    · exact mul_nonneg (by linarith) hlm.le
  unfold GeoCfg.notParallel
  simp only [Bool.and_eq_true]
  rw [one_sub_sq hs a b ha hb]
  constructor
  · rw [g.positive_sq, normalized_dot a b ha hb, abs_div, abs_of_pos hlm]
    have : |a.dot b| / (a.norm sqrt * b.norm sqrt) < 1 - g.tolSq := by
      rw [div_lt_iff₀ hlm]; exact hab
    rw [abs_of_neg (by linarith)]
    linarith
  · rw [(c27_sign g _ _).1]
    have hP := mul_pos ha hb
    have hle : max |g.tol1DSquared * g.tol1DSquared| g.minTolerance ≤ g.tolSq := by
      apply max_le
      · rw [abs_of_nonneg (mul_self_nonneg _)]
        have h2 : g.tol1DSquared ≤ g.tolSq := le_max_left _ _
        have h3 := g.tol1DSquared_nonneg
        nlinarith
      · exact le_max_right _ _
    refine lt_of_le_of_lt hle ?_
    rw [lt_div_iff₀ hP]
    nlinarith [mul_nonneg (mul_nonneg t0 (by linarith : 0 ≤ 1 - g.tolSq)) hP.le]

/-- The distance of the nearest points is not larger than the distance of any two points of the
lines. -/
theorem nearest_dist_le (x₁ x₂ x₃ x₄ : V3 K) (s q s' q' : K)
    (h1 : dot4 x₁ x₂ (pointAt x₁ x₂ s) (pointAt x₃ x₄ q) = 0)
    (h2 : dot4 x₃ x₄ (pointAt x₁ x₂ s) (pointAt x₃ x₄ q) = 0) :
    dist2 (pointAt x₁ x₂ s) (pointAt x₃ x₄ q) ≤ dist2 (pointAt x₁ x₂ s') (pointAt x₃ x₄ q') := by
  have key : dist2 (pointAt x₁ x₂ s') (pointAt x₃ x₄ q') =
      dist2 (pointAt x₁ x₂ s) (pointAt x₃ x₄ q) +
      ((V3.smul (s' - s) (x₂.sub x₁)).sub (V3.smul (q' - q) (x₄.sub x₃))).dot
        ((V3.smul (s' - s) (x₂.sub x₁)).sub (V3.smul (q' - q) (x₄.sub x₃))) := by
    simp only [dist2, dot4, pointAt, V3.sub, V3.smul, V3.dot] at h1 h2 ⊢
    linear_combination (-2 * (s' - s)) * h1 + 2 * (q' - q) * h2
  rw [key]
  have := dot_self_nonneg ((V3.smul (s' - s) (x₂.sub x₁)).sub (V3.smul (q' - q) (x₄.sub x₃)))
  linarith

/-- What the test for coplanar lines has found. -/
theorem coplanar_bound {sqrt : K → K} (hs : IsSqrt sqrt) (g : GeoCfg K) (h0 : 0 ≤ g.minTolerance)
    (x₁ x₂ x₃ x₄ : V3 K)
    (h : g.areLineCoplanar sqrt x₁ (x₂.sub x₁) x₃ (x₄.sub x₃) = true) :
    dist2 x₁ x₃ ≤ g.tolSq ∨ dist2 x₁ x₄ ≤ g.tolSq ∨ dist2 x₂ x₃ ≤ g.tolSq ∨
      dist2 x₂ x₄ ≤ g.tolSq ∨
    vol6 x₁ x₂ x₃ x₄ * vol6 x₁ x₂ x₃ x₄ ≤
      g.tol1D * g.tol1D * (dist2 x₁ x₂ * dist2 x₁ x₃ * dist2 x₁ x₄) := by
  unfold GeoCfg.areLineCoplanar at h
  simp only [Bool.not_eq_true', Bool.and_eq_false_iff] at h
  have e1 : (x₃.sub x₁).dot (x₃.sub x₁) = dist2 x₁ x₃ := V3.sub_dot_pointAt _ _
  have e2 : ((x₃.add (x₄.sub x₃)).sub x₁) = x₄.sub x₁ := by
    ext <;> simp only [V3.add, V3.sub] <;> ring
  have e3 : ((x₃.sub x₁).sub (x₂.sub x₁)) = x₃.sub x₂ := by
    ext <;> simp only [V3.sub] <;> ring
  have e4 : ((x₄.sub x₁).sub (x₂.sub x₁)) = x₄.sub x₂ := by
    ext <;> simp only [V3.sub] <;> ring
  rw [e2, e3, e4, V3.sub_dot_pointAt, V3.sub_dot_pointAt, V3.sub_dot_pointAt,
    V3.sub_dot_pointAt] at h
  have neg : ∀ v, g.isValuePositive v g.tol1DSquared = false → v ≤ g.tolSq := by
    intro v hv
    rw [← Bool.not_eq_true, g.positive_sq, not_lt] at hv
    exact hv
  rcases h with (((h | h) | h) | h) | h
  · exact Or.inl (neg _ h)
  · exact Or.inr (Or.inl (neg _ h))
  · exact Or.inr (Or.inr (Or.inl (neg _ h)))
  · exact Or.inr (Or.inr (Or.inr (Or.inl (neg _ h))))
  · refine Or.inr (Or.inr (Or.inr (Or.inr ?_)))
    rw [← Bool.not_eq_true, g.positive_1D h0, not_lt] at h
    have n1 := smul_norm_normalized hs (x₃.sub x₁)
    have n2 := smul_norm_normalized hs (x₂.sub x₁)
    have n3 := smul_norm_normalized hs (x₄.sub x₁)
    have q1 := norm_sq hs (x₃.sub x₁)
    have q2 := norm_sq hs (x₂.sub x₁)
    have q3 := norm_sq hs (x₄.sub x₁)
    rw [V3.sub_dot_pointAt] at q1 q2 q3
    generalize (x₃.sub x₁).normalized sqrt = u at *
    generalize (x₂.sub x₁).normalized sqrt = v at *
    generalize (x₄.sub x₁).normalized sqrt = w at *
    generalize (x₃.sub x₁).norm sqrt = p at *
    generalize (x₂.sub x₁).norm sqrt = q at *
    generalize (x₄.sub x₁).norm sqrt = r at *
    generalize hD : (⟨u.x, v.x, w.x, u.y, v.y, w.y, u.z, v.z, w.z⟩ : M3 K).det = D at *
    have hv : vol6 x₁ x₂ x₃ x₄ = -(p * q * r) * D := by
      have a1 : x₃.x - x₁.x = p * u.x := by have := congrArg V3.x n1; simpa [V3.smul, V3.sub] using this.symm
      have a2 : x₃.y - x₁.y = p * u.y := by have := congrArg V3.y n1; simpa [V3.smul, V3.sub] using this.symm
      have a3 : x₃.z - x₁.z = p * u.z := by have := congrArg V3.z n1; simpa [V3.smul, V3.sub] using this.symm
      have b1 : x₂.x - x₁.x = q * v.x := by have := congrArg V3.x n2; simpa [V3.smul, V3.sub] using this.symm
      have b2 : x₂.y - x₁.y = q * v.y := by have := congrArg V3.y n2; simpa [V3.smul, V3.sub] using this.symm
      have b3 : x₂.z - x₁.z = q * v.z := by have := congrArg V3.z n2; simpa [V3.smul, V3.sub] using this.symm
      have d1 : x₄.x - x₁.x = r * w.x := by have := congrArg V3.x n3; simpa [V3.smul, V3.sub] using this.symm
      have d2 : x₄.y - x₁.y = r * w.y := by have := congrArg V3.y n3; simpa [V3.smul, V3.sub] using this.symm
      have d3 : x₄.z - x₁.z = r * w.z := by have := congrArg V3.z n3; simpa [V3.smul, V3.sub] using this.symm
      rw [← hD]
      simp only [vol6, M3.det, a1, a2, a3, b1, b2, b3, d1, d2, d3]
      ring
    have hD2 : D * D ≤ g.tol1D * g.tol1D := by
      have := mul_self_le_mul_self (abs_nonneg D) h
      rwa [abs_mul_abs_self] at this
    rw [hv, ← q1, ← q2, ← q3]
    have hpp : 0 ≤ (p * q * r) * (p * q * r) := mul_self_nonneg _
    nlinarith [mul_le_mul_of_nonneg_left hD2 hpp]

/-- The determinant of Gram. -/
theorem gram (n a b : V3 K) :
    n.dot n * (a.dot a * b.dot b - a.dot b * a.dot b) -
        n.dot a * (n.dot a * b.dot b - a.dot b * n.dot b) +
        n.dot b * (n.dot a * a.dot b - a.dot a * n.dot b) =
      n.dot (b.cross a) * n.dot (b.cross a) := by
  simp only [V3.dot, V3.cross]; ring

/-- The distance of the nearest points in terms of the volume spanned by the segments. -/
theorem nearest_dist_vol (x₁ x₂ x₃ x₄ : V3 K) (s q : K)
    (h1 : dot4 x₁ x₂ (pointAt x₁ x₂ s) (pointAt x₃ x₄ q) = 0)
    (h2 : dot4 x₃ x₄ (pointAt x₁ x₂ s) (pointAt x₃ x₄ q) = 0) :
    dist2 (pointAt x₁ x₂ s) (pointAt x₃ x₄ q) *
      (dist2 x₁ x₂ * dist2 x₃ x₄ - dot4 x₁ x₂ x₃ x₄ * dot4 x₁ x₂ x₃ x₄) =
      vol6 x₁ x₂ x₃ x₄ * vol6 x₁ x₂ x₃ x₄ := by
  have hv : vol6 x₁ x₂ x₃ x₄ =
      ((pointAt x₃ x₄ q).sub (pointAt x₁ x₂ s)).dot ((x₄.sub x₃).cross (x₂.sub x₁)) := by
    simp only [vol6, V3.sub, V3.dot, V3.cross, pointAt]; ring
  have e1 : dot4 x₁ x₂ (pointAt x₁ x₂ s) (pointAt x₃ x₄ q) =
    ((pointAt x₃ x₄ q).sub (pointAt x₁ x₂ s)).dot (x₂.sub x₁) := by
    simp only [dot4, V3.sub, V3.dot]; ring
  have e2 : dot4 x₃ x₄ (pointAt x₁ x₂ s) (pointAt x₃ x₄ q) =
    ((pointAt x₃ x₄ q).sub (pointAt x₁ x₂ s)).dot (x₄.sub x₃) := by
    simp only [dot4, V3.sub, V3.dot]; ring
  have e3 : dist2 (pointAt x₁ x₂ s) (pointAt x₃ x₄ q) =
      ((pointAt x₃ x₄ q).sub (pointAt x₁ x₂ s)).dot
        ((pointAt x₃ x₄ q).sub (pointAt x₁ x₂ s)) := by
    rw [V3.sub_dot_pointAt]
  rw [e1] at h1
  rw [e2] at h2
  rw [hv, e3, ← V3.sub_dot_pointAt, ← V3.sub_dot_pointAt x₃ x₄, ← sub_sub_dot]
  generalize (pointAt x₃ x₄ q).sub (pointAt x₁ x₂ s) = n at *
  generalize x₂.sub x₁ = a at *
  generalize x₄.sub x₃ = b at *
  rw [← gram]
  linear_combination (n.dot a * b.dot b - a.dot b * n.dot b) * h1 -
    (n.dot a * a.dot b - a.dot a * n.dot b) * h2

/-! ### Coordinates of the common part -/

theorem snapFirst0_eq (g : GeoCfg K) (h0 : 0 ≤ g.minTolerance) (hT : g.tol1D < 1 / 2) (s : K)
    (p : PointSegmentPos) (h : g.pointSegmentPosition s = ok p) (hs : s ≤ 1) :
    (snapFirst0 ⟨p, s⟩).coord = (if s < -g.tol1D then 0 else s) ∧
      onSegment (snapFirst0 ⟨p, s⟩).type = true := by
  have hT0 := g.tol1D_nonneg h0
  obtain ⟨c1, c2, c3, c4, c5, -⟩ := c29_position g s h0 hT
  have hon := onSegment_iff g h0 hT s p h
  rw [h] at c1 c5
  simp only [ok.injEq] at c1 c5
  unfold snapFirst0
  simp only
  by_cases hb : s < -g.tol1D
  · rw [if_pos (c1.2 hb), if_pos hb]
    exact ⟨rfl, rfl⟩
  · rw [if_neg (fun e => hb (c1.1 e)), if_neg (fun e => by have := c5.1 e; linarith), if_neg hb]
    exact ⟨rfl, hon.2 ⟨not_lt.1 hb, by linarith⟩⟩

theorem snapSecond0_eq (g : GeoCfg K) (h0 : 0 ≤ g.minTolerance) (hT : g.tol1D < 1 / 2) (s : K)
    (p : PointSegmentPos) (h : g.pointSegmentPosition s = ok p) (hs : s ≤ 1) :
    (snapSecond0 ⟨p, s⟩).coord = (if s < -g.tol1D then 0 else s) ∧
      onSegment (snapSecond0 ⟨p, s⟩).type = true := by
  have hT0 := g.tol1D_nonneg h0
  obtain ⟨c1, c2, c3, c4, c5, -⟩ := c29_position g s h0 hT
  have hon := onSegment_iff g h0 hT s p h
  rw [h] at c1
  simp only [ok.injEq] at c1
  unfold snapSecond0
  simp only
  by_cases hb : s < -g.tol1D
  · rw [if_pos (c1.2 hb), if_pos hb]
    exact ⟨rfl, rfl⟩
  · rw [if_neg (fun e => hb (c1.1 e)), if_neg hb]
    exact ⟨rfl, hon.2 ⟨not_lt.1 hb, by linarith⟩⟩

theorem snapEnd_eq (g : GeoCfg K) (h0 : 0 ≤ g.minTolerance) (hT : g.tol1D < 1 / 2) (s : K)
    (p : PointSegmentPos) (h : g.pointSegmentPosition s = ok p) (hs : 0 ≤ s) :
    (snapEnd ⟨p, s⟩).coord = (if 1 + g.tol1D < s then 1 else s) ∧
      onSegment (snapEnd ⟨p, s⟩).type = true := by
  have hT0 := g.tol1D_nonneg h0
  obtain ⟨c1, c2, c3, c4, c5, -⟩ := c29_position g s h0 hT
  have hon := onSegment_iff g h0 hT s p h
  rw [h] at c5
  simp only [ok.injEq] at c5
  unfold snapEnd
  simp only
  by_cases hb : 1 + g.tol1D < s
  · rw [if_pos (c5.2 hb), if_pos hb]
    exact ⟨rfl, rfl⟩
  · rw [if_neg (fun e => hb (c5.1 e)), if_neg hb]
    exact ⟨rfl, hon.2 ⟨by linarith, not_lt.1 hb⟩⟩

theorem near_max (T s : K) (hT : 0 ≤ T) :
    |(if s < -T then 0 else s) - max 0 s| ≤ T := by
  split
  · next h => rw [max_eq_left (by linarith), sub_self, abs_zero]; exact hT
  · next h =>
    rcases le_total 0 s with h' | h'
    · rw [max_eq_right h', sub_self, abs_zero]; exact hT
    · rw [max_eq_left h', sub_zero, abs_of_nonpos h']; linarith

theorem near_min (T s : K) (hT : 0 ≤ T) :
    |(if 1 + T < s then 1 else s) - min 1 s| ≤ T := by
  split
  · next h => rw [min_eq_left (by linarith), sub_self, abs_zero]; exact hT
  · next h =>
    rcases le_total s 1 with h' | h'
    · rw [min_eq_right h', sub_self, abs_zero]; exact hT
    · rw [min_eq_left h', abs_of_nonneg (by linarith)]; linarith

theorem eq_max (T s : K) (hT : 0 ≤ T) (h : s < -T ∨ 0 ≤ s) :
    (if s < -T then 0 else s) = max 0 s := by
  rcases h with h | h
  · rw [if_pos h, max_eq_left (by linarith)]
  · rw [if_neg (by linarith), max_eq_right h]

theorem eq_min (T s : K) (hT : 0 ≤ T) (h : 1 + T < s ∨ s ≤ 1) :
    (if 1 + T < s then 1 else s) = min 1 s := by
  rcases h with h | h
  · rw [if_pos h, min_eq_left (by linarith)]
  · rw [if_neg (by linarith), min_eq_right h]

/-- The coordinates of the first segment on the second one meet `[0, 1]` if the coordinates of the
second one on the first do. -/
theorem second_range (α β : K) (hab : β - α ≠ 0) (hlo : min α β ≤ 1) (hhi : 0 ≤ max α β) :
    min ((0 - α) / (β - α)) ((1 - α) / (β - α)) ≤ 1 ∧
    0 ≤ max ((0 - α) / (β - α)) ((1 - α) / (β - α)) := by
  rcases lt_or_gt_of_ne hab with h | h
  · have hba : β ≤ α := by linarith
    rw [min_eq_right hba] at hlo
    rw [max_eq_left hba] at hhi
    constructor
    · refine (min_le_right _ _).trans ?_
      rw [div_le_iff_of_neg h]; linarith
    · refine le_trans ?_ (le_max_left _ _)
      exact div_nonneg_of_nonpos (by linarith) h.le
  · have hba : α ≤ β := by linarith
    rw [min_eq_left hba] at hlo
    rw [max_eq_right hba] at hhi
    constructor
    · refine (min_le_left _ _).trans ?_
      rw [div_le_iff₀ h]; linarith
    · refine le_trans ?_ (le_max_right _ _)
      exact div_nonneg (by linarith) h.le

end Verif
