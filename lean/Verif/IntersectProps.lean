import Verif.IntersectLemmas
import Mathlib.Analysis.Real.Sqrt

/-
Properties C65, C66 and C67: intersections of a segment with a segment, a plane and a circle.
-/
namespace Verif

open Res

variable {K : Type} [Field K] [LinearOrder K] [IsStrictOrderedRing K]

/-! ### C65 -/

/-- C65: the call is refused exactly for segments whose squared length is within the tolerance. -/
theorem c65_degenerate (sqrt : K → K) (hs : IsSqrt sqrt) (g : GeoCfg K) (h0 : 0 ≤ g.minTolerance)
    (hT : g.tol1D < 1 / 2) (x₁ x₂ x₃ x₄ : V3 K) :
    (dist2 x₁ x₂ ≤ g.tolSq ∨ dist2 x₃ x₄ ≤ g.tolSq →
      g.intersectionSegmentSegment sqrt x₁ x₂ x₃ x₄ = abort) ∧
    (g.tolSq < dist2 x₁ x₂ ∧ g.tolSq < dist2 x₃ x₄ →
      ∃ r, g.intersectionSegmentSegment sqrt x₁ x₂ x₃ x₄ = ok r) := by
  rw [← V3.sub_dot_pointAt x₁, ← V3.sub_dot_pointAt x₃]
  constructor
  · intro h
    unfold GeoCfg.intersectionSegmentSegment
    simp only
    by_cases h1 : g.isValuePositive ((x₂.sub x₁).dot (x₂.sub x₁)) g.tol1DSquared = true
    · rw [assert_true h1, ok_bind]
      rw [assert_false]
      · rfl
      · rw [g.positive_sq] at h1 ⊢
        rcases h with h | h
        · exact absurd h1 (not_lt.2 h)
        · exact not_lt.2 h
    · rw [assert_false h1]; rfl
  · rintro ⟨ha, hb⟩
    rw [segSeg_cases hs g _ _ _ _ ha hb]
    have pos : ∀ s, ∃ p, g.pointSegmentPosition s = ok p := fun s =>
      (c29_position g s h0 hT).2.2.2.2.2
    split
    · exact ⟨_, rfl⟩
    split
    · obtain ⟨p, hp⟩ := pos (nearestFirst x₁ x₂ x₃ x₄)
      obtain ⟨p', hp'⟩ := pos (nearestSecond x₁ x₂ x₃ x₄)
      rw [hp, ok_bind, hp', ok_bind]
      exact ⟨_, rfl⟩
    · unfold GeoCfg.parallelSegments
      simp only
      split
      · exact ⟨_, rfl⟩
      split
      · exact ⟨_, rfl⟩
      obtain ⟨p1, h1⟩ := pos (if curvilinear x₄ x₁ x₂ < curvilinear x₃ x₁ x₂ then
        (curvilinear x₄ x₁ x₂, curvilinear x₃ x₁ x₂)
        else (curvilinear x₃ x₁ x₂, curvilinear x₄ x₁ x₂)).1
      obtain ⟨p2, h2⟩ := pos (if curvilinear x₄ x₁ x₂ < curvilinear x₃ x₁ x₂ then
        (curvilinear x₄ x₁ x₂, curvilinear x₃ x₁ x₂)
        else (curvilinear x₃ x₁ x₂, curvilinear x₄ x₁ x₂)).2
      obtain ⟨p3, h3⟩ := pos (if curvilinear x₂ x₃ x₄ < curvilinear x₁ x₃ x₄ then
        (curvilinear x₂ x₃ x₄, curvilinear x₁ x₃ x₄)
        else (curvilinear x₁ x₃ x₄, curvilinear x₂ x₃ x₄)).1
      obtain ⟨p4, h4⟩ := pos (if curvilinear x₂ x₃ x₄ < curvilinear x₁ x₃ x₄ then
        (curvilinear x₂ x₃ x₄, curvilinear x₁ x₃ x₄)
        else (curvilinear x₁ x₃ x₄, curvilinear x₂ x₃ x₄)).2
      rw [h1, ok_bind, h2, ok_bind, h3, ok_bind, h4, ok_bind]
      exact ⟨_, rfl⟩

/-- C65, lines that are not parallel: the two coordinates that are reported are those of the points
of the two lines that are nearest to each other (the connecting vector is orthogonal to both lines);
if the lines have a common point they are its coordinates; the answer is "single intersection"
exactly if both coordinates are in `[0, 1]` up to the tolerance; and the distance of the two points
is bounded by the tolerance, either as it stands or relative to the size of the segments and the
angle between them. -/
theorem c65_nearest_points (sqrt : K → K) (hs : IsSqrt sqrt) (g : GeoCfg K)
    (h0 : 0 ≤ g.minTolerance) (hT : g.tol1D < 1 / 2) (x₁ x₂ x₃ x₄ : V3 K) (r : SegSegResult K)
    (h : g.intersectionSegmentSegment sqrt x₁ x₂ x₃ x₄ = ok r)
    (hl : r.lines = .coPlanarIntersecting) :
    ∃ s q ps pq, r.first = [⟨ps, s⟩] ∧ r.second = [⟨pq, q⟩] ∧ r.relation = [0] ∧
      g.pointSegmentPosition s = ok ps ∧ g.pointSegmentPosition q = ok pq ∧
      dot4 x₁ x₂ (pointAt x₁ x₂ s) (pointAt x₃ x₄ q) = 0 ∧
      dot4 x₃ x₄ (pointAt x₁ x₂ s) (pointAt x₃ x₄ q) = 0 ∧
      (∀ s' q', pointAt x₁ x₂ s' = pointAt x₃ x₄ q' → s' = s ∧ q' = q) ∧
      (r.segments = .singleIntersection ↔
        (-g.tol1D ≤ s ∧ s ≤ 1 + g.tol1D) ∧ (-g.tol1D ≤ q ∧ q ≤ 1 + g.tol1D)) ∧
      (r.segments = .singleIntersection ∨ r.segments = .noIntersection) ∧
      (dist2 (pointAt x₁ x₂ s) (pointAt x₃ x₄ q) ≤ g.tolSq ∨
        dist2 (pointAt x₁ x₂ s) (pointAt x₃ x₄ q) *
          (dist2 x₁ x₂ * dist2 x₃ x₄ - dot4 x₁ x₂ x₃ x₄ * dot4 x₁ x₂ x₃ x₄) ≤
          g.tol1D * g.tol1D * (dist2 x₁ x₂ * dist2 x₁ x₃ * dist2 x₁ x₄)) := by
  obtain ⟨ha, hb⟩ := segSeg_lengths g x₁ x₂ x₃ x₄ r h
  rw [segSeg_cases hs g _ _ _ _ ha hb] at h
  have pa := lt_of_le_of_lt g.tolSq_nonneg ha
  have pb := lt_of_le_of_lt g.tolSq_nonneg hb
  split at h
  · cases h; cases hl
  next hc =>
  split at h
  · next hp =>
    obtain ⟨ps, hps, h⟩ := bind_eq_ok.1 h
    obtain ⟨pq, hpq, h⟩ := bind_eq_ok.1 h
    cases h
    have hd := (notParallel_det hs g _ _ pa pb hp).ne'
    obtain ⟨o1, o2⟩ := nearest_orthogonal x₁ x₂ x₃ x₄ hd
    refine ⟨_, _, ps, pq, rfl, rfl, rfl, hps, hpq, o1, o2, ?_, ?_, ?_, ?_⟩
    · intro s' q' hm
      obtain ⟨e1, e2⟩ := nearest_unique x₁ x₂ x₃ x₄ hd s' q' hm
      exact ⟨e1.symm, e2.symm⟩
    · rw [← onSegment_iff g h0 hT _ _ hps, ← onSegment_iff g h0 hT _ _ hpq]
      cases onSegment ps <;> cases onSegment pq <;> simp
    · cases onSegment ps <;> cases onSegment pq <;> simp
    · rw [Bool.not_eq_false] at hc
      rw [nearest_dist_vol _ _ _ _ _ _ o1 o2]
      have le := fun s' q' => nearest_dist_le x₁ x₂ x₃ x₄ _ _ s' q' o1 o2
      rcases coplanar_bound hs g h0 x₁ x₂ x₃ x₄ hc with k | k | k | k | k
      · exact Or.inl ((by simpa [pointAt_zero] using le 0 0 : _ ≤ dist2 x₁ x₃).trans k)
      · exact Or.inl ((by simpa [pointAt_zero, pointAt_one] using le 0 1 : _ ≤ dist2 x₁ x₄).trans k)
      · exact Or.inl ((by simpa [pointAt_zero, pointAt_one] using le 1 0 : _ ≤ dist2 x₂ x₃).trans k)
      · exact Or.inl ((by simpa [pointAt_zero, pointAt_one] using le 1 1 : _ ≤ dist2 x₂ x₄).trans k)
      · exact Or.inr k
  · have := parallelSegments_lines g x₁ x₂ x₃ x₄ r h
    rw [this] at hl; cases hl

/-- C65: lines that are said to be on different planes have no common point. -/
theorem c65_different_planes (sqrt : K → K) (hs : IsSqrt sqrt) (g : GeoCfg K)
    (h0 : 0 ≤ g.minTolerance) (x₁ x₂ x₃ x₄ : V3 K) (r : SegSegResult K)
    (h : g.intersectionSegmentSegment sqrt x₁ x₂ x₃ x₄ = ok r)
    (hl : r.lines = .onDifferentPlanes) :
    r.segments = .noIntersection ∧ r.first = [] ∧ r.second = [] ∧
      ∀ s q, pointAt x₁ x₂ s ≠ pointAt x₃ x₄ q := by
  obtain ⟨ha, hb⟩ := segSeg_lengths g x₁ x₂ x₃ x₄ r h
  rw [segSeg_cases hs g _ _ _ _ ha hb] at h
  split at h
  · next hc =>
    cases h
    refine ⟨rfl, rfl, rfl, fun s q hm => ?_⟩
    rw [coplanar_of_meet g h0 x₁ x₂ x₃ x₄ s q hm] at hc
    cases hc
  split at h
  · obtain ⟨ps, hps, h⟩ := bind_eq_ok.1 h
    obtain ⟨pq, hpq, h⟩ := bind_eq_ok.1 h
    cases h; cases hl
  · have := parallelSegments_lines g x₁ x₂ x₃ x₄ r h
    rw [this] at hl; cases hl

/-- C65 for segments that cross: two segments with a common point are reported to have a single
intersection with exactly the coordinates of this point.

Full statement: this holds for all segments with a common point whose directions differ.
Missing: directions whose cosine differs from 1 by no more than the tolerance, see
`c65_crossing_violated`. -/
theorem c65_crossing_partial (sqrt : K → K) (hs : IsSqrt sqrt) (g : GeoCfg K)
    (h0 : 0 ≤ g.minTolerance) (hT : g.tol1D < 1 / 2) (h1 : g.tolSq ≤ 1) (x₁ x₂ x₃ x₄ : V3 K)
    (ha : g.tolSq < dist2 x₁ x₂) (hb : g.tolSq < dist2 x₃ x₄)
    (hd : dot4 x₁ x₂ x₃ x₄ * dot4 x₁ x₂ x₃ x₄ <
      (1 - g.tolSq) * (1 - g.tolSq) * (dist2 x₁ x₂ * dist2 x₃ x₄))
    (s q : K) (hs0 : 0 ≤ s) (hs1 : s ≤ 1) (hq0 : 0 ≤ q) (hq1 : q ≤ 1)
    (hm : pointAt x₁ x₂ s = pointAt x₃ x₄ q) :
    ∃ ps pq, g.pointSegmentPosition s = ok ps ∧ g.pointSegmentPosition q = ok pq ∧
      g.intersectionSegmentSegment sqrt x₁ x₂ x₃ x₄ =
        ok ⟨.coPlanarIntersecting, .singleIntersection, [0], [⟨ps, s⟩], [⟨pq, q⟩]⟩ := by
  rw [← V3.sub_dot_pointAt, ← V3.sub_dot_pointAt x₃, ← sub_sub_dot] at hd
  rw [← V3.sub_dot_pointAt] at ha hb
  have pa := lt_of_le_of_lt g.tolSq_nonneg ha
  have pb := lt_of_le_of_lt g.tolSq_nonneg hb
  have hp := notParallel_of_lt hs g _ _ pa pb h1 hd
  have hD := (notParallel_det hs g _ _ pa pb hp).ne'
  obtain ⟨e1, e2⟩ := nearest_unique x₁ x₂ x₃ x₄ hD s q hm
  obtain ⟨ps, hps⟩ := (c29_position g s h0 hT).2.2.2.2.2
  obtain ⟨pq, hpq⟩ := (c29_position g q h0 hT).2.2.2.2.2
  refine ⟨ps, pq, hps, hpq, ?_⟩
  have t0 := g.tol1D_nonneg h0
  rw [segSeg_cases hs g _ _ _ _ ha hb, coplanar_of_meet g h0 x₁ x₂ x₃ x₄ s q hm, if_neg (by simp),
    if_pos hp, e1, e2, hps, ok_bind, hpq, ok_bind,
    (onSegment_iff g h0 hT s ps hps).2 ⟨by linarith, by linarith⟩,
    (onSegment_iff g h0 hT q pq hpq).2 ⟨by linarith, by linarith⟩]
  rfl

/-- The default configuration: ten times the machine precision. -/
noncomputable def defaultGeo : GeoCfg ℝ := ⟨10 / 2 ^ 52, 10 / 2 ^ 52⟩

theorem isSqrt_real : IsSqrt Real.sqrt := fun a ha => ⟨Real.sqrt_nonneg a, Real.mul_self_sqrt ha⟩

theorem defaultGeo_tol1D : defaultGeo.tol1D = 10 / 2 ^ 52 := by
  simp [defaultGeo, GeoCfg.tol1D]

theorem defaultGeo_tolSq : defaultGeo.tolSq = 10 / 2 ^ 52 := by
  simp only [defaultGeo, GeoCfg.tolSq, GeoCfg.tol1DSquared, max_self]
  norm_num

/-- The hypotheses of `c65_crossing_partial`: the diagonals of the unit square. -/
example : IsSqrt Real.sqrt ∧ 0 ≤ defaultGeo.minTolerance ∧ defaultGeo.tol1D < 1 / 2 ∧
    defaultGeo.tolSq ≤ 1 ∧ defaultGeo.tolSq < dist2 (⟨0, 0, 0⟩ : V3 ℝ) ⟨1, 1, 0⟩ ∧
    defaultGeo.tolSq < dist2 (⟨1, 0, 0⟩ : V3 ℝ) ⟨0, 1, 0⟩ ∧
    dot4 (⟨0, 0, 0⟩ : V3 ℝ) ⟨1, 1, 0⟩ ⟨1, 0, 0⟩ ⟨0, 1, 0⟩ *
      dot4 (⟨0, 0, 0⟩ : V3 ℝ) ⟨1, 1, 0⟩ ⟨1, 0, 0⟩ ⟨0, 1, 0⟩ <
      (1 - defaultGeo.tolSq) * (1 - defaultGeo.tolSq) *
        (dist2 (⟨0, 0, 0⟩ : V3 ℝ) ⟨1, 1, 0⟩ * dist2 (⟨1, 0, 0⟩ : V3 ℝ) ⟨0, 1, 0⟩) ∧
    pointAt (⟨0, 0, 0⟩ : V3 ℝ) ⟨1, 1, 0⟩ (1 / 2) = pointAt ⟨1, 0, 0⟩ ⟨0, 1, 0⟩ (1 / 2) := by
  refine ⟨isSqrt_real, ?_, ?_, ?_, ?_, ?_, ?_, ?_⟩
  · norm_num [defaultGeo]
  · rw [defaultGeo_tol1D]; norm_num
  · rw [defaultGeo_tolSq]; norm_num
  · rw [defaultGeo_tolSq]; norm_num [dist2]
  · rw [defaultGeo_tolSq]; norm_num [dist2]
  · rw [defaultGeo_tolSq]; norm_num [dist2, dot4]
  · norm_num [pointAt]

/-- C65 fails for segments that cross at a small angle: with the default tolerances the segments
from (-1, 0) to (1, 0) and from (-c, -s) to (c, s), where c = (n² - 1) / (n² + 1),
s = 2 n / (n² + 1) and n = 10⁸, cross at the origin, and their ends are farther apart than
10⁻⁸. They are taken for parallel segments on different lines, without an intersection. -/
theorem c65_crossing_violated : ∃ x₁ x₂ x₃ x₄ : V3 ℝ,
    pointAt x₁ x₂ (1 / 2) = pointAt x₃ x₄ (1 / 2) ∧ dist2 x₁ x₂ = 4 ∧ dist2 x₃ x₄ = 4 ∧
    (1 / 10 ^ 8) * (1 / 10 ^ 8) < dist2 x₁ x₃ ∧
    defaultGeo.intersectionSegmentSegment Real.sqrt x₁ x₂ x₃ x₄ =
      ok ⟨.coPlanarParallel, .noIntersection, [], [], []⟩ := by
  have h0 : (0 : ℝ) ≤ defaultGeo.minTolerance := by norm_num [defaultGeo]
  have hsq := isSqrt_real
  obtain ⟨x₁, rfl⟩ : ∃ x, x = (⟨-1, 0, 0⟩ : V3 ℝ) := ⟨_, rfl⟩
  obtain ⟨x₃, hx3⟩ : ∃ x, x = (⟨-((10 ^ 16 - 1) / (10 ^ 16 + 1)), -(2 * 10 ^ 8 / (10 ^ 16 + 1)), 0⟩ : V3 ℝ) :=
    ⟨_, rfl⟩
  obtain ⟨x₄, hx4⟩ : ∃ x, x = (⟨(10 ^ 16 - 1) / (10 ^ 16 + 1), 2 * 10 ^ 8 / (10 ^ 16 + 1), 0⟩ : V3 ℝ) :=
    ⟨_, rfl⟩
  have hm : pointAt (⟨-1, 0, 0⟩ : V3 ℝ) ⟨1, 0, 0⟩ (1 / 2) = pointAt x₃ x₄ (1 / 2) := by
    rw [hx3, hx4]; norm_num [pointAt]
  have d1 : dist2 (⟨-1, 0, 0⟩ : V3 ℝ) ⟨1, 0, 0⟩ = 4 := by norm_num [dist2]
  have d2 : dist2 x₃ x₄ = 4 := by rw [hx3, hx4]; norm_num [dist2]
  refine ⟨⟨-1, 0, 0⟩, ⟨1, 0, 0⟩, x₃, x₄, hm, d1, d2, by rw [hx3]; norm_num [dist2], ?_⟩
  rw [segSeg_cases hsq defaultGeo _ _ _ _ (by rw [V3.sub_dot_pointAt, d1, defaultGeo_tolSq]; norm_num)
    (by rw [V3.sub_dot_pointAt, d2, defaultGeo_tolSq]; norm_num),
    coplanar_of_meet defaultGeo h0 _ _ _ _ _ _ hm, if_neg (by simp)]
  have n1 : ((⟨1, 0, 0⟩ : V3 ℝ).sub ⟨-1, 0, 0⟩).norm Real.sqrt = 2 := by
    have := norm_sq hsq ((⟨1, 0, 0⟩ : V3 ℝ).sub ⟨-1, 0, 0⟩)
    rw [V3.sub_dot_pointAt, d1] at this
    nlinarith [norm_nonneg' hsq ((⟨1, 0, 0⟩ : V3 ℝ).sub ⟨-1, 0, 0⟩)]
  have n2 : (x₄.sub x₃).norm Real.sqrt = 2 := by
    have := norm_sq hsq (x₄.sub x₃)
    rw [V3.sub_dot_pointAt, d2] at this
    nlinarith [norm_nonneg' hsq (x₄.sub x₃)]
  have hnp : defaultGeo.notParallel Real.sqrt ((⟨1, 0, 0⟩ : V3 ℝ).sub ⟨-1, 0, 0⟩) (x₄.sub x₃) =
      false := by
    unfold GeoCfg.notParallel
    simp only
    rw [normalized_dot _ _ (by rw [V3.sub_dot_pointAt, d1]; norm_num)
      (by rw [V3.sub_dot_pointAt, d2]; norm_num), n1, n2, sub_sub_dot, Bool.and_eq_false_iff]
    left
    rw [← Bool.not_eq_true, GeoCfg.positive_sq, defaultGeo_tolSq, hx3, hx4, not_lt]
    norm_num [dot4, abs_le]
  rw [hnp, if_neg (by simp)]
  have hal : ∀ p : V3 ℝ, dist2 ⟨-1, 0, 0⟩ p ≤ 4 →
      (1 / 10 ^ 8 : ℝ) ≤ |p.y| → defaultGeo.pointIsAligned Real.sqrt ⟨-1, 0, 0⟩ ⟨1, 0, 0⟩ p = false := by
    intro p hp hy
    rw [← Bool.not_eq_true]
    intro h
    have := GeoCfg.aligned_area hsq defaultGeo _ _ _ h
    rw [defaultGeo.max_tol1D h0, defaultGeo_tol1D, n1] at this
    have hn : (p.sub ⟨-1, 0, 0⟩).norm Real.sqrt ≤ 2 := by
      have h1 := norm_sq hsq (p.sub ⟨-1, 0, 0⟩)
      rw [V3.sub_dot_pointAt] at h1
      nlinarith [norm_nonneg' hsq (p.sub ⟨-1, 0, 0⟩)]
    have ha : area2 (⟨-1, 0, 0⟩ : V3 ℝ) ⟨1, 0, 0⟩ p = 2 * p.y := by
      simp only [area2]; ring
    rw [ha, abs_mul, abs_of_pos (by norm_num : (0 : ℝ) < 2)] at this
    nlinarith
  unfold GeoCfg.parallelSegments
  simp only
  rw [hal x₃, hal x₄]
  · rfl
  · rw [hx4]; norm_num [dist2]
  · rw [hx4]; norm_num [abs_of_pos]
  · rw [hx3]; norm_num [dist2]
  · rw [hx3]; norm_num [abs_of_pos]

/-- C65 for segments on one line, where `α` and `β` are the coordinates of the ends of the second
segment on the first one: "no intersection" is reported exactly if the gap between them is larger
than the tolerance; the coordinates of the gap are `min α β - 1` (the second segment is behind) or
`-max α β` (the second segment is in front). -/
theorem c65_collinear_none (sqrt : K → K) (hs : IsSqrt sqrt) (g : GeoCfg K)
    (h0 : 0 ≤ g.minTolerance) (hT : g.tol1D < 1 / 2) (x₁ x₂ : V3 K) (α β : K)
    (ha : g.tolSq < dist2 x₁ x₂) (hb : g.tolSq < (β - α) * (β - α) * dist2 x₁ x₂) :
    ∃ r, g.intersectionSegmentSegment sqrt x₁ x₂ (pointAt x₁ x₂ α) (pointAt x₁ x₂ β) = ok r ∧
      r.lines = .coPlanarParallel ∧
      (r.segments = .noIntersection ∨ r.segments = .multipleIntersections) ∧
      (r.segments = .noIntersection ↔
        g.tol1D < (x₂.sub x₁).norm sqrt * max (min α β - 1) (-max α β)) := by
  rw [segSeg_collinear hs g h0 x₁ x₂ α β ha hb]
  by_cases hg : g.tol1D < (x₂.sub x₁).norm sqrt * max (min α β - 1) (-max α β)
  · rw [if_pos hg]
    exact ⟨_, rfl, rfl, Or.inl rfl, by simp [hg]⟩
  · rw [if_neg hg]
    obtain ⟨p1, h1⟩ := (c29_position g (min α β) h0 hT).2.2.2.2.2
    obtain ⟨p2, h2⟩ := (c29_position g (max α β) h0 hT).2.2.2.2.2
    obtain ⟨p3, h3⟩ := (c29_position g (min ((0 - α) / (β - α)) ((1 - α) / (β - α))) h0
      hT).2.2.2.2.2
    obtain ⟨p4, h4⟩ := (c29_position g (max ((0 - α) / (β - α)) ((1 - α) / (β - α))) h0
      hT).2.2.2.2.2
    rw [h1, ok_bind, h2, ok_bind, h3, ok_bind, h4, ok_bind]
    exact ⟨_, rfl, rfl, Or.inr rfl, by simp [hg]⟩

/-- C65 for segments on one line that have a common point: two positions are reported on each
segment; on the first one they are the ends of the common part, in increasing order, up to the
tolerance, and likewise on the second one; all four are classified as positions on the segment.

Full statement: the two positions are the ends of the common part also for segments that touch only
up to the tolerance, and position `i` of the first segment is the point that position
`SecondIntersectionRelation[i]` of the second segment describes. Missing: see
`c65_touching_violated` and `c65_relation_violated`; the relation is proved in
`c65_relation_partial` under further hypotheses. -/
theorem c65_collinear_partial (sqrt : K → K) (hs : IsSqrt sqrt) (g : GeoCfg K)
    (h0 : 0 ≤ g.minTolerance) (hT : g.tol1D < 1 / 2) (x₁ x₂ : V3 K) (α β : K)
    (ha : g.tolSq < dist2 x₁ x₂) (hb : g.tolSq < (β - α) * (β - α) * dist2 x₁ x₂)
    (hlo : min α β ≤ 1) (hhi : 0 ≤ max α β) :
    ∃ rel a0 a1 b0 b1,
      g.intersectionSegmentSegment sqrt x₁ x₂ (pointAt x₁ x₂ α) (pointAt x₁ x₂ β) =
        ok ⟨.coPlanarParallel, .multipleIntersections, rel, [a0, a1], [b0, b1]⟩ ∧
      (rel = [0, 1] ∨ rel = [1, 0]) ∧
      |a0.coord - max 0 (min α β)| ≤ g.tol1D ∧ |a1.coord - min 1 (max α β)| ≤ g.tol1D ∧
      |b0.coord - max 0 (min ((0 - α) / (β - α)) ((1 - α) / (β - α)))| ≤ g.tol1D ∧
      |b1.coord - min 1 (max ((0 - α) / (β - α)) ((1 - α) / (β - α)))| ≤ g.tol1D ∧
      onSegment a0.type = true ∧ onSegment a1.type = true ∧ onSegment b0.type = true ∧
      onSegment b1.type = true := by
  have hT0 := g.tol1D_nonneg h0
  have hab : β - α ≠ 0 := by
    intro h
    rw [h] at hb
    simp only [zero_mul] at hb
    exact absurd hb (not_lt.2 g.tolSq_nonneg)
  rw [segSeg_collinear hs g h0 x₁ x₂ α β ha hb, if_neg]
  · obtain ⟨p1, h1⟩ := (c29_position g (min α β) h0 hT).2.2.2.2.2
    obtain ⟨p2, h2⟩ := (c29_position g (max α β) h0 hT).2.2.2.2.2
    obtain ⟨p3, h3⟩ := (c29_position g (min ((0 - α) / (β - α)) ((1 - α) / (β - α))) h0
      hT).2.2.2.2.2
    obtain ⟨p4, h4⟩ := (c29_position g (max ((0 - α) / (β - α)) ((1 - α) / (β - α))) h0
      hT).2.2.2.2.2
    obtain ⟨s1, s2⟩ := second_range α β hab hlo hhi
    obtain ⟨e1, o1⟩ := snapFirst0_eq g h0 hT _ _ h1 hlo
    obtain ⟨e2, o2⟩ := snapEnd_eq g h0 hT _ _ h2 hhi
    obtain ⟨e3, o3⟩ := snapSecond0_eq g h0 hT _ _ h3 s1
    obtain ⟨e4, o4⟩ := snapEnd_eq g h0 hT _ _ h4 s2
    rw [h1, ok_bind, h2, ok_bind, h3, ok_bind, h4, ok_bind]
    refine ⟨_, _, _, _, _, rfl, ?_, ?_, ?_, ?_, ?_, o1, o2, o3, o4⟩
    · split
      · exact Or.inr rfl
      · exact Or.inl rfl
    · rw [e1]; exact near_max _ _ hT0
    · rw [e2]; exact near_min _ _ hT0
    · rw [e3]; exact near_max _ _ hT0
    · rw [e4]; exact near_min _ _ hT0
  · rw [not_lt]
    refine le_trans ?_ hT0
    apply mul_nonpos_of_nonneg_of_nonpos (norm_nonneg' hs _)
    exact max_le (by linarith) (by linarith)

/-- C65, relation of the positions: for segments on one line with a common point, if no end of a
segment is outside the other segment by less than the tolerance, and if segments of opposite
direction have a common part longer than the tolerance times the distance of its first point from
the origin of the coordinate system, then the two positions on the first segment are exactly the
ends of the common part and position `i` is the same point as position
`SecondIntersectionRelation[i]` on the second segment.

Full statement: without these hypotheses, up to the tolerance. Missing: see
`c65_relation_violated`. -/
theorem c65_relation_partial (sqrt : K → K) (hs : IsSqrt sqrt) (g : GeoCfg K)
    (h0 : 0 ≤ g.minTolerance) (ht : 0 ≤ g.tolerance1D) (hT : g.tol1D < 1 / 2) (x₁ x₂ : V3 K)
    (α β : K) (ha : g.tolSq < dist2 x₁ x₂) (hb : g.tolSq < (β - α) * (β - α) * dist2 x₁ x₂)
    (hlo : min α β ≤ 1) (hhi : 0 ≤ max α β)
    (c1 : min α β < -g.tol1D ∨ 0 ≤ min α β) (c2 : 1 + g.tol1D < max α β ∨ max α β ≤ 1)
    (c3 : min ((0 - α) / (β - α)) ((1 - α) / (β - α)) < -g.tol1D ∨
      0 ≤ min ((0 - α) / (β - α)) ((1 - α) / (β - α)))
    (c4 : 1 + g.tol1D < max ((0 - α) / (β - α)) ((1 - α) / (β - α)) ∨
      max ((0 - α) / (β - α)) ((1 - α) / (β - α)) ≤ 1)
    (hrel : α < β ∨ g.tolerance1D * (pointAt x₁ x₂ (max 0 (min α β))).norm sqrt <
      (min 1 (max α β) - max 0 (min α β)) * (x₂.sub x₁).norm sqrt) :
    ∃ i j a0 a1 b0 b1,
      g.intersectionSegmentSegment sqrt x₁ x₂ (pointAt x₁ x₂ α) (pointAt x₁ x₂ β) =
        ok ⟨.coPlanarParallel, .multipleIntersections, [i, j], [a0, a1], [b0, b1]⟩ ∧
      (∀ s, a0.coord ≤ s ∧ s ≤ a1.coord ↔ (0 ≤ s ∧ s ≤ 1) ∧ (min α β ≤ s ∧ s ≤ max α β)) ∧
      (([b0, b1][i]?).map fun b =>
        pointAt (pointAt x₁ x₂ α) (pointAt x₁ x₂ β) b.coord) = some (pointAt x₁ x₂ a0.coord) ∧
      (([b0, b1][j]?).map fun b =>
        pointAt (pointAt x₁ x₂ α) (pointAt x₁ x₂ β) b.coord) = some (pointAt x₁ x₂ a1.coord) := by
  have hT0 := g.tol1D_nonneg h0
  have hab : β - α ≠ 0 := by
    intro h
    rw [h] at hb
    simp only [zero_mul] at hb
    exact absurd hb (not_lt.2 g.tolSq_nonneg)
  have pa : 0 < (x₂.sub x₁).dot (x₂.sub x₁) := by
    rw [V3.sub_dot_pointAt]; exact lt_of_le_of_lt g.tolSq_nonneg ha
  have hn := norm_pos hs pa
  rw [segSeg_collinear hs g h0 x₁ x₂ α β ha hb, if_neg]
  · obtain ⟨p1, h1⟩ := (c29_position g (min α β) h0 hT).2.2.2.2.2
    obtain ⟨p2, h2⟩ := (c29_position g (max α β) h0 hT).2.2.2.2.2
    obtain ⟨p3, h3⟩ := (c29_position g (min ((0 - α) / (β - α)) ((1 - α) / (β - α))) h0
      hT).2.2.2.2.2
    obtain ⟨p4, h4⟩ := (c29_position g (max ((0 - α) / (β - α)) ((1 - α) / (β - α))) h0
      hT).2.2.2.2.2
    obtain ⟨s1, s2⟩ := second_range α β hab hlo hhi
    obtain ⟨e1, -⟩ := snapFirst0_eq g h0 hT _ _ h1 hlo
    obtain ⟨e2, -⟩ := snapEnd_eq g h0 hT _ _ h2 hhi
    obtain ⟨e3, -⟩ := snapSecond0_eq g h0 hT _ _ h3 s1
    obtain ⟨e4, -⟩ := snapEnd_eq g h0 hT _ _ h4 s2
    rw [eq_max _ _ hT0 c1] at e1
    rw [eq_min _ _ hT0 c2] at e2
    rw [eq_max _ _ hT0 c3] at e3
    rw [eq_min _ _ hT0 c4] at e4
    have hpt : ∀ c, pointAt (pointAt x₁ x₂ α) (pointAt x₁ x₂ β) c =
        pointAt x₁ x₂ (α + c * (β - α)) := by
      intro c; ext <;> simp only [pointAt] <;> ring
    have hrange : ∀ s, max 0 (min α β) ≤ s ∧ s ≤ min 1 (max α β) ↔
        (0 ≤ s ∧ s ≤ 1) ∧ (min α β ≤ s ∧ s ≤ max α β) := by
      intro s; rw [max_le_iff, le_min_iff]; tauto
    rw [h1, ok_bind, h2, ok_bind, h3, ok_bind, h4, ok_bind]
    simp only [e1, e3]
    rcases lt_or_gt_of_ne hab with h | h
    · have hba : β ≤ α := by linarith
      have m1 : min α β = β := min_eq_right hba
      have m2 : max α β = α := max_eq_left hba
      have hd : (1 - α) / (β - α) ≤ (0 - α) / (β - α) := by
        rw [div_le_div_right_of_neg h]; linarith
      have m3 := min_eq_right hd
      have m4 := max_eq_left hd
      rw [m1] at hrel hrange
      rw [m2] at hrel hrange
      have k0 : α + max 0 ((1 - α) / (β - α)) * (β - α) = min 1 α := by
        rcases le_total 0 ((1 - α) / (β - α)) with k | k
        · rw [max_eq_right k, div_mul_cancel₀ _ hab]
          rw [div_nonneg_iff] at k
          rw [min_eq_left]
          · ring
          · rcases k with k | k
            · linarith
            · linarith
        · rw [max_eq_left k, zero_mul, add_zero]
          rw [div_nonpos_iff] at k
          rw [min_eq_right]
          rcases k with k | k
          · linarith
          · linarith
      have k1 : α + min 1 ((0 - α) / (β - α)) * (β - α) = max 0 β := by
        rcases le_total 1 ((0 - α) / (β - α)) with k | k
        · rw [min_eq_left k]
          rw [le_div_iff_of_neg h] at k
          rw [max_eq_right (by linarith)]; ring
        · rw [min_eq_right k, div_mul_cancel₀ _ hab]
          rw [div_le_iff_of_neg h] at k
          rw [max_eq_left (by linarith)]; ring
      simp only [m1, m2, m3, m4] at e1 e2 e3 e4 ⊢
      rw [k0]
      have hlt : g.tolerance1D * (pointAt x₁ x₂ (max 0 β)).norm sqrt <
          |min 1 α - max 0 β| * (x₂.sub x₁).norm sqrt := by
        rcases hrel with k | k
        · linarith
        · exact lt_of_lt_of_le k (mul_le_mul_of_nonneg_right (le_abs_self _) hn.le)
      rw [if_pos hlt]
      refine ⟨1, 0, _, _, _, _, rfl, ?_, ?_, ?_⟩
      · intro s; rw [e1, e2]; exact hrange s
      · simp only [List.getElem?_cons_succ, List.getElem?_cons_zero, Option.map_some, hpt, e1, e4,
          k1]
      · simp only [List.getElem?_cons_zero, Option.map_some, hpt, e2, e3, k0]
    · have hba : α ≤ β := by linarith
      have m1 : min α β = α := min_eq_left hba
      have m2 : max α β = β := max_eq_right hba
      have hd : (0 - α) / (β - α) ≤ (1 - α) / (β - α) := by
        rw [div_le_div_iff_of_pos_right h]; linarith
      have m3 := min_eq_left hd
      have m4 := max_eq_right hd
      rw [m1, m2] at hrange
      have k0 : α + max 0 ((0 - α) / (β - α)) * (β - α) = max 0 α := by
        rcases le_total 0 ((0 - α) / (β - α)) with k | k
        · rw [max_eq_right k, div_mul_cancel₀ _ hab]
          rw [le_div_iff₀ h] at k
          rw [max_eq_left (by linarith)]; ring
        · rw [max_eq_left k, zero_mul, add_zero]
          rw [div_le_iff₀ h] at k
          rw [max_eq_right (by linarith)]
      have k1 : α + min 1 ((1 - α) / (β - α)) * (β - α) = min 1 β := by
        rcases le_total 1 ((1 - α) / (β - α)) with k | k
        · rw [min_eq_left k]
          rw [le_div_iff₀ h] at k
          rw [min_eq_right (by linarith)]; ring
        · rw [min_eq_right k, div_mul_cancel₀ _ hab]
          rw [div_le_iff₀ h] at k
          rw [min_eq_left (by linarith)]; ring
      simp only [m1, m2, m3, m4] at e1 e2 e3 e4 ⊢
      rw [k0, sub_self, abs_zero, zero_mul,
        if_neg (not_lt.2 (mul_nonneg ht (norm_nonneg' hs _)))]
      refine ⟨0, 1, _, _, _, _, rfl, ?_, ?_, ?_⟩
      · intro s; rw [e1, e2]; exact hrange s
      · simp only [List.getElem?_cons_zero, Option.map_some, hpt, e1, e3, k0]
      · simp only [List.getElem?_cons_succ, List.getElem?_cons_zero, Option.map_some, hpt, e2, e4,
          k1]
  · rw [not_lt]
    refine le_trans ?_ hT0
    apply mul_nonpos_of_nonneg_of_nonpos (norm_nonneg' hs _)
    exact max_le (by linarith) (by linarith)

/-- The hypotheses of `c65_relation_partial` and `c65_collinear_partial`: the segment from 1 to 5 and
the segment from 6 to 2 on the `x` axis. -/
example : 0 ≤ defaultGeo.tolerance1D ∧
    defaultGeo.tolSq < dist2 (⟨1, 0, 0⟩ : V3 ℝ) ⟨5, 0, 0⟩ ∧
    defaultGeo.tolSq < (1 / 4 - 5 / 4) * (1 / 4 - 5 / 4) * dist2 (⟨1, 0, 0⟩ : V3 ℝ) ⟨5, 0, 0⟩ ∧
    (5 / 4 : ℝ) ⊓ (1 / 4) ≤ 1 ∧ (0 : ℝ) ≤ (5 / 4) ⊔ (1 / 4) ∧ (0 : ℝ) ≤ (5 / 4) ⊓ (1 / 4) ∧
    1 + defaultGeo.tol1D < (5 / 4) ⊔ (1 / 4) ∧
    (0 : ℝ) ≤ ((0 - 5 / 4) / (1 / 4 - 5 / 4)) ⊓ ((1 - 5 / 4) / (1 / 4 - 5 / 4)) ∧
    1 + defaultGeo.tol1D < ((0 - 5 / 4) / (1 / 4 - 5 / 4)) ⊔ ((1 - 5 / 4) / (1 / 4 - 5 / 4)) ∧
    defaultGeo.tolerance1D * (pointAt (⟨1, 0, 0⟩ : V3 ℝ) ⟨5, 0, 0⟩ (0 ⊔ ((5 / 4) ⊓ (1 / 4)))).norm
      Real.sqrt < (1 ⊓ ((5 / 4) ⊔ (1 / 4)) - 0 ⊔ ((5 / 4) ⊓ (1 / 4))) *
        ((⟨5, 0, 0⟩ : V3 ℝ).sub ⟨1, 0, 0⟩).norm Real.sqrt := by
  have e1 : (5 / 4 : ℝ) ⊓ (1 / 4) = 1 / 4 := by norm_num
  have e2 : (5 / 4 : ℝ) ⊔ (1 / 4) = 5 / 4 := by norm_num
  have n1 : (pointAt (⟨1, 0, 0⟩ : V3 ℝ) ⟨5, 0, 0⟩ (1 / 4)).norm Real.sqrt = 2 := by
    simp only [pointAt, V3.norm, V3.dot]
    rw [show (1 + 1 / 4 * (5 - 1)) * (1 + 1 / 4 * (5 - 1)) + (0 + 1 / 4 * (0 - 0)) * (0 + 1 / 4 * (0 - 0)) +
      (0 + 1 / 4 * (0 - 0)) * (0 + 1 / 4 * (0 - 0)) = (2 : ℝ) * 2 by norm_num]
    exact Real.sqrt_mul_self (by norm_num)
  have n2 : ((⟨5, 0, 0⟩ : V3 ℝ).sub ⟨1, 0, 0⟩).norm Real.sqrt = 4 := by
    simp only [V3.sub, V3.norm, V3.dot]
    rw [show (5 - 1) * (5 - 1) + (0 - 0) * (0 - 0) + (0 - 0) * (0 - 0) = (4 : ℝ) * 4 by norm_num]
    exact Real.sqrt_mul_self (by norm_num)
  rw [e1, e2, defaultGeo_tolSq, defaultGeo_tol1D, n2, max_eq_right (by norm_num : (0 : ℝ) ≤ 1 / 4), n1,
    min_eq_left (by norm_num : (1 : ℝ) ≤ 5 / 4)]
  refine ⟨?_, ?_, ?_, ?_, ?_, ?_, ?_, ?_, ?_, ?_⟩ <;> norm_num [defaultGeo, dist2]

theorem defaultGeo_min_nonneg : (0 : ℝ) ≤ defaultGeo.minTolerance := by norm_num [defaultGeo]

theorem defaultGeo_lt_half : defaultGeo.tol1D < 1 / 2 := by rw [defaultGeo_tol1D]; norm_num

theorem norm_axis (c : ℝ) (h : 0 ≤ c) : (⟨c, 0, 0⟩ : V3 ℝ).norm Real.sqrt = c := by
  simp only [V3.norm, V3.dot]
  rw [show c * c + 0 * 0 + 0 * 0 = c * c by ring]
  exact Real.sqrt_mul_self h

/-- C65 fails, relation of the positions near the origin: with the default tolerances the first
segment goes from 0 to 1 and the second one from 2⁻⁵³ to 2 on the `x` axis. The common part goes
from 2⁻⁵³ to 1. The reported relation says that position 0 on the first segment, 2⁻⁵³, is position 1
on the second segment, which is the point 1; in fact it is position 0, which is the point 0, up to
the tolerance. The test compares the distance with the tolerance times the norm of the point. -/
theorem c65_relation_violated : ∃ (x₁ x₂ x₃ x₄ : V3 ℝ) (a0 a1 b0 b1 : SegPos ℝ),
    defaultGeo.intersectionSegmentSegment Real.sqrt x₁ x₂ x₃ x₄ =
      ok ⟨.coPlanarParallel, .multipleIntersections, [1, 0], [a0, a1], [b0, b1]⟩ ∧
    1 / 2 < dist2 (pointAt x₁ x₂ a0.coord) (pointAt x₃ x₄ b1.coord) ∧
    dist2 (pointAt x₁ x₂ a0.coord) (pointAt x₃ x₄ b0.coord) ≤
      defaultGeo.tol1D * defaultGeo.tol1D ∧
    1 / 2 < dist2 (pointAt x₁ x₂ a1.coord) (pointAt x₃ x₄ b0.coord) ∧
    pointAt x₁ x₂ a1.coord = pointAt x₃ x₄ b1.coord := by
  have h0 := defaultGeo_min_nonneg
  have hT := defaultGeo_lt_half
  have hd : dist2 (⟨0, 0, 0⟩ : V3 ℝ) ⟨1, 0, 0⟩ = 1 := by norm_num [dist2]
  have key := segSeg_collinear isSqrt_real defaultGeo h0 (⟨0, 0, 0⟩ : V3 ℝ) ⟨1, 0, 0⟩ (1 / 2 ^ 53) 2
    (by rw [hd, defaultGeo_tolSq]; norm_num) (by rw [hd, defaultGeo_tolSq]; norm_num)
  have m1 : min (1 / 2 ^ 53 : ℝ) 2 = 1 / 2 ^ 53 := min_eq_left (by norm_num)
  have m2 : max (1 / 2 ^ 53 : ℝ) 2 = 2 := max_eq_right (by norm_num)
  have m3 : min ((0 - 1 / 2 ^ 53 : ℝ) / (2 - 1 / 2 ^ 53)) ((1 - 1 / 2 ^ 53) / (2 - 1 / 2 ^ 53)) =
      (0 - 1 / 2 ^ 53) / (2 - 1 / 2 ^ 53) := min_eq_left (by norm_num)
  have m4 : max ((0 - 1 / 2 ^ 53 : ℝ) / (2 - 1 / 2 ^ 53)) ((1 - 1 / 2 ^ 53) / (2 - 1 / 2 ^ 53)) =
      (1 - 1 / 2 ^ 53) / (2 - 1 / 2 ^ 53) := max_eq_right (by norm_num)
  have n2 : ((⟨1, 0, 0⟩ : V3 ℝ).sub ⟨0, 0, 0⟩).norm Real.sqrt = 1 := by
    have : (⟨1, 0, 0⟩ : V3 ℝ).sub ⟨0, 0, 0⟩ = ⟨1, 0, 0⟩ := by norm_num [V3.sub]
    rw [this, norm_axis _ (by norm_num)]
  have p1 := (c29_position defaultGeo (1 / 2 ^ 53) h0 hT).2.1.2 (by
    rw [defaultGeo_tol1D, abs_of_pos (by norm_num)]; norm_num)
  have p2 := (c29_position defaultGeo 2 h0 hT).2.2.2.2.1.2 (by rw [defaultGeo_tol1D]; norm_num)
  have p3 := (c29_position defaultGeo ((0 - 1 / 2 ^ 53) / (2 - 1 / 2 ^ 53)) h0 hT).2.1.2 (by
    rw [defaultGeo_tol1D, abs_of_neg (by norm_num)]; norm_num)
  have p4 := (c29_position defaultGeo ((1 - 1 / 2 ^ 53) / (2 - 1 / 2 ^ 53)) h0 hT).2.2.1.2 (by
    rw [defaultGeo_tol1D]; norm_num)
  rw [m1, m2, m3, m4, n2, if_neg (by rw [defaultGeo_tol1D, max_eq_left (by norm_num)]; norm_num), p1,
    ok_bind, p2, ok_bind, p3, ok_bind, p4, ok_bind] at key
  simp only [snapFirst0, snapSecond0, snapEnd, reduceCtorEq, if_false, if_true] at key
  rw [if_pos] at key
  · refine ⟨_, _, _, _, _, _, _, _, key, ?_, ?_, ?_, ?_⟩
    · norm_num [pointAt, dist2]
    · rw [defaultGeo_tol1D]; norm_num [pointAt, dist2]
    · norm_num [pointAt, dist2]
    · norm_num [pointAt]
  · have : pointAt (⟨0, 0, 0⟩ : V3 ℝ) ⟨1, 0, 0⟩ (1 / 2 ^ 53) = ⟨1 / 2 ^ 53, 0, 0⟩ := by
      norm_num [pointAt]
    rw [this, norm_axis _ (by norm_num), div_mul_cancel₀ _ (by norm_num), abs_of_neg (by norm_num)]
    norm_num [defaultGeo]

/-- C65 fails, segments that touch up to the tolerance: with the default tolerances the first
segment goes from 0 to 1/4 and the second one from 1/4 + 2⁻⁵⁰ to 1 on the `x` axis. The gap is
within the tolerance and the segments are said to meet, but the common part that is reported is the
whole first segment: position 0 is the origin, at a distance of 1/4 from all points of the second
segment. A first position after the end of the segment is moved to the origin instead of the end. -/
theorem c65_touching_violated : ∃ (x₁ x₂ x₃ x₄ : V3 ℝ) (rel : List Nat) (a0 a1 b0 b1 : SegPos ℝ),
    defaultGeo.intersectionSegmentSegment Real.sqrt x₁ x₂ x₃ x₄ =
      ok ⟨.coPlanarParallel, .multipleIntersections, rel, [a0, a1], [b0, b1]⟩ ∧
    ∀ q, 0 ≤ q → q ≤ 1 → 1 / 16 < dist2 (pointAt x₁ x₂ a0.coord) (pointAt x₃ x₄ q) := by
  have h0 := defaultGeo_min_nonneg
  have hT := defaultGeo_lt_half
  have hd : dist2 (⟨0, 0, 0⟩ : V3 ℝ) ⟨1 / 4, 0, 0⟩ = 1 / 16 := by norm_num [dist2]
  have key := segSeg_collinear isSqrt_real defaultGeo h0 (⟨0, 0, 0⟩ : V3 ℝ) ⟨1 / 4, 0, 0⟩
    (1 + 1 / 2 ^ 48) 4
    (by rw [hd, defaultGeo_tolSq]; norm_num) (by rw [hd, defaultGeo_tolSq]; norm_num)
  have m1 : min (1 + 1 / 2 ^ 48 : ℝ) 4 = 1 + 1 / 2 ^ 48 := min_eq_left (by norm_num)
  have m2 : max (1 + 1 / 2 ^ 48 : ℝ) 4 = 4 := max_eq_right (by norm_num)
  have n2 : ((⟨1 / 4, 0, 0⟩ : V3 ℝ).sub ⟨0, 0, 0⟩).norm Real.sqrt = 1 / 4 := by
    have : (⟨1 / 4, 0, 0⟩ : V3 ℝ).sub ⟨0, 0, 0⟩ = ⟨1 / 4, 0, 0⟩ := by norm_num [V3.sub]
    rw [this, norm_axis _ (by norm_num)]
  have p1 := (c29_position defaultGeo (1 + 1 / 2 ^ 48) h0 hT).2.2.2.2.1.2 (by
    rw [defaultGeo_tol1D]; norm_num)
  have p2 := (c29_position defaultGeo 4 h0 hT).2.2.2.2.1.2 (by rw [defaultGeo_tol1D]; norm_num)
  obtain ⟨q3, p3⟩ := (c29_position defaultGeo (min ((0 - (1 + 1 / 2 ^ 48)) / (4 - (1 + 1 / 2 ^ 48)))
    ((1 - (1 + 1 / 2 ^ 48)) / (4 - (1 + 1 / 2 ^ 48)))) h0 hT).2.2.2.2.2
  obtain ⟨q4, p4⟩ := (c29_position defaultGeo (max ((0 - (1 + 1 / 2 ^ 48)) / (4 - (1 + 1 / 2 ^ 48)))
    ((1 - (1 + 1 / 2 ^ 48)) / (4 - (1 + 1 / 2 ^ 48)))) h0 hT).2.2.2.2.2
  rw [m1, m2, n2, if_neg (by rw [defaultGeo_tol1D, max_eq_left (by norm_num)]; norm_num), p1,
    ok_bind, p2, ok_bind, p3, ok_bind, p4, ok_bind] at key
  refine ⟨_, _, _, _, _, _, _, _, _, key, ?_⟩
  intro q hq0 hq1
  have e : (snapFirst0 (⟨.onSegmentLineAfterEnd, 1 + 1 / 2 ^ 48⟩ : SegPos ℝ)).coord = 0 := by
    simp [snapFirst0]
  rw [e]
  simp only [pointAt, dist2]
  norm_num
  nlinarith

/-! ### C66 -/

/-- C66: what `IntersectionSegmentPlane` checks before, and which case is taken. The normal must
have length 1 and the segment must not be degenerate, up to the tolerance. If the segment is not
parallel to the plane up to the tolerance, a single intersection of the line is reported; otherwise
the segment lies in the plane or does not, according to the distances of the origins. -/
theorem c66_cases (sqrt : K → K) (hs : IsSqrt sqrt) (g : GeoCfg K) (h0 : 0 ≤ g.minTolerance)
    (hT : g.tol1D < 1 / 2) (o e n p : V3 K) :
    (g.compareValues (n.norm sqrt) 1 g.tol1D ≠ .coincident ∨ (e.sub o).norm sqrt ≤ g.tol1D →
      g.intersectionSegmentPlane sqrt o e n p = abort) ∧
    (g.compareValues (n.norm sqrt) 1 g.tol1D = .coincident → g.tol1D < (e.sub o).norm sqrt →
      (g.tolSq * (e.sub o).norm sqrt < |side n o e| →
        ∃ q, g.intersectionSegmentPlane sqrt o e n p = ok (.singleIntersection q)) ∧
      (|side n o e| ≤ g.tolSq * (e.sub o).norm sqrt →
        (|side n o p| ≤ window g.tolSq (n.dot o) (n.dot p) →
          g.intersectionSegmentPlane sqrt o e n p = ok .multipleIntersections) ∧
        (window g.tolSq (n.dot o) (n.dot p) < |side n o p| →
          g.intersectionSegmentPlane sqrt o e n p = ok .noIntersection))) := by
  constructor
  · intro h
    unfold GeoCfg.intersectionSegmentPlane
    simp only
    by_cases h1 : g.compareValues (n.norm sqrt) 1 g.tol1D = .coincident
    · rw [assert_true h1, ok_bind, assert_false]
      · rfl
      · rw [g.positive_1D h0]
        rcases h with h | h
        · exact absurd h1 h
        · exact not_lt.2 h
    · rw [assert_false h1]; rfl
  · intro h1 h2
    have hd : 0 < (e.sub o).dot (e.sub o) := by
      have hn : 0 < (e.sub o).norm sqrt := lt_of_le_of_lt (g.tol1D_nonneg h0) h2
      rw [← norm_sq hs]; exact mul_pos hn hn
    have hn := norm_pos hs hd
    have hcomm : ∀ a b : V3 K, a.dot b = b.dot a := by intro a b; simp only [V3.dot]; ring
    have hside : (e.sub o).dot n = side n o e := by simp only [V3.dot, V3.sub, side]; ring
    have hunit : n.dot ((e.sub o).normalized sqrt) = side n o e / (e.sub o).norm sqrt := by
      rw [hcomm, normalized_dot_left _ _ hd, hside]
    have hz : g.isValueZero (n.dot ((e.sub o).normalized sqrt)) g.tol1DSquared = true ↔
        |side n o e| ≤ g.tolSq * (e.sub o).norm sqrt := by
      rw [g.zero_sq, hunit, abs_div, abs_of_pos hn, div_le_iff₀ hn]
    unfold GeoCfg.intersectionSegmentPlane
    simp only
    rw [assert_true h1, ok_bind, assert_true ((g.positive_1D h0 _).2 h2), ok_bind]
    constructor
    · intro h
      rw [if_neg (fun k => absurd (hz.1 k) (not_le.2 h))]
      obtain ⟨q, hq⟩ := (c29_position g (n.dot (p.sub o) / n.dot (e.sub o)) h0 hT).2.2.2.2.2
      rw [hq, ok_bind]
      exact ⟨_, rfl⟩
    · intro h
      rw [if_pos (hz.2 h)]
      have hcmp : g.compareValues (n.dot o) (n.dot p) g.tol1DSquared = .coincident ↔
          |side n o p| ≤ window g.tolSq (n.dot o) (n.dot p) := by
        rw [g.compareValues_eq, abs_of_nonneg g.tol1DSquared_nonneg]
        have : n.dot p - n.dot o = side n o p := by simp only [V3.dot, side]; ring
        rw [this]
        change (if |side n o p| ≤ window g.tolSq _ _ then _ else _) = _ ↔ _
        split
        · next k => simp [k]
        · next k => split <;> simp [k]
      exact ⟨fun k => by rw [if_pos (hcmp.2 k)],
        fun k => by rw [if_neg (fun k' => absurd (hcmp.1 k') (not_le.2 k))]⟩

/-- C66, single intersection: there is exactly one point of the line of the segment in the plane; its
coordinate is the reported one, except that a coordinate within the tolerance of 0 or 1 is replaced
by 0 or 1; the position is that of this point; the position is inside the segment only if the ends
are on opposite sides of the plane, and on the line outside the segment only if they are on the same
side; if the ends are on opposite sides the position is on the segment. -/
theorem c66_single (sqrt : K → K) (hs : IsSqrt sqrt) (g : GeoCfg K) (h0 : 0 ≤ g.minTolerance)
    (hT : g.tol1D < 1 / 2) (o e n p : V3 K) (q : SegPos K)
    (h : g.intersectionSegmentPlane sqrt o e n p = ok (.singleIntersection q)) :
    ∃ s, (∀ s', side n p (pointAt o e s') = 0 ↔ s' = s) ∧
      g.pointSegmentPosition s = ok q.type ∧ |q.coord - s| ≤ g.tol1D ∧
      (q.type = .onSegmentOrigin → q.coord = 0) ∧ (q.type = .onSegmentEnd → q.coord = 1) ∧
      (q.type ≠ .onSegmentOrigin → q.type ≠ .onSegmentEnd → q.coord = s) ∧
      (q.type = .insideSegment → side n p o * side n p e < 0) ∧
      (q.type = .onSegmentLineBeforeOrigin ∨ q.type = .onSegmentLineAfterEnd →
        0 < side n p o * side n p e) ∧
      (side n p o * side n p e < 0 → onSegment q.type = true) := by
  unfold GeoCfg.intersectionSegmentPlane at h
  simp only at h
  obtain ⟨_, _, h⟩ := bind_eq_ok.1 h
  obtain ⟨_, hlen, h⟩ := bind_eq_ok.1 h
  have hT0 := g.tol1D_nonneg h0
  split at h
  · split at h <;> cases h
  next hz =>
  obtain ⟨ps, hps, h⟩ := bind_eq_ok.1 h
  cases h
  have hside : n.dot (e.sub o) = side n o e := by simp only [V3.dot, V3.sub, side]
  have hso : n.dot (p.sub o) = -side n p o := by simp only [V3.dot, V3.sub, side]; ring
  have hse : side n p e = side n p o + side n o e := by simp only [side]; ring
  have hN : side n o e ≠ 0 := by
    intro hN
    apply hz
    rw [g.zero_sq]
    have : n.dot ((e.sub o).normalized sqrt) = 0 := by
      rw [← hside] at hN
      unfold V3.normalized
      split
      · have : n.dot (V3.smul (1 / sqrt ((e.sub o).dot (e.sub o))) (e.sub o)) =
            (1 / sqrt ((e.sub o).dot (e.sub o))) * n.dot (e.sub o) := by
          simp only [V3.dot, V3.smul]; ring
        rw [this, hN, mul_zero]
      · exact hN
    rw [this, abs_zero]; exact g.tolSq_nonneg
  rw [hside, hso] at hps ⊢
  obtain ⟨c1, c2, c3, c4, c5, -⟩ := c29_position g (-side n p o / side n o e) h0 hT
  have hon := onSegment_iff g h0 hT _ _ hps
  rw [hps] at c1 c2 c3 c4 c5
  simp only [ok.injEq] at c1 c2 c3 c4 c5
  generalize hS : -side n p o / side n o e = s at *
  have ho : side n p o = -s * side n o e := by
    rw [← hS]; field_simp
  have hpos : 0 < side n o e * side n o e := mul_self_pos.2 hN
  have hprod : side n p o * side n p e = (-s * (1 - s)) * (side n o e * side n o e) := by
    rw [hse, ho]; ring
  refine ⟨s, ?_, hps, ?_, ?_, ?_, ?_, ?_, ?_, ?_⟩
  · intro s'
    have : side n p (pointAt o e s') = side n p o + s' * side n o e := by
      simp only [side, pointAt]; ring
    rw [this, ho]
    constructor
    · intro k
      have : (s' - s) * side n o e = 0 := by linear_combination k
      rcases mul_eq_zero.1 this with k | k
      · linarith
      · exact absurd k hN
    · rintro rfl; ring
  · simp only
    split
    · next k =>
      rw [zero_sub, abs_neg]; exact c2.1 k
    split
    · next k =>
      rw [abs_sub_comm]; exact c4.1 k
    · rw [sub_self, abs_zero]; exact hT0
  · intro k; simp only at k ⊢; rw [if_pos k]
  · intro k; simp only at k ⊢; rw [if_neg (by rw [k]; simp), if_pos k]
  · intro k k'; simp only at k k' ⊢; rw [if_neg k, if_neg k']
  · intro k
    obtain ⟨k1, k2⟩ := c3.1 k
    rw [hprod]
    apply mul_neg_of_neg_of_pos _ hpos
    nlinarith
  · rintro (k | k)
    · have k1 := c1.1 k
      rw [hprod]
      apply mul_pos _ hpos
      nlinarith
    · have k1 := c5.1 k
      rw [hprod]
      apply mul_pos _ hpos
      nlinarith
  · intro k
    rw [hprod] at k
    apply hon.2
    have k2 : -s * (1 - s) < 0 := by
      by_contra hc
      exact absurd k (not_lt.2 (mul_nonneg (not_lt.1 hc) hpos.le))
    constructor
    · nlinarith
    · nlinarith

/-- A call to which `c66_single` applies: the segment from (0, 0, -1) to (0, 0, 1) and the plane
`z = 0`. -/
example : ∃ q, defaultGeo.intersectionSegmentPlane Real.sqrt ⟨0, 0, -1⟩ ⟨0, 0, 1⟩ ⟨0, 0, 1⟩ ⟨5, 7, 0⟩ =
    ok (.singleIntersection q) := by
  have n1 : (⟨0, 0, 1⟩ : V3 ℝ).norm Real.sqrt = 1 := by
    simp [V3.norm, V3.dot]
  have n2 : ((⟨0, 0, 1⟩ : V3 ℝ).sub ⟨0, 0, -1⟩).norm Real.sqrt = 2 := by
    simp only [V3.norm, V3.dot, V3.sub]
    rw [show (0 - 0) * (0 - 0) + (0 - 0) * (0 - 0) + (1 - -1) * (1 - -1) = (2 : ℝ) * 2 by norm_num]
    exact Real.sqrt_mul_self (by norm_num)
  have := (c66_cases Real.sqrt isSqrt_real defaultGeo defaultGeo_min_nonneg defaultGeo_lt_half
    ⟨0, 0, -1⟩ ⟨0, 0, 1⟩ ⟨0, 0, 1⟩ ⟨5, 7, 0⟩).2 ?_ ?_
  · apply this.1
    rw [n2, defaultGeo_tolSq]
    norm_num [side]
  · rw [n1, GeoCfg.compareValues_eq, if_pos]
    rw [sub_self, abs_zero]
    exact window_nonneg (le_trans (abs_nonneg _) (le_max_left _ _)) _ _
  · rw [n2, defaultGeo_tol1D]; norm_num

/-- C66: a segment in the plane is reported as such. -/
theorem c66_in_plane (sqrt : K → K) (hs : IsSqrt sqrt) (g : GeoCfg K) (h0 : 0 ≤ g.minTolerance)
    (hT : g.tol1D < 1 / 2) (o e n p : V3 K)
    (h1 : g.compareValues (n.norm sqrt) 1 g.tol1D = .coincident) (h2 : g.tol1D < (e.sub o).norm sqrt)
    (ho : side n p o = 0) (he : side n p e = 0) :
    g.intersectionSegmentPlane sqrt o e n p = ok .multipleIntersections := by
  have e1 : side n o e = 0 := by
    have : side n o e = side n p e - side n p o := by simp only [side]; ring
    rw [this, ho, he, sub_zero]
  have e2 : side n o p = 0 := by
    have : side n o p = -side n p o := by simp only [side]; ring
    rw [this, ho, neg_zero]
  refine (((c66_cases sqrt hs g h0 hT o e n p).2 h1 h2).2 ?_).1 ?_
  · rw [e1, abs_zero]
    exact mul_nonneg g.tolSq_nonneg (norm_nonneg' hs _)
  · rw [e2, abs_zero]
    exact window_nonneg g.tolSq_nonneg _ _

/-! ### C67 -/

section circle

variable (g : GeoCfg K) (sqrt : K → K) (o e c : V3 K) (r : K)

/-- The square of the distance from the centre along the segment. -/
theorem dist2_pointAt (t : K) :
    dist2 (pointAt o e t) c = dist2 o e * (t * t) + 2 * (o.sub c).dot (e.sub o) * t +
      (o.sub c).dot (o.sub c) := by
  simp only [dist2, pointAt, V3.sub, V3.dot]; ring

theorem tolDisc_eq (g : GeoCfg K) :
    max |g.tol1DSquared * g.tol1DSquared| g.minTolerance = g.tolDisc := by
  rw [abs_of_nonneg (mul_self_nonneg _)]; rfl

/-- C67: the points of the line of the segment that are reported are exactly its points on the
circle.

* "No intersection": all points of the line are outside the circle.
* "Two intersections": the reported coordinates are ordered; they are the coordinates of the only
  two points of the line on the circle; the points between are inside and the others outside.
* "Tangent": the reported point is the point of the line nearest to the centre, and the difference
  of the squares of its distance and the radius, times four times the squared length of the
  segment, is within the tolerance.
* The positions are those of the reported coordinates. -/
theorem c67_segment_circle (hs : IsSqrt sqrt) (h0 : 0 ≤ g.minTolerance)
    (res : SegCircleResult K) (h : g.intersectionSegmentCircle sqrt o e c r = ok res) :
    (res = .noIntersection → ∀ t, r * r < dist2 (pointAt o e t) c) ∧
    (∀ p q, res = .twoIntersections p q → p.coord < q.coord ∧
      (∀ t, dist2 (pointAt o e t) c = r * r ↔ t = p.coord ∨ t = q.coord) ∧
      (∀ t, dist2 (pointAt o e t) c < r * r ↔ p.coord < t ∧ t < q.coord) ∧
      g.pointSegmentPosition p.coord = ok p.type ∧ g.pointSegmentPosition q.coord = ok q.type) ∧
    (∀ p, res = .tangentIntersection p →
      (∀ t, dist2 (pointAt o e p.coord) c ≤ dist2 (pointAt o e t) c) ∧
      |dist2 (pointAt o e p.coord) c - r * r| * (4 * dist2 o e) ≤ g.tolDisc ∧
      g.pointSegmentPosition p.coord = ok p.type) := by
  unfold GeoCfg.intersectionSegmentCircle at h
  simp only at h
  by_cases ha : g.isValuePositive ((e.sub o).dot (e.sub o)) g.tol1DSquared = true
  swap
  · rw [assert_false ha] at h; cases h
  rw [assert_true ha, ok_bind, V3.sub_dot_pointAt] at h
  rw [g.positive_sq, V3.sub_dot_pointAt] at ha
  have pa : 0 < dist2 o e := lt_of_le_of_lt g.tolSq_nonneg ha
  have hquad := dist2_pointAt o e c
  generalize (o.sub c).dot (e.sub o) = f at *
  generalize (o.sub c).dot (o.sub c) = d at *
  generalize dist2 o e = a at *
  have pa' := pa.ne'
  have tol0 : 0 ≤ g.tolDisc := le_trans (mul_self_nonneg _) (le_max_left _ _)
  obtain ⟨-, sneg, szero⟩ := c27_sign g (2 * f * (2 * f) - 4 * a * (d - r * r))
    (g.tol1DSquared * g.tol1DSquared)
  rw [tolDisc_eq] at sneg szero
  have hpar : ∀ t, 4 * a * (a * (t * t) + 2 * f * t + d - r * r) =
      (2 * a * t + 2 * f) * (2 * a * t + 2 * f) - (2 * f * (2 * f) - 4 * a * (d - r * r)) := by
    intro t; ring
  have h4a : 0 < 4 * a := by linarith
  split at h
  · next hneg =>
    cases h
    refine ⟨fun _ t => ?_, (fun p q k => nomatch k), (fun p k => nomatch k)⟩
    rw [hquad]
    have h1 := sneg.1 hneg
    have h2 := hpar t
    have h3 := mul_self_nonneg (2 * a * t + 2 * f)
    have h4 : 0 < 4 * a * (a * (t * t) + 2 * f * t + d - r * r) := by rw [h2]; linarith
    have := (mul_pos_iff_of_pos_left h4a).1 h4
    linarith
  next hneg =>
  split at h
  · next hzero =>
    obtain ⟨p, hp, h⟩ := bind_eq_ok.1 h
    cases h
    refine ⟨(fun k => nomatch k), (fun p q k => nomatch k), ?_⟩
    intro q k
    cases k
    simp only
    have e0 : 2 * a * (-(2 * f) / (2 * a)) + 2 * f = 0 := by field_simp; ring
    refine ⟨fun t => ?_, ?_, hp⟩
    · rw [hquad, hquad]
      have h1 := hpar (-(2 * f) / (2 * a))
      have h2 := hpar t
      rw [e0] at h1
      have h3 := mul_self_nonneg (2 * a * t + 2 * f)
      have h4 : 4 * a * (a * (-(2 * f) / (2 * a) * (-(2 * f) / (2 * a))) +
          2 * f * (-(2 * f) / (2 * a)) + d - r * r) ≤
          4 * a * (a * (t * t) + 2 * f * t + d - r * r) := by
        rw [h1, h2]; linarith
      have := le_of_mul_le_mul_left h4 h4a
      linarith
    · rw [hquad, ← abs_of_pos h4a, ← abs_mul]
      have h1 := hpar (-(2 * f) / (2 * a))
      rw [e0] at h1
      have : (a * (-(2 * f) / (2 * a) * (-(2 * f) / (2 * a))) + 2 * f * (-(2 * f) / (2 * a)) + d -
          r * r) * (4 * a) = -(2 * f * (2 * f) - 4 * a * (d - r * r)) := by
        linear_combination h1
      rw [this, abs_neg]
      exact szero.1 hzero
  · next hzero =>
    obtain ⟨p₁, hp₁, h⟩ := bind_eq_ok.1 h
    obtain ⟨p₂, hp₂, h⟩ := bind_eq_ok.1 h
    cases h
    refine ⟨(fun k => nomatch k), ?_, (fun p k => nomatch k)⟩
    intro p q k
    cases k
    simp only
    have hdisc : g.tolDisc < 2 * f * (2 * f) - 4 * a * (d - r * r) := by
      have h1 : ¬ |2 * f * (2 * f) - 4 * a * (d - r * r)| ≤ g.tolDisc := fun k => hzero (szero.2 k)
      have h2 : ¬ 2 * f * (2 * f) - 4 * a * (d - r * r) < -g.tolDisc := fun k => hneg (sneg.2 k)
      rw [not_le, lt_abs] at h1
      rcases h1 with h1 | h1
      · exact h1
      · exact absurd (by linarith) h2
    obtain ⟨w0, w1⟩ := hs (2 * f * (2 * f) - 4 * a * (d - r * r)) (by linarith)
    have wpos : 0 < sqrt (2 * f * (2 * f) - 4 * a * (d - r * r)) := by
      rcases w0.lt_or_eq with k | k
      · exact k
      · rw [← k] at w1; linarith
    generalize sqrt (2 * f * (2 * f) - 4 * a * (d - r * r)) = w at *
    have h2a : 0 < 2 * a := by linarith
    have hlt : (-(2 * f) - w) / (2 * a) < (-(2 * f) + w) / (2 * a) := by
      rw [div_lt_div_iff_of_pos_right h2a]; linarith
    have hfac : ∀ t, a * (t * t) + 2 * f * t + d - r * r =
        a * ((t - (-(2 * f) - w) / (2 * a)) * (t - (-(2 * f) + w) / (2 * a))) := by
      intro t
      have h1 := hpar t
      rw [← w1] at h1
      apply mul_left_cancel₀ h4a.ne'
      rw [h1]
      field_simp
      ring
    generalize (-(2 * f) - w) / (2 * a) = t₁ at *
    generalize (-(2 * f) + w) / (2 * a) = t₂ at *
    refine ⟨hlt, fun t => ?_, fun t => ?_, hp₁, hp₂⟩
    · rw [hquad, ← sub_eq_zero, hfac, mul_eq_zero, mul_eq_zero, sub_eq_zero, sub_eq_zero]
      constructor
      · rintro (k | k)
        · exact absurd k pa'
        · exact k
      · exact Or.inr
    · rw [hquad, ← sub_neg, hfac]
      constructor
      · intro k
        have k' : (t - t₁) * (t - t₂) < 0 := by
          by_contra hc
          exact absurd k (not_lt.2 (mul_nonneg pa.le (not_lt.1 hc)))
        rcases mul_neg_iff.1 k' with ⟨k1, k2⟩ | ⟨k1, k2⟩
        · exact ⟨by linarith, by linarith⟩
        · exact absurd hlt (by linarith)
      · rintro ⟨k1, k2⟩
        exact mul_neg_of_pos_of_neg pa (mul_neg_of_pos_of_neg (by linarith) (by linarith))

/-- C67: if a point of the line of the segment is inside the circle, farther than the tolerance, two
intersections are reported; if all are outside, farther than the tolerance, none is.

Full statement: two intersections are reported if a point is inside the circle farther than the
tolerance for lengths. Missing: the tolerance for the discriminant is not that of a length to the
fourth power as the code intends, but the configured minimum, see `c67_small_circle_violated`. -/
theorem c67_number_partial (h0 : 0 ≤ g.minTolerance) (hT : g.tol1D < 1 / 2)
    (ha : g.tolSq < dist2 o e) :
    (∀ t, g.tolDisc < (r * r - dist2 (pointAt o e t) c) * (4 * dist2 o e) →
      ∃ p q, g.intersectionSegmentCircle sqrt o e c r = ok (.twoIntersections p q)) ∧
    ((∀ t, g.tolDisc < (dist2 (pointAt o e t) c - r * r) * (4 * dist2 o e)) →
      g.intersectionSegmentCircle sqrt o e c r = ok .noIntersection) := by
  have pa : 0 < dist2 o e := lt_of_le_of_lt g.tolSq_nonneg ha
  have tol0 : 0 ≤ g.tolDisc := le_trans (mul_self_nonneg _) (le_max_left _ _)
  have hquad := dist2_pointAt o e c
  unfold GeoCfg.intersectionSegmentCircle
  simp only
  rw [assert_true ((g.positive_sq _).2 (by rw [V3.sub_dot_pointAt]; exact ha)), ok_bind,
    V3.sub_dot_pointAt]
  generalize (o.sub c).dot (e.sub o) = f at *
  generalize (o.sub c).dot (o.sub c) = d at *
  generalize dist2 o e = a at *
  obtain ⟨-, sneg, szero⟩ := c27_sign g (2 * f * (2 * f) - 4 * a * (d - r * r))
    (g.tol1DSquared * g.tol1DSquared)
  rw [tolDisc_eq] at sneg szero
  constructor
  · intro t ht
    rw [hquad] at ht
    have hdisc : g.tolDisc < 2 * f * (2 * f) - 4 * a * (d - r * r) := by
      nlinarith [mul_self_nonneg (2 * a * t + 2 * f)]
    rw [if_neg (fun k => by have := sneg.1 k; linarith),
      if_neg (fun k => by have := (abs_le.1 (szero.1 k)).2; linarith)]
    generalize sqrt (2 * f * (2 * f) - 4 * a * (d - r * r)) = w
    obtain ⟨p, hp⟩ := (c29_position g ((-(2 * f) - w) / (2 * a)) h0 hT).2.2.2.2.2
    obtain ⟨q, hq⟩ := (c29_position g ((-(2 * f) + w) / (2 * a)) h0 hT).2.2.2.2.2
    rw [hp, ok_bind, hq, ok_bind]
    exact ⟨_, _, rfl⟩
  · intro h
    have h1 := h (-(2 * f) / (2 * a))
    rw [hquad] at h1
    have pa' := pa.ne'
    have e1 : (a * (-(2 * f) / (2 * a) * (-(2 * f) / (2 * a))) + 2 * f * (-(2 * f) / (2 * a)) + d -
        r * r) * (4 * a) = -(2 * f * (2 * f) - 4 * a * (d - r * r)) := by
      field_simp; ring
    rw [e1] at h1
    rw [if_pos (sneg.2 (by linarith))]

end circle

/-- The hypotheses of `c67_number_partial`: the segment from (-2, 0) to (2, 0) and the unit circle. -/
example : defaultGeo.tolSq < dist2 (⟨-2, 0, 0⟩ : V3 ℝ) ⟨2, 0, 0⟩ ∧
    defaultGeo.tolDisc < (1 * 1 - dist2 (pointAt (⟨-2, 0, 0⟩ : V3 ℝ) ⟨2, 0, 0⟩ (1 / 2)) ⟨0, 0, 0⟩) *
      (4 * dist2 (⟨-2, 0, 0⟩ : V3 ℝ) ⟨2, 0, 0⟩) := by
  constructor
  · rw [defaultGeo_tolSq]; norm_num [dist2]
  · simp only [GeoCfg.tolDisc, GeoCfg.tol1DSquared, defaultGeo, max_self]
    norm_num [dist2, pointAt]

/-- C67 fails for small circles: with the default tolerances the segment from (0, 0) to (1, 0) goes
through the centre of the circle with centre (1/2, 0) and radius 2⁻²⁶, which is about 1.5 * 10⁻⁸.
A tangent is reported, touching the circle in its centre. -/
theorem c67_small_circle_violated :
    defaultGeo.intersectionSegmentCircle Real.sqrt ⟨0, 0, 0⟩ ⟨1, 0, 0⟩ ⟨1 / 2, 0, 0⟩ (1 / 2 ^ 26) =
      ok (.tangentIntersection ⟨.insideSegment, 1 / 2⟩) ∧
    pointAt (⟨0, 0, 0⟩ : V3 ℝ) ⟨1, 0, 0⟩ (1 / 2) = ⟨1 / 2, 0, 0⟩ ∧
    1000000 * defaultGeo.tol1D < 1 / 2 ^ 26 := by
  refine ⟨?_, by norm_num [pointAt], by rw [defaultGeo_tol1D]; norm_num⟩
  have e1 : ((⟨1, 0, 0⟩ : V3 ℝ).sub ⟨0, 0, 0⟩).dot ((⟨1, 0, 0⟩ : V3 ℝ).sub ⟨0, 0, 0⟩) = 1 := by
    norm_num [V3.sub, V3.dot]
  have e2 : ((⟨0, 0, 0⟩ : V3 ℝ).sub ⟨1 / 2, 0, 0⟩).dot ((⟨1, 0, 0⟩ : V3 ℝ).sub ⟨0, 0, 0⟩) = -1 / 2 := by
    norm_num [V3.sub, V3.dot]
  have e3 : ((⟨0, 0, 0⟩ : V3 ℝ).sub ⟨1 / 2, 0, 0⟩).dot ((⟨0, 0, 0⟩ : V3 ℝ).sub ⟨1 / 2, 0, 0⟩) = 1 / 4 := by
    norm_num [V3.sub, V3.dot]
  unfold GeoCfg.intersectionSegmentCircle
  simp only
  rw [e1, e2, e3, assert_true ((defaultGeo.positive_sq _).2 (by rw [defaultGeo_tolSq]; norm_num)),
    ok_bind]
  have hd : (2 * (-1 / 2) * (2 * (-1 / 2)) - 4 * 1 * (1 / 4 - 1 / 2 ^ 26 * (1 / 2 ^ 26)) : ℝ) =
      1 / 2 ^ 50 := by norm_num
  have ht : defaultGeo.tolDisc = 10 / 2 ^ 52 := by
    simp only [GeoCfg.tolDisc, GeoCfg.tol1DSquared, defaultGeo, max_self]
    norm_num
  obtain ⟨-, sneg, szero⟩ := c27_sign defaultGeo (1 / 2 ^ 50)
    (defaultGeo.tol1DSquared * defaultGeo.tol1DSquared)
  rw [tolDisc_eq, ht] at sneg szero
  rw [hd, if_neg (fun k => by have := sneg.1 k; norm_num at this),
    if_pos (szero.2 (by rw [abs_of_pos (by norm_num)]; norm_num))]
  have hp : (-(2 * (-1 / 2)) / (2 * 1) : ℝ) = 1 / 2 := by norm_num
  rw [hp, (c29_position defaultGeo (1 / 2) defaultGeo_min_nonneg defaultGeo_lt_half).2.2.1.2
    (by rw [defaultGeo_tol1D]; norm_num), ok_bind]

/-- C67, position of a point and a circle: on the border exactly if the distance and the radius
agree up to the tolerance, otherwise inside or outside according to the exact order. -/
theorem c67_point_circle (sqrt : K → K) (g : GeoCfg K) (h0 : 0 ≤ g.minTolerance) (p c : V3 K)
    (r : K) :
    (g.pointCirclePosition sqrt p c r = .onBorder ↔
      |(p.sub c).norm sqrt - r| ≤ window g.tol1D r ((p.sub c).norm sqrt)) ∧
    (g.pointCirclePosition sqrt p c r = .inside ↔ (p.sub c).norm sqrt < r ∧
      window g.tol1D r ((p.sub c).norm sqrt) < |(p.sub c).norm sqrt - r|) ∧
    (g.pointCirclePosition sqrt p c r = .outside ↔ r < (p.sub c).norm sqrt ∧
      window g.tol1D r ((p.sub c).norm sqrt) < |(p.sub c).norm sqrt - r|) := by
  unfold GeoCfg.pointCirclePosition
  rw [g.compareValues_eq, g.max_tol1D h0]
  generalize (p.sub c).norm sqrt = d
  have hw := window_nonneg (g.tol1D_nonneg h0) r d
  by_cases h : |d - r| ≤ window g.tol1D r d
  · rw [if_pos h]
    simp [h]
  · rw [if_neg h]
    rw [not_le] at h
    have hne : d ≠ r := by
      rintro rfl
      rw [sub_self, abs_zero] at h
      linarith
    by_cases hdr : d < r
    · rw [if_pos hdr]
      simp [hdr, h, hdr.le]
    · rw [if_neg hdr]
      have : r < d := lt_of_le_of_ne (not_lt.1 hdr) hne.symm
      simp [hdr, h, this]

end Verif
