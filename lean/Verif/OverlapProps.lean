import Verif.OverlapLemmas
import Verif.IntersectProps

/-
Properties of the intersection of triangles.
-/
namespace Verif

variable {K : Type} [Field K] [LinearOrder K] [IsStrictOrderedRing K]

/-! ### C77: the intersection of triangles -/

/-- Full statement: the answer is whether the triangles have a common point or, without the boundary, a common
inner point. `_partial`: both triangles must run counter clockwise, see `c77_clockwise_violated`, and the answer
is up to the tolerance. If the boundary is admitted and the answer is false, the triangles have no common
point. -/
theorem c77_disjoint_partial (g : GeoCfg K) (h0 : 0 ≤ g.minTolerance) {s t : Tri K} (hs : 0 < s.area)
    (ht : 0 < t.area) (h : g.checkTrianglesIntersection s t true = false) (q : K × K) :
    ¬ (InTri s q ∧ InTri t q) := by
  have hn : ∀ s t : Tri K, 0 < s.area → g.edgeSeparates true s t = true → ∀ q, ¬ (InTri s q ∧ InTri t q) := by
    rintro s t hs h q ⟨h1, u, v, w, hu, hv, hw, e, rfl⟩
    obtain ⟨i, hi⟩ := (separates_iff g h0 s t).1.1 h
    have h2 := (inTri_iff hs _).1 h1 i
    rw [left_bary s t i e] at h2
    have hT := g.tol1D_nonneg h0
    have hneg : ∀ j, s.left i (t j).xy < 0 := fun j => by linarith [hi j]
    have a1 := mul_nonpos_of_nonneg_of_nonpos hu (hneg 0).le
    have a2 := mul_nonpos_of_nonneg_of_nonpos hv (hneg 1).le
    have a3 := mul_nonpos_of_nonneg_of_nonpos hw (hneg 2).le
    have z1 : u * s.left i (t 0).xy = 0 := by linarith
    have z2 : v * s.left i (t 1).xy = 0 := by linarith
    have z3 : w * s.left i (t 2).xy = 0 := by linarith
    have y1 := (mul_eq_zero.1 z1).resolve_right (hneg 0).ne
    have y2 := (mul_eq_zero.1 z2).resolve_right (hneg 1).ne
    have y3 := (mul_eq_zero.1 z3).resolve_right (hneg 2).ne
    rw [y1, y2, y3] at e
    norm_num at e
  rintro ⟨h1, h2⟩
  have hc := (check_iff g s t true).not.1 (by rw [h]; simp)
  rw [not_and_or, Bool.not_eq_false, Bool.not_eq_false] at hc
  rcases hc with hc | hc
  · exact hn s t hs hc q ⟨h1, h2⟩
  · exact hn t s ht hc q ⟨h2, h1⟩

/-- If the boundary is admitted and the answer is true, there is a point that is in both triangles up to the
tolerance. -/
theorem c77_touch_partial (g : GeoCfg K) (h0 : 0 ≤ g.minTolerance) {s t : Tri K} (hs : 0 < s.area)
    (ht : 0 < t.area) (h : g.checkTrianglesIntersection s t true = true) :
    ∃ q : K × K, (∀ i, -g.tol1D ≤ s.left i q) ∧ ∀ i, -g.tol1D ≤ t.left i q := by
  obtain ⟨h1, h2⟩ := (check_iff g s t true).1 h
  have hT := g.tol1D_nonneg h0
  have hv : ∀ s t : Tri K, 0 < t.area → g.edgeSeparates true s t = false → ∀ i,
      ∃ q, (∀ k, -g.tol1D ≤ t.left k q) ∧ -g.tol1D ≤ s.left i q := by
    intro s t ht h i
    have := (separates_iff g h0 s t).1.not.1 (by rw [h]; simp)
    push Not at this
    obtain ⟨j, hj⟩ := this i
    refine ⟨(t j).xy, fun k => ?_, hj⟩
    have := left_vertex_nonneg ht.le k j
    linarith
  obtain ⟨q, hq⟩ := two_families (fun b i => {q | -g.tol1D ≤ (if b then s else t).left i q})
    (fun b i => convex_ge _ i _) (by
      intro b j
      cases b
      · exact hv s t ht h1 j
      · exact hv t s hs h2 j)
  exact ⟨q, hq true, hq false⟩

/-- Without the boundary: if the answer is true, the triangles have a common inner point; if it is false, no point
is inside both by more than the tolerance. -/
theorem c77_interior_partial (g : GeoCfg K) (h0 : 0 ≤ g.minTolerance) {s t : Tri K} (hs : 0 < s.area)
    (ht : 0 < t.area) :
    (g.checkTrianglesIntersection s t false = true → ∃ q, InsideTri s q ∧ InsideTri t q) ∧
      (g.checkTrianglesIntersection s t false = false →
        ¬ ∃ q, (∀ i, g.tol1D < s.left i q) ∧ ∀ i, g.tol1D < t.left i q) := by
  have hT := g.tol1D_nonneg h0
  constructor
  · intro h
    obtain ⟨h1, h2⟩ := (check_iff g s t false).1 h
    have hv : ∀ s t : Tri K, 0 < t.area → g.edgeSeparates false s t = false → ∀ i,
        ∃ q, (∀ k, 0 < t.left k q) ∧ 0 < s.left i q := by
      intro s t ht h i
      have := (separates_iff g h0 s t).2.not.1 (by rw [h]; simp)
      push Not at this
      obtain ⟨j, hj⟩ := this i
      exact near_vertex ht i j (by linarith)
    obtain ⟨q, hq⟩ := two_families (fun b i => {q | 0 < (if b then s else t).left i q})
      (fun b i => convex_gt _ i _) (by
        intro b j
        cases b
        · exact hv s t ht h1 j
        · exact hv t s hs h2 j)
    exact ⟨q, (insideTri_iff hs q).2 (hq true), (insideTri_iff ht q).2 (hq false)⟩
  · rintro h ⟨q, h1, h2⟩
    have hn : ∀ s t : Tri K, 0 < t.area → g.edgeSeparates false s t = true → (∀ i, g.tol1D < s.left i q) →
        (∀ i, g.tol1D < t.left i q) → False := by
      intro s t ht h h1 h2
      obtain ⟨i, hi⟩ := (separates_iff g h0 s t).2.1 h
      obtain ⟨u, v, w, hu, hv, hw, e, hq⟩ := (inTri_iff ht q).2 fun k => le_trans hT (h2 k).le
      have h3 := h1 i
      rw [hq, left_bary s t i e] at h3
      have a1 := mul_le_mul_of_nonneg_left (hi 0) hu
      have a2 := mul_le_mul_of_nonneg_left (hi 1) hv
      have a3 := mul_le_mul_of_nonneg_left (hi 2) hw
      have a4 : u * g.tol1D + v * g.tol1D + w * g.tol1D = g.tol1D := by
        rw [← add_mul, ← add_mul, e, one_mul]
      linarith
    have hc := (check_iff g s t false).not.1 (by rw [h]; simp)
    rw [not_and_or, Bool.not_eq_false, Bool.not_eq_false] at hc
    rcases hc with hc | hc
    · exact hn s t ht hc h1 h2
    · exact hn t s hs hc h2 h1

/-- With the tolerance zero the answer is exact. -/
theorem c77_exact_partial (g : GeoCfg K) (h0 : 0 ≤ g.minTolerance) (hz : g.tol1D = 0) {s t : Tri K}
    (hs : 0 < s.area) (ht : 0 < t.area) :
    (g.checkTrianglesIntersection s t true = true ↔ ∃ q, InTri s q ∧ InTri t q) ∧
      (g.checkTrianglesIntersection s t false = true ↔ ∃ q, InsideTri s q ∧ InsideTri t q) := by
  constructor
  · constructor
    · intro h
      obtain ⟨q, h1, h2⟩ := c77_touch_partial g h0 hs ht h
      rw [hz, neg_zero] at h1 h2
      exact ⟨q, (inTri_iff hs q).2 h1, (inTri_iff ht q).2 h2⟩
    · rintro ⟨q, hq⟩
      by_contra hf
      exact c77_disjoint_partial g h0 hs ht (Bool.not_eq_true _ ▸ hf) q hq
  · constructor
    · exact (c77_interior_partial g h0 hs ht).1
    · rintro ⟨q, h1, h2⟩
      by_contra hf
      refine (c77_interior_partial g h0 hs ht).2 (Bool.not_eq_true _ ▸ hf) ⟨q, ?_⟩
      rw [hz]
      exact ⟨(insideTri_iff hs q).1 h1, (insideTri_iff ht q).1 h2⟩

/-! ### Examples -/

/-- The default tolerances. -/
def overlapGeo : GeoCfg ℚ := ⟨10 / 2 ^ 52, 10 / 2 ^ 52⟩

def triBig : Tri ℚ := ![⟨0, 0, 0⟩, ⟨3, 0, 0⟩, ⟨0, 3, 0⟩]
def triSmall : Tri ℚ := ![⟨1 / 2, 1 / 2, 0⟩, ⟨1, 1 / 2, 0⟩, ⟨1 / 2, 1, 0⟩]
def triAway : Tri ℚ := ![⟨2, 2, 0⟩, ⟨3, 2, 0⟩, ⟨2, 3, 0⟩]
def triCorner : Tri ℚ := ![⟨3, 0, 0⟩, ⟨4, 0, 0⟩, ⟨4, 1, 0⟩]
def triClockwise : Tri ℚ := ![⟨0, 0, 0⟩, ⟨0, 3, 0⟩, ⟨3, 0, 0⟩]

/-- A triangle that runs clockwise and contains another triangle is said not to meet it, with and without the
boundary. -/
theorem c77_clockwise_violated :
    ∃ s t : Tri ℚ, (∃ q, InsideTri s q ∧ InsideTri t q) ∧
      ∀ b, overlapGeo.checkTrianglesIntersection s t b = false := by
  refine ⟨triClockwise, triSmall, ⟨(2 / 3, 2 / 3),
    ⟨5 / 9, 2 / 9, 2 / 9, by norm_num, by norm_num, by norm_num, by norm_num, ?_⟩,
    ⟨1 / 3, 1 / 3, 1 / 3, by norm_num, by norm_num, by norm_num, by norm_num, ?_⟩⟩, by decide +kernel⟩
  · decide +kernel
  · decide +kernel

example : 0 ≤ overlapGeo.minTolerance ∧ 0 < triBig.area ∧ 0 < triSmall.area ∧ 0 < triAway.area ∧
    0 < triCorner.area := by decide +kernel

example : overlapGeo.checkTrianglesIntersection triBig triSmall false = true ∧
    overlapGeo.checkTrianglesIntersection triBig triAway true = false ∧
    overlapGeo.checkTrianglesIntersection triBig triCorner true = true ∧
    overlapGeo.checkTrianglesIntersection triBig triCorner false = false := by decide +kernel

example : (⟨0, 0⟩ : GeoCfg ℚ).tol1D = 0 := by decide +kernel

end Verif
