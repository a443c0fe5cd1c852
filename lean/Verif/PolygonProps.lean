import Verif.PolygonLemmas
import Mathlib.Algebra.Field.Rat
import Mathlib.Analysis.Real.Sqrt

/-
Properties of polygons: area, normal, area in space, centroid (C32, C33, C50, C51).
-/
namespace Verif

open Res

variable {K : Type} [Field K] [LinearOrder K] [IsStrictOrderedRing K]

/-- A configuration used in the examples. -/
def exampleGeo : GeoCfg ℚ := ⟨1 / 1000000, 1 / 1000⟩

/-! ### C32 -/

/-- C32: the area does not depend on the vertex the polygon starts with; the outcome is the same
also for inputs that are refused. -/
theorem c32_start (g : GeoCfg K) (vs : List (V3 K)) (k : Nat) :
    g.polygonArea (vs.rotate k) = g.polygonArea vs := by
  by_cases h : 2 < vs.length ∧ g.Flat vs
  · rw [g.polygonArea_eq _ (by simpa using h.1)
      (fun p hp => h.2 p (List.mem_rotate.1 hp)), g.polygonArea_eq _ h.1 h.2, closedSum_rotate]
  · rw [g.polygonArea_abort vs h, g.polygonArea_abort]
    rintro ⟨h1, h2⟩
    exact h ⟨by simpa using h1, fun p hp => h2 p (List.mem_rotate.2 hp)⟩

example : exampleGeo.polygonArea (([⟨0, 0, 0⟩, ⟨4, 0, 0⟩, ⟨4, 3, 0⟩, ⟨1, 1, 0⟩] : List (V3 ℚ)).rotate 2)
    = ok (13 / 2) := by
  rw [c32_start]; decide +kernel

/-- C32: the area does not depend on the position in the plane. -/
theorem c32_translate (g : GeoCfg K) (vs : List (V3 K)) (d : V3 K) (hd : d.z = 0) :
    g.polygonArea (vs.map d.shift) = g.polygonArea vs := by
  by_cases h : 2 < vs.length ∧ g.Flat vs
  · rw [g.polygonArea_eq _ (by simpa using h.1) (by
      intro p hp
      simp only [List.mem_map] at hp
      obtain ⟨q, hq, rfl⟩ := hp
      simpa [V3.shift, hd] using h.2 q hq), g.polygonArea_eq _ h.1 h.2, closedSum_map]
    congr 2
    apply closedSum_congr_exact _ _ (fun p => d.x * p.y - d.y * p.x)
    intro a b
    simp only [crossZ, V3.shift]; ring
  · rw [g.polygonArea_abort vs h, g.polygonArea_abort]
    rintro ⟨h1, h2⟩
    refine h ⟨by simpa using h1, fun p hp => ?_⟩
    have := h2 (d.shift p) (List.mem_map_of_mem hp)
    simpa [V3.shift, hd] using this

example : exampleGeo.polygonArea (([⟨0, 0, 0⟩, ⟨4, 0, 0⟩, ⟨4, 3, 0⟩, ⟨1, 1, 0⟩] : List (V3 ℚ)).map
    (V3.shift ⟨10, -7, 0⟩)) = ok (13 / 2) := by
  rw [c32_translate _ _ _ rfl]; decide +kernel

/-- C32: the vertices taken in the order of `ChangePolygonOrientation` give the opposite area. -/
theorem c32_orientation (g : GeoCfg K) (vs : List (V3 K)) (h0 : vs ≠ []) :
    (do let l ← changePolygonOrientation vs.length
        let ws ← extractPoints vs l
        g.polygonArea ws) = (do let a ← g.polygonArea vs; ok (-a)) := by
  match vs, h0 with
  | v :: t, _ =>
    have e := extractPoints_reversed v t
    have : (do let l ← changePolygonOrientation (v :: t).length
               let ws ← extractPoints (v :: t) l
               g.polygonArea ws) =
        (do let ws ← (do let l ← changePolygonOrientation (v :: t).length
                         extractPoints (v :: t) l)
            g.polygonArea ws) := by
      cases changePolygonOrientation (v :: t).length <;> rfl
    rw [this, e, ok_bind]
    by_cases h : 2 < (v :: t).length ∧ g.Flat (v :: t)
    · rw [g.polygonArea_eq _ (by simpa using h.1) (by
        intro p hp
        apply h.2 p
        simpa using hp), g.polygonArea_eq _ h.1 h.2, ok_bind, closedSum_reverse_anti]
      · congr 1; ring
      · intro a b; simp only [crossZ]; ring
    · rw [g.polygonArea_abort _ h, g.polygonArea_abort]
      · rfl
      · rintro ⟨h1, h2⟩
        refine h ⟨by simpa using h1, fun p hp => h2 p ?_⟩
        simpa using hp

example : ∃ l ws, changePolygonOrientation 4 = ok l ∧
    extractPoints ([⟨0, 0, 0⟩, ⟨4, 0, 0⟩, ⟨4, 3, 0⟩, ⟨1, 1, 0⟩] : List (V3 ℚ)) l = ok ws ∧
    exampleGeo.polygonArea ws = ok (-13 / 2) :=
  ⟨[0, 3, 2, 1], [⟨0, 0, 0⟩, ⟨1, 1, 0⟩, ⟨4, 3, 0⟩, ⟨4, 0, 0⟩], by decide, by decide +kernel,
    by decide +kernel⟩

/-- C32: the triangles that join any point with the edges, as built by
`PolygonTriangulationByInternalPoint` and `ExtractTriangulationPointsByInternalPoint`, have signed
areas that add up to the area of the polygon. -/
theorem c32_internal_point (g : GeoCfg K) (vs : List (V3 K)) (c : V3 K) (h2 : 2 < vs.length)
    (hf : ∀ p ∈ vs, |p.z| ≤ g.tolerance1D) :
    ∃ l ts, triangulationByInternalPoint vs = ok l ∧
      extractTriangulationPointsByInternalPoint vs c l = ok ts ∧ ts.length = vs.length ∧
      g.polygonArea vs = ok (triangleAreas ts) := by
  refine ⟨_, _, triangulationByInternalPoint_eq vs h2, wheel_points vs c, by simp [cycPairs], ?_⟩
  rw [g.polygonArea_eq vs h2 hf, ← closedSum_area2 c, closedSum, triangleAreas, List.map_map,
    ← List.sum_map_mul_left]
  congr 3
  funext p
  simp only [Function.comp]; ring

example : ∃ l ts, triangulationByInternalPoint
      ([⟨0, 0, 0⟩, ⟨4, 0, 0⟩, ⟨4, 3, 0⟩, ⟨1, 1, 0⟩] : List (V3 ℚ)) = ok l ∧
    extractTriangulationPointsByInternalPoint
      ([⟨0, 0, 0⟩, ⟨4, 0, 0⟩, ⟨4, 3, 0⟩, ⟨1, 1, 0⟩] : List (V3 ℚ)) ⟨7, 7, 0⟩ l = ok ts ∧
    ts.length = 4 ∧ triangleAreas ts = 13 / 2 := by
  obtain ⟨l, ts, h1, h2, h3, h4⟩ := c32_internal_point exampleGeo
    [⟨0, 0, 0⟩, ⟨4, 0, 0⟩, ⟨4, 3, 0⟩, ⟨1, 1, 0⟩] ⟨7, 7, 0⟩ (by decide) (by decide +kernel)
  refine ⟨l, ts, h1, h2, h3, ?_⟩
  have h : exampleGeo.polygonArea
    ([⟨0, 0, 0⟩, ⟨4, 0, 0⟩, ⟨4, 3, 0⟩, ⟨1, 1, 0⟩] : List (V3 ℚ)) = ok (13 / 2) := by decide +kernel
  rw [h] at h4
  injection h4 with h5
  exact h5.symm

/-- C32, the part on `PolygonTriangulationByFirstVertex`: the triangles it returns start at the
first vertex, and their signed areas add up to the area of the polygon except for the triangles it
leaves out as aligned; each of those has twice an area of at most the tolerance times the lengths
of its two sides at the first vertex. The full claim would have no error term; see
`c32_fan_violated`. -/
theorem c32_fan_partial {sqrt : K → K} (hs : IsSqrt sqrt) (g : GeoCfg K) (v : V3 K)
    (t : List (V3 K)) (h2 : 2 ≤ t.length) (hf : ∀ p ∈ v :: t, |p.z| ≤ g.tolerance1D) :
    ∃ l ts A, g.triangulationByFirstVertex sqrt (v :: t) = ok l ∧
      extractTriangulationPoints (v :: t) l = ok ts ∧ g.polygonArea (v :: t) = ok A ∧
      (∀ tr ∈ ts, tr.1 = v ∧ (tr.2.1, tr.2.2) ∈ t.zip t.tail) ∧
      |A - triangleAreas ts| ≤ max |g.tol1D| g.minTolerance / 2 *
        ((t.zip t.tail).map fun e => (e.1.sub v).norm sqrt * (e.2.sub v).norm sqrt).sum := by
  have h3 : 2 < (v :: t).length := by simp; omega
  refine ⟨_, _, _, g.triangulationByFirstVertex_eq sqrt _ h3, fan_points g sqrt _ h3,
    g.polygonArea_eq _ h3 hf, ?_, ?_⟩
  · intro tr htr
    simp only [GeoCfg.fanKept, List.map_map, List.mem_map, List.mem_filter, List.mem_range,
      Function.comp, List.length_cons] at htr
    obtain ⟨i, ⟨hi, _⟩, rfl⟩ := htr
    refine ⟨by simp [corners], ?_⟩
    have a1 : i < t.length := by omega
    have a2 : i + 1 < t.length := by omega
    have hz : i < (t.zip t.tail).length := by simp; omega
    have := List.getElem_mem hz
    simpa [corners, a1, a2] using this
  · rw [← fan_all _ h3]
    have e1 : triangleAreas (((g.fanKept sqrt (v :: t) (List.range ((v :: t).length - 2)))).map
        (corners (v :: t))) = 1 / 2 * (((List.range ((v :: t).length - 2)).filter
          (fun i => !g.fanSkips sqrt (v :: t) i)).map fun i =>
            area2 ((v :: t).getD 0 V3.zero) ((v :: t).getD (i + 1) V3.zero)
              ((v :: t).getD (i + 2) V3.zero)).sum := by
      rw [triangleAreas, GeoCfg.fanKept, List.map_map, List.map_map, ← List.sum_map_mul_left]
      congr 2
      funext i
      simp only [Function.comp, corners]; ring
    have e2 : (t.zip t.tail).map (fun e => max |g.tol1D| g.minTolerance *
          ((e.1.sub v).norm sqrt * (e.2.sub v).norm sqrt)) =
        (List.range ((v :: t).length - 2)).map fun i => max |g.tol1D| g.minTolerance *
          ((((v :: t).getD (i + 1) V3.zero).sub v).norm sqrt *
           (((v :: t).getD (i + 2) V3.zero).sub v).norm sqrt) := by
      apply List.ext_getElem
      · simp
      · intro i h1 h2
        simp only [List.length_map, List.length_zip, List.length_tail] at h1
        have a1 : i < t.length := by omega
        have a2 : i + 1 < t.length := by omega
        simp [a1, a2]
    have hT : 0 ≤ max |g.tol1D| g.minTolerance := le_max_of_le_left (abs_nonneg _)
    have hb := sum_filter_bound (fun i => !g.fanSkips sqrt (v :: t) i)
      (fun i => area2 ((v :: t).getD 0 V3.zero) ((v :: t).getD (i + 1) V3.zero)
              ((v :: t).getD (i + 2) V3.zero))
      (fun i => max |g.tol1D| g.minTolerance *
          ((((v :: t).getD (i + 1) V3.zero).sub v).norm sqrt *
           (((v :: t).getD (i + 2) V3.zero).sub v).norm sqrt))
      (List.range ((v :: t).length - 2))
      (fun i _ => mul_nonneg hT (mul_nonneg (norm_nonneg' hs _) (norm_nonneg' hs _)))
      (by
        intro i hi hsk
        rw [List.mem_range] at hi
        simp only [List.length_cons] at hi
        have a1 : i < t.length := by omega
        have a2 : i + 1 < t.length := by omega
        have a3 : (v :: t)[i + 1]? = some t[i] := by simp [a1]
        have a4 : (v :: t)[i + 2]? = some t[i + 1] := by simp [a2]
        simp only [Bool.not_eq_false', GeoCfg.fanSkips, a3, a4, List.getElem?_cons_zero] at hsk
        have := g.aligned_area hs _ _ _ hsk
        simpa [a1, a2] using this)
    rw [e1, ← mul_sub, abs_mul, abs_of_pos (by norm_num : (0 : K) < 1 / 2)]
    rw [← e2] at hb
    have e3 : max |g.tol1D| g.minTolerance / 2 *
        ((t.zip t.tail).map fun e => (e.1.sub v).norm sqrt * (e.2.sub v).norm sqrt).sum =
        1 / 2 * ((t.zip t.tail).map fun e => max |g.tol1D| g.minTolerance *
          ((e.1.sub v).norm sqrt * (e.2.sub v).norm sqrt)).sum := by
      rw [List.sum_map_mul_left]; ring
    rw [e3]
    exact mul_le_mul_of_nonneg_left hb (by norm_num)

/-- Without tolerance the fan has exactly the area of the polygon. -/
example (v a b c : V3 ℝ) (hv : v.z = 0) (ha : a.z = 0) (hb : b.z = 0) (hc : c.z = 0) :
    ∃ l ts A, (⟨0, 0⟩ : GeoCfg ℝ).triangulationByFirstVertex Real.sqrt [v, a, b, c] = ok l ∧
      extractTriangulationPoints [v, a, b, c] l = ok ts ∧
      (⟨0, 0⟩ : GeoCfg ℝ).polygonArea [v, a, b, c] = ok A ∧ A = triangleAreas ts := by
  obtain ⟨l, ts, A, h1, h2, h3, -, h4⟩ := c32_fan_partial (sqrt := Real.sqrt)
    (fun a ha => ⟨Real.sqrt_nonneg a, Real.mul_self_sqrt ha⟩) ⟨0, 0⟩ v [a, b, c] (by simp)
    (by simp [hv, ha, hb, hc])
  refine ⟨l, ts, A, h1, h2, h3, ?_⟩
  have : max |(⟨0, 0⟩ : GeoCfg ℝ).tol1D| 0 = 0 := by simp [GeoCfg.tol1D]
  simp only [this, zero_div, zero_mul] at h4
  have := abs_nonpos_iff.1 h4
  linarith

/-- C32 fails for `PolygonTriangulationByFirstVertex`: whatever the (positive) tolerance, there are
counter-clockwise triangles of arbitrarily large area for which no triangle is returned, because
alignment is judged by the angle alone. -/
theorem c32_fan_violated {sqrt : K → K} (hs : IsSqrt sqrt) (g : GeoCfg K)
    (hm : 0 < g.minTolerance) (h1 : 0 ≤ g.tolerance1D) (B : K) :
    ∃ vs A, vs.length = 3 ∧ g.polygonArea vs = ok A ∧ B < A ∧
      g.triangulationByFirstVertex sqrt vs = ok [] := by
  set τ := g.minTolerance with hτ
  set R : K := (|B| + 1) * (1 + 1 / τ) * 2 with hR
  have hτi : 0 < 1 / τ := one_div_pos.2 hm
  have hB := abs_nonneg B
  have hR1 : 2 ≤ R := by rw [hR]; nlinarith
  have hRpos : 0 < R := by linarith
  have hRτ : 2 * (|B| + 1) ≤ R * τ := by
    have : R * τ = (|B| + 1) * (τ + 1) * 2 := by rw [hR]; field_simp
    rw [this]; nlinarith
  have hfl : g.Flat [⟨0, 0, 0⟩, ⟨R, 0, 0⟩, ⟨R, R * τ, 0⟩] := by
    intro p hp
    simp only [List.mem_cons, List.not_mem_nil, or_false] at hp
    rcases hp with rfl | rfl | rfl <;> simpa using h1
  refine ⟨[⟨0, 0, 0⟩, ⟨R, 0, 0⟩, ⟨R, R * τ, 0⟩], _, rfl, g.polygonArea_eq _ (by simp) hfl, ?_, ?_⟩
  · have : closedSum crossZ [(⟨0, 0, 0⟩ : V3 K), ⟨R, 0, 0⟩, ⟨R, R * τ, 0⟩] = R * (R * τ) := by
      simp [closedSum, cycPairs, crossZ]
    rw [this]
    have := le_abs_self B
    nlinarith
  · rw [g.triangulationByFirstVertex_eq sqrt _ (by simp)]
    have hal : g.pointIsAligned sqrt ⟨0, 0, 0⟩ ⟨R, 0, 0⟩ ⟨R, R * τ, 0⟩ = true := by
      rw [GeoCfg.pointIsAligned, GeoCfg.isValueZero_iff]
      refine le_trans ?_ (le_max_right _ _)
      have hb : V3.sub (⟨R, 0, 0⟩ : V3 K) ⟨0, 0, 0⟩ = V3.smul R ⟨1, 0, 0⟩ := by
        ext <;> simp [V3.sub, V3.smul]
      have hc : V3.sub (⟨R, R * τ, 0⟩ : V3 K) ⟨0, 0, 0⟩ = ⟨R, R * τ, 0⟩ := by
        ext <;> simp [V3.sub]
      rw [hb, hc, normalized_smul hs _ (by simp [V3.dot]) R hRpos]
      set w : V3 K := ⟨R, R * τ, 0⟩ with hw
      have hdot : w.dot w = R * R + R * τ * (R * τ) := by simp [V3.dot, hw]
      have hd : 0 < w.dot w := by
        rw [hdot]; nlinarith [mul_pos hRpos hRpos, mul_self_nonneg (R * τ)]
      obtain ⟨s0, s1⟩ := hs (w.dot w) hd.le
      have hsR : R ≤ sqrt (w.dot w) := by
        apply le_of_sq_le_sq _ s0
        rw [pow_two, pow_two, s1, hdot]
        nlinarith [mul_self_nonneg (R * τ)]
      have hspos : 0 < sqrt (w.dot w) := lt_of_lt_of_le hRpos hsR
      rw [V3.normalized, if_pos hd]
      have hcross : V3.cross (⟨1, 0, 0⟩ : V3 K) (V3.smul (1 / sqrt (w.dot w)) w) =
          ⟨0, 0, 1 / sqrt (w.dot w) * (R * τ)⟩ := by
        simp [V3.cross, V3.smul, hw]
      rw [hcross]
      have hn : V3.norm sqrt (⟨0, 0, 1 / sqrt (w.dot w) * (R * τ)⟩ : V3 K) =
          |1 / sqrt (w.dot w) * (R * τ)| := by
        rw [V3.norm, ← sqrt_sq_abs hs]; simp [V3.dot]
      rw [hn, abs_abs, abs_of_nonneg (by positivity)]
      rw [div_mul_eq_mul_div, one_mul, div_le_iff₀ hspos]
      nlinarith
    have : g.fanKept sqrt [(⟨0, 0, 0⟩ : V3 K), ⟨R, 0, 0⟩, ⟨R, R * τ, 0⟩] (List.range (3 - 2)) =
        [] := by
      have hr : List.range (3 - 2) = [0] := rfl
      simp [GeoCfg.fanKept, hr, GeoCfg.fanSkips, hal]
    change ok (flat3 (g.fanKept sqrt _ (List.range (3 - 2)))) = _
    rw [this]; rfl

example : ∃ vs A, vs.length = 3 ∧ (⟨1 / 1000, 1 / 1000⟩ : GeoCfg ℝ).polygonArea vs = ok A ∧
    1000000 < A ∧
    (⟨1 / 1000, 1 / 1000⟩ : GeoCfg ℝ).triangulationByFirstVertex Real.sqrt vs = ok [] :=
  c32_fan_violated (fun a ha => ⟨Real.sqrt_nonneg a, Real.mul_self_sqrt ha⟩) _ (by norm_num)
    (by norm_num) _

/-! ### C50 -/

/-- C50: the area in space does not depend on the first vertex. -/
theorem c50_start (sqrt : K → K) (vs : List (V3 K)) (k : Nat) :
    polygonArea3D sqrt (vs.rotate k) = polygonArea3D sqrt vs := by
  by_cases h : 2 < vs.length
  · rw [polygonArea3D_eq _ _ (by simpa using h), polygonArea3D_eq _ _ h, areaVector_rotate]
  · rw [polygonArea3D_abort _ _ (by simpa using h), polygonArea3D_abort _ _ h]

/-- C50: the area in space does not depend on the position. -/
theorem c50_translate (sqrt : K → K) (vs : List (V3 K)) (d : V3 K) :
    polygonArea3D sqrt (vs.map d.shift) = polygonArea3D sqrt vs := by
  by_cases h : 2 < vs.length
  · rw [polygonArea3D_eq _ _ (by simpa using h), polygonArea3D_eq _ _ h, areaVector_shift]
  · rw [polygonArea3D_abort _ _ (by simpa using h), polygonArea3D_abort _ _ h]

/-- C50: the area in space does not depend on the orientation. -/
theorem c50_orientation (sqrt : K → K) (vs : List (V3 K)) (h0 : vs ≠ []) :
    (do let l ← changePolygonOrientation vs.length
        let ws ← extractPoints vs l
        polygonArea3D sqrt ws) = polygonArea3D sqrt vs := by
  match vs, h0 with
  | v :: t, _ =>
    have e := extractPoints_reversed v t
    have : (do let l ← changePolygonOrientation (v :: t).length
               let ws ← extractPoints (v :: t) l
               polygonArea3D sqrt ws) =
        (do let ws ← (do let l ← changePolygonOrientation (v :: t).length
                         extractPoints (v :: t) l)
            polygonArea3D sqrt ws) := by
      cases changePolygonOrientation (v :: t).length <;> rfl
    rw [this, e, ok_bind]
    by_cases h : 2 < (v :: t).length
    · rw [polygonArea3D_eq _ _ (by simpa using h), polygonArea3D_eq _ _ h, areaVector_reverse,
        norm_neg_one]
    · rw [polygonArea3D_abort _ _ (by simpa using h), polygonArea3D_abort _ _ h]

/-- C50: in the plane `z = 0` the area in space is the absolute value of the signed area. -/
theorem c50_plane {sqrt : K → K} (hs : IsSqrt sqrt) (g : GeoCfg K) (h1 : 0 ≤ g.tolerance1D)
    (vs : List (V3 K)) (hz : ∀ v ∈ vs, v.z = 0) (h2 : 2 < vs.length) :
    ∃ A, g.polygonArea vs = ok A ∧ polygonArea3D sqrt vs = ok |A| := by
  refine ⟨_, g.polygonArea_eq vs h2 (fun p hp => by simpa [hz p hp] using h1), ?_⟩
  rw [polygonArea3D_eq _ _ h2, areaVector_flat vs hz]
  have : V3.norm sqrt (⟨0, 0, closedSum crossZ vs⟩ : V3 K) = |closedSum crossZ vs| := by
    rw [V3.norm, ← sqrt_sq_abs hs]; simp [V3.dot]
  rw [this, abs_mul, abs_of_pos (by norm_num : (0 : K) < 1 / 2)]

/-- C50: a triangle has half the length of the vector product of two sides as area. -/
theorem c50_triangle (sqrt : K → K) (a b c : V3 K) :
    polygonArea3D sqrt [a, b, c] =
      ok (1 / 2 * ((b.sub a).cross (c.sub a)).norm sqrt) := by
  rw [polygonArea3D_eq _ _ (by simp)]
  congr 3
  simp only [areaVector, closedSum, cycPairs, List.rotate_cons_succ, List.rotate_zero,
    List.cons_append, List.nil_append, List.zip_cons_cons, List.zip_nil_right, List.map_cons,
    List.map_nil, List.sum_cons, List.sum_nil, V3.cross, V3.sub]
  ext <;> ring

/-- C50: rigid motions, given by matrices that keep vector products up to the matrix and lengths,
keep the area. -/
theorem c50_rotation (sqrt : K → K) (m : M3 K)
    (hc : ∀ a b, (m.mulVec a).cross (m.mulVec b) = m.mulVec (a.cross b))
    (hn : ∀ a, (m.mulVec a).dot (m.mulVec a) = a.dot a) (vs : List (V3 K)) :
    polygonArea3D sqrt (vs.map m.mulVec) = polygonArea3D sqrt vs := by
  by_cases h : 2 < vs.length
  · rw [polygonArea3D_eq _ _ (by simpa using h), polygonArea3D_eq _ _ h]
    have : areaVector (vs.map m.mulVec) = m.mulVec (areaVector vs) := by
      simp only [areaVector, closedSum_map, hc]
      simp only [M3.mulVec]
      congr 1 <;> simp only [closedSum_add, closedSum_mul]
    rw [this, V3.norm, V3.norm, hn]
  · rw [polygonArea3D_abort _ _ (by simpa using h), polygonArea3D_abort _ _ h]

example : polygonArea3D Real.sqrt [⟨0, 0, 5⟩, ⟨0, 2, 5⟩, ⟨0, 2, 8⟩, ⟨0, 0, 8⟩] = ok 6 := by
  have h := c50_rotation Real.sqrt (⟨0, 0, 1, 1, 0, 0, 0, 1, 0⟩ : M3 ℝ)
    (by intro a b; ext <;> simp [M3.mulVec, V3.cross])
    (by intro a; simp [M3.mulVec, V3.dot]; ring)
    (([⟨0, 0, 0⟩, ⟨2, 0, 0⟩, ⟨2, 3, 0⟩, ⟨0, 3, 0⟩] : List (V3 ℝ)).map (V3.shift ⟨0, 5, 0⟩))
  rw [c50_translate] at h
  obtain ⟨A, h1, h2⟩ := c50_plane (sqrt := Real.sqrt)
    (fun a ha => ⟨Real.sqrt_nonneg a, Real.mul_self_sqrt ha⟩) (⟨0, 0⟩ : GeoCfg ℝ) (le_refl _)
    [⟨0, 0, 0⟩, ⟨2, 0, 0⟩, ⟨2, 3, 0⟩, ⟨0, 3, 0⟩] (by simp) (by simp)
  rw [GeoCfg.polygonArea_eq _ _ (by simp) (by intro p hp; simp at hp; rcases hp with rfl|rfl|rfl|rfl <;> simp)] at h1
  injection h1 with h1
  have hA : A = 6 := by rw [← h1]; simp [closedSum, cycPairs, crossZ]; norm_num
  rw [h2, hA] at h
  simpa [M3.mulVec, V3.shift, show (3 : ℝ) + 5 = 8 by norm_num] using h

/-! ### C51 -/

/-- The centroid computed with the area of `PolygonArea`. -/
def GeoCfg.areaCentroid (g : GeoCfg K) (vs : List (V3 K)) : Res (V3 K) := do
  let a ← g.polygonArea vs
  g.polygonCentroid vs a

/-- C51: the centroid does not depend on the first vertex. -/
theorem c51_start (g : GeoCfg K) (vs : List (V3 K)) (k : Nat) :
    g.areaCentroid (vs.rotate k) = g.areaCentroid vs := by
  simp only [GeoCfg.areaCentroid, c32_start]
  congr 1
  funext a
  by_cases h : 2 < vs.length ∧ g.Flat vs
  · rw [g.polygonCentroid_eq _ _ (by simpa using h.1)
      (fun p hp => h.2 p (List.mem_rotate.1 hp)), g.polygonCentroid_eq _ _ h.1 h.2,
      closedSum_rotate, closedSum_rotate]
  · rw [g.polygonCentroid_abort vs _ h, g.polygonCentroid_abort]
    rintro ⟨h1, h2⟩
    exact h ⟨by simpa using h1, fun p hp => h2 p (List.mem_rotate.2 hp)⟩

/-- C51: for a polygon of nonzero area and any point `c` the centroid is the mean of the centroids
of the triangles joining `c` with the edges, weighted by the signed areas. -/
theorem c51_value (g : GeoCfg K) (vs : List (V3 K)) (c : V3 K) (h2 : 2 < vs.length)
    (hf : ∀ p ∈ vs, |p.z| ≤ g.tolerance1D) :
    ∃ l ts A, triangulationByInternalPoint vs = ok l ∧
      extractTriangulationPointsByInternalPoint vs c l = ok ts ∧ g.polygonArea vs = ok A ∧
      (A ≠ 0 → ∃ G, g.areaCentroid vs = ok G ∧ G.z = 0 ∧
        G.x * A = (ts.map fun t => area2 t.1 t.2.1 t.2.2 / 2 *
          ((t.1.x + t.2.1.x + t.2.2.x) / 3)).sum ∧
        G.y * A = (ts.map fun t => area2 t.1 t.2.1 t.2.2 / 2 *
          ((t.1.y + t.2.1.y + t.2.2.y) / 3)).sum) := by
  refine ⟨_, _, _, triangulationByInternalPoint_eq vs h2, wheel_points vs c,
    g.polygonArea_eq vs h2 hf, ?_⟩
  intro hA
  refine ⟨_, by simp only [GeoCfg.areaCentroid, g.polygonArea_eq vs h2 hf, ok_bind]
                exact g.polygonCentroid_eq vs _ h2 hf, rfl, ?_, ?_⟩
  · have e : closedSum (fun a b => area2 c a b / 2 * ((c.x + a.x + b.x) / 3)) vs =
        closedSum (fun a b => 1 / 6 * momentX a b) vs := by
      apply closedSum_congr_exact _ _ (fun p => (1 / 6) *
        (p.x * p.x * c.y - p.x * p.y * c.x + c.x * c.y * p.x - c.x * c.x * p.y))
      intro a b
      simp only [area2, momentX, crossZ]; ring
    rw [List.map_map]
    change _ = closedSum (fun a b => area2 c a b / 2 * ((c.x + a.x + b.x) / 3)) vs
    rw [e, closedSum_mul]
    have hA' : closedSum crossZ vs ≠ 0 := right_ne_zero_of_mul hA
    field_simp
  · have e : closedSum (fun a b => area2 c a b / 2 * ((c.y + a.y + b.y) / 3)) vs =
        closedSum (fun a b => 1 / 6 * momentY a b) vs := by
      apply closedSum_congr_exact _ _ (fun p => (1 / 6) *
        (p.x * p.y * c.y - p.y * p.y * c.x + c.y * c.y * p.x - c.x * c.y * p.y))
      intro a b
      simp only [area2, momentY, crossZ]; ring
    rw [List.map_map]
    change _ = closedSum (fun a b => area2 c a b / 2 * ((c.y + a.y + b.y) / 3)) vs
    rw [e, closedSum_mul]
    have hA' : closedSum crossZ vs ≠ 0 := right_ne_zero_of_mul hA
    field_simp

/-- C51: the centroid moves with the polygon. -/
theorem c51_translate (g : GeoCfg K) (vs : List (V3 K)) (d : V3 K) (hd : d.z = 0) (A : K)
    (hA : g.polygonArea vs = ok A) (hA0 : A ≠ 0) :
    ∃ G, g.areaCentroid vs = ok G ∧ g.areaCentroid (vs.map d.shift) = ok (d.shift G) := by
  have h : 2 < vs.length ∧ g.Flat vs := by
    by_contra h
    rw [g.polygonArea_abort vs h] at hA
    cases hA
  have hA' := hA
  rw [g.polygonArea_eq vs h.1 h.2] at hA
  injection hA with hA
  refine ⟨_, by simp only [GeoCfg.areaCentroid, hA', ok_bind]
                exact g.polygonCentroid_eq vs _ h.1 h.2, ?_⟩
  simp only [GeoCfg.areaCentroid, c32_translate g vs d hd, hA', ok_bind]
  rw [g.polygonCentroid_eq _ _ (by simpa using h.1) (by
    intro p hp
    simp only [List.mem_map] at hp
    obtain ⟨q, hq, rfl⟩ := hp
    simpa [V3.shift, hd] using h.2 q hq)]
  have ex : closedSum momentX (vs.map d.shift) =
      closedSum momentX vs + 3 * d.x * closedSum crossZ vs := by
    rw [closedSum_map, ← closedSum_mul, ← closedSum_add]
    apply closedSum_congr_exact _ _
      (fun p => d.x * p.x * p.y - d.y * p.x * p.x + 2 * d.x * (d.x * p.y - d.y * p.x))
    intro a b; simp only [momentX, crossZ, V3.shift]; ring
  have ey : closedSum momentY (vs.map d.shift) =
      closedSum momentY vs + 3 * d.y * closedSum crossZ vs := by
    rw [closedSum_map, ← closedSum_mul, ← closedSum_add]
    apply closedSum_congr_exact _ _
      (fun p => d.x * p.y * p.y - d.y * p.x * p.y + 2 * d.y * (d.x * p.y - d.y * p.x))
    intro a b; simp only [momentY, crossZ, V3.shift]; ring
  rw [ex, ey]
  have hS : closedSum crossZ vs = 2 * A := by rw [← hA]; ring
  rw [hS]
  congr 1
  ext
  · simp only [V3.shift]; field_simp; ring
  · simp only [V3.shift]; field_simp; ring
  · simp [V3.shift, hd]

/-- C51: the centroid does not depend on the orientation. -/
theorem c51_orientation (g : GeoCfg K) (v : V3 K) (t : List (V3 K)) :
    (do let l ← changePolygonOrientation (v :: t).length
        let ws ← extractPoints (v :: t) l
        g.areaCentroid ws) = g.areaCentroid (v :: t) := by
  have e := extractPoints_reversed v t
  have : (do let l ← changePolygonOrientation (v :: t).length
             let ws ← extractPoints (v :: t) l
             g.areaCentroid ws) =
      (do let ws ← (do let l ← changePolygonOrientation (v :: t).length
                       extractPoints (v :: t) l)
          g.areaCentroid ws) := by
    cases changePolygonOrientation (v :: t).length <;> rfl
  rw [this, e, ok_bind]
  by_cases h : 2 < (v :: t).length ∧ g.Flat (v :: t)
  · have h' : g.Flat (v :: t.reverse) := by
      intro p hp
      apply h.2 p
      simpa using hp
    have h2 : 2 < (v :: t.reverse).length := by simpa using h.1
    simp only [GeoCfg.areaCentroid, g.polygonArea_eq _ h2 h', ok_bind, g.polygonArea_eq _ h.1 h.2,
      g.polygonCentroid_eq _ _ h2 h', g.polygonCentroid_eq _ _ h.1 h.2]
    rw [closedSum_reverse_anti momentX, closedSum_reverse_anti momentY,
      closedSum_reverse_anti crossZ]
    · congr 2 <;>
      rw [show (6 : K) * (1 / 2 * -closedSum crossZ (v :: t)) =
        -(6 * (1 / 2 * closedSum crossZ (v :: t))) by ring, neg_div_neg_eq]
    · intro a b; simp only [crossZ]; ring
    · intro a b; simp only [momentY, crossZ]; ring
    · intro a b; simp only [momentX, crossZ]; ring
  · have h' : ¬(2 < (v :: t.reverse).length ∧ g.Flat (v :: t.reverse)) := by
      rintro ⟨h1, h2⟩
      refine h ⟨by simpa using h1, fun p hp => h2 p ?_⟩
      simpa using hp
    simp only [GeoCfg.areaCentroid, g.polygonArea_abort _ h, g.polygonArea_abort _ h']
    rfl

example : exampleGeo.areaCentroid [⟨0, 0, 0⟩, ⟨4, 0, 0⟩, ⟨4, 2, 0⟩, ⟨0, 2, 0⟩] = ok ⟨2, 1, 0⟩ := by
  decide +kernel

example : ∃ G, exampleGeo.areaCentroid [⟨0, 0, 0⟩, ⟨4, 0, 0⟩, ⟨4, 3, 0⟩, ⟨1, 1, 0⟩] = ok G ∧
    exampleGeo.areaCentroid
      (([⟨0, 0, 0⟩, ⟨4, 0, 0⟩, ⟨4, 3, 0⟩, ⟨1, 1, 0⟩] : List (V3 ℚ)).map (V3.shift ⟨1, 2, 0⟩)) =
      ok (V3.shift ⟨1, 2, 0⟩ G) :=
  c51_translate exampleGeo _ _ rfl (13 / 2) (by decide +kernel) (by norm_num)

/-! ### C33 -/

/-- C33, convex polygons of at most `2 ^ 32` vertices in any plane: the normal is the unit normal
from which the vertices are seen counter-clockwise. The full claim is for all simple polygons; see
`c33_violated`. -/
theorem c33_convex_partial {sqrt : K → K} (hs : IsSqrt sqrt) (N : V3 K) (vs : List (V3 K))
    (hc : ConvexAbout N vs) : polygonNormal sqrt vs = ok N := by
  obtain ⟨hN, hplane, hconv, i0, p0, q0, r0, hp0, hq0, hr0, hpos⟩ := hc
  have h2 : i0 + 2 < vs.length := (List.getElem?_eq_some_iff.1 hr0).1
  have h3 : 2 < vs.length := by omega
  have hcyc : ∀ p q r : V3 K, turn N q r p = turn N p q r := by
    intro p q r; simp only [turn]; ring
  have hturn : ∀ a b c : V3 K, N.dot ((b.sub a).cross (c.sub a)) = turn N a b c := by
    intro a b c; simp only [turn, V3.dot, V3.cross, V3.sub]
  have hmem : ∀ i, i < vs.length → vs.getD i V3.zero ∈ vs := by
    intro i hi
    have := getElem?_getD vs i V3.zero hi
    exact List.mem_of_getElem? this
  have hcorner : ∀ i, i < vs.length → cornerAt vs i =
      V3.smul (N.dot (cornerAt vs i)) N := by
    intro i hi
    have h0 : (i + 1) % vs.length < vs.length := Nat.mod_lt _ (by omega)
    have h3 : usub i 1 % vs.length < vs.length := Nat.mod_lt _ (by omega)
    apply cross_in_plane
    · simpa [V3.dot] using hN
    · simpa [V3.dot, V3.sub] using hplane _ (hmem i hi) _ (hmem _ h0)
    · simpa [V3.dot, V3.sub] using hplane _ (hmem i hi) _ (hmem _ h3)
  have hval : ∀ i, N.dot (cornerAt vs i) = turn N (vs.getD i V3.zero)
      (vs.getD ((i + 1) % vs.length) V3.zero) (vs.getD (usub i 1 % vs.length) V3.zero) :=
    fun i => hturn _ _ _
  have hget := fun i (hi : i < vs.length) => getElem?_getD vs i V3.zero hi
  have hnn : ∀ i, i < vs.length → 0 ≤ N.dot (cornerAt vs i) := by
    intro i hi
    rw [hval]
    rcases Nat.eq_zero_or_pos i with h | h
    · subst h
      have h1 : (0 + 1) % vs.length = 1 := Nat.mod_eq_of_lt (by omega)
      rw [h1]
      have hp : usub 0 1 % vs.length < vs.length := Nat.mod_lt _ (by omega)
      generalize usub 0 1 % vs.length = p at hp
      rcases (show p = 0 ∨ p = 1 ∨ 1 < p by omega) with h | h | h
      · subst h; apply le_of_eq; simp only [turn]; ring
      · subst h; apply le_of_eq; simp only [turn]; ring
      · exact hconv 0 1 p _ _ _ (by omega) h (hget _ (by omega)) (hget _ (by omega)) (hget _ hp)
    · rw [usub_of_le h, Nat.mod_eq_of_lt (show i - 1 < vs.length by omega)]
      by_cases hl : i + 1 = vs.length
      · rw [hl, Nat.mod_self, ← hcyc]
        rw [← hcyc, ← hcyc, hcyc, hcyc]
        have := hconv 0 (i - 1) i _ _ _ (by omega) (by omega) (hget _ (by omega))
          (hget _ (by omega)) (hget _ hi)
        exact this
      · rw [Nat.mod_eq_of_lt (show i + 1 < vs.length by omega), hcyc]
        exact hconv (i - 1) i (i + 1) _ _ _ (by omega) (by omega) (hget _ (by omega))
          (hget _ hi) (hget _ (by omega))
  have hp : 0 < N.dot (cornerAt vs (i0 + 1)) := by
    rw [hval, usub_of_le (by omega), Nat.mod_eq_of_lt (show i0 + 1 + 1 < vs.length by omega),
      Nat.mod_eq_of_lt (show i0 + 1 - 1 < vs.length by omega), hcyc]
    have e : ∀ k (v : V3 K), vs[k]? = some v → vs.getD k V3.zero = v := by
      intro k v hk; simp [List.getD, hk]
    rw [Nat.add_sub_cancel, e _ _ hp0, e _ _ hq0, e _ _ hr0]
    exact hpos
  have hsum : 0 < ((List.range vs.length).map fun i => N.dot (cornerAt vs i)).sum := by
    have gen : ∀ l : List Nat, (∀ i ∈ l, i < vs.length) →
        0 ≤ (l.map fun i => N.dot (cornerAt vs i)).sum ∧
        (i0 + 1 ∈ l → 0 < (l.map fun i => N.dot (cornerAt vs i)).sum) := by
      intro l
      induction l with
      | nil => simp
      | cons a l ih =>
        intro hl
        obtain ⟨ih1, ih2⟩ := ih fun i hi => hl i (List.mem_cons_of_mem _ hi)
        have ha := hnn a (hl a List.mem_cons_self)
        rw [List.map_cons, List.sum_cons]
        refine ⟨by linarith, fun hi => ?_⟩
        rcases List.mem_cons.1 hi with h | h
        · rw [h] at hp; linarith
        · have := ih2 h; linarith
    exact (gen _ fun i hi => by simpa using hi).2 (by simp; omega)
  rw [polygonNormal_eq _ _ h3]
  have hmap : ∀ f : V3 K → K, (∀ k, f (V3.smul k N) = k * f N) →
      ((List.range vs.length).map fun i => f (cornerAt vs i)).sum =
        ((List.range vs.length).map fun i => N.dot (cornerAt vs i)).sum * f N := by
    intro f hf
    rw [← List.sum_map_mul_right]
    congr 1
    apply List.map_congr_left
    intro i hi
    rw [List.mem_range] at hi
    conv_lhs => rw [hcorner i hi, hf]
  rw [hmap V3.x fun _ => rfl, hmap V3.y fun _ => rfl, hmap V3.z fun _ => rfl]
  have := normalized_smul hs N (by simpa [V3.dot] using hN) _ hsum
  rw [V3.smul] at this
  rw [this]

/-- A convex pentagon. -/
example : polygonNormal Real.sqrt [⟨0, 0, 0⟩, ⟨2, 0, 0⟩, ⟨3, 1, 0⟩, ⟨2, 2, 0⟩, ⟨0, 2, 0⟩] =
    ok ⟨0, 0, 1⟩ := by
  apply c33_convex_partial fun a ha => ⟨Real.sqrt_nonneg a, Real.mul_self_sqrt ha⟩
  refine ⟨by norm_num, by simp, ?_, 0, ⟨0, 0, 0⟩, ⟨2, 0, 0⟩, ⟨3, 1, 0⟩, rfl, rfl, rfl, by norm_num [turn]⟩
  intro i j k p q r hij hjk hp hq hr
  have hk : k < 5 := (List.getElem?_eq_some_iff.1 hr).1
  rcases (show k = 2 ∨ k = 3 ∨ k = 4 by omega) with rfl | rfl | rfl <;>
  rcases (show j = 1 ∨ j = 2 ∨ j = 3 by omega) with rfl | rfl | rfl <;>
  rcases (show i = 0 ∨ i = 1 ∨ i = 2 by omega) with rfl | rfl | rfl <;>
  first
  | omega
  | (injection hp with hp; injection hq with hq; injection hr with hr
     subst hp; subst hq; subst hr
     norm_num [turn])

/-- C33 fails: there are simple polygons, counter-clockwise by `PolygonArea`, whose normal points
to `-z`. The one with five vertices is affected by the wrapped index, the one with eight (which
divides `2 ^ 32`) is not: the sum of the corner products is not the area. -/
theorem c33_violated {sqrt : K → K} (hs : IsSqrt sqrt) (g : GeoCfg K) (h1 : 0 ≤ g.tolerance1D)
    (n : Nat) (hn : n = 5 ∨ n = 8) :
    ∃ vs A N, vs.length = n ∧ SimplePolygon vs ∧ g.polygonArea vs = ok A ∧ 0 < A ∧
      polygonNormal sqrt vs = ok N ∧ N.z < 0 := by
  have hfl : ∀ pts : List (Int × Int), g.Flat (pts.map (ofInts : _ → V3 K)) := by
    intro pts p hp
    simp only [List.mem_map] at hp
    obtain ⟨q, _, rfl⟩ := hp
    simpa [ofInts] using h1
  have hneg : ∀ w : V3 K, w.z < 0 → (w.normalized sqrt).z < 0 := by
    intro w hw
    have hd : 0 < w.dot w := by
      simp only [V3.dot]
      nlinarith [mul_self_nonneg w.x, mul_self_nonneg w.y, mul_pos (neg_pos.2 hw) (neg_pos.2 hw)]
    obtain ⟨s0, s1⟩ := hs _ hd.le
    have : 0 < sqrt (w.dot w) := lt_of_le_of_ne s0 (fun h => by rw [← h] at s1; linarith)
    rw [V3.normalized, if_pos hd]
    exact mul_neg_of_pos_of_neg (one_div_pos.2 this) hw
  rcases hn with rfl | rfl
  · refine ⟨([(0, 0), (3, 1), (2, 1), (1, 3), (1, 2)] : List (Int × Int)).map ofInts, _, _, rfl,
      simple_of_edgesOk _ (by decide) (by decide +kernel), g.polygonArea_eq _ (by simp) (hfl _), ?_,
      polygonNormal_eq _ _ (by simp), ?_⟩
    · simp [closedSum, cycPairs, crossZ, ofInts]; norm_num
    · apply hneg
      change (List.sum _) < 0
      rw [cornerSum_ofInts]
      exact_mod_cast (by decide +kernel)
  · refine ⟨([(2, 0), (3, 1), (3, 2), (4, 3), (1, 2), (0, 4), (1, 1), (0, 1)] :
      List (Int × Int)).map ofInts, _, _, rfl,
      simple_of_edgesOk _ (by decide) (by decide +kernel), g.polygonArea_eq _ (by simp) (hfl _), ?_,
      polygonNormal_eq _ _ (by simp), ?_⟩
    · simp [closedSum, cycPairs, crossZ, ofInts]; norm_num
    · apply hneg
      change (List.sum _) < 0
      rw [cornerSum_ofInts]
      exact_mod_cast (by decide +kernel)

example : ∃ vs A N, vs.length = 5 ∧ SimplePolygon vs ∧
    (⟨0, 0⟩ : GeoCfg ℝ).polygonArea vs = ok A ∧ 0 < A ∧
    polygonNormal Real.sqrt vs = ok N ∧ N.z < 0 :=
  c33_violated (fun a ha => ⟨Real.sqrt_nonneg a, Real.mul_self_sqrt ha⟩) _ (le_refl _) 5
    (Or.inl rfl)

end Verif
