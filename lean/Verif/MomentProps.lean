import Verif.MomentLemmas
import Verif.MeshLemmas
import Verif.PolygonProps
import Verif.IntersectProps
import Mathlib.Tactic.LinearCombination

/-
Properties of the integrals over polygons (C91, C92).
-/
namespace Verif

open Res

variable {K : Type} [Field K] [LinearOrder K] [IsStrictOrderedRing K]

/-- A quadrilateral used in the examples. -/
def exampleQuad : List (V3 ℝ) := [⟨0, 0, 0⟩, ⟨4, 0, 0⟩, ⟨4, 3, 0⟩, ⟨1, 1, 0⟩]

theorem exampleQuad_flat : defaultGeo.Flat exampleQuad := by
  intro p hp
  have : (0 : ℝ) ≤ defaultGeo.tolerance1D := by norm_num [defaultGeo]
  simp only [exampleQuad, List.mem_cons, List.not_mem_nil, or_false] at hp
  rcases hp with rfl | rfl | rfl | rfl <;> simpa using this

theorem exampleQuad_edges {P : V3 ℝ → V3 ℝ → Prop} (h0 : P ⟨0, 0, 0⟩ ⟨4, 0, 0⟩) (h1 : P ⟨4, 0, 0⟩ ⟨4, 3, 0⟩)
    (h2 : P ⟨4, 3, 0⟩ ⟨1, 1, 0⟩) (h3 : P ⟨1, 1, 0⟩ ⟨0, 0, 0⟩) (i : Nat) (a b : V3 ℝ)
    (ha : exampleQuad[i]? = some a) (hb : exampleQuad[(i + 1) % exampleQuad.length]? = some b) : P a b := by
  have hi : i < 4 := (List.getElem?_eq_some_iff.1 ha).1
  have : i = 0 ∨ i = 1 ∨ i = 2 ∨ i = 3 := by omega
  rcases this with rfl | rfl | rfl | rfl <;> simp [exampleQuad] at ha hb <;> subst ha <;> subst hb <;> assumption

theorem exampleQuad_convex : ConvexCcw exampleQuad := by
  intro i a b p ha hb hp
  refine exampleQuad_edges (P := fun a b => 0 ≤ area2 a b p) ?_ ?_ ?_ ?_ i a b ha hb <;>
  · simp only [exampleQuad, List.mem_cons, List.not_mem_nil, or_false] at hp
    rcases hp with rfl | rfl | rfl | rfl <;> norm_num [area2]

/-! ### C91 -/

/-- C91: the centroids, lengths, tangents and normals are listed edge by edge. -/
theorem c91_edges {sqrt : K → K} (hs : IsSqrt sqrt) (g : GeoCfg K) (vs : List (V3 K)) (h2 : 2 < vs.length)
    (hf : ∀ p ∈ vs, |p.z| ≤ g.tolerance1D) :
    ∃ ms ls ts ns, polygonEdgesCentroid vs = ok ms ∧ polygonEdgeLengths sqrt vs = ok ls ∧
      polygonEdgeTangents vs = ok ts ∧ g.polygonEdgeNormals sqrt vs = ok ns ∧
      PerEdge (fun a b m => m = ⟨(a.x + b.x) / 2, (a.y + b.y) / 2, (a.z + b.z) / 2⟩) vs ms ∧
      PerEdge IsLength vs ls ∧ PerEdge (fun a b t => t = ⟨b.x - a.x, b.y - a.y, b.z - a.z⟩) vs ts ∧
      PerEdge IsRightNormal vs ns := by
  refine ⟨_, _, _, _, edgesCentroid_eq h2, edgeLengths_eq sqrt h2, edgeTangents_eq h2,
    edgeNormals_eq g sqrt h2 hf, ?_, ?_, ?_, ?_⟩
  · exact perEdge_map fun _ _ _ _ => rfl
  · exact perEdge_map fun a b _ _ => segmentLength_isLength hs a b
  · exact perEdge_map fun _ _ _ _ => rfl
  · exact perEdge_map fun a b _ _ => edgeNormal_isRight hs a b

example : ∃ ls, polygonEdgeLengths Real.sqrt exampleQuad = ok ls ∧ PerEdge IsLength exampleQuad ls := by
  obtain ⟨_, ls, _, _, _, h, _, _, _, h', _⟩ := c91_edges isSqrt_real defaultGeo exampleQuad (by simp [exampleQuad])
    exampleQuad_flat
  exact ⟨ls, h, h'⟩

/-- C91: the normals of a convex polygon that runs counter clockwise point out of it. -/
theorem c91_outward {sqrt : K → K} (hs : IsSqrt sqrt) (g : GeoCfg K) (vs : List (V3 K)) (h2 : 2 < vs.length)
    (hf : ∀ p ∈ vs, |p.z| ≤ g.tolerance1D) (hc : ConvexCcw vs) :
    ∃ ns, g.polygonEdgeNormals sqrt vs = ok ns ∧
      ∀ (i : Nat) (a n p : V3 K), vs[i]? = some a → ns[i]? = some n → p ∈ vs →
        n.x * (p.x - a.x) + n.y * (p.y - a.y) ≤ 0 := by
  obtain ⟨ms, ls, ts, ns, -, -, -, hn, -, -, -, hp⟩ := c91_edges hs g vs h2 hf
  refine ⟨ns, hn, ?_⟩
  intro i a n p ha hni hpv
  have hi : i < vs.length := (List.getElem?_eq_some_iff.1 ha).1
  have hb : (i + 1) % vs.length < vs.length := Nat.mod_lt _ (by omega)
  obtain ⟨n', e, hr⟩ := hp.2 i a _ ha (List.getElem?_eq_getElem hb)
  rw [hni] at e
  cases e
  have har := hc i a _ p ha (List.getElem?_eq_getElem hb) hpv
  generalize vs[(i + 1) % vs.length] = b at *
  have hl := segmentLength_isLength hs a b
  obtain ⟨hx, hy⟩ := hr.2.1 _ hl
  generalize segmentLength sqrt a b = l at *
  rcases eq_or_lt_of_le hl.1 with h0 | h0
  · have hx0 : b.x = a.x := by rw [← h0] at hy; linarith
    have hy0 : b.y = a.y := by rw [← h0] at hx; linarith
    have hz0 : b.z = a.z := by
      have := hl.2
      rw [← h0, hx0, hy0] at this
      have h3 : (b.z - a.z) ^ 2 = 0 := by linear_combination -this
      have := pow_eq_zero_iff two_ne_zero |>.1 h3
      linarith
    obtain ⟨e1, e2⟩ := hr.2.2.2 (by ext <;> simp [hx0, hy0, hz0])
    rw [e1, e2]
    linarith
  · have : l * (n.x * (p.x - a.x) + n.y * (p.y - a.y)) = -area2 a b p := by
      unfold area2
      linear_combination (p.x - a.x) * hx + (p.y - a.y) * hy
    by_contra hcon
    have := mul_pos h0 (not_le.1 hcon)
    linarith

example : ∃ ns, defaultGeo.polygonEdgeNormals Real.sqrt exampleQuad = ok ns :=
  (c91_outward isSqrt_real defaultGeo exampleQuad (by simp [exampleQuad]) exampleQuad_flat exampleQuad_convex).imp
    fun _ h => h.1

/-- C91: with a rule on the segment that integrates polynomials of degree one, the integral over the boundary of
the first coordinate times the first coordinate of the normal is the area. -/
theorem c91_boundary {sqrt : K → K} (hs : IsSqrt sqrt) (g : GeoCfg K) (vs : List (V3 K)) (h2 : 2 < vs.length)
    (hf : ∀ p ∈ vs, |p.z| ≤ g.tolerance1D) (points : List (V3 K)) (weights : List K)
    (hr : LinearRule (points.map V3.x) weights) :
    ∃ ls ts ns A, polygonEdgeLengths sqrt vs = ok ls ∧ polygonEdgeTangents vs = ok ts ∧
      g.polygonEdgeNormals sqrt vs = ok ns ∧ g.polygonArea vs = ok A ∧
      polygonAreaByBoundaryIntegral vs ls ts ns points weights = ok A := by
  refine ⟨_, _, _, _, edgeLengths_eq sqrt h2, edgeTangents_eq h2, edgeNormals_eq g sqrt h2 hf,
    g.polygonArea_eq vs h2 hf, ?_⟩
  simp only [polygonAreaByBoundaryIntegral, assert_true h2, List.length_map, cycPairs_length, assert_true,
    assert_true (show points.length = weights.length by simpa using hr.1), ok_bind, boundaryQuadrature_eq,
    quadOf_sum]
  congr 1
  rw [← closedSum_mul]
  apply closedSum_congr_exact _ _ (fun p => 1 / 2 * (p.x * p.y))
  intro a b
  have e : (List.map (fun q : V3 K × V3 K => q.1.x * q.2.x) (quadOf sqrt (points.map V3.x) weights (a, b))) =
      List.zipWith (fun q w => (a.x + q * (b.x - a.x)) *
        (w * (|segmentLength sqrt a b| * (edgeNormal sqrt (a, b)).x))) (points.map V3.x) weights := by
    simp only [quadOf, List.map_zipWith]
    congr 1
    funext q w
    simp only [V3.add, V3.smul, segmentTangent, V3.sub]
    ring
  rw [e, zipWith_linear _ _ _ _ _ hr.1, hr.2.1, hr.2.2, (length_normal hs a b).1]
  simp only [crossZ]
  ring

/-- C91: the rule taken when none is given is such a rule. -/
theorem c91_mid : LinearRule ((midRule : List (V3 K) × List K).1.map V3.x) (midRule : List (V3 K) × List K).2 := by
  simp [midRule, LinearRule]

example : ∃ ls ts ns, polygonAreaByBoundaryIntegral exampleQuad ls ts ns midRule.1 midRule.2 = ok (13 / 2) := by
  obtain ⟨ls, ts, ns, A, -, -, -, hA, h⟩ := c91_boundary isSqrt_real defaultGeo exampleQuad (by simp [exampleQuad])
    exampleQuad_flat midRule.1 midRule.2 c91_mid
  refine ⟨ls, ts, ns, ?_⟩
  rw [h, ← hA, GeoCfg.polygonArea_eq _ _ (by simp [exampleQuad]) exampleQuad_flat]
  norm_num [exampleQuad, closedSum, cycPairs, crossZ]

/-- C91: the centroid by integrals over the boundary is the centroid, up to the error of the decimal numbers
in the rule: with `n` edges whose coordinates change by at most `D`, at most `n D³ / (2 |A|)` times `10⁻¹⁷`. -/
theorem c91_centroid {sqrt : K → K} (hs : IsSqrt sqrt) (g : GeoCfg K) (vs : List (V3 K)) (h2 : 2 < vs.length)
    (hf : ∀ p ∈ vs, |p.z| ≤ g.tolerance1D) (A D : K) (hA : A ≠ 0)
    (hD : ∀ a ∈ vs, ∀ b ∈ vs, |b.x - a.x| ≤ D ∧ |b.y - a.y| ≤ D) :
    ∃ ls ts ns C G, polygonEdgeLengths sqrt vs = ok ls ∧ polygonEdgeTangents vs = ok ts ∧
      g.polygonEdgeNormals sqrt vs = ok ns ∧ g.polygonCentroid vs A = ok C ∧
      polygonCentroidByIntegral vs ls ts ns A = ok G ∧ G.z = C.z ∧
      |G.x - C.x| ≤ 1 / 10 ^ 17 * (vs.length * D ^ 3 / (2 * |A|)) ∧
      |G.y - C.y| ≤ 1 / 10 ^ 17 * (vs.length * D ^ 3 / (2 * |A|)) := by
  refine ⟨_, _, _, _, _, edgeLengths_eq sqrt h2, edgeTangents_eq h2, edgeNormals_eq g sqrt h2 hf,
    g.polygonCentroid_eq vs A h2 hf, centroidByIntegral_eq sqrt h2 A, ?_⟩
  have hpos : 0 < |A| := abs_pos.2 hA
  have hmem : ∀ p ∈ cycPairs vs, p.1 ∈ vs ∧ p.2 ∈ vs := by
    intro p hp
    have := List.of_mem_zip hp
    exact ⟨this.1, List.mem_rotate.1 this.2⟩
  have bound : ∀ e : V3 K → V3 K → K, (∀ a ∈ vs, ∀ b ∈ vs, |e a b| ≤ D ^ 3) →
      |gaussError * closedSum e vs * (1 / 2 / A)| ≤ 1 / 10 ^ 17 * (vs.length * D ^ 3 / (2 * |A|)) := by
    intro e he
    have h1 : |closedSum e vs| ≤ vs.length * D ^ 3 := by
      have := sum_abs_le (fun p : V3 K × V3 K => e p.1 p.2) (D ^ 3) (cycPairs vs)
        fun p hp => he _ (hmem p hp).1 _ (hmem p hp).2
      rwa [cycPairs_length] at this
    rw [abs_mul, abs_mul, abs_div, abs_div, abs_one, abs_two]
    have h3 : |closedSum e vs| * (1 / 2 / |A|) ≤ vs.length * D ^ 3 / (2 * |A|) := by
      rw [div_div, mul_one_div]
      gcongr
    rw [mul_assoc]
    exact mul_le_mul gaussError_le h3 (by positivity) (by positivity)
  have cube : ∀ x y z : K, |x| ≤ D → |y| ≤ D → |z| ≤ D → |x * (y * z)| ≤ D ^ 3 := by
    intro x y z hx hy hz
    have hD0 : 0 ≤ D := (abs_nonneg x).trans hx
    rw [abs_mul, abs_mul, pow_succ', sq]
    gcongr
  refine ⟨rfl, ?_, ?_⟩
  · have e : closedSum (fun a b => ((quadOf sqrt [gaussFirst, gaussSecond] [1 / 2, 1 / 2] (a, b)).map
          fun q => q.1.x * q.2.x * q.1.x).sum) vs =
        1 / 3 * closedSum momentX vs + gaussError * closedSum (fun a b => (b.y - a.y) * ((b.x - a.x) * (b.x - a.x))) vs := by
      rw [← closedSum_mul, ← closedSum_mul, ← closedSum_add]
      apply closedSum_congr_exact _ _ (fun p => 1 / 3 * (p.y * p.x ^ 2))
      intro a b
      simp only [quadOf, List.zipWith_cons_cons, List.zipWith_nil_right, List.map_cons, List.map_nil, List.sum_cons, List.sum_nil,
        V3.add, V3.smul, segmentTangent, V3.sub, add_zero]
      rw [gauss_edge, (length_normal hs a b).1]
      simp only [momentX, crossZ]
      ring
    have hb := bound (fun a b => (b.y - a.y) * ((b.x - a.x) * (b.x - a.x))) fun a ha b hb =>
      cube _ _ _ (hD a ha b hb).2 (hD a ha b hb).1 (hD a ha b hb).1
    simp only
    rw [e]
    refine le_trans (le_of_eq (congrArg _ ?_)) hb
    field_simp
    ring
  · have e : closedSum (fun a b => ((quadOf sqrt [gaussFirst, gaussSecond] [1 / 2, 1 / 2] (a, b)).map
          fun q => q.1.y * q.2.y * q.1.y).sum) vs =
        1 / 3 * closedSum momentY vs + gaussError * closedSum (fun a b => (a.x - b.x) * ((b.y - a.y) * (b.y - a.y))) vs := by
      rw [← closedSum_mul, ← closedSum_mul, ← closedSum_add]
      apply closedSum_congr_exact _ _ (fun p => -(1 / 3 * (p.x * p.y ^ 2)))
      intro a b
      simp only [quadOf, List.zipWith_cons_cons, List.zipWith_nil_right, List.map_cons, List.map_nil, List.sum_cons, List.sum_nil,
        V3.add, V3.smul, segmentTangent, V3.sub, add_zero]
      rw [gauss_edge, (length_normal hs a b).2]
      simp only [momentY, crossZ]
      ring
    have hb := bound (fun a b => (a.x - b.x) * ((b.y - a.y) * (b.y - a.y))) fun a ha b hb =>
      cube _ _ _ (by rw [abs_sub_comm]; exact (hD a ha b hb).1) (hD a ha b hb).2 (hD a ha b hb).2
    simp only
    rw [e]
    refine le_trans (le_of_eq (congrArg _ ?_)) hb
    field_simp
    ring

example : ∃ C G, defaultGeo.polygonCentroid exampleQuad (13 / 2) = ok C ∧
    |G - C.x| ≤ 1 / 10 ^ 17 * (4 * 4 ^ 3 / 13) := by
  obtain ⟨_, _, _, C, G, _, _, _, hC, _, _, hx, _⟩ := c91_centroid isSqrt_real defaultGeo exampleQuad
    (by simp [exampleQuad]) exampleQuad_flat (13 / 2) 4 (by norm_num) (by
      intro a ha b hb
      simp only [exampleQuad, List.mem_cons, List.not_mem_nil, or_false] at ha hb
      rcases ha with rfl | rfl | rfl | rfl <;> rcases hb with rfl | rfl | rfl | rfl <;> norm_num [abs_le])
  refine ⟨C, G.x, hC, hx.trans (le_of_eq ?_)⟩
  norm_num [exampleQuad, abs_of_pos]

/-- C91: the integral over triangles with a rule whose weights add up to one half should be the sum of the areas. With
a rule of one point it is, and if no triangle runs clockwise it is the sum of the signed areas; this covers the rule
taken when none is given. Rules of more points are not covered, see `c91_internal_violated`. -/
theorem c91_internal_partial (ts : List (V3 K × V3 K × V3 K)) (weights : List K) (h1 : weights.length = 1)
    (hw : weights.sum = 1 / 2) :
    polygonAreaByInternalIntegral ts weights = ok (ts.map fun t => |area2 t.1 t.2.1 t.2.2| / 2).sum ∧
    ((∀ t ∈ ts, 0 ≤ area2 t.1 t.2.1 t.2.2) → polygonAreaByInternalIntegral ts weights = ok (triangleAreas ts)) := by
  obtain ⟨w, rfl⟩ := List.length_eq_one_iff.1 h1
  have hw : w = 1 / 2 := by simpa using hw
  subst hw
  have key : polygonAreaByInternalIntegral ts [1 / 2] = ok (ts.map fun t => |area2 t.1 t.2.1 t.2.2| / 2).sum := by
    unfold polygonAreaByInternalIntegral
    have e : ∀ t ∈ ts, mulEntries [1 / 2] (((mapTriangle t.1 t.2.1 t.2.2).detPerColumn 1).map fun d => |d|) =
        ok [|area2 t.1 t.2.1 t.2.2| / 2] := by
      intro t _
      have hd : (mapTriangle t.1 t.2.1 t.2.2).det = area2 t.1 t.2.1 t.2.2 := by
        simp only [mapTriangle, AffMap.build, bMatrix, M3.det, area2]
        ring
      simp only [mulEntries, AffMap.detPerColumn, List.replicate_one, List.map_cons, List.map_nil, List.length_singleton,
        if_true, List.zipWith_cons_cons, List.zipWith_nil_left, hd]
      congr 2
      ring
    rw [mapRes_eq_map e, ok_bind]
    congr 1
    rw [← List.flatMap_def, ← List.map_eq_flatMap]
  refine ⟨key, fun h => ?_⟩
  rw [key]
  unfold triangleAreas
  congr 2
  apply List.map_congr_left
  intro t ht
  rw [abs_of_nonneg (h t ht)]

/-- C91: a rule of several points whose weights add up to one half, on any triangles, is undefined instead of the sum of
the areas: the weights, of which there are several, are multiplied with a single determinant. -/
theorem c91_internal_violated (t : V3 K × V3 K × V3 K) (ts : List (V3 K × V3 K × V3 K)) (weights : List K)
    (h1 : weights.length ≠ 1) : polygonAreaByInternalIntegral (t :: ts) weights = ub := by
  have : mulEntries weights (((mapTriangle t.1 t.2.1 t.2.2).detPerColumn 1).map fun d => |d|) = ub := by
    unfold mulEntries AffMap.detPerColumn
    rw [if_neg (by simpa using h1)]
  unfold polygonAreaByInternalIntegral
  rw [mapRes, this]
  rfl

example : ([1 / 6, 1 / 6, 1 / 6] : List ℚ).sum = 1 / 2 ∧
    polygonAreaByInternalIntegral ([(⟨0, 0, 0⟩, ⟨4, 0, 0⟩, ⟨4, 3, 0⟩)] : List (V3 ℚ × V3 ℚ × V3 ℚ))
      [1 / 6, 1 / 6, 1 / 6] = ub :=
  ⟨by norm_num, c91_internal_violated _ _ _ (by simp)⟩

/-- C91: the weights taken when none are given add up to one half. -/
theorem c91_half : (halfRule : List K).length = 1 ∧ (halfRule : List K).sum = 1 / 2 := by simp [halfRule]

example : polygonAreaByInternalIntegral ([(⟨0, 0, 0⟩, ⟨4, 0, 0⟩, ⟨4, 3, 0⟩), (⟨0, 0, 0⟩, ⟨4, 3, 0⟩, ⟨1, 1, 0⟩)] :
    List (V3 ℚ × V3 ℚ × V3 ℚ)) halfRule = ok (13 / 2) := by
  rw [(c91_internal_partial _ _ c91_half.1 c91_half.2).1]
  norm_num [area2]

/-- C91: the centroid put together from the triangles that join a point with the edges, weighted by their
signed areas, is the centroid of the polygon. -/
theorem c91_parts (g : GeoCfg K) (vs : List (V3 K)) (c : V3 K) (h2 : 2 < vs.length)
    (h1 : 0 ≤ g.tolerance1D) (hz : ∀ p ∈ vs, p.z = 0) (hc : c.z = 0) (A : K) (hA : g.polygonArea vs = ok A)
    (h0 : A ≠ 0) :
    ∃ l ts G, triangulationByInternalPoint vs = ok l ∧
      extractTriangulationPointsByInternalPoint vs c l = ok ts ∧ g.polygonCentroid vs A = ok G ∧
      centroidOfParts (ts.map triangleBarycenter) (ts.map fun t => area2 t.1 t.2.1 t.2.2 / 2) A = ok G := by
  have hf : ∀ p ∈ vs, |p.z| ≤ g.tolerance1D := fun p hp => by rw [hz p hp, abs_zero]; exact h1
  obtain ⟨l, ts, A', hl, hts, hA', hG⟩ := c51_value g vs c h2 hf
  rw [hA] at hA'
  cases hA'
  obtain ⟨G, hG, hGz, hGx, hGy⟩ := hG h0
  simp only [GeoCfg.areaCentroid, hA, ok_bind] at hG
  refine ⟨l, ts, G, hl, hts, hG, ?_⟩
  rw [triangulationByInternalPoint_eq vs h2] at hl
  cases hl
  rw [wheel_points vs c] at hts
  have hts := Res.ok.inj hts
  have hpos : 0 < ts.length := by rw [← hts]; simp [cycPairs_length]; omega
  have dz : ∀ t ∈ ts, t.1.z = 0 ∧ t.2.1.z = 0 ∧ t.2.2.z = 0 := by
    intro t ht
    rw [← hts, List.mem_map] at ht
    obtain ⟨p, hp, rfl⟩ := ht
    have hm := List.of_mem_zip hp
    exact ⟨hc, hz _ hm.1, hz _ (List.mem_rotate.1 hm.2)⟩
  have dot : ∀ f : V3 K → K, dotL ((ts.map triangleBarycenter).map f)
      (ts.map fun t => area2 t.1 t.2.1 t.2.2 / 2) =
        (ts.map fun t => area2 t.1 t.2.1 t.2.2 / 2 * f (triangleBarycenter t)).sum := by
    intro f
    rw [List.map_map, dotL_map]
    rfl
  simp only [centroidOfParts, List.length_map, and_true, assert_true hpos, ok_bind, dot]
  congr 1
  ext
  · simp only [triangleBarycenter]
    rw [← hGx, mul_div_cancel_right₀ _ h0]
  · simp only [triangleBarycenter]
    rw [← hGy, mul_div_cancel_right₀ _ h0]
  · rw [hGz]
    simp only [triangleBarycenter]
    rw [List.map_congr_left (g := fun _ => (0 : K)) (by
      intro t ht
      obtain ⟨e1, e2, e3⟩ := dz t ht
      rw [e1, e2, e3]
      simp)]
    simp

example : ∃ (ts : List (V3 ℚ × V3 ℚ × V3 ℚ)) (G : V3 ℚ), exampleGeo.polygonCentroid ([⟨0, 0, 0⟩, ⟨4, 0, 0⟩, ⟨4, 3, 0⟩, ⟨1, 1, 0⟩] : List (V3 ℚ)) (13 / 2) = ok G ∧
    centroidOfParts (ts.map triangleBarycenter) (ts.map fun t => area2 t.1 t.2.1 t.2.2 / 2) (13 / 2) = ok G := by
  obtain ⟨_, ts, G, _, _, h1, h2⟩ := c91_parts exampleGeo [⟨0, 0, 0⟩, ⟨4, 0, 0⟩, ⟨4, 3, 0⟩, ⟨1, 1, 0⟩] ⟨2, 1, 0⟩ (by simp)
    (by norm_num [exampleGeo]) (by simp) rfl (13 / 2) (by decide +kernel) (by norm_num)
  exact ⟨ts, G, h1, h2⟩

/-- C91: the mass matrix holds the integrals of the products of the coordinates measured from the centroid, up
to the error of the decimal numbers in the rule. -/
theorem c91_mass (c : V3 ℝ) (ts : List (V3 ℝ × V3 ℝ × V3 ℝ)) (D : ℝ) (h : WithinOf D c ts) :
    let ε := 1 / 10 ^ 16 * D ^ 2 * (ts.map fun t => |area2 t.1 t.2.1 t.2.2|).sum
    |(polygonMass c ts).1.1 - integralOver (fun x _ => (x - c.x) ^ 2) ts| ≤ ε ∧
    |(polygonMass c ts).1.2 - integralOver (fun x y => (x - c.x) * (y - c.y)) ts| ≤ ε ∧
    (polygonMass c ts).2.1 = (polygonMass c ts).1.2 ∧
    |(polygonMass c ts).2.2 - integralOver (fun _ y => (y - c.y) ^ 2) ts| ≤ ε := by
  refine ⟨?_, ?_, rfl, ?_⟩
  · simp only [polygonMass, sq (_ - c.x)]
    exact mass_error V3.x V3.x _ c D ts (.inl rfl) (.inl rfl) (fun _ => rfl) h
  · exact mass_error V3.x V3.y _ c D ts (.inl rfl) (.inr rfl) (fun _ => rfl) h
  · simp only [polygonMass, sq (_ - c.y)]
    exact mass_error V3.y V3.y _ c D ts (.inr rfl) (.inr rfl) (fun _ => rfl) h

example : WithinOf 3 ⟨1, 1, 0⟩ [(⟨0, 0, 0⟩, ⟨4, 0, 0⟩, ⟨4, 3, 0⟩)] := by
  intro t ht p hp
  simp only [List.mem_singleton] at ht
  subst ht
  rcases hp with rfl | rfl | rfl <;> norm_num [abs_le]

/-- C91: the inertia tensor holds the same integrals with the diagonal exchanged and the other sign outside the
diagonal; the third row and the third column are zero. -/
theorem c91_inertia (c : V3 ℝ) (ts : List (V3 ℝ × V3 ℝ × V3 ℝ)) (D : ℝ) (h : WithinOf D c ts) :
    let ε := 1 / 10 ^ 16 * D ^ 2 * (ts.map fun t => |area2 t.1 t.2.1 t.2.2|).sum
    let I := polygonInertia c ts
    |I.a00 - integralOver (fun _ y => (y - c.y) ^ 2) ts| ≤ ε ∧
    |I.a11 - integralOver (fun x _ => (x - c.x) ^ 2) ts| ≤ ε ∧
    |I.a01 + integralOver (fun x y => (x - c.x) * (y - c.y)) ts| ≤ ε ∧ I.a10 = I.a01 ∧
    I.a02 = 0 ∧ I.a12 = 0 ∧ I.a20 = 0 ∧ I.a21 = 0 ∧ I.a22 = 0 := by
  obtain ⟨h1, h2, -, h3⟩ := c91_mass c ts D h
  refine ⟨h3, h1, ?_, rfl, rfl, rfl, rfl, rfl, rfl⟩
  rw [← abs_neg]
  refine le_trans (le_of_eq (congrArg _ ?_)) h2
  simp only [polygonInertia, polygonMass]
  ring

/-- C91: `PolygonBarycenter` of a triangle is the mean of its vertices. -/
theorem c91_barycenter (a b c : V3 K) :
    3 * (triangleBarycenter (a, b, c)).x = a.x + b.x + c.x ∧ 3 * (triangleBarycenter (a, b, c)).y = a.y + b.y + c.y ∧
    3 * (triangleBarycenter (a, b, c)).z = a.z + b.z + c.z := by
  refine ⟨?_, ?_, ?_⟩ <;> (simp only [triangleBarycenter]; ring)

example : triangleBarycenter ((⟨0, 0, 3⟩, ⟨3, 0, 0⟩, ⟨0, 6, 3⟩) : V3 ℚ × V3 ℚ × V3 ℚ) = ⟨1, 2, 2⟩ := by
  obtain ⟨h1, h2, h3⟩ := c91_barycenter (⟨0, 0, 3⟩ : V3 ℚ) ⟨3, 0, 0⟩ ⟨0, 6, 3⟩
  ext <;> simp at * <;> linarith

/-- C91: fewer than three vertices are rejected by the functions on the edges, and points off the plane by those that
compute normals. -/
theorem c91_rejects (g : GeoCfg K) (sqrt : K → K) (vs : List (V3 K)) :
    (vs.length ≤ 2 → polygonEdgesCentroid vs = abort ∧ polygonEdgeLengths sqrt vs = abort ∧
      polygonEdgeTangents vs = abort ∧ g.polygonEdgeNormals sqrt vs = abort) ∧
    ((∃ p ∈ vs, g.tolerance1D < |p.z|) → g.polygonEdgeNormals sqrt vs = abort) ∧
    ∀ a b : V3 K, g.tolerance1D < |a.z| ∨ g.tolerance1D < |b.z| → g.segmentNormal sqrt a b = abort := by
  refine ⟨fun h => ⟨?_, ?_, ?_, ?_⟩, ?_, ?_⟩
  · unfold polygonEdgesCentroid
    rw [assert_false (by omega)]; rfl
  · unfold polygonEdgeLengths
    rw [assert_false (by omega)]; rfl
  · unfold polygonEdgeTangents
    rw [assert_false (by omega)]; rfl
  · unfold GeoCfg.polygonEdgeNormals GeoCfg.pointsAre2D
    by_cases h0 : 0 < vs.length
    · rw [assert_true h0]
      simp only [ok_bind]
      rw [assert_false (by omega)]; rfl
    · rw [assert_false h0]; rfl
  · rintro ⟨p, hp, hz⟩
    unfold GeoCfg.polygonEdgeNormals GeoCfg.pointsAre2D
    rw [assert_true (List.length_pos_of_mem hp)]
    simp only [ok_bind]
    rw [assert_false]
    · rfl
    · rintro ⟨h, -⟩
      have := List.all_eq_true.1 h p hp
      exact absurd (of_decide_eq_true this) (not_le.2 hz)
  · rintro a b h
    unfold GeoCfg.segmentNormal GeoCfg.pointsAre2D
    rw [assert_true (by simp), assert_true (by simp)]
    simp only [ok_bind]
    rw [assert_false]
    · rfl
    · rintro ⟨h1, h2⟩
      simp only [List.all_cons, List.all_nil, Bool.and_true, decide_eq_true_eq] at h1 h2
      rcases h with h | h
      · exact absurd h1 (not_le.2 h)
      · exact absurd h2 (not_le.2 h)

example : defaultGeo.segmentNormal Real.sqrt ⟨0, 0, 0⟩ ⟨1, 0, 1⟩ = abort :=
  (c91_rejects defaultGeo Real.sqrt []).2.2 _ _ (Or.inr (by norm_num [defaultGeo]))

/-! ### C92 -/

/-- C92: the distances of a point from the vertices and from the lines through the edges are listed vertex by
vertex and edge by edge. -/
theorem c92_distances {sqrt : K → K} (hs : IsSqrt sqrt) (g : GeoCfg K) (vs : List (V3 K)) (c : V3 K)
    (h2 : 2 < vs.length) (h1 : 0 ≤ g.tolerance1D) (hz : ∀ p ∈ vs, p.z = 0)
    (hne : ∀ (i : Nat) (a b : V3 K), vs[i]? = some a → vs[(i + 1) % vs.length]? = some b → a ≠ b) :
    ∃ ns ds es, g.polygonEdgeNormals sqrt vs = ok ns ∧ polygonCentroidVerticesDistance sqrt vs c = ok ds ∧
      polygonCentroidEdgesDistance sqrt vs c ns = ok es ∧
      List.Forall₂ (fun v d => IsLength c v d) vs ds ∧ PerEdge (fun a b d => IsLineDistance c a b d) vs es := by
  have hf : g.Flat vs := fun p hp => by rw [hz p hp, abs_zero]; exact h1
  have hd : polygonCentroidVerticesDistance sqrt vs c = ok (vs.map fun p => segmentLength sqrt c p) := by
    simp only [polygonCentroidVerticesDistance, assert_true h2, ok_bind]
    exact mapRes_range_eq _ _ vs fun i hi => by simp only [vget_of_lt hi, ok_bind]; rfl
  have he : polygonCentroidEdgesDistance sqrt vs c ((cycPairs vs).map (edgeNormal sqrt)) =
      ok ((cycPairs vs).map fun p => pointLineDistance sqrt c p.1 (edgeNormal sqrt p)) := by
    simp only [polygonCentroidEdgesDistance, assert_true h2, ok_bind]
    have := mapRes_range_eq (centroidEdgeDistance sqrt vs c ((cycPairs vs).map (edgeNormal sqrt)))
      (fun p => pointLineDistance sqrt c p.1 (edgeNormal sqrt p)) (cycPairs vs) (by
        intro i hi
        have h1 : i < vs.length := by rwa [cycPairs_length] at hi
        simp only [centroidEdgeDistance, vget_of_lt h1, vget_of_lt (show i < ((cycPairs vs).map (edgeNormal sqrt)).length by simpa using hi),
          ok_bind, List.getElem_map, cycPairs_getElem])
    rwa [cycPairs_length] at this
  refine ⟨_, _, _, edgeNormals_eq g sqrt h2 hf, hd, he, ?_, by simp [cycPairs_length], ?_⟩
  · rw [List.forall₂_map_right_iff]
    exact List.forall₂_same.2 fun v _ => segmentLength_isLength hs c v
  · intro i a b ha hb
    have hi : i < vs.length := (List.getElem?_eq_some_iff.1 ha).1
    have hc' : i < (cycPairs vs).length := by rwa [cycPairs_length]
    refine ⟨pointLineDistance sqrt c a (edgeNormal sqrt (a, b)), ?_, ?_⟩
    · rw [List.getElem?_map, List.getElem?_eq_getElem hc', cycPairs_getElem]
      obtain ⟨_, e1⟩ := List.getElem?_eq_some_iff.1 ha
      obtain ⟨_, e2⟩ := List.getElem?_eq_some_iff.1 hb
      simp [e1, e2]
    · exact lineDistance_edge hs (by rw [hz a (List.mem_of_getElem? ha), hz b (List.mem_of_getElem? hb)])
        (hne i a b ha hb)

/-- C92: the in radius is the least distance from the edges, and for a convex polygon that runs counter
clockwise every point as close to an inner point as the in radius is in the polygon. -/
theorem c92_in_radius {sqrt : K → K} (hs : IsSqrt sqrt) (g : GeoCfg K) (vs : List (V3 K)) (c : V3 K)
    (h2 : 2 < vs.length) (h1 : 0 ≤ g.tolerance1D) (hz : ∀ p ∈ vs, p.z = 0)
    (hne : ∀ (i : Nat) (a b : V3 K), vs[i]? = some a → vs[(i + 1) % vs.length]? = some b → a ≠ b)
    (hin : ∀ (i : Nat) (a b : V3 K), vs[i]? = some a → vs[(i + 1) % vs.length]? = some b → 0 ≤ area2 a b c) :
    ∃ ns es r, g.polygonEdgeNormals sqrt vs = ok ns ∧ polygonCentroidEdgesDistance sqrt vs c ns = ok es ∧
      polygonInRadius es = ok r ∧ r ∈ es ∧ (∀ e ∈ es, r ≤ e) ∧
      ∀ q : V3 K, (q.x - c.x) ^ 2 + (q.y - c.y) ^ 2 ≤ r ^ 2 →
        ∀ (i : Nat) (a b : V3 K), vs[i]? = some a → vs[(i + 1) % vs.length]? = some b → 0 ≤ area2 a b q := by
  obtain ⟨ns, ds, es, hn, -, he, -, hp⟩ := c92_distances hs g vs c h2 h1 hz hne
  have h0 : es ≠ [] := by
    intro h
    have := hp.1
    rw [h] at this
    simp at this
    omega
  obtain ⟨r, hr, hm, hl⟩ := minCoeff_spec h0
  refine ⟨ns, es, r, hn, he, hr, hm, hl, ?_⟩
  intro q hq i a b ha hb
  obtain ⟨d, hd, hdist⟩ := hp.2 i a b ha hb
  exact inside_of_near (by rw [hz a (List.mem_of_getElem? ha), hz b (List.mem_of_getElem? hb)]) (hne i a b ha hb)
    hdist (hin i a b ha hb) (hl d (List.mem_of_getElem? hd)) (by
      obtain ⟨j, hj, e⟩ := List.mem_iff_getElem.1 hm
      have hj' : j < vs.length := by rw [← hp.1]; exact hj
      obtain ⟨x, hx, hxd⟩ := hp.2 j _ _ (List.getElem?_eq_getElem hj')
        (List.getElem?_eq_getElem (Nat.mod_lt _ (show 0 < vs.length by omega)))
      rw [List.getElem?_eq_getElem hj, e] at hx
      cases hx
      exact hxd.1) hq

example : ∃ ns es r, defaultGeo.polygonEdgeNormals Real.sqrt exampleQuad = ok ns ∧
    polygonCentroidEdgesDistance Real.sqrt exampleQuad ⟨2, 1, 0⟩ ns = ok es ∧ polygonInRadius es = ok r := by
  obtain ⟨ns, es, r, h1, h2, h3, _⟩ := c92_in_radius isSqrt_real defaultGeo exampleQuad ⟨2, 1, 0⟩ (by simp [exampleQuad])
    (by norm_num [defaultGeo]) (by simp [exampleQuad])
    (exampleQuad_edges (P := fun a b => a ≠ b) (by simp) (by simp) (by simp) (by simp))
    (exampleQuad_edges (P := fun a b => 0 ≤ area2 a b ⟨2, 1, 0⟩) (by norm_num [area2]) (by norm_num [area2])
      (by norm_num [area2]) (by norm_num [area2]))
  exact ⟨ns, es, r, h1, h2, h3⟩

end Verif
