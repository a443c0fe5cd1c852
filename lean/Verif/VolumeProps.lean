import Verif.VolumeLemmas2
import Verif.MomentProps

/-
C98: volume of a polyhedron. C99: centroid. C100: mass and inertia. C101: tetrahedra from the triangles of the faces.
-/
namespace Verif

open Res

section field
variable {K : Type} [Field K] [LinearOrder K] [IsStrictOrderedRing K]

/-! ### Examples -/

/-- The unit cube, each side of which is given by the triangles `ts` in the plane. -/
def placedCube (ts : List (V3 ℚ × V3 ℚ × V3 ℚ)) : List (PlacedFace ℚ) :=
  let rx : M3 ℚ := ⟨0, 0, 1, 1, 0, 0, 0, 1, 0⟩
  let ry : M3 ℚ := ⟨0, 1, 0, 0, 0, 1, 1, 0, 0⟩
  let rz : M3 ℚ := ⟨1, 0, 0, 0, 1, 0, 0, 0, 1⟩
  [⟨ts, ⟨1, 0, 0⟩, true, ⟨1, 0, 0⟩, rx⟩, ⟨ts, ⟨1, 0, 0⟩, false, ⟨0, 0, 0⟩, rx⟩,
   ⟨ts, ⟨0, 1, 0⟩, true, ⟨0, 1, 0⟩, ry⟩, ⟨ts, ⟨0, 1, 0⟩, false, ⟨0, 0, 0⟩, ry⟩,
   ⟨ts, ⟨0, 0, 1⟩, true, ⟨0, 0, 1⟩, rz⟩, ⟨ts, ⟨0, 0, 1⟩, false, ⟨0, 0, 0⟩, rz⟩]

/-- The unit square in two triangles, both counter-clockwise. -/
def squareParts : List (V3 ℚ × V3 ℚ × V3 ℚ) :=
  [(⟨0, 0, 0⟩, ⟨1, 0, 0⟩, ⟨1, 1, 0⟩), (⟨0, 0, 0⟩, ⟨1, 1, 0⟩, ⟨0, 1, 0⟩)]

/-- The same with one triangle clockwise. -/
def squarePartsMixed : List (V3 ℚ × V3 ℚ × V3 ℚ) :=
  [(⟨0, 0, 0⟩, ⟨1, 0, 0⟩, ⟨1, 1, 0⟩), (⟨0, 0, 0⟩, ⟨0, 1, 0⟩, ⟨1, 1, 0⟩)]

theorem placedCube_ok {ts : List (V3 ℚ × V3 ℚ × V3 ℚ)} (h : ∀ t ∈ ts, t.2.1.z = t.1.z ∧ t.2.2.z = t.1.z) :
    ∀ f ∈ placedCube ts, f.Framed ∧ f.Level := by
  intro f hf
  simp only [placedCube, List.mem_cons, List.not_mem_nil, or_false] at hf
  rcases hf with rfl | rfl | rfl | rfl | rfl | rfl <;>
  · refine ⟨⟨⟨?_, ?_, ?_, ?_, ?_, ?_, ?_⟩, ?_⟩, h⟩ <;>
      simp [M3.col0, M3.col1, M3.col2, V3.dot, M3.det, M3.mulVec]

theorem squareParts_level : ∀ t ∈ squareParts, t.2.1.z = t.1.z ∧ t.2.2.z = t.1.z := by simp [squareParts]

theorem squarePartsMixed_level : ∀ t ∈ squarePartsMixed, t.2.1.z = t.1.z ∧ t.2.2.z = t.1.z := by
  simp [squarePartsMixed]

theorem placedCube_closed : ClosedSurface (surfaceOf (placedCube squareParts)) := by
  unfold ClosedSurface
  decide +kernel

theorem placedCube_closed_mixed : ClosedSurface (surfaceOf (placedCube squarePartsMixed)) := by
  unfold ClosedSurface
  decide +kernel

/-! ### Volume -/

/-- C98: the integral over the boundary with a rule of one point, which is the default. The faces may be given in any
position and with any direction of the normals, the triangles in any order of the corners. The result is the volume
of the cone over the surface, whatever the apex, if the weight is one half; it is proportional to the weight. The full
claim, for rules of any number of points, is refuted by `c98_boundary_violated`. -/
theorem c98_boundary_partial (fs : List (PlacedFace K)) (hf : ∀ f ∈ fs, f.Framed ∧ f.Level)
    (hc : ClosedSurface (surfaceOf fs)) (points : List (V3 K)) (weights : List K) (q : V3 K) (w : K)
    (hp : points = [q]) (hq : q.z = 0) (hw : weights = [w]) (p : V3 K) :
    polyhedronVolumeByBoundaryIntegral (fs.map PlacedFace.triangles) (fs.map PlacedFace.normal)
      (fs.map PlacedFace.direction) (fs.map PlacedFace.translation) (fs.map PlacedFace.rotation) points weights =
    ok (2 * w * coneVolume p (surfaceOf fs)) := by
  rw [hp, hw, volume_total hf q hq w, coneVolume_apex hc V3.zero p]

/-- C98: the default rule has one point in the plane and the weight one half. -/
theorem c98_default : ∃ q : V3 K, (centreRule : List (V3 K) × List K).1 = [q] ∧ q.z = 0 ∧
    (centreRule : List (V3 K) × List K).2 = [1 / 2] ∧ (sixthRule : List K) = [1 / 6] :=
  ⟨⟨1 / 3, 1 / 3, 0⟩, rfl, rfl, rfl, rfl⟩

example : polyhedronVolumeByBoundaryIntegral ((placedCube squarePartsMixed).map PlacedFace.triangles)
    ((placedCube squarePartsMixed).map PlacedFace.normal) ((placedCube squarePartsMixed).map PlacedFace.direction)
    ((placedCube squarePartsMixed).map PlacedFace.translation) ((placedCube squarePartsMixed).map PlacedFace.rotation)
    centreRule.1 centreRule.2 = ok 1 := by
  obtain ⟨q, h1, h2, h3, -⟩ := c98_default (K := ℚ)
  rw [c98_boundary_partial _ (placedCube_ok squarePartsMixed_level) placedCube_closed_mixed _ _ q _ h1 h2 h3
    ⟨1 / 2, 1 / 2, 1 / 2⟩]
  decide +kernel

theorem volumeOfTriangle_ub (n : V3 K) (R : M3 K) (tr : V3 K) (points : List (V3 K)) (weights : List K)
    (t : V3 K × V3 K × V3 K) (h : points.length ≠ 1 ∨ weights.length ≠ 1) :
    volumeOfTriangle n R tr points weights t = ub := by
  unfold volumeOfTriangle mulEntries addColumn
  by_cases hw : weights.length = 1
  · have hp : points.length ≠ 1 := h.resolve_right (not_not.2 hw)
    simp [AffMap.detPerColumn, hw, hp, ok_bind]
  · simp [AffMap.detPerColumn, Ne.symm hw]

/-- C98 fails for other rules: with any other number of points or weights, for instance with the rule of three points
that the code itself uses for the centroid, no polyhedron with a triangle has a result. -/
theorem c98_boundary_violated (fs : List (PlacedFace K)) (ht : ∃ f ∈ fs, f.triangles ≠ []) (points : List (V3 K))
    (weights : List K) (h : points.length ≠ 1 ∨ weights.length ≠ 1) :
    polyhedronVolumeByBoundaryIntegral (fs.map PlacedFace.triangles) (fs.map PlacedFace.normal)
      (fs.map PlacedFace.direction) (fs.map PlacedFace.translation) (fs.map PlacedFace.rotation) points weights = ub := by
  rw [volume_faces]
  generalize (0 : K) = s
  induction fs generalizing s with
  | nil => obtain ⟨f, hf, -⟩ := ht; simp at hf
  | cons f fs ih =>
    rw [foldRes_cons]
    cases hT : f.triangles with
    | nil =>
      rw [foldRes_nil, ok_bind]
      refine ih ?_ s
      obtain ⟨f', hf', hne⟩ := ht
      rcases List.mem_cons.1 hf' with rfl | hf'
      · exact absurd hT hne
      · exact ⟨f', hf', hne⟩
    | cons t ts =>
      rw [foldRes_cons, volumeOfTriangle_ub _ _ _ _ _ _ h]
      rfl

example : (∃ f ∈ placedCube squareParts, f.triangles ≠ []) ∧ (massPoints : List (V3 ℚ)).length ≠ 1 := by
  refine ⟨⟨_, List.mem_cons_self .., ?_⟩, ?_⟩
  · simp [squareParts]
  · simp [massPoints]

/-- C98: the integral over tetrahedra with a rule of one weight, which is the default: the sum of the volumes if the
weight is one sixth. The full claim, for rules of any number of points, is refuted by `c98_internal_violated`. -/
theorem c98_internal_partial {sqrt : K → K} (hs : IsSqrt sqrt) (g : GeoCfg K) (ts : List (V3 K × V3 K × V3 K × V3 K))
    (weights : List K) (w : K) (hw : weights = [w]) :
    polyhedronVolumeByInternalIntegral sqrt g (ts.map fun t => [t.1, t.2.1, t.2.2.1, t.2.2.2]) weights =
      ok (6 * w * (ts.map fun t => |vol6 t.1 t.2.1 t.2.2.1 t.2.2.2| / 6).sum) := by
  subst hw
  unfold polyhedronVolumeByInternalIntegral
  rw [mapRes_map_pure (k := fun t : V3 K × V3 K × V3 K × V3 K => [w * |vol6 t.1 t.2.1 t.2.2.1 t.2.2.2|]), ok_bind]
  · congr 1
    rw [sum_map_div]
    induction ts with
    | nil => simp
    | cons t ts ih =>
      simp only [List.map_cons, List.flatten_cons, List.cons_append, List.nil_append, List.sum_cons, ih]
      ring
  · intro t _
    unfold tetrahedronWeights
    rw [mapTetrahedron_eq hs g, ok_bind]
    simp [mulEntries, AffMap.detPerColumn, AffMap.build, qMatrix_vol]

/-- C98 fails for rules with another number of weights. -/
theorem c98_internal_violated {sqrt : K → K} (hs : IsSqrt sqrt) (g : GeoCfg K) (t : V3 K × V3 K × V3 K × V3 K)
    (ts : List (List (V3 K))) (weights : List K) (hw : weights.length ≠ 1) :
    polyhedronVolumeByInternalIntegral sqrt g ([t.1, t.2.1, t.2.2.1, t.2.2.2] :: ts) weights = ub := by
  have : tetrahedronWeights sqrt g weights [t.1, t.2.1, t.2.2.1, t.2.2.2] = ub := by
    unfold tetrahedronWeights
    rw [mapTetrahedron_eq hs g, ok_bind]
    simp [mulEntries, AffMap.detPerColumn, hw]
  unfold polyhedronVolumeByInternalIntegral mapRes
  rw [this]
  rfl

example : (tetWeights : List ℝ).length ≠ 1 ∧ IsSqrt Real.sqrt := ⟨by simp [tetWeights], isSqrt_real⟩

/-- C98: the two volumes agree. The tetrahedra join the triangles of a closed surface, in any order of the corners, to a
point which does not lie outside of any triangle. -/
theorem c98_agree {sqrt : K → K} (hs : IsSqrt sqrt) (g : GeoCfg K) (fs : List (PlacedFace K))
    (hf : ∀ f ∈ fs, f.Framed ∧ f.Level) (hc : ClosedSurface (surfaceOf fs)) (p : V3 K) (hp : SeesInside p (surfaceOf fs))
    (tets : List (List (V3 K)))
    (ht : List.Forall₂ (fun tet (t : V3 K × V3 K × V3 K) => tet = [t.1, t.2.1, t.2.2, p] ∨ tet = [t.1, t.2.2, t.2.1, p])
      tets (surfaceOf fs)) :
    ∃ v, polyhedronVolumeByInternalIntegral sqrt g tets sixthRule = ok v ∧
      polyhedronVolumeByBoundaryIntegral (fs.map PlacedFace.triangles) (fs.map PlacedFace.normal)
        (fs.map PlacedFace.direction) (fs.map PlacedFace.translation) (fs.map PlacedFace.rotation)
        centreRule.1 centreRule.2 = ok v ∧ 0 ≤ v := by
  obtain ⟨q, h1, h2, h3, h4⟩ := c98_default (K := K)
  refine ⟨coneVolume p (surfaceOf fs), ?_, ?_, ?_⟩
  · generalize surfaceOf fs = S at ht hp
    have : ∃ ts : List (V3 K × V3 K × V3 K × V3 K), tets = (ts.map fun t => [t.1, t.2.1, t.2.2.1, t.2.2.2]) ∧
        (ts.map fun t => |vol6 t.1 t.2.1 t.2.2.1 t.2.2.2| / 6).sum = coneVolume p S := by
      clear hf hc h1 h2 h3 h4
      induction ht with
      | nil => exact ⟨[], rfl, rfl⟩
      | @cons tet t tets S h0 _ ih =>
        obtain ⟨ts, rfl, e⟩ := ih fun t ht => hp t (by simp [ht])
        have hpos := hp t (by simp)
        unfold coneVolume at e ⊢
        rcases h0 with rfl | rfl
        · refine ⟨(t.1, t.2.1, t.2.2, p) :: ts, rfl, ?_⟩
          simp only [List.map_cons, List.sum_cons, e]
          rw [show vol6 t.1 t.2.1 t.2.2 p = -vol6 p t.1 t.2.1 t.2.2 by unfold vol6; ring, abs_neg, abs_of_nonneg hpos]
        · refine ⟨(t.1, t.2.2, t.2.1, p) :: ts, rfl, ?_⟩
          simp only [List.map_cons, List.sum_cons, e]
          rw [show vol6 t.1 t.2.2 t.2.1 p = vol6 p t.1 t.2.1 t.2.2 by unfold vol6; ring, abs_of_nonneg hpos]
    obtain ⟨ts, rfl, e⟩ := this
    rw [c98_internal_partial hs g ts _ _ h4, e]
    congr 1
    ring
  · rw [c98_boundary_partial fs hf hc _ _ q _ h1 h2 h3 p]
    congr 1
    ring
  · unfold coneVolume
    apply List.sum_nonneg
    intro x hx
    obtain ⟨t, ht, rfl⟩ := List.mem_map.1 hx
    have := hp t ht
    positivity

example : SeesInside ⟨1 / 2, 1 / 3, 1 / 4⟩ (surfaceOf (placedCube squareParts)) := by
  unfold SeesInside
  decide +kernel

/-! ### Centroid -/

/-- C99: the centroid times the volume is the first moment of the polyhedron, up to the rounding of the constants of the
rule; the moment is taken over the cone with any apex. The triangles run counter-clockwise in the plane of the face. -/
theorem c99_centroid (g : GeoCfg K) (fs : List (PlacedFace K)) (hf : ∀ f ∈ fs, f.Framed ∧ f.Level)
    (hc : ClosedSurface (surfaceOf fs)) (hA : ∀ f ∈ fs, ∀ t ∈ f.triangles, 0 ≤ area2 t.1 t.2.1 t.2.2)
    (hz : ∀ f ∈ fs, ∀ t ∈ f.triangles, |t.1.z| ≤ g.tolerance1D) (D : K) (hD : CornersWithin D (surfaceOf fs))
    (V : K) (hV : V ≠ 0) :
    ∃ c, polyhedronCentroid g (fs.map PlacedFace.triangles) (fs.map PlacedFace.normal)
        (fs.map PlacedFace.direction) (fs.map PlacedFace.translation) (fs.map PlacedFace.rotation) V = ok c ∧
      ∀ p : V3 K, |V * c.x - coneMoment V3.x p (surfaceOf fs)| ≤ 1 / 10 ^ 16 * D ^ 2 * surfaceArea fs ∧
        |V * c.y - coneMoment V3.y p (surfaceOf fs)| ≤ 1 / 10 ^ 16 * D ^ 2 * surfaceArea fs ∧
        |V * c.z - coneMoment V3.z p (surfaceOf fs)| ≤ 1 / 10 ^ 16 * D ^ 2 * surfaceArea fs := by
  refine ⟨_, centroid_total g hz V, fun p => ?_⟩
  have key : ∀ X Y Z : V3 K → K, CyclicCoords X Y Z → ∀ x : K,
      x = 1 / 2 * (fs.map fun f => (f.triangles.map fun t => X (f.momentOf t)).sum).sum / V →
      |V * x - coneMoment X p (surfaceOf fs)| ≤ 1 / 10 ^ 16 * D ^ 2 * surfaceArea fs := by
    intro X Y Z hX x hx
    rw [coneMoment_flux hc p hX, hx, mul_div_cancel₀ _ hV, ← sum_map_mulLeft, sum_surfaceOf]
    unfold surfaceArea
    rw [← List.map_id (List.flatMap _ fs), sum_flatMap]
    simp only [List.map_map, Function.comp_def, id]
    apply sum_error_le
    intro f hm
    rw [← sum_map_mulLeft]
    apply sum_error_le
    intro t ht
    have hD' := hD (f.outer t) (List.mem_flatMap.2 ⟨f, hm, List.mem_map.2 ⟨t, ht, rfl⟩⟩)
    have hin : ∀ q, q = t.1 ∨ q = t.2.1 ∨ q = t.2.2 → |X (f.place q)| ≤ D := by
      intro q hq
      have : f.place q = (f.outer t).1 ∨ f.place q = (f.outer t).2.1 ∨ f.place q = (f.outer t).2.2 := by
        unfold PlacedFace.outer
        split <;> rcases hq with rfl | rfl | rfl <;> simp
      have := hD' _ this
      rcases hX with ⟨rfl, -, -⟩ | ⟨rfl, -, -⟩ | ⟨rfl, -, -⟩
      · exact this.1
      · exact this.2.1
      · exact this.2.2
    exact momentOf_error (hf f hm).1 ((hf f hm).2 t ht).1 ((hf f hm).2 t ht).2 (hA f hm t ht) hX
      (hin _ (.inl rfl)) (hin _ (.inr (.inl rfl))) (hin _ (.inr (.inr rfl)))
  exact ⟨key V3.x V3.y V3.z (.inl ⟨rfl, rfl, rfl⟩) _ rfl, key V3.y V3.z V3.x (.inr (.inl ⟨rfl, rfl, rfl⟩)) _ rfl,
    key V3.z V3.x V3.y (.inr (.inr ⟨rfl, rfl, rfl⟩)) _ rfl⟩

theorem placedCube_ccw : ∀ f ∈ placedCube squareParts, ∀ t ∈ f.triangles, 0 ≤ area2 t.1 t.2.1 t.2.2 := by
  decide +kernel

theorem placedCube_heights : ∀ f ∈ placedCube squareParts, ∀ t ∈ f.triangles, |t.1.z| ≤ (10 / 2 ^ 52 : ℚ) := by
  decide +kernel

theorem placedCube_within : CornersWithin 1 (surfaceOf (placedCube squareParts)) := by
  have : ∀ t ∈ surfaceOf (placedCube squareParts), ∀ p ∈ [t.1, t.2.1, t.2.2], |p.x| ≤ 1 ∧ |p.y| ≤ 1 ∧ |p.z| ≤ 1 := by
    decide +kernel
  intro t ht p hp
  exact this t ht p (by simpa using hp)

example : ∃ c, polyhedronCentroid ⟨10 / 2 ^ 52, 10 / 2 ^ 52⟩ ((placedCube squareParts).map PlacedFace.triangles)
    ((placedCube squareParts).map PlacedFace.normal) ((placedCube squareParts).map PlacedFace.direction)
    ((placedCube squareParts).map PlacedFace.translation) ((placedCube squareParts).map PlacedFace.rotation) 1 = ok c ∧
    |c.x - 1 / 2| ≤ 6 / 10 ^ 16 := by
  obtain ⟨c, h1, h2⟩ := c99_centroid ⟨10 / 2 ^ 52, 10 / 2 ^ 52⟩ _ (placedCube_ok squareParts_level) placedCube_closed
    placedCube_ccw placedCube_heights 1 placedCube_within 1 one_ne_zero
  refine ⟨c, h1, ?_⟩
  have := (h2 ⟨0, 0, 0⟩).1
  rw [show coneMoment V3.x (⟨0, 0, 0⟩ : V3 ℚ) (surfaceOf (placedCube squareParts)) = 1 / 2 by decide +kernel,
    show surfaceArea (placedCube squareParts) = 6 by decide +kernel] at this
  rw [one_mul] at this
  refine le_trans this (by norm_num)

/-- C99: the triangles must lie in the plane within the tolerance. -/
theorem c99_abort (g : GeoCfg K) (f : PlacedFace K) (fs : List (PlacedFace K)) (t : V3 K × V3 K × V3 K)
    (ts : List (V3 K × V3 K × V3 K)) (ht : f.triangles = t :: ts) (hz : g.tolerance1D < |t.1.z|) (V : K) :
    polyhedronCentroid g ((f :: fs).map PlacedFace.triangles) ((f :: fs).map PlacedFace.normal)
        ((f :: fs).map PlacedFace.direction) ((f :: fs).map PlacedFace.translation)
        ((f :: fs).map PlacedFace.rotation) V = abort := by
  have : g.pointsAre2D (massPoints.map (mapTriangle t.1 t.2.1 t.2.2).F) = ok false := by
    unfold GeoCfg.pointsAre2D
    rw [assert_true (by simp [massPoints]), ok_bind]
    congr 1
    rw [List.all_eq_false]
    refine ⟨(mapTriangle t.1 t.2.1 t.2.2).F ⟨twoThirds, oneSixth, 0⟩, by simp [massPoints], ?_⟩
    rw [mapped_heights t _ (by simp [massPoints])]
    simpa using hz
  have hab : centroidOfTriangle g f.out f.rotation f.translation t = abort := by
    unfold centroidOfTriangle centroidPoints
    simp only [this, ok_bind]
    rfl
  rw [centroid_faces, foldRes_cons, ht, foldRes_cons, hab]
  rfl

example : (10 / 2 ^ 52 : ℚ) < |(⟨0, 0, 1⟩ : V3 ℚ).z| := by norm_num

end field

/-! ### Mass and inertia -/

theorem sum_plus_weights (f g : V3 ℝ × ℝ → ℝ) (l : List (V3 ℝ × ℝ)) :
    (l.map fun q => (f q + g q) * q.2).sum = (l.map fun q => f q * q.2).sum + (l.map fun q => g q * q.2).sum := by
  rw [← sum_map_plus]
  congr 1
  apply List.map_congr_left
  intro q _
  ring

/-- C100: the mass matrix holds the integrals of the products of the coordinates, measured from the given point, over the
tetrahedra, up to the rounding of the constants of the rule; it is symmetric. -/
theorem c100_mass {sqrt : ℝ → ℝ} (hs : IsSqrt sqrt) (g : GeoCfg ℝ) (c : V3 ℝ)
    (ts : List (V3 ℝ × V3 ℝ × V3 ℝ × V3 ℝ)) (D : ℝ) (h : TetsWithin D c ts) :
    ∃ M, polyhedronMass sqrt g c (ts.map fun t => [t.1, t.2.1, t.2.2.1, t.2.2.2]) = ok M ∧
      let ε := 234 / 10 ^ 18 * D ^ 2 * (ts.map fun t => |vol6 t.1 t.2.1 t.2.2.1 t.2.2.2|).sum
      |M.a00 - tetMoment V3.x V3.x c ts| ≤ ε ∧ |M.a11 - tetMoment V3.y V3.y c ts| ≤ ε ∧
      |M.a22 - tetMoment V3.z V3.z c ts| ≤ ε ∧ |M.a01 - tetMoment V3.x V3.y c ts| ≤ ε ∧
      |M.a02 - tetMoment V3.x V3.z c ts| ≤ ε ∧ |M.a12 - tetMoment V3.y V3.z c ts| ≤ ε ∧
      M.a10 = M.a01 ∧ M.a20 = M.a02 ∧ M.a21 = M.a12 := by
  have e : ∀ X Y : V3 ℝ → ℝ, (X = V3.x ∨ X = V3.y ∨ X = V3.z) → (Y = V3.x ∨ Y = V3.y ∨ Y = V3.z) →
      |((ts.flatMap tetQuad).map fun q => (X q.1 - X c) * (Y q.1 - Y c) * q.2).sum - tetMoment X Y c ts| ≤
      234 / 10 ^ 18 * D ^ 2 * (ts.map fun t => |vol6 t.1 t.2.1 t.2.2.1 t.2.2.2|).sum :=
    fun X Y hX hY => tetMoment_error hX hY c D ts h
  unfold polyhedronMass
  rw [show (fun t : V3 ℝ × V3 ℝ × V3 ℝ × V3 ℝ => [t.1, t.2.1, t.2.2.1, t.2.2.2]) = cornersOf from rfl,
    tetrahedronQuadrature_eq hs g ts, ok_bind]
  refine ⟨_, rfl, ?_⟩
  simp only [sq, and_true] at e ⊢
  exact ⟨e V3.x V3.x (by simp) (by simp), e V3.y V3.y (by simp) (by simp), e V3.z V3.z (by simp) (by simp),
    e V3.x V3.y (by simp) (by simp), e V3.x V3.z (by simp) (by simp), e V3.y V3.z (by simp) (by simp)⟩

example : TetsWithin 3 ⟨1, 1, 1⟩ [(⟨0, 0, 0⟩, ⟨4, 0, 0⟩, ⟨0, 3, 0⟩, ⟨1, 1, 2⟩)] := by
  intro t ht p hp
  simp only [List.mem_singleton] at ht
  subst ht
  simp only [List.mem_cons, List.not_mem_nil, or_false] at hp
  rcases hp with rfl | rfl | rfl | rfl <;> norm_num [abs_le]

/-- C100: the inertia matrix: on the diagonal the sum of the two other second moments, outside of it the mixed moments
with the other sign. -/
theorem c100_inertia {sqrt : ℝ → ℝ} (hs : IsSqrt sqrt) (g : GeoCfg ℝ) (c : V3 ℝ)
    (ts : List (V3 ℝ × V3 ℝ × V3 ℝ × V3 ℝ)) (D : ℝ) (h : TetsWithin D c ts) :
    ∃ I, polyhedronInertia sqrt g c (ts.map fun t => [t.1, t.2.1, t.2.2.1, t.2.2.2]) = ok I ∧
      let ε := 234 / 10 ^ 18 * D ^ 2 * (ts.map fun t => |vol6 t.1 t.2.1 t.2.2.1 t.2.2.2|).sum
      |I.a00 - (tetMoment V3.y V3.y c ts + tetMoment V3.z V3.z c ts)| ≤ 2 * ε ∧
      |I.a11 - (tetMoment V3.x V3.x c ts + tetMoment V3.z V3.z c ts)| ≤ 2 * ε ∧
      |I.a22 - (tetMoment V3.x V3.x c ts + tetMoment V3.y V3.y c ts)| ≤ 2 * ε ∧
      |I.a01 + tetMoment V3.x V3.y c ts| ≤ ε ∧ |I.a02 + tetMoment V3.x V3.z c ts| ≤ ε ∧
      |I.a12 + tetMoment V3.y V3.z c ts| ≤ ε ∧ I.a10 = I.a01 ∧ I.a20 = I.a02 ∧ I.a21 = I.a12 := by
  have e : ∀ X Y : V3 ℝ → ℝ, (X = V3.x ∨ X = V3.y ∨ X = V3.z) → (Y = V3.x ∨ Y = V3.y ∨ Y = V3.z) →
      |((ts.flatMap tetQuad).map fun q => (X q.1 - X c) * (Y q.1 - Y c) * q.2).sum - tetMoment X Y c ts| ≤
      234 / 10 ^ 18 * D ^ 2 * (ts.map fun t => |vol6 t.1 t.2.1 t.2.2.1 t.2.2.2|).sum :=
    fun X Y hX hY => tetMoment_error hX hY c D ts h
  have exx := abs_le.1 (e V3.x V3.x (by simp) (by simp))
  have eyy := abs_le.1 (e V3.y V3.y (by simp) (by simp))
  have ezz := abs_le.1 (e V3.z V3.z (by simp) (by simp))
  have exy := abs_le.1 (e V3.x V3.y (by simp) (by simp))
  have exz := abs_le.1 (e V3.x V3.z (by simp) (by simp))
  have eyz := abs_le.1 (e V3.y V3.z (by simp) (by simp))
  unfold polyhedronInertia
  rw [show (fun t : V3 ℝ × V3 ℝ × V3 ℝ × V3 ℝ => [t.1, t.2.1, t.2.2.1, t.2.2.2]) = cornersOf from rfl,
    tetrahedronQuadrature_eq hs g ts, ok_bind]
  refine ⟨_, rfl, ?_⟩
  simp only [sq, sum_plus_weights (fun q => (q.1.y - c.y) * (q.1.y - c.y)) (fun q => (q.1.z - c.z) * (q.1.z - c.z)),
    sum_plus_weights (fun q => (q.1.x - c.x) * (q.1.x - c.x)) (fun q => (q.1.z - c.z) * (q.1.z - c.z)),
    sum_plus_weights (fun q => (q.1.y - c.y) * (q.1.y - c.y)) (fun q => (q.1.x - c.x) * (q.1.x - c.x))]
  refine ⟨abs_le.2 ⟨?_, ?_⟩, abs_le.2 ⟨?_, ?_⟩, abs_le.2 ⟨?_, ?_⟩, abs_le.2 ⟨?_, ?_⟩, abs_le.2 ⟨?_, ?_⟩,
    abs_le.2 ⟨?_, ?_⟩, trivial, trivial, trivial⟩ <;> simp only [sq] at * <;>
    linarith [exx.1, exx.2, eyy.1, eyy.2, ezz.1, ezz.2, exy.1, exy.2, exz.1, exz.2, eyz.1, eyz.2]

/-! ### Tetrahedra from the triangles of the faces -/

section tets
variable {K : Type} [Field K]

/-- The vertex of the polyhedron at a position of a face. -/
def faceVertex (face : List (Nat × Nat)) (i : Nat) : Option Nat := (face[i]?).map Prod.fst

/-- The point at a position of a face. -/
def facePointAt (vs : List (V3 K)) (face : List (Nat × Nat)) (i : Nat) : Option (V3 K) :=
  (faceVertex face i).bind fun v => vs[v]?

theorem faceVertex_eq {face : List (Nat × Nat)} {i : Nat} (h : i < face.length) :
    faceVertex face i = some (vertexAt face i) := by
  unfold faceVertex vertexAt
  simp [h]

theorem facePointAt_eq {vs : List (V3 K)} {face : List (Nat × Nat)} {i : Nat} (h : i < face.length)
    (hv : ∀ c ∈ face, c.1 < vs.length) :
    vertexAt face i < vs.length ∧ facePointAt vs face i = some (vs.getD (vertexAt face i) V3.zero) := by
  have : vertexAt face i < vs.length := by
    unfold vertexAt
    have := hv face[i] (List.getElem_mem h)
    simpa [h] using this
  refine ⟨this, ?_⟩
  unfold facePointAt
  rw [faceVertex_eq h, Option.bind_some]
  simp [this]

/-- C101: the tetrahedra over the triangles of the faces. Each triangle, given by positions in its face, becomes the
tetrahedron of the three vertices and of a fourth point, numbered after the vertices; the corners of the tetrahedra are
the three points and the given point inside of the polyhedron. -/
theorem c101_tetrahedra (vs : List (V3 K)) (p : V3 K) (FT : List (List (Nat × Nat) × List (Nat × Nat × Nat)))
    (h : ∀ ft ∈ FT, ∀ t ∈ ft.2, t.1 < ft.1.length ∧ t.2.1 < ft.1.length ∧ t.2.2 < ft.1.length)
    (hv : ∀ ft ∈ FT, ∀ c ∈ ft.1, c.1 < vs.length) :
    ∃ ids T, tetrahedronsByFaceTriangulations vs.length (FT.map Prod.fst)
        (FT.map fun ft => ft.2.flatMap fun t => [t.1, t.2.1, t.2.2]) = ok ids ∧
      ids.map some = (FT.flatMap fun ft => ft.2.flatMap fun t =>
        [faceVertex ft.1 t.1, faceVertex ft.1 t.2.1, faceVertex ft.1 t.2.2, some vs.length]) ∧
      extractTetrahedronPoints vs p ids = ok T ∧
      T.map (fun tet => tet.map some) = FT.flatMap fun ft => ft.2.map fun t =>
        [facePointAt vs ft.1 t.1, facePointAt vs ft.1 t.2.1, facePointAt vs ft.1 t.2.2, some p] := by
  refine ⟨_, _, tetsByFaces_eq vs.length FT h, ?_, extractTets_eq vs p _ ?_, ?_⟩
  · simp only [flat4, List.map_flatMap, List.flatMap_assoc, List.flatMap_map, List.map_cons, List.map_nil]
    apply List.flatMap_congr
    intro ft hft
    apply List.flatMap_congr
    intro t ht
    obtain ⟨h1, h2, h3⟩ := h ft hft t ht
    rw [faceVertex_eq h1, faceVertex_eq h2, faceVertex_eq h3]
  · intro q hq
    obtain ⟨ft, hft, hq⟩ := List.mem_flatMap.1 hq
    obtain ⟨t, ht, rfl⟩ := List.mem_map.1 hq
    obtain ⟨h1, h2, h3⟩ := h ft hft t ht
    exact ⟨(facePointAt_eq h1 (hv ft hft)).1, (facePointAt_eq h2 (hv ft hft)).1, (facePointAt_eq h3 (hv ft hft)).1⟩
  · simp only [List.map_flatMap, List.map_map]
    apply List.flatMap_congr
    intro ft hft
    apply List.map_congr_left
    intro t ht
    obtain ⟨h1, h2, h3⟩ := h ft hft t ht
    simp only [Function.comp, List.map_cons, List.map_nil]
    rw [(facePointAt_eq h1 (hv ft hft)).2, (facePointAt_eq h2 (hv ft hft)).2, (facePointAt_eq h3 (hv ft hft)).2]

example : extractTetrahedronPoints ([⟨0, 0, 0⟩, ⟨1, 0, 0⟩, ⟨0, 1, 0⟩, ⟨0, 0, 1⟩] : List (V3 ℚ)) ⟨1 / 5, 1 / 5, 1 / 5⟩
    [1, 3, 2, 4] = ok [[⟨1, 0, 0⟩, ⟨0, 0, 1⟩, ⟨0, 1, 0⟩, ⟨1 / 5, 1 / 5, 1 / 5⟩]] := by decide +kernel

/-- The corners of the reference tetrahedron. -/
def tetCorners : List (V3 ℚ) := [⟨0, 0, 0⟩, ⟨1, 0, 0⟩, ⟨0, 1, 0⟩, ⟨0, 0, 1⟩]

example := c101_tetrahedra tetCorners ⟨1 / 5, 1 / 5, 1 / 5⟩
  [([(0, 0), (1, 2), (2, 1)], [(0, 1, 2)]), ([(0, 0), (1, 4), (3, 3)], [(0, 1, 2)]),
   ([(0, 1), (2, 5), (3, 3)], [(1, 2, 0)]), ([(1, 2), (2, 5), (3, 4)], [(2, 1, 0)])] (by decide) (by decide)

/-- C101: the same with a point in each face: the first corner of each triangle, whatever it is, is replaced by the point
of the face, numbered after the vertices in the order of the faces. -/
theorem c101_face_points (vs : List (V3 K)) (p : V3 K) (fps : List (V3 K))
    (FT : List (List (Nat × Nat) × List (Nat × Nat × Nat))) (hl : FT.length = fps.length)
    (h : ∀ ft ∈ FT, ∀ t ∈ ft.2, t.2.1 < ft.1.length ∧ t.2.2 < ft.1.length)
    (hv : ∀ ft ∈ FT, ∀ c ∈ ft.1, c.1 < vs.length) :
    ∃ ids T, tetrahedronsByFacePoints vs.length (FT.map Prod.fst)
        (FT.map fun ft => ft.2.flatMap fun t => [t.1, t.2.1, t.2.2]) fps.length = ok ids ∧
      ids.map some = (FT.zipIdx.flatMap fun ft => ft.1.2.flatMap fun t =>
        [some (vs.length + ft.2), faceVertex ft.1.1 t.2.1, faceVertex ft.1.1 t.2.2, some (vs.length + fps.length)]) ∧
      extractTetrahedronPointsByFacePoints vs p fps ids = ok T ∧
      T.map (fun tet => tet.map some) = FT.zipIdx.flatMap fun ft => ft.1.2.map fun t =>
        [fps[ft.2]?, facePointAt vs ft.1.1 t.2.1, facePointAt vs ft.1.1 t.2.2, some p] := by
  have hmem : ∀ ft ∈ FT.zipIdx, ft.1 ∈ FT ∧ ft.2 < fps.length := by
    intro ft hft
    obtain ⟨i, hi, e⟩ := List.mem_iff_getElem.1 hft
    rw [List.length_zipIdx] at hi
    rw [List.getElem_zipIdx] at e
    subst e
    exact ⟨List.getElem_mem hi, by simp; omega⟩
  refine ⟨_, _, tetsByFacePoints_eq vs.length fps.length FT h, ?_, extractTetsByFacePoints_eq vs p fps _ ?_, ?_⟩
  · simp only [flat4, List.map_flatMap, List.flatMap_assoc, List.flatMap_map, List.map_cons, List.map_nil]
    apply List.flatMap_congr
    intro ft hft
    apply List.flatMap_congr
    intro t ht
    obtain ⟨h2, h3⟩ := h ft.1 (hmem ft hft).1 t ht
    rw [faceVertex_eq h2, faceVertex_eq h3]
  · intro q hq
    obtain ⟨ft, hft, hq⟩ := List.mem_flatMap.1 hq
    obtain ⟨t, ht, rfl⟩ := List.mem_map.1 hq
    obtain ⟨m1, m2⟩ := hmem ft hft
    obtain ⟨h2, h3⟩ := h ft.1 m1 t ht
    refine ⟨Nat.le_add_right _ _, ?_, (facePointAt_eq h2 (hv ft.1 m1)).1, (facePointAt_eq h3 (hv ft.1 m1)).1⟩
    rw [Nat.add_sub_cancel_left]
    exact m2
  · simp only [List.map_flatMap, List.map_map]
    apply List.flatMap_congr
    intro ft hft
    obtain ⟨m1, m2⟩ := hmem ft hft
    apply List.map_congr_left
    intro t ht
    obtain ⟨h2, h3⟩ := h ft.1 m1 t ht
    simp only [Function.comp, List.map_cons, List.map_nil]
    rw [(facePointAt_eq h2 (hv ft.1 m1)).2, (facePointAt_eq h3 (hv ft.1 m1)).2, Nat.add_sub_cancel_left]
    simp [m2]

example := c101_face_points tetCorners ⟨1 / 5, 1 / 5, 1 / 5⟩ [⟨1 / 3, 1 / 3, 0⟩, ⟨1 / 3, 0, 1 / 3⟩]
  [([(0, 0), (1, 2), (2, 1)], [(3, 0, 1), (3, 1, 2), (3, 2, 0)]), ([(0, 0), (1, 4), (3, 3)], [(3, 0, 1), (3, 1, 2)])]
  rfl (by decide) (by decide)

end tets

end Verif
