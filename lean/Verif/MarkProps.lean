import Verif.MarkLemmas
import Verif.FromPolygonProps
import Mathlib.Tactic.IntervalCases

/-
C90: the markers on a line and on a segment.
-/
namespace Verif

open Res

variable {K : Type} [Field K] [LinearOrder K] [IsStrictOrderedRing K]

/-- C90, line: `SetMeshMarkersOnLine` gives the marker to the vertices within the tolerance of the line and to the
edges with both ends there, and changes nothing else. -/
theorem c90_line (g : GeoCfg K) {m : Mesh K} (hw : m.WF) (hx : EndsExist m) {o t : V3 K} (ht : 0 < t.dot t)
    (marker : Nat) :
    ∃ m', g.setMarkersOnLine o t (t.dot t) marker m = ok m' ∧ m'.WF ∧ MarkedOn (g.NearLine o t) marker m m' := by
  refine Mesh.markOn_ok hw hx marker fun i p _ => ⟨_, rfl, isPointOnLine_iff g ht⟩

/-- C90, segment: `SetMeshMarkersOnSegment` gives the marker to the vertices on the segment up to the tolerances, and
to the edges with both ends there, and changes nothing else, if the mesh and the segment are in the plane or every
vertex within the tolerance of the line is also within the tolerance in the angle. The full statement, for the
vertices within the tolerance of a point of the segment and without this condition, fails, see
`c90_segment_violated`. -/
theorem c90_segment_partial (g : GeoCfg K) (h0 : 0 ≤ g.minTolerance) (hT : g.tol1D < 1 / 2) (h1 : g.tolSq ≤ 1)
    {sqrt : K → K} (hs : IsSqrt sqrt) {m : Mesh K} (hw : m.WF) (hx : EndsExist m) {o t : V3 K} (ht : 0 < t.dot t)
    (hf : (o.z = 0 ∧ t.z = 0 ∧ ∀ i p, m.point i = ok p → p.z = 0) ∨
      (∀ i p, m.point i = ok p → g.NearLine o t p → g.OnLine o (o.add t) p)) (marker : Nat) :
    ∃ m', g.setMarkersOnSegment sqrt o t (t.dot t) marker m = ok m' ∧ m'.WF ∧
      MarkedOn (g.NearSegment o t) marker m m' := by
  refine Mesh.markOn_ok hw hx marker fun i p hp => isVertexOnSegment_ok hs g h0 hT h1 ht ?_
  rcases hf with ⟨a, b, c⟩ | hf
  · exact Or.inl ⟨a, b, c i p hp⟩
  · exact Or.inr (hf i p hp)

/-- C90, a point of the line is on the segment exactly if its coordinate is between 0 and 1, up to the tolerance. -/
theorem c90_exact (g : GeoCfg K) {o t : V3 K} (ht : 0 < t.dot t) (s : K) :
    g.NearSegment o t (o.add (V3.smul s t)) ↔ -g.tol1D ≤ s ∧ s ≤ 1 + g.tol1D := by
  have hc : coordOn o (o.add t) (o.add (V3.smul s t)) = s := by
    unfold coordOn
    have h1 : dist2 o (o.add t) = t.dot t := by simp only [dist2, V3.add, V3.dot]; ring
    rw [h1, div_eq_iff ht.ne']
    simp only [dot4, V3.add, V3.smul, V3.dot]
    ring
  have hz : dist2 (o.add (V3.smul s t)) (o.add (V3.smul s t)) = 0 := by simp [dist2]
  have hl : g.OnLine o (o.add t) (o.add (V3.smul s t)) := by
    right
    have : cross2 o (o.add t) (o.add (V3.smul s t)) = 0 := by
      simp only [cross2, V3.add, V3.smul]; ring
    rw [this]
    exact mul_nonneg g.tolSq_nonneg (mul_nonneg (dist2_nonneg _ _) (dist2_nonneg _ _))
  unfold GeoCfg.NearSegment
  rw [hc]
  refine ⟨fun h => h.2.2, fun h => ⟨⟨s, ?_⟩, hl, h⟩⟩
  rw [hz]
  exact g.tolSq_nonneg

/-- Some point of the segment is within the tolerance of `p`. -/
def GeoCfg.AtSegment (g : GeoCfg K) (o t p : V3 K) : Prop :=
  ∃ s : K, 0 ≤ s ∧ s ≤ 1 ∧ dist2 p (o.add (V3.smul s t)) ≤ g.tolSq

/-- The points of the mesh of a polygon. -/
theorem polygonMesh_point {ps : List (V3 K)} {vm em : List Nat} {m : Mesh K} (h : PolygonMesh ps vm em m) (i : Nat)
    (p : V3 K) : m.point i = ok p ↔ ps[i]? = some p := by
  have hp : ∀ q, ps[i]? = some q → m.point i = ok q := by
    intro q hq
    unfold Mesh.point
    rw [h.points.2 i q hq]
    rfl
  refine ⟨fun e => ?_, hp p⟩
  have hi := point_lt e
  rw [h.points.1] at hi
  rw [List.getElem?_eq_getElem hi, ok.inj ((hp _ (List.getElem?_eq_getElem hi)).symm.trans e)]

theorem polygonMesh_ends {ps : List (V3 K)} {vm em : List Nat} {m : Mesh K} (hn : 2 < ps.length)
    (h : PolygonMesh ps vm em m) : EndsExist m := fun e x y he => by
  obtain ⟨a, b, -⟩ := (c89_fits hn h).1 e x y he
  exact ⟨a, b⟩

/-- The segment from (0, 0) to (1, 0) and a mesh of one triangle whose third vertex has the distance `2⁻²⁵` from the
segment, which is below the tolerance of a squared length. -/
theorem near_triangle (q : V3 ℝ) : ∃ m : Mesh ℝ, m.WF ∧ EndsExist m ∧ m.num .d0 = 3 ∧
    (∀ i p, m.point i = ok p ↔ ([⟨0, 0, 0⟩, ⟨1, 0, 0⟩, q] : List (V3 ℝ))[i]? = some p) ∧
    m.marker .d0 0 = ok 1 ∧ m.marker .d0 2 = ok 3 ∧ m.extremes 0 = ok (0, 1) ∧ m.extremes 1 = ok (1, 2) ∧
    m.marker .d1 0 = ok 4 ∧ m.marker .d1 1 = ok 5 := by
  obtain ⟨m, -, h⟩ := (c89_polygon_mesh ([⟨0, 0, 0⟩, ⟨1, 0, 0⟩, q] : List (V3 ℝ)) [] []).1 (by simp)
  refine ⟨m, h.wf, polygonMesh_ends (by simp) h, h.points.1, polygonMesh_point h, ?_, ?_, h.edges.2 0 _ rfl,
    h.edges.2 1 _ rfl, ?_, ?_⟩
  · obtain ⟨k, hk, -, h1⟩ := h.vertexMarkers 0 (by simp)
    rw [hk, h1 (by simp)]
  · obtain ⟨k, hk, -, h1⟩ := h.vertexMarkers 2 (by simp)
    rw [hk, h1 (by simp)]
  · obtain ⟨k, hk, -, h1⟩ := h.edgeMarkers 0 (by simp)
    rw [hk, h1 (by simp)]; rfl
  · obtain ⟨k, hk, -, h1⟩ := h.edgeMarkers 1 (by simp)
    rw [hk, h1 (by simp)]; rfl

/-- The hypotheses of `c90_line` and `c90_segment_partial`, and the markers: of the triangle (0, 0), (1, 0), (1, 5)
the first two vertices and the edge between them are marked. -/
example : ∃ m ml ms : Mesh ℝ, m.WF ∧ EndsExist m ∧ (∀ i p, m.point i = ok p → p.z = 0) ∧
    defaultGeo.setMarkersOnLine ⟨0, 0, 0⟩ ⟨1, 0, 0⟩ 1 77 m = ok ml ∧ ml.marker .d0 0 = ok 77 ∧ ml.marker .d0 2 = ok 3 ∧
    ml.marker .d1 0 = ok 77 ∧ ml.marker .d1 1 = ok 5 ∧
    defaultGeo.setMarkersOnSegment Real.sqrt ⟨0, 0, 0⟩ ⟨1, 0, 0⟩ 1 77 m = ok ms ∧ ms.marker .d1 0 = ok 77 := by
  obtain ⟨m, hw, hx, -, hp, -, h2, x0, x1, -, m1⟩ := near_triangle ⟨1, 5, 0⟩
  have ht : (⟨1, 0, 0⟩ : V3 ℝ).dot ⟨1, 0, 0⟩ = 1 := by norm_num [V3.dot]
  have hz : ∀ i p, m.point i = ok p → p.z = 0 := by
    intro i p h
    have := List.mem_of_getElem? ((hp i p).1 h)
    simp only [List.mem_cons, List.not_mem_nil, or_false] at this
    rcases this with rfl | rfl | rfl <;> rfl
  obtain ⟨ml, e1, -, M1⟩ := c90_line defaultGeo hw hx (o := ⟨0, 0, 0⟩) (t := ⟨1, 0, 0⟩) (by rw [ht]; norm_num) 77
  obtain ⟨ms, e2, -, M2⟩ := c90_segment_partial defaultGeo defaultGeo_min_nonneg defaultGeo_lt_half
    defaultGeo_tolSq_le isSqrt_real hw hx (o := ⟨0, 0, 0⟩) (t := ⟨1, 0, 0⟩) (by rw [ht]; norm_num)
    (Or.inl ⟨rfl, rfl, hz⟩) 77
  rw [ht] at e1 e2
  have s0 : defaultGeo.NearSegment ⟨0, 0, 0⟩ ⟨1, 0, 0⟩ ⟨0, 0, 0⟩ := by
    have := (c90_exact defaultGeo (o := ⟨0, 0, 0⟩) (t := ⟨1, 0, 0⟩) (by rw [ht]; norm_num) 0).2
      (by rw [defaultGeo_tol1D]; norm_num)
    simpa [V3.add, V3.smul] using this
  have s1 : defaultGeo.NearSegment ⟨0, 0, 0⟩ ⟨1, 0, 0⟩ ⟨1, 0, 0⟩ := by
    have := (c90_exact defaultGeo (o := ⟨0, 0, 0⟩) (t := ⟨1, 0, 0⟩) (by rw [ht]; norm_num) 1).2
      (by rw [defaultGeo_tol1D]; norm_num)
    simpa [V3.add, V3.smul] using this
  have n2 : ¬ defaultGeo.NearLine ⟨0, 0, 0⟩ ⟨1, 0, 0⟩ ⟨1, 5, 0⟩ := by
    rintro ⟨s, h⟩
    rw [defaultGeo_tolSq] at h
    simp only [dist2, V3.add, V3.smul] at h
    have := mul_self_nonneg (1 - (0 + s * 1))
    norm_num at h
    nlinarith
  have p0 : m.point 0 = ok ⟨0, 0, 0⟩ := (hp 0 _).2 rfl
  have p1 : m.point 1 = ok ⟨1, 0, 0⟩ := (hp 1 _).2 rfl
  have p2 : m.point 2 = ok ⟨1, 5, 0⟩ := (hp 2 _).2 rfl
  refine ⟨m, ml, ms, hw, hx, hz, e1, (M1.vertices 0 _ p0).1 s0.1, ?_, (M1.edges 0 _ _ _ _ x0 p0 p1).1 s0.1 s1.1, ?_, e2,
    (M2.edges 0 _ _ _ _ x0 p0 p1).1 s0 s1⟩
  · rw [(M1.vertices 2 _ p2).2 n2, h2]
  · rw [(M1.edges 1 _ _ _ _ x1 p1 p2).2 fun h => n2 h.2, m1]

/-- C90 fails on a segment, in the plane: the vertex (1/2, 2⁻²⁵) is within the tolerance of the segment from (0, 0)
to (1, 0), and `SetMeshMarkersOnLine` marks it, but `SetMeshMarkersOnSegment` does not. -/
theorem c90_segment_violated : ∃ (m ml ms : Mesh ℝ), m.WF ∧ EndsExist m ∧ (∀ i p, m.point i = ok p → p.z = 0) ∧
    defaultGeo.setMarkersOnLine ⟨0, 0, 0⟩ ⟨1, 0, 0⟩ 1 77 m = ok ml ∧
    defaultGeo.setMarkersOnSegment Real.sqrt ⟨0, 0, 0⟩ ⟨1, 0, 0⟩ 1 77 m = ok ms ∧
    defaultGeo.AtSegment ⟨0, 0, 0⟩ ⟨1, 0, 0⟩ ⟨1 / 2, 1 / 2 ^ 25, 0⟩ ∧ m.point 2 = ok ⟨1 / 2, 1 / 2 ^ 25, 0⟩ ∧
    ml.marker .d0 2 = ok 77 ∧ ms.marker .d0 2 = ok 3 ∧
    ¬ MarkedOn (defaultGeo.AtSegment ⟨0, 0, 0⟩ ⟨1, 0, 0⟩) 77 m ms := by
  obtain ⟨m, hw, hx, -, hp, -, h2, -⟩ := near_triangle ⟨1 / 2, 1 / 2 ^ 25, 0⟩
  have ht : (⟨1, 0, 0⟩ : V3 ℝ).dot ⟨1, 0, 0⟩ = 1 := by norm_num [V3.dot]
  have hz : ∀ i p, m.point i = ok p → p.z = 0 := by
    intro i p h
    have := List.mem_of_getElem? ((hp i p).1 h)
    simp only [List.mem_cons, List.not_mem_nil, or_false] at this
    rcases this with rfl | rfl | rfl <;> rfl
  have hq : m.point 2 = ok ⟨1 / 2, 1 / 2 ^ 25, 0⟩ := (hp 2 _).2 rfl
  obtain ⟨ml, e1, -, M1⟩ := c90_line defaultGeo hw hx (o := ⟨0, 0, 0⟩) (t := ⟨1, 0, 0⟩) (by rw [ht]; norm_num) 77
  obtain ⟨ms, e2, -, M2⟩ := c90_segment_partial defaultGeo defaultGeo_min_nonneg defaultGeo_lt_half
    defaultGeo_tolSq_le isSqrt_real hw hx (o := ⟨0, 0, 0⟩) (t := ⟨1, 0, 0⟩) (by rw [ht]; norm_num)
    (Or.inl ⟨rfl, rfl, hz⟩) 77
  rw [ht] at e1 e2
  have at' : defaultGeo.AtSegment ⟨0, 0, 0⟩ ⟨1, 0, 0⟩ ⟨1 / 2, 1 / 2 ^ 25, 0⟩ := by
    refine ⟨1 / 2, by norm_num, by norm_num, ?_⟩
    rw [defaultGeo_tolSq]
    norm_num [dist2, V3.add, V3.smul]
  have near : defaultGeo.NearLine ⟨0, 0, 0⟩ ⟨1, 0, 0⟩ ⟨1 / 2, 1 / 2 ^ 25, 0⟩ := by
    obtain ⟨s, -, -, h⟩ := at'; exact ⟨s, h⟩
  have off : ¬ defaultGeo.NearSegment ⟨0, 0, 0⟩ ⟨1, 0, 0⟩ ⟨1 / 2, 1 / 2 ^ 25, 0⟩ := by
    rintro ⟨-, h, -⟩
    unfold GeoCfg.OnLine at h
    rw [defaultGeo_tolSq] at h
    norm_num [dist2, cross2, V3.add] at h
  have r1 := (M1.vertices 2 _ hq).1 near
  have r2 := (M2.vertices 2 _ hq).2 off
  rw [h2] at r2
  refine ⟨m, ml, ms, hw, hx, hz, e1, e2, at', hq, r1, r2, fun M => ?_⟩
  have := (M.vertices 2 _ hq).1 at'
  rw [r2] at this
  exact absurd (ok.inj this) (by norm_num)

/-- C90 fails on a segment, in space: with the vertex (1/2, 0, 2⁻²⁵), which is within the tolerance of the segment,
`SetMeshMarkersOnSegment` stops at an assertion. -/
theorem c90_space_violated : ∃ m : Mesh ℝ, m.WF ∧ EndsExist m ∧ m.point 2 = ok ⟨1 / 2, 0, 1 / 2 ^ 25⟩ ∧
    defaultGeo.AtSegment ⟨0, 0, 0⟩ ⟨1, 0, 0⟩ ⟨1 / 2, 0, 1 / 2 ^ 25⟩ ∧
    defaultGeo.setMarkersOnSegment Real.sqrt ⟨0, 0, 0⟩ ⟨1, 0, 0⟩ 1 77 m = abort := by
  obtain ⟨m, hw, hx, hn, hp, -⟩ := near_triangle ⟨1 / 2, 0, 1 / 2 ^ 25⟩
  have hq : m.point 2 = ok ⟨1 / 2, 0, 1 / 2 ^ 25⟩ := (hp 2 _).2 rfl
  have ht : (⟨1, 0, 0⟩ : V3 ℝ).dot ⟨1, 0, 0⟩ = 1 := by norm_num [V3.dot]
  have ht0 : 0 < (⟨1, 0, 0⟩ : V3 ℝ).dot ⟨1, 0, 0⟩ := by rw [ht]; norm_num
  have at' : defaultGeo.AtSegment ⟨0, 0, 0⟩ ⟨1, 0, 0⟩ ⟨1 / 2, 0, 1 / 2 ^ 25⟩ := by
    refine ⟨1 / 2, by norm_num, by norm_num, ?_⟩
    rw [defaultGeo_tolSq]
    norm_num [dist2, V3.add, V3.smul]
  have off : ¬ defaultGeo.OnLine ⟨0, 0, 0⟩ ((⟨0, 0, 0⟩ : V3 ℝ).add ⟨1, 0, 0⟩) ⟨1 / 2, 0, 1 / 2 ^ 25⟩ := by
    intro h
    unfold GeoCfg.OnLine at h
    rw [defaultGeo_tolSq] at h
    norm_num [dist2, cross2, V3.add] at h
  have stop : defaultGeo.isVertexOnSegment Real.sqrt ⟨0, 0, 0⟩ ⟨1, 0, 0⟩ 1 ⟨1 / 2, 0, 1 / 2 ^ 25⟩ = abort := by
    unfold GeoCfg.isVertexOnSegment
    have near := (isPointOnLine_iff defaultGeo (o := ⟨0, 0, 0⟩) (t := ⟨1, 0, 0⟩) (p := ⟨1 / 2, 0, 1 / 2 ^ 25⟩) ht0).2
      (by obtain ⟨s, -, -, h⟩ := at'; exact ⟨s, h⟩)
    rw [ht] at near
    rw [near, if_neg (by simp), c68_off_plane Real.sqrt isSqrt_real defaultGeo defaultGeo_min_nonneg _ _ _ off, abort_bind]
    right
    have hn : V3.norm Real.sqrt ((⟨1 / 2, 0, 1 / 2 ^ 25⟩ : V3 ℝ).sub ⟨0, 0, 0⟩) ≤ 1 := by
      unfold V3.norm
      rw [Real.sqrt_le_left (by norm_num)]
      norm_num [V3.dot, V3.sub]
    rw [defaultGeo_tol1D]
    calc (10 / 2 ^ 52 : ℝ) * _ ≤ 10 / 2 ^ 52 * 1 := mul_le_mul_of_nonneg_left hn (by norm_num)
      _ < _ := by norm_num
  refine ⟨m, hw, hx, hq, at', ?_⟩
  unfold GeoCfg.setMarkersOnSegment Mesh.markOn
  obtain ⟨l, on, e, -, -, -⟩ := Mesh.markVertices_ok hw (test := defaultGeo.isVertexOnSegment Real.sqrt ⟨0, 0, 0⟩
    ⟨1, 0, 0⟩ 1) 77 2 (by omega) fun i p hi h => by
      have hz : p.z = 0 := by
        rw [hp] at h
        interval_cases i <;> simp at h <;> rw [← h]
      obtain ⟨b, hb, -⟩ := isVertexOnSegment_ok isSqrt_real defaultGeo defaultGeo_min_nonneg defaultGeo_lt_half
        defaultGeo_tolSq_le (o := ⟨0, 0, 0⟩) (t := ⟨1, 0, 0⟩) (p := p) ht0 (Or.inl ⟨rfl, rfl, hz⟩)
      rw [ht] at hb
      exact ⟨b, hb⟩
  rw [hn] at e ⊢
  rw [List.range_succ, foldRes_append, e, ok_bind, Mesh.foldRes_one]
  unfold Mesh.markVertex
  simp only
  rw [Mesh.point_remark, hq, ok_bind, stop, abort_bind, abort_bind]

end Verif
