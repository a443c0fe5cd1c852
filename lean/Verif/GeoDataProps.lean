import Verif.GeoDataLemmas
import Verif.MarkProps
import Verif.ExtractLemmas
import Verif.MomentProps

/-
C93: the geometric data of a mesh in the plane. C94: the check of the geometric data.
-/
namespace Verif

open Res

variable {K : Type} [Field K] [LinearOrder K] [IsStrictOrderedRing K]

/-! ### C93 -/

/-- C93: `FillMesh2DGeometricData` comes back, with one entry for each polygon; the entry of an active polygon has the
data of the polygon, the others are left empty. -/
theorem c93_fill {g : GeoCfg K} {sqrt : K → K} (hs : IsSqrt sqrt) (h0 : 0 ≤ g.minTolerance)
    (h1 : 0 ≤ g.tolerance1D) {m : Mesh K} (hw : m.WF) (vs es : Nat → List Nat) (ps : Nat → List (V3 K))
    (h : ∀ c, m.active .d2 c = ok true → CellReady g sqrt m c (vs c) (es c) (ps c)) :
    ∃ data, g.fillGeo sqrt m = ok data ∧ data.length = m.num .d2 ∧
      (∀ c, m.active .d2 c = ok true → ∃ d, data[c]? = some (some d) ∧ GeoOf g m (vs c) (es c) (ps c) d) ∧
      ∀ c, m.active .d2 c = ok false → data[c]? = some none := by
  obtain ⟨data, hd, hr⟩ := mapRes_forall₂ (f := fun c => do
      let act ← m.active .d2 c
      if act then do
        let d ← g.cellGeo sqrt m c
        ok (some d)
      else ok none)
    (R := fun c o => (m.active .d2 c = ok true → ∃ d, o = some d ∧ GeoOf g m (vs c) (es c) (ps c) d) ∧
      (m.active .d2 c = ok false → o = none))
    (l := List.range (m.num .d2)) (by
      intro c hc
      rw [List.mem_range] at hc
      obtain ⟨b, hb⟩ := active_exists hw .d2 hc
      cases b with
      | true =>
        obtain ⟨d, h2, h3⟩ := cellGeo_ok hs h0 h1 hw (h c hb)
        exact ⟨some d, by simp [hb, h2], fun _ => ⟨d, rfl, h3⟩, fun h' => by rw [hb] at h'; cases h'⟩
      | false =>
        exact ⟨none, by simp [hb], (fun h' => by rw [hb] at h'; cases h'), fun _ => rfl⟩)
  have hl := hr.length_eq
  rw [List.length_range] at hl
  have hat : ∀ c, c < m.num .d2 → ∃ o, data[c]? = some o ∧
      ((m.active .d2 c = ok true → ∃ d, o = some d ∧ GeoOf g m (vs c) (es c) (ps c) d) ∧
      (m.active .d2 c = ok false → o = none)) := by
    intro c hc
    have := (List.forall₂_iff_get.1 hr).2 c (by simpa using hc) (by omega)
    simp only [List.get_eq_getElem, List.getElem_range] at this
    exact ⟨_, List.getElem?_eq_getElem (by omega), this⟩
  refine ⟨data, hd, hl.symm, ?_, ?_⟩
  · intro c hc
    obtain ⟨o, ho, h2, -⟩ := hat c (lt_of_active hc)
    obtain ⟨d, rfl, hg⟩ := h2 hc
    exact ⟨d, ho, hg⟩
  · intro c hc
    obtain ⟨o, ho, -, h3⟩ := hat c (lt_of_active hc)
    rw [ho, h3 hc]

/-- C93, the tolerance: on points with integer coordinates up to `2¹⁰` the default tolerance tells aligned points
apart. -/
theorem c93_grid {ps : List (V3 ℝ)} (hp : ∀ p ∈ ps, IsSmallGridPoint p) : AlignedExact defaultGeo Real.sqrt ps := by
  intro a ha b hb c hc h
  by_contra hn
  rw [aligned_grid (hp a ha) (hp b hb) (hp c hc) hn] at h
  cases h

/-- C93, the mesh of one polygon made by `Mesh2DFromPolygon`. -/
theorem c93_polygon {g : GeoCfg K} {sqrt : K → K} (hs : IsSqrt sqrt) (h0 : 0 ≤ g.minTolerance)
    (h1 : 0 ≤ g.tolerance1D) {ps : List (V3 K)} {vm em : List Nat} {m : Mesh K} (h2 : 2 < ps.length)
    (hm : PolygonMesh ps vm em m) (hz : ∀ q ∈ ps, q.z = 0) (hmv : MovesOn ps) (he : AlignedExact g sqrt ps)
    (ha : shoelace ps ≠ 0) :
    ∃ d, g.fillGeo sqrt m = ok [some d] ∧ d.directions = List.replicate ps.length true ∧
      GeoOf g m (List.range ps.length) (List.range ps.length) ps d := by
  have hn2 : m.num .d2 = 1 := hm.polygons.1
  have hn1 : m.num .d1 = ps.length := by simpa using hm.edges.1
  have ext : ∀ e, e < ps.length → m.extremes e = ok (e, nextIn ps.length e) := fun e he =>
    hm.edges.2 e _ (by simp [he])
  have hact : m.active .d2 0 = ok true := hm.active .d2 0 (by omega)
  have hready : CellReady g sqrt m 0 (List.range ps.length) (List.range ps.length) ps := by
    refine ⟨hm.polygons.2.2.1 0 _ rfl, hm.polygons.2.2.2 0 _ rfl, rfl, ?_, ?_, ?_, h2, hz, hmv, he, ha⟩
    · intro e he'
      rw [hn1]
      exact List.mem_range.1 he'
    · intro i j e f x hi hj hx hy
      obtain ⟨li, rfl⟩ := List.getElem?_eq_some_iff.1 hi
      obtain ⟨lj, rfl⟩ := List.getElem?_eq_some_iff.1 hj
      simp only [List.getElem_range] at hx hy
      rw [List.length_range] at li lj
      rw [ext i li] at hx
      rw [ext j lj] at hy
      obtain rfl := ok.inj hx
      have := ok.inj hy
      rw [Prod.mk.injEq] at this
      exact this.1.symm
    · rw [List.forall₂_iff_get]
      refine ⟨by simp, ?_⟩
      intro i hi hi'
      simp only [List.get_eq_getElem, List.getElem_range]
      exact (polygonMesh_point hm i _).2 (List.getElem?_eq_getElem hi')
  obtain ⟨data, e1, e2, e3, -⟩ := c93_fill hs h0 h1 hm.wf (fun _ => List.range ps.length)
    (fun _ => List.range ps.length) (fun _ => ps) (fun c hc => by
      have := lt_of_active hc
      rw [hn2] at this
      obtain rfl : c = 0 := by omega
      exact hready)
  obtain ⟨d, hd, hg⟩ := e3 0 hact
  rw [hn2] at e2
  have hdata : data = [some d] := by
    match data, e2, hd with
    | [o], _, hd => simpa using hd
  refine ⟨d, by rw [e1, hdata], ?_, hg⟩
  obtain ⟨hl, hdir⟩ := hg.directions
  apply List.ext_getElem
  · simpa using hl
  · intro k hk hk'
    simp only [List.length_replicate] at hk'
    have hnext : (List.range ps.length)[(k + 1) % (List.range ps.length).length]? = some (nextIn ps.length k) := by
      have hlt : (k + 1) % ps.length < ps.length := Nat.mod_lt _ (by omega)
      rw [List.length_range, List.getElem?_range hlt, nextIn_eq hk']
    have := (hdir k k k (nextIn ps.length k) (by simp [hk']) (by simp [hk']) hnext).2 (ext k hk')
    rw [List.getElem?_eq_getElem hk] at this
    simpa using this

/-- The data of the quadrilateral (0, 0), (4, 0), (4, 4), (0, 4) with the additional vertex (2, 0), which is left out of
the triangles. -/
example : ∃ (m : Mesh ℝ) (d : CellGeo ℝ), m.WF ∧ defaultGeo.fillGeo Real.sqrt m = ok [some d] ∧ d.area = 16 ∧
    d.centroid = ⟨2, 2, 0⟩ ∧ d.lengths.length = 5 ∧ ∀ t ∈ d.triangles, 0 < area2 t.1 t.2.1 t.2.2 := by
  obtain ⟨m, -, hm⟩ := (c89_polygon_mesh ([⟨0, 0, 0⟩, ⟨2, 0, 0⟩, ⟨4, 0, 0⟩, ⟨4, 4, 0⟩, ⟨0, 4, 0⟩] : List (V3 ℝ)) [] []).1
    (by simp)
  have hsh : shoelace ([⟨0, 0, 0⟩, ⟨2, 0, 0⟩, ⟨4, 0, 0⟩, ⟨4, 4, 0⟩, ⟨0, 4, 0⟩] : List (V3 ℝ)) = 32 := by
    norm_num [shoelace]
  have edges : ∀ {P : V3 ℝ → V3 ℝ → Prop}, P ⟨0, 0, 0⟩ ⟨2, 0, 0⟩ → P ⟨2, 0, 0⟩ ⟨4, 0, 0⟩ → P ⟨4, 0, 0⟩ ⟨4, 4, 0⟩ →
      P ⟨4, 4, 0⟩ ⟨0, 4, 0⟩ → P ⟨0, 4, 0⟩ ⟨0, 0, 0⟩ → ∀ (i : Nat) (a b : V3 ℝ),
      ([⟨0, 0, 0⟩, ⟨2, 0, 0⟩, ⟨4, 0, 0⟩, ⟨4, 4, 0⟩, ⟨0, 4, 0⟩] : List (V3 ℝ))[i]? = some a →
      ([⟨0, 0, 0⟩, ⟨2, 0, 0⟩, ⟨4, 0, 0⟩, ⟨4, 4, 0⟩, ⟨0, 4, 0⟩] : List (V3 ℝ))[(i + 1) %
        ([⟨0, 0, 0⟩, ⟨2, 0, 0⟩, ⟨4, 0, 0⟩, ⟨4, 4, 0⟩, ⟨0, 4, 0⟩] : List (V3 ℝ)).length]? = some b → P a b := by
    intro P h0 h1 h2 h3 h4 i a b ha hb
    have hi : i < 5 := (List.getElem?_eq_some_iff.1 ha).1
    have : i = 0 ∨ i = 1 ∨ i = 2 ∨ i = 3 ∨ i = 4 := by omega
    rcases this with rfl | rfl | rfl | rfl | rfl <;> simp at ha hb <;> subst ha <;> subst hb <;> assumption
  obtain ⟨d, h1, -, h2⟩ := c93_polygon (g := defaultGeo) isSqrt_real (by norm_num [defaultGeo])
    (by norm_num [defaultGeo]) (by simp) hm (by simp)
    (fun i a b ha hb => edges (P := fun a b => a.x ≠ b.x ∨ a.y ≠ b.y) (by simp) (by simp) (by simp) (by simp) (by simp) i a b ha hb)
    (c93_grid (by
      intro p hp
      simp only [List.mem_cons, List.not_mem_nil, or_false] at hp
      rcases hp with rfl | rfl | rfl | rfl | rfl
      · exact ⟨0, 0, by norm_num, by norm_num, by simp⟩
      · exact ⟨2, 0, by norm_num, by norm_num, by simp⟩
      · exact ⟨4, 0, by norm_num, by norm_num, by simp⟩
      · exact ⟨4, 4, by norm_num, by norm_num, by simp⟩
      · exact ⟨0, 4, by norm_num, by norm_num, by simp⟩)) (by rw [hsh]; norm_num)
  refine ⟨m, d, hm.wf, h1, ?_, ?_, h2.lengths.1, h2.proper ?_⟩
  · have := h2.area
    rw [hsh] at this
    linarith
  · obtain ⟨e1, e2, e3⟩ := h2.centroid
    rw [hsh] at e1 e2
    norm_num [firstMoment] at e1 e2
    ext
    · linarith
    · linarith
    · exact e3
  · intro i a b p ha hb hp
    refine edges (P := fun a b => 0 ≤ area2 a b p) ?_ ?_ ?_ ?_ ?_ i a b ha hb <;>
    · simp only [List.mem_cons, List.not_mem_nil, or_false] at hp
      rcases hp with rfl | rfl | rfl | rfl | rfl <;> norm_num [area2]

/-! ### C94 -/

/-- C94, up to the number of polyhedra: with at most as many polyhedra as polygons, `CheckMeshGeometricData2D` accepts
the data exactly if the data of the active polygons pass the tests, but only of those whose index is below the number
of polyhedra. Missing: the other polygons, see `c94_violated`. -/
theorem c94_partial (g : GeoCfg K) (tol2D : K) (cfg : GeoCheckCfg) {m : Mesh K} (hw : m.WF)
    (hn : m.num .d3 ≤ m.num .d2) {data : List (Option (CellGeo K))}
    (hd : ∀ c, m.active .d2 c = ok true → ∃ d, data[c]? = some (some d)) :
    g.checkGeo tol2D cfg m data = ok () ↔
      ∀ c d n, c < m.num .d3 → m.active .d2 c = ok true → m.rowSize .edge2 c = ok n → data[c]? = some (some d) →
        DataPasses (max |g.tol1D| g.minTolerance) (max |tol2D| g.minTolerance) cfg n d := by
  have hd' : ∀ c, c < m.num .d3 → m.active .d2 c = ok true → ∃ d, data[c]? = some (some d) := fun c _ => hd c
  have hrow : ∀ c, c < m.num .d3 → ∃ n, m.rowSize .edge2 c = ok n := by
    intro c hc
    obtain ⟨r, hr⟩ := Mesh.row_exists hw .edge2 (show c < m.num .d2 by omega)
    exact ⟨_, rowSize_of_row hw hr⟩
  unfold GeoCfg.checkGeo
  rw [bind_unit_ok, bind_unit_ok, bind_unit_ok, testIf_ok, testIf_ok, testIf_ok, testIf_ok,
    testData_ok hw hn hd', testData_ok hw hn hd', testData_ok hw hn hd', testData_ok hw hn hd']
  constructor
  · rintro ⟨h1, h2, h3, h4⟩ c d n hc ha hr hcd
    refine ⟨fun hb => ?_, fun hb => ?_, fun hb => ?_, fun hb => ?_⟩
    · exact (testLengths_ok g hr d).1 (h1 hb c d hc ha hcd)
    · exact (testNormals_ok g tol2D d).1 (h2 hb c d hc ha hcd)
    · exact (c27_sign g _ _).1.1 (assert_eq_ok.1 (h3 hb c d hc ha hcd))
    · have h5 := h4 hb c d hc ha hcd
      unfold GeoCfg.testTriangles at h5
      rw [(c91_internal_partial _ _ c91_half.1 c91_half.2).1, ok_bind] at h5
      exact (closeTo_iff g _ _ _).1 (assert_eq_ok.1 h5)
  · intro h
    refine ⟨fun hb c d hc ha hcd => ?_, fun hb c d hc ha hcd => ?_, fun hb c d hc ha hcd => ?_,
      fun hb c d hc ha hcd => ?_⟩ <;> obtain ⟨n, hr⟩ := hrow c hc <;> have hp := h c d n hc ha hr hcd
    · exact (testLengths_ok g hr d).2 (hp.lengths hb)
    · exact (testNormals_ok g tol2D d).2 (hp.normals hb)
    · exact assert_eq_ok.2 ((c27_sign g _ _).1.2 (hp.area hb))
    · unfold GeoCfg.testTriangles
      rw [(c91_internal_partial _ _ c91_half.1 c91_half.2).1, ok_bind]
      exact assert_eq_ok.2 ((closeTo_iff g _ _ _).2 (hp.triangles hb))

/-- C94, the tests fit the data: those of a convex polygon whose edges are longer than the tolerance and whose area
exceeds it pass all of them. -/
theorem c94_filled {g : GeoCfg K} {t1 t2 : K} (ht : 0 ≤ t2) {m : Mesh K} {vs es : List Nat}
    {ps : List (V3 K)} {d : CellGeo K} (h : GeoOf g m vs es ps d) (h2 : 2 < ps.length) (hc : ConvexCcw ps)
    (hl : ∀ (i : Nat) (a b : V3 K) (l : K), ps[i]? = some a → ps[(i + 1) % ps.length]? = some b → IsLength a b l →
      t1 < l)
    (ha : 2 * t2 < shoelace ps) (cfg : GeoCheckCfg) : DataPasses t1 t2 cfg ps.length d := by
  have harea : d.area = shoelace ps / 2 := by linarith [h.area]
  have close : ∀ x, x = d.area → CloseTo t2 d.area x := by
    rintro x rfl
    unfold CloseTo
    rw [sub_self, abs_zero]
    refine mul_nonneg ht ?_
    split
    · exact abs_nonneg _
    · exact zero_le_one
  refine ⟨fun _ e he => ?_, fun _ => ⟨?_, ?_, ?_, ?_, close _ ?_⟩, fun _ => ?_, fun _ => close _ ?_⟩
  · have hb : (e + 1) % ps.length < ps.length := Nat.mod_lt _ (by omega)
    obtain ⟨l, h3, h4⟩ := h.lengths.2 e _ _ (List.getElem?_eq_getElem he) (List.getElem?_eq_getElem hb)
    exact ⟨l, h3, hl e _ _ l (List.getElem?_eq_getElem he) (List.getElem?_eq_getElem hb) h4⟩
  · rw [h.vertices]; exact h2
  · rw [h.vertices]; exact h.lengths.1
  · rw [h.vertices]; exact h.tangents.1
  · rw [h.vertices]; exact h.normals.1
  · have := boundaryArea_eq h.vertices h.lengths h.tangents h.normals
    linarith
  · linarith
  · have : (d.triangles.map fun t => |area2 t.1 t.2.1 t.2.2| / 2).sum =
        (d.triangles.map fun t => area2 t.1 t.2.1 t.2.2 * (1 / 2)).sum := by
      congr 1
      apply List.map_congr_left
      intro t ht
      rw [abs_of_pos (h.proper hc t ht)]
      ring
    rw [this, List.sum_map_mul_right, h.cover]
    linarith

/-- C94 fails for a mesh in the plane: all loops run to the number of polyhedra, which is zero, so that any data are
accepted. Here they say that the triangle with the vertices (0, 0), (4, 0), (0, 4) has the area -1, no edges and no
triangles. -/
theorem c94_violated (tol2D : ℝ) : ∃ (m : Mesh ℝ) (d : CellGeo ℝ), m.WF ∧ m.active .d2 0 = ok true ∧
    m.cellPoints 0 = ok [⟨0, 0, 0⟩, ⟨4, 0, 0⟩, ⟨0, 4, 0⟩] ∧ m.rowSize .edge2 0 = ok 3 ∧
    defaultGeo.checkGeo tol2D {} m [some d] = ok () ∧ d.area = -1 ∧ d.lengths = [] ∧ d.triangles = [] := by
  obtain ⟨m, -, hm⟩ := (c89_polygon_mesh ([⟨0, 0, 0⟩, ⟨4, 0, 0⟩, ⟨0, 4, 0⟩] : List (V3 ℝ)) [] []).1 (by simp)
  have hn2 : m.num .d2 = 1 := hm.polygons.1
  refine ⟨m, ⟨[], (V3.zero, V3.zero), [], -1, V3.zero, 0, [], [], [], [], []⟩, hm.wf, hm.active .d2 0 (by omega),
    cellPoints_ok.2 ⟨_, hm.polygons.2.2.1 0 _ rfl, ?_⟩, rowSize_of_row hm.wf (hm.polygons.2.2.2 0 _ rfl), ?_, rfl,
    rfl, rfl⟩
  · show List.Forall₂ _ [0, 1, 2] _
    refine .cons ?_ (.cons ?_ (.cons ?_ .nil)) <;> exact (polygonMesh_point hm _ _).2 rfl
  · refine (c94_partial _ _ _ hm.wf (by rw [hm.polyhedra]; omega) ?_).2 ?_
    · intro c hc
      have := lt_of_active hc
      obtain rfl : c = 0 := by omega
      exact ⟨_, rfl⟩
    · intro c d n hc
      rw [hm.polyhedra] at hc
      omega

/-- With a polyhedron in the mesh the first polygon is tested: of the triangle with the vertices (0, 0), (4, 0), (0, 4),
without data on the edges, the area 8 is accepted and the area -1 is not. -/
example : ∃ m : Mesh ℝ, m.WF ∧ m.num .d3 = 1 ∧ m.num .d2 = 1 ∧ ∀ a : ℝ,
    defaultGeo.checkGeo (1 / 2) { cell1DMeasure := false, cell1DNormals := false } m
      [some ⟨[], (V3.zero, V3.zero), [(⟨0, 0, 0⟩, ⟨4, 0, 0⟩, ⟨0, 4, 0⟩)], a, V3.zero, 0, [], [], [], [], []⟩] = ok () ↔
    1 / 2 < a ∧ |8 - a| ≤ 1 / 2 * a := by
  obtain ⟨m, -, hm⟩ := (c89_polygon_mesh ([⟨0, 0, 0⟩, ⟨4, 0, 0⟩, ⟨0, 4, 0⟩] : List (V3 ℝ)) [] []).1 (by simp)
  obtain ⟨m', -, hw, h3, h2, hold, -⟩ := c06_append m hm.wf .d3 1
  have hn2 : m.num .d2 = 1 := hm.polygons.1
  have hn2' : m'.num .d2 = 1 := by rw [h2 .d2 (by decide), hn2]
  have hn3' : m'.num .d3 = 1 := by rw [h3, hm.polyhedra]
  have hact : m'.active .d2 0 = ok true := by
    rw [hold.active .d2 0 (by omega)]
    exact hm.active .d2 0 (by omega)
  have hrow : m'.rowSize .edge2 0 = ok 3 := by
    rw [hold.rowSize .edge2 0 (show 0 < m.num .d2 by omega)]
    exact rowSize_of_row hm.wf (hm.polygons.2.2.2 0 _ rfl)
  have ht : max |(1 / 2 : ℝ)| defaultGeo.minTolerance = 1 / 2 := by
    rw [max_eq_left] <;> norm_num [defaultGeo]
  refine ⟨m', hw, hn3', hn2', fun a => ?_⟩
  rw [c94_partial _ _ _ hw (by omega) (by
    intro c hc
    have := lt_of_active hc
    obtain rfl : c = 0 := by omega
    exact ⟨_, rfl⟩), ht]
  have h8 : ([(⟨0, 0, 0⟩, ⟨4, 0, 0⟩, ⟨0, 4, 0⟩)].map fun t : V3 ℝ × V3 ℝ × V3 ℝ =>
      |area2 t.1 t.2.1 t.2.2| / 2).sum = 8 := by norm_num [area2]
  have close : ∀ x : ℝ, 1 / 2 < x → (CloseTo (1 / 2) x 8 ↔ |8 - x| ≤ 1 / 2 * x) := by
    intro x hx
    unfold CloseTo
    rw [if_pos ⟨by rw [abs_of_pos (by linarith)]; exact hx, by norm_num⟩, abs_of_pos (show 0 < x by linarith)]
  constructor
  · intro h
    have hp := h 0 _ 3 (by omega) hact hrow rfl
    have h1 := hp.area rfl
    have h2 := hp.triangles rfl
    rw [h8] at h2
    exact ⟨h1, (close a h1).1 h2⟩
  · rintro ⟨h1, h2⟩ c d n hc _ _ hd
    obtain rfl : c = 0 := by omega
    obtain rfl := Option.some.inj (Option.some.inj hd)
    exact ⟨(fun h => by cases h), (fun h => by cases h), fun _ => h1, fun _ => by rw [h8]; exact (close a h1).2 h2⟩

/-- The data of the triangle with the vertices (0, 0), (4, 0), (0, 4) pass all tests. -/
example : ∃ (m : Mesh ℝ) (d : CellGeo ℝ), defaultGeo.fillGeo Real.sqrt m = ok [some d] ∧
    DataPasses (1 / 2) (1 / 2) {} 3 d := by
  obtain ⟨m, -, hm⟩ := (c89_polygon_mesh ([⟨0, 0, 0⟩, ⟨4, 0, 0⟩, ⟨0, 4, 0⟩] : List (V3 ℝ)) [] []).1 (by simp)
  have hsh : shoelace ([⟨0, 0, 0⟩, ⟨4, 0, 0⟩, ⟨0, 4, 0⟩] : List (V3 ℝ)) = 16 := by norm_num [shoelace]
  have edges : ∀ {P : V3 ℝ → V3 ℝ → Prop}, P ⟨0, 0, 0⟩ ⟨4, 0, 0⟩ → P ⟨4, 0, 0⟩ ⟨0, 4, 0⟩ → P ⟨0, 4, 0⟩ ⟨0, 0, 0⟩ →
      ∀ (i : Nat) (a b : V3 ℝ), ([⟨0, 0, 0⟩, ⟨4, 0, 0⟩, ⟨0, 4, 0⟩] : List (V3 ℝ))[i]? = some a →
      ([⟨0, 0, 0⟩, ⟨4, 0, 0⟩, ⟨0, 4, 0⟩] : List (V3 ℝ))[(i + 1) %
        ([⟨0, 0, 0⟩, ⟨4, 0, 0⟩, ⟨0, 4, 0⟩] : List (V3 ℝ)).length]? = some b → P a b := by
    intro P h0 h1 h2 i a b ha hb
    have hi : i < 3 := (List.getElem?_eq_some_iff.1 ha).1
    have : i = 0 ∨ i = 1 ∨ i = 2 := by omega
    rcases this with rfl | rfl | rfl <;> simp at ha hb <;> subst ha <;> subst hb <;> assumption
  obtain ⟨d, h1, -, h2⟩ := c93_polygon (g := defaultGeo) isSqrt_real (by norm_num [defaultGeo])
    (by norm_num [defaultGeo]) (by simp) hm (by simp)
    (fun i a b ha hb => edges (P := fun a b => a.x ≠ b.x ∨ a.y ≠ b.y) (by simp) (by simp) (by simp) i a b ha hb)
    (c93_grid (by
      intro p hp
      simp only [List.mem_cons, List.not_mem_nil, or_false] at hp
      rcases hp with rfl | rfl | rfl
      · exact ⟨0, 0, by norm_num, by norm_num, by simp⟩
      · exact ⟨4, 0, by norm_num, by norm_num, by simp⟩
      · exact ⟨0, 4, by norm_num, by norm_num, by simp⟩)) (by rw [hsh]; norm_num)
  refine ⟨m, d, h1, c94_filled (by norm_num) h2 (by simp) ?_ ?_ (by rw [hsh]; norm_num) _⟩
  · intro i a b p ha hb hp
    refine edges (P := fun a b => 0 ≤ area2 a b p) ?_ ?_ ?_ i a b ha hb <;>
    · simp only [List.mem_cons, List.not_mem_nil, or_false] at hp
      rcases hp with rfl | rfl | rfl <;> norm_num [area2]
  · intro i a b l ha hb hl
    refine edges (P := fun a b => IsLength a b l → 1 / 2 < l) ?_ ?_ ?_ i a b ha hb hl <;>
    · rintro ⟨h3, h4⟩
      norm_num at h4
      nlinarith

end Verif
