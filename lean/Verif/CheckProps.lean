import Verif.CheckAnswerLemmas
import Verif.BisectProps

/-
C88: the check of a mesh in the plane.
-/
namespace Verif

open Res

variable {K : Type} [Field K] [LinearOrder K] [IsStrictOrderedRing K]

/-- C88, meshes that pass: if `CheckMesh2D` comes back, the mesh is in the plane, and every property whose test is
switched on holds: the vertices are in the plane and apart, no two edges join the same vertices, the neighbours of an
edge have the edge, the edges have a length, the edges of a polygon go round it, no two polygons have the same
vertices or edges, no vertex of a polygon is in the interior of the hull of the polygon, and the areas are positive.
Partial: polygons must have as many edges as vertices, which is not tested, see `c88_counts_violated`; on which side
of the edge a neighbour is is not tested, see `c88_side_violated`; a polygon with self-intersections can pass, see
`c88_star_violated`; the convexity is tested in exact arithmetic, for points that the tolerances tell apart. -/
theorem c88_sound_partial (g : GeoCfg K) (h0 : 0 ≤ g.minTolerance) (h1D : 0 ≤ g.tolerance1D)
    (hT : g.tol1D < 1 / 2) (h1 : g.tolSq ≤ 1) {sqrt : K → K} (hs : IsSqrt sqrt)
    {sort : (HullPt K → HullPt K → Bool) → List (HullPt K) → List (HullPt K)} (hsort : IsSort sort) {tol2D : K}
    {cfg : CheckCfg} {m : Mesh K} (hm : m.WF) (hc : CountsAgree m)
    (H : g.checkMesh2D sqrt sort tol2D cfg m = ok ()) : Correct2D g sqrt tol2D cfg m := by
  unfold GeoCfg.checkMesh2D at H
  obtain ⟨_, e0, H⟩ := bind_eq_ok.1 H
  obtain ⟨_, e1, H⟩ := bind_eq_ok.1 H
  obtain ⟨_, e2, H⟩ := bind_eq_ok.1 H
  obtain ⟨_, e3, H⟩ := bind_eq_ok.1 H
  obtain ⟨_, e4, H⟩ := bind_eq_ok.1 H
  obtain ⟨_, e5, H⟩ := bind_eq_ok.1 H
  obtain ⟨_, e6, H⟩ := bind_eq_ok.1 H
  obtain ⟨_, e7, H⟩ := bind_eq_ok.1 H
  obtain ⟨_, e8, e9⟩ := bind_eq_ok.1 H
  refine ⟨assert_eq_ok.1 e0, fun h => ?_, fun h => ?_, fun h => ?_, fun h => ?_, fun h => ?_, fun h => ?_,
    fun h => ?_, fun h hp => ?_, fun h => ?_⟩
  · rw [h] at e1; exact (checkPlanar_ok hm).1 e1
  · rw [h] at e2; exact (checkVertices_ok hm h0 hs).1 e2
  · rw [h] at e3; exact (checkEdgeCopies_ok hm).1 e3
  · rw [h] at e4; exact checkNeighbours_sound hm hc e4
  · rw [h] at e5; exact (checkLengths_ok hm h0 hs).1 e5
  · rw [h] at e6; exact checkSides_sound hm e6
  · rw [h] at e7; exact (checkPolygonCopies_ok hm).1 e7
  · rw [h] at e8; exact (checkConvexity_ok h0 h1D hT h1 hs hsort hp).1 e8
  · rw [h] at e9; exact checkAreas_ok.1 e9

/-- C88, correct meshes pass: if no two edges join the same vertices, the edges of the polygons go round them, and
the vertices are points that the tolerances tell apart, then `CheckMesh2D` comes back if the properties hold whose
tests are switched on. -/
theorem c88_complete (g : GeoCfg K) (h0 : 0 ≤ g.minTolerance) (h1D : 0 ≤ g.tolerance1D)
    (hT : g.tol1D < 1 / 2) (h1 : g.tolSq ≤ 1) {sqrt : K → K} (hs : IsSqrt sqrt)
    {sort : (HullPt K → HullPt K → Bool) → List (HullPt K) → List (HullPt K)} (hsort : IsSort sort) {tol2D : K}
    {cfg : CheckCfg} {m : Mesh K} (hm : m.WF) (hu : EdgesUnique m) (hp : PolygonsClosed m)
    (hcp : CellsProper g sqrt m) (H : Correct2D g sqrt tol2D cfg m) :
    g.checkMesh2D sqrt sort tol2D cfg m = ok () := by
  have key : ∀ {b : Bool} {r : Res Unit}, (b = true → r = ok ()) → testIf b r = ok () := by
    intro b r h
    cases b
    · rfl
    · exact h rfl
  unfold GeoCfg.checkMesh2D
  rw [assert_true H.dimension, ok_bind, key fun h => (checkPlanar_ok hm).2 (H.planar h), ok_bind,
    key fun h => (checkVertices_ok hm h0 hs).2 (H.apart h), ok_bind,
    key fun h => (checkEdgeCopies_ok hm).2 (H.unique h), ok_bind,
    key fun h => checkNeighbours_complete hm hu hp (H.neighbours h), ok_bind,
    key fun h => (checkLengths_ok hm h0 hs).2 (H.long h), ok_bind,
    key fun _ => checkSides_complete hm hu hp, ok_bind,
    key fun h => (checkPolygonCopies_ok hm).2 (H.differ h), ok_bind,
    key fun h => (checkConvexity_ok h0 h1D hT h1 hs hsort hcp).2 (H.inside h hcp), ok_bind,
    key fun h => checkAreas_ok.2 (H.areas h)]

/-- C88, convex polygons pass the test of the convexity. -/
theorem c88_convex {g : GeoCfg K} {sqrt : K → K} {m : Mesh K} (h : PolygonsConvex g sqrt m) :
    CellsProper g sqrt m ∧ NoVertexInside g sqrt m := by
  constructor
  · intro p hp
    obtain ⟨ps, us, a, b, c, d, -⟩ := h p hp
    exact ⟨ps, us, a, b, c, d⟩
  · intro p ps us hc hu
    have hlt : p < m.num .d2 := by obtain ⟨vs, hvs, -⟩ := hc; exact row_lt hvs
    obtain ⟨ps', us', a, b, c, d, e⟩ := h p hlt
    obtain rfl := cornersAre_unique hc a
    obtain rfl := isUnaligned_unique b hu c
    refine convex_not_inside d.flat d.nodup ?_ e
    by_contra hl
    obtain ⟨x, hx, y, hy, z, hz, hne⟩ := d.notAligned
    have : x = y := by
      obtain ⟨i, hi, rfl⟩ := List.getElem_of_mem hx
      obtain ⟨j, hj, rfl⟩ := List.getElem_of_mem hy
      congr 1
      omega
    exact hne (by rw [this]; unfold area2; ring)

/-- C88, a verdict is returned: if the polygons have edges of the mesh and, for the test of the convexity, vertices
that the tolerances tell apart, `CheckMesh2D` comes back or stops at an assertion. -/
theorem c88_answers (g : GeoCfg K) (h0 : 0 ≤ g.minTolerance) (h1D : 0 ≤ g.tolerance1D)
    (hT : g.tol1D < 1 / 2) (h1 : g.tolSq ≤ 1) {sqrt : K → K} (hs : IsSqrt sqrt)
    {sort : (HullPt K → HullPt K → Bool) → List (HullPt K) → List (HullPt K)} (hsort : IsSort sort) {tol2D : K}
    {cfg : CheckCfg} {m : Mesh K} (hm : m.WF)
    (he : ∀ p es, m.row .edge2 p = ok es → es ≠ [] ∧ ∀ e ∈ es, e < m.num .d1)
    (hcp : cfg.cell2DConvexity = true → CellsProper g sqrt m) :
    Answers (g.checkMesh2D sqrt sort tol2D cfg m) := by
  have key : ∀ {b : Bool} {r : Res Unit}, (b = true → Answers r) → Answers (testIf b r) := by
    intro b r h
    cases b
    · exact answers_ok _
    · exact h rfl
  unfold GeoCfg.checkMesh2D
  refine answers_bind (answers_assert _) fun _ _ => answers_bind (key fun _ => answers_checkPlanar hm) fun _ _ =>
    answers_bind (key fun _ => answers_checkVertices hm) fun _ _ =>
    answers_bind (key fun _ => answers_checkEdgeCopies hm) fun _ _ =>
    answers_bind (key fun _ => answers_checkNeighbours hm he) fun _ _ =>
    answers_bind (key fun _ => answers_checkLengths hm) fun _ _ =>
    answers_bind (key fun _ => answers_checkSides hm he) fun _ _ =>
    answers_bind (key fun _ => answers_checkPolygonCopies hm) fun _ _ =>
    answers_bind (key fun h => ?_) fun _ _ => key fun _ => answers_checkAreas hm
  unfold GeoCfg.checkConvexity
  refine answers_forEach fun p _ hp => ?_
  obtain ⟨ps, us, hc, h2, hu, P⟩ := hcp h p hp
  obtain ⟨ids, e1, e2⟩ := unaligned_ok h2 hu
  obtain ⟨hi, hull, b, e3, e4, e5, hb⟩ := hull_verdict h0 h1D hT h1 hs hsort P
  rw [cellPoints_ok.2 hc, ok_bind, e1, ok_bind, e2, ok_bind, e3, ok_bind, e4, ok_bind, e5, ok_bind]
  exact answers_assert _

/-! ### Integer coordinates and the default tolerances -/

/-- The points have the coordinates of the mesh. -/
theorem point_iff {m : Mesh ℝ} {pts : List (V3 ℝ)} (hn : m.num .d0 = pts.length)
    (hc : m.coord = pts.flatMap fun p => [p.x, p.y, p.z]) (i : Nat) (p : V3 ℝ) :
    m.point i = ok p ↔ pts[i]? = some p := by
  have key : ∀ (l : List (V3 ℝ)) (i : Nat), i < l.length → ∀ q, l[i]? = some q →
      (l.flatMap fun p => [p.x, p.y, p.z])[3 * i]? = some q.x ∧
      (l.flatMap fun p => [p.x, p.y, p.z])[3 * i + 1]? = some q.y ∧
      (l.flatMap fun p => [p.x, p.y, p.z])[3 * i + 2]? = some q.z := by
    intro l
    induction l with
    | nil => intro i hi; simp at hi
    | cons a l ih =>
      intro i hi q hq
      cases i with
      | zero =>
        obtain rfl : a = q := by simpa using hq
        simp
      | succ i =>
        have := ih i (by simpa using hi) q (by simpa using hq)
        rw [show 3 * (i + 1) = 3 * i + 3 by ring]
        simpa [List.flatMap_cons] using this
  have val : ∀ q, pts[i]? = some q → m.point i = ok q := by
    intro q hq
    have hi := (List.getElem?_eq_some_iff.1 hq).1
    obtain ⟨a, b, c⟩ := key pts i hi q hq
    unfold Mesh.point Mesh.coordinates
    rw [assert_true (by omega), ok_bind, hc, vget_eq_ok.2 a, ok_bind, vget_eq_ok.2 b, ok_bind, vget_eq_ok.2 c]
    rfl
  constructor
  · intro h
    have hi : i < pts.length := hn ▸ point_lt h
    have := val _ (List.getElem?_eq_getElem hi)
    rw [List.getElem?_eq_getElem hi, ok.inj (this.symm.trans h)]
  · exact val p

/-- A polygon whose vertices have integer coordinates, no vertex aligned with the two next to it, a positive area,
and no vertex in the interior of the hull. -/
structure GridCell (ps : List (V3 ℝ)) : Prop where
  length : 2 < ps.length
  grid : ∀ q ∈ ps, IsSmallGridPoint q
  nodup : ps.Nodup
  corners : ∀ i a b c, i < ps.length → ps[(i + ps.length - 1) % ps.length]? = some a → ps[i]? = some b →
    ps[(i + 1) % ps.length]? = some c → area2 a b c ≠ 0
  area : 0 < shoelace ps
  border : ∀ q ∈ ps, ¬ StrictlyInside ps q

theorem GridCell.unaligned {ps : List (V3 ℝ)} (h : GridCell ps) : IsUnaligned defaultGeo Real.sqrt ps ps := by
  refine ⟨List.range ps.length, List.pairwise_lt_range, ?_, fun i => ?_⟩
  · unfold IsSelection
    apply List.ext_getElem
    · simp
    · intro i h1 h2
      simp only [List.length_map, List.length_range] at h1
      simp [h1]
  · rw [List.mem_range]
    have h2 := h.length
    constructor
    · intro hi
      have m1 : (i + ps.length - 1) % ps.length < ps.length := Nat.mod_lt _ (by omega)
      have m2 : (i + 1) % ps.length < ps.length := Nat.mod_lt _ (by omega)
      refine ⟨_, _, _, List.getElem?_eq_getElem m1, List.getElem?_eq_getElem hi, List.getElem?_eq_getElem m2, ?_⟩
      exact aligned_grid (h.grid _ (List.getElem_mem _)) (h.grid _ (List.getElem_mem _))
        (h.grid _ (List.getElem_mem _)) (h.corners i _ _ _ hi (List.getElem?_eq_getElem m1)
          (List.getElem?_eq_getElem hi) (List.getElem?_eq_getElem m2))
    · rintro ⟨a, b, c, -, e, -⟩
      exact (List.getElem?_eq_some_iff.1 e).1

theorem GridCell.proper {ps : List (V3 ℝ)} (h : GridCell ps) : ProperPoints defaultGeo Real.sqrt ps := by
  refine ⟨hullResolved_grid fun p hp => (h.grid p hp).grid, linesResolved_grid h.grid, fun q hq => (h.grid q hq).z,
    h.nodup, ?_⟩
  have h2 := h.length
  have m1 : (0 + ps.length - 1) % ps.length < ps.length := Nat.mod_lt _ (by omega)
  have m2 : (0 + 1) % ps.length < ps.length := Nat.mod_lt _ (by omega)
  exact ⟨_, List.getElem_mem m1, _, List.getElem_mem (by omega : 0 < ps.length), _, List.getElem_mem m2,
    h.corners 0 _ _ _ (by omega) (List.getElem?_eq_getElem m1) (List.getElem?_eq_getElem _)
      (List.getElem?_eq_getElem m2)⟩

theorem shoelace_grid {ps : List (V3 ℝ)} (h : ∀ q ∈ ps, IsSmallGridPoint q) : ∃ n : ℤ, shoelace ps = n := by
  unfold shoelace
  have : ∀ l : List (V3 ℝ × V3 ℝ), (∀ e ∈ l, e.1 ∈ ps ∧ e.2 ∈ ps) →
      ∃ n : ℤ, (l.map fun e => e.1.x * e.2.y - e.2.x * e.1.y).sum = n := by
    intro l
    induction l with
    | nil => intro _; exact ⟨0, by simp⟩
    | cons e l ih =>
      intro hl
      obtain ⟨n, hn⟩ := ih fun x hx => hl x (by simp [hx])
      obtain ⟨e1, e2⟩ := hl e (by simp)
      obtain ⟨i, j, -, -, h1⟩ := h _ e1
      obtain ⟨k, l', -, -, h2⟩ := h _ e2
      refine ⟨i * l' - k * j + n, ?_⟩
      rw [List.map_cons, List.sum_cons, hn, h1, h2]
      push_cast
      ring
  refine this _ fun e he => ?_
  have := List.of_mem_zip (a := e.1) (b := e.2) he
  exact ⟨this.1, List.mem_rotate.1 this.2⟩

/-- The geometric tests for integer coordinates. -/
theorem grid_geometry {m : Mesh ℝ} {tol2D : ℝ} (ht : |tol2D| < 1 / 2) (hn : 0 < m.num .d0)
    (hg : ∀ i p, m.point i = ok p → IsSmallGridPoint p)
    (hd : ∀ i j p, m.point i = ok p → m.point j = ok p → i = j) (hu : EdgesUnique m) (hw : m.WF)
    (hcells : ∀ p, p < m.num .d2 → ∃ ps, CornersAre m p ps ∧ GridCell ps) :
    Planar defaultGeo m ∧ VerticesApart defaultGeo Real.sqrt m ∧ EdgesLong defaultGeo Real.sqrt m ∧
      CellsProper defaultGeo Real.sqrt m ∧ NoVertexInside defaultGeo Real.sqrt m ∧
      AreasPositive defaultGeo tol2D m := by
  have hapart : VerticesApart defaultGeo Real.sqrt m := by
    intro i j p q hij hp hq
    have : p ≠ q := by rintro rfl; exact hij (hd i j p hp hq)
    have := norm_grid (hg i p hp) (hg j q hq) this
    rw [sub_norm] at this
    have := defaultGeo_lt_half
    linarith
  have ht1 : (0 : ℝ) ≤ defaultGeo.tolerance1D := by norm_num [defaultGeo]
  refine ⟨⟨hn, fun i p hp => ?_⟩, hapart, ?_, ?_, ?_, ?_⟩
  · rw [(hg i p hp).z, abs_zero]; exact ht1
  · intro e x y he
    obtain ⟨h1, h2, h3, -⟩ := hu e x y he
    obtain ⟨p, hp⟩ := point_of_lt hw h1
    obtain ⟨q, hq⟩ := point_of_lt hw h2
    exact ⟨p, q, hp, hq, hapart x y p q h3 hp hq⟩
  · intro p hp
    obtain ⟨ps, hc, G⟩ := hcells p hp
    exact ⟨ps, ps, hc, G.length, G.unaligned, G.proper⟩
  · intro p ps us hc hus
    have hlt : p < m.num .d2 := by obtain ⟨vs, hvs, -⟩ := hc; exact row_lt hvs
    obtain ⟨ps', hc', G⟩ := hcells p hlt
    obtain rfl := cornersAre_unique hc hc'
    obtain rfl := isUnaligned_unique G.length hus G.unaligned
    exact G.border
  · intro p hp
    obtain ⟨ps, hc, G⟩ := hcells p hp
    refine ⟨ps, hc, G.length, fun q hq => by rw [(G.grid q hq).z, abs_zero]; exact ht1, ?_⟩
    have : 1 ≤ shoelace ps := by
      have := one_le_abs_int (shoelace_grid G.grid) G.area.ne'
      rwa [abs_of_pos G.area] at this
    rw [max_lt_iff]
    constructor
    · linarith
    · have : defaultGeo.minTolerance < 1 / 2 := by norm_num [defaultGeo]
      linarith

/-- Strictly convex polygons. -/
theorem gridCell_of_turnsLeft {ps : List (V3 ℝ)} (h2 : 2 < ps.length) (hg : ∀ q ∈ ps, IsSmallGridPoint q)
    (hnd : ps.Nodup) (hl : TurnsLeft ps) : GridCell ps := by
  refine ⟨h2, hg, hnd, ?_, ?_, ?_⟩
  · intro i a b c hi ha hb hc
    rcases Nat.lt_or_ge (i + 1) ps.length with h | h
    · rw [Nat.mod_eq_of_lt h] at hc
      by_cases h0 : i = 0
      · subst h0
        rw [Nat.mod_eq_of_lt (by omega)] at ha
        have := hl 0 1 (0 + ps.length - 1) b c a (by omega) (by omega) hb hc ha
        rw [area2_rot] at this
        exact this.ne'
      · have e : (i + ps.length - 1) % ps.length = i - 1 := by
          rw [show i + ps.length - 1 = (i - 1) + ps.length by omega, Nat.add_mod_right, Nat.mod_eq_of_lt (by omega)]
        rw [e] at ha
        exact (hl (i - 1) i (i + 1) a b c (by omega) (by omega) ha hb hc).ne'
    · have e1 : i + 1 = ps.length := by omega
      have e : (i + ps.length - 1) % ps.length = i - 1 := by
        rw [show i + ps.length - 1 = (i - 1) + ps.length by omega, Nat.add_mod_right, Nat.mod_eq_of_lt (by omega)]
      rw [e] at ha
      rw [e1, Nat.mod_self] at hc
      have := hl 0 (i - 1) i c a b (by omega) (by omega) hc ha hb
      rw [← area2_rot] at this
      exact this.ne'
  · obtain ⟨l, ts, e1, e2, e3, e4⟩ := (c85_grid hg hnd).2 h2 hl
    obtain ⟨ts', e2', e5, -⟩ := (c85_grid hg hnd).1 l e1
    obtain rfl := ok.inj (e2.symm.trans e2')
    rw [area_shoelace h2 (fun q hq => by rw [(hg q hq).z, abs_zero]; norm_num [defaultGeo])] at e5
    have e6 := ok.inj e5
    have : 0 < triangleAreas ts := by
      unfold triangleAreas
      have hne : ts ≠ [] := by rintro rfl; simp at e3; omega
      exact List.sum_pos _ (by
        intro x hx
        obtain ⟨t, ht, rfl⟩ := List.mem_map.1 hx
        have := e4 t ht
        linarith) (by simpa using hne)
    linarith
  · exact convex_not_inside (fun q hq => (hg q hq).z) hnd (by omega)
      fun i j k a b c h1 h2 ha hb hc => (hl i j k a b c h1 h2 ha hb hc).le

theorem defaultGeo_1D_nonneg : (0 : ℝ) ≤ defaultGeo.tolerance1D := by norm_num [defaultGeo]

theorem defaultGeo_tolSq_le : defaultGeo.tolSq ≤ 1 := by rw [defaultGeo_tolSq]; norm_num

/-- C88, integer coordinates and the default tolerances: a mesh with different vertices, strictly convex polygons that
run counter clockwise, different edges and polygons, and neighbours that have their edge passes all tests. -/
theorem c88_grid {sort : (HullPt ℝ → HullPt ℝ → Bool) → List (HullPt ℝ) → List (HullPt ℝ)} (hsort : IsSort sort)
    {tol2D : ℝ} (ht : |tol2D| < 1 / 2) (cfg : CheckCfg) {m : Mesh ℝ} (hw : m.WF) (h2 : m.dimension = 2)
    (hn : 0 < m.num .d0) (hg : ∀ i p, m.point i = ok p → IsSmallGridPoint p)
    (hd : ∀ i j p, m.point i = ok p → m.point j = ok p → i = j)
    (hu : EdgesUnique m) (hp : PolygonsClosed m) (hnb : NeighboursHaveEdge m) (hdf : PolygonsDiffer m)
    (hcells : ∀ p, p < m.num .d2 → ∃ ps, CornersAre m p ps ∧ 2 < ps.length ∧ ps.Nodup ∧ TurnsLeft ps) :
    Correct2D defaultGeo Real.sqrt tol2D cfg m ∧
      defaultGeo.checkMesh2D Real.sqrt sort tol2D cfg m = ok () := by
  obtain ⟨g1, g2, g3, g4, g5, g6⟩ := grid_geometry ht hn hg hd hu hw fun p hp => by
    obtain ⟨ps, hc, h3, hnd, hl⟩ := hcells p hp
    refine ⟨ps, hc, gridCell_of_turnsLeft h3 (fun q hq => ?_) hnd hl⟩
    obtain ⟨vs, -, hf⟩ := hc
    obtain ⟨k, hk, rfl⟩ := List.getElem_of_mem hq
    exact hg _ _ (List.forall₂_iff_get.1 hf |>.2 k (by rw [hf.length_eq]; exact hk) hk)
  have C : Correct2D defaultGeo Real.sqrt tol2D cfg m :=
    ⟨h2, fun _ => g1, fun _ => g2, fun _ => hu, fun _ => hnb, fun _ => g3, fun _ => hp, fun _ => hdf, fun _ _ => g5,
      fun _ => g6⟩
  exact ⟨C, c88_complete defaultGeo defaultGeo_min_nonneg defaultGeo_1D_nonneg defaultGeo_lt_half
    defaultGeo_tolSq_le isSqrt_real hsort hw hu hp g4 C⟩

/-! ### Examples and violations -/

/-- The calls that are used to build the examples. -/
def isBuild : Op ℝ → Bool
  | .initDim _ | .append _ _ | .insertExt _ _ _ | .addRow _ _ _ | .resizeRow _ _ _ | .insertEntry _ _ _ _ => true
  | _ => false

/-- The mesh that the calls build, without coordinates. -/
noncomputable def buildMesh (ops : List (Op ℝ)) : Mesh ℝ :=
  match Mesh.empty.run ops with
  | ok m => m
  | _ => Mesh.empty

theorem buildMesh_wf {ops : List (Op ℝ)} (h : ops.all isBuild = true) : (buildMesh ops).WF := by
  unfold buildMesh
  rcases e : (Mesh.empty : Mesh ℝ).run ops with m | _ | _ | _ | _
  · refine Mesh.run_wf_of_ok (ops := ops) Mesh.empty_wf (Mesh.along_of_forall ?_ _) e
    intro o ho m
    have := List.all_eq_true.1 h o ho
    cases o <;> first | trivial | exact absurd this (by simp [isBuild])
  all_goals exact Mesh.empty_wf

/-- A mesh with other coordinates. -/
noncomputable def place (top : Mesh ℝ) (pts : List (V3 ℝ)) : Mesh ℝ :=
  { top with coord := pts.flatMap fun p => [p.x, p.y, p.z] }

theorem place_wf {top : Mesh ℝ} {pts : List (V3 ℝ)} (h : top.WF) (hn : top.num .d0 = pts.length) :
    (place top pts).WF := by
  obtain ⟨h1, h2, h3, h4, h5, h6, h7, h8, h9, h10, h11⟩ := h
  refine ⟨?_, h2, h3, h4, h5, h6, h7, h8, h9, h10, h11⟩
  show (pts.flatMap fun p => [p.x, p.y, p.z]).length = 3 * top.num .d0
  rw [hn]
  clear hn
  induction pts with
  | nil => rfl
  | cons p pts ih =>
    rw [List.flatMap_cons, List.length_append, ih]
    simp only [List.length_cons, List.length_nil]
    ring

theorem place_corners {top : Mesh ℝ} {pts : List (V3 ℝ)} (hn : top.num .d0 = pts.length) {p : Nat} {vs : List Nat}
    {ps : List (V3 ℝ)} (hr : top.row .vert2 p = ok vs) (hm : vs.map (fun v => pts[v]?) = ps.map some) :
    CornersAre (place top pts) p ps := by
  refine ⟨vs, hr, ?_⟩
  clear hr
  induction vs generalizing ps with
  | nil =>
    cases ps with
    | nil => exact .nil
    | cons q ps => cases hm
  | cons v vs ih =>
    cases ps with
    | nil => cases hm
    | cons q ps =>
      rw [List.map_cons, List.map_cons, List.cons.injEq] at hm
      exact .cons ((point_iff (m := place top pts) hn rfl v q).2 hm.1) (ih hm.2)

/-- What the tests of the examples amount to. -/
theorem place_pass {sort : (HullPt ℝ → HullPt ℝ → Bool) → List (HullPt ℝ) → List (HullPt ℝ)} (hsort : IsSort sort)
    {tol2D : ℝ} (ht : |tol2D| < 1 / 2) {top : Mesh ℝ} {pts : List (V3 ℝ)} (hw : top.WF) (hd : top.dimension = 2)
    (hn : top.num .d0 = pts.length) (hne : pts ≠ []) (hg : ∀ q ∈ pts, IsSmallGridPoint q) (hnd : pts.Nodup)
    (hu : top.checkEdgeCopies = ok ()) (hnb : top.checkNeighbours = ok ()) (hsd : top.checkSides = ok ())
    (hdf : top.checkPolygonCopies = ok ())
    (hcells : ∀ p, p < top.num .d2 → ∃ vs ps, top.row .vert2 p = ok vs ∧
      vs.map (fun v => pts[v]?) = ps.map some ∧ GridCell ps) :
    defaultGeo.checkMesh2D Real.sqrt sort tol2D {} (place top pts) = ok () := by
  have hw' := place_wf hw hn
  have hpt := point_iff (m := place top pts) hn rfl
  have hu' : (place top pts).checkEdgeCopies = ok () := hu
  obtain ⟨g1, g2, g3, g4, g5, g6⟩ := grid_geometry (m := place top pts) ht
    (by show 0 < top.num .d0; rw [hn]; exact List.length_pos_iff.2 hne)
    (fun i p h => hg p (List.mem_of_getElem? ((hpt i p).1 h)))
    (fun i j p h h' => by
      obtain ⟨hi, e⟩ := List.getElem?_eq_some_iff.1 ((hpt i p).1 h)
      obtain ⟨hj, e'⟩ := List.getElem?_eq_some_iff.1 ((hpt j p).1 h')
      exact (List.Nodup.getElem_inj_iff hnd).1 (e.trans e'.symm))
    ((checkEdgeCopies_ok hw').1 hu') hw' (fun p hp => by
      obtain ⟨vs, ps, e1, e2, G⟩ := hcells p hp
      exact ⟨ps, place_corners hn e1 e2, G⟩)
  have hnb' : (place top pts).checkNeighbours = ok () := hnb
  have hsd' : (place top pts).checkSides = ok () := hsd
  have hdf' : (place top pts).checkPolygonCopies = ok () := hdf
  unfold GeoCfg.checkMesh2D testIf
  rw [assert_true (show (place top pts).dimension = 2 from hd), ok_bind, if_pos rfl, (checkPlanar_ok hw').2 g1,
    ok_bind, if_pos rfl, (checkVertices_ok hw' defaultGeo_min_nonneg isSqrt_real).2 g2, ok_bind, if_pos rfl, hu',
    ok_bind, if_pos rfl, hnb', ok_bind, if_pos rfl, (checkLengths_ok hw' defaultGeo_min_nonneg isSqrt_real).2 g3,
    ok_bind, if_pos rfl, hsd', ok_bind, if_pos rfl, hdf', ok_bind, if_pos rfl,
    (checkConvexity_ok defaultGeo_min_nonneg defaultGeo_1D_nonneg defaultGeo_lt_half
      defaultGeo_tolSq_le isSqrt_real hsort g4).2 g5, ok_bind, if_pos rfl, checkAreas_ok.2 g6]

/-- Two triangles with a common edge. -/
def goodOps : List (Op ℝ) :=
  [.initDim 2, .append .d0 4, .append .d1 5, .insertExt 0 0 1, .insertExt 1 1 2, .insertExt 2 2 0, .insertExt 3 0 3,
   .insertExt 4 3 1, .append .d2 2, .addRow .vert2 0 [0, 1, 2], .addRow .edge2 0 [0, 1, 2],
   .addRow .vert2 1 [1, 0, 3], .addRow .edge2 1 [0, 3, 4],
   .resizeRow .nb12 0 2, .insertEntry .nb12 0 0 1, .insertEntry .nb12 0 1 0, .resizeRow .nb12 1 2, .insertEntry .nb12 1 1 0, .resizeRow .nb12 2 2, .insertEntry .nb12 2 1 0,
   .resizeRow .nb12 3 2, .insertEntry .nb12 3 1 1, .resizeRow .nb12 4 2, .insertEntry .nb12 4 1 1]

noncomputable def goodTop : Mesh ℝ := buildMesh goodOps

theorem goodTop_wf : goodTop.WF := buildMesh_wf (by decide +kernel)

theorem goodTop_eval : goodTop.dimension = 2 ∧ goodTop.num .d0 = 4 ∧ goodTop.num .d2 = 2 ∧
    goodTop.checkEdgeCopies = ok () ∧ goodTop.checkNeighbours = ok () ∧ goodTop.checkSides = ok () ∧
    goodTop.row .vert2 0 = ok [0, 1, 2] ∧ goodTop.row .vert2 1 = ok [1, 0, 3] ∧
    goodTop.row .edge2 0 = ok [0, 1, 2] ∧ goodTop.row .edge2 1 = ok [0, 3, 4] := by
  decide +kernel

attribute [irreducible] goodTop

/-- The corners `(0, 0), (4, 0), (0, 4), (0, -4)`. -/
noncomputable def goodPts : List (V3 ℝ) := [⟨0, 0, 0⟩, ⟨4, 0, 0⟩, ⟨0, 4, 0⟩, ⟨0, -4, 0⟩]

theorem goodPts_grid : ∀ q ∈ goodPts, IsSmallGridPoint q := by
  intro p hp
  simp only [goodPts, List.mem_cons, List.not_mem_nil, or_false] at hp
  rcases hp with rfl | rfl | rfl | rfl
  · exact ⟨0, 0, by norm_num, by norm_num, by simp⟩
  · exact ⟨4, 0, by norm_num, by norm_num, by simp⟩
  · exact ⟨0, 4, by norm_num, by norm_num, by simp⟩
  · exact ⟨0, -4, by norm_num, by norm_num, by simp⟩

theorem goodPts_nodup : goodPts.Nodup := by
  norm_num [goodPts]

/-- The hypotheses of `c88_grid`, and so those of `c88_complete`, of `c88_sound_partial` and of `c88_answers`. -/
example {sort : (HullPt ℝ → HullPt ℝ → Bool) → List (HullPt ℝ) → List (HullPt ℝ)} (hsort : IsSort sort) :
    (place goodTop goodPts).WF ∧ CountsAgree (place goodTop goodPts) ∧
      Correct2D defaultGeo Real.sqrt (1 / 1000) {} (place goodTop goodPts) ∧
      defaultGeo.checkMesh2D Real.sqrt sort (1 / 1000) {} (place goodTop goodPts) = ok () := by
  obtain ⟨d, n0, n2, c1, c2, c3, r0, r1, s0, s1⟩ := goodTop_eval
  have hn : goodTop.num .d0 = goodPts.length := n0
  have hw' := place_wf (pts := goodPts) goodTop_wf hn
  have hpt := point_iff (m := place goodTop goodPts) hn rfl
  have hca : CountsAgree (place goodTop goodPts) := by
    intro p vs es h1 h2
    have hp : p < goodTop.num .d2 := row_lt h1
    rw [n2] at hp
    interval_cases p
    · obtain rfl := ok.inj (r0.symm.trans h1)
      obtain rfl := ok.inj (s0.symm.trans h2)
      rfl
    · obtain rfl := ok.inj (r1.symm.trans h1)
      obtain rfl := ok.inj (s1.symm.trans h2)
      rfl
  have hdf : PolygonsDiffer (place goodTop goodPts) := by
    intro p q vs vs' es es' hpq h1 h2 h3 h4
    have hp : p < goodTop.num .d2 := row_lt h1
    have hq : q < goodTop.num .d2 := row_lt h2
    rw [n2] at hp hq
    interval_cases p <;> interval_cases q
    · exact absurd rfl hpq
    · obtain rfl := ok.inj (r0.symm.trans h1)
      obtain rfl := ok.inj (r1.symm.trans h2)
      obtain rfl := ok.inj (s0.symm.trans h3)
      obtain rfl := ok.inj (s1.symm.trans h4)
      decide
    · obtain rfl := ok.inj (r1.symm.trans h1)
      obtain rfl := ok.inj (r0.symm.trans h2)
      obtain rfl := ok.inj (s1.symm.trans h3)
      obtain rfl := ok.inj (s0.symm.trans h4)
      decide
    · exact absurd rfl hpq
  have := c88_grid hsort (tol2D := 1 / 1000) (by norm_num [abs_lt]) {} hw' d
    (by show 0 < goodTop.num .d0; omega) (fun i p h => goodPts_grid p (List.mem_of_getElem? ((hpt i p).1 h)))
    (fun i j p h h' => by
      obtain ⟨hi, e⟩ := List.getElem?_eq_some_iff.1 ((hpt i p).1 h)
      obtain ⟨hj, e'⟩ := List.getElem?_eq_some_iff.1 ((hpt j p).1 h')
      exact (List.Nodup.getElem_inj_iff goodPts_nodup).1 (e.trans e'.symm))
    ((checkEdgeCopies_ok hw').1 c1) (checkSides_sound hw' c3) (checkNeighbours_sound hw' hca c2)
    hdf (fun p hp => by
      have hp : p < goodTop.num .d2 := hp
      rw [n2] at hp
      interval_cases p
      · refine ⟨[⟨0, 0, 0⟩, ⟨4, 0, 0⟩, ⟨0, 4, 0⟩], place_corners hn r0 rfl, by simp, by simp,
          turnsLeft_of_triplewise (by
            simp only [List.triplewise_cons, List.pairwise_cons, List.mem_cons, List.not_mem_nil, or_false]
            norm_num [area2])⟩
      · refine ⟨[⟨4, 0, 0⟩, ⟨0, 0, 0⟩, ⟨0, -4, 0⟩], place_corners hn r1 rfl, by simp, by simp,
          turnsLeft_of_triplewise (by
            simp only [List.triplewise_cons, List.pairwise_cons, List.mem_cons, List.not_mem_nil, or_false]
            norm_num [area2])⟩)
  exact ⟨hw', hca, this.1, this.2⟩

/-- A triangle that is entered on the wrong side of edge 0 and not at all at edge 1. -/
def sideOps : List (Op ℝ) :=
  [.initDim 2, .append .d0 3, .append .d1 3, .insertExt 0 0 1, .insertExt 1 1 2, .insertExt 2 2 0,
   .append .d2 1, .addRow .vert2 0 [0, 1, 2], .addRow .edge2 0 [0, 1, 2],
   .resizeRow .nb12 0 2, .insertEntry .nb12 0 0 0, .resizeRow .nb12 1 2, .resizeRow .nb12 2 2, .insertEntry .nb12 2 1 0]

noncomputable def sideTop : Mesh ℝ := buildMesh sideOps

theorem sideTop_wf : sideTop.WF := buildMesh_wf (by decide +kernel)

theorem sideTop_eval : sideTop.dimension = 2 ∧ sideTop.num .d0 = 3 ∧ sideTop.num .d2 = 1 ∧
    sideTop.checkEdgeCopies = ok () ∧ sideTop.checkNeighbours = ok () ∧ sideTop.checkSides = ok () ∧
    sideTop.checkPolygonCopies = ok () ∧ sideTop.row .vert2 0 = ok [0, 1, 2] ∧ sideTop.row .edge2 0 = ok [0, 1, 2] ∧
    sideTop.extremes 0 = ok (0, 1) ∧ sideTop.row .nb12 0 = ok [0, UINT_MAX] ∧
    sideTop.row .nb12 1 = ok [UINT_MAX, UINT_MAX] ∧ sideTop.extremes 1 = ok (1, 2) := by
  decide +kernel

attribute [irreducible] sideTop

theorem triangle_cell : GridCell [⟨0, 0, 0⟩, ⟨4, 0, 0⟩, ⟨0, 4, 0⟩] := by
  refine gridCell_of_turnsLeft (by simp) ?_ (by simp) (turnsLeft_of_triplewise (by
    simp only [List.triplewise_cons, List.pairwise_cons, List.mem_cons, List.not_mem_nil, or_false]
    norm_num [area2]))
  intro p hp
  simp only [List.mem_cons, List.not_mem_nil, or_false] at hp
  rcases hp with rfl | rfl | rfl
  · exact ⟨0, 0, by norm_num, by norm_num, by simp⟩
  · exact ⟨4, 0, by norm_num, by norm_num, by simp⟩
  · exact ⟨0, 4, by norm_num, by norm_num, by simp⟩

/-- The hypothesis of `c88_convex`. -/
example : PolygonsConvex defaultGeo Real.sqrt (place sideTop [⟨0, 0, 0⟩, ⟨4, 0, 0⟩, ⟨0, 4, 0⟩]) := by
  obtain ⟨d, n0, n2, c1, c2, c3, c4, r0, -⟩ := sideTop_eval
  intro p hp
  have hp : p < sideTop.num .d2 := hp
  rw [n2] at hp
  interval_cases p
  refine ⟨_, _, place_corners n0 r0 rfl, by simp, triangle_cell.unaligned, triangle_cell.proper, ?_⟩
  have := turnsLeft_of_triplewise (vs := ([⟨0, 0, 0⟩, ⟨4, 0, 0⟩, ⟨0, 4, 0⟩] : List (V3 ℝ))) (by
    simp only [List.triplewise_cons, List.pairwise_cons, List.mem_cons, List.not_mem_nil, or_false]
    norm_num [area2])
  exact fun i j k a b c h1 h2 ha hb hc => (this i j k a b c h1 h2 ha hb hc).le

/-- C88 does not hold for the sides of the neighbours: the mesh of one triangle passes all tests with the default
tolerances, although edge 0, which the triangle runs from the origin to the end, has the triangle as its right
neighbour and no left neighbour, and edge 1, which the triangle has, has no neighbour at all. -/
theorem c88_side_violated : ∃ m : Mesh ℝ, m.WF ∧
    (∀ sort : (HullPt ℝ → HullPt ℝ → Bool) → List (HullPt ℝ) → List (HullPt ℝ), IsSort sort →
      defaultGeo.checkMesh2D Real.sqrt sort (1 / 1000) {} m = ok ()) ∧
    m.row .vert2 0 = ok [0, 1, 2] ∧ m.row .edge2 0 = ok [0, 1, 2] ∧ m.extremes 0 = ok (0, 1) ∧
    m.row .nb12 0 = ok [0, UINT_MAX] ∧ m.extremes 1 = ok (1, 2) ∧ m.row .nb12 1 = ok [UINT_MAX, UINT_MAX] := by
  obtain ⟨d, n0, n2, c1, c2, c3, c4, r0, s0, x0, y0, y1, x1⟩ := sideTop_eval
  have hn : sideTop.num .d0 = ([⟨0, 0, 0⟩, ⟨4, 0, 0⟩, ⟨0, 4, 0⟩] : List (V3 ℝ)).length := n0
  refine ⟨place sideTop [⟨0, 0, 0⟩, ⟨4, 0, 0⟩, ⟨0, 4, 0⟩], place_wf sideTop_wf hn, fun sort hsort => ?_, r0, s0, x0,
    y0, x1, y1⟩
  refine place_pass hsort (by norm_num [abs_lt]) sideTop_wf d hn (by simp) triangle_cell.grid triangle_cell.nodup c1 c2 c3 c4 ?_
  intro p hp
  rw [n2] at hp
  interval_cases p
  exact ⟨_, _, r0, rfl, triangle_cell⟩

/-- A square whose edges are those of a triangle. -/
def countOps : List (Op ℝ) :=
  [.initDim 2, .append .d0 4, .append .d1 3, .insertExt 0 0 1, .insertExt 1 1 2, .insertExt 2 2 0,
   .append .d2 1, .addRow .vert2 0 [0, 1, 2, 3], .addRow .edge2 0 [0, 1, 2],
   .resizeRow .nb12 0 2, .insertEntry .nb12 0 1 0, .resizeRow .nb12 1 2, .insertEntry .nb12 1 1 0, .resizeRow .nb12 2 2, .insertEntry .nb12 2 1 0]

noncomputable def countTop : Mesh ℝ := buildMesh countOps

theorem countTop_wf : countTop.WF := buildMesh_wf (by decide +kernel)

theorem countTop_eval : countTop.dimension = 2 ∧ countTop.num .d0 = 4 ∧ countTop.num .d2 = 1 ∧
    countTop.checkEdgeCopies = ok () ∧ countTop.checkNeighbours = ok () ∧ countTop.checkSides = ok () ∧
    countTop.checkPolygonCopies = ok () ∧ countTop.row .vert2 0 = ok [0, 1, 2, 3] ∧
    countTop.row .edge2 0 = ok [0, 1, 2] := by
  decide +kernel

attribute [irreducible] countTop

theorem square_cell : GridCell [⟨0, 0, 0⟩, ⟨4, 0, 0⟩, ⟨4, 4, 0⟩, ⟨0, 4, 0⟩] := by
  refine gridCell_of_turnsLeft (by simp) ?_ (by simp) (turnsLeft_of_triplewise (by
    simp only [List.triplewise_cons, List.pairwise_cons, List.mem_cons, List.not_mem_nil, or_false]
    norm_num [area2]))
  intro p hp
  simp only [List.mem_cons, List.not_mem_nil, or_false] at hp
  rcases hp with rfl | rfl | rfl | rfl
  · exact ⟨0, 0, by norm_num, by norm_num, by simp⟩
  · exact ⟨4, 0, by norm_num, by norm_num, by simp⟩
  · exact ⟨4, 4, by norm_num, by norm_num, by simp⟩
  · exact ⟨0, 4, by norm_num, by norm_num, by simp⟩

/-- C88 does not hold for the number of edges: a polygon with four vertices and three edges passes all tests with the
default tolerances. -/
theorem c88_counts_violated : ∃ m : Mesh ℝ, m.WF ∧
    (∀ sort : (HullPt ℝ → HullPt ℝ → Bool) → List (HullPt ℝ) → List (HullPt ℝ), IsSort sort →
      defaultGeo.checkMesh2D Real.sqrt sort (1 / 1000) {} m = ok ()) ∧
    m.row .vert2 0 = ok [0, 1, 2, 3] ∧ m.row .edge2 0 = ok [0, 1, 2] := by
  obtain ⟨d, n0, n2, c1, c2, c3, c4, r0, s0⟩ := countTop_eval
  have hn : countTop.num .d0 = ([⟨0, 0, 0⟩, ⟨4, 0, 0⟩, ⟨4, 4, 0⟩, ⟨0, 4, 0⟩] : List (V3 ℝ)).length := n0
  refine ⟨place countTop [⟨0, 0, 0⟩, ⟨4, 0, 0⟩, ⟨4, 4, 0⟩, ⟨0, 4, 0⟩], place_wf countTop_wf hn,
    fun sort hsort => ?_, r0, s0⟩
  refine place_pass hsort (by norm_num [abs_lt]) countTop_wf d hn (by simp) square_cell.grid square_cell.nodup c1 c2 c3 c4 ?_
  intro p hp
  rw [n2] at hp
  interval_cases p
  exact ⟨_, _, r0, rfl, square_cell⟩

/-- A star with five points. -/
def starOps : List (Op ℝ) :=
  [.initDim 2, .append .d0 5, .append .d1 5, .insertExt 0 0 1, .insertExt 1 1 2, .insertExt 2 2 3, .insertExt 3 3 4,
   .insertExt 4 4 0, .append .d2 1, .addRow .vert2 0 [0, 1, 2, 3, 4], .addRow .edge2 0 [0, 1, 2, 3, 4],
   .resizeRow .nb12 0 2, .insertEntry .nb12 0 1 0, .resizeRow .nb12 1 2, .insertEntry .nb12 1 1 0, .resizeRow .nb12 2 2, .insertEntry .nb12 2 1 0,
   .resizeRow .nb12 3 2, .insertEntry .nb12 3 1 0, .resizeRow .nb12 4 2, .insertEntry .nb12 4 1 0]

noncomputable def starTop : Mesh ℝ := buildMesh starOps

theorem starTop_wf : starTop.WF := buildMesh_wf (by decide +kernel)

theorem starTop_eval : starTop.dimension = 2 ∧ starTop.num .d0 = 5 ∧ starTop.num .d2 = 1 ∧
    starTop.checkEdgeCopies = ok () ∧ starTop.checkNeighbours = ok () ∧ starTop.checkSides = ok () ∧
    starTop.checkPolygonCopies = ok () ∧ starTop.row .vert2 0 = ok [0, 1, 2, 3, 4] ∧
    starTop.row .edge2 0 = ok [0, 1, 2, 3, 4] := by
  decide +kernel

attribute [irreducible] starTop

/-- The points of the star. -/
noncomputable def starPts : List (V3 ℝ) := [⟨0, 0, 0⟩, ⟨5, 3, 0⟩, ⟨-1, 3, 0⟩, ⟨4, 0, 0⟩, ⟨2, 6, 0⟩]

theorem star_cell : GridCell starPts := by
  refine ⟨by simp [starPts], ?_, by norm_num [starPts], ?_, ?_, ?_⟩
  · intro p hp
    simp only [starPts, List.mem_cons, List.not_mem_nil, or_false] at hp
    rcases hp with rfl | rfl | rfl | rfl | rfl
    · exact ⟨0, 0, by norm_num, by norm_num, by simp⟩
    · exact ⟨5, 3, by norm_num, by norm_num, by simp⟩
    · exact ⟨-1, 3, by norm_num, by norm_num, by simp⟩
    · exact ⟨4, 0, by norm_num, by norm_num, by simp⟩
    · exact ⟨2, 6, by norm_num, by norm_num, by simp⟩
  · intro i a b c hi ha hb hc
    have hi : i < 5 := hi
    interval_cases i <;> simp [starPts] at ha hb hc <;> subst ha hb hc <;> norm_num [area2]
  · norm_num [shoelace, starPts]
  · intro p hp
    simp only [starPts, List.mem_cons, List.not_mem_nil, or_false] at hp
    have key : ∀ q b : V3 ℝ, (q.x ≠ b.x ∨ q.y ≠ b.y) → (∀ r ∈ starPts, 0 ≤ area2 q b r) →
      ¬ StrictlyInside starPts q := fun q b => not_inside_of_line
    rcases hp with rfl | rfl | rfl | rfl | rfl
    · exact key _ ⟨4, 0, 0⟩ (by norm_num) (by norm_num [starPts, area2])
    · exact key _ ⟨2, 6, 0⟩ (by norm_num) (by norm_num [starPts, area2])
    · exact key _ ⟨0, 0, 0⟩ (by norm_num) (by norm_num [starPts, area2])
    · exact key _ ⟨5, 3, 0⟩ (by norm_num) (by norm_num [starPts, area2])
    · exact key _ ⟨-1, 3, 0⟩ (by norm_num) (by norm_num [starPts, area2])

/-- C88 does not hold for self-intersections: a polygon in which two edges without a common vertex cross passes all
tests with the default tolerances. -/
theorem c88_star_violated : ∃ m : Mesh ℝ, m.WF ∧ CountsAgree m ∧
    (∀ sort : (HullPt ℝ → HullPt ℝ → Bool) → List (HullPt ℝ) → List (HullPt ℝ), IsSort sort →
      defaultGeo.checkMesh2D Real.sqrt sort (1 / 1000) {} m = ok ()) ∧
    ∃ ps a b c d, CornersAre m 0 ps ∧ ps.Nodup ∧ IsEdge ps 0 a b ∧ IsEdge ps 2 c d ∧
      ∃ s t : ℝ, 0 < s ∧ s < 1 ∧ 0 < t ∧ t < 1 ∧
        a.add (V3.smul s (b.sub a)) = c.add (V3.smul t (d.sub c)) := by
  obtain ⟨d, n0, n2, c1, c2, c3, c4, r0, s0⟩ := starTop_eval
  have hn : starTop.num .d0 = starPts.length := n0
  have hm : ([0, 1, 2, 3, 4] : List Nat).map (fun v => starPts[v]?) = starPts.map some := rfl
  refine ⟨place starTop starPts, place_wf starTop_wf hn, ?_, fun sort hsort => ?_, starPts, ⟨0, 0, 0⟩, ⟨5, 3, 0⟩,
    ⟨-1, 3, 0⟩, ⟨4, 0, 0⟩, place_corners hn r0 hm, star_cell.nodup, ⟨rfl, rfl⟩, ⟨rfl, rfl⟩, 2 / 5, 3 / 5, by norm_num,
    by norm_num, by norm_num, by norm_num, ?_⟩
  · intro p vs es h1 h2
    have hp : p < starTop.num .d2 := row_lt h1
    rw [n2] at hp
    interval_cases p
    obtain rfl := ok.inj (r0.symm.trans h1)
    obtain rfl := ok.inj (s0.symm.trans h2)
    rfl
  · refine place_pass hsort (by norm_num [abs_lt]) starTop_wf d hn (by simp [starPts]) star_cell.grid star_cell.nodup c1 c2 c3 c4 ?_
    intro p hp
    rw [n2] at hp
    interval_cases p
    exact ⟨_, _, r0, hm, star_cell⟩
  · ext <;> norm_num [V3.add, V3.smul, V3.sub]

end Verif
