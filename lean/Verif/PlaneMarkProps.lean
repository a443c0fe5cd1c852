import Verif.PlaneMarkLemmas
import Verif.MarkProps

/-
C122 and C123: the markers on a plane and by the normals of the faces.
-/
namespace Verif

open Res

variable {K : Type} [Field K] [LinearOrder K] [IsStrictOrderedRing K]

/-- C122: `SetMeshMarkersOnPlane` gives the marker to the vertices within the tolerance of the plane, to the edges with both
ends and to the faces with all vertices there, and changes nothing else. -/
theorem c122_plane {sqrt : K → K} (hs : IsSqrt sqrt) (g : GeoCfg K) (h0 : 0 ≤ g.minTolerance) {m : Mesh K} (hw : m.WF)
    (hx : EndsExist m) (hc : CornersExist m) {n o : V3 K} (hn : 0 < n.dot n) (marker : Nat) :
    ∃ m', g.setMarkersOnPlane sqrt n o marker m = ok m' ∧ m'.WF ∧ MarkedWhere (AllIn m (g.NearPlane n o)) marker m m' := by
  obtain ⟨m', e, w, M⟩ := plane_where hw hx hc (fun p => g.isPointOnPlane sqrt p n o) marker
  refine ⟨m', e, w, ?_⟩
  have : (fun p => g.isPointOnPlane sqrt p n o = true) = g.NearPlane n o := by
    funext p
    exact propext (isPointOnPlane_iff hs g h0 hn)
  rw [this] at M
  exact M

/-- C122: the length and the orientation of the normal do not matter. -/
theorem c122_normal (g : GeoCfg K) {n o p : V3 K} (t : K) (ht : t ≠ 0) :
    g.NearPlane (V3.smul t n) o p ↔ g.NearPlane n o p := by
  have e : ∀ q : V3 K, (V3.smul t n).dot (q.sub o) = t * n.dot (q.sub o) := by
    intro q
    simp only [V3.dot, V3.smul, V3.sub]
    ring
  unfold GeoCfg.NearPlane
  simp only [e, mul_eq_zero, ht, false_or]

/-- C123: `SetMeshMarkersByFaceNormal` gives the marker to the faces that have exactly one polyhedron and a normal with the
given direction, up to the tolerance and the orientation, to their vertices and their edges, and changes nothing else. -/
theorem c123_by_normal {sqrt : K → K} (hs : IsSqrt sqrt) (g : GeoCfg K) (h0 : 0 ≤ g.minTolerance) (hc : g.tolSq < 1 / 2)
    {m : Mesh K} (hw : m.WF) (hv : CornersExist m) (he : SidesExist m) {n : V3 K} {normals : List (V3 K)}
    (hn : ∀ f, f < m.num .d2 → AtBoundary m f → ∃ b, normals[f]? = some b ∧ 4 * (g.tolSq * g.tolSq) < n.dot n * b.dot b)
    (marker : Nat) :
    ∃ m', g.setMarkersByNormal sqrt n normals marker m = ok m' ∧ m'.WF ∧
      MarkedWhere (OfFaces m (g.Facing m n normals)) marker m m' := by
  obtain ⟨m', e, w, M⟩ := byNormal_where hs g h0 hc hw hv he hn marker (m.num .d2) le_rfl
  refine ⟨m', e, w, ?_⟩
  have : (fun f => f < m.num .d2 ∧ g.Facing m n normals f) = g.Facing m n normals := by
    funext f
    exact propext ⟨fun h => h.2, fun h => ⟨h.1, h⟩⟩
  rw [this] at M
  exact M

/-- C123: a multiple of the direction counts as parallel, a direction at a right angle does not. -/
theorem c123_parallel (g : GeoCfg K) (hc : g.tolSq < 1 / 2) (n : V3 K) :
    (∀ t, g.AlmostParallel n (V3.smul t n)) ∧
    (∀ b, 0 < n.dot n → 0 < b.dot b → n.dot b = 0 → ¬ g.AlmostParallel n b) := by
  have h0 := g.tolSq_nonneg
  constructor
  · intro t
    unfold GeoCfg.AlmostParallel
    have e1 : n.dot n * (V3.smul t n).dot (V3.smul t n) = t * t * (n.dot n * n.dot n) := by
      simp only [V3.dot, V3.smul]; ring
    have e2 : n.dot (V3.smul t n) * n.dot (V3.smul t n) = t * t * (n.dot n * n.dot n) := by
      simp only [V3.dot, V3.smul]; ring
    rw [e1, e2]
    refine mul_le_of_le_one_left (mul_nonneg (mul_self_nonneg _) (mul_self_nonneg _)) ?_
    nlinarith
  · intro b hn hb hd h
    unfold GeoCfg.AlmostParallel at h
    rw [hd, mul_zero] at h
    have : 0 < (1 - g.tolSq) * (1 - g.tolSq) * (n.dot n * b.dot b) :=
      mul_pos (mul_pos (by linarith) (by linarith)) (mul_pos hn hb)
    linarith

/-- C123: the face at the boundary whose normal is missing stops the function, as all before it are marked. -/
theorem c123_missing_normal {sqrt : K → K} (g : GeoCfg K) {m : Mesh K} (hw : m.WF) {n : V3 K} {normals : List (V3 K)}
    (marker f : Nat) (hf : f < m.num .d2) (hb : AtBoundary m f) (hno : normals.length ≤ f) :
    g.markFaceByNormal sqrt n normals marker m f = Res.throw := by
  obtain ⟨r, hr, hr1⟩ := hb
  unfold GeoCfg.markFaceByNormal
  rw [rowSize_of_row hw hr, ok_bind, countCells_ok hw hr _ le_rfl, ok_bind, List.take_length, if_neg (by simpa using hr1)]
  unfold vat
  rw [List.getElem?_eq_none hno]
  rfl

/-! ### Example: two tetrahedra with a face in common -/

noncomputable def twoTetsOps : List (Op ℝ) :=
  [.append .d0 5, .insertCoord 0 0 0 0, .insertCoord 1 1 0 0, .insertCoord 2 0 1 0, .insertCoord 3 0 0 1,
   .insertCoord 4 0 0 (-1), .append .d1 9,
   .insertExt 0 0 1, .insertExt 1 0 2, .insertExt 2 1 2, .insertExt 3 0 3, .insertExt 4 1 3, .insertExt 5 2 3,
   .insertExt 6 0 4, .insertExt 7 1 4, .insertExt 8 2 4,
   .append .d2 7, .addRow .vert2 0 [0, 1, 2], .addRow .edge2 0 [0, 2, 1], .addRow .vert2 1 [0, 1, 3],
   .addRow .edge2 1 [0, 4, 3], .addRow .vert2 2 [0, 2, 3], .addRow .edge2 2 [1, 5, 3], .addRow .vert2 3 [1, 2, 3],
   .addRow .edge2 3 [2, 5, 4], .addRow .vert2 4 [0, 1, 4], .addRow .edge2 4 [0, 7, 6], .addRow .vert2 5 [0, 2, 4],
   .addRow .edge2 5 [1, 8, 6], .addRow .vert2 6 [1, 2, 4], .addRow .edge2 6 [2, 8, 7], .append .d3 2,
   .addRow .nb23 0 [0, 1], .addRow .nb23 1 [0], .resizeRow .nb23 2 2, .insertEntry .nb23 2 1 0, .addRow .nb23 3 [0], .addRow .nb23 4 [1],
   .addRow .nb23 5 [1], .addRow .nb23 6 [1]]

noncomputable def twoTets : Mesh ℝ :=
  match Mesh.empty.run twoTetsOps with
  | ok m => m
  | _ => Mesh.empty

theorem twoTets_run : (Mesh.empty : Mesh ℝ).run twoTetsOps = ok twoTets := by
  have h : (match (Mesh.empty : Mesh ℝ).run twoTetsOps with | ok _ => true | _ => false) = true := by
    decide +kernel
  unfold twoTets
  revert h
  cases (Mesh.empty : Mesh ℝ).run twoTetsOps <;> simp

theorem twoTets_wf : twoTets.WF := by
  refine Mesh.run_wf_of_ok (ops := twoTetsOps) Mesh.empty_wf (Mesh.along_of_forall ?_ _) twoTets_run
  intro o ho m
  have : ∀ o ∈ twoTetsOps, (match o with
      | .init _ _ => false | .resetNeighbour _ _ _ => false | .insertProp _ _ _ _ _ => false | _ => true) = true := by
    decide +kernel
  have := this o ho
  cases o <;> first | trivial | simp at this

theorem twoTets_num : twoTets.num .d0 = 5 ∧ twoTets.num .d1 = 9 ∧ twoTets.num .d2 = 7 ∧ twoTets.num .d3 = 2 := by
  decide +kernel

theorem twoTets_point : twoTets.point 0 = ok ⟨0, 0, 0⟩ ∧ twoTets.point 1 = ok ⟨1, 0, 0⟩ ∧
    twoTets.point 2 = ok ⟨0, 1, 0⟩ ∧ twoTets.point 3 = ok ⟨0, 0, 1⟩ ∧ twoTets.point 4 = ok ⟨0, 0, -1⟩ :=
  ⟨rfl, rfl, rfl, rfl, rfl⟩

theorem twoTets_ends : EndsExist twoTets := by
  intro e x y h
  have he : e < 9 := twoTets_num.2.1 ▸ extremes_lt h
  have all : ∀ e < 9, (match twoTets.extremes e with
      | ok p => decide (p.1 < twoTets.num .d0 ∧ p.2 < twoTets.num .d0) | _ => false) = true := by decide +kernel
  have := all e he
  rw [h] at this
  exact of_decide_eq_true this

theorem twoTets_rows (l : Lst) (d : Dim) (h : ∀ f < 7, (match twoTets.row l f with
      | ok r => r.all fun v => decide (v < twoTets.num d) | _ => false) = true) (ho : l.owner = .d2) :
    ∀ f r, twoTets.row l f = ok r → ∀ v ∈ r, v < twoTets.num d := by
  intro f r hr v hv
  have hf : f < 7 := by
    by_contra hlt
    unfold Mesh.row at hr
    rw [assert_false (by rw [ho, twoTets_num.2.2.1]; exact hlt)] at hr
    cases hr
  have := h f hf
  rw [hr] at this
  exact of_decide_eq_true (List.all_eq_true.1 this v hv)

theorem twoTets_corners : CornersExist twoTets := twoTets_rows .vert2 .d0 (by decide +kernel) rfl

theorem twoTets_sides : SidesExist twoTets := twoTets_rows .edge2 .d1 (by decide +kernel) rfl

/-- The plane x = 0 has the vertices 0, 2, 3 and 4 of the two tetrahedra, so the face 2 gets the marker, and the face 0 that
has the vertex 1 does not. -/
example : ∃ m', defaultGeo.setMarkersOnPlane Real.sqrt ⟨-2, 0, 0⟩ ⟨0, 0, 0⟩ 100 twoTets = ok m' ∧
    m'.marker .d2 2 = ok 100 ∧ m'.marker .d1 5 = ok 100 ∧ m'.marker .d0 3 = ok 100 ∧ m'.marker .d0 1 = ok 0 ∧
    m'.marker .d2 0 = ok 0 := by
  obtain ⟨m', e, -, M⟩ := c122_plane isSqrt_real defaultGeo defaultGeo_min_nonneg twoTets_wf twoTets_ends twoTets_corners
    (n := ⟨-2, 0, 0⟩) (o := ⟨0, 0, 0⟩) (by norm_num [V3.dot]) 100
  obtain ⟨p0, p1, p2, p3, p4⟩ := twoTets_point
  obtain ⟨n0, n1, n2, n3⟩ := twoTets_num
  have on : ∀ v p, twoTets.point v = ok p → p.x = 0 → VertexIn twoTets (defaultGeo.NearPlane ⟨-2, 0, 0⟩ ⟨0, 0, 0⟩) v := by
    intro v p hp hx
    refine ⟨p, hp, p, by simp [V3.dot, V3.sub, hx], ?_⟩
    have : dist2 p p = 0 := by simp [dist2]
    rw [this]
    exact mul_self_nonneg _
  have off : ¬ VertexIn twoTets (defaultGeo.NearPlane ⟨-2, 0, 0⟩ ⟨0, 0, 0⟩) 1 := by
    rintro ⟨p, hp, q, hq, hd⟩
    rw [p1, ok.injEq] at hp
    subst hp
    rw [defaultGeo_tol1D] at hd
    simp only [V3.dot, V3.sub] at hq
    have hx : q.x = 0 := by linarith
    simp only [dist2] at hd
    rw [hx] at hd
    have := mul_self_nonneg (0 - q.y)
    have := mul_self_nonneg (0 - q.z)
    norm_num at hd
    nlinarith
  have r2 : twoTets.row .vert2 2 = ok [0, 2, 3] := by decide +kernel
  have r0 : twoTets.row .vert2 0 = ok [0, 1, 2] := by decide +kernel
  have x5 : twoTets.extremes 5 = ok (2, 3) := by decide +kernel
  have k0 : twoTets.marker .d0 1 = ok 0 := by decide +kernel
  have k2 : twoTets.marker .d2 0 = ok 0 := by decide +kernel
  refine ⟨m', e, M.inside .d2 2 (by omega) ⟨_, r2, ?_⟩,
    M.inside .d1 5 (by omega) ⟨2, 3, x5, on 2 _ p2 rfl, on 3 _ p3 rfl⟩, M.inside .d0 3 (by omega) (on 3 _ p3 rfl),
    (M.outside .d0 1 off).trans k0, (M.outside .d2 0 ?_).trans k2⟩
  · intro v hv
    simp only [List.mem_cons, List.not_mem_nil, or_false] at hv
    rcases hv with rfl | rfl | rfl
    · exact on 0 _ p0 rfl
    · exact on 2 _ p2 rfl
    · exact on 3 _ p3 rfl
  · rintro ⟨vs, hvs, hall⟩
    rw [r0, ok.injEq] at hvs
    subst hvs
    exact off (hall 1 (by simp))

/-- Normals of the seven faces. -/
noncomputable def twoTetsNormals : List (V3 ℝ) :=
  [⟨0, 0, 1⟩, ⟨0, 1, 0⟩, ⟨1, 0, 0⟩, ⟨1, 1, 1⟩, ⟨0, -1, 0⟩, ⟨-1, 0, 0⟩, ⟨1, 1, -1⟩]

/-- With the direction (3, 0, 0) the faces 2 and 5 get the marker; with the direction (0, 0, 1) no face gets it, since the
face 0 is between the two tetrahedra. -/
example : ∃ m' m'', defaultGeo.setMarkersByNormal Real.sqrt ⟨3, 0, 0⟩ twoTetsNormals 100 twoTets = ok m' ∧
    m'.marker .d2 2 = ok 100 ∧ m'.marker .d2 5 = ok 100 ∧ m'.marker .d0 4 = ok 100 ∧ m'.marker .d1 8 = ok 100 ∧
    defaultGeo.setMarkersByNormal Real.sqrt ⟨0, 0, 1⟩ twoTetsNormals 100 twoTets = ok m'' ∧ m''.marker .d2 0 = ok 0 := by
  have hc : defaultGeo.tolSq < 1 / 2 := by rw [defaultGeo_tolSq]; norm_num
  obtain ⟨n0, n1, n2, n3⟩ := twoTets_num
  have hn : ∀ n : V3 ℝ, 1 ≤ n.dot n → ∀ f, f < twoTets.num .d2 → AtBoundary twoTets f →
      ∃ b, twoTetsNormals[f]? = some b ∧ 4 * (defaultGeo.tolSq * defaultGeo.tolSq) < n.dot n * b.dot b := by
    intro n hn f hf _
    rw [n2] at hf
    have : f < twoTetsNormals.length := hf
    refine ⟨_, List.getElem?_eq_getElem this, ?_⟩
    have hb : 1 ≤ twoTetsNormals[f].dot twoTetsNormals[f] := by
      interval_cases f <;> norm_num [twoTetsNormals, V3.dot]
    rw [defaultGeo_tolSq]
    calc (4 * (10 / 2 ^ 52 * (10 / 2 ^ 52)) : ℝ) < 1 := by norm_num
      _ ≤ _ := by nlinarith
  obtain ⟨m', e, -, M⟩ := c123_by_normal isSqrt_real defaultGeo defaultGeo_min_nonneg hc twoTets_wf twoTets_corners
    twoTets_sides (n := ⟨3, 0, 0⟩) (normals := twoTetsNormals) (hn _ (by norm_num [V3.dot])) 100
  obtain ⟨m'', e', -, M'⟩ := c123_by_normal isSqrt_real defaultGeo defaultGeo_min_nonneg hc twoTets_wf twoTets_corners
    twoTets_sides (n := ⟨0, 0, 1⟩) (normals := twoTetsNormals) (hn _ (by norm_num [V3.dot])) 100
  have b2 : AtBoundary twoTets 2 := ⟨[4294967295, 0], by decide +kernel, by rw [n3]; decide⟩
  have b5 : AtBoundary twoTets 5 := ⟨[1], by decide +kernel, by rw [n3]; decide⟩
  have b0 : ¬ AtBoundary twoTets 0 := by
    have hr : twoTets.row .nb23 0 = ok [0, 1] := by decide +kernel
    rw [atBoundary_iff hr, n3]
    decide
  have f2 : defaultGeo.Facing twoTets ⟨3, 0, 0⟩ twoTetsNormals 2 := by
    refine ⟨by omega, b2, ⟨1, 0, 0⟩, rfl, ?_⟩
    have := (c123_parallel defaultGeo hc ⟨3, 0, 0⟩).1 (1 / 3)
    norm_num [V3.smul] at this
    exact this
  have f5 : defaultGeo.Facing twoTets ⟨3, 0, 0⟩ twoTetsNormals 5 := by
    refine ⟨by omega, b5, ⟨-1, 0, 0⟩, rfl, ?_⟩
    have := (c123_parallel defaultGeo hc ⟨3, 0, 0⟩).1 (-1 / 3)
    norm_num [V3.smul] at this
    exact this
  have v5 : twoTets.row .vert2 5 = ok [0, 2, 4] := by decide +kernel
  have s5 : twoTets.row .edge2 5 = ok [1, 8, 6] := by decide +kernel
  have k2 : twoTets.marker .d2 0 = ok 0 := by decide +kernel
  exact ⟨m', m'', e, M.inside .d2 2 (by omega) f2, M.inside .d2 5 (by omega) f5,
    M.inside .d0 4 (by omega) ⟨5, _, f5, v5, by simp⟩, M.inside .d1 8 (by omega) ⟨5, _, f5, s5, by simp⟩, e',
    (M'.outside .d2 0 fun h => b0 h.2.1).trans k2⟩

/-- Without its normal a face at the boundary stops the function. -/
example : defaultGeo.setMarkersByNormal Real.sqrt ⟨1, 0, 0⟩ [⟨0, 0, 1⟩] 100 twoTets = Res.throw := by
  have h0 : defaultGeo.markFaceByNormal Real.sqrt ⟨1, 0, 0⟩ [⟨0, 0, 1⟩] 100 twoTets 0 = ok twoTets := rfl
  have h1 := c123_missing_normal (sqrt := Real.sqrt) defaultGeo twoTets_wf (n := ⟨1, 0, 0⟩) (normals := [⟨0, 0, 1⟩]) 100 1
    (by rw [twoTets_num.2.2.1]; omega) ⟨[0], by decide +kernel, by rw [twoTets_num.2.2.2]; decide⟩ (by simp)
  unfold GeoCfg.setMarkersByNormal
  rw [twoTets_num.2.2.1]
  have : List.range 7 = 0 :: 1 :: [2, 3, 4, 5, 6] := rfl
  rw [this, foldRes_cons, h0, ok_bind, foldRes_cons, h1]
  rfl

end Verif
