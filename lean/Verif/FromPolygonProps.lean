import Verif.FromPolygonLemmas
import Verif.CheckProps

/-
C89: the mesh of one polygon.
-/
namespace Verif

open Res

variable {K : Type} [Field K]

/-- C89, what is stored: with at least three vertices `Mesh2DFromPolygon` on an empty mesh comes back, and the mesh
is the mesh of the polygon; with fewer vertices the call stops at an assertion. -/
theorem c89_polygon_mesh (ps : List (V3 K)) (vm em : List Nat) :
    (2 < ps.length → ∃ m, Mesh.mesh2DFromPolygon ps vm em Mesh.empty = ok m ∧ PolygonMesh ps vm em m) ∧
    (ps.length ≤ 2 → Mesh.mesh2DFromPolygon ps vm em Mesh.empty = abort) := by
  rw [MeshData.mesh2DFromPolygon_eq]
  constructor
  swap
  · intro h; rw [if_neg (by omega)]
  intro h
  rw [if_pos h]
  have hV : ∀ i, i < ps.length → (MeshData.polyData ps vm em).V[i]? = some (MeshData.polyPoint ps vm i) := by
    intro i hi; simp [MeshData.polyData, hi]
  have hE : ∀ i, i < ps.length →
      (MeshData.polyData ps vm em).E[i]? = some (MeshData.polyEdge ps.length em [UINT_MAX, 0] i) := by
    intro i hi; simp [MeshData.polyData, hi]
  have hP : (MeshData.polyData ps vm em).P[0]? =
      some ⟨List.range ps.length, List.range ps.length, 0, true⟩ := rfl
  refine ⟨_, rfl, ⟨MeshData.mesh_wf _, rfl, ⟨?_, ?_⟩, ⟨?_, ?_⟩, ⟨rfl, rfl, ?_, ?_⟩, rfl, ?_, ?_, ?_, ?_, ?_, ?_, ?_,
    ?_, fun _ => rfl⟩⟩
  · show (List.map _ _).length = _
    simp
  · intro i p hp
    have hi := (List.getElem?_eq_some_iff.1 hp).1
    rw [MeshData.coordinates_V (hV i hi)]
    simp [MeshData.polyPoint, hp]
  · show (List.map _ _).length = _
    simp
  · intro i e he
    have hi : i < ps.length := by simpa using (List.getElem?_eq_some_iff.1 he).1
    rw [MeshData.extremes_E (hE i hi)]
    simp only [List.getElem?_map, List.getElem?_range hi, Option.map_some, Option.some.injEq] at he
    rw [← he]
    rfl
  · intro i r hr
    obtain ⟨hi, hr⟩ := List.getElem?_eq_some_iff.1 hr
    obtain rfl : i = 0 := by simpa using hi
    rw [MeshData.row_vert2 hP, ← hr]
    rfl
  · intro i r hr
    obtain ⟨hi, hr⟩ := List.getElem?_eq_some_iff.1 hr
    obtain rfl : i = 0 := by simpa using hi
    rw [MeshData.row_edge2 hP, ← hr]
    rfl
  · exact MeshData.allActive_mesh (by simp [MeshData.polyData, MeshData.polyPoint])
      (by simp [MeshData.polyData, MeshData.polyEdge]) (by simp [MeshData.polyData]) (by simp [MeshData.polyData])
  · intro v hv
    exact ⟨_, MeshData.marker_V (hV v hv), isMarker_markerOf hv⟩
  · intro e he
    exact ⟨_, MeshData.marker_E (hE e he), isMarker_markerOf he⟩
  · exact MeshData.marker_P hP
  · intro e he
    exact MeshData.row_nb12 (hE e he)
  · intro l hl h12 i hi
    refine AMesh.row_conc (MeshData.toA_ok _) ?_
    have hi : i < (MeshData.polyData ps vm em).num l.owner := hi
    cases l <;> simp only [Lst.isNeighbour, reduceCtorEq, or_self] at hl <;>
      simp only [MeshData.toA, Lst.owner, MeshData.num] at hi ⊢
    case nb12 => exact absurd rfl h12
    all_goals simp [hi]
  · intro d i hd hi
    have hi' : i < (MeshData.polyData ps vm em).num d := hi
    unfold Mesh.original
    rw [assert_true hi, ok_bind]
    cases d <;> simp [MeshData.mesh, AMesh.conc, MeshData.toA, MeshData.num] at hd hi' ⊢ <;> simp [hi']
  · intro d i hi
    unfold Mesh.updated
    rw [assert_true hi, ok_bind]
    rfl

/-- C89, the cells fit together: the edges are different and go round the polygon, the polygon has all edges next to
it, and its corners are the given points. -/
theorem c89_fits {ps : List (V3 K)} {vm em : List Nat} {m : Mesh K} (hn : 2 < ps.length)
    (h : PolygonMesh ps vm em m) : EdgesUnique m ∧ PolygonsClosed m ∧ NeighboursHaveEdge m ∧ PolygonsDiffer m ∧
      CountsAgree m ∧ CornersAre m 0 ps := by
  have ext : ∀ e, e < ps.length → m.extremes e = ok (e, nextIn ps.length e) := fun e he =>
    h.edges.2 e _ (by simp [he])
  have extlt : ∀ e x y, m.extremes e = ok (x, y) → e < ps.length ∧ x = e ∧ y = nextIn ps.length e := by
    intro e x y he
    have hlt : e < ps.length := by
      have h1 := h.edges.1
      simp only [List.length_map, List.length_range] at h1
      by_contra hc
      unfold Mesh.extremes at he
      rw [assert_false (by omega)] at he
      exact absurd he (by simp [abort_bind])
    have := (ext e hlt).symm.trans he
    rw [ok.injEq, Prod.mk.injEq] at this
    exact ⟨hlt, this.1.symm, this.2.symm⟩
  have vrow : m.row .vert2 0 = ok (List.range ps.length) := h.polygons.2.2.1 0 _ rfl
  have erow : m.row .edge2 0 = ok (List.range ps.length) := h.polygons.2.2.2 0 _ rfl
  have cells : ∀ l p r, Lst.owner l = .d2 → m.row l p = ok r → p = 0 := by
    intro l p r hl hr
    have := row_lt hr
    rw [hl, h.polygons.1] at this
    simpa using this
  refine ⟨?_, ?_, ?_, ?_, ?_, ?_⟩
  · intro e x y he
    obtain ⟨h1, rfl, rfl⟩ := extlt e x y he
    rw [h.points.1]
    refine ⟨h1, ?_, ?_, ?_⟩
    · unfold nextIn; split <;> omega
    · unfold nextIn; split <;> omega
    · intro f hf
      rcases hf with hf | hf
      · exact (extlt _ _ _ hf).2.1.symm
      · obtain ⟨-, h2, h3⟩ := extlt _ _ _ hf
        unfold nextIn at h2 h3
        split at h2 <;> split at h3 <;> omega
  · intro p hp
    rw [h.polygons.1] at hp
    obtain rfl : p = 0 := by simpa using hp
    refine ⟨_, _, vrow, erow, List.nodup_range, le_rfl, ?_⟩
    intro k e he
    obtain ⟨hk, rfl⟩ := List.getElem?_eq_some_iff.1 he
    simp only [List.length_range] at hk
    refine ⟨k, nextIn ps.length k, by simp [hk], ?_, ?_⟩
    · rw [List.length_range, nextIn_eq hk, List.getElem?_range]
      unfold nextIn; split <;> omega
    · left
      simpa using ext k hk
  · intro e r hr
    have he : e < ps.length := by
      have := row_lt hr
      have h1 := h.edges.1
      simp only [List.length_map, List.length_range] at h1
      rw [← h1]; exact this
    have := (h.neighbours e he).symm.trans hr
    rw [ok.injEq] at this
    subst this
    refine ⟨by simp, ?_⟩
    intro t _ ht
    rw [h.polygons.1] at ht
    obtain rfl : t = 0 := by simpa using ht
    exact ⟨_, erow, by simpa using he⟩
  · intro p q vs vs' es es' hne h1 h2
    exact absurd ((cells _ _ _ rfl h1).trans (cells _ _ _ rfl h2).symm) hne
  · intro p vs es h1 h2
    obtain rfl := cells _ _ _ rfl h1
    rw [← ok.inj (vrow.symm.trans h1), ← ok.inj (erow.symm.trans h2)]
  · refine ⟨_, vrow, ?_⟩
    rw [List.forall₂_iff_get]
    refine ⟨by simp, ?_⟩
    intro i h1 h2
    have := h.points.2 i _ (List.getElem?_eq_getElem h2)
    simp only [List.get_eq_getElem, List.getElem_range]
    unfold Mesh.point
    rw [this]
    rfl

/-- C89, integer coordinates and the default tolerances: the mesh of a strictly convex polygon that runs counter
clockwise passes all tests of `CheckMesh2D`. -/
theorem c89_check {sort : (HullPt ℝ → HullPt ℝ → Bool) → List (HullPt ℝ) → List (HullPt ℝ)} (hsort : IsSort sort)
    {tol2D : ℝ} (ht : |tol2D| < 1 / 2) (cfg : CheckCfg) (ps : List (V3 ℝ)) (vm em : List Nat) (hn : 2 < ps.length)
    (hg : ∀ p ∈ ps, IsSmallGridPoint p) (hd : ps.Nodup) (hl : TurnsLeft ps) :
    ∃ m, Mesh.mesh2DFromPolygon ps vm em Mesh.empty = ok m ∧ Correct2D defaultGeo Real.sqrt tol2D cfg m ∧
      defaultGeo.checkMesh2D Real.sqrt sort tol2D cfg m = ok () := by
  obtain ⟨m, hm, h⟩ := (c89_polygon_mesh ps vm em).1 hn
  obtain ⟨h1, h2, h3, h4, -, h6⟩ := c89_fits hn h
  have pt : ∀ i p, m.point i = ok p → ps[i]? = some p := by
    intro i p hp
    have hi := point_lt hp
    rw [h.points.1] at hi
    have := h.points.2 i _ (List.getElem?_eq_getElem hi)
    unfold Mesh.point at hp
    rw [this] at hp
    rw [List.getElem?_eq_getElem hi, ← ok.inj hp]
  refine ⟨m, hm, c88_grid hsort ht cfg h.wf h.dimension (by rw [h.points.1]; omega) ?_ ?_ h1 h2 h3 h4 ?_⟩
  · exact fun i p hp => hg p (List.mem_of_getElem? (pt i p hp))
  · intro i j p hi hj
    obtain ⟨a, ha⟩ := List.getElem?_eq_some_iff.1 (pt i p hi)
    obtain ⟨b, hb⟩ := List.getElem?_eq_some_iff.1 (pt j p hj)
    exact (List.Nodup.getElem_inj_iff hd).1 (ha.trans hb.symm)
  · intro p hp
    rw [h.polygons.1] at hp
    obtain rfl : p = 0 := by simpa using hp
    exact ⟨ps, h6, hn, hd, hl⟩

/-- A triangle with markers for the vertices only. -/
example : ∃ m, Mesh.mesh2DFromPolygon ([⟨0, 0, 0⟩, ⟨4, 0, 0⟩, ⟨0, 4, 0⟩] : List (V3 ℚ)) [7, 8, 9] [5] Mesh.empty = ok m ∧
    PolygonMesh [⟨0, 0, 0⟩, ⟨4, 0, 0⟩, ⟨0, 4, 0⟩] [7, 8, 9] [5] m ∧ m.marker .d0 1 = ok 8 ∧ m.marker .d1 1 = ok 5 ∧
    m.extremes 2 = ok (2, 0) ∧ EdgesUnique m := by
  obtain ⟨m, hm, h⟩ := (c89_polygon_mesh ([⟨0, 0, 0⟩, ⟨4, 0, 0⟩, ⟨0, 4, 0⟩] : List (V3 ℚ)) [7, 8, 9] [5]).1 (by simp)
  refine ⟨m, hm, h, ?_, ?_, h.edges.2 2 _ rfl, (c89_fits (by simp) h).1⟩
  · obtain ⟨k, hk, h1, -⟩ := h.vertexMarkers 1 (by simp)
    rw [hk, ← Option.some.inj (h1 rfl)]
  · obtain ⟨k, hk, -, h1⟩ := h.edgeMarkers 1 (by simp)
    rw [hk, h1 (by simp)]
    rfl

/-- The square passes the check. -/
example : ∃ m, Mesh.mesh2DFromPolygon ([⟨0, 0, 0⟩, ⟨4, 0, 0⟩, ⟨4, 4, 0⟩, ⟨0, 4, 0⟩] : List (V3 ℝ)) [] [] Mesh.empty = ok m ∧
    ∃ sort, IsSort sort ∧ defaultGeo.checkMesh2D Real.sqrt sort (1 / 10 ^ 12) ⟨true, true, true, true, true, true, true,
      true, true⟩ m = ok () := by
  obtain ⟨sort, hsort⟩ := exists_isSort (α := HullPt ℝ)
  have hl : TurnsLeft ([⟨0, 0, 0⟩, ⟨4, 0, 0⟩, ⟨4, 4, 0⟩, ⟨0, 4, 0⟩] : List (V3 ℝ)) := by
    refine turnsLeft_of_triplewise ?_
    simp [List.triplewise_cons, area2]
  obtain ⟨m, h1, -, h2⟩ := c89_check hsort (tol2D := 1 / 10 ^ 12) (by rw [abs_of_pos] <;> norm_num)
    ⟨true, true, true, true, true, true, true, true, true⟩ _ [] [] (by simp) square_cell.grid square_cell.nodup hl
  exact ⟨m, h1, sort, hsort, h2⟩

end Verif
