import Verif.FillLemmas
import Mathlib.Algebra.Field.Rat
import Mathlib.Tactic.NormNum

/-
C56: filling a mesh from lists of cells.
-/
namespace Verif

open Res

variable {α : Type}

/-- C56, one dimension. On an empty mesh, `FillMesh1D` with at least one coordinate stores the points
`origin + coordinate * tangent` in the given order, and one edge between each point and the next. All
cells are active. The first point has marker 1, the last one marker 2, every other cell marker 0. -/
theorem c56_fill_1d {K : Type} [Field K] (o t : V3 K) (cs : List K) (hc : cs ≠ []) :
    ∃ m, Mesh.fillMesh1D o t cs Mesh.empty = ok m ∧ m.WF ∧ m.dimension = 1 ∧
      m.ReportsPoints (cs.map fun x => o.add (V3.smul x t)) ∧
      m.ReportsEdges ((List.range (cs.length - 1)).map fun i => (i, i + 1)) ∧
      m.num .d2 = 0 ∧ m.num .d3 = 0 ∧ m.AllActive ∧ m.Plain ∧ m.Unmarked .d1 ∧
      ∀ i, i < cs.length →
        m.marker .d0 i = ok (if i + 1 = cs.length then 2 else if i = 0 then 1 else 0) := by
  refine ⟨_, MeshData.fillMesh1D_eq o t hc, MeshData.mesh_wf _, rfl, ⟨?_, ?_⟩, ⟨?_, ?_⟩, rfl, rfl,
    MeshData.allActive_mesh ?_ ?_ ?_ ?_, MeshData.plain_mesh ?_, MeshData.unmarked_E ?_, ?_⟩
  · simp [MeshData.segmentData, MeshData.mesh, AMesh.conc, MeshData.toA, MeshData.num]
  · intro i p hp
    obtain ⟨x, hx, rfl⟩ : ∃ x, cs[i]? = some x ∧ o.add (V3.smul x t) = p := by simpa using hp
    obtain ⟨hi, hx'⟩ := List.getElem?_eq_some_iff.1 hx
    rw [MeshData.coordinates_V (List.getElem?_eq_getElem (by simp [MeshData.segmentData, hi]))]
    simp [MeshData.segmentData, hx']
  · simp [MeshData.segmentData, MeshData.mesh, AMesh.conc, MeshData.toA, MeshData.num]
  · intro i e he
    have hi : i < cs.length - 1 := by
      have := (List.getElem?_eq_some_iff.1 he).1
      simpa using this
    rw [MeshData.extremes_E (List.getElem?_eq_getElem (by simp [MeshData.segmentData, hi]))]
    simpa [MeshData.segmentData, hi] using he
  · intro c h
    obtain ⟨i, hi, rfl⟩ := List.mem_iff_getElem.1 h
    simp [MeshData.segmentData]
  · intro c h
    obtain ⟨i, hi, rfl⟩ := List.mem_iff_getElem.1 h
    simp [MeshData.segmentData]
  · intro c h
    simp [MeshData.segmentData] at h
  · intro c h
    simp [MeshData.segmentData] at h
  · intro c h
    obtain ⟨i, hi, rfl⟩ := List.mem_iff_getElem.1 h
    simp [MeshData.segmentData]
  · intro c h
    obtain ⟨i, hi, rfl⟩ := List.mem_iff_getElem.1 h
    simp [MeshData.segmentData]
  · intro i hi
    rw [MeshData.marker_V (List.getElem?_eq_getElem (by simp [MeshData.segmentData, hi]))]
    simp [MeshData.segmentData]

/-- Three points on a segment. -/
example : ∃ m, Mesh.fillMesh1D (⟨1, 0, 0⟩ : V3 ℚ) ⟨2, 0, 4⟩ [0, 1/2, 1] Mesh.empty = ok m ∧
    m.coordinates 1 = ok (2, 0, 2) ∧ m.extremes 1 = ok (1, 2) ∧ m.marker .d0 2 = ok 2 := by
  obtain ⟨m, h, _, _, h1, h2, _, _, _, _, _, h3⟩ :=
    c56_fill_1d (⟨1, 0, 0⟩ : V3 ℚ) ⟨2, 0, 4⟩ [0, 1/2, 1] (by simp)
  refine ⟨m, h, ?_, h2.2 1 (1, 2) rfl, h3 2 (by simp)⟩
  have := h1.2 1 _ rfl
  simp only [V3.add, V3.smul] at this
  norm_num at this
  exact this

/-- C56: without coordinates, `FillMesh1D` leaves the mesh as it is. -/
theorem c56_fill_1d_nothing {K : Type} [Field K] (o t : V3 K) (m : Mesh K) :
    Mesh.fillMesh1D o t [] m = ok m := rfl

example : Mesh.fillMesh1D (⟨1, 0, 0⟩ : V3 ℚ) ⟨2, 0, 4⟩ [] (Mesh.empty.init .d0 2) =
    ok (Mesh.empty.init .d0 2) := c56_fill_1d_nothing _ _ _

/-- C56, two dimensions. When all edges connect existing points and all polygons name existing points
and edges, `FillMesh2D` on an empty mesh stores exactly the given cells, in order, active and without
marker; otherwise it stops at an assertion. -/
theorem c56_fill_2d [Zero α] (ps : List (V3 α)) (es : List (Nat × Nat)) (fs : List (List (Nat × Nat))) :
    ((EdgesInRange ps.length es ∧ RowsInRange ps.length (fs.map (·.map Prod.fst)) ∧
        RowsInRange es.length (fs.map (·.map Prod.snd))) →
      ∃ m, Mesh.fillMesh2D ps es fs Mesh.empty = ok m ∧ m.WF ∧ m.dimension = 2 ∧ m.ReportsPoints ps ∧
        m.ReportsEdges es ∧ m.ReportsPolygons (fs.map (·.map Prod.fst)) (fs.map (·.map Prod.snd)) ∧
        m.num .d3 = 0 ∧ m.AllActive ∧ (∀ d, m.Unmarked d) ∧ m.Plain) ∧
    (¬ (EdgesInRange ps.length es ∧ RowsInRange ps.length (fs.map (·.map Prod.fst)) ∧
        RowsInRange es.length (fs.map (·.map Prod.snd))) →
      Mesh.fillMesh2D ps es fs Mesh.empty = abort) := by
  rw [MeshData.fillMesh2D_eq]
  constructor
  · intro h
    obtain ⟨h1, h2, h3, h4, h5, h6, h7, h8, h9⟩ := MeshData.filled_reports 2 ps es
      (fs.map (·.map Prod.fst)) (fs.map (·.map Prod.snd)) [] (by simp)
    exact ⟨_, if_pos h, h1, h2, h3, h4, h5, h6.1, h7, h8, h9⟩
  · exact fun h => if_neg h

/-- Two triangles. -/
example : ∃ m, Mesh.fillMesh2D [⟨0, 0, 0⟩, ⟨1, 0, 0⟩, ⟨1, 1, 0⟩, (⟨0, 1, 0⟩ : V3 ℚ)]
    [(0, 1), (1, 2), (2, 0), (2, 3), (3, 0)] [[(0, 0), (1, 1), (2, 2)], [(0, 2), (2, 3), (3, 4)]]
    Mesh.empty = ok m ∧ m.row .vert2 1 = ok [0, 2, 3] ∧ m.row .edge2 1 = ok [2, 3, 4] := by
  obtain ⟨m, h, _, _, _, _, h1, _⟩ := (c56_fill_2d [⟨0, 0, 0⟩, ⟨1, 0, 0⟩, ⟨1, 1, 0⟩, (⟨0, 1, 0⟩ : V3 ℚ)]
    [(0, 1), (1, 2), (2, 0), (2, 3), (3, 0)]
    [[(0, 0), (1, 1), (2, 2)], [(0, 2), (2, 3), (3, 4)]]).1 (by decide)
  exact ⟨m, h, h1.2.2.1 1 _ rfl, h1.2.2.2 1 _ rfl⟩

/-- A polygon with an edge that does not exist. -/
example : Mesh.fillMesh2D [⟨0, 0, 0⟩, ⟨1, 0, 0⟩, (⟨1, 1, 0⟩ : V3 ℚ)] [(0, 1), (1, 2), (2, 0)]
    [[(0, 0), (1, 1), (2, 3)]] Mesh.empty = abort := (c56_fill_2d _ _ _).2 (by decide)

/-- C56, three dimensions, matrices. The same for `FillMesh3D` with matrices of edges and polygons. -/
theorem c56_fill_3d [Zero α] (ps : List (V3 α)) (es : List (Nat × Nat)) (fs : List (List (Nat × Nat)))
    (cs : List Mesh.Polyhedron) :
    ((EdgesInRange ps.length es ∧ RowsInRange ps.length (fs.map (·.map Prod.fst)) ∧
        RowsInRange es.length (fs.map (·.map Prod.snd)) ∧ RowsInRange ps.length (cs.map (·.verts)) ∧
        RowsInRange es.length (cs.map (·.edges)) ∧ RowsInRange fs.length (cs.map (·.faces))) →
      ∃ m, Mesh.fillMesh3D ps es fs cs Mesh.empty = ok m ∧ m.WF ∧ m.dimension = 3 ∧ m.ReportsPoints ps ∧
        m.ReportsEdges es ∧ m.ReportsPolygons (fs.map (·.map Prod.fst)) (fs.map (·.map Prod.snd)) ∧
        m.ReportsPolyhedra cs ∧ m.AllActive ∧ (∀ d, m.Unmarked d) ∧ m.Plain) ∧
    (¬ (EdgesInRange ps.length es ∧ RowsInRange ps.length (fs.map (·.map Prod.fst)) ∧
        RowsInRange es.length (fs.map (·.map Prod.snd)) ∧ RowsInRange ps.length (cs.map (·.verts)) ∧
        RowsInRange es.length (cs.map (·.edges)) ∧ RowsInRange fs.length (cs.map (·.faces))) →
      Mesh.fillMesh3D ps es fs cs Mesh.empty = abort) := by
  rw [MeshData.fillMesh3D_eq]
  constructor
  · intro h
    obtain ⟨h1, h2, h3, h4, h5, h6, h7, h8, h9⟩ := MeshData.filled_reports 3 ps es
      (fs.map (·.map Prod.fst)) (fs.map (·.map Prod.snd)) cs (by simp)
    exact ⟨_, if_pos h, h1, h2, h3, h4, h5, h6, h7, h8, h9⟩
  · exact fun h => if_neg h

/-- A tetrahedron. -/
example : ∃ m, Mesh.fillMesh3D [⟨0, 0, 0⟩, ⟨1, 0, 0⟩, ⟨0, 1, 0⟩, (⟨0, 0, 1⟩ : V3 ℚ)]
    [(0, 1), (1, 2), (2, 0), (0, 3), (1, 3), (2, 3)]
    [[(0, 0), (1, 1), (2, 2)], [(0, 0), (1, 4), (3, 3)], [(1, 1), (2, 5), (3, 4)], [(2, 2), (0, 3), (3, 5)]]
    [⟨[0, 1, 2, 3], [0, 1, 2, 3, 4, 5], [0, 1, 2, 3]⟩]
    Mesh.empty = ok m ∧ m.row .face3 0 = ok [0, 1, 2, 3] ∧ m.row .edge2 3 = ok [2, 3, 5] := by
  obtain ⟨m, h, _, _, _, _, h1, h2, _⟩ := (c56_fill_3d
    [⟨0, 0, 0⟩, ⟨1, 0, 0⟩, ⟨0, 1, 0⟩, (⟨0, 0, 1⟩ : V3 ℚ)]
    [(0, 1), (1, 2), (2, 0), (0, 3), (1, 3), (2, 3)]
    [[(0, 0), (1, 1), (2, 2)], [(0, 0), (1, 4), (3, 3)], [(1, 1), (2, 5), (3, 4)], [(2, 2), (0, 3), (3, 5)]]
    [⟨[0, 1, 2, 3], [0, 1, 2, 3, 4, 5], [0, 1, 2, 3]⟩]).1 (by decide)
  exact ⟨m, h, (h2.2 0 _ rfl).2.2, h1.2.2.2 3 _ rfl⟩

/-- C56, three dimensions, vectors. When all polygons have as many vertices as edges and all polygons and
polyhedra name existing cells, `FillMesh3D` with vectors stores exactly the given cells; when a polygon
or polyhedron names a cell that does not exist, it stops at an assertion.

Partial: the property also asks for a stop at an edge with a point that does not exist; see
`c56_fill_3d_vectors_violated`. -/
theorem c56_fill_3d_vectors_partial [Zero α] (ps : List (V3 α)) (es : List (Nat × Nat))
    (vs fs : List (List Nat)) (cs : List Mesh.Polyhedron)
    (hl : vs.map List.length = fs.map List.length) :
    ((RowsInRange ps.length vs ∧ RowsInRange es.length fs ∧ RowsInRange ps.length (cs.map (·.verts)) ∧
        RowsInRange es.length (cs.map (·.edges)) ∧ RowsInRange vs.length (cs.map (·.faces))) →
      ∃ m, Mesh.fillMesh3DVec ps es vs fs cs Mesh.empty = ok m ∧ m.WF ∧ m.dimension = 3 ∧
        m.ReportsPoints ps ∧ m.ReportsEdges es ∧ m.ReportsPolygons vs fs ∧
        m.ReportsPolyhedra cs ∧ m.AllActive ∧ (∀ d, m.Unmarked d) ∧ m.Plain) ∧
    (¬ (RowsInRange ps.length vs ∧ RowsInRange es.length fs ∧ RowsInRange ps.length (cs.map (·.verts)) ∧
        RowsInRange es.length (cs.map (·.edges)) ∧ RowsInRange vs.length (cs.map (·.faces))) →
      Mesh.fillMesh3DVec ps es vs fs cs Mesh.empty = abort) := by
  rw [MeshData.fillMesh3DVec_eq ps es hl]
  constructor
  · intro h
    obtain ⟨h1, h2, h3, h4, h5, h6, h7, h8, h9⟩ := MeshData.filled_reports 3 ps es vs fs cs
      (by simpa using congrArg List.length hl)
    exact ⟨_, if_pos h, h1, h2, h3, h4, h5, h6, h7, h8, h9⟩
  · exact fun h => if_neg h

example : ∃ m, Mesh.fillMesh3DVec [⟨0, 0, 0⟩, ⟨1, 0, 0⟩, ⟨0, 1, 0⟩, (⟨0, 0, 1⟩ : V3 ℚ)]
    [(0, 1), (1, 2), (2, 0), (0, 3), (1, 3), (2, 3)]
    [[0, 1, 2], [0, 1, 3], [1, 2, 3], [2, 0, 3]] [[0, 1, 2], [0, 4, 3], [1, 5, 4], [2, 3, 5]]
    [⟨[0, 1, 2, 3], [0, 1, 2, 3, 4, 5], [0, 1, 2, 3]⟩]
    Mesh.empty = ok m ∧ m.row .face3 0 = ok [0, 1, 2, 3] ∧ m.row .edge2 3 = ok [2, 3, 5] := by
  obtain ⟨m, h, _, _, _, _, h1, h2, _⟩ := (c56_fill_3d_vectors_partial
    [⟨0, 0, 0⟩, ⟨1, 0, 0⟩, ⟨0, 1, 0⟩, (⟨0, 0, 1⟩ : V3 ℚ)]
    [(0, 1), (1, 2), (2, 0), (0, 3), (1, 3), (2, 3)]
    [[0, 1, 2], [0, 1, 3], [1, 2, 3], [2, 0, 3]] [[0, 1, 2], [0, 4, 3], [1, 5, 4], [2, 3, 5]]
    [⟨[0, 1, 2, 3], [0, 1, 2, 3, 4, 5], [0, 1, 2, 3]⟩] (by decide)).1 (by decide)
  exact ⟨m, h, (h2.2 0 _ rfl).2.2, h1.2.2.2 3 _ rfl⟩

/-- C56, violated: the overload of `FillMesh3D` for vectors accepts an edge between points that do not
exist, which the overload for matrices refuses. -/
theorem c56_fill_3d_vectors_violated :
    (∃ m : Mesh ℚ, Mesh.fillMesh3DVec [⟨0, 0, 0⟩] [(4, 7)] [] [] [] Mesh.empty = ok m ∧
      m.num .d0 = 1 ∧ m.extremes 0 = ok (4, 7)) ∧
    Mesh.fillMesh3D [(⟨0, 0, 0⟩ : V3 ℚ)] [(4, 7)] [] [] Mesh.empty = abort := by
  refine ⟨?_, (c56_fill_3d _ _ _ _).2 (by decide)⟩
  obtain ⟨m, h, _, _, h1, h2, _⟩ := (c56_fill_3d_vectors_partial [(⟨0, 0, 0⟩ : V3 ℚ)] [(4, 7)] [] [] []
    (by decide)).1 (by decide)
  exact ⟨m, h, h1.1, h2.2 0 _ rfl⟩

end Verif
