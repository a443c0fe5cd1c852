import Verif.RectLemmas2
import Mathlib.Tactic.NormNum

/-
C37, C55: the structured meshes of a parallelogram.
-/
namespace Verif

open Res

variable {K : Type} [Field K]

/-- C37. With at least two coordinates in each direction, `CreateRectangleMesh` on an empty mesh
succeeds. The result is a well-formed structured mesh with four-sided cells; cell `b + h * (B - 1)` has
the four grid points around it, counterclockwise in the two directions. -/
theorem c37_rectangle_mesh (o bt ht : V3 K) (bs hs : List K) (hb : 2 ≤ bs.length)
    (hh : 2 ≤ hs.length) : ∃ m, Mesh.createRectangleMesh o bt ht bs hs Mesh.empty = ok m ∧
      GridMesh o bt ht bs hs 4 m ∧
      m.num .d1 = hs.length * (bs.length - 1) + bs.length * (hs.length - 1) ∧
      m.num .d2 = (bs.length - 1) * (hs.length - 1) ∧
      (m.num .d0 + m.num .d2 = m.num .d1 + 1) ∧
      ∀ b h, b + 1 < bs.length → h + 1 < hs.length →
        m.row .vert2 (b + h * (bs.length - 1)) =
          ok [b + h * bs.length, b + 1 + h * bs.length, b + 1 + (h + 1) * bs.length,
            b + (h + 1) * bs.length] := by
  obtain ⟨n, hn⟩ : ∃ n, bs.length = n + 1 := ⟨bs.length - 1, by omega⟩
  obtain ⟨k, hk⟩ : ∃ k, hs.length = k + 1 := ⟨hs.length - 1, by omega⟩
  have h0 : (MeshData.rectData o bt ht bs hs n k).mesh.num .d0 = (k + 1) * (n + 1) := by
    show (List.map _ _).length = _
    rw [List.length_map, length_gridPairs]
  have h1 : (MeshData.rectData o bt ht bs hs n k).mesh.num .d1 = (k + 1) * n + (n + 1) * k := by
    show (List.map _ _ ++ List.map _ _).length = _
    rw [List.length_append, List.length_map, List.length_map, length_gridPairs, length_gridPairs,
      Nat.mul_comm k]
  have h2 : (MeshData.rectData o bt ht bs hs n k).mesh.num .d2 = n * k := by
    show (List.map _ _).length = _
    rw [List.length_map, length_gridPairs, Nat.mul_comm]
  refine ⟨_, MeshData.createRectangleMesh_eq hn hk, MeshData.rect_grid hn hk (by omega) (by omega),
    ?_, ?_, ?_, ?_⟩
  · rw [hn, hk, h1]; rfl
  · rw [hn, hk, h2]; rfl
  · rw [h0, h1, h2]; ring
  · intro b h hb hh
    rw [hn] at hb ⊢
    rw [hk] at hh
    rw [Nat.add_sub_cancel, MeshData.row_vert2 (MeshData.rect_cell (by omega) (by omega))]
    simp only [MeshData.rectCell, Res.ok.injEq, List.cons.injEq, and_true, true_and]
    refine ⟨by ring, by ring, by ring⟩

/-- A grid of 3 by 2 points. -/
example : ∃ m, Mesh.createRectangleMesh (⟨0, 0, 0⟩ : V3 ℚ) ⟨3, 0, 0⟩ ⟨0, 2, 0⟩ [0, 1/2, 1] [0, 1]
    Mesh.empty = ok m ∧ m.num .d0 = 6 ∧ m.num .d1 = 7 ∧ m.num .d2 = 2 ∧
    m.row .vert2 1 = ok [1, 2, 5, 4] ∧ m.coordinates 4 = ok (3/2, 2, 0) := by
  obtain ⟨m, h1, h2, h3, h4, _, h5⟩ := c37_rectangle_mesh (⟨0, 0, 0⟩ : V3 ℚ) ⟨3, 0, 0⟩ ⟨0, 2, 0⟩
    [0, 1/2, 1] [0, 1] (by simp) (by simp)
  refine ⟨m, h1, h2.numPoints, h3, h4, h5 1 0 (by simp) (by simp), ?_⟩
  have := (h2.points 1 1 (1/2) 1 rfl rfl).1
  norm_num at this
  exact this

/-- C55. With at least two coordinates in each direction, `CreateStructuredTriangularMesh` on an empty
mesh succeeds. The result is a well-formed structured mesh of triangles; triangles `2 c` and `2 c + 1`
are the two halves of rectangle `c`, both in the same orientation. -/
theorem c55_triangle_mesh (o bt ht : V3 K) (bs hs : List K) (hb : 2 ≤ bs.length)
    (hh : 2 ≤ hs.length) : ∃ m, Mesh.createStructuredTriangularMesh o bt ht bs hs Mesh.empty = ok m ∧
      GridMesh o bt ht bs hs 3 m ∧
      m.num .d2 = 2 * ((bs.length - 1) * (hs.length - 1)) ∧
      (m.num .d0 + m.num .d2 = m.num .d1 + 1) ∧
      ∀ b h, b + 1 < bs.length → h + 1 < hs.length →
        m.row .vert2 (2 * (b + h * (bs.length - 1))) =
          ok [b + h * bs.length, b + 1 + h * bs.length, b + 1 + (h + 1) * bs.length] ∧
        m.row .vert2 (2 * (b + h * (bs.length - 1)) + 1) =
          ok [b + h * bs.length, b + 1 + (h + 1) * bs.length, b + (h + 1) * bs.length] := by
  obtain ⟨n, hn⟩ : ∃ n, bs.length = n + 1 := ⟨bs.length - 1, by omega⟩
  obtain ⟨k, hk⟩ : ∃ k, hs.length = k + 1 := ⟨hs.length - 1, by omega⟩
  have h0 : (MeshData.triData o bt ht bs hs n k).mesh.num .d0 = (k + 1) * (n + 1) := by
    show (List.map _ _).length = _
    rw [List.length_map, length_gridPairs]
  have h1 : (MeshData.triData o bt ht bs hs n k).mesh.num .d1 =
      (k + 1) * n + k * (n + 1) + k * n := by
    show (List.map _ _ ++ List.map _ _ ++ List.map _ _).length = _
    simp only [List.length_append, List.length_map, length_gridPairs]
  have h2 : (MeshData.triData o bt ht bs hs n k).mesh.num .d2 = 2 * (k * n) := MeshData.tri_numP
  refine ⟨_, MeshData.createStructuredTriangularMesh_eq hn hk,
    MeshData.tri_grid hn hk (by omega) (by omega), ?_, ?_, ?_⟩
  · rw [hn, hk, h2, Nat.mul_comm k n]; rfl
  · rw [h0, h1, h2]; ring
  · intro b h hb hh
    rw [hn] at hb ⊢
    rw [hk] at hh
    rw [Nat.add_sub_cancel]
    have q1 := MeshData.row_vert2 (MeshData.tri_cell (o := o) (bt := bt) (ht := ht) (bs := bs)
      (hs := hs) (n := n) (k := k) (b := b) (h := h) false (by omega) (by omega))
    have q2 := MeshData.row_vert2 (MeshData.tri_cell (o := o) (bt := bt) (ht := ht) (bs := bs)
      (hs := hs) (n := n) (k := k) (b := b) (h := h) true (by omega) (by omega))
    simp only [Bool.toNat_false, Bool.toNat_true, Nat.add_zero] at q1 q2
    rw [q1, q2]
    simp only [MeshData.triCell, Bool.false_eq_true, if_false, if_true, Res.ok.injEq, List.cons.injEq,
      and_true, true_and]
    refine ⟨⟨by ring, by ring⟩, by ring, by ring⟩

/-- The four triangles of a grid of 3 by 2 points. -/
example : ∃ m, Mesh.createStructuredTriangularMesh (⟨0, 0, 0⟩ : V3 ℚ) ⟨3, 0, 0⟩ ⟨0, 2, 0⟩
    [0, 1/2, 1] [0, 1] Mesh.empty = ok m ∧ m.num .d0 = 6 ∧ m.num .d1 = 9 ∧ m.num .d2 = 4 ∧
    m.row .vert2 2 = ok [1, 2, 5] ∧ m.row .vert2 3 = ok [1, 5, 4] := by
  obtain ⟨m, h1, h2, h3, h4, h5⟩ := c55_triangle_mesh (⟨0, 0, 0⟩ : V3 ℚ) ⟨3, 0, 0⟩ ⟨0, 2, 0⟩
    [0, 1/2, 1] [0, 1] (by simp) (by simp)
  have := h2.numPoints
  simp only [List.length_cons, List.length_nil] at this h3
  exact ⟨m, h1, this, by omega, h3, h5 1 0 (by simp) (by simp)⟩

end Verif
