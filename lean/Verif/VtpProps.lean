import Verif.VtpLemmas
import Mathlib.Algebra.Order.Field.Rat

/-
C139: a polyhedron of a mesh as vertices and faces.
-/
namespace Verif

open Res

variable {K : Type}

/-- C139. For a polyhedron whose vertices and faces are cells of the mesh, the call gives the points of its vertices and, for each face, the
places of the vertices of the face, if the polyhedron has all vertices of its faces; otherwise it ends with an exception. The edges do not
matter. -/
theorem c139_vertices_and_faces {m : Mesh K} (hw : m.WF) {c : Nat} {vs fs : List Nat} (hv : m.row .vert3 c = ok vs)
    (hf : m.row .face3 c = ok fs) (hp : ∀ v ∈ vs, v < m.num .d0) (hfs : ∀ f ∈ fs, f < m.num .d2) :
    (¬ LacksVertex m vs fs → ∃ P, m.cellToVtp c = ok P ∧ IsVtp m vs fs P) ∧ (LacksVertex m vs fs → m.cellToVtp c = throw) := by
  obtain ⟨ps, p1, p2, p3⟩ := mapRes_exists_at (f := m.point) (l := vs) (R := fun v p => m.coordinates v = ok (p.x, p.y, p.z)) (by
    intro v hv
    obtain ⟨x, hx⟩ := Mesh.coordinates_exists hw (hp v hv)
    exact ⟨⟨x.1, x.2.1, x.2.2⟩, by simp only [Mesh.point, hx, ok_bind], hx⟩)
  have rows : ∀ f ∈ fs, ∃ us, m.row .vert2 f = ok us := fun f h => Mesh.row_exists hw .vert2 (hfs f h)
  constructor
  · intro hl
    obtain ⟨F, f1, f2, f3⟩ := mapRes_exists_at (l := fs) (f := m.vtpFace (localMap vs 0 []))
      (R := fun f L => ∃ us, m.row .vert2 f = ok us ∧ L.length = us.length ∧
        ∀ (j : Nat) k, L[j]? = some k → ∃ v, us[j]? = some v ∧ vs[k]? = some v) (by
      intro f hm
      obtain ⟨us, hu⟩ := rows f hm
      obtain ⟨L, l1, l2, l3⟩ := (vtpFace_cases hw hu (vs := vs)).1 (by
        intro v hv
        by_contra hn
        exact hl ⟨f, hm, us, hu, v, hv, hn⟩)
      exact ⟨L, l1, us, hu, l2, l3⟩)
    exact ⟨⟨ps, F⟩, by simp only [Mesh.cellToVtp, hv, hf, p1, f1, ok_bind], ⟨p2, f2, p3, f3⟩⟩
  · rintro ⟨f, hm, us, hu, hn⟩
    have : mapRes (m.vtpFace (localMap vs 0 [])) fs = throw := by
      refine mapRes_throws ?_ ⟨f, hm, (vtpFace_cases hw hu).2 hn⟩
      intro f' hm'
      obtain ⟨us', hu'⟩ := rows f' hm'
      by_cases hc : ∀ v ∈ us', v ∈ vs
      · obtain ⟨L, l1, _⟩ := (vtpFace_cases hw hu').1 hc
        exact Or.inl ⟨L, l1⟩
      · push Not at hc
        exact Or.inr ((vtpFace_cases hw hu').2 hc)
    simp only [Mesh.cellToVtp, hv, hf, p1, this, ok_bind]
    rfl

/-- Four points, two triangles, and two polyhedra: the first has the vertices in another order, the second lacks vertex 0. -/
def vtpTriangles : MeshData ℚ where
  dimension := 3
  V := [⟨0, 0, 0, 0, true⟩, ⟨1, 0, 0, 0, true⟩, ⟨0, 1, 0, 0, true⟩, ⟨0, 0, 1, 0, true⟩]
  E := []
  P := [⟨[0, 1, 2], [], 0, true⟩, ⟨[3, 2, 1], [], 0, true⟩]
  C := [⟨[3, 1, 0, 2], [], [1, 0], 0, true⟩, ⟨[1, 2, 3], [], [0], 0, true⟩]

example : (∃ P, vtpTriangles.mesh.cellToVtp 0 = ok P ∧ P.faces = [[0, 3, 1], [2, 1, 3]]) ∧ vtpTriangles.mesh.cellToVtp 1 = throw := by
  have r0 : vtpTriangles.mesh.row .vert2 0 = ok [0, 1, 2] := rfl
  have r1 : vtpTriangles.mesh.row .vert2 1 = ok [3, 2, 1] := rfl
  have h0 := c139_vertices_and_faces (MeshData.mesh_wf vtpTriangles) (c := 0) (vs := [3, 1, 0, 2]) (fs := [1, 0]) rfl rfl (by decide)
    (by decide)
  have h1 := c139_vertices_and_faces (MeshData.mesh_wf vtpTriangles) (c := 1) (vs := [1, 2, 3]) (fs := [0]) rfl rfl (by decide)
    (by decide)
  refine ⟨?_, h1.2 ⟨0, by decide, _, r0, 0, by decide, by decide⟩⟩
  obtain ⟨P, hP, _⟩ := h0.1 (by
    rintro ⟨f, hf, us, hu, v, hv, hn⟩
    simp only [List.mem_cons, List.not_mem_nil, or_false] at hf
    rcases hf with rfl | rfl
    · rw [r1] at hu
      obtain rfl := ok.inj hu
      revert hn
      revert v
      decide
    · rw [r0] at hu
      obtain rfl := ok.inj hu
      revert hn
      revert v
      decide)
  refine ⟨P, hP, ?_⟩
  have e : vtpTriangles.mesh.cellToVtp 0 = ok ⟨[⟨0, 0, 1⟩, ⟨1, 0, 0⟩, ⟨0, 0, 0⟩, ⟨0, 1, 0⟩], [[0, 3, 1], [2, 1, 3]]⟩ := rfl
  rw [e] at hP
  rw [← ok.inj hP]

end Verif
