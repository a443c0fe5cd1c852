import Verif.QuadMeshLemmas2
import Mathlib.Tactic.LinearCombination

/-
C127: the quadrilaterals of a triangulation.
-/
namespace Verif

open Res

variable {K : Type} [Field K] [LinearOrder K] [IsStrictOrderedRing K]

/-- C127: from every triangulation the generator makes the mesh of its quadrilaterals, three in each triangle, which take
the corners, the middles of the sides and the barycenter; the markers of vertices and edges are those of what they come
from, and the edges of every quadrilateral go round it. -/
theorem c127_quads {t : Mesh K} (ht : IsTriangulation t) :
    ∃ m, Mesh.createQuadrilateralMesh t Mesh.empty = ok m ∧ QuadsOf t m :=
  ⟨_, TriData.create_data (TriData.read_of ht), TriData.quadsOf (TriData.read_of ht)⟩

/-- C127: the three quadrilaterals of a triangle have the same orientation as the triangle, and the same area, a third of
the area of the triangle. -/
theorem c127_areas {t m : Mesh K} (ht : IsTriangulation t) (hm : Mesh.createQuadrilateralMesh t Mesh.empty = ok m)
    {c i : Nat} {ps : List (V3 K)} (hps : CornersAre t c ps) (hi : i < 3) :
    ∃ qs, CornersAre m (3 * c + i) qs ∧ qs.length = 4 ∧ shoelace qs = shoelace ps / 3 := by
  obtain ⟨m', hm', hq⟩ := c127_quads ht
  rw [hm] at hm'
  cases hm'
  obtain ⟨vs, hvs, hall⟩ := hps
  have hc : c < t.num .d2 := lt_of_row hvs
  obtain ⟨a, b, d, e, f, g, h⟩ := ht.cells c hc
  rw [h.corners] at hvs
  cases hvs
  match ps, hall with
  | [p, q, r], .cons hp (.cons hq' (.cons hr .nil)) =>
  have pt : ∀ v x, t.point v = ok x → v < t.num .d0 → m.point v = ok x := by
    intro v x hx hv
    unfold Mesh.point at hx ⊢
    rw [(hq.corners v hv).1]
    exact hx
  have mid : ∀ e a b p q, JoinedBy t e a b → t.point a = ok p → t.point b = ok q →
      m.point (t.num .d0 + e) = ok ⟨(p.x + q.x) / 2, (p.y + q.y) / 2, (p.z + q.z) / 2⟩ := by
    rintro e a b p q (j | j) h1 h2
    · unfold Mesh.point
      rw [(hq.middles e _ _ _ _ j h1 h2).1, ok_bind]
    · unfold Mesh.point
      rw [(hq.middles e _ _ _ _ j h2 h1).1, ok_bind]
      simp only [add_comm]
  have cen : m.point (t.num .d0 + t.num .d1 + c) =
      ok ⟨(p.x + q.x + r.x) / 3, (p.y + q.y + r.y) / 3, (p.z + q.z + r.z) / 3⟩ := by
    unfold Mesh.point
    rw [(hq.centers c _ _ _ _ _ _ h.corners hp hq' hr).1, ok_bind]
  have l1 := TriData.joined_lt ht h.first
  have l2 := TriData.joined_lt ht h.second
  match i, hi with
  | 0, _ =>
    have hr0 := (hq.cells c 0 a e g _ _ h.corners h.sides rfl rfl rfl).1
    refine ⟨_, ⟨_, hr0, .cons (pt _ _ hp l1.2.1) (.cons (mid _ _ _ _ _ h.first hp hq')
      (.cons cen (.cons (mid _ _ _ _ _ h.third hr hp) .nil)))⟩, rfl, ?_⟩
    simp [shoelace, List.rotate]
    ring
  | 1, _ =>
    have hr0 := (hq.cells c 1 b f e _ _ h.corners h.sides rfl rfl rfl).1
    refine ⟨_, ⟨_, hr0, .cons (pt _ _ hq' l1.2.2) (.cons (mid _ _ _ _ _ h.second hq' hr)
      (.cons cen (.cons (mid _ _ _ _ _ h.first hp hq') .nil)))⟩, rfl, ?_⟩
    simp [shoelace, List.rotate]
    ring
  | 2, _ =>
    have hr0 := (hq.cells c 2 d g f _ _ h.corners h.sides rfl rfl rfl).1
    refine ⟨_, ⟨_, hr0, .cons (pt _ _ hr l2.2.2) (.cons (mid _ _ _ _ _ h.third hr hp)
      (.cons cen (.cons (mid _ _ _ _ _ h.second hq' hr) .nil)))⟩, rfl, ?_⟩
    simp [shoelace, List.rotate]
    ring

/-! ### Example -/

/-- The triangles 0, 1, 2 and 2, 1, 3; the edge 1 from 2 to 1 is common to both. -/
def twoTriOps : List (Op ℚ) :=
  [.append .d0 4, .insertCoord 0 0 0 0, .insertCoord 1 6 0 0, .insertCoord 2 0 6 0, .insertCoord 3 6 6 0,
   .setMark .d0 0 1, .setMark .d0 3 4,
   .append .d1 5, .insertExt 0 0 1, .insertExt 1 2 1, .insertExt 2 2 0, .insertExt 3 1 3, .insertExt 4 3 2,
   .setMark .d1 0 5, .setMark .d1 4 7,
   .append .d2 2, .addRow .vert2 0 [0, 1, 2], .addRow .edge2 0 [0, 1, 2],
   .addRow .vert2 1 [2, 1, 3], .addRow .edge2 1 [1, 3, 4]]

def twoTri : Mesh ℚ :=
  match Mesh.empty.run twoTriOps with
  | ok m => m
  | _ => Mesh.empty

theorem twoTri_run : (Mesh.empty : Mesh ℚ).run twoTriOps = ok twoTri := by
  have h : (match (Mesh.empty : Mesh ℚ).run twoTriOps with | ok _ => true | _ => false) = true := by
    decide +kernel
  unfold twoTri
  revert h
  cases (Mesh.empty : Mesh ℚ).run twoTriOps <;> simp

theorem twoTri_wf : twoTri.WF := by
  refine Mesh.run_wf_of_ok (ops := twoTriOps) Mesh.empty_wf (Mesh.along_of_forall ?_ _) twoTri_run
  intro o ho m
  have : ∀ o ∈ twoTriOps, (match o with
      | .init _ _ => false | .resetNeighbour _ _ _ => false | .insertProp _ _ _ _ _ => false | _ => true) = true := by
    decide +kernel
  have := this o ho
  cases o <;> first | trivial | simp at this

theorem twoTri_is : IsTriangulation twoTri where
  wf := twoTri_wf
  edges := by
    have hn : twoTri.num .d1 = 5 := by decide +kernel
    have hn0 : twoTri.num .d0 = 4 := by decide +kernel
    intro e he
    rw [hn] at he
    rw [hn0]
    interval_cases e
    · exact ⟨0, 1, by decide +kernel, by decide, by decide⟩
    · exact ⟨2, 1, by decide +kernel, by decide, by decide⟩
    · exact ⟨2, 0, by decide +kernel, by decide, by decide⟩
    · exact ⟨1, 3, by decide +kernel, by decide, by decide⟩
    · exact ⟨3, 2, by decide +kernel, by decide, by decide⟩
  cells := by
    have hn : twoTri.num .d2 = 2 := by decide +kernel
    intro c hc
    rw [hn] at hc
    interval_cases c
    · exact ⟨0, 1, 2, 0, 1, 2, by decide +kernel, by decide +kernel, by decide, .inl (by decide +kernel),
        .inr (by decide +kernel), .inl (by decide +kernel)⟩
    · exact ⟨2, 1, 3, 1, 3, 4, by decide +kernel, by decide +kernel, by decide, .inl (by decide +kernel),
        .inl (by decide +kernel), .inl (by decide +kernel)⟩

/-- The quadrilateral at the corner 1 of the first triangle has the second half of the common edge. -/
example : IsTriangulation twoTri ∧ (∃ ps, CornersAre twoTri 0 ps) ∧
    ((Mesh.createQuadrilateralMesh twoTri Mesh.empty).bind fun m => m.row .vert2 1) = ok [1, 5, 9, 4] ∧
    ((Mesh.createQuadrilateralMesh twoTri Mesh.empty).bind fun m => m.row .edge2 1) = ok [3, 11, 10, 1] ∧
    ((Mesh.createQuadrilateralMesh twoTri Mesh.empty).bind fun m => m.coordinates 9) = ok (2, 2, 0) ∧
    ((Mesh.createQuadrilateralMesh twoTri Mesh.empty).bind fun m => m.marker .d0 8) = ok 7 := by
  refine ⟨twoTri_is, ⟨[⟨0, 0, 0⟩, ⟨6, 0, 0⟩, ⟨0, 6, 0⟩], [0, 1, 2], by decide +kernel, ?_⟩, by decide +kernel,
    by decide +kernel, by decide +kernel, by decide +kernel⟩
  exact .cons (by decide +kernel) (.cons (by decide +kernel) (.cons (by decide +kernel) .nil))

end Verif
