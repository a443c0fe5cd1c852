import Verif.VtkModel
import Mathlib.Data.Finset.Card
import Mathlib.Data.List.Count

/-!
# Spec of the edges and faces of a mesh of tetrahedra
-/

namespace Verif
open Res

/-- The edge with the number `e` joins `a` and `b`; the smaller number comes first. -/
def VtkMesh3D.EdgeIs (r : VtkMesh3D) (e a b : Nat) : Prop := r.cell1Ds[e]? = some (min a b, max a b)

/-- The vertices of the faces. -/
def VtkMesh3D.faceSets (r : VtkMesh3D) : List (Finset Nat) := r.cell2Ds.map fun F => F.1.toFinset

/-- The face with the number `f` is a face of exactly one tetrahedron. -/
def VtkMesh3D.OnBorder (r : VtkMesh3D) (tets : List (List Nat)) (f : Nat) : Prop :=
  ∃ S, r.faceSets[f]? = some S ∧ tets.countP (fun t => S ⊆ t.toFinset) = 1

/-- The cell has the vertices of the tetrahedron, its six edges and its four faces. -/
structure VtkMesh3D.IsCell (r : VtkMesh3D) (t : List Nat) (c : VtkCell) : Prop where
  vertices : c.vertices = t
  six : c.edges.length = 6
  edges_nodup : c.edges.Nodup
  edges : ∀ a ∈ t, ∀ b ∈ t, a ≠ b → ∃ e ∈ c.edges, r.EdgeIs e a b
  four : c.faces.length = 4
  faces_nodup : c.faces.Nodup
  faces : ∀ S ⊆ t.toFinset, S.card = 3 → ∃ f ∈ c.faces, r.faceSets[f]? = some S

/-- `r` is the mesh of the tetrahedra. -/
structure VtkMesh3D.IsMeshOf (r : VtkMesh3D) (num : Nat) (tets : List (List Nat)) : Prop where
  edges_nodup : r.cell1Ds.Nodup
  edges : ∀ a b, (a, b) ∈ r.cell1Ds ↔ a < b ∧ ∃ t ∈ tets, a ∈ t ∧ b ∈ t
  faces_nodup : r.faceSets.Nodup
  faces : ∀ S, S ∈ r.faceSets ↔ S.card = 3 ∧ ∃ t ∈ tets, S ⊆ t.toFinset
  sides : ∀ F ∈ r.cell2Ds, ∃ a b c e0 e1 e2, F = ([a, b, c], [e0, e1, e2]) ∧ r.EdgeIs e0 a b ∧ r.EdgeIs e1 b c ∧
    r.EdgeIs e2 c a
  cells : List.Forall₂ r.IsCell tets r.cell3Ds
  markers0 : r.markers0.length = num ∧ ∀ v < num,
    (r.markers0[v]? = some 1 ∧ ∃ f F, r.OnBorder tets f ∧ r.cell2Ds[f]? = some F ∧ v ∈ F.1) ∨
    (r.markers0[v]? = some 0 ∧ ¬ ∃ f F, r.OnBorder tets f ∧ r.cell2Ds[f]? = some F ∧ v ∈ F.1)
  markers1 : r.markers1.length = r.cell1Ds.length ∧ ∀ e < r.cell1Ds.length,
    (r.markers1[e]? = some 1 ∧ ∃ f F, r.OnBorder tets f ∧ r.cell2Ds[f]? = some F ∧ e ∈ F.2) ∨
    (r.markers1[e]? = some 0 ∧ ¬ ∃ f F, r.OnBorder tets f ∧ r.cell2Ds[f]? = some F ∧ e ∈ F.2)
  markers2 : r.markers2.length = r.cell2Ds.length ∧ ∀ f < r.cell2Ds.length,
    (r.markers2[f]? = some 1 ∧ r.OnBorder tets f) ∨ (r.markers2[f]? = some 0 ∧ ¬ r.OnBorder tets f)
  markers3 : r.markers3 = List.replicate tets.length 0

end Verif
