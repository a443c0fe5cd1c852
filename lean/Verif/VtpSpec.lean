import Verif.VtpModel

/-
A polyhedron of a mesh as vertices and faces.
-/
namespace Verif

open Res

variable {K : Type}

/-- Vertex `i` of `P` is at the point of `vs[i]`, and entry `j` of face `i` is the place in `vs` of vertex `j` of the face `fs[i]`. -/
structure IsVtp (m : Mesh K) (vs fs : List Nat) (P : VtpPolyhedron K) : Prop where
  vertices : P.vertices.length = vs.length
  faces : P.faces.length = fs.length
  vertex : ∀ (i : Nat) v p, vs[i]? = some v → P.vertices[i]? = some p → m.coordinates v = ok (p.x, p.y, p.z)
  face : ∀ (i : Nat) f L, fs[i]? = some f → P.faces[i]? = some L → ∃ us, m.row .vert2 f = ok us ∧ L.length = us.length ∧
    ∀ (j : Nat) k, L[j]? = some k → ∃ v, us[j]? = some v ∧ vs[k]? = some v

/-- Some face has a vertex that is not in the list. -/
def LacksVertex (m : Mesh K) (vs fs : List Nat) : Prop := ∃ f ∈ fs, ∃ us, m.row .vert2 f = ok us ∧ ∃ v ∈ us, v ∉ vs

end Verif
