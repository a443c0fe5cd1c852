import Verif.OvmTextModel
import Verif.OvmSpec
import Verif.OffSpec

/-
The text of an OVM mesh.
-/
namespace Verif

variable {K : Type}

/-- The edges of an OVM mesh: the half edges with even numbers. -/
def OvmMesh.EdgesAre (o : OvmMesh K) (E : List (Nat × Nat)) : Prop :=
  E.length = o.num1 ∧ ∀ e : Nat, e < o.num1 → o.halfEdges[2 * e]? = E[e]?

/-- The lines of an OVM mesh: two lines; the number of vertices and their coordinates; a line, the number of edges and their ends; a
line, the number of polygons and for each the number of its half edges and the half edges; a line, the number of polyhedra and for each
the number of its half faces and the half faces. More lines may follow. -/
def IsOvmText (o : OvmMesh K) (lines : List (List (OffWord K))) : Prop :=
  ∃ E, o.EdgesAre E ∧ ∃ l0 l1 l2 l3 l4 rest, lines =
    l0 :: l1 :: [.nat o.num0] :: (o.points.map pointLine ++ (l2 :: [.nat o.num1] :: (E.map (fun e => [.nat e.1, .nat e.2]) ++
      (l3 :: [.nat o.num2] :: (o.faces.map (fun c => faceLine (c.map Prod.snd)) ++
        (l4 :: [.nat o.num3] :: (o.solids.map (fun s => faceLine s.1) ++ rest)))))))

end Verif
