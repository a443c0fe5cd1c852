import Verif.MeshModel

/-
`FindCell2DsCommonVertices` and `FindCell2DsCommonEdges`
(`GeDiM/src/Mesh/MeshUtilities2D.cpp:1318-1398`).
-/
namespace Verif

open Res

/-- Insert a number into a sorted list. -/
def insertNat (a : Nat) : List Nat → List Nat
  | [] => [a]
  | b :: l => if a ≤ b then a :: b :: l else b :: insertNat a l

/-- `std::sort` of a vector of unsigned integers; the result does not depend on the algorithm. -/
def sortNat : List Nat → List Nat
  | [] => []
  | a :: l => insertNat a (sortNat l)

/-- The loop of `std::set_intersection` with a `back_inserter` on two vectors. The fuel is the number
of rounds, at most the sum of the lengths. -/
def setIntersectionLoop : Nat → List Nat → List Nat → List Nat
  | 0, _, _ => []
  | _ + 1, [], _ => []
  | _ + 1, _ :: _, [] => []
  | n + 1, a :: l, b :: r =>
    if a < b then setIntersectionLoop n l (b :: r)
    else if b < a then setIntersectionLoop n (a :: l) r
    else a :: setIntersectionLoop n l r

/-- `std::set_intersection`. -/
def setIntersection (l r : List Nat) : List Nat := setIntersectionLoop (l.length + r.length) l r

namespace Mesh

variable {α : Type}

/-- `FindCell2DsCommonVertices` (`GeDiM/src/Mesh/MeshUtilities2D.cpp:1318-1369`). -/
def findCommonVertices (m : Mesh α) (cells : List Nat) : Res (List Nat) := do
  let c0 ← vget cells 0
  let first ← m.row .vert2 c0
  if cells.length = 1 then ok first
  else do
    let c1 ← vget cells 1
    let second ← m.row .vert2 c1
    let intersections := setIntersection (sortNat first) (sortNat second)
    if cells.length = 2 then ok intersections
    else do
      let c2 ← vget cells 2
      let third ← m.row .vert2 c2
      let single := setIntersection intersections (sortNat third)
      if single.length = 0 then ok single
      else do
        let _ ← mapRes (fun t => do
          let c ← vget cells t
          let vertices ← m.row .vert2 c
          let s ← vget single 0
          assert (s ∈ vertices)) (List.range' 3 (cells.length - 3))
        ok single

/-- `FindCell2DsCommonEdges` (`GeDiM/src/Mesh/MeshUtilities2D.cpp:1371-1398`). -/
def findCommonEdges (m : Mesh α) (cells : List Nat) : Res (List Nat) := do
  let c0 ← vget cells 0
  let first ← m.row .edge2 c0
  if cells.length = 1 then ok first
  else do
    let c1 ← vget cells 1
    let second ← m.row .edge2 c1
    let intersections := setIntersection (sortNat first) (sortNat second)
    if cells.length = 2 then ok intersections
    else ok []

end Mesh
end Verif
