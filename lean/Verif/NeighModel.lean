import Verif.MeshModel

/-
The computation of neighbour lists: `ComputeCell0DCell1DNeighbours`, `ComputeCell0DCell2DNeighbours`,
`ComputeCell0DCell3DNeighbours`, `ComputeCell1DCell2DNeighbours`
(`GeDiM/src/Mesh/MeshUtilities2D.cpp:1094-1247`), `ComputeCell1DCell3DNeighbours` and
`ComputeCell2DCell3DNeighbours` (`GeDiM/src/Mesh/MeshUtilities3D.cpp:2351-2409`).
-/
namespace Verif

open Res

namespace Mesh

variable {α : Type}

/-- The loop `for k: cell = Cell..(c, k)` over a stored list, for instance
`GeDiM/src/Mesh/MeshUtilities2D.cpp:1133-1136`: the number of entries is read once, then every entry
is read. -/
def boundaryRow (m : Mesh α) (b : Lst) (c : Nat) : Res (List Nat) := do
  let n ← m.rowSize b c
  mapRes (fun k => m.entry b c k) (List.range n)

/-- `Cell1DExtremes` (`GeDiM/src/Mesh/IMeshDAO.hpp:1470-1477`) as the list of its two entries. -/
def boundaryExt (m : Mesh α) (c : Nat) : Res (List Nat) := do
  let e ← m.extremes c
  ok [e.1, e.2]

/-- `cellsNeighbours[cell].push_back(c)`, for instance
`GeDiM/src/Mesh/MeshUtilities2D.cpp:1108`; outside the vector this is undefined. -/
def pushBack (nbs : List (List Nat)) (cell c : Nat) : Res (List (List Nat)) := do
  let l ← vget nbs cell
  vset nbs cell (l ++ [c])

/-- The collecting loops (`GeDiM/src/Mesh/MeshUtilities2D.cpp:1097-1110`, and likewise in the other
functions). `bdry` gives the cells in the boundary of a cell of dimension `l.target`. The C++ code
reads one entry of the boundary and stores it before it reads the next one; the model reads the
boundary of a cell at once. -/
def collectNeighbours (m : Mesh α) (l : Lst) (bdry : Nat → Res (List Nat)) :
    Res (List (List Nat)) :=
  foldRes (fun nbs c => do
    let a ← m.active l.target c
    if a then do
      let r ← bdry c
      foldRes (fun nbs cell => pushBack nbs cell c) nbs r
    else ok nbs) (List.replicate (m.num l.owner) []) (List.range (m.num l.target))

/-- The common body of the functions: collect, give the lists their sizes and fill them
(`GeDiM/src/Mesh/MeshUtilities2D.cpp:1097-1121`, and likewise in the other functions). -/
def computeNeighbours (m : Mesh α) (l : Lst) (bdry : Nat → Res (List Nat)) : Res (Mesh α) := do
  let nbs ← m.collectNeighbours l bdry
  let m ← m.initRows l (nbs.map List.length)
  foldRes (fun (m : Mesh α) i => do
    let r ← vget nbs i
    m.insertFrom l i 0 r) m (List.range nbs.length)

/-- `ComputeCell0DCell1DNeighbours` (`GeDiM/src/Mesh/MeshUtilities2D.cpp:1094-1122`). -/
def computeCell0DCell1D (m : Mesh α) : Res (Mesh α) := m.computeNeighbours .nb01 m.boundaryExt

/-- `ComputeCell0DCell2DNeighbours` (`GeDiM/src/Mesh/MeshUtilities2D.cpp:1124-1152`). -/
def computeCell0DCell2D (m : Mesh α) : Res (Mesh α) :=
  m.computeNeighbours .nb02 (m.boundaryRow .vert2)

/-- `ComputeCell0DCell3DNeighbours` (`GeDiM/src/Mesh/MeshUtilities2D.cpp:1154-1182`). -/
def computeCell0DCell3D (m : Mesh α) : Res (Mesh α) :=
  m.computeNeighbours .nb03 (m.boundaryRow .vert3)

/-- `ComputeCell1DCell3DNeighbours` (`GeDiM/src/Mesh/MeshUtilities3D.cpp:2351-2379`). -/
def computeCell1DCell3D (m : Mesh α) : Res (Mesh α) :=
  m.computeNeighbours .nb13 (m.boundaryRow .edge3)

/-- `ComputeCell2DCell3DNeighbours` (`GeDiM/src/Mesh/MeshUtilities3D.cpp:2381-2409`). -/
def computeCell2DCell3D (m : Mesh α) : Res (Mesh α) :=
  m.computeNeighbours .nb23 (m.boundaryRow .face3)

/-- One side of a polygon in the 2D case of `ComputeCell1DCell2DNeighbours`
(`GeDiM/src/Mesh/MeshUtilities2D.cpp:1198-1213`). -/
def sideNeighbour (m : Mesh α) (c n e : Nat) : Res (Mesh α) := do
  let cell1D ← m.entry .edge2 c e
  let origin ← m.entry .vert2 c e
  let end_ ← m.entry .vert2 c ((e + 1) % n)
  let f ← m.findEdgeByExt .edge2 c origin end_
  if f = e then m.insertEntry .nb12 cell1D 1 c
  else m.insertEntry .nb12 cell1D 0 c

/-- `ComputeCell1DCell2DNeighbours` (`GeDiM/src/Mesh/MeshUtilities2D.cpp:1184-1247`). -/
def computeCell1DCell2D (m : Mesh α) : Res (Mesh α) :=
  if m.dimension = 2 then
    foldRes (fun (m : Mesh α) c => do
      let a ← m.active .d2 c
      if a then do
        let n ← m.rowSize .edge2 c
        foldRes (fun (m : Mesh α) e => m.sideNeighbour c n e) m (List.range n)
      else ok m) (m.initRowsConst .nb12 2) (List.range (m.num .d2))
  else if m.dimension = 3 then m.computeNeighbours .nb12 (m.boundaryRow .edge2)
  else throw

end Mesh
end Verif
