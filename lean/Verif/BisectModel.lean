import Verif.CutModel
import Verif.PointPosModel

/-
The refinement of triangles by bisection: `GeDiM/src/Mesh/RefinementUtilities.cpp`, `.hpp` and
`RefinementUtilities2D.cpp`. `double` is an arbitrary ordered field; `tol2D` is the value of
`Tolerance2D()` (`GeDiM/src/Geometry/GeometryUtilities.hpp:808-812`). The conversion of the indices to
`int` in the matrices of the sub-cells is left out. Fields of the results that repeat arguments are left
out.
-/
namespace Verif

open Res

variable {K : Type} [Field K] [LinearOrder K] [IsStrictOrderedRing K]

/-- `Cell0DCoordinates` as a point (`GeDiM/src/Mesh/IMeshDAO.hpp:1167-1186`). -/
def Mesh.point (m : Mesh K) (i : Nat) : Res (V3 K) := do
  let p ← m.coordinates i
  ok ⟨p.1, p.2.1, p.2.2⟩

/-- `RefinementUtilities::SplitCell1D` (`GeDiM/src/Mesh/RefinementUtilities.cpp:26-49`): the mesh, the
new vertex and the new edges. -/
def Mesh.splitEdgeAt (m : Mesh K) (e : Nat) (p : V3 K) : Res (Mesh K × Nat × List Nat) := do
  let x ← m.extremes e
  let (m, w) ← m.append .d0 1
  let m ← m.insertCoord w p.x p.y p.z
  let k ← m.marker .d1 e
  let m ← m.setMark .d0 w k
  let m ← m.setAct .d0 w true
  let (m, news) ← m.splitCell1D e [(x.1, w), (w, x.2)]
  ok (m, w, news)

/-- `SplitCell1D_MiddlePoint` (`GeDiM/src/Mesh/RefinementUtilities.hpp:317-323`). -/
def Mesh.splitEdgeMiddle (m : Mesh K) (e : Nat) : Res (Mesh K × Nat × List Nat) := do
  let x ← m.extremes e
  let a ← m.point x.1
  let b ← m.point x.2
  m.splitEdgeAt e (V3.smul (1 / 2) (a.add b))

/-- `SplitPolygon_IsAreaPositive` (`GeDiM/src/Mesh/RefinementUtilities2D.cpp:177-203`). -/
def GeoCfg.isAreaPositive (g : GeoCfg K) (sqrt : K → K) (tol2D : K) (m : Mesh K) (vs : List Nat)
    (rotation : M3 K) (translation : V3 K) : Res Bool := do
  let ps ← mapRes m.point vs
  assert (0 < ps.length)
  let qs := ps.map (rotateTo2D rotation translation)
  let un ← g.unalignedPoints sqrt qs 0
  let us ← extractPoints qs un
  let t ← g.triangulationByFirstVertex sqrt us
  let ts ← extractTriangulationPoints us t
  let areas ← mapRes (fun t => g.polygonArea [t.1, t.2.1, t.2.2]) ts
  ok (!g.isValueZero areas.sum tol2D)

/-- The loops that collect the vertices between two positions of a polygon with `n` vertices
(`GeDiM/src/Mesh/RefinementUtilities2D.cpp:445-448`). After `fuel = n` rounds the positions repeat. -/
def walkTo (n stop : Nat) : Nat → Nat → Res (List Nat)
  | 0, _ => loop
  | fuel + 1, x =>
      if x % n = stop then ok []
      else do
        let r ← walkTo n stop fuel (x + 1)
        ok (x % n :: r)

/-- `SplitPolygon_NewVertexTo` (`GeDiM/src/Mesh/RefinementUtilities2D.cpp:428-541`): the mesh and, unless
the result is `NoSplit`, the new edge and the new cells. -/
def GeoCfg.splitNewVertexTo (g : GeoCfg K) (sqrt : K → K) (tol2D : K) (m : Mesh K)
    (c n fromVertex toEdge : Nat) (rotation : M3 K) (translation : V3 K) (w : Nat)
    (halves : List Nat) (direction : Bool) : Res (Mesh K × Option (Nat × List Nat)) := do
  if n = 0 then ub
  else do
    let firstIndices ← walkTo n toEdge n fromVertex
    let secondIndices ← walkTo n fromVertex n (toEdge + 1)
    let vs0 ← mapRes (m.entry .vert2 c) firstIndices
    let vTo ← m.entry .vert2 c toEdge
    let good0 ← g.isAreaPositive sqrt tol2D m (vs0 ++ [vTo, w]) rotation translation
    if !good0 then ok (m, none)
    else do
      let vs1 ← mapRes (m.entry .vert2 c) secondIndices
      let vFrom ← m.entry .vert2 c fromVertex
      let good1 ← g.isAreaPositive sqrt tol2D m (w :: (vs1 ++ [vFrom])) rotation translation
      if !good1 then ok (m, none)
      else do
        let p ← m.point w
        let q ← m.point vFrom
        if g.isValueZero ((q.sub p).norm sqrt) g.tol1D then ok (m, none)
        else do
          let (m, e) ← m.append .d1 1
          let m ← m.insertExt e w vFrom
          let m ← m.setMark .d1 e 0
          let m ← m.setAct .d1 e true
          let m ← m.resizeRowOf .nb12 e 2
          let es0 ← mapRes (m.entry .edge2 c) firstIndices
          let h0 ← vget halves (if direction then 0 else 1)
          let h1 ← vget halves (if direction then 1 else 0)
          let es1 ← mapRes (m.entry .edge2 c) secondIndices
          let (m, news) ← m.splitCell2D c
            [(vs0 ++ [vTo, w]).zip (es0 ++ [h0, e]),
             (w :: (vs1 ++ [vFrom])).zip (h1 :: (es1 ++ [e]))]
          let right ← vget news 1
          let m ← m.insertEntry .nb12 e 0 right
          let left ← vget news 0
          let m ← m.insertEntry .nb12 e 1 left
          ok (m, some (e, news))

/-- `RefinePolygon_Result` of the bisection (`GeDiM/src/Mesh/RefinementUtilities.hpp:190-227`): the new
vertex, the halves of the edge, the new edge and the new cells. -/
inductive BisectResult where
  | alreadySplit
  | underTolerance
  | successful (w : Nat) (halves : List Nat) (edge : Nat) (cells : List Nat)
  deriving DecidableEq, Repr

/-- `RefineTriangleCell_ByEdge` (`GeDiM/src/Mesh/RefinementUtilities2D.cpp:1066-1138`). -/
def GeoCfg.bisectByEdge (g : GeoCfg K) (sqrt : K → K) (tol2D : K) (m : Mesh K)
    (c edgeIndex oppositeIndex : Nat) (directions : List Bool) (area : K) (rotation : M3 K)
    (translation : V3 K) (lengths : List K) : Res (Mesh K × BisectResult) := do
  let u ← m.updated .d2 c
  if u.isSome then ok (m, .alreadySplit)
  else if g.isValueZero (1 / 2 * area) tol2D then ok (m, .underTolerance)
  else do
    let len ← vget lengths edgeIndex
    if g.isValueZero (1 / 2 * len) g.tol1D then ok (m, .underTolerance)
    else do
      let e ← m.entry .edge2 c edgeIndex
      let dir ← vget directions edgeIndex
      let (m, w, halves) ← m.splitEdgeMiddle e
      let (m, r) ← g.splitNewVertexTo sqrt tol2D m c 3 oppositeIndex edgeIndex rotation translation w
        halves dir
      match r with
      | none => do
          let h1 ← vget halves 1
          let m ← m.remove .d1 h1
          let h0 ← vget halves 0
          let m ← m.remove .d1 h0
          let m ← m.remove .d0 w
          let m ← m.setAct .d1 e true
          ok (m, .underTolerance)
      | some (edge, cells) => ok (m, .successful w halves edge cells)

/-- The rotation or translation of neighbour `n`; the default when none are given
(`GeDiM/src/Mesh/RefinementUtilities2D.cpp:1170-1172`). -/
def atOr {β : Type} (l : List β) (d : β) (n : Nat) : Res β :=
  match l with
  | [] => ok d
  | _ =>
      match l[n]? with
      | some x => ok x
      | none => throw

/-- One round of `RefineTriangleCell_UpdateNeighbours`
(`GeDiM/src/Mesh/RefinementUtilities2D.cpp:1156-1189`). The state is the mesh and the list of pairs
(neighbour, new cell). -/
def GeoCfg.bisectNeighbour (g : GeoCfg K) (sqrt : K → K) (tol2D : K) (c e w : Nat)
    (halves : List Nat) (direction : Bool) (rotations : List (M3 K)) (translations : List (V3 K))
    (s : Mesh K × List (Nat × Nat)) (n : Nat) : Res (Mesh K × List (Nat × Nat)) := do
  let (m, out) := s
  let has ← m.hasEntry .nb12 e n
  if !has then ok (m, out)
  else do
    let neigh ← m.entry .nb12 e n
    if neigh = c then ok (m, out)
    else do
      let u ← m.updated .d2 neigh
      if u.isSome then ok (m, out)
      else do
        let i ← m.findEntry .edge2 neigh e
        let rotation ← atOr rotations M3.one n
        let translation ← atOr translations V3.zero n
        let (m, r) ← g.splitNewVertexTo sqrt tol2D m neigh 3 ((i + 2) % 3) i rotation translation w
          halves (!direction)
        match r with
        | none => ok (m, out)
        | some (_, cells) => ok (m, out ++ cells.map fun x => (neigh, x))

/-- `RefineTriangleCell_UpdateNeighbours` (`GeDiM/src/Mesh/RefinementUtilities2D.cpp:1140-1197`). The
number of neighbours of the edge does not change during the loop; the model reads it once. -/
def GeoCfg.bisectNeighbours (g : GeoCfg K) (sqrt : K → K) (tol2D : K) (m : Mesh K) (c e w : Nat)
    (halves : List Nat) (direction : Bool) (rotations : List (M3 K)) (translations : List (V3 K)) :
    Res (Mesh K × List (Nat × Nat)) := do
  let n ← m.rowSize .nb12 e
  foldRes (g.bisectNeighbour sqrt tol2D c e w halves direction rotations translations) (m, [])
    (List.range n)

end Verif
