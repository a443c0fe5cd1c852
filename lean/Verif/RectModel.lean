import Verif.MeshModel
import Verif.GeomModel

/-
`MeshUtilities::CreateRectangleMesh` and `CreateStructuredTriangularMesh`
(`GeDiM/src/Mesh/MeshUtilities_MeshGenerators.cpp:27-284`).
-/
namespace Verif

open Res

namespace Mesh

variable {K : Type} [Field K]

/-- Two nested loops `for (h = 0; h < n; h++) for (b = 0; b < m; b++)`, as in
`GeDiM/src/Mesh/MeshUtilities_MeshGenerators.cpp:49-73`. -/
def gridLoop {σ : Type} (n m : Nat) (step : σ → Nat → Nat → Res σ) (s : σ) : Res σ :=
  foldRes (fun s h => foldRes (fun s b => step s h b) s (List.range m)) s (List.range n)

/-- `Cell0DSetState`, `Cell0DInsertCoordinates`, `Cell0DSetMarker`
(`GeDiM/src/Mesh/MeshUtilities_MeshGenerators.cpp:67-70`). -/
def putPoint (m : Mesh K) (i : Nat) (p : V3 K) (mark : Nat) : Res (Mesh K) := do
  let m ← m.setAct .d0 i true
  let m ← m.insertCoord i p.x p.y p.z
  m.setMark .d0 i mark

/-- `Cell1DInsertExtremes`, `Cell1DSetState`, `Cell1DSetMarker`
(`GeDiM/src/Mesh/MeshUtilities_MeshGenerators.cpp:89-91`). -/
def putEdge (m : Mesh K) (i o e mark : Nat) : Res (Mesh K) := do
  let m ← m.insertExt i o e
  let m ← m.setAct .d1 i true
  m.setMark .d1 i mark

/-- `Cell2DInsertVertices`, `Cell2DInsertEdges`, `Cell2DSetState`, `Cell2DSetMarker`
(`GeDiM/src/Mesh/MeshUtilities_MeshGenerators.cpp:130-135`). -/
def putPolygon (m : Mesh K) (i : Nat) (vs es : List Nat) (mark : Nat) : Res (Mesh K) := do
  let m ← m.insertFrom .vert2 i 0 vs
  let m ← m.insertFrom .edge2 i 0 es
  let m ← m.setAct .d2 i true
  m.setMark .d2 i mark

/-- The marker of a grid point (`GeDiM/src/Mesh/MeshUtilities_MeshGenerators.cpp:56-63`, `:172-179`);
`l` and `t` are `numBasePoints - 1` and `numHeightPoints - 1`. -/
def gridPointMarker (l t b h : Nat) : Nat :=
  1 * (b == 0 && h == 0).toNat + 2 * (b == l && h == 0).toNat + 4 * (b == 0 && h == t).toNat +
    3 * (b == l && h == t).toNat + 5 * (h == 0 && b != 0 && b != l).toNat +
    7 * (h == t && b != 0 && b != l).toNat + 8 * (b == 0 && h != 0 && h != t).toNat +
    6 * (b == l && h != 0 && h != t).toNat

/-- The points of the grid (`GeDiM/src/Mesh/MeshUtilities_MeshGenerators.cpp:48-73`, `:164-189`). -/
def gridPoints (o bt ht : V3 K) (bs hs : List K) (m : Mesh K) : Res (Mesh K × Nat) :=
  gridLoop hs.length bs.length (fun (s : Mesh K × Nat) h b => do
    let x ← vget bs b
    let y ← vget hs h
    let m ← s.1.putPoint s.2 ((o.add (V3.smul x bt)).add (V3.smul y ht))
      (gridPointMarker (usub bs.length 1) (usub hs.length 1) b h)
    ok (m, s.2 + 1)) (m, 0)

/-- The horizontal edges (`GeDiM/src/Mesh/MeshUtilities_MeshGenerators.cpp:79-96`, `:195-212`). -/
def gridHorizontal (B H : Nat) (s : Mesh K × Nat) : Res (Mesh K × Nat) :=
  gridLoop H (usub B 1) (fun (s : Mesh K × Nat) h b => do
    let p := b + h * B
    let m ← s.1.putEdge s.2 p (p + 1) (5 * (h == 0).toNat + 7 * (h == usub H 1).toNat)
    ok (m, s.2 + 1)) s

/-- The vertical edges (`GeDiM/src/Mesh/MeshUtilities_MeshGenerators.cpp:99-116`, `:215-232`). -/
def gridVertical (B H : Nat) (s : Mesh K × Nat) : Res (Mesh K × Nat) :=
  gridLoop (usub H 1) B (fun (s : Mesh K × Nat) h b => do
    let p := b + h * B
    let m ← s.1.putEdge s.2 p (p + B) (8 * (b == 0).toNat + 6 * (b == usub B 1).toNat)
    ok (m, s.2 + 1)) s

/-- The oblique edges (`GeDiM/src/Mesh/MeshUtilities_MeshGenerators.cpp:235-250`). -/
def gridOblique (B H : Nat) (s : Mesh K × Nat) : Res (Mesh K × Nat) :=
  gridLoop (usub H 1) (usub B 1) (fun (s : Mesh K × Nat) h b => do
    let p := b + h * B
    let m ← s.1.putEdge s.2 p (p + B + 1) 0
    ok (m, s.2 + 1)) s

/-- The rectangles (`GeDiM/src/Mesh/MeshUtilities_MeshGenerators.cpp:119-139`). -/
def gridRectangles (B H : Nat) (m : Mesh K) : Res (Mesh K × Nat) :=
  gridLoop (usub H 1) (usub B 1) (fun (s : Mesh K × Nat) h b => do
    let p := b + h * B
    let hor := b + h * usub B 1
    let ver := p + H * usub B 1
    let m ← s.1.putPolygon s.2 [p, p + 1, p + B + 1, p + B] [hor, ver + 1, hor + usub B 1, ver] 0
    ok (m, s.2 + 1)) (m, 0)

/-- The triangles (`GeDiM/src/Mesh/MeshUtilities_MeshGenerators.cpp:253-283`). -/
def gridTriangles (B H : Nat) (m : Mesh K) : Res (Mesh K × Nat) :=
  gridLoop (usub H 1) (usub B 1) (fun (s : Mesh K × Nat) h b => do
    let p := b + h * B
    let hor := b + h * usub B 1
    let ver := p + H * usub B 1
    let obl := H * usub B 1 + usub H 1 * B + b + h * usub B 1
    let m ← s.1.putPolygon s.2 [p, p + 1, p + B + 1] [hor, ver + 1, obl] 0
    let m ← m.putPolygon (s.2 + 1) [p, p + B + 1, p + B] [obl, hor + usub B 1, ver] 0
    ok (m, s.2 + 2)) (m, 0)

/-- `CreateRectangleMesh` (`GeDiM/src/Mesh/MeshUtilities_MeshGenerators.cpp:27-140`). -/
def createRectangleMesh (o bt ht : V3 K) (bs hs : List K) (m : Mesh K) : Res (Mesh K) := do
  let B := bs.length
  let H := hs.length
  let m : Mesh K := { m with dimension := 2 }
  let m := m.init .d0 (B * H)
  let m := m.init .d1 (H * usub B 1 + B * usub H 1)
  let m := m.init .d2 (usub B 1 * usub H 1)
  let s ← gridPoints o bt ht bs hs m
  let s ← gridHorizontal B H (s.1, 0)
  let s ← gridVertical B H s
  let m := (s.1.initRowsConst .vert2 4).initRowsConst .edge2 4
  let s ← gridRectangles B H m
  ok s.1

/-- `CreateStructuredTriangularMesh`
(`GeDiM/src/Mesh/MeshUtilities_MeshGenerators.cpp:142-284`). -/
def createStructuredTriangularMesh (o bt ht : V3 K) (bs hs : List K) (m : Mesh K) :
    Res (Mesh K) := do
  let B := bs.length
  let H := hs.length
  let m : Mesh K := { m with dimension := 2 }
  let m := m.init .d0 (B * H)
  let m := m.init .d1 (H * usub B 1 + B * usub H 1 + usub B 1 * usub H 1)
  let m := m.init .d2 (usub B 1 * usub H 1 * 2)
  let s ← gridPoints o bt ht bs hs m
  let s ← gridHorizontal B H (s.1, 0)
  let s ← gridVertical B H s
  let s ← gridOblique B H s
  let m := (s.1.initRowsConst .vert2 3).initRowsConst .edge2 3
  let s ← gridTriangles B H m
  ok s.1

end Mesh
end Verif
