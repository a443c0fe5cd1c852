import Verif.MeshModel

/-
The cells that the UCD exporter writes.
-/
namespace Verif

open Res

/-- `UCDCell::Types` (`GeDiM/src/IO/UCDUtilities.hpp:34-45`). -/
inductive UcdType where
  | unknown | point | line | triangle | quadrilateral | hexahedron | prism | tetrahedron | pyramid
  deriving DecidableEq, Repr

/-- `UCDCell` (`GeDiM/src/IO/UCDUtilities.hpp:31-57`). -/
structure UcdCell where
  type : UcdType
  points : List Nat
  material : Nat
  deriving DecidableEq, Repr

/-- `UCDCell::CellLabel` (`GeDiM/src/IO/UCDUtilities.cpp:280-303`). -/
def ucdLabel : UcdType → Res String
  | .line => ok "line"
  | .triangle => ok "tri"
  | .quadrilateral => ok "quad"
  | .hexahedron => ok "hex"
  | .prism => ok "prism"
  | .tetrahedron => ok "tet"
  | .pyramid => ok "pyr"
  | .point => ok "pt"
  | .unknown => throw

/-- `materials.size() == n ? materials[l] : 0`, stored in an `unsigned int` (for instance `GeDiM/src/IO/UCDUtilities.cpp:101`). -/
def ucdMaterial (materials : List Int) (n l : Nat) : Res Nat :=
  if materials.length = n then do
    let z ← vget materials l
    ok (uaddi 0 z)
  else ok 0

/-- `UCDUtilities::CreatePointCells` (`GeDiM/src/IO/UCDUtilities.cpp:94-105`), for `n` points. -/
def pointCells (n : Nat) (materials : List Int) : Res (List UcdCell) :=
  mapRes (fun p => do
    let m ← ucdMaterial materials n p
    ok ⟨.point, [p], m⟩) (List.range n)

/-- `UCDUtilities::CreateLineCells` (`GeDiM/src/IO/UCDUtilities.cpp:107-120`). -/
def lineCells (lines : List (Int × Int)) (materials : List Int) : Res (List UcdCell) :=
  mapRes (fun l => do
    let e ← vget lines l
    let m ← ucdMaterial materials lines.length l
    ok ⟨.line, [uaddi 0 e.1, uaddi 0 e.2], m⟩) (List.range lines.length)

/-- `UCDUtilities::CreatePolygonCells` (`GeDiM/src/IO/UCDUtilities.cpp:122-145`). -/
def polygonCells (polygons : List (List Nat)) (materials : List Int) : Res (List UcdCell) :=
  mapRes (fun l => do
    let p ← vget polygons l
    let t ← if p.length = 3 then ok UcdType.triangle else if p.length = 4 then ok UcdType.quadrilateral else throw
    let m ← ucdMaterial materials polygons.length l
    ok ⟨t, p, m⟩) (List.range polygons.length)

/-- `UCDUtilities::CreatePolyhedraCells` (`GeDiM/src/IO/UCDUtilities.cpp:147-170`). -/
def polyhedraCells (polyhedra : List (List Nat)) (materials : List Int) : Res (List UcdCell) :=
  mapRes (fun l => do
    let p ← vget polyhedra l
    let t ← if p.length = 4 then ok UcdType.tetrahedron else if p.length = 8 then ok UcdType.hexahedron else throw
    let m ← ucdMaterial materials polyhedra.length l
    ok ⟨t, p, m⟩) (List.range polyhedra.length)

/-- The line of a cell in the file, as its words. -/
structure UcdLine where
  number : Nat
  material : Nat
  label : String
  points : List Nat
  deriving DecidableEq, Repr

/-- The lines of the cells in `UCDUtilities::ExportUCDAscii` (`GeDiM/src/IO/UCDUtilities.cpp:204-214`). The rest of the file is not
modelled. -/
def ucdLines (cells : List UcdCell) : Res (List UcdLine) :=
  mapRes (fun c => do
    let cell ← vget cells c
    let label ← ucdLabel cell.type
    ok ⟨(c + 1) % (UINT_MAX + 1), cell.material, label, cell.points.map fun p => (p + 1) % (UINT_MAX + 1)⟩) (List.range cells.length)

end Verif
