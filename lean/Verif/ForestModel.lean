/-
Model of the queries on the refinement forest: `CellXDUpdatedCellXDs` and `MeshCell2DRoots`.
-/
import Verif.MeshModel

namespace Verif

open Res

namespace Mesh

variable {α : Type}

/-- `CellXDUpdatedCellXDs(c, ids)`
(`GeDiM/src/Mesh/MeshMatricesDAO.cpp:298-316`, `:710-728`, `:1059-1077`, `:1401-1419`): the recursion
appends to the list `acc`; the second result is the returned flag. The first argument bounds the
recursion depth; the C++ recursion has no bound. -/
def updatedCells (m : Mesh α) (d : Dim) : Nat → Nat → List Nat → Res (List Nat × Bool)
  | 0, _, _ => loop
  | fuel + 1, c, acc => do
      assert (c < m.num d)
      match mapFind (m.upd d) c with
      | none => ok (acc ++ [c], true)
      | some s => do
          let acc ← foldRes (fun acc child => do
            let r ← m.updatedCells d fuel child acc
            ok r.1) acc s
          ok (acc, false)

/-- The `while` loop of `MeshCell2DRoots` (`GeDiM/src/Mesh/MeshUtilities2D.cpp:645-647`). The first
argument bounds the number of rounds. -/
def rootLoop (m : Mesh α) (d : Dim) : Nat → Nat → Res Nat
  | 0, _ => loop
  | fuel + 1, c => do
      let h ← m.hasOriginal d c
      if h then do
        let p ← m.original d c
        m.rootLoop d fuel p
      else ok c

/-- `MeshCell2DRoots` (`GeDiM/src/Mesh/MeshUtilities2D.cpp:639-653`). -/
def cell2DRoots (m : Mesh α) (fuel : Nat) : Res (List Nat) :=
  mapRes (m.rootLoop .d2 fuel) (List.range (m.num .d2))

end Mesh
end Verif
