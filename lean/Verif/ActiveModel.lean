/-
Model of `MeshUtilities::ExtractActiveMesh` and `FilterActiveMesh`
(`GeDiM/src/Mesh/MeshUtilities.cpp:51-181`).
-/
import Verif.MeshModel

namespace Verif

open Res

/-- `std::unordered_map<unsigned int, unsigned int>` as a list of pairs. -/
abbrev NatMap := List (Nat × Nat)

/-- `unordered_map::insert`: an existing key keeps its value. -/
def natInsert (m : NatMap) (k v : Nat) : NatMap :=
  if k ∈ m.map Prod.fst then m else m ++ [(k, v)]

/-- `unordered_map::find` / `at`. -/
def natFind : NatMap → Nat → Option Nat
  | [], _ => none
  | p :: m, k => if p.1 = k then some p.2 else natFind m k

/-- `ExtractActiveMeshData` (`GeDiM/src/Mesh/MeshUtilities.hpp`): `toOld d` is `NewCellXDToOldCellXD`
and `toNew d` is `OldCellXDToNewCellXD`. -/
structure ExtractData where
  toOld : Dim → NatMap
  toNew : Dim → NatMap

/-- Empty maps. -/
def ExtractData.empty : ExtractData := ⟨fun _ => [], fun _ => []⟩

namespace Mesh

variable {α : Type}

/-- State of the scanning loop: `numNewCellXDs`, `cellXDIdToRemove` and the two maps. -/
structure ScanState where
  next : Nat
  toRemove : List Nat
  toOld : NatMap
  toNew : NatMap

/-- Body of the scanning loop (for instance `GeDiM/src/Mesh/MeshUtilities.cpp:56-67`). -/
def scanStep (m : Mesh α) (d : Dim) (s : ScanState) (c : Nat) : Res ScanState := do
  let a ← m.active d c
  if a then
    ok { s with next := s.next + 1
                toOld := natInsert s.toOld s.next c
                toNew := natInsert s.toNew c s.next }
  else ok { s with toRemove := s.toRemove ++ [c] }

/-- Body of the removal loop (for instance `GeDiM/src/Mesh/MeshUtilities.cpp:70-74`): the state is the
mesh and the number of cells removed so far. -/
def removeStep [Zero α] (d : Dim) (s : Mesh α × Nat) (c : Nat) : Res (Mesh α × Nat) := do
  let m ← s.1.remove d (usub c s.2)
  ok (m, s.2 + 1)

/-- The part of `ExtractActiveMesh` for one dimension (for instance
`GeDiM/src/Mesh/MeshUtilities.cpp:53-74` for dimension 0; the other three parts are the same text
with another digit). -/
def extractDim [Zero α] (m : Mesh α) (data : ExtractData) (d : Dim) : Res (Mesh α × ExtractData) := do
  let s ← foldRes (m.scanStep d) ⟨0, [], data.toOld d, data.toNew d⟩ (List.range (m.num d))
  let r ← foldRes (removeStep d) (m, 0) s.toRemove
  ok (r.1, ⟨fset data.toOld d s.toOld, fset data.toNew d s.toNew⟩)

/-- `ExtractActiveMesh` (`GeDiM/src/Mesh/MeshUtilities.cpp:51-142`). The final `Compress` only
releases memory (`shrink_to_fit`) and is left out. -/
def extractActive [Zero α] (m : Mesh α) (data : ExtractData) : Res (Mesh α × ExtractData) := do
  let r ← m.extractDim data .d0
  let r ← r.1.extractDim r.2 .d1
  let r ← r.1.extractDim r.2 .d2
  r.1.extractDim r.2 .d3

/-- The list of active cells of one dimension in `FilterActiveMesh`
(for instance `GeDiM/src/Mesh/MeshUtilities.cpp:151-155`). -/
def filterActive (m : Mesh α) (d : Dim) : Res (List Nat) :=
  foldRes (fun l c => do
    let a ← m.active d c
    if a then ok (l ++ [c]) else ok l) [] (List.range (m.num d))

end Mesh
end Verif
