import Verif.CutEndsModel

/-
`ConformerMeshSegment::CreateConformPoints` (`GeDiM/src/Mesh/ConformerMeshSegment.cpp:97-151`).
`std::map<double, _>` is a list of pairs with increasing keys.
-/
namespace Verif

open Res

variable {K : Type} [Field K] [LinearOrder K] [IsStrictOrderedRing K]

/-- `ConformMeshPoint::Types` (`GeDiM/src/Mesh/ConformerMeshSegment.hpp:32-38`). -/
inductive ConformType where
  | unknown
  | original
  | inherited
  | external
  deriving DecidableEq, Repr

/-- `ConformMeshPoint` (`GeDiM/src/Mesh/ConformerMeshSegment.hpp:30-44`). A new point has an indeterminate type in the code, which is set at
once; here it is `unknown`. -/
structure ConformPoint where
  cells2 : List Nat := []
  cells1 : List Nat := []
  cells0 : List Nat := []
  type : ConformType := .unknown
  deriving DecidableEq, Repr

/-- `InsertNewIntersection` (`GeDiM/src/Mesh/ConformerMeshSegment.cpp:72-95`): the map and the key of the point that is returned. The value
-1 of `foundCoordinate` means that no point was found. -/
def insertConform (g : GeoCfg K) (c : K) (points : List (K × ConformPoint)) : List (K × ConformPoint) × K :=
  let foundCoordinate := ((points.find? fun p => !g.isValuePositive |p.1 - c| g.tol1D).map (·.1)).getD (-1)
  if foundCoordinate ≠ -1 then (points, foundCoordinate)
  else (kmapInsert c {} points, c)

/-- The body of the loop (`GeDiM/src/Mesh/ConformerMeshSegment.cpp:112-149`). The second part of the state is both
`intersectionSegmentIndex` and the place of `itIntersectionPoint`, which are advanced together; an iterator behind the last point may not be
read. -/
def conformStep (g : GeoCfg K) (other : UnionType) (pts : List (K × CutPoint)) (segs : List (CutSegment K))
    (st : List (K × ConformPoint) × Nat) (u : K × UPoint) : Res (List (K × ConformPoint) × Nat) := do
  let r := insertConform g u.1 st.1
  if u.2.type ≠ other then do
    let p ← vget pts st.2
    let m ← kmapModify r.2 (fun x => ok { x with type := .original, cells0 := p.2.cells0, cells1 := p.2.cells1, cells2 := p.2.cells2 }) r.1
    ok (m, st.2 + 1)
  else do
    assert (0 < st.2 ∧ st.2 ≤ segs.length)
    let s ← vget segs (st.2 - 1)
    let m ← kmapModify r.2 (fun x => ok { x with type := .inherited, cells1 := s.cells1, cells2 := s.cells2 }) r.1
    ok (m, st.2)

/-- `CreateConformPoints` (`GeDiM/src/Mesh/ConformerMeshSegment.cpp:97-151`) on a result without points. -/
def conformPoints (g : GeoCfg K) (position : Nat) (pts : List (K × CutPoint)) (segs : List (CutSegment K)) (union : List (K × UPoint)) :
    Res (List (K × ConformPoint)) := do
  let r ← foldRes (conformStep g (if position = 0 then .second else .first) pts segs) ([], 0) union
  ok r.1

end Verif
