import Verif.CompareModel

/-
Union of two one-dimensional meshes: `GeDiM/src/Mesh/UnionMeshSegment.cpp` and `.hpp`.
`std::map<double, _>` is a list of pairs with increasing keys.
-/
namespace Verif

open Res

variable {K : Type} [Field K] [LinearOrder K] [IsStrictOrderedRing K]

/-- `UnionMeshPoint::Types` and `UnionMeshSegment::Types`
(`GeDiM/src/Mesh/UnionMeshSegment.hpp:26-32, 40-46`). -/
inductive UnionType where
  | unknown
  | first
  | second
  | both
  deriving DecidableEq, Repr

/-- `UnionMeshPoint` (`GeDiM/src/Mesh/UnionMeshSegment.hpp:24-36`). -/
structure UPoint where
  type : UnionType := .unknown
  meshIndices : List Nat := []
  deriving DecidableEq, Repr

/-- `UnionMeshSegment::UnionMesh::UnionMeshSegment`
(`GeDiM/src/Mesh/UnionMeshSegment.hpp:38-51`). -/
structure USegment (K : Type) where
  type : UnionType
  points : K × K
  meshIndices : Nat × Nat
  deriving DecidableEq

/-- `std::map::insert`: nothing happens if the key is present. -/
def kmapInsert {β : Type} (k : K) (b : β) : List (K × β) → List (K × β)
  | [] => [(k, b)]
  | (k', b') :: m =>
    if k < k' then (k, b) :: (k', b') :: m
    else if k' < k then (k', b') :: kmapInsert k b m
    else (k', b') :: m

/-- Change of the element that `map[k]` refers to; `k` is present when this is used. -/
def kmapModify {β : Type} (k : K) (f : β → Res β) : List (K × β) → Res (List (K × β))
  | [] => ub
  | (k', b') :: m =>
    if k' = k then do
      let b ← f b'
      ok ((k', b) :: m)
    else do
      let m ← kmapModify k f m
      ok ((k', b') :: m)

/-- `InsertNewIntersection` (`GeDiM/src/Mesh/UnionMeshSegment.cpp:55-78`): the map, the key of the
point that is returned and the flag `found`. The value -1 of `foundCoordinate` means that no point
was found. -/
def insertNewIntersection (g : GeoCfg K) (c : K) (points : List (K × UPoint)) :
    List (K × UPoint) × K × Bool :=
  let foundCoordinate := ((points.find? fun p =>
    !g.isValuePositive |p.1 - c| g.tol1D).map (·.1)).getD (-1)
  if foundCoordinate ≠ -1 then (points, foundCoordinate, true)
  else (kmapInsert c {} points, c, false)

/-- Body of the first loop of `CreateUnionPoints`
(`GeDiM/src/Mesh/UnionMeshSegment.cpp:85-93`). -/
def unionFirst (g : GeoCfg K) (points : List (K × UPoint)) (q : K × Nat) :
    Res (List (K × UPoint)) :=
  let r := insertNewIntersection g q.1 points
  kmapModify r.2.1 (fun p => do
    let idx ← vset (vresize p.meshIndices 2 0) 0 q.2
    ok ⟨.first, idx⟩) r.1

/-- Body of the second loop of `CreateUnionPoints`
(`GeDiM/src/Mesh/UnionMeshSegment.cpp:96-113`). -/
def unionSecond (g : GeoCfg K) (points : List (K × UPoint)) (q : K × Nat) :
    Res (List (K × UPoint)) :=
  let r := insertNewIntersection g q.1 points
  if r.2.2 then
    kmapModify r.2.1 (fun p => do
      let idx ← vset p.meshIndices 1 q.2
      ok ⟨.both, idx⟩) r.1
  else
    kmapModify r.2.1 (fun p => do
      let idx ← vset (vresize p.meshIndices 2 0) 1 q.2
      ok ⟨.second, idx⟩) r.1

/-- `CreateUnionPoints` (`GeDiM/src/Mesh/UnionMeshSegment.cpp:80-114`). -/
def createUnionPoints (g : GeoCfg K) (one two : List K) (points : List (K × UPoint)) :
    Res (List (K × UPoint)) := do
  let points ← foldRes (unionFirst g) points one.zipIdx
  foldRes (unionSecond g) points two.zipIdx

/-- Loop of `CreateUnionSegments` (`GeDiM/src/Mesh/UnionMeshSegment.cpp:126-178`). The two numbers are
`meshIndices[p - 1]`, and -1 before the first round; the sizes of the two meshes are `n1` and
`n2`. -/
def unionSegmentsLoop (n1 n2 : Nat) : Int → Int → List (K × UPoint) → Res (List (USegment K))
  | i1, i2, p :: q :: rest => do
    let (j1, j2) ← (match p.2.type with
      | .first => ok (i1 + 1, i2)
      | .second => ok (i1, i2 + 1)
      | .both => ok (i1 + 1, i2 + 1)
      | .unknown => throw)
    let j1 : Int := if j1 + 1 ≥ n1 then -1 else j1
    let j2 : Int := if j2 + 1 ≥ n2 then -1 else j2
    assert (j1 ≠ -1 ∨ j2 ≠ -1)
    let type : UnionType := if j1 ≥ 0 ∧ j2 ≥ 0 then .both
      else if j1 ≥ 0 ∧ j2 = -1 then .first
      else if j1 = -1 ∧ j2 ≥ 0 then .second
      else .unknown
    let segments ← unionSegmentsLoop n1 n2 j1 j2 (q :: rest)
    ok (⟨type, (p.1, q.1),
      (if j1 ≥ 0 then j1.toNat else 0, if j2 ≥ 0 then j2.toNat else 0)⟩ :: segments)
  | _, _, _ => ok []

/-- `CreateUnionSegments` (`GeDiM/src/Mesh/UnionMeshSegment.cpp:116-179`). Without points the number
of segments wraps around and `resize` throws. -/
def createUnionSegments (n1 n2 : Nat) (points : List (K × UPoint)) : Res (List (USegment K)) :=
  if points = [] then throw else unionSegmentsLoop n1 n2 (-1) (-1) points

/-- `CreateUnionMesh` (`GeDiM/src/Mesh/UnionMeshSegment.cpp:181-188`) on an empty result. -/
def createUnionMesh (g : GeoCfg K) (one two : List K) :
    Res (List (K × UPoint) × List (USegment K)) := do
  let points ← createUnionPoints g one two []
  let segments ← createUnionSegments one.length two.length points
  ok (points, segments)

end Verif
