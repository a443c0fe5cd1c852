import Verif.PolygonModel
import Verif.MomentModel

/-
Polyhedra: their construction and the data of their faces
(`GeDiM/src/Geometry/GeometryUtilities_Polyhedron.cpp:26-208,336-428,1079-1102,1525-1662`). `double` is an arbitrary
field. The entries of `Edges` and `Faces` are `int`; here they are natural numbers.
-/
namespace Verif

open Res

/-- `Polyhedron` (`GeDiM/src/Geometry/GeometryUtilities.hpp:676-681`). A matrix is the list of its columns: a column of
a face is a vertex and an edge. -/
structure Solid (K : Type) where
  vertices : List (V3 K)
  edges : List (Nat × Nat)
  faces : List (List (Nat × Nat))

variable {K : Type} [Field K]

/-- `CreateTetrahedronWithVertices` (`GeDiM/src/Geometry/GeometryUtilities_Polyhedron.cpp:64-100`). -/
def createTetrahedronWithVertices (v1 v2 v3 v4 : V3 K) : Solid K :=
  ⟨[v1, v2, v3, v4],
   [(0, 1), (0, 2), (1, 2), (0, 3), (1, 3), (2, 3)],
   [[0, 1, 2].zip [0, 2, 1], [0, 1, 3].zip [0, 4, 3], [0, 2, 3].zip [1, 5, 3], [1, 2, 3].zip [2, 5, 4]]⟩

/-- `CreateTetrahedronWithOrigin` (`GeDiM/src/Geometry/GeometryUtilities_Polyhedron.cpp:26-62`). -/
def createTetrahedronWithOrigin (origin length height width : V3 K) : Solid K :=
  ⟨[origin, origin.add length, origin.add width, origin.add height],
   [(0, 1), (0, 2), (1, 2), (0, 3), (1, 3), (2, 3)],
   [[0, 1, 2].zip [0, 2, 1], [0, 1, 3].zip [0, 4, 3], [0, 2, 3].zip [1, 5, 3], [1, 2, 3].zip [2, 5, 4]]⟩

/-- `CreateParallelepipedWithOrigin` (`GeDiM/src/Geometry/GeometryUtilities_Polyhedron.cpp:102-156`). -/
def createParallelepipedWithOrigin (origin length height width : V3 K) : Solid K :=
  ⟨[origin, origin.add length, (origin.add length).add width, origin.add width,
    origin.add height, (origin.add height).add length, ((origin.add height).add length).add width,
    (origin.add height).add width],
   [(0, 1), (1, 2), (2, 3), (3, 0), (4, 5), (5, 6), (6, 7), (7, 4), (0, 4), (1, 5), (2, 6), (3, 7)],
   [[0, 1, 2, 3].zip [0, 1, 2, 3], [4, 5, 6, 7].zip [4, 5, 6, 7], [0, 3, 7, 4].zip [3, 11, 7, 8],
    [1, 2, 6, 5].zip [1, 10, 5, 9], [0, 1, 5, 4].zip [0, 9, 4, 8], [3, 2, 6, 7].zip [2, 10, 6, 11]]⟩

/-- `CreatePolyhedronWithExtrusion` (`GeDiM/src/Geometry/GeometryUtilities_Polyhedron.cpp:158-208`). The code enters
the columns `v`, `n + v` and `2 * n + v` in one pass of the loop; here they are three lists one after the other. -/
def createPolyhedronWithExtrusion (polygon heights : List (V3 K)) : Res (Solid K) := do
  assert (polygon.length = heights.length)
  let n := polygon.length
  ok ⟨polygon ++ List.zipWith V3.add polygon heights,
      (List.range n).map (fun v => (v, (v + 1) % n)) ++ (List.range n).map (fun v => (n + v, n + (v + 1) % n)) ++
        (List.range n).map (fun v => (v, n + v)),
      (List.range n).map (fun v => (v, v)) :: (List.range n).map (fun v => (n + v, n + v)) ::
        (List.range n).map (fun v => [v, (v + 1) % n, n + (v + 1) % n, n + v].zip
          [v, 2 * n + (v + 1) % n, n + v, 2 * n + v])⟩

/-- `insert({key, map.size()})` of a `std::map` (`GeDiM/src/Geometry/GeometryUtilities_Polyhedron.cpp:1534,1559`). As
the value of a key is the size of the map when it is entered, the map is the list of its keys in the order of their
values. -/
def insertKey {α : Type} [DecidableEq α] (keys : List α) (key : α) : List α :=
  if key ∈ keys then keys else keys ++ [key]

/-- `map.at(key)`: throws for a missing key. -/
def atKey {α : Type} [DecidableEq α] (keys : List α) (key : α) : Res Nat :=
  if key ∈ keys then ok (keys.idxOf key) else Res.throw

/-- `FacetsToVertices` (`GeDiM/src/Geometry/GeometryUtilities_Polyhedron.cpp:1525-1538`). -/
def facetsToVertices (facets : List (List Nat)) : List Nat :=
  facets.foldl (fun keys facet => facet.foldl insertKey keys) []

/-- The pair of the side `v` of a facet (`GeDiM/src/Geometry/GeometryUtilities_Polyhedron.cpp:1552-1558,1591-1597`). -/
def facetSide (facet : List Nat) (v : Nat) : Res (Nat × Nat) := do
  let a ← vget facet v
  let b ← vget facet ((v + 1) % facet.length)
  ok (min a b, max a b)

/-- `FacetsToEdges` (`GeDiM/src/Geometry/GeometryUtilities_Polyhedron.cpp:1540-1564`). -/
def facetsToEdges (facets : List (List Nat)) : Res (List (Nat × Nat)) :=
  foldRes (fun keys facet => foldRes (fun keys v => do
    let side ← facetSide facet v
    ok (insertKey keys side)) keys (List.range facet.length)) [] facets

/-- `FacetsToPolyhedron` (`GeDiM/src/Geometry/GeometryUtilities_Polyhedron.cpp:1566-1610`). -/
def facetsToPolyhedron (points : List (V3 K)) (facets : List (List Nat)) : Res (Solid K) := do
  let ids := facetsToVertices facets
  let vertices ← extractPoints points ids
  let sides ← facetsToEdges facets
  let faces ← mapRes (fun facet => mapRes (fun v => do
    let id ← vget facet v
    let side ← facetSide facet v
    let a ← atKey ids id
    let e ← atKey sides side
    ok (a, e)) (List.range facet.length)) facets
  let edges ← mapRes (fun (side : Nat × Nat) => do
    let a ← atKey ids side.1
    let b ← atKey ids side.2
    ok (a, b)) sides
  ok ⟨vertices, edges, faces⟩

/-- `PolyhedronToFacets` (`GeDiM/src/Geometry/GeometryUtilities_Polyhedron.cpp:1612-1626`). -/
def polyhedronToFacets (s : Solid K) : List (List Nat) := s.faces.map (List.map Prod.fst)

/-- `ChangePolyhedronFaceOrientation` (`GeDiM/src/Geometry/GeometryUtilities_Polyhedron.cpp:1628-1646`), of the face. -/
def changeFaceOrientation (face : List (Nat × Nat)) : Res (List (Nat × Nat)) := do
  let n := face.length
  let order ← changePolygonOrientation n
  mapRes (fun nv => do
    let ne := if nv = 0 then n - 1 else nv - 1
    let cv ← vget face nv
    let ce ← vget face ne
    ok (cv.1, ce.2)) order

/-- `v.at(i)` of a `std::vector`: throws outside of the range. -/
def vectorAt {α : Type} (l : List α) (i : Nat) : Res α :=
  match l[i]? with
  | some a => ok a
  | none => Res.throw

/-- `ChangePolyhedronFacesOrientation` (`GeDiM/src/Geometry/GeometryUtilities_Polyhedron.cpp:1648-1662`): the new
faces. -/
def changeFacesOrientation (s : Solid K) (directions : List Bool) : Res (List (List (Nat × Nat))) :=
  mapRes (fun f => do
    let d ← vectorAt directions f
    let face ← vectorAt s.faces f
    if d then ok face else changeFaceOrientation face) (List.range s.faces.length)

/-- `PolyhedronEdgesCentroid` (`GeDiM/src/Geometry/GeometryUtilities_Polyhedron.cpp:336-347`). -/
def polyhedronEdgesCentroid (s : Solid K) : Res (List (V3 K)) :=
  mapRes (fun (e : Nat × Nat) => do
    let a ← vget s.vertices e.1
    let b ← vget s.vertices e.2
    ok (segmentBarycenter a b)) s.edges

/-- `PolyhedronEdgesLength` (`GeDiM/src/Geometry/GeometryUtilities_Polyhedron.cpp:349-360`). -/
def polyhedronEdgesLength (sqrt : K → K) (s : Solid K) : Res (List K) :=
  mapRes (fun (e : Nat × Nat) => do
    let a ← vget s.vertices e.1
    let b ← vget s.vertices e.2
    ok (segmentLength sqrt a b)) s.edges

/-- `PolyhedronEdgeTangents` (`GeDiM/src/Geometry/GeometryUtilities_Polyhedron.cpp:362-373`). -/
def polyhedronEdgeTangents (s : Solid K) : Res (List (V3 K)) :=
  mapRes (fun (e : Nat × Nat) => do
    let a ← vget s.vertices e.1
    let b ← vget s.vertices e.2
    ok (segmentTangent a b)) s.edges

/-- `PolyhedronFaceVertices` (`GeDiM/src/Geometry/GeometryUtilities_Polyhedron.cpp:375-390`). -/
def polyhedronFaceVertices (s : Solid K) : Res (List (List (V3 K))) :=
  mapRes (fun (face : List (Nat × Nat)) => mapRes (fun (c : Nat × Nat) => vget s.vertices c.1) face) s.faces

/-- `PolyhedronFaceEdgeDirections` (`GeDiM/src/Geometry/GeometryUtilities_Polyhedron.cpp:392-407`). -/
def polyhedronFaceEdgeDirections (s : Solid K) : Res (List (List Bool)) :=
  mapRes (fun (face : List (Nat × Nat)) => mapRes (fun (c : Nat × Nat) => do
    let e ← vget s.edges c.2
    ok (decide (e.1 = c.1))) face) s.faces

/-- `PolyhedronFaceEdgeTangents` (`GeDiM/src/Geometry/GeometryUtilities_Polyhedron.cpp:409-428`). -/
def polyhedronFaceEdgeTangents (s : Solid K) (directions : List (List Bool)) (tangents : List (V3 K)) :
    Res (List (List (V3 K))) :=
  mapRes (fun f => do
    let face ← vget s.faces f
    mapRes (fun e => do
      let c ← vget face e
      let ds ← vget directions f
      let d ← vget ds e
      let t ← vget tangents c.2
      ok (V3.smul (if d then 1 else -1) t)) (List.range face.length)) (List.range s.faces.length)

/-- The loop of `PolyhedronCoordinateSystem` from edge list `edges` on; `found` are the entries after the first one
(`GeDiM/src/Geometry/GeometryUtilities_Polyhedron.cpp:1085-1097`). -/
def coordinateLoop : List (Nat × Nat) → List Nat → List Nat
  | [], found => found
  | e :: edges, found =>
    let found := if e.1 = 0 ∨ e.2 = 0 then found ++ [if e.1 = 0 then e.2 else e.1] else found
    if found.length = 3 then found else coordinateLoop edges found

/-- `PolyhedronCoordinateSystem` (`GeDiM/src/Geometry/GeometryUtilities_Polyhedron.cpp:1079-1102`). -/
def polyhedronCoordinateSystem (edges : List (Nat × Nat)) : Res (List Nat) := do
  let found := coordinateLoop edges []
  assert (found.length = 3)
  ok (0 :: found)

end Verif
