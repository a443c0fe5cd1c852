import Verif.ChordModel
import Verif.SideCheckModel

/-
The refinement of a polygon by a direction: `AreVerticesAligned` (`GeDiM/src/Mesh/RefinementUtilities.cpp:87-110`),
`SplitPolygon_CheckSplitType`, `SplitPolygon_CheckIsNotToExtend`, `SplitPolygon_CheckIsToSplit_Relaxed` and
`RefinePolygonCell_ByDirection` (`GeDiM/src/Mesh/RefinementUtilities2D.cpp:18-175`, `:1332-1694`). The vectors with two
elements of `RefinePolygon_CheckResult`, whose lengths are asserted, are pairs of members here.
-/
namespace Verif

open Res

variable {K : Type} [Field K] [LinearOrder K] [IsStrictOrderedRing K]

/-- `LinePolygonPositionResult::EdgeIntersection` (`GeDiM/src/Geometry/GeometryUtilities.hpp:620-635`); of the type only
whether it is `InsideEdge` is used. -/
structure DirHit (K : Type) where
  index : Nat
  coordinate : K
  inside : Bool

/-- `RefinePolygon_CheckResult` of a polygon to be split (`GeDiM/src/Mesh/RefinementUtilities.hpp:71-117`). -/
structure DirCheck (K : Type) where
  edgeOne : Nat
  edgeTwo : Nat
  hitOne : DirHit K
  hitTwo : DirHit K
  sideOne : SideCheck
  sideTwo : SideCheck

/-- `CheckSplitType_Result` (`GeDiM/src/Mesh/RefinementUtilities.hpp:119-134`). -/
inductive SplitKind where
  | unknown
  | noNewVertices (fromVertex toVertex : Nat)
  | newVertexFrom
  | newVertexTo
  | newVertices
  deriving DecidableEq, Repr

/-- The next position in a polygon with `n` vertices. -/
def nextPos (n k : Nat) : Res Nat := if n = 0 then ub else ok ((k + 1) % n)

/-- The end of the edge nearer to the intersection (`GeDiM/src/Mesh/RefinementUtilities2D.cpp:56-63`, `:1454-1457`,
`:1545-1548`). -/
def GeoCfg.nearEnd (g : GeoCfg K) (n : Nat) (h : DirHit K) : Res Nat :=
  if g.isValueGreaterOrEqual (1 / 2) h.coordinate g.tol1D then ok h.index else nextPos n h.index

/-- The other end of the edge (`GeDiM/src/Mesh/RefinementUtilities2D.cpp:73-74`, `:80-81`, `:87-88`, `:1471-1472`,
`:1562-1563`). -/
def DirHit.flip (n : Nat) (h : DirHit K) (v : Nat) : Res Nat :=
  if v = h.index then nextPos n h.index else ok h.index

/-- `AreVerticesAligned` (`GeDiM/src/Mesh/RefinementUtilities.cpp:87-110`). -/
def GeoCfg.verticesAligned (g : GeoCfg K) (sqrt : K → K) (vs : List (V3 K)) (a b : Nat) : Res Bool := do
  let a' ← nextPos vs.length a
  let b' ← nextPos vs.length b
  if a' = b ∨ b' = a then ok true
  else do
    let p ← vget vs a
    let q ← vget vs b
    let x ← vget vs a'
    let y ← vget vs b'
    ok (g.pointIsAligned sqrt p q x || g.pointIsAligned sqrt p q y)

/-- The vertices tried after the first choice is aligned (`GeDiM/src/Mesh/RefinementUtilities2D.cpp:68-89`). -/
def DirCheck.flipped (n : Nat) (k : DirCheck K) (a b : Nat) : Res (Nat × Nat) :=
  if k.sideOne.verdict ≠ .notInside ∧ k.sideTwo.verdict ≠ .notInside then do
    let b ← k.hitTwo.flip n b
    ok (a, b)
  else if k.sideOne.verdict = .notInside ∧ k.sideTwo.verdict ≠ .notInside then do
    let b ← k.hitTwo.flip n b
    ok (a, b)
  else if k.sideOne.verdict ≠ .notInside ∧ k.sideTwo.verdict = .notInside then do
    let a ← k.hitOne.flip n a
    ok (a, b)
  else ok (a, b)

/-- The choice if no edge is to be split (`GeDiM/src/Mesh/RefinementUtilities2D.cpp:56-115`). -/
def GeoCfg.chooseVertices (g : GeoCfg K) (sqrt : K → K) (unalignedTriangle : Bool) (vs : List (V3 K)) (k : DirCheck K) :
    Res SplitKind := do
  let a ← g.nearEnd vs.length k.hitOne
  let b ← g.nearEnd vs.length k.hitTwo
  let al ← g.verticesAligned sqrt vs a b
  if al = false then ok (.noNewVertices a b)
  else do
    let (a, b) ← k.flipped vs.length a b
    let al ← g.verticesAligned sqrt vs a b
    if al = true ∧ unalignedTriangle = true then
      if k.sideOne.verdict ≠ .notInside ∧ k.sideTwo.verdict = .notInside then ok .newVertexFrom
      else if k.sideOne.verdict = .notInside ∧ k.sideTwo.verdict ≠ .notInside then ok .newVertexTo
      else ok .unknown
    else ok (.noNewVertices a b)

/-- `SplitPolygon_CheckSplitType` (`GeDiM/src/Mesh/RefinementUtilities2D.cpp:18-139`). -/
def GeoCfg.splitKind (g : GeoCfg K) (sqrt : K → K) (triangle unalignedTriangle : Bool) (vs : List (V3 K))
    (k : DirCheck K) : Res SplitKind :=
  if triangle = true ∧ k.sideTwo.verdict = .notInside then ok .newVertexFrom
  else if triangle = true ∧ k.sideOne.verdict = .notInside then ok .newVertexTo
  else if triangle = false ∧ k.sideOne.isToSplit = false ∧ k.sideTwo.isToSplit = false then
    g.chooseVertices sqrt unalignedTriangle vs k
  else if k.sideOne.isToSplit = true ∧ k.sideTwo.isToSplit = false then ok .newVertexFrom
  else if k.sideOne.isToSplit = false ∧ k.sideTwo.isToSplit = true then ok .newVertexTo
  else if triangle = false then ok .newVertices
  else ok .unknown

/-- The types for which only the neighbours object (`GeDiM/src/Mesh/RefinementUtilities2D.cpp:144-145`). -/
def SideVerdict.onlyNeigh (v : SideVerdict) : Bool := v = .onlyNeighQuality ∨ v = .onlyNeighAligned

/-- The types for which the polygon objects (`GeDiM/src/Mesh/RefinementUtilities2D.cpp:146-149`). -/
def SideVerdict.objects (v : SideVerdict) : Bool :=
  v = .bothQuality ∨ v = .onlyLocalQuality ∨ v = .bothAligned ∨ v = .onlyLocalAligned

/-- `SplitPolygon_CheckIsNotToExtend` (`GeDiM/src/Mesh/RefinementUtilities2D.cpp:141-161`). -/
def notToExtend (one two : SideCheck) : Bool :=
  if one.verdict.onlyNeigh && !two.verdict.objects then false
  else if two.verdict.onlyNeigh && !one.verdict.objects then false
  else true

/-- `SplitPolygon_CheckIsToSplit_Relaxed` (`GeDiM/src/Mesh/RefinementUtilities2D.cpp:163-175`). -/
def toSplitRelaxed (one two : SideCheck) : Bool :=
  if one.verdict.onlyNeigh then false
  else if two.verdict.onlyNeigh then false
  else true

/-- `RefinePolygon_CheckResult::ResultTypes` (`GeDiM/src/Mesh/RefinementUtilities.hpp:73-80`). -/
inductive CheckOutcome (K : Type) where
  | alreadySplit
  | underTolerance
  | notInside
  | toBeSplit (k : DirCheck K)

/-- `RefinePolygon_Result::RefinedCell1D` (`GeDiM/src/Mesh/RefinementUtilities.hpp:202-217`). -/
inductive RefinedEdge where
  | updated (edge position : Nat) (halves : List Nat) (vertex : Nat)
  | new (edge : Nat)
  deriving DecidableEq, Repr

/-- `RefinePolygon_Result` (`GeDiM/src/Mesh/RefinementUtilities.hpp:190-227`). -/
inductive DirResult where
  | alreadySplit
  | underTolerance
  | notInside
  | qualityFailed
  | successful (vertices : List Nat) (edges : List RefinedEdge) (cells : List Nat)
  deriving DecidableEq, Repr

/-- A vertex on the line of the middle of an edge and one of the ends of the edge
(`GeDiM/src/Mesh/RefinementUtilities2D.cpp:1459-1465`; with the vertex first `:1550-1556`). -/
def GeoCfg.middleAligned (g : GeoCfg K) (sqrt : K → K) (vs : List (V3 K)) (i v : Nat) (vertexFirst : Bool) :
    Res Bool := do
  let i' ← nextPos vs.length i
  let a ← vget vs i
  let b ← vget vs i'
  let p ← vget vs v
  let middle := V3.smul (1 / 2) (a.add b)
  ok (if vertexFirst then g.pointIsAligned sqrt p a middle || g.pointIsAligned sqrt p b middle
    else g.pointIsAligned sqrt a p middle || g.pointIsAligned sqrt b p middle)

/-- The vertex at the other end of the chord from the middle of the edge at the position `i`; `h` and `s` belong to the other
edge (`GeDiM/src/Mesh/RefinementUtilities2D.cpp:1454-1485`, `:1545-1576`). -/
def GeoCfg.oppositeEnd (g : GeoCfg K) (sqrt : K → K) (vs : List (V3 K)) (i : Nat) (h : DirHit K) (s : SideCheck)
    (vertexFirst : Bool) : Res Nat := do
  let v ← g.nearEnd vs.length h
  let al ← g.middleAligned sqrt vs i v vertexFirst
  if al = false then ok v
  else do
    let v ← if s.verdict ≠ .notInside then h.flip vs.length v else ok v
    let al ← g.middleAligned sqrt vs i v vertexFirst
    if al = true then throw else ok v

/-- The halves of an edge are removed again (`GeDiM/src/Mesh/RefinementUtilities2D.cpp:1505-1506`,
`:1596-1597`, `:1652-1655`). -/
def Mesh.removeHalves (m : Mesh K) (halves : List Nat) : Res (Mesh K) := do
  let h1 ← vget halves 1
  let m ← m.remove .d1 h1
  let h0 ← vget halves 0
  m.remove .d1 h0

/-- The case of one new vertex on the first edge (`GeDiM/src/Mesh/RefinementUtilities2D.cpp:1441-1531`). -/
def GeoCfg.refineFrom (g : GeoCfg K) (sqrt : K → K) (tol2D : K) (m : Mesh K) (c : Nat) (vs : List (V3 K)) (k : DirCheck K)
    (rotation : M3 K) (translation : V3 K) (directions : List Bool) : Res (Mesh K × DirResult) := do
  if k.sideOne.verdict = .lengthNotEnough then ok (m, .underTolerance)
  else do
    assert (k.hitOne.inside = true)
    let v ← g.oppositeEnd sqrt vs k.hitOne.index k.hitTwo k.sideTwo false
    let (m, w, halves) ← m.splitEdgeMiddle k.edgeOne
    let dir ← vat directions k.hitOne.index
    let (m, r) ← g.splitNewVertexFrom sqrt tol2D m c vs.length k.hitOne.index v rotation translation w halves dir
    match r with
    | none => do
        let m ← m.removeHalves halves
        let m ← m.remove .d0 w
        let m ← m.setAct .d1 k.edgeOne true
        ok (m, .underTolerance)
    | some (e, cells) =>
        ok (m, .successful [w] [.updated k.edgeOne k.hitOne.index halves w, .new e] cells)

/-- The case of one new vertex on the second edge (`GeDiM/src/Mesh/RefinementUtilities2D.cpp:1532-1622`). -/
def GeoCfg.refineTo (g : GeoCfg K) (sqrt : K → K) (tol2D : K) (m : Mesh K) (c : Nat) (vs : List (V3 K)) (k : DirCheck K)
    (rotation : M3 K) (translation : V3 K) (directions : List Bool) : Res (Mesh K × DirResult) := do
  if k.sideTwo.verdict = .lengthNotEnough then ok (m, .underTolerance)
  else do
    assert (k.hitTwo.inside = true)
    let v ← g.oppositeEnd sqrt vs k.hitTwo.index k.hitOne k.sideOne true
    let (m, w, halves) ← m.splitEdgeMiddle k.edgeTwo
    let dir ← vat directions k.hitTwo.index
    let (m, r) ← g.splitNewVertexTo sqrt tol2D m c vs.length v k.hitTwo.index rotation translation w halves dir
    match r with
    | none => do
        let m ← m.removeHalves halves
        let m ← m.remove .d0 w
        let m ← m.setAct .d1 k.edgeTwo true
        ok (m, .underTolerance)
    | some (e, cells) =>
        ok (m, .successful [w] [.updated k.edgeTwo k.hitTwo.index halves w, .new e] cells)

/-- The case of two new vertices (`GeDiM/src/Mesh/RefinementUtilities2D.cpp:1623-1687`). -/
def GeoCfg.refineBoth (g : GeoCfg K) (sqrt : K → K) (tol2D : K) (m : Mesh K) (c : Nat) (vs : List (V3 K)) (k : DirCheck K)
    (rotation : M3 K) (translation : V3 K) (directions : List Bool) : Res (Mesh K × DirResult) := do
  assert (k.hitOne.inside = true)
  assert (k.hitTwo.inside = true)
  let (m, w1, halves1) ← m.splitEdgeMiddle k.edgeOne
  let (m, w2, halves2) ← m.splitEdgeMiddle k.edgeTwo
  let dir1 ← vat directions k.hitOne.index
  let dir2 ← vat directions k.hitTwo.index
  let (m, r) ← g.splitNewVertices sqrt tol2D m c vs.length k.hitOne.index k.hitTwo.index rotation translation w1 w2
    halves1 halves2 dir1 dir2
  match r with
  | none => do
      let m ← m.removeHalves halves2
      let m ← m.removeHalves halves1
      let m ← m.remove .d0 w2
      let m ← m.remove .d0 w1
      let m ← m.setAct .d1 k.edgeTwo true
      let m ← m.setAct .d1 k.edgeOne true
      ok (m, .underTolerance)
  | some (e, cells) =>
      ok (m, .successful [w1, w2] [.updated k.edgeOne k.hitOne.index halves1 w1,
        .updated k.edgeTwo k.hitTwo.index halves2 w2, .new e] cells)

/-- The case of no new vertices (`GeDiM/src/Mesh/RefinementUtilities2D.cpp:1397-1440`). -/
def GeoCfg.refineCorners (g : GeoCfg K) (sqrt : K → K) (tol2D : K) (m : Mesh K) (c : Nat) (vs : List (V3 K))
    (k : DirCheck K) (a b : Nat) (rotation : M3 K) (translation : V3 K) (extend : Bool) : Res (Mesh K × DirResult) := do
  let al ← g.verticesAligned sqrt vs a b
  if al = true then
    if extend = true ∧ toSplitRelaxed k.sideOne k.sideTwo = false then ok (m, .qualityFailed) else throw
  else do
    let (m, r) ← g.splitNoNewVertices sqrt tol2D m c vs.length a b rotation translation
    match r with
    | none => ok (m, .underTolerance)
    | some (e, cells) => ok (m, .successful [] [.new e] cells)

/-- `RefinePolygonCell_ByDirection` (`GeDiM/src/Mesh/RefinementUtilities2D.cpp:1332-1694`). The member `SplitType` of the
result, which tells the case, is left out; it can be read from the number of the new vertices and the edges. -/
def GeoCfg.refineByDirection (g : GeoCfg K) (sqrt : K → K) (tol2D : K) (m : Mesh K) (c : Nat)
    (triangle unalignedTriangle : Bool) (vs : List (V3 K)) (check : CheckOutcome K) (rotation : M3 K) (translation : V3 K)
    (directions : List Bool) (extend : Bool) : Res (Mesh K × DirResult) :=
  match check with
  | .alreadySplit => ok (m, .alreadySplit)
  | .underTolerance => ok (m, .underTolerance)
  | .notInside => ok (m, .notInside)
  | .toBeSplit k =>
      if extend = true ∧ unalignedTriangle = false ∧ notToExtend k.sideOne k.sideTwo = false then ok (m, .qualityFailed)
      else do
        let kind ← g.splitKind sqrt triangle unalignedTriangle vs k
        match kind with
        | .noNewVertices a b => g.refineCorners sqrt tol2D m c vs k a b rotation translation extend
        | .newVertexFrom => g.refineFrom sqrt tol2D m c vs k rotation translation directions
        | .newVertexTo => g.refineTo sqrt tol2D m c vs k rotation translation directions
        | .newVertices => g.refineBoth sqrt tol2D m c vs k rotation translation directions
        | .unknown => throw

end Verif
