import Verif.DirectionModel
import Verif.LinePosModel

/-
`RefinePolygonCell_CheckRefinement` (`GeDiM/src/Mesh/RefinementUtilities2D.cpp:1200-1330`): the two sides of a polygon that
are met by a line.
-/
namespace Verif

open Res

variable {K : Type} [Field K] [LinearOrder K] [IsStrictOrderedRing K]

/-- What `RefinePolygonCell_ByDirection` uses of an intersection. -/
def EdgeHit.toDirHit (h : EdgeHit K) : DirHit K := ⟨h.index, h.coord, decide (h.type = .insideEdge)⟩

/-- The test if the vertex of a later intersection is an end of the first edge `e`
(`GeDiM/src/Mesh/RefinementUtilities2D.cpp:1266-1272`; the same expressions are used for `OnEdgeEnd`, `:1276-1282`). -/
def Mesh.awayFrom (m : Mesh K) (c e : Nat) (directions : List Bool) (h : EdgeHit K) : Res Bool := do
  let e2 ← m.entry .edge2 c h.index
  let d ← vget directions h.index
  let x ← m.extremes e2
  let y ← m.extremes e
  let v := if d then x.1 else x.2
  ok (y.1 ≠ v ∧ y.2 ≠ v)

/-- The loop for the second intersection (`GeDiM/src/Mesh/RefinementUtilities2D.cpp:1252-1294`); `none` if a side is on the
line. -/
def Mesh.secondHit (m : Mesh K) (c e : Nat) (directions : List Bool) : List (EdgeHit K) → Res (Option (EdgeHit K))
  | [] => throw
  | h :: hs =>
      match h.type with
      | .parallel => ok none
      | .insideEdge => ok (some h)
      | .onEdgeOrigin => do
          let b ← m.awayFrom c e directions h
          if b = true then ok (some h) else m.secondHit c e directions hs
      | .onEdgeEnd => do
          let b ← m.awayFrom c e directions h
          if b = true then ok (some h) else m.secondHit c e directions hs

/-- The part after the position of the line is known (`GeDiM/src/Mesh/RefinementUtilities2D.cpp:1234-1329`). -/
def GeoCfg.checkHits (g : GeoCfg K) (m : Mesh K) (c : Nat) (r : LinePolygonResult K) (quality : List K) (aligned : List Nat)
    (qualityWeight alignedWeight : K) (lengths : List (List K)) (directions : List Bool) : Res (CheckOutcome K) :=
  if r.intersecting = false then ok .notInside
  else if r.hits.length < 2 then throw
  else do
    let h1 ← vget r.hits 0
    if h1.type = .parallel then ok .notInside
    else do
      let e1 ← m.entry .edge2 c h1.index
      let two ← m.secondHit c e1 directions r.hits.tail
      match two with
      | none => ok .notInside
      | some h2 => do
          let e2 ← m.entry .edge2 c h2.index
          let s1 ← g.isEdgeToSplit m e1 c (decide (h1.type = .insideEdge)) h1.index lengths qualityWeight alignedWeight
            quality aligned
          let s2 ← g.isEdgeToSplit m e2 c (decide (h2.type = .insideEdge)) h2.index lengths qualityWeight alignedWeight
            quality aligned
          ok (.toBeSplit ⟨e1, e2, h1.toDirHit, h2.toDirHit, s1, s2⟩)

/-- `RefinePolygonCell_CheckRefinement` (`GeDiM/src/Mesh/RefinementUtilities2D.cpp:1200-1330`); `vs` are the points of the
polygon. -/
def GeoCfg.checkRefinement (g : GeoCfg K) (sqrt : K → K) (tol2D : K) (m : Mesh K) (c : Nat) (vs : List (V3 K))
    (tangent origin : V3 K) (quality : List K) (aligned : List Nat) (qualityWeight alignedWeight area : K)
    (lengths : List (List K)) (directions : List Bool) : Res (CheckOutcome K) := do
  let u ← m.updated .d2 c
  if u.isSome = true then ok .alreadySplit
  else if g.isValueZero (1 / 2 * area) tol2D = true then ok .underTolerance
  else do
    let r ← g.linePolygonPosition sqrt tangent origin vs
    g.checkHits m c r quality aligned qualityWeight alignedWeight lengths directions

end Verif
