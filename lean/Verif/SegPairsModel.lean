import Verif.IntersectModel

/-
`GeometryUtilities::IntersectionsBetweenSegments` (`GeDiM/src/Geometry/GeometryUtilities_Intersection.cpp:251-290`).
-/
namespace Verif

open Res

variable {K : Type} [Field K] [LinearOrder K] [IsStrictOrderedRing K]

/-- `CheckNoSpheresIntersection` (`GeDiM/src/Geometry/GeometryUtilities.hpp:1220-1228`). -/
def GeoCfg.noSpheresIntersection (g : GeoCfg K) (sqrt : K → K) (c₁ c₂ : V3 K) (d₁ d₂ : K) : Bool :=
  g.isValueGreater (2 * (c₂.sub c₁).norm sqrt) (d₁ + d₂) g.tol1D

/-- The input: `segmentsVertices` as pairs of the two columns, `segmentsBarycenter` and `segmentsLength`. -/
structure SegmentsData (K : Type) where
  ends : List (V3 K × V3 K)
  centers : List (V3 K)
  lengths : List K

/-- What a pair of segments gives (`GeDiM/src/Geometry/GeometryUtilities_Intersection.cpp:269-284`): nothing, or the coordinates that are
put into the two lists. -/
def GeoCfg.segPair (g : GeoCfg K) (sqrt : K → K) (d : SegmentsData K) (s₁ s₂ : Nat) : Res (Option (K × K)) := do
  let a ← vget d.ends s₁
  let ca ← vget d.centers s₁
  let la ← vget d.lengths s₁
  let b ← vget d.ends s₂
  let cb ← vget d.centers s₂
  let lb ← vget d.lengths s₂
  if g.noSpheresIntersection sqrt ca cb la lb = true then ok none
  else do
    let r ← g.intersectionSegmentSegment sqrt a.1 a.2 b.1 b.2
    if r.segments ≠ .singleIntersection then ok none
    else do
      let x ← vget r.first 0
      let y ← vget r.second 0
      ok (some (x.coord, y.coord))

/-- The coordinates are put into the lists (`GeDiM/src/Geometry/GeometryUtilities_Intersection.cpp:283-284`). -/
def pushPair (I : List (List K)) (s₁ s₂ : Nat) : Option (K × K) → Res (List (List K))
  | none => ok I
  | some p => do
      let l ← vget I s₁
      let I ← vset I s₁ (l ++ [p.1])
      let l ← vget I s₂
      vset I s₂ (l ++ [p.2])

/-- `IntersectionsBetweenSegments` (`GeDiM/src/Geometry/GeometryUtilities_Intersection.cpp:251-290`). -/
def GeoCfg.betweenSegments (g : GeoCfg K) (sqrt : K → K) (d : SegmentsData K) : Res (List (List K)) :=
  foldRes (fun I s₁ =>
    foldRes (fun I k => do
      let p ← g.segPair sqrt d s₁ (s₁ + 1 + k)
      pushPair I s₁ (s₁ + 1 + k) p) I (List.range (d.ends.length - (s₁ + 1))))
    (List.replicate d.ends.length []) (List.range d.ends.length)

end Verif
