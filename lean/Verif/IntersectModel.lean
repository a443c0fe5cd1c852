import Verif.PolygonModel

/-
Intersections of a segment with a segment, a plane and a circle:
`GeDiM/src/Geometry/GeometryUtilities_Intersection.cpp`. `double` is an arbitrary ordered field; the
square root is a parameter. The results are records of the entries the functions set; a vector
that is not resized is empty.
-/
namespace Verif

open Res

variable {K : Type} [Field K] [LinearOrder K] [IsStrictOrderedRing K]

/-- `AreLineCoplanar` (`GeDiM/src/Geometry/GeometryUtilities_Intersection.cpp:23-48`). -/
def GeoCfg.areLineCoplanar (g : GeoCfg K) (sqrt : K → K) (o₁ t₁ o₂ t₂ : V3 K) : Bool :=
  let c0 := (o₂.sub o₁).normalized sqrt
  let c1 := t₁.normalized sqrt
  let c2 := ((o₂.add t₂).sub o₁).normalized sqrt
  let d := (⟨c0.x, c1.x, c2.x, c0.y, c1.y, c2.y, c0.z, c1.z, c2.z⟩ : M3 K).det
  let sq (v : V3 K) : K := v.dot v
  !(g.isValuePositive (sq (o₂.sub o₁)) g.tol1DSquared &&
    g.isValuePositive (sq ((o₂.add t₂).sub o₁)) g.tol1DSquared &&
    g.isValuePositive (sq ((o₂.sub o₁).sub t₁)) g.tol1DSquared &&
    g.isValuePositive (sq (((o₂.add t₂).sub o₁).sub t₁)) g.tol1DSquared &&
    g.isValuePositive |d| g.tol1D)

/-- `IntersectionLineTypes` without `Unknown` (`GeDiM/src/Geometry/GeometryUtilities.hpp`,
`IntersectionSegmentSegmentResult`). -/
inductive LinesType where
  | onDifferentPlanes
  | coPlanarParallel
  | coPlanarIntersecting
  deriving DecidableEq, Repr

/-- `IntersectionSegmentTypes` without `Unknown` (`GeDiM/src/Geometry/GeometryUtilities.hpp`,
`IntersectionSegmentSegmentResult`). -/
inductive SegmentsType where
  | noIntersection
  | singleIntersection
  | multipleIntersections
  deriving DecidableEq, Repr

/-- `IntersectionPosition`: a position on a segment and its coordinate. -/
structure SegPos (K : Type) where
  type : PointSegmentPos
  coord : K
  deriving DecidableEq

/-- `IntersectionSegmentSegmentResult` (`GeDiM/src/Geometry/GeometryUtilities.hpp`). -/
structure SegSegResult (K : Type) where
  lines : LinesType
  segments : SegmentsType
  relation : List Nat
  first : List (SegPos K)
  second : List (SegPos K)
  deriving DecidableEq

/-- `fullPivHouseholderQr().solve` of the matrix with the unit columns `u` and `v` and the right-hand
side `r`. Simplified: the exact least-squares solution, which the decomposition gives up to
rounding; meaningful only if the columns are independent, which the caller has checked. -/
def leastSquares2 (u v r : V3 K) : K × K :=
  let d := u.dot v
  let w := u.dot u * v.dot v - d * d
  ((v.dot v * u.dot r - d * v.dot r) / w, (u.dot u * v.dot r - d * u.dot r) / w)

/-- The test for a position on the segment, ends included. -/
def onSegment (p : PointSegmentPos) : Bool :=
  p = .onSegmentOrigin || p = .insideSegment || p = .onSegmentEnd

/-- `PointCurvilinearCoordinate` (`GeDiM/src/Geometry/GeometryUtilities.hpp:1069-1089`). -/
def curvilinear (point origin end_ : V3 K) : K :=
  let t := end_.sub origin
  (point.sub origin).dot t / t.dot t

/-- The first coordinates of the common part of two segments on one line
(`GeometryUtilities_Intersection.cpp:186-205` and `214-223`): a position before the origin and a
position after the end both become the origin. -/
def snapFirst0 (p : SegPos K) : SegPos K :=
  if p.type = .onSegmentLineBeforeOrigin then ⟨.onSegmentOrigin, 0⟩
  else if p.type = .onSegmentLineAfterEnd then ⟨.onSegmentOrigin, 0⟩
  else p

/-- `GeometryUtilities_Intersection.cpp:207-211`. -/
def snapEnd (p : SegPos K) : SegPos K :=
  if p.type = .onSegmentLineAfterEnd then ⟨.onSegmentEnd, 1⟩ else p

/-- `GeometryUtilities_Intersection.cpp:218-222`. -/
def snapSecond0 (p : SegPos K) : SegPos K :=
  if p.type = .onSegmentLineBeforeOrigin then ⟨.onSegmentOrigin, 0⟩ else p

/-- The branch of parallel segments of `IntersectionSegmentSegment`
(`GeDiM/src/Geometry/GeometryUtilities_Intersection.cpp:133-249`). -/
def GeoCfg.parallelSegments (g : GeoCfg K) (sqrt : K → K) (x₁ x₂ x₃ x₄ : V3 K) :
    Res (SegSegResult K) :=
  let t₁ := x₂.sub x₁
  let t₂ := x₄.sub x₃
  if !g.pointIsAligned sqrt x₁ x₂ x₃ && !g.pointIsAligned sqrt x₁ x₂ x₄ then
    ok ⟨.coPlanarParallel, .noIntersection, [], [], []⟩
  else
    let r₁ := t₁.norm sqrt * (1 / 2)
    let r₂ := t₂.norm sqrt * (1 / 2)
    let distance :=
      ((V3.smul (1 / 2) (x₄.add x₃)).sub (V3.smul (1 / 2) (x₂.add x₁))).norm sqrt
    if g.isValuePositive (distance - (r₁ + r₂)) g.tol1D then
      ok ⟨.coPlanarParallel, .noIntersection, [], [], []⟩
    else do
      let f0 := curvilinear x₃ x₁ x₂
      let f1 := curvilinear x₄ x₁ x₂
      let s0 := curvilinear x₁ x₃ x₄
      let s1 := curvilinear x₂ x₃ x₄
      let f := if f1 < f0 then (f1, f0) else (f0, f1)
      let s := if s1 < s0 then (s1, s0) else (s0, s1)
      let pf0 ← g.pointSegmentPosition f.1
      let pf1 ← g.pointSegmentPosition f.2
      let a0 := snapFirst0 ⟨pf0, f.1⟩
      let a1 := snapEnd ⟨pf1, f.2⟩
      let ps0 ← g.pointSegmentPosition s.1
      let ps1 ← g.pointSegmentPosition s.2
      let b0 := snapSecond0 ⟨ps0, s.1⟩
      let b1 := snapEnd ⟨ps1, s.2⟩
      let firstPoint := x₁.add (V3.smul a0.coord t₁)
      let secondPoint := x₃.add (V3.smul b0.coord t₂)
      let relation := if g.tolerance1D * firstPoint.norm sqrt <
        (secondPoint.sub firstPoint).norm sqrt then [1, 0] else [0, 1]
      ok ⟨.coPlanarParallel, .multipleIntersections, relation, [a0, a1], [b0, b1]⟩

/-- `IntersectionSegmentSegment`
(`GeDiM/src/Geometry/GeometryUtilities_Intersection.cpp:50-250`) of the segments from `x₁` to `x₂`
and from `x₃` to `x₄`. -/
def GeoCfg.intersectionSegmentSegment (g : GeoCfg K) (sqrt : K → K) (x₁ x₂ x₃ x₄ : V3 K) :
    Res (SegSegResult K) := do
  let t₁ := x₂.sub x₁
  let t₂ := x₄.sub x₃
  assert (g.isValuePositive (t₁.dot t₁) g.tol1DSquared = true)
  assert (g.isValuePositive (t₂.dot t₂) g.tol1DSquared = true)
  if !g.areLineCoplanar sqrt x₁ t₁ x₃ t₂ then
    ok ⟨.onDifferentPlanes, .noIntersection, [], [], []⟩
  else
    let u := t₁.normalized sqrt
    let v := t₂.normalized sqrt
    let d := u.dot v
    if g.isValuePositive |(|d| - 1)| g.tol1DSquared &&
        g.isValuePositive ((1 - d) * (1 + d)) (g.tol1DSquared * g.tol1DSquared) then do
      let sol := leastSquares2 u v (x₃.sub x₁)
      let s := sol.1 / t₁.norm sqrt
      let q := -sol.2 / t₂.norm sqrt
      let ps ← g.pointSegmentPosition s
      let pq ← g.pointSegmentPosition q
      ok ⟨.coPlanarIntersecting,
        if onSegment ps && onSegment pq then .singleIntersection else .noIntersection,
        [0], [⟨ps, s⟩], [⟨pq, q⟩]⟩
    else g.parallelSegments sqrt x₁ x₂ x₃ x₄

/-- `IntersectionSegmentPlaneResult` (`GeDiM/src/Geometry/GeometryUtilities.hpp`); the position is
set only for a single intersection. -/
inductive SegPlaneResult (K : Type) where
  | noIntersection
  | singleIntersection (p : SegPos K)
  | multipleIntersections
  deriving DecidableEq

/-- `IntersectionSegmentPlane`
(`GeDiM/src/Geometry/GeometryUtilities_Intersection.cpp:291-333`). -/
def GeoCfg.intersectionSegmentPlane (g : GeoCfg K) (sqrt : K → K) (origin end_ normal point : V3 K) :
    Res (SegPlaneResult K) := do
  let t := end_.sub origin
  assert (g.compareValues (normal.norm sqrt) 1 g.tol1D = .coincident)
  assert (g.isValuePositive (t.norm sqrt) g.tol1D = true)
  if g.isValueZero (normal.dot (t.normalized sqrt)) g.tol1DSquared then
    if g.compareValues (normal.dot origin) (normal.dot point) g.tol1DSquared = .coincident then
      ok .multipleIntersections
    else ok .noIntersection
  else do
    let s := normal.dot (point.sub origin) / normal.dot t
    let p ← g.pointSegmentPosition s
    ok (.singleIntersection ⟨p,
      if p = .onSegmentOrigin then 0 else if p = .onSegmentEnd then 1 else s⟩)

/-- `IntersectionSegmentCircleResult::Types` (`GeDiM/src/Geometry/GeometryUtilities.hpp`) with the
positions that are set. -/
inductive SegCircleResult (K : Type) where
  | noIntersection
  | tangentIntersection (p : SegPos K)
  | twoIntersections (p q : SegPos K)
  deriving DecidableEq

/-- `IntersectionSegmentCircle`
(`GeDiM/src/Geometry/GeometryUtilities_Intersection.cpp:1018-1069`). -/
def GeoCfg.intersectionSegmentCircle (g : GeoCfg K) (sqrt : K → K) (origin end_ center : V3 K)
    (radius : K) : Res (SegCircleResult K) := do
  let d := end_.sub origin
  let f := origin.sub center
  let a := d.dot d
  let b := 2 * f.dot d
  let c := f.dot f - radius * radius
  assert (g.isValuePositive a g.tol1DSquared = true)
  let discriminant := b * b - 4 * a * c
  if g.isValueNegative discriminant (g.tol1DSquared * g.tol1DSquared) then ok .noIntersection
  else if g.isValueZero discriminant (g.tol1DSquared * g.tol1DSquared) then do
    let t := -b / (2 * a)
    let p ← g.pointSegmentPosition t
    ok (.tangentIntersection ⟨p, t⟩)
  else do
    let r := sqrt discriminant
    let t₁ := (-b - r) / (2 * a)
    let t₂ := (-b + r) / (2 * a)
    let p₁ ← g.pointSegmentPosition t₁
    let p₂ ← g.pointSegmentPosition t₂
    ok (.twoIntersections ⟨p₁, t₁⟩ ⟨p₂, t₂⟩)

/-- `PointCirclePositionResult` (`GeDiM/src/Geometry/GeometryUtilities.hpp`). -/
inductive PointCirclePos where
  | outside
  | onBorder
  | inside
  deriving DecidableEq, Repr

/-- `PointCirclePosition` (`GeDiM/src/Geometry/GeometryUtilities_Point.cpp:627-638`). -/
def GeoCfg.pointCirclePosition (g : GeoCfg K) (sqrt : K → K) (point center : V3 K) (radius : K) :
    PointCirclePos :=
  match g.compareValues radius ((point.sub center).norm sqrt) g.tol1D with
  | .firstBeforeSecond => .outside
  | .coincident => .onBorder
  | .secondBeforeFirst => .inside

end Verif
