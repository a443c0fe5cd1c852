import Verif.Basic
import Mathlib.Algebra.Order.Field.Basic
import Mathlib.Algebra.Order.Ring.Abs

/-
Comparison of values with tolerance: `GeDiM/src/Geometry/GeometryUtilities.cpp`, `.hpp` and
`GeometryUtilities_Point.cpp`. `double` is an arbitrary ordered field.
-/
namespace Verif

open Res

variable {K : Type} [Field K] [LinearOrder K] [IsStrictOrderedRing K]

/-- `GeometryUtilities::CompareTypes` without `Unknown`, which is never returned
(`GeDiM/src/Geometry/GeometryUtilities.hpp:42-48`). -/
inductive CompareType where
  | firstBeforeSecond
  | coincident
  | secondBeforeFirst
  deriving DecidableEq, Repr

/-- The two entries of `GeometryUtilitiesConfig` that are used in one dimension
(`GeDiM/src/Geometry/GeometryUtilities.hpp:22-33`). -/
structure GeoCfg (K : Type) where
  minTolerance : K
  tolerance1D : K

/-- `Tolerance1D()` (`GeDiM/src/Geometry/GeometryUtilities.hpp:797-800`). -/
def GeoCfg.tol1D (g : GeoCfg K) : K := max g.minTolerance g.tolerance1D

/-- `Tolerance1DSquared()` (`GeDiM/src/Geometry/GeometryUtilities.hpp:802-806`). -/
def GeoCfg.tol1DSquared (g : GeoCfg K) : K :=
  max (g.minTolerance * g.minTolerance) (g.tolerance1D * g.tolerance1D)

/-- `CompareValues` (`GeDiM/src/Geometry/GeometryUtilities.cpp:161-173`). -/
def GeoCfg.compareValues (g : GeoCfg K) (first second tolerance : K) : CompareType :=
  let maxTolerance := max |tolerance| g.minTolerance
  let relativeValue := if |first| ≤ maxTolerance ∨ |second| ≤ maxTolerance then 1 else |first|
  let difference := second - first
  if |difference| ≤ maxTolerance * relativeValue then .coincident
  else if difference < -maxTolerance * relativeValue then .secondBeforeFirst
  else .firstBeforeSecond

/-- `AreValuesEqual` (`GeDiM/src/Geometry/GeometryUtilities.hpp:842-845`). -/
def GeoCfg.areValuesEqual (g : GeoCfg K) (first second tolerance : K) : Bool :=
  g.compareValues first second tolerance = .coincident

/-- `IsValueGreater` (`GeDiM/src/Geometry/GeometryUtilities.hpp:850-853`). -/
def GeoCfg.isValueGreater (g : GeoCfg K) (first second tolerance : K) : Bool :=
  g.compareValues first second tolerance = .secondBeforeFirst

/-- `IsValueGreaterOrEqual` (`GeDiM/src/Geometry/GeometryUtilities.hpp:858-863`). -/
def GeoCfg.isValueGreaterOrEqual (g : GeoCfg K) (first second tolerance : K) : Bool :=
  g.compareValues first second tolerance = .secondBeforeFirst ||
  g.compareValues first second tolerance = .coincident

/-- `IsValueLower` (`GeDiM/src/Geometry/GeometryUtilities.hpp:865-868`). -/
def GeoCfg.isValueLower (g : GeoCfg K) (first second tolerance : K) : Bool :=
  !g.isValueGreaterOrEqual first second tolerance

/-- `IsValueLowerOrEqual` (`GeDiM/src/Geometry/GeometryUtilities.hpp:870-873`). -/
def GeoCfg.isValueLowerOrEqual (g : GeoCfg K) (first second tolerance : K) : Bool :=
  !g.isValueGreater first second tolerance

/-- `IsValuePositive` (`GeDiM/src/Geometry/GeometryUtilities.hpp:877-880`). -/
def GeoCfg.isValuePositive (g : GeoCfg K) (value tolerance : K) : Bool :=
  g.compareValues 0 value tolerance = .firstBeforeSecond

/-- `IsValueNegative` (`GeDiM/src/Geometry/GeometryUtilities.hpp:884-887`). -/
def GeoCfg.isValueNegative (g : GeoCfg K) (value tolerance : K) : Bool :=
  g.compareValues 0 value tolerance = .secondBeforeFirst

/-- `IsValueZero` (`GeDiM/src/Geometry/GeometryUtilities.hpp:891-894`). -/
def GeoCfg.isValueZero (g : GeoCfg K) (value tolerance : K) : Bool :=
  g.compareValues 0 value tolerance = .coincident

/-- `PointSegmentPositionTypes` (`GeDiM/src/Geometry/GeometryUtilities.hpp`). -/
inductive PointSegmentPos where
  | rightTheSegment
  | leftTheSegment
  | onSegmentLineBeforeOrigin
  | onSegmentOrigin
  | insideSegment
  | onSegmentEnd
  | onSegmentLineAfterEnd
  deriving DecidableEq, Repr

/-- `PointSegmentPosition(curvilinearCoordinate)`
(`GeDiM/src/Geometry/GeometryUtilities_Point.cpp:140-160`). -/
def GeoCfg.pointSegmentPosition (g : GeoCfg K) (t : K) : Res PointSegmentPos :=
  if g.isValueZero t g.tol1D then ok .onSegmentOrigin
  else if g.compareValues 1 t g.tol1D = .coincident then ok .onSegmentEnd
  else if g.isValuePositive t g.tol1D ∧ g.compareValues 1 t g.tol1D = .secondBeforeFirst then
    ok .insideSegment
  else if g.isValueNegative t g.tol1D then ok .onSegmentLineBeforeOrigin
  else if g.compareValues 1 t g.tol1D = .firstBeforeSecond then ok .onSegmentLineAfterEnd
  else throw

/-- `PointPlanePositionTypes` and `PointPlanePosition(distance)`
(`GeDiM/src/Geometry/GeometryUtilities_Point.cpp:181-189`); the signs -1, 0 and 1 stand for
`Negative`, `OnPlane` and `Positive`. -/
def GeoCfg.pointPlanePosition (g : GeoCfg K) (distance : K) : Int :=
  if g.isValueZero distance g.tol1D then 0
  else if g.isValueNegative distance g.tol1D then -1
  else 1

end Verif
