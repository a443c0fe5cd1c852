import Verif.PointPosModel

/-
Rotations of a plane, reflections through a plane and triangles on a plane
(`GeDiM/src/Geometry/GeometryUtilities.cpp`, `GeDiM/src/Geometry/GeometryUtilities.hpp`). `double` is an arbitrary
ordered field and the square root a parameter.
-/
namespace Verif

open Res

variable {K : Type} [Field K] [LinearOrder K] [IsStrictOrderedRing K]

/-- `PlaneRotationMatrix` (`GeDiM/src/Geometry/GeometryUtilities.cpp:175-192`). -/
def GeoCfg.planeRotationMatrix (g : GeoCfg K) (sqrt : K → K) (n : V3 K) : Res (M3 K) := do
  assert (g.compareValues (n.norm sqrt) 1 g.tol1D = .coincident)
  let nxy := sqrt (n.x * n.x + n.y * n.y)
  if g.isValueZero nxy g.tol1D then ok M3.one
  else ok ⟨-n.y / nxy, -n.x * n.z / nxy, n.x,
           n.x / nxy, -n.y * n.z / nxy, n.y,
           0, nxy, n.z⟩

/-- `RotatePointsFrom2DTo3D` of one point (`GeDiM/src/Geometry/GeometryUtilities.hpp:1907-1913`). -/
def GeoCfg.rotateFrom2DTo3D (g : GeoCfg K) (point : V3 K) (rotation : M3 K) (translation : V3 K) :
    Res (V3 K) := do
  let flat ← g.pointsAre2D [point]
  assert (flat = true)
  ok ((rotation.mulVec point).add translation)

/-- `PlaneReflectionMatrix` (`GeDiM/src/Geometry/GeometryUtilities.cpp:194-204`). -/
def GeoCfg.planeReflectionMatrix (g : GeoCfg K) (sqrt : K → K) (n : V3 K) : Res (M3 K) := do
  assert (g.isValuePositive (n.norm sqrt) g.tol1D = true)
  let c := 2 / n.dot n
  ok ⟨1 - c * n.x * n.x, 0 - c * n.x * n.y, 0 - c * n.x * n.z,
      0 - c * n.y * n.x, 1 - c * n.y * n.y, 0 - c * n.y * n.z,
      0 - c * n.z * n.x, 0 - c * n.z * n.y, 1 - c * n.z * n.z⟩

/-- `PlaneReflectionTranslation` (`GeDiM/src/Geometry/GeometryUtilities.cpp:206-211`). -/
def GeoCfg.planeReflectionTranslation (g : GeoCfg K) (sqrt : K → K) (n origin : V3 K) : Res (V3 K) := do
  assert (g.isValuePositive (n.norm sqrt) g.tol1D = true)
  ok (V3.smul (2 / n.dot n * n.dot origin) n)

/-- `RotatePoints` of one point (`GeDiM/src/Geometry/GeometryUtilities.hpp:1894-1900`), which also applies
reflections. -/
def rotatePoint (point : V3 K) (rotation : M3 K) (translation : V3 K) : V3 K :=
  (rotation.mulVec point).add translation

/-- `PlaneToPolygon` (`GeDiM/src/Geometry/GeometryUtilities.cpp:213-228`): the columns of the result. -/
def GeoCfg.planeToPolygon (g : GeoCfg K) (sqrt : K → K) (n origin : V3 K) : V3 K × V3 K × V3 K :=
  let support : V3 K := if g.isValueLower n.z (9 / 10) g.tol1D then ⟨0, 0, 1⟩ else ⟨0, 1, 0⟩
  let t1 := (n.cross support).normalized sqrt
  let t2 := (n.cross t1).normalized sqrt
  (origin, origin.add t1, origin.add t2)

end Verif
