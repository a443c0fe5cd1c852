import Verif.MapSpec
import Verif.PlaneSpec
import Verif.MomentSpec

/-
Notions in which the integrals over polyhedra are stated.
-/
namespace Verif

section field
variable {K : Type} [Field K]

/-- A face of a polyhedron: its triangles in the plane, the normal and whether it points outwards, and the map from the
plane to space. -/
structure PlacedFace (K : Type) where
  triangles : List (V3 K × V3 K × V3 K)
  normal : V3 K
  direction : Bool
  translation : V3 K
  rotation : M3 K

/-- Where a point of the plane lies in space. -/
def PlacedFace.place (f : PlacedFace K) (p : V3 K) : V3 K := (f.rotation.mulVec p).add f.translation

/-- The face is placed by a rotation, which takes the third axis to the normal. -/
def PlacedFace.Framed (f : PlacedFace K) : Prop := IsRotation f.rotation ∧ f.rotation.mulVec ⟨0, 0, 1⟩ = f.normal

/-- The corners have the same height. -/
def PlacedFace.Level (f : PlacedFace K) : Prop :=
  ∀ t ∈ f.triangles, t.2.1.z = t.1.z ∧ t.2.2.z = t.1.z

/-- The three sides of a triangle, from corner to corner. -/
def triangleSides (t : V3 K × V3 K × V3 K) : List (V3 K × V3 K) := [(t.1, t.2.1), (t.2.1, t.2.2), (t.2.2, t.1)]

/-- Triangles that close up: every side is a side of as many triangles in one direction as in the other. -/
def ClosedSurface (ts : List (V3 K × V3 K × V3 K)) : Prop :=
  (ts.flatMap triangleSides).Perm ((ts.flatMap triangleSides).map Prod.swap)

/-- The volume of the cone over the triangles with apex `p`: the sum of the volumes, with sign, of the tetrahedra. -/
def coneVolume (p : V3 K) (ts : List (V3 K × V3 K × V3 K)) : K :=
  (ts.map fun t => vol6 p t.1 t.2.1 t.2.2 / 6).sum

/-- The integral of a coordinate over the cone: each tetrahedron contributes its volume times the mean of the
coordinate at its corners. -/
def coneMoment (X : V3 K → K) (p : V3 K) (ts : List (V3 K × V3 K × V3 K)) : K :=
  (ts.map fun t => vol6 p t.1 t.2.1 t.2.2 / 6 * ((X p + X t.1 + X t.2.1 + X t.2.2) / 4)).sum

variable [LinearOrder K]

/-- A triangle of the face in space, its corners counter-clockwise seen from outside. -/
def PlacedFace.outer (f : PlacedFace K) (t : V3 K × V3 K × V3 K) : V3 K × V3 K × V3 K :=
  if f.direction = decide (0 ≤ area2 t.1 t.2.1 t.2.2) then (f.place t.1, f.place t.2.1, f.place t.2.2)
  else (f.place t.1, f.place t.2.2, f.place t.2.1)

/-- The triangles of all faces in space. -/
def surfaceOf (fs : List (PlacedFace K)) : List (V3 K × V3 K × V3 K) := fs.flatMap fun f => f.triangles.map f.outer

/-- The area of the faces. -/
def surfaceArea (fs : List (PlacedFace K)) : K :=
  (fs.flatMap fun f => f.triangles.map fun t => |area2 t.1 t.2.1 t.2.2| / 2).sum

/-- The coordinates of the corners are at most `D`. -/
def CornersWithin (D : K) (ts : List (V3 K × V3 K × V3 K)) : Prop :=
  ∀ t ∈ ts, ∀ p, p = t.1 ∨ p = t.2.1 ∨ p = t.2.2 → |p.x| ≤ D ∧ |p.y| ≤ D ∧ |p.z| ≤ D

/-- The point `p` does not lie outside of any triangle. -/
def SeesInside (p : V3 K) (ts : List (V3 K × V3 K × V3 K)) : Prop := ∀ t ∈ ts, 0 ≤ vol6 p t.1 t.2.1 t.2.2

end field

/-- The integral of `f` over the tetrahedron with the corners `a`, `b`, `c`, `d`: the integral over the reference
tetrahedron after the affine change of variables, whose determinant is six times the volume. -/
noncomputable def integralInTet (f : V3 ℝ → ℝ) (a b c d : V3 ℝ) : ℝ :=
  |vol6 a b c d| * tetraInt fun u v w =>
    f ⟨a.x + u * (b.x - a.x) + v * (c.x - a.x) + w * (d.x - a.x),
       a.y + u * (b.y - a.y) + v * (c.y - a.y) + w * (d.y - a.y),
       a.z + u * (b.z - a.z) + v * (c.z - a.z) + w * (d.z - a.z)⟩

/-- The integral of the product of two coordinates, measured from `c`, over tetrahedra. -/
noncomputable def tetMoment (X Y : V3 ℝ → ℝ) (c : V3 ℝ) (ts : List (V3 ℝ × V3 ℝ × V3 ℝ × V3 ℝ)) : ℝ :=
  (ts.map fun t => integralInTet (fun p => (X p - X c) * (Y p - Y c)) t.1 t.2.1 t.2.2.1 t.2.2.2).sum

/-- The coordinates of the corners of the tetrahedra differ from those of `c` by at most `D`. -/
def TetsWithin (D : ℝ) (c : V3 ℝ) (ts : List (V3 ℝ × V3 ℝ × V3 ℝ × V3 ℝ)) : Prop :=
  ∀ t ∈ ts, ∀ p ∈ [t.1, t.2.1, t.2.2.1, t.2.2.2], |p.x - c.x| ≤ D ∧ |p.y - c.y| ≤ D ∧ |p.z - c.z| ≤ D

end Verif
