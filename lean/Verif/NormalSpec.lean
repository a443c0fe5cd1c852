import Verif.NormalModel
import Verif.PointPosSpec
import Verif.IntersectSpec
import Verif.CompareProps
import Verif.CheckSpec

/-!
# Rays from the faces of a polyhedron, and convexity
-/

namespace Verif

variable {K : Type} [Field K]

/-- The point with coordinate `s` on the ray that starts at the point of a face in the direction of its normal. -/
def NormalFace.onRay (f : NormalFace K) (s : K) : V3 K :=
  ⟨f.point.x + s * f.normal.x, f.point.y + s * f.normal.y, f.point.z + s * f.normal.z⟩

/-- The coordinates of a point of space in the plane of a face. -/
def NormalFace.inPlane (f : NormalFace K) (q : V3 K) : V3 K :=
  ⟨f.rotation.col0.x * (q.x - f.translation.x) + f.rotation.col0.y * (q.y - f.translation.y) +
      f.rotation.col0.z * (q.z - f.translation.z),
    f.rotation.col1.x * (q.x - f.translation.x) + f.rotation.col1.y * (q.y - f.translation.y) +
      f.rotation.col1.z * (q.z - f.translation.z), 0⟩

/-- The product of two vectors. -/
def along (a b : V3 K) : K := a.x * b.x + a.y * b.y + a.z * b.z

section ordered
variable [LinearOrder K] [IsStrictOrderedRing K]

/-- The ray of `f` passes through the face `other` at the coordinate `s`. -/
def Crosses (f other : NormalFace K) (s : K) : Prop :=
  along f.normal other.normal ≠ 0 ∧ 0 < s ∧
    (∃ o, other.vertices3D[0]? = some o ∧ side other.normal o (f.onRay s) = 0) ∧
    InsideEvenOdd other.vertices2D (other.inPlane (f.onRay s))

/-- The ray of `f` stays away from the border of the face `other`, with respect to the tolerances: it is parallel to
the plane of the face or not almost parallel to it, does not meet the plane close to its start, and the point in
which it meets the plane is clear of all sides. -/
def GeoCfg.RayClear (g : GeoCfg K) (f other : NormalFace K) : Prop :=
  ∃ o, other.vertices3D[0]? = some o ∧ 2 < other.vertices2D.length ∧
    (along f.normal other.normal = 0 ∨
      g.tolSq < |along f.normal other.normal| ∧
      ∀ s, side other.normal o (f.onRay s) = 0 → s ≤ 0 ∨
        g.tol1D < s ∧ (s = 1 ∨ g.tol1D < |s - 1|) ∧
        ∀ v a b, IsEdge other.vertices2D v a b → g.ClearOfRay (other.inPlane (f.onRay s)) a b)

/-- Two coordinates that the comparison of coordinates tells apart. -/
def GeoCfg.Apart (g : GeoCfg K) (s t : K) : Prop := window g.tol1D s t < |t - s|

/-- The number of faces, other than the face itself, that the ray of the face with number `f` passes through. -/
noncomputable def crossings (faces : List (NormalFace K)) (f : Nat) : Nat :=
  open Classical in
  ((List.range faces.length).filter fun f2 => f2 ≠ f ∧ ∃ a b s, faces[f]? = some a ∧ faces[f2]? = some b ∧
    Crosses a b s).length

/-- The normal of a face in its outgoing direction. -/
def NormalFace.outer (f : NormalFace K) : V3 K :=
  ⟨if f.outgoing then f.normal.x else -f.normal.x, if f.outgoing then f.normal.y else -f.normal.y,
    if f.outgoing then f.normal.z else -f.normal.z⟩

/-- The point `q` is strictly outside of the plane of the face. -/
def NormalFace.Beyond (f : NormalFace K) (q : V3 K) : Prop :=
  ∃ o, f.vertices3D[0]? = some o ∧ 0 < side f.outer o q

/-- The plane of `other` separates the point `p`, inside of the plane, from the point of `f`, or does not, and the
tolerances see it: `p` is away from the plane, and so is the point of `f` if it is beyond the plane. -/
def GeoCfg.PairClear (g : GeoCfg K) (sqrt : K → K) (p : V3 K) (f other : NormalFace K) : Prop :=
  ∃ o, other.vertices3D[0]? = some o ∧ along other.normal other.normal = 1 ∧
    g.tol1D < (f.point.sub p).norm sqrt ∧
    g.tolSq * (f.point.sub p).norm sqrt < -side other.outer o p ∧
    window g.tolSq (along other.outer p) (along other.outer o) < -side other.outer o p ∧
    (side other.outer o f.point ≤ 0 ∨
      g.tol1D * (side other.outer o f.point - side other.outer o p) < side other.outer o f.point ∧
      g.tol1D * (side other.outer o f.point - side other.outer o p) < -side other.outer o p)

/-- All vertices of all faces are on the inner side of the planes of all faces. -/
def ConvexSolid (faces : List (NormalFace K)) : Prop :=
  ∀ f ∈ faces, ∀ other ∈ faces, ∀ v ∈ f.vertices3D, ¬ other.Beyond v

/-- The face `f` is folded outwards at the plane of the face `other`: no vertex is inside of the plane and at least
one is beyond it. A face next to `other` is like this if the dihedral angle is more than 180 degrees and the face is
convex. -/
def Reflex (f other : NormalFace K) : Prop :=
  (∀ o, other.vertices3D[0]? = some o → ∀ v ∈ f.vertices3D, 0 ≤ side other.outer o v) ∧
    ∃ v ∈ f.vertices3D, other.Beyond v

/-- The point of the face is a mean of its vertices with positive weights. -/
def PointInside (f : NormalFace K) : Prop :=
  ∃ w : V3 K → K, (∀ v ∈ f.vertices3D, 0 < w v) ∧ (f.vertices3D.map w).sum = 1 ∧
    f.point.x = (f.vertices3D.map fun v => w v * v.x).sum ∧ f.point.y = (f.vertices3D.map fun v => w v * v.y).sum ∧
    f.point.z = (f.vertices3D.map fun v => w v * v.z).sum

end ordered

end Verif
