import Verif.PolygonModel

/-
The convex hull of points of the plane (`ConvexHull`, `GeDiM/src/Geometry/GeometryUtilities.cpp:229-320`): the
algorithm of Graham. `double` is an arbitrary ordered field; the square root and `std::sort` are parameters.
-/
namespace Verif

open Res

variable {K : Type} [Field K] [LinearOrder K] [IsStrictOrderedRing K]

/-- `PolarAngle` (`GeDiM/src/Geometry/GeometryUtilities.hpp:927-937`). -/
def GeoCfg.polarAngle (g : GeoCfg K) (prev v next : V3 K) (normPrev normNext : K) : K :=
  if g.isValueZero normPrev g.tol1D || g.isValueZero normNext g.tol1D then 0
  else (v.x - prev.x) * (next.y - prev.y) / (normPrev * normNext) -
    (next.x - prev.x) * (v.y - prev.y) / (normPrev * normNext)

/-- The local `struct pt` (`GeDiM/src/Geometry/GeometryUtilities.cpp:239-243`). -/
structure HullPt (K : Type) where
  point : V3 K
  id : Nat
  deriving DecidableEq

/-- The loop that looks for the lowest point, of those the one on the left
(`GeDiM/src/Geometry/GeometryUtilities.cpp:249-257`). Simplified: the initial value, with the largest `double` as
coordinates, is `none`, and the first point replaces it. -/
def GeoCfg.hullLowestStep (g : GeoCfg K) (p0 : Option (HullPt K)) (p : HullPt K) : Option (HullPt K) :=
  match p0 with
  | none => some p
  | some q =>
      let q := if g.isValueGreater q.point.y p.point.y g.tol1D then p else q
      if g.areValuesEqual q.point.y p.point.y g.tol1D && g.isValueGreater q.point.x p.point.x g.tol1D then some p
      else some q

/-- The comparison of `std::sort` (`GeDiM/src/Geometry/GeometryUtilities.cpp:259-272`). -/
def GeoCfg.hullBefore (g : GeoCfg K) (sqrt : K → K) (p0 : V3 K) (a b : HullPt K) : Bool :=
  let normBA := (a.point.sub b.point).norm sqrt
  let sqB := (p0.sub b.point).dot (p0.sub b.point)
  let o := g.polarAngle a.point b.point p0 normBA (sqrt sqB)
  if g.isValueZero o g.tol1D then
    g.isValueGreater sqB ((p0.sub a.point).dot (p0.sub a.point)) g.tol1DSquared
  else g.isValueNegative o g.tol1D

/-- What `std::sort` requires of a comparison on the elements of the list. -/
def StrictWeak {α : Type} (lt : α → α → Bool) (l : List α) : Prop :=
  (∀ a ∈ l, lt a a = false) ∧ (∀ a ∈ l, ∀ b ∈ l, ∀ c ∈ l, lt a b = true → lt b c = true → lt a c = true) ∧
    ∀ a ∈ l, ∀ b ∈ l, ∀ c ∈ l, (lt a b = false ∧ lt b a = false) → (lt b c = false ∧ lt c b = false) →
      (lt a c = false ∧ lt c a = false)

instance {α : Type} (lt : α → α → Bool) (l : List α) : Decidable (StrictWeak lt l) := by
  unfold StrictWeak; infer_instance

/-- The loop over the points aligned with the last one (`GeDiM/src/Geometry/GeometryUtilities.cpp:274-292`).
The argument is `i + 1`; the result is the index where the reversed part starts. The loop stops for a negative
`i` only after the point with index `i` has been read. -/
def GeoCfg.hullTail (g : GeoCfg K) (sqrt : K → K) (p0 back : V3 K) (sp : List (HullPt K)) : Nat → Res Nat
  | 0 => ub
  | i + 1 => do
      let a ← vget sp i
      let o := g.polarAngle a.point back p0 ((a.point.sub back).norm sqrt) ((p0.sub back).norm sqrt)
      if g.isValueZero o g.tol1D then g.hullTail sqrt p0 back sp i else ok (i + 1)

/-- The test of the inner loop (`GeDiM/src/Geometry/GeometryUtilities.cpp:299-306`): `b` is the last point of the
stack, `a` the one before, `r` the new point. -/
def GeoCfg.hullKeep (g : GeoCfg K) (sqrt : K → K) (includeCollinear : Bool) (a b r : V3 K) : Bool :=
  let o := g.polarAngle b r a ((b.sub r).norm sqrt) ((a.sub r).norm sqrt)
  g.isValueNegative o g.tol1D || (includeCollinear && g.isValueZero o g.tol1D)

/-- The inner loop (`GeDiM/src/Geometry/GeometryUtilities.cpp:297-309`). The stack is a list with its last
element first. -/
def hullPop {α : Type} (keep : α → α → α → Bool) (r : α) : List α → List α
  | b :: a :: st => if keep a b r then b :: a :: st else hullPop keep r (a :: st)
  | st => st

/-- The outer loop (`GeDiM/src/Geometry/GeometryUtilities.cpp:294-311`). -/
def hullScan {α : Type} (keep : α → α → α → Bool) (l : List α) : List α :=
  l.foldl (fun st r => r :: hullPop keep r st) []

/-- `ConvexHull` (`GeDiM/src/Geometry/GeometryUtilities.cpp:229-320`). The comparison must order the points,
otherwise `std::sort` is not defined. The result starts with the last element of the stack. -/
def GeoCfg.convexHull (g : GeoCfg K) (sqrt : K → K)
    (sort : (HullPt K → HullPt K → Bool) → List (HullPt K) → List (HullPt K)) (points : List (V3 K))
    (includeCollinear : Bool) : Res (List Nat) := do
  let flat ← g.pointsAre2D points
  assert (flat = true)
  if points.length = 1 then ok [0]
  else do
    let sp := points.zipIdx.map fun x => (⟨x.1, x.2⟩ : HullPt K)
    match sp.foldl g.hullLowestStep none with
    | none => ub
    | some p0 => do
        let lt := g.hullBefore sqrt p0.point
        let sp ← if StrictWeak lt sp then ok (sort lt sp) else ub
        let sp ← if includeCollinear then do
            let back ← vget sp (sp.length - 1)
            let i ← g.hullTail sqrt p0.point back.point sp sp.length
            ok (sp.take i ++ (sp.drop i).reverse)
          else ok sp
        let st := hullScan (fun a b r : HullPt K => g.hullKeep sqrt includeCollinear a.point b.point r.point) sp
        ok (st.map HullPt.id)

end Verif
