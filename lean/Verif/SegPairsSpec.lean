import Verif.SegPairsModel
import Verif.IntersectSpec

/-
What the intersections between segments are.
-/
namespace Verif

open Res

variable {K : Type} [Field K] [LinearOrder K] [IsStrictOrderedRing K]

/-- The centers and lengths are those of the segments, and no segment is shorter than the tolerance. -/
structure SegmentsData.Right (d : SegmentsData K) (g : GeoCfg K) (sqrt : K → K) : Prop where
  centers : d.centers.length = d.ends.length
  lengths : d.lengths.length = d.ends.length
  center : ∀ (i : Nat) s c, d.ends[i]? = some s → d.centers[i]? = some c → c = pointAt s.1 s.2 (1 / 2)
  length : ∀ (i : Nat) s l, d.ends[i]? = some s → d.lengths[i]? = some l → l = sqrt (dist2 s.1 s.2)
  long : ∀ s ∈ d.ends, g.tolSq < dist2 s.1 s.2

/-- The points with coordinates `x` on `a` and `y` on `b` are on the segments up to the tolerance, nearest to each other, and at a
distance within the tolerance, either as it stands or relative to the size of the segments and the angle between them. -/
structure Touching (g : GeoCfg K) (a b : V3 K × V3 K) (x y : K) : Prop where
  first : -g.tol1D ≤ x ∧ x ≤ 1 + g.tol1D
  second : -g.tol1D ≤ y ∧ y ≤ 1 + g.tol1D
  orthogonal : dot4 a.1 a.2 (pointAt a.1 a.2 x) (pointAt b.1 b.2 y) = 0 ∧ dot4 b.1 b.2 (pointAt a.1 a.2 x) (pointAt b.1 b.2 y) = 0
  near : dist2 (pointAt a.1 a.2 x) (pointAt b.1 b.2 y) ≤ g.tolSq ∨
    dist2 (pointAt a.1 a.2 x) (pointAt b.1 b.2 y) * (dist2 a.1 a.2 * dist2 b.1 b.2 - dot4 a.1 a.2 b.1 b.2 * dot4 a.1 a.2 b.1 b.2) ≤
      g.tol1D * g.tol1D * (dist2 a.1 a.2 * dist2 a.1 b.1 * dist2 a.1 b.2)

/-- The directions of the segments differ by more than the tolerance. -/
def Oblique (g : GeoCfg K) (a b : V3 K × V3 K) : Prop :=
  dot4 a.1 a.2 b.1 b.2 * dot4 a.1 a.2 b.1 b.2 < (1 - g.tolSq) * (1 - g.tolSq) * (dist2 a.1 a.2 * dist2 b.1 b.2)

/-- `I` has a list for each segment, with one coordinate for each other segment `t` for which `C s t` is one, in the order of the
segments. The relation between the segments is symmetric, the two coordinates are those of touching points, and segments with a common
point that are not nearly parallel have the coordinates of this point. -/
structure SegmentCrossings (g : GeoCfg K) (ends : List (V3 K × V3 K)) (C : Nat → Nat → Option K) (I : List (List K)) : Prop where
  length : I.length = ends.length
  lists : ∀ s L, I[s]? = some L → L = (List.range ends.length).filterMap (C s)
  itself : ∀ s, C s s = none
  both : ∀ s t a b x, ends[s]? = some a → ends[t]? = some b → s < t → C s t = some x → ∃ y, C t s = some y ∧ Touching g a b x y
  symm : ∀ s t, C s t = none → C t s = none
  found : ∀ (s t : Nat) a b x y, ends[s]? = some a → ends[t]? = some b → s ≠ t → Oblique g a b → 0 ≤ x → x ≤ 1 → 0 ≤ y → y ≤ 1 →
    pointAt a.1 a.2 x = pointAt b.1 b.2 y → C s t = some x ∧ C t s = some y

end Verif
